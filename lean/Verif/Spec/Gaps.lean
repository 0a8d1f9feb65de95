import Verif.Spec.Lexemes

/-!
# Where the tokenizer stands, what it skips, and how tokens are spelled
-/

namespace Verif

/-- The tokenizer is in the middle of a line: the previous call returned a token other than `Newline`
and `Dedent`. -/
def MidLine [Uni] (src : List Char) (l : Lexer) : Prop :=
  ∃ l0 t, Reach src l0 ∧ getSymbol l0 = .ok t l ∧ t.kind ≠ .Newline ∧ t.kind ≠ .Dedent

/-- The tokenizer is at the start of a line: no call so far, or the previous call returned `Newline`. -/
def LineStart [Uni] (src : List Char) (l : Lexer) : Prop :=
  l = Lexer.new src ∨ ∃ l0 t, Reach src l0 ∧ getSymbol l0 = .ok t l ∧ t.kind = .Newline

/-- The tokenizer with `n` more characters of the text behind it. -/
def Lexer.skipChars (n : Nat) (l : Lexer) : Lexer :=
  { l with buf := { l.buf with index := l.buf.index + n } }

/-- The token with one more trivia in front (trivia are stored last one first). -/
def Token.addFirst (x : Trivia) : Token → Token
  | .sym k s e tr => .sym k s e (some (tr.getD [] ++ [x]))
  | .name s e tr txt => .name s e (some (tr.getD [] ++ [x])) txt
  | .number s e tr txt => .number s e (some (tr.getD [] ++ [x])) txt
  | .string s e tr txt pfx => .string s e (some (tr.getD [] ++ [x])) txt pfx
  | .newline s e tr c1 c2 => .newline s e (some (tr.getD [] ++ [x])) c1 c2
  | .indent tr => .indent (some (tr.getD [] ++ [x]))
  | .dedent tr => .dedent (some (tr.getD [] ++ [x]))
  | .typeComment s e tr txt => .typeComment s e (some (tr.getD [] ++ [x])) txt
  | .eof p tr => .eof p (some (tr.getD [] ++ [x]))

/-- The same result with one more trivia in front of the token. -/
def LexRes.addFirst (x : Trivia) : LexRes Token → LexRes Token
  | .ok t l => .ok (t.addFirst x) l
  | .err e l => .err e l

/-- The rest of the line: `cs = txt ++ rest`, `txt` has no line end (and no NUL) and `rest` is empty
or starts with one. -/
def RestOfLine (cs txt rest : List Char) : Prop :=
  cs = txt ++ rest ∧ (∀ c ∈ txt, c ≠ '\r' ∧ c ≠ '\n' ∧ c ≠ '\x00') ∧
    ∀ c, rest.head? = some c → c = '\r' ∨ c = '\n' ∨ c = '\x00'

/-- `Covers src b p ts q`: between the positions `p` and `q` of the text lie exactly the trivia `ts`,
one directly after the other, except for blanks (spaces and tabs) at the start of a line; `b` says
whether `p` is at the start of a line. -/
inductive Covers (src : List Char) : Bool → Nat → List Trivia → Nat → Prop
  | nil {b p} : Covers src b p [] p
  | blank {p c ts q} : src[p]? = some c → c = ' ' ∨ c = '\t' → Covers src true (p + 1) ts q →
      Covers src true p ts q
  | item {b p e x ts q} : x.span = (p, e) → p < e → Covers src false e ts q →
      Covers src b p (x :: ts) q
  | line {b p e c1 c2 ts q} : p < e → Covers src true e ts q →
      Covers src b p (.newline p e c1 c2 :: ts) q

/-- `Tiles p ts q`: the spans of `ts`, in order, are adjacent and reach from `p` to `q`. -/
inductive Tiles : Nat → List Trivia → Nat → Prop
  | nil {p} : Tiles p [] p
  | cons {p e x ts q} : x.span = (p, e) → p < e → Tiles e ts q → Tiles p (x :: ts) q

def Trivia.isNewline : Trivia → Bool
  | .newline .. => true
  | _ => false

/-- The trivia of a token in source order. -/
def Token.triviaInOrder (t : Token) : List Trivia := (t.trivia.getD []).reverse

/-- The text a trivia stands for. -/
def Trivia.text : Trivia → List Char
  | .whiteSpace s e c => List.replicate (e - s) c
  | .newline _ _ c1 c2 => [c1, c2]
  | .lineContinuation _ _ c1 c2 c3 => if c3 = ' ' then [c1, c2] else [c1, c2, c3]
  | .comment _ _ txt => txt

/-- `Spells t w`: the token `t` is written `w`. -/
inductive Spells : Token → List Char → Prop
  | op {k s e tr w} : (w, k) ∈ operators → Spells (.sym k s e tr) w
  | kw {k s e tr w} : (w, k) ∈ pyKeywords → Spells (.sym k s e tr) w
  | name {s e tr txt} : Spells (.name s e tr txt) txt
  | number {s e tr txt} : Spells (.number s e tr txt) txt
  | string {s e tr txt} : Spells (.string s e tr txt none) txt
  | pstring {s e tr txt pfx} : Spells (.string s e tr txt (some pfx)) (pfx ++ txt)
  | typeComment {s e tr txt} : Spells (.typeComment s e tr txt) txt
  | newline1 {s e tr c} : c = '\r' ∨ c = '\n' → Spells (.newline s e tr c ' ') [c]
  | newline2 {s e tr} : Spells (.newline s e tr '\r' '\n') ['\r', '\n']
  | eof {p tr} : Spells (.eof p tr) []

/-- `Written ts w`: `w` is the tokens `ts` written one after the other, each after its trivia. -/
inductive Written : List Token → List Char → Prop
  | nil : Written [] []
  | cons {t ts w v} : Spells t w → Written ts v →
      Written (t :: ts) ((t.triviaInOrder.map Trivia.text).flatten ++ w ++ v)

end Verif
