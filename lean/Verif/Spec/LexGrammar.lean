import Verif.Spec.Gaps
import Verif.Spec.Erase

/-!
# A lexical grammar

How the symbols of a text follow one another, as a relation between places in the text, written down from the Python
language reference and changed only where the program differs; each such place has a comment starting with "differs".
Nothing here refers to the tokenizer: a symbol is a token with neither position nor trivia (`Token.bare`).  The tables
`operators`, `pyKeywords` and `pyPrefixes`, string literals (`StrLit`) and runs of digits (`DigitTail`) are in
`Spec/Lexemes.lean`, `RestOfLine` in `Spec/Gaps.lean` and the matching of brackets (`brStep`) in `Spec/Stream.lean`.
-/

namespace Verif
namespace LG

/-- A place in a text. -/
structure Place where
  /-- at the start of a line -/
  fresh : Bool
  /-- the closing brackets that are expected, innermost first -/
  closers : List Char
  /-- the columns of the enclosing blocks, innermost first -/
  levels : List Nat
  /-- 1: an `Indent` is to be reported; -n: n `Dedent`s are -/
  owed : Int
  /-- the text from here on -/
  text : List Char

/-- The start of a text. -/
def Place.start (src : List Char) : Place := ⟨true, [], [0], 0, src⟩

/-- The text does not go on with a character that satisfies `P`. -/
def Stops (P : Char → Prop) (cs : List Char) : Prop := ∀ c, cs.head? = some c → ¬ P c

/-- The end of the text.  (differs: a NUL character ends the text.) -/
def AtEnd (cs : List Char) : Prop := cs = [] ∨ cs.head? = some '\x00'

/-! ### Lines -/

/-- Column of the first character after the blanks `cs` starts with, if `cs` is at the column `col`, and the text from
that character on.  Tabs go to the next multiple of 4. -/
def margin (col : Nat) : List Char → Nat × List Char
  | ' ' :: cs => margin (col + 1) cs
  | '\t' :: cs => margin ((col / 4 + 1) * 4) cs
  | cs => (col, cs)

/-- A line that has no indentation: it is blank or a comment.  (differs: also a line that starts with a backslash.) -/
def NoCode (cs : List Char) : Prop :=
  cs.head? = some '#' ∨ cs.head? = some '\r' ∨ cs.head? = some '\n' ∨ cs.head? = some '\\'

/-- `Enter p b q`: the indentation of a line is looked at; nothing happens in the middle of a line.  `b`: the line is one
without code, so that its line end is skipped. -/
inductive Enter (p : Place) : Bool → Place → Prop
  | mid : p.fresh = false → Enter p false p
  | noCode {col cs} : p.fresh = true → margin 0 p.text = (col, cs) → NoCode cs →
      Enter p true { p with fresh := false, text := cs }
  | brackets {col cs} : p.fresh = true → margin 0 p.text = (col, cs) → ¬ NoCode cs → p.closers ≠ [] →
      Enter p false { p with fresh := false, text := cs }
  | same {col cs} : p.fresh = true → margin 0 p.text = (col, cs) → ¬ NoCode cs → p.closers = [] →
      p.levels.head? = some col → Enter p false { p with fresh := false, text := cs }
  | deeper {col cs top} : p.fresh = true → margin 0 p.text = (col, cs) → ¬ NoCode cs → p.closers = [] →
      p.levels.head? = some top → top < col →
      Enter p false { p with fresh := false, text := cs, levels := col :: p.levels, owed := 1 }
  /-- differs: `col` may lie between two levels -/
  | shallower {col cs out keep top} : p.fresh = true → margin 0 p.text = (col, cs) → ¬ NoCode cs → p.closers = [] →
      p.levels = out ++ keep → out ≠ [] → (∀ x ∈ out, col < x) → keep.head? = some top → top ≤ col →
      Enter p false { p with fresh := false, text := cs, levels := keep, owed := - (out.length : Int) }

/-- `EndsLine cs r`: a line end, after which the text goes on with `r`. -/
inductive EndsLine : List Char → List Char → Prop
  | lf {cs} : EndsLine ('\n' :: cs) cs
  | cr {cs} : cs.head? ≠ some '\n' → EndsLine ('\r' :: cs) cs
  /-- differs: the character after CR LF is lost -/
  | crlf {cs} : EndsLine ('\r' :: '\n' :: cs) (cs.drop 1)

/-- `Skips lines cs r`: from `cs` to `r` there are blanks, comments and continuations of the line, and if `lines` also
line ends. -/
inductive Skips (lines : Bool) : List Char → List Char → Prop
  | done {cs} : Skips lines cs cs
  | blank {c cs r} : c = ' ' ∨ c = '\t' → Skips lines cs r → Skips lines (c :: cs) r
  | comment {cs txt rest r} : RestOfLine cs txt rest → txt.head? = some '#' → ¬ cs! "# type:" <+: txt →
      Skips lines rest r → Skips lines cs r
  | continuation {eol cs r} : eol = cs! "\n" ∨ eol = cs! "\r\n" ∨ (eol = cs! "\r" ∧ cs.head? ≠ some '\n') →
      Skips lines cs r → Skips lines ('\\' :: (eol ++ cs)) r
  | line {cs cs' r} : lines = true → EndsLine cs cs' → Skips lines cs' r → Skips lines cs r

/-! ### Numbers -/

/-- `Digits d cs txt r`: the longest run of digits; an underscore is followed by a digit. -/
def Digits (d : Char → Bool) (cs txt r : List Char) : Prop :=
  cs = txt ++ r ∧ DigitTail d txt ∧ Stops (fun c => d c = true ∨ c = '_') r

inductive Fraction : List Char → List Char → List Char → Prop
  | no {cs} : Stops (· = '.') cs → Fraction cs [] cs
  | yes {cs txt r} : Stops (· = '_') cs → Digits isDec cs txt r → Fraction ('.' :: cs) ('.' :: txt) r

/-- differs: the digits may be missing or start with an underscore -/
inductive Power : List Char → List Char → List Char → Prop
  | no {cs} : Stops (fun c => c = 'e' ∨ c = 'E') cs → Power cs [] cs
  | plain {c cs txt r} : c = 'e' ∨ c = 'E' → Stops (fun s => s = '+' ∨ s = '-') cs → Digits isDec cs txt r →
      Power (c :: cs) (c :: txt) r
  | signed {c s cs txt r} : c = 'e' ∨ c = 'E' → s = '+' ∨ s = '-' → Digits isDec cs txt r →
      Power (c :: s :: cs) (c :: s :: txt) r

inductive Suffix : List Char → List Char → List Char → Prop
  | no {cs} : Stops (fun c => c = 'j' ∨ c = 'J') cs → Suffix cs [] cs
  | yes {c cs} : c = 'j' ∨ c = 'J' → Suffix (c :: cs) [c] cs

/-- Digits of the radix that a letter after `0` selects. -/
inductive Radix : Char → (Char → Bool) → Prop
  | hex {x} : x = 'x' ∨ x = 'X' → Radix x isHex
  | oct {x} : x = 'o' ∨ x = 'O' → Radix x isOct
  | bin {x} : x = 'b' ∨ x = 'B' → Radix x isBin

/-- `Number cs txt r`: the text starts with the number `txt` and goes on with `r`. -/
inductive Number : List Char → List Char → List Char → Prop
  | decimal {c cs ds a fr b ex x im r} : isDec c = true → c ≠ '0' → Digits isDec cs ds a → Fraction a fr b →
      Power b ex x → Suffix x im r → Number (c :: cs) (c :: ds ++ fr ++ ex ++ im) r
  | point {c cs ds a ex x im r} : isDec c = true → Digits isDec cs ds a → Power a ex x → Suffix x im r →
      Number ('.' :: c :: cs) ('.' :: c :: ds ++ ex ++ im) r
  | radix {x d cs ds r} : Radix x d → Digits d cs ds r → ds ≠ [] → Number ('0' :: x :: cs) ('0' :: x :: ds) r
  /-- differs: the character after a leading `0` is part of the number whatever it is (NUL, if there is none); the digits
  after it have no underscores -/
  | zero {c cs ds a fr b ex x im r} : cs.headD '\x00' = c → (∀ d, ¬ Radix c d) → cs.drop 1 = ds ++ a →
      (∀ y ∈ ds, isDec y = true) → Stops (fun y => isDec y = true) a → Fraction a fr b → Power b ex x → Suffix x im r →
      ((∀ y ∈ ds, y = '0') ∨ fr ≠ [] ∨ ex ≠ [] ∨ im ≠ []) →
      Number ('0' :: cs) ('0' :: c :: ds ++ fr ++ ex ++ im) r

/-! ### Symbols -/

/-- `Word st cs t st' r`: the text `cs` starts with the symbol `t` and goes on with `r`; `st` and `st'` are the closing
brackets that are expected before and after. -/
inductive Word [Uni] (st : List Char) : List Char → Token → List Char → List Char → Prop
  | eof {cs} : AtEnd cs → Word st cs (.eof 0 none) st cs
  | typeComment {cs txt rest} : RestOfLine cs txt rest → cs! "# type:" <+: txt →
      Word st cs (.typeComment 0 0 none txt) st rest
  | operator {w k st' rest} : Longest operators (w ++ rest) w k → ¬ (w = ['.'] ∧ ∃ d r, rest = d :: r ∧ isDec d = true) →
      brStep st k = some st' → Word st (w ++ rest) (.sym k 0 0 none) st' rest
  | keyword {w k rest} : (w, k) ∈ pyKeywords → Stops (fun c => isNameChar c = true) rest →
      Word st (w ++ rest) (.sym k 0 0 none) st rest
  | name {c w rest} : isNameStart c = true → (∀ c ∈ w, isNameChar c = true) → Stops (fun c => isNameChar c = true) rest →
      (∀ k, (c :: w, k) ∉ pyKeywords) → ¬ (c :: w ∈ pyPrefixes ∧ (rest.head? = some '\'' ∨ rest.head? = some '"')) →
      Word st (c :: w ++ rest) (.name 0 0 none (c :: w)) st rest
  | string {cs txt} : StrLit cs txt → Word st cs (.string 0 0 none txt none) st (cs.drop txt.length)
  | prefixed {pfx cs txt} : pfx ∈ pyPrefixes → StrLit cs txt →
      Word st (pfx ++ cs) (.string 0 0 none txt (some pfx)) st (cs.drop txt.length)
  | number {cs txt r} : Number cs txt r → Word st cs (.number 0 0 none txt) st r

/-- `Next p t q`: the next symbol at the place `p` is `t`, and `q` is the place after it. -/
inductive Next [Uni] (p : Place) : Token → Place → Prop
  | dedent {b q} : Enter p b q → q.owed < 0 → Next p (.dedent none) { q with owed := q.owed + 1 }
  | indent {b q} : Enter p b q → q.owed > 0 → Next p (.indent none) { q with owed := q.owed - 1 }
  | newline {q cs r} : Enter p false q → q.owed = 0 → q.closers = [] → Skips false q.text cs → EndsLine cs r →
      Next p (.newline 0 0 none ' ' ' ') { q with fresh := true, text := r }
  | word {b q cs t st r} : Enter p b q → q.owed = 0 → Skips (b || !q.closers.isEmpty) q.text cs → Word q.closers cs t st r →
      Next p t { q with closers := st, text := r }

/-- `Run p ts q`: the next symbols at `p` are `ts`, and `q` is the place after them. -/
inductive Run [Uni] : Place → List Token → Place → Prop
  | nil {p} : Run p [] p
  | cons {p t q ts r} : Next p t q → Run q ts r → Run p (t :: ts) r

end LG

/-- The place a tokenizer is at: what of its state is not the position, the start of the last symbol or a constant. -/
def Lexer.place (l : Lexer) : LG.Place := ⟨l.bol, l.parens, l.indents, l.pending, l.buf.chars.drop l.buf.index⟩

end Verif
