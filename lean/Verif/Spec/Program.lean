import Verif.Spec.Gaps

/-!
# Texts written lexeme by lexeme and line by line, and the tokens expected for them
-/

namespace Verif

/-- One word of a program. -/
inductive Lexeme
  | name (w : List Char)
  | kw (w : List Char) (k : Kind)
  | op (w : List Char) (k : Kind)
  | num (txt : List Char)
  | str (pfx : List Char) (q : Char) (body : List Char)

/-- How it is written. -/
def Lexeme.text : Lexeme → List Char
  | .name w | .kw w _ | .op w _ | .num w => w
  | .str pfx q body => pfx ++ q :: (body ++ [q])

/-- What may be written: identifiers that are no keywords, the keywords and operators of the tables,
the numbers of C14 and one-line strings without their own quote inside. -/
def Lexeme.Ok [Uni] : Lexeme → Prop
  | .name w => (∃ c r, w = c :: r ∧ isNameStart c = true) ∧ (∀ c ∈ w, isNameChar c = true) ∧
      ∀ k, (w, k) ∉ pyKeywords
  | .kw w k => (w, k) ∈ pyKeywords
  | .op w k => (w, k) ∈ operators
  | .num txt => DecNumber false txt ∨ RadixNumber txt
  | .str pfx q body => (pfx = [] ∨ pfx ∈ pyPrefixes) ∧ (q = '\'' ∨ q = '"') ∧
      q ∉ body ∧ '\r' ∉ body ∧ '\n' ∉ body ∧ '\x00' ∉ body

/-- The token expected for it. -/
def Lexeme.token (s : Nat) (tr : Trivs) : Lexeme → Token
  | .name w => .name s (s + w.length) tr w
  | .kw w k | .op w k => .sym k s (s + w.length) tr
  | .num txt => .number s (s + txt.length) tr txt
  | .str pfx q body => .string s (s + (pfx.length + (body.length + 2))) tr (q :: (body ++ [q]))
      (if pfx = [] then none else some pfx)

/-- Lexemes with one space between them. -/
def spacedText : List Lexeme → List Char
  | [] => []
  | [x] => x.text
  | x :: y :: r => x.text ++ ' ' :: spacedText (y :: r)

/-- The tokens expected for them, the first one starting at `p` with the trivia `tr`. -/
def spacedTokens : Nat → Trivs → List Lexeme → List Token
  | _, _, [] => []
  | p, tr, x :: r => x.token p tr ::
      spacedTokens (p + x.text.length + 1)
        (some [.whiteSpace (p + x.text.length) (p + x.text.length + 1) ' ']) r

/-- A logical line: leading blanks and words. -/
structure Line where
  blanks : List Char
  words : List Lexeme

def Line.Ok [Uni] (ln : Line) : Prop :=
  (∀ c ∈ ln.blanks, c = ' ' ∨ c = '\t') ∧ ln.words ≠ [] ∧ (∀ x ∈ ln.words, x.Ok) ∧
    brRun [] (spacedTokens 0 none ln.words) = some []

def Line.text (ln : Line) : List Char := ln.blanks ++ (spacedText ln.words ++ ['\n'])

/-- Column after blanks; tabs go to the next multiple of 4. -/
def blankColumn (col : Nat) : List Char → Nat
  | [] => col
  | c :: cs => blankColumn (if c = '\t' then (col / 4 + 1) * 4 else col + 1) cs

def Line.column (ln : Line) : Nat := blankColumn 0 ln.blanks

/-- The layout of a sequence of lines, as in the Python reference: `st` holds the columns of the open
blocks, innermost first.  A deeper line opens a block, a line further left closes all deeper blocks
and must be at the column of an open block (otherwise: `none`); at the end all blocks are closed. -/
def pyLayout : Nat → List Nat → List Line → Option (List Token)
  | p, st, [] => some (List.replicate (st.length - 1) (.dedent none) ++ [.eof p none])
  | p, st, ln :: r =>
    let col := ln.column
    let s := p + ln.blanks.length
    let e := s + (spacedText ln.words).length
    let line := spacedTokens s none ln.words ++ [.newline e (e + 1) none '\n' ' ']
    if col > st.headD 0 then (pyLayout (e + 1) (col :: st) r).map (.indent none :: line ++ ·)
    else if col ∈ st then
      (pyLayout (e + 1) (st.filter (· ≤ col)) r).map
        (List.replicate (st.filter (· > col)).length (.dedent none) ++ line ++ ·)
    else none

/-- The same without the demand that a line further left is at the column of an open block: it closes
the deeper blocks and then belongs to the innermost block that is left. -/
def lenientLayout : Nat → List Nat → List Line → List Token
  | p, st, [] => List.replicate (st.length - 1) (.dedent none) ++ [.eof p none]
  | p, st, ln :: r =>
    let col := ln.column
    let s := p + ln.blanks.length
    let e := s + (spacedText ln.words).length
    let line := spacedTokens s none ln.words ++ [.newline e (e + 1) none '\n' ' ']
    if col > st.headD 0 then .indent none :: line ++ lenientLayout (e + 1) (col :: st) r
    else List.replicate (st.filter (· > col)).length (.dedent none) ++ line ++
      lenientLayout (e + 1) (st.filter (· ≤ col)) r

/-- The text of a sequence of lines. -/
def linesText (lns : List Line) : List Char := (lns.map Line.text).flatten

end Verif
