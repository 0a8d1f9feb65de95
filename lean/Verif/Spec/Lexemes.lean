import Verif.Spec.Stream

/-!
# Spellings of tokens

Written from the Python language reference, independently of the tokenizer's tables: operators and
delimiters, keywords, string prefixes, string literals, numeric literals.
-/

namespace Verif

/-- The next call reads a lexeme that starts at position `p` (that is what `get_position()` says
after the call); it does not report a change of indentation, which is not a lexeme. -/
def LexemeAt [Uni] (l : Lexer) (p : Nat) : Prop :=
  (getSymbol l).lexer.tokStart = p ∧
    ∀ t l', getSymbol l = .ok t l' → t.kind ≠ .Indent ∧ t.kind ≠ .Dedent

/-- Operators and delimiters, by length. -/
def operators : List (List Char × Kind) := [
  (cs! "+", .PyPlus), (cs! "-", .PyMinus), (cs! "*", .PyMul), (cs! "/", .PyDiv),
  (cs! "%", .PyModulo), (cs! "@", .PyMatrice), (cs! "&", .PyBitAnd), (cs! "|", .PyBitOr),
  (cs! "^", .PyBitXor), (cs! "~", .PyBitInvert), (cs! "<", .PyLess), (cs! ">", .PyGreater),
  (cs! "(", .PyLeftParen), (cs! ")", .PyRightParen), (cs! "[", .PyLeftBracket),
  (cs! "]", .PyRightBracket), (cs! "{", .PyLeftCurly), (cs! "}", .PyRightCurly),
  (cs! ",", .PyComa), (cs! ":", .PyColon), (cs! ".", .PyDot), (cs! ";", .PySemiColon),
  (cs! "=", .PyAssign),
  (cs! "**", .PyPower), (cs! "//", .PyFloorDiv), (cs! "<<", .PyShiftLeft),
  (cs! ">>", .PyShiftRight), (cs! ":=", .PyColonAssign), (cs! "<=", .PyLessEqual),
  (cs! ">=", .PyGreaterEqual), (cs! "==", .PyEqual), (cs! "!=", .PyNotEqual),
  (cs! "<>", .PyNotEqual), (cs! "->", .PyArrow), (cs! "+=", .PyPlusAssign),
  (cs! "-=", .PyMinusAssign), (cs! "*=", .PyMulAssign), (cs! "/=", .PyDivAssign),
  (cs! "%=", .PyModuloAssign), (cs! "@=", .PyMatriceAssign), (cs! "&=", .PyBitAndAssign),
  (cs! "|=", .PyBitOrAssign), (cs! "^=", .PyBitXorAssign),
  (cs! "//=", .PyFloorDivAssign), (cs! ">>=", .PyShiftRightAssign),
  (cs! "<<=", .PyShiftLeftAssign), (cs! "**=", .PyPowerAssign), (cs! "...", .PyElipsis)]

/-- `w` (a token of kind `k`) is the longest entry of the table that the text starts with. -/
def Longest (table : List (List Char × Kind)) (cs w : List Char) (k : Kind) : Prop :=
  (w, k) ∈ table ∧ w <+: cs ∧ ∀ w' k', (w', k') ∈ table → w' <+: cs → w'.length ≤ w.length

/-- The 35 keywords of Python 3.10. -/
def pyKeywords : List (List Char × Kind) := [
  (cs! "False", .PyFalse), (cs! "None", .PyNone), (cs! "True", .PyTrue),
  (cs! "and", .PyAnd), (cs! "as", .PyAs), (cs! "assert", .PyAssert),
  (cs! "async", .PyAsync), (cs! "await", .PyAwait), (cs! "break", .PyBreak),
  (cs! "class", .PyClass), (cs! "continue", .PyContinue), (cs! "def", .PyDef),
  (cs! "del", .PyDel), (cs! "elif", .PyElif), (cs! "else", .PyElse),
  (cs! "except", .PyExcept), (cs! "finally", .PyFinally), (cs! "for", .PyFor),
  (cs! "from", .PyFrom), (cs! "global", .PyGlobal), (cs! "if", .PyIf),
  (cs! "import", .PyImport), (cs! "in", .PyIn), (cs! "is", .PyIs),
  (cs! "lambda", .PyLambda), (cs! "nonlocal", .PyNonLocal), (cs! "not", .PyNot),
  (cs! "or", .PyOr), (cs! "pass", .PyPass), (cs! "raise", .PyRaise),
  (cs! "return", .PyReturn), (cs! "try", .PyTry), (cs! "while", .PyWhile),
  (cs! "with", .PyWith), (cs! "yield", .PyYield)]

/-- The string prefixes the tokenizer supports: `r`, `u`, `f` in any case, and `r` with `f` in any
order and case.  (Python also has the `b` prefixes; the tokenizer does not support them.) -/
def pyPrefixes : List (List Char) := [
  cs! "f", cs! "F", cs! "r", cs! "R", cs! "u", cs! "U",
  cs! "fr", cs! "fR", cs! "Fr", cs! "FR", cs! "rf", cs! "rF", cs! "Rf", cs! "RF"]

/-- `StrLit cs txt`: the text `cs` starts with the string literal `txt` (quotes included).  A NUL
character counts as the end of the source. -/
inductive StrLit : List Char → List Char → Prop
  /-- `''` or `""`, not followed by a third quote -/
  | empty {q rest} : (q = '\'' ∨ q = '"') → rest.head? ≠ some q → StrLit (q :: q :: rest) [q, q]
  /-- one line, up to the first closing quote -/
  | line {q body rest} : (q = '\'' ∨ q = '"') → body ≠ [] → q ∉ body → '\r' ∉ body → '\n' ∉ body →
      '\x00' ∉ body → StrLit (q :: (body ++ q :: rest)) (q :: (body ++ [q]))
  /-- triple quoted, up to the first three closing quotes -/
  | triple {q body rest} : (q = '\'' ∨ q = '"') → '\x00' ∉ body →
      (∀ j, j < body.length → ¬ [q, q, q] <+: (body ++ q :: q :: q :: rest).drop j) →
      StrLit (q :: q :: q :: (body ++ q :: q :: q :: rest)) (q :: q :: q :: (body ++ [q, q, q]))

/-! ### Numbers -/

/-- Zero or more digits of the class `d`, each possibly after one underscore: `(["_"] digit)*`. -/
inductive DigitTail (d : Char → Bool) : List Char → Prop
  | nil : DigitTail d []
  | digit {c cs} : d c = true → DigitTail d cs → DigitTail d (c :: cs)
  | under {c cs} : d c = true → DigitTail d cs → DigitTail d ('_' :: c :: cs)

/-- The digits of each radix, listed. -/
def isDec (c : Char) : Bool := (cs! "0123456789").contains c
def isHex (c : Char) : Bool := (cs! "0123456789abcdefABCDEF").contains c
def isOct (c : Char) : Bool := (cs! "01234567").contains c
def isBin (c : Char) : Bool := (cs! "01").contains c

/-- `digitpart ::= digit (["_"] digit)*` -/
def DigitPart (cs : List Char) : Prop := ∃ c t, cs = c :: t ∧ isDec c = true ∧ DigitTail isDec t

/-- The part of a decimal literal before exponent and imaginary suffix.  Literals that start with
`0` are left out (the tokenizer does not read them correctly). -/
inductive Mantissa : List Char → Prop
  | int {ds} : DigitPart ds → ds.head? ≠ some '0' → Mantissa ds
  | point {ds} : DigitPart ds → ds.head? ≠ some '0' → Mantissa (ds ++ ['.'])
  | frac {ds fs} : DigitPart ds → ds.head? ≠ some '0' → DigitPart fs → Mantissa (ds ++ '.' :: fs)
  | dot {fs} : DigitPart fs → Mantissa ('.' :: fs)

/-- `exponent ::= ("e" | "E") ["+" | "-"] digitpart`; with `lax` the digits may be missing or start
with an underscore. -/
def Exponent (lax : Bool) (cs : List Char) : Prop :=
  ∃ c sign ds, cs = c :: (sign ++ ds) ∧ (c = 'e' ∨ c = 'E') ∧ (sign = [] ∨ sign = ['+'] ∨ sign = ['-']) ∧
    if lax then DigitTail isDec ds else DigitPart ds

/-- Decimal integers, floating point and imaginary literals that do not start with `0`. -/
def DecNumber (lax : Bool) (txt : List Char) : Prop :=
  ∃ m ex im, txt = m ++ (ex ++ im) ∧ Mantissa m ∧ (ex = [] ∨ Exponent lax ex) ∧
    (im = [] ∨ im = ['j'] ∨ im = ['J'])

/-- Integers in another radix: `"0" ("x" | "X") (["_"] hexdigit)+` and so on. -/
def RadixNumber (txt : List Char) : Prop :=
  ∃ x ds, txt = '0' :: x :: ds ∧ ds ≠ [] ∧
    (((x = 'x' ∨ x = 'X') ∧ DigitTail isHex ds) ∨ ((x = 'o' ∨ x = 'O') ∧ DigitTail isOct ds) ∨
     ((x = 'b' ∨ x = 'B') ∧ DigitTail isBin ds))

end Verif
