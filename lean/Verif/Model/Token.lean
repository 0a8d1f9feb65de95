/-!
# Tokens and trivia

Models `src/parser/tokens.rs` and `src/parser/trivias.rs`.
-/

namespace Verif

/-- The token variants that carry only a span and trivia (`tokens.rs` 5-87), followed by the
variants with a payload (`tokens.rs` 88-95).  `Kind` is the variant name alone. -/
inductive Kind
  | PyFalse | PyNone | PyTrue | PyAnd | PyAs | PyAssert | PyAsync | PyAwait
  | PyBreak | PyClass | PyContinue | PyDef | PyDel | PyElif | PyElse | PyExcept
  | PyFinally | PyFor | PyFrom | PyGlobal | PyIf | PyImport | PyIn | PyIs
  | PyLambda | PyNonLocal | PyNot | PyOr | PyPass | PyRaise | PyReturn | PyTry
  | PyWhile | PyWith | PyYield | PyPlus | PyMinus | PyMul | PyPower | PyDiv
  | PyFloorDiv | PyModulo | PyMatrice | PyShiftLeft | PyShiftRight | PyBitAnd | PyBitOr | PyBitXor
  | PyBitInvert | PyColonAssign | PyLess | PyGreater | PyLessEqual | PyGreaterEqual | PyEqual | PyNotEqual
  | PyLeftParen | PyLeftBracket | PyLeftCurly | PyRightParen | PyRightBracket | PyRightCurly | PyComa | PyColon
  | PyDot | PySemiColon | PyAssign | PyArrow | PyPlusAssign | PyMinusAssign | PyMulAssign | PyDivAssign
  | PyFloorDivAssign | PyModuloAssign | PyMatriceAssign | PyBitAndAssign | PyBitOrAssign | PyBitXorAssign | PyShiftLeftAssign | PyShiftRightAssign
  | PyPowerAssign | PyElipsis
  | AtomName | AtomNumber | AtomString | Newline | Indent | Dedent | TypeComment | EOF
  deriving DecidableEq, Repr

/-- `src/parser/trivias.rs` 3-8: the four trivia variants, with their fields in order. -/
inductive Trivia
  | whiteSpace (s e : Nat) (c : Char)
  | newline (s e : Nat) (c1 c2 : Char)
  | lineContinuation (s e : Nat) (c1 c2 c3 : Char)
  | comment (s e : Nat) (txt : List Char)
  deriving DecidableEq, Repr

/-- `Option<Box<Vec<Box<Trivia>>>>`, the trivia payload of every token. -/
abbrev Trivs := Option (List Trivia)

/-- `src/parser/tokens.rs` 4-96.  The variants without text payload (all `Py*`) are grouped
under `sym` and distinguished by their `Kind`; the other variants are as in the source.
Simplification: `String` payloads are `List Char`. -/
inductive Token
  | sym (k : Kind) (s e : Nat) (tr : Trivs)
  | name (s e : Nat) (tr : Trivs) (txt : List Char)
  | number (s e : Nat) (tr : Trivs) (txt : List Char)
  | string (s e : Nat) (tr : Trivs) (txt : List Char) (pfx : Option (List Char))
  | newline (s e : Nat) (tr : Trivs) (c1 c2 : Char)
  | indent (tr : Trivs)
  | dedent (tr : Trivs)
  | typeComment (s e : Nat) (tr : Trivs) (txt : List Char)
  | eof (pos : Nat) (tr : Trivs)
  deriving DecidableEq, Repr

/-- The variant of a token: what `match &*s { Token::PyPlus(..) => .. }` looks at. -/
def Token.kind : Token → Kind
  | .sym k _ _ _ => k
  | .name .. => .AtomName
  | .number .. => .AtomNumber
  | .string .. => .AtomString
  | .newline .. => .Newline
  | .indent _ => .Indent
  | .dedent _ => .Dedent
  | .typeComment .. => .TypeComment
  | .eof .. => .EOF

/-- Start and end position stored in a token; `Indent` and `Dedent` carry none and `EOF` carries
one position, which is both its start and its end. -/
def Token.span? : Token → Option (Nat × Nat)
  | .sym _ s e _ | .name s e _ _ | .number s e _ _ | .string s e _ _ _
  | .newline s e _ _ _ | .typeComment s e _ _ => some (s, e)
  | .indent _ | .dedent _ => none
  | .eof p _ => some (p, p)

/-- Trivia payload of a token. -/
def Token.trivia : Token → Trivs
  | .sym _ _ _ tr | .name _ _ tr _ | .number _ _ tr _ | .string _ _ tr _ _
  | .newline _ _ tr _ _ | .typeComment _ _ tr _ | .eof _ tr | .indent tr | .dedent tr => tr

/-- Span of a trivia. -/
def Trivia.span : Trivia → Nat × Nat
  | .whiteSpace s e _ | .newline s e _ _ | .lineContinuation s e _ _ _ | .comment s e _ => (s, e)

/-- `cs! "abc"` is the list of the characters of a string literal, expanded when elaborated. -/
syntax "cs!" str : term
macro_rules
  | `(cs! $s) => do
    let cs := s.getString.toList.toArray.map Lean.Syntax.mkCharLit
    `([$cs,*])

end Verif
