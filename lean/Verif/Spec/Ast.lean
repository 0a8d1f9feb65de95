import Verif.Spec.Program
import Verif.Spec.Parse

/-!
# Expressions, how they are written, and the trees expected for them

Vocabulary for completeness and round trip: abstract expressions `Ex`, the words they are written with, and the tree
expected for them, without positions and trivia.
-/

namespace Verif

/-- What identifies a token, without position and trivia. -/
inductive Leaf
  | sym (k : Kind)
  | name (w : List Char)
  | num (txt : List Char)
  | str (pfx : Option (List Char)) (txt : List Char)
  deriving DecidableEq

def Leaf.kind : Leaf → Kind
  | .sym k => k
  | .name _ => .AtomName
  | .num _ => .AtomNumber
  | .str _ _ => .AtomString

def Token.leaf : Token → Leaf
  | .sym k _ _ _ => .sym k
  | .name _ _ _ w => .name w
  | .number _ _ _ w => .num w
  | .string _ _ _ w p => .str p w
  | t => .sym t.kind

def Lexeme.leaf : Lexeme → Leaf
  | .name w => .name w
  | .kw _ k | .op _ k => .sym k
  | .num w => .num w
  | .str pfx q body => .str (if pfx = [] then none else some pfx) (q :: (body ++ [q]))

/-- A syntax tree without positions and trivia. -/
inductive Sk
  | leaf (x : Leaf)
  | none
  | seq (l : List Sk)
  | node (tag : Tag) (l : List Sk)

mutual
/-- A tree without its positions and trivia. -/
def Tree.sk : Tree → Sk
  | .tok t => .leaf t.leaf
  | .none => .none
  | .seq l => .seq (skList l)
  | .node tag _ _ l => .node tag (skList l)
def skList : List Tree → List Sk
  | [] => []
  | t :: l => t.sk :: skList l
end

/-- The constants. -/
inductive Const
  | none | true | false | ellipsis

/-- Unary operators. -/
inductive UnOp
  | plus | minus | invert

/-- The binary operators that associate to the left, loosest last. -/
inductive BinOp
  | mul | div | floorDiv | mod | mat | add | sub | shl | shr | bitAnd | bitXor | bitOr | and | or

/-- Comparison operators. -/
inductive CmpOp
  | lt | le | eq | ge | gt | ne | in_ | is | isNot | notIn

/-- Expressions.  `tuple` is anything in round brackets, so a parenthesized expression is a tuple of one
element. -/
inductive Ex
  | name (w : List Char)
  | num (txt : List Char)
  | strs (l : List (List Char × Char × List Char))
  | const (c : Const)
  | tuple (es : List Ex)
  | list (es : List Ex)
  | set (es : List Ex)
  | dict1 (k v : Ex)
  | dict2 (k v k' v' : Ex)
  | attr (e : Ex) (w : List Char)
  | call (e : Ex) (args : List Ex)
  | index (e : Ex) (args : List Ex)
  | await (e : Ex)
  | pow (a b : Ex)
  | un (op : UnOp) (e : Ex)
  | bin (op : BinOp) (a b : Ex)
  | cmp (op : CmpOp) (a b : Ex)
  | not (e : Ex)
  | cond (a c b : Ex)
  | lam (e : Ex)
  | named (a b : Ex)
  | star (e : Ex)
  | slice (a b c : Ex)

def Const.word : Const → Lexeme
  | .none => .kw (cs! "None") .PyNone
  | .true => .kw (cs! "True") .PyTrue
  | .false => .kw (cs! "False") .PyFalse
  | .ellipsis => .op (cs! "...") .PyElipsis

def UnOp.word : UnOp → Lexeme
  | .plus => .op (cs! "+") .PyPlus
  | .minus => .op (cs! "-") .PyMinus
  | .invert => .op (cs! "~") .PyBitInvert

def BinOp.word : BinOp → Lexeme
  | .mul => .op (cs! "*") .PyMul
  | .div => .op (cs! "/") .PyDiv
  | .floorDiv => .op (cs! "//") .PyFloorDiv
  | .mod => .op (cs! "%") .PyModulo
  | .mat => .op (cs! "@") .PyMatrice
  | .add => .op (cs! "+") .PyPlus
  | .sub => .op (cs! "-") .PyMinus
  | .shl => .op (cs! "<<") .PyShiftLeft
  | .shr => .op (cs! ">>") .PyShiftRight
  | .bitAnd => .op (cs! "&") .PyBitAnd
  | .bitXor => .op (cs! "^") .PyBitXor
  | .bitOr => .op (cs! "|") .PyBitOr
  | .and => .kw (cs! "and") .PyAnd
  | .or => .kw (cs! "or") .PyOr

def CmpOp.words : CmpOp → List Lexeme
  | .lt => [.op (cs! "<") .PyLess]
  | .le => [.op (cs! "<=") .PyLessEqual]
  | .eq => [.op (cs! "==") .PyEqual]
  | .ge => [.op (cs! ">=") .PyGreaterEqual]
  | .gt => [.op (cs! ">") .PyGreater]
  | .ne => [.op (cs! "!=") .PyNotEqual]
  | .in_ => [.kw (cs! "in") .PyIn]
  | .is => [.kw (cs! "is") .PyIs]
  | .isNot => [.kw (cs! "is") .PyIs, .kw (cs! "not") .PyNot]
  | .notIn => [.kw (cs! "not") .PyNot, .kw (cs! "in") .PyIn]

mutual
/-- The words of an expression, in order. -/
def Ex.words : Ex → List Lexeme
  | .name w => [.name w]
  | .num w => [.num w]
  | .strs l => l.map fun x => .str x.1 x.2.1 x.2.2
  | .const c => [c.word]
  | .tuple es => .op (cs! "(") .PyLeftParen :: (wordsList es ++ [.op (cs! ")") .PyRightParen])
  | .list es => .op (cs! "[") .PyLeftBracket :: (wordsList es ++ [.op (cs! "]") .PyRightBracket])
  | .set es => .op (cs! "{") .PyLeftCurly :: (wordsList es ++ [.op (cs! "}") .PyRightCurly])
  | .dict1 k v => .op (cs! "{") .PyLeftCurly :: (k.words ++ .op (cs! ":") .PyColon :: (v.words ++ [.op (cs! "}") .PyRightCurly]))
  | .dict2 k v k' v' => .op (cs! "{") .PyLeftCurly :: (k.words ++ .op (cs! ":") .PyColon :: (v.words ++ .op (cs! ",") .PyComa ::
      (k'.words ++ .op (cs! ":") .PyColon :: (v'.words ++ [.op (cs! "}") .PyRightCurly]))))
  | .attr e w => e.words ++ [.op (cs! ".") .PyDot, .name w]
  | .call e args => e.words ++ .op (cs! "(") .PyLeftParen :: (wordsList args ++ [.op (cs! ")") .PyRightParen])
  | .index e args => e.words ++ .op (cs! "[") .PyLeftBracket :: (wordsList args ++ [.op (cs! "]") .PyRightBracket])
  | .await e => .kw (cs! "await") .PyAwait :: e.words
  | .pow a b => a.words ++ .op (cs! "**") .PyPower :: b.words
  | .un op e => op.word :: e.words
  | .bin op a b => a.words ++ op.word :: b.words
  | .cmp op a b => a.words ++ (op.words ++ b.words)
  | .not e => .kw (cs! "not") .PyNot :: e.words
  | .cond a c b => a.words ++ .kw (cs! "if") .PyIf :: (c.words ++ .kw (cs! "else") .PyElse :: b.words)
  | .lam e => .kw (cs! "lambda") .PyLambda :: .op (cs! ":") .PyColon :: e.words
  | .named a b => a.words ++ .op (cs! ":=") .PyColonAssign :: b.words
  | .star e => .op (cs! "*") .PyMul :: e.words
  | .slice a b c => a.words ++ .op (cs! ":") .PyColon :: (b.words ++ .op (cs! ":") .PyColon :: c.words)
/-- The elements of a list, with commas between them. -/
def wordsList : List Ex → List Lexeme
  | [] => []
  | [e] => e.words
  | e :: e' :: es => e.words ++ .op (cs! ",") .PyComa :: wordsList (e' :: es)
end

/-! ### Precedence, as in the Python reference manual (6.17) -/

def BinOp.level : BinOp → Nat
  | .mul | .div | .floorDiv | .mod | .mat => 5
  | .add | .sub => 6
  | .shl | .shr => 7
  | .bitAnd => 8
  | .bitXor => 9
  | .bitOr => 10
  | .and => 13
  | .or => 14

/-- The smaller the level, the tighter the expression binds. -/
def Ex.level : Ex → Nat
  | .name _ | .num _ | .strs _ | .const _ | .tuple _ | .list _ | .set _ | .dict1 .. | .dict2 .. => 0
  | .attr .. | .call .. | .index .. => 1
  | .await _ => 2
  | .pow .. => 3
  | .un .. => 4
  | .bin op _ _ => op.level
  | .cmp .. => 11
  | .not _ => 12
  | .cond .. | .lam _ => 15
  | .named .. => 16
  | .star _ => 17
  | .slice .. => 18

mutual
/-- Well formed: the operands bind at least as tightly as their place demands (a looser operand has to be written
in brackets, that is, as a `tuple` of one element), strings, sets and subscripts have at least one element. -/
def Ex.Wf : Ex → Prop
  | .name _ | .num _ | .const _ => True
  | .strs l => l ≠ []
  | .tuple es | .list es => WfList 17 es
  | .set es => es ≠ [] ∧ WfList 15 es
  | .dict1 k v => k.Wf ∧ v.Wf ∧ k.level ≤ 15 ∧ v.level ≤ 15
  | .dict2 k v k' v' => k.Wf ∧ v.Wf ∧ k'.Wf ∧ v'.Wf ∧ k.level ≤ 15 ∧ v.level ≤ 15 ∧ k'.level ≤ 15 ∧ v'.level ≤ 15
  | .attr e _ => e.Wf ∧ e.level ≤ 1
  | .call e args => e.Wf ∧ e.level ≤ 1 ∧ WfList 15 args
  | .index e args => e.Wf ∧ e.level ≤ 1 ∧ args ≠ [] ∧ WfArgs args
  | .await e => e.Wf ∧ e.level ≤ 1
  | .pow a b => a.Wf ∧ b.Wf ∧ a.level ≤ 2 ∧ b.level ≤ 4
  | .un _ e => e.Wf ∧ e.level ≤ 4
  | .bin op a b => a.Wf ∧ b.Wf ∧ a.level ≤ op.level ∧ b.level < op.level
  | .cmp _ a b => a.Wf ∧ b.Wf ∧ a.level ≤ 11 ∧ b.level ≤ 10
  | .not e => e.Wf ∧ e.level ≤ 12
  | .cond a c b => a.Wf ∧ c.Wf ∧ b.Wf ∧ a.level ≤ 14 ∧ c.level ≤ 14 ∧ b.level ≤ 15
  | .lam e => e.Wf ∧ e.level ≤ 15
  | .named a b => a.Wf ∧ b.Wf ∧ a.level ≤ 15 ∧ b.level ≤ 15
  | .star e => e.Wf ∧ e.level ≤ 10
  | .slice a b c => a.Wf ∧ b.Wf ∧ c.Wf ∧ a.level ≤ 15 ∧ b.level ≤ 15 ∧ c.level ≤ 15
/-- All well formed, of level at most `n`. -/
def WfList (n : Nat) : List Ex → Prop
  | [] => True
  | e :: es => e.Wf ∧ e.level ≤ n ∧ WfList n es
/-- Subscripts: expressions and slices. -/
def WfArgs : List Ex → Prop
  | [] => True
  | e :: es => e.Wf ∧ (e.level ≤ 15 ∨ e.level = 18) ∧ WfArgs es
end

/-! ### The tree expected -/

def Lexeme.sk (x : Lexeme) : Sk := .leaf x.leaf

/-- As many commas as there are between `n` elements. -/
def commas (n : Nat) : Sk := .seq (List.replicate (n - 1) (.leaf (.sym .PyComa)))

def Const.tag : Const → Tag
  | .none => .AtomNone
  | .true => .AtomTrue
  | .false => .AtomFalse
  | .ellipsis => .AtomElipsis

def UnOp.tag : UnOp → Tag
  | .plus => .UnaryPlus
  | .minus => .UnaryMinus
  | .invert => .UnaryInvert

def BinOp.tag : BinOp → Tag
  | .mul => .MulTerm
  | .div => .DivTerm
  | .floorDiv => .FloorDivTerm
  | .mod => .ModuloTerm
  | .mat => .MatriceTerm
  | .add => .PlusArithExpr
  | .sub => .MinusArithExpr
  | .shl => .ShiftLeftExpr
  | .shr => .ShiftRightExpr
  | .bitAnd => .AndExpr
  | .bitXor => .XorExpr
  | .bitOr => .Expr
  | .and => .AndTest
  | .or => .OrTest

def CmpOp.tag : CmpOp → Tag
  | .lt => .LessComparison
  | .le => .LessEqualComparison
  | .eq => .EqualComparison
  | .ge => .GreaterEqualComparison
  | .gt => .GreaterComparison
  | .ne => .NotEqualComparison
  | .in_ => .InComparison
  | .is => .IsComparison
  | .isNot => .IsNotComparison
  | .notIn => .NotInComparison

/-- An atom with its trailers. -/
def atomWith (b : Sk) : List Sk → Sk
  | [] => b
  | trs => .node .AtomExpr [.none, b, .seq trs]

/-- A punctuation mark or keyword. -/
def kd (k : Kind) : Sk := .leaf (.sym k)

/-- A list of elements in brackets or arguments: absent if empty. -/
def listSk (tag : Tag) : List Sk → Sk
  | [] => .none
  | l => .node tag [.seq l.reverse, commas l.length]

/-- An argument or subscript. -/
def subSk : Ex → Sk → Sk
  | .slice .., x => x
  | _, x => .node .Subscript [x, .none, .none, .none, .none]

mutual
/-- The tree of an expression. -/
def Ex.sk : Ex → Sk
  | .name w => .node .AtomName [.leaf (.name w)]
  | .num w => .node .AtomNumber [.leaf (.num w)]
  | .strs l => .node .AtomString [.seq (l.map fun x => (Lexeme.str x.1 x.2.1 x.2.2).sk)]
  | .const c => .node c.tag [c.word.sk]
  | .tuple es => .node .AtomTuple [kd .PyLeftParen, listSk .TestListComp (sksOf es), kd .PyRightParen]
  | .list es => .node .AtomList [kd .PyLeftBracket, listSk .TestListComp (sksOf es), kd .PyRightBracket]
  | .set es => .node .AtomSet [kd .PyLeftCurly, listSk .SetContainer (sksOf es), kd .PyRightCurly]
  | .dict1 k v => .node .AtomDictionary [kd .PyLeftCurly,
      listSk .DictionaryContainer [.node .DictionaryEntry [k.sk, kd .PyColon, v.sk]], kd .PyRightCurly]
  | .dict2 k v k' v' => .node .AtomDictionary [kd .PyLeftCurly,
      listSk .DictionaryContainer [.node .DictionaryEntry [k.sk, kd .PyColon, v.sk],
        .node .DictionaryEntry [k'.sk, kd .PyColon, v'.sk]], kd .PyRightCurly]
  | .attr e w => atomWith e.atom (e.trailers ++ [.node .DotNameTrailer [kd .PyDot, .leaf (.name w)]])
  | .call e args => atomWith e.atom (e.trailers ++
      [.node .CallTrailer [kd .PyLeftParen, listSk .SubscriptList (subsOf args), kd .PyRightParen]])
  | .index e args => atomWith e.atom (e.trailers ++
      [.node .IndexTrailer [kd .PyLeftBracket, listSk .SubscriptList (subsOf args), kd .PyRightBracket]])
  | .await e => .node .AtomExpr [kd .PyAwait, e.atom, .seq e.trailers]
  | .pow a b => .node .PowerExpr [a.sk, kd .PyPower, b.sk]
  | .un op e => .node op.tag [op.word.sk, e.sk]
  | .bin op a b => .node op.tag [a.sk, op.word.sk, b.sk]
  | .cmp op a b => .node op.tag (a.sk :: (op.words.map Lexeme.sk ++ [b.sk]))
  | .not e => .node .NotTest [kd .PyNot, e.sk]
  | .cond a c b => .node .Test [a.sk, kd .PyIf, c.sk, kd .PyElse, b.sk]
  | .lam e => .node .Lambda [kd .PyLambda, .none, kd .PyColon, e.sk]
  | .named a b => .node .NamedExpr [a.sk, kd .PyColonAssign, b.sk]
  | .star e => .node .StarExpr [kd .PyMul, e.sk]
  | .slice a b c => .node .Subscript [a.sk, kd .PyColon, b.sk, kd .PyColon, c.sk]
/-- The atom a chain of trailers starts with. -/
def Ex.atom : Ex → Sk
  | .attr e _ | .call e _ | .index e _ => e.atom
  | .name w => .node .AtomName [.leaf (.name w)]
  | .num w => .node .AtomNumber [.leaf (.num w)]
  | .strs l => .node .AtomString [.seq (l.map fun x => (Lexeme.str x.1 x.2.1 x.2.2).sk)]
  | .const c => .node c.tag [c.word.sk]
  | .tuple es => .node .AtomTuple [kd .PyLeftParen, listSk .TestListComp (sksOf es), kd .PyRightParen]
  | .list es => .node .AtomList [kd .PyLeftBracket, listSk .TestListComp (sksOf es), kd .PyRightBracket]
  | .set es => .node .AtomSet [kd .PyLeftCurly, listSk .SetContainer (sksOf es), kd .PyRightCurly]
  | .dict1 k v => .node .AtomDictionary [kd .PyLeftCurly,
      listSk .DictionaryContainer [.node .DictionaryEntry [k.sk, kd .PyColon, v.sk]], kd .PyRightCurly]
  | .dict2 k v k' v' => .node .AtomDictionary [kd .PyLeftCurly,
      listSk .DictionaryContainer [.node .DictionaryEntry [k.sk, kd .PyColon, v.sk],
        .node .DictionaryEntry [k'.sk, kd .PyColon, v'.sk]], kd .PyRightCurly]
  | _ => .none
/-- Its trailers. -/
def Ex.trailers : Ex → List Sk
  | .attr e w => e.trailers ++ [.node .DotNameTrailer [kd .PyDot, .leaf (.name w)]]
  | .call e args => e.trailers ++
      [.node .CallTrailer [kd .PyLeftParen, listSk .SubscriptList (subsOf args), kd .PyRightParen]]
  | .index e args => e.trailers ++
      [.node .IndexTrailer [kd .PyLeftBracket, listSk .SubscriptList (subsOf args), kd .PyRightBracket]]
  | _ => []
def sksOf : List Ex → List Sk
  | [] => []
  | e :: es => e.sk :: sksOf es
def subsOf : List Ex → List Sk
  | [] => []
  | e :: es => subSk e e.sk :: subsOf es
end

/-! ### Feeding words to the parser -/

/-- `Fed c xs c'`: the next tokens of the parser `c` are the words `xs`, after which it is in the state `c'`. -/
inductive Fed [Uni] : PSt → List Lexeme → PSt → Prop
  | nil {c} : Fed c [] c
  | cons {c x t xs c'} : c.symbol = .ok t → t.leaf = x.leaf → Fed c.advance xs c' → Fed c (x :: xs) c'

/-- The level at which a token continues the expression in front of it. -/
def Kind.continues : Kind → Option Nat
  | .AtomString => some 0
  | .PyLeftParen | .PyLeftBracket | .PyDot => some 1
  | .PyPower => some 3
  | .PyMul | .PyDiv | .PyFloorDiv | .PyModulo | .PyMatrice => some 5
  | .PyPlus | .PyMinus => some 6
  | .PyShiftLeft | .PyShiftRight => some 7
  | .PyBitAnd => some 8
  | .PyBitXor => some 9
  | .PyBitOr => some 10
  | .PyLess | .PyGreater | .PyLessEqual | .PyGreaterEqual | .PyEqual | .PyNotEqual | .PyIn | .PyIs | .PyNot => some 11
  | .PyAnd => some 13
  | .PyOr => some 14
  | .PyIf => some 15
  | .PyColonAssign => some 16
  | _ => none

/-- The current symbol is a token that does not continue an expression of level `n` or tighter. -/
def EndsExpr (n : Nat) (c : PSt) : Prop := ∃ u, c.symbol = .ok u ∧ ∀ m, u.kind.continues = some m → n < m

end Verif
