import Verif.Model.Token

/-!
# Syntax trees

Models `src/parser/nodes.rs`.
-/

namespace Verif

/-- The variants of `ASTNode`, `nodes.rs` 5-134, in source order. -/
inductive Tag
  | NamedExpr | Test | Lambda | OrTest | AndTest | NotTest
  | LessComparison | LessEqualComparison | EqualComparison | GreaterComparison | GreaterEqualComparison | NotEqualComparison
  | InComparison | IsComparison | NotInComparison | IsNotComparison | StarExpr | Expr
  | XorExpr | AndExpr | ShiftLeftExpr | ShiftRightExpr | PlusArithExpr | MinusArithExpr
  | MulTerm | DivTerm | FloorDivTerm | ModuloTerm | MatriceTerm | UnaryPlus
  | UnaryMinus | UnaryInvert | PowerExpr | AtomExpr | AtomName | AtomNumber
  | AtomString | AtomElipsis | AtomNone | AtomTrue | AtomFalse | AtomTuple
  | AtomList | AtomDictionary | AtomSet | TestListComp | CallTrailer | IndexTrailer
  | DotNameTrailer | SubscriptList | Subscript | ExprList | TestList | DictionaryContainer
  | DictionaryEntry | SetContainer | MulSet | PowerDictionary | ClassDef | ArgList
  | Argument | SyncCompForComprehension | CompForComprehension | CompIfComprehension | YieldExpr | YieldFromExpr
  | FuncBodySuite | FuncTypeInput | FuncType | TypeList | TestListStarExpr | SimpleStmtList
  | PlusAssignStmt | MinusAssignStmt | MulAssignStmt | DivAssignStmt | FloorDivAssignStmt | ModuloAssignStmt
  | MatriceAssignStmt | PowerAssignStmt | ShiftLeftAssignStmt | ShiftRightAssignStmt | BitOrAssignStmt | BitXorAssignStmt
  | BitAndAssignStmt | AnnAssignStmt | AssignmentStmt | DelStmt | PassStmt | BreakStmt
  | ContinueStmt | ReturnStmt | RaiseStmt | ImportNameStmt | ImportFromStmt | ImportAsName
  | DottedAsNameStmt | ImportAsNamesStmt | DottedAsNamesStmt | DottedNameStmt | GlobalStmt | NonLocalStmt
  | AssertStmt | AsyncStmt | IfStmt | ElifStmt | ElseStmt | WhileStmt
  | ForStmt | TryStmt | FinallyStmt | WithStmt | WithItem | ExceptClauseStmt
  | ExceptStmt | SuiteStmt | Decorator | Decorators | Decorated | FuncDef
  | Parameter | TypedArgsList | TFPAssign | TFPDef | VarArgsList | VFPAssign
  | VFPDef | SingleInput | FileInput | EvalInput
  deriving DecidableEq, Repr

/-- An `ASTNode` value.  `node tag s e fields` is the variant `tag` with its two `u32` fields `s`
and `e` and its other fields in declaration order.  A `Box<Token>` field is `tok`, `None` is
`none`, `Some(x)` is `x`, a `Vec` or a tuple is `seq`.  (Simplification: the field types of the
variants are not enforced by the model's types.) -/
inductive Tree
  | tok (t : Token)
  | none
  | seq (l : List Tree)
  | node (tag : Tag) (s e : Nat) (l : List Tree)

/-- The variant of a node, for `match &**a { ASTNode::DictionaryContainer(..) => .. }`. -/
def Tree.tag? : Tree → Option Tag
  | .node t _ _ _ => some t
  | _ => Option.none

/-- A `Vec<Box<Token>>` field. -/
def Tree.toks (l : List Token) : Tree := .seq (l.map .tok)

end Verif
