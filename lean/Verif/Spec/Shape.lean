import Verif.Model.Run

/-!
# The shape of syntax trees

`schema` lists, for every node variant, what its fields may be.  For operators the fields are given by the
binding strength of the operands (`Tag.strength`), so the table also says which operator nodes may stand
below which others.
-/

namespace Verif

/-- Binding strength of the node variants that are expressions, weakest first; 0: not an expression.
The order is that of the table "Operator precedence" in the Python language reference. -/
def Tag.strength : Tag → Nat
  | .NamedExpr => 1
  | .Lambda | .Test => 2
  | .OrTest => 3
  | .AndTest => 4
  | .NotTest => 5
  | .LessComparison | .LessEqualComparison | .EqualComparison | .GreaterComparison | .GreaterEqualComparison
  | .NotEqualComparison | .InComparison | .IsComparison | .NotInComparison | .IsNotComparison => 6
  | .Expr => 7
  | .XorExpr => 8
  | .AndExpr => 9
  | .ShiftLeftExpr | .ShiftRightExpr => 10
  | .PlusArithExpr | .MinusArithExpr => 11
  | .MulTerm | .DivTerm | .FloorDivTerm | .ModuloTerm | .MatriceTerm => 12
  | .UnaryPlus | .UnaryMinus | .UnaryInvert => 13
  | .PowerExpr => 14
  | .AtomExpr => 15
  | .AtomName | .AtomNumber | .AtomString | .AtomElipsis | .AtomNone | .AtomTrue | .AtomFalse | .AtomTuple
  | .AtomList | .AtomDictionary | .AtomSet => 16
  | _ => 0

/-- Binding strength of a tree. -/
def Tree.strength : Tree → Nat
  | .node tag _ _ _ => tag.strength
  | _ => 0

/-- What a field of a node may be. -/
inductive Field
  /-- a token of one of these kinds -/
  | t (ks : List Kind)
  /-- any token -/
  | any
  /-- an expression that binds at least that strongly -/
  | e (k : Nat)
  /-- a node of one of these variants -/
  | is (tags : List Tag)
  /-- a node of this variant with such a first field -/
  | head (tag : Tag) (f : Field)
  /-- `None` -/
  | none
  /-- an empty `Vec` -/
  | empty
  | opt (f : Field)
  | or (f g : Field)
  /-- a pair -/
  | pair (f g : Field)
  /-- a `Vec` of such elements -/
  | many (f : Field)
  /-- a non-empty `Vec` of such elements -/
  | many1 (f : Field)

/-- The tree is such a field. -/
def Has : Field → Tree → Prop
  | .t ks, x => ∃ u, x = .tok u ∧ u.kind ∈ ks
  | .any, x => ∃ u, x = .tok u
  | .e k, x => k ≤ x.strength
  | .is tags, x => ∃ g ∈ tags, x.tag? = some g
  | .head g f, x => ∃ s e a l, x = .node g s e (a :: l) ∧ Has f a
  | .none, x => x = .none
  | .empty, x => x = .seq []
  | .opt f, x => x = .none ∨ Has f x
  | .or f g, x => Has f x ∨ Has g x
  | .pair f g, x => ∃ a b, x = .seq [a, b] ∧ Has f a ∧ Has g b
  | .many f, x => ∃ l, x = .seq l ∧ ∀ a ∈ l, Has f a
  | .many1 f, x => ∃ l, x = .seq l ∧ l ≠ [] ∧ ∀ a ∈ l, Has f a

/-- Field by field. -/
def HasAll : List Field → List Tree → Prop
  | [], [] => True
  | f :: fs, x :: xs => Has f x ∧ HasAll fs xs
  | _, _ => False

namespace Sch
open Field
/-- one token -/
abbrev k (x : Kind) : Field := t [x]
/-- a binary operator: strengths of the operands, operator token -/
def bin (l : Nat) (op : Kind) (r : Nat) : List (List Field) := [[e l, k op, e r]]
def un (op : Kind) (r : Nat) : List (List Field) := [[k op, e r]]
def lit (x : Kind) : List (List Field) := [[k x]]
def commas : Field := many (k .PyComa)
/-- expression or starred expression -/
def elem : Field := or (e 1) (is [.StarExpr])
def exprs : Field := or elem (is [.ExprList])
def testlist : Field := or (e 2) (is [.TestList])
def starTest : Field := or (e 2) (is [.StarExpr])
def starlist : Field := or starTest (is [.TestListStarExpr])
def yields : Field := is [.YieldExpr, .YieldFromExpr]
def rhs : Field := or yields testlist
def comp : Field := is [.SyncCompForComprehension, .CompForComprehension]
def iter : Field := is [.SyncCompForComprehension, .CompForComprehension, .CompIfComprehension]
def param : Field := is [.VFPDef, .VFPAssign]
def trailers : Field := is [.CallTrailer, .IndexTrailer, .DotNameTrailer]
def simple : Field := or (or starlist yields) (is [.PlusAssignStmt, .MinusAssignStmt, .MulAssignStmt, .DivAssignStmt,
  .FloorDivAssignStmt, .ModuloAssignStmt, .MatriceAssignStmt, .PowerAssignStmt, .ShiftLeftAssignStmt,
  .ShiftRightAssignStmt, .BitOrAssignStmt, .BitXorAssignStmt, .BitAndAssignStmt, .AnnAssignStmt, .AssignmentStmt,
  .DelStmt, .PassStmt, .BreakStmt, .ContinueStmt, .ReturnStmt, .RaiseStmt, .ImportNameStmt, .ImportFromStmt,
  .GlobalStmt, .NonLocalStmt, .AssertStmt])
def compound : Field :=
  is [.IfStmt, .WhileStmt, .ForStmt, .TryStmt, .WithStmt, .FuncDef, .ClassDef, .Decorated, .AsyncStmt]
def stmt : Field := or (is [.SimpleStmtList]) compound
def suite : Field := is [.SimpleStmtList, .SuiteStmt]
/-- `'as' NAME` -/
def as : Field := opt (pair (k .PyAs) (k .AtomName))
def aug (op : Kind) : List (List Field) := [[starlist, k op, rhs]]
end Sch
open Field Sch

/-- The fields of each variant; where there is more than one list, any of them. -/
def schema : Tag → List (List Field)
  | .NamedExpr => bin 2 .PyColonAssign 2
  | .Test => [[e 3, k .PyIf, e 3, k .PyElse, e 2]]
  | .Lambda => [[k .PyLambda, opt (is [.VarArgsList]), k .PyColon, e 2]]
  | .OrTest => bin 3 .PyOr 4
  | .AndTest => bin 4 .PyAnd 5
  | .NotTest => un .PyNot 5
  | .LessComparison => bin 6 .PyLess 7
  | .LessEqualComparison => bin 6 .PyLessEqual 7
  | .EqualComparison => bin 6 .PyEqual 7
  | .GreaterComparison => bin 6 .PyGreater 7
  | .GreaterEqualComparison => bin 6 .PyGreaterEqual 7
  | .NotEqualComparison => bin 6 .PyNotEqual 7
  | .InComparison => bin 6 .PyIn 7
  | .IsComparison => bin 6 .PyIs 7
  | .NotInComparison => [[e 6, k .PyNot, k .PyIn, e 7]]
  | .IsNotComparison => [[e 6, k .PyIs, k .PyNot, e 7]]
  | .StarExpr => un .PyMul 7
  | .Expr => bin 7 .PyBitOr 8
  | .XorExpr => bin 8 .PyBitXor 9
  | .AndExpr => bin 9 .PyBitAnd 10
  | .ShiftLeftExpr => bin 10 .PyShiftLeft 11
  | .ShiftRightExpr => bin 10 .PyShiftRight 11
  | .PlusArithExpr => bin 11 .PyPlus 12
  | .MinusArithExpr => bin 11 .PyMinus 12
  | .MulTerm => bin 12 .PyMul 13
  | .DivTerm => bin 12 .PyDiv 13
  | .FloorDivTerm => bin 12 .PyFloorDiv 13
  | .ModuloTerm => bin 12 .PyModulo 13
  | .MatriceTerm => bin 12 .PyMatrice 13
  | .UnaryPlus => un .PyPlus 13
  | .UnaryMinus => un .PyMinus 13
  | .UnaryInvert => un .PyBitInvert 13
  | .PowerExpr => bin 15 .PyPower 13
  | .AtomExpr => [[k .PyAwait, e 16, many trailers], [none, e 16, many1 trailers]]
  | .AtomName => lit .AtomName
  | .AtomNumber => lit .AtomNumber
  | .AtomString => [[many1 (k .AtomString)]]
  | .AtomElipsis => lit .PyElipsis
  | .AtomNone => lit .PyNone
  | .AtomTrue => lit .PyTrue
  | .AtomFalse => lit .PyFalse
  | .AtomTuple => [[k .PyLeftParen, opt (or yields (is [.TestListComp])), k .PyRightParen]]
  | .AtomList => [[k .PyLeftBracket, opt (is [.TestListComp]), k .PyRightBracket]]
  | .AtomDictionary => [[k .PyLeftCurly, is [.DictionaryContainer], k .PyRightCurly]]
  | .AtomSet => [[k .PyLeftCurly, is [.SetContainer], k .PyRightCurly]]
  | .TestListComp => [[many1 elem, commas], [pair comp elem, empty]]
  | .CallTrailer => [[k .PyLeftParen, opt (is [.SubscriptList]), k .PyRightParen]]
  | .IndexTrailer => [[k .PyLeftBracket, is [.SubscriptList], k .PyRightBracket]]
  | .DotNameTrailer => [[k .PyDot, k .AtomName]]
  | .SubscriptList => [[many1 (is [.Subscript]), commas]]
  | .Subscript => [[e 2, none, none, none, none], [opt (e 2), k .PyColon, opt (e 2), any, opt (e 2)]]
  | .ExprList => [[many1 elem, commas]]
  | .TestList => [[many1 (e 2), commas]]
  | .DictionaryContainer => [[many1 (is [.DictionaryEntry, .PowerDictionary]), commas]]
  | .DictionaryEntry => bin 2 .PyColon 2
  | .PowerDictionary => un .PyPower 7
  | .SetContainer => [[many1 (or (e 2) (is [.MulSet])), commas]]
  | .MulSet => un .PyMul 7
  | .ArgList => [[many1 (is [.Argument]), commas]]
  | .Argument => [[none, t [.PyMul, .PyPower], e 2], [e 2, none, comp], [e 2, t [.PyColonAssign, .PyAssign], e 2],
      [e 2, none, none]]
  | .SyncCompForComprehension => [[k .PyFor, exprs, k .PyIn, e 3, opt iter]]
  | .CompForComprehension => [[k .PyAsync, is [.SyncCompForComprehension]]]
  | .CompIfComprehension => [[k .PyIf, or (e 3) (is [.Lambda]), opt iter]]
  | .YieldExpr => [[k .PyYield, starlist]]
  | .YieldFromExpr => [[k .PyYield, k .PyFrom, e 2]]
  | .TestListStarExpr => [[many1 starTest, commas]]
  | .VarArgsList => [[many param, commas, opt (k .PyMul), opt param, opt (k .PyPower), opt param, opt (k .PyDiv)]]
  | .VFPAssign => [[is [.VFPDef], k .PyAssign, e 2]]
  | .VFPDef => lit .AtomName
  | .TypedArgsList => [[empty, empty, empty, none, none]]
  | .TFPAssign => [[is [.TFPDef], k .PyAssign, e 2]]
  | .TFPDef => [[k .AtomName, opt (pair (k .PyColon) (e 2))]]
  | .Parameter => [[k .PyLeftParen, opt (is [.TypedArgsList]), k .PyRightParen]]
  | .FuncDef => [[k .PyDef, k .AtomName, opt (is [.Parameter]), opt (pair (k .PyArrow) (e 2)), k .PyColon,
      opt (k .TypeComment), is [.FuncBodySuite, .SimpleStmtList]]]
  | .FuncBodySuite => [[k .Newline, none, none, k .Indent, many1 stmt, k .Dedent],
      [k .Newline, k .TypeComment, k .Newline, k .Indent, many1 stmt, k .Dedent]]
  | .ClassDef => [[k .PyClass, k .AtomName, none, none, none, k .PyColon, suite],
      [k .PyClass, k .AtomName, k .PyLeftParen, opt (is [.VarArgsList]), k .PyRightParen, k .PyColon, suite]]
  | .FuncType => [[k .PyLeftParen, opt (is [.TypeList]), k .PyRightParen, k .PyArrow, e 2]]
  | .TypeList => [[many (e 2), commas, opt (k .PyMul), opt (e 2), opt (k .PyPower), opt (e 2)]]
  | .SimpleStmtList => [[many1 simple, many (k .PySemiColon), k .Newline]]
  | .PlusAssignStmt => aug .PyPlusAssign
  | .MinusAssignStmt => aug .PyMinusAssign
  | .MulAssignStmt => aug .PyMulAssign
  | .DivAssignStmt => aug .PyDivAssign
  | .FloorDivAssignStmt => aug .PyFloorDivAssign
  | .ModuloAssignStmt => aug .PyModuloAssign
  | .MatriceAssignStmt => aug .PyMatriceAssign
  | .PowerAssignStmt => aug .PyPowerAssign
  | .ShiftLeftAssignStmt => aug .PyShiftLeftAssign
  | .ShiftRightAssignStmt => aug .PyShiftRightAssign
  | .BitOrAssignStmt => aug .PyBitOrAssign
  | .BitXorAssignStmt => aug .PyBitXorAssign
  | .BitAndAssignStmt => aug .PyBitAndAssign
  | .AnnAssignStmt => [[starlist, k .PyColon, e 2, opt (pair (k .PyAssign) rhs)]]
  | .AssignmentStmt => [[starlist, many1 (pair (k .PyAssign) rhs), opt (k .TypeComment)]]
  | .DelStmt => [[k .PyDel, exprs]]
  | .PassStmt => lit .PyPass
  | .BreakStmt => lit .PyBreak
  | .ContinueStmt => lit .PyContinue
  | .ReturnStmt => [[k .PyReturn, opt starlist]]
  | .RaiseStmt => [[k .PyRaise, opt (pair (e 2) (opt (pair (k .PyFrom) (e 2))))]]
  | .ImportNameStmt => [[k .PyImport, is [.DottedAsNamesStmt]]]
  | .ImportFromStmt =>
      [[k .PyFrom, many (t [.PyDot, .PyElipsis]), opt (is [.DottedNameStmt]), k .PyImport, k .PyMul, none, none],
       [k .PyFrom, many (t [.PyDot, .PyElipsis]), opt (is [.DottedNameStmt]), k .PyImport, k .PyLeftParen,
        is [.ImportAsNamesStmt], k .PyRightParen],
       [k .PyFrom, many (t [.PyDot, .PyElipsis]), opt (is [.DottedNameStmt]), k .PyImport, none,
        is [.ImportAsNamesStmt], none]]
  | .ImportAsName => [[k .AtomName, as]]
  | .DottedAsNameStmt => [[is [.DottedNameStmt], as]]
  | .ImportAsNamesStmt => [[many1 (is [.ImportAsName]), commas]]
  | .DottedAsNamesStmt => [[many1 (is [.DottedAsNameStmt]), commas]]
  | .DottedNameStmt => [[many1 (k .AtomName), many (k .PyDot)]]
  | .GlobalStmt => [[k .PyGlobal, many1 (k .AtomName), commas]]
  | .NonLocalStmt => [[k .PyNonLocal, many1 (k .AtomName), commas]]
  | .AssertStmt => [[k .PyAssert, e 2, opt (pair (k .PyFrom) (e 2))]]
  | .AsyncStmt => [[k .PyAsync, is [.WithStmt, .ForStmt, .FuncDef]]]
  | .IfStmt => [[k .PyIf, e 2, k .PyColon, suite, many (is [.ElifStmt]), opt (is [.ElseStmt])]]
  | .ElifStmt => [[k .PyElif, e 2, k .PyColon, suite]]
  | .ElseStmt => [[k .PyElse, k .PyColon, suite]]
  | .WhileStmt => [[k .PyWhile, e 2, k .PyColon, suite, opt (is [.ElseStmt])]]
  | .ForStmt => [[k .PyFor, exprs, k .PyIn, testlist, k .PyColon, opt (k .TypeComment), suite, opt (is [.ElseStmt])]]
  | .TryStmt => [[k .PyTry, k .PyColon, suite, none, none, is [.FinallyStmt]],
      [k .PyTry, k .PyColon, suite, many1 (head .ExceptStmt (is [.ExceptClauseStmt])), opt (is [.ElseStmt]),
        opt (is [.FinallyStmt])]]
  | .FinallyStmt => [[k .PyFinally, k .PyColon, suite]]
  | .WithStmt =>
      [[k .PyWith, none, many1 (or (is [.WithItem]) (head .ExceptStmt (e 2))), commas, none, k .PyColon, suite],
       [k .PyWith, k .PyLeftParen, many1 (or (is [.WithItem]) (head .ExceptStmt (e 2))), commas, k .PyRightParen,
        k .PyColon, suite]]
  | .WithItem => [[e 2, none]]
  | .ExceptClauseStmt => [[k .PyExcept, opt (k .PyMul), opt (pair (e 2) as)]]
  | .ExceptStmt => [[is [.ExceptClauseStmt], k .PyColon, suite], [e 2, k .PyAs, e 7]]
  | .SuiteStmt => [[k .Newline, k .Indent, many1 stmt, k .Dedent]]
  | .Decorator => [[k .PyMatrice, is [.DottedNameStmt], none, none, none, k .Newline],
      [k .PyMatrice, is [.DottedNameStmt], k .PyLeftParen, opt (is [.ArgList]), k .PyRightParen, k .Newline]]
  | .Decorators => [[many1 (is [.Decorator])]]
  | .Decorated => [[is [.Decorators], is [.ClassDef, .FuncDef, .AsyncStmt]]]
  | .SingleInput => [[none, k .Newline], [compound, k .Newline], [is [.SimpleStmtList], none]]
  | .FileInput => [[many stmt, many (k .Newline), k .EOF]]
  | .EvalInput => [[testlist, many (k .Newline), k .EOF]]
  | .FuncTypeInput => [[is [.FuncType], many (k .Newline), k .EOF]]

/-! ### Numbers of separators -/

/-- number of elements of a `Vec` -/
def Tree.len : Tree → Nat
  | .seq l => l.length
  | _ => 0

/-- 1 for `Some`, 0 for `None` -/
def Tree.count : Tree → Nat
  | .none => 0
  | _ => 1

/-- one separator between two elements -/
def sepBetween (ns ss : Tree) : Prop := ss.len + 1 = ns.len
/-- … and perhaps one at the end -/
def sepTrailing (ns ss : Tree) : Prop := ss.len + 1 = ns.len ∨ ss.len = ns.len

/-- How many separators a node has, and which optional fields go together. -/
def seps : Tag → List Tree → Prop
  | .TestListComp, [ns, ss] => ss.len + 1 = ns.len ∨ Has (pair comp elem) ns ∧ ss.len = 0
  | .SubscriptList, [ns, ss] => sepBetween ns ss
  | .ImportAsNamesStmt, [ns, ss] => sepBetween ns ss
  | .DottedAsNamesStmt, [ns, ss] => sepBetween ns ss
  | .DottedNameStmt, [ns, ss] => sepBetween ns ss
  | .GlobalStmt, [_, ns, ss] => sepBetween ns ss
  | .NonLocalStmt, [_, ns, ss] => sepBetween ns ss
  | .WithStmt, [_, lp, ns, ss, _, _, _] => sepBetween ns ss ∨ lp ≠ .none ∧ ss.len = ns.len
  | .ExprList, [ns, ss] => sepTrailing ns ss ∧ ¬ (ns.len = 1 ∧ ss.len = 0)
  | .TestList, [ns, ss] => sepTrailing ns ss ∧ ¬ (ns.len = 1 ∧ ss.len = 0)
  | .TestListStarExpr, [ns, ss] => sepTrailing ns ss ∧ ¬ (ns.len = 1 ∧ ss.len = 0)
  | .DictionaryContainer, [ns, ss] => sepTrailing ns ss
  | .SetContainer, [ns, ss] => sepTrailing ns ss
  | .ArgList, [ns, ss] => sepTrailing ns ss
  | .SimpleStmtList, [ns, ss, _] => sepTrailing ns ss
  | .VarArgsList, [ns, ss, m, mn, p, pn, d] => m.count = mn.count ∧ p.count = pn.count ∧
      (ss.len + 1 = ns.len + m.count + p.count + d.count ∨
        p ≠ .none ∧ ss.len = ns.len + m.count + p.count + d.count)
  | .TypeList, [ns, ss, m, mn, p, pn] => m.count = mn.count ∧ p.count = pn.count ∧
      ss.len + 1 = ns.len + m.count + p.count
  | .ImportFromStmt, [_, ds, n, _, _, _, _] => 0 < ds.len + n.count
  | _, _ => True

/-- The node is one of those that its variant may be. -/
def NodeOk (tag : Tag) (fs : List Tree) : Prop := (∃ c ∈ schema tag, HasAll c fs) ∧ seps tag fs

mutual
/-- `P` holds of every node in the tree. -/
def Tree.All (P : Tag → List Tree → Prop) : Tree → Prop
  | .tok _ => True
  | .none => True
  | .seq l => AllIn P l
  | .node tag _ _ l => P tag l ∧ AllIn P l
def AllIn (P : Tag → List Tree → Prop) : List Tree → Prop
  | [] => True
  | x :: l => x.All P ∧ AllIn P l
end

/-! ### Parts of a tree -/

/-- `Inside x t`: `x` is `t` or occurs in it. -/
inductive Inside : Tree → Tree → Prop
  | here (x) : Inside x x
  | seq {x y l} : y ∈ l → Inside x y → Inside x (.seq l)
  | node {x y tag s e l} : y ∈ l → Inside x y → Inside x (.node tag s e l)

/-- What the parse functions return: all but `parse_expressions_lambda_def`, which relies on its caller for the
first token, and `parse_patterns_match`, which never returns. -/
def returns : List (Fn × Field) :=
  [(.atom, e 16), (.atomExpr, e 15), (.power, e 14), (.factor, e 13), (.term, e 12), (.arith, e 11),
    (.shift, e 10), (.andExpr, e 9), (.xorExpr, e 8), (.expr, e 7), (.starExpr, is [.StarExpr]),
    (.comparison, e 6), (.notTest, e 5), (.andTest, e 4), (.orTest, e 3),
    (.noCondTest, or (e 3) (is [.Lambda])), (.test, e 2), (.namedExpression, e 1),
    (.testlistComp, is [.TestListComp]), (.trailer, trailers), (.subscriptList, is [.SubscriptList]),
    (.subscript, is [.Subscript]), (.exprlist, exprs), (.testlist, testlist),
    (.dictorsetMaker, is [.DictionaryContainer, .SetContainer]), (.arglist, is [.ArgList]),
    (.argument, is [.Argument]), (.compIter, iter), (.syncCompFor, is [.SyncCompForComprehension]),
    (.compFor, comp), (.compIf, is [.CompIfComprehension]), (.yieldExpr, yields),
    (.testlistStarExpr, starlist), (.varArgsList, is [.VarArgsList]), (.varArgsAssignments, param),
    (.vfpDef, is [.VFPDef]), (.stmt, stmt), (.simpleStmt, is [.SimpleStmtList]), (.smallStmt, simple),
    (.exprStmt, simple), (.delStmt, is [.DelStmt]), (.passStmt, is [.PassStmt]), (.flowStmt, simple),
    (.breakStmt, is [.BreakStmt]), (.continueStmt, is [.ContinueStmt]), (.returnStmt, is [.ReturnStmt]),
    (.yieldStmt, yields), (.raiseStmt, is [.RaiseStmt]),
    (.importStmt, is [.ImportNameStmt, .ImportFromStmt]), (.importName, is [.ImportNameStmt]),
    (.importFrom, is [.ImportFromStmt]), (.importAsName, is [.ImportAsName]),
    (.dottedAsName, is [.DottedAsNameStmt]), (.importAsNames, is [.ImportAsNamesStmt]),
    (.dottedAsNames, is [.DottedAsNamesStmt]), (.dottedName, is [.DottedNameStmt]),
    (.globalStmt, is [.GlobalStmt]), (.nonlocalStmt, is [.NonLocalStmt]), (.assertStmt, is [.AssertStmt]),
    (.compoundStmt, compound), (.asyncStmt, is [.AsyncStmt]), (.ifStmt, is [.IfStmt]),
    (.elifStmt, is [.ElifStmt]), (.elseStmt, is [.ElseStmt]), (.whileStmt, is [.WhileStmt]),
    (.forStmt, is [.ForStmt]), (.tryStmt, is [.TryStmt]), (.finallyStmt, is [.FinallyStmt]),
    (.withStmt, is [.WithStmt]), (.withItem, or (is [.WithItem]) (head .ExceptStmt (e 2))),
    (.exceptStmt, head .ExceptStmt (is [.ExceptClauseStmt])), (.exceptClause, is [.ExceptClauseStmt]),
    (.suite, suite), (.evalInput, is [.EvalInput]), (.fileInput, is [.FileInput]),
    (.singleInput, is [.SingleInput]), (.funcTypeInput, is [.FuncTypeInput]), (.decorator, is [.Decorator]),
    (.decorators, is [.Decorators]), (.decorated, is [.Decorated]), (.asyncFuncDef, is [.AsyncStmt]),
    (.funcDef, is [.FuncDef]), (.parameters, is [.Parameter]), (.typedArgsList, is [.TypedArgsList]),
    (.tfpDefAssign, is [.TFPDef, .TFPAssign]), (.tfpDef, is [.TFPDef]),
    (.funcBodySuite, is [.FuncBodySuite, .SimpleStmtList]), (.funcType, is [.FuncType]),
    (.typeList, is [.TypeList]), (.classDef, is [.ClassDef])]

/-! ### Operands -/

/-- The operands of an operator node, from left to right. -/
def operands : Tag → List Tree → Option (List Tree)
  | .NamedExpr, [l, _, r] => some [l, r]
  | .Lambda, [_, _, _, r] => some [r]
  | .Test, [a, _, b, _, c] => some [a, b, c]
  | .OrTest, [l, _, r] | .AndTest, [l, _, r] => some [l, r]
  | .NotTest, [_, r] => some [r]
  | .LessComparison, [l, _, r] | .LessEqualComparison, [l, _, r] | .EqualComparison, [l, _, r]
  | .GreaterComparison, [l, _, r] | .GreaterEqualComparison, [l, _, r] | .NotEqualComparison, [l, _, r]
  | .InComparison, [l, _, r] | .IsComparison, [l, _, r] => some [l, r]
  | .NotInComparison, [l, _, _, r] | .IsNotComparison, [l, _, _, r] => some [l, r]
  | .Expr, [l, _, r] | .XorExpr, [l, _, r] | .AndExpr, [l, _, r] => some [l, r]
  | .ShiftLeftExpr, [l, _, r] | .ShiftRightExpr, [l, _, r] => some [l, r]
  | .PlusArithExpr, [l, _, r] | .MinusArithExpr, [l, _, r] => some [l, r]
  | .MulTerm, [l, _, r] | .DivTerm, [l, _, r] | .FloorDivTerm, [l, _, r] | .ModuloTerm, [l, _, r]
  | .MatriceTerm, [l, _, r] => some [l, r]
  | .UnaryPlus, [_, r] | .UnaryMinus, [_, r] | .UnaryInvert, [_, r] => some [r]
  | .PowerExpr, [l, _, r] => some [l, r]
  | .AtomExpr, [_, x, _] => some [x]
  | _, _ => Option.none

/-- The binary operators that group from the left: `or`, `and`, comparisons, `|`, `^`, `&`, shifts, `+ -`,
`* / // % @`. -/
def leftOps : List Tag :=
  [.OrTest, .AndTest, .LessComparison, .LessEqualComparison, .EqualComparison, .GreaterComparison,
    .GreaterEqualComparison, .NotEqualComparison, .InComparison, .IsComparison, .NotInComparison, .IsNotComparison,
    .Expr, .XorExpr, .AndExpr, .ShiftLeftExpr, .ShiftRightExpr, .PlusArithExpr, .MinusArithExpr, .MulTerm, .DivTerm,
    .FloorDivTerm, .ModuloTerm, .MatriceTerm]

/-! ### Lists -/

/-- The elements and the separators of a list node, in the order in which they were written. -/
def listOf : Tag → List Tree → Option (List Tree × List Tree)
  | .ExprList, [.seq ns, .seq ss] | .TestList, [.seq ns, .seq ss] => some (ns, ss)
  | .TestListComp, [.seq ns, .seq ss] | .SubscriptList, [.seq ns, .seq ss] | .ArgList, [.seq ns, .seq ss]
  | .DictionaryContainer, [.seq ns, .seq ss] | .SetContainer, [.seq ns, .seq ss]
  | .TestListStarExpr, [.seq ns, .seq ss] | .ImportAsNamesStmt, [.seq ns, .seq ss]
  | .DottedAsNamesStmt, [.seq ns, .seq ss] | .DottedNameStmt, [.seq ns, .seq ss]
  | .SimpleStmtList, [.seq ns, .seq ss, _] | .GlobalStmt, [_, .seq ns, .seq ss] | .NonLocalStmt, [_, .seq ns, .seq ss]
  | .WithStmt, [_, _, .seq ns, .seq ss, _, _, _] => some (ns.reverse, ss.reverse)
  | _, _ => Option.none

/-- The separator of a list node. -/
def listSep : Tag → Option Kind
  | .ExprList | .TestList | .TestListComp | .SubscriptList | .ArgList | .DictionaryContainer | .SetContainer
  | .TestListStarExpr | .ImportAsNamesStmt | .DottedAsNamesStmt | .GlobalStmt | .NonLocalStmt | .WithStmt => some .PyComa
  | .DottedNameStmt => some .PyDot
  | .SimpleStmtList => some .PySemiColon
  | _ => Option.none

/-- May the list have a separator after its last element?  In a `with` statement only inside the parentheses. -/
def mayTrail : Tag → List Tree → Prop
  | .ExprList, _ | .TestList, _ | .ArgList, _ | .DictionaryContainer, _ | .SetContainer, _ | .TestListStarExpr, _
  | .SimpleStmtList, _ => True
  | .WithStmt, [_, lp, _, _, _, _, _] => lp ≠ .none
  | _, _ => False

end Verif
