import Verif.Model.Parser

/-!
# Expression rules

Models `src/parser/expressions.rs` 46-1868.  Each definition is the body of the Rust function
cited in its comment; the definitions named `..LoopBody` are the bodies of `while` loops together
with the code after the loop (see `Parser.lean`).  The definitions `leftLoopBody` and the token
tables factor out match arms that are textually identical in the source.
-/

namespace Verif
open Prog

/-- `expressions.rs` 81-95: collects adjacent strings. -/
def atomStrLoopBody (s : Nat) (toks : List Token) : Prog Tree := do
  match ← sym? with
  | some t =>
    if t.kind = .AtomString then do next; parse (.atomStrLoop s (toks ++ [t]))
    else mk .AtomString s [.toks toks]
  | none => mk .AtomString s [.toks toks]

/-- `expressions.rs` 47-202 `parse_expressions_atom`. -/
def atomBody : Prog Tree := do
  let s ← here
  let t ← symAt s "Expecting symbol in atom expression!"
  if t.kind = .PyElipsis then do next; mk .AtomElipsis s [.tok t]
  else if t.kind = .PyFalse then do next; mk .AtomFalse s [.tok t]
  else if t.kind = .PyNone then do next; mk .AtomNone s [.tok t]
  else if t.kind = .PyTrue then do next; mk .AtomTrue s [.tok t]
  else if t.kind = .AtomName then do next; mk .AtomName s [.tok t]
  else if t.kind = .AtomNumber then do next; mk .AtomNumber s [.tok t]
  else if t.kind = .AtomString then do next; parse (.atomStrLoop s [t])
  else if t.kind = .PyLeftParen then do                               -- 97-127
    next
    let t2 ← symAt s "Expecting symbol in atom expression!"
    let right ←
      if t2.kind = .PyYield then parse .yieldExpr
      else if t2.kind = .PyRightParen then pure .none
      else parse .testlistComp
    let t3 ← symAt s "Expecting symbol in atom expression!"
    if t3.kind = .PyRightParen then do next; mk .AtomTuple s [.tok t, right, .tok t3]
    else fail s "Expecting ')' in tuple atom expression!"
  else if t.kind = .PyLeftBracket then do                             -- 128-155
    next
    let t2 ← symAt s "Expecting symbol in atom expression!"
    let right ←
      if t2.kind = .PyRightBracket then pure .none
      else parse .testlistComp
    let t3 ← symAt s "Expecting symbol in atom expression!"
    if t3.kind = .PyRightBracket then do next; mk .AtomList s [.tok t, right, .tok t3]
    else fail s "Expecting ']' in list atom expression!"
  else if t.kind = .PyLeftCurly then do                               -- 156-196
    next
    let t2 ← symAt s "Expecting symbol in atom expression!"
    let right ←
      if t2.kind = .PyRightCurly then pure Option.none
      else do let r ← parse .dictorsetMaker; pure (some r)
    let t3 ← symAt s "Expecting symbol in atom expression!"
    if t3.kind = .PyRightCurly then do
      next
      match right with
      | some a =>
        if a.tag? = some .DictionaryContainer then mk .AtomDictionary s [.tok t, a, .tok t3]
        else if a.tag? = some .SetContainer then mk .AtomSet s [.tok t, a, .tok t3]
        else mk .AtomDictionary s [.tok t, .none, .tok t3]
      | Option.none => fail s "Expecting dictionary/set in atom expression!"
    else fail s "Expecting end marker in dictionary/set atom expression!"
  else fail s "Expecting symbol in atom expression!"

/-- `expressions.rs` 231-258: the trailers, then the node. -/
def trailerLoopBody (s : Nat) (await right : Tree) (lst : List Tree) : Prog Tree := do
  match ← sym? with
  | some t =>
    if t.kind = .PyLeftParen ∨ t.kind = .PyLeftBracket ∨ t.kind = .PyDot then do
      let x ← parse .trailer
      parse (.trailerLoop s await right (lst ++ [x]))
    else fin
  | none => fin
where
  /-- 253-258 -/
  fin : Prog Tree :=
    match await, lst with
    | .none, [] => pure right
    | _, _ => mk .AtomExpr s [await, right, .seq lst]

/-- `expressions.rs` 204-262 `parse_expressions_atom_expr`. -/
def atomExprBody : Prog Tree := do
  let s ← here
  let t ← symAt s "Expecting symbol in atom_expr expression!"
  let await ← if t.kind = .PyAwait then do next; pure (.tok t) else pure .none
  let right ← parse .atom
  parse (.trailerLoop s await right [])

/-- `expressions.rs` 264-281 `parse_expressions_power`. -/
def powerBody : Prog Tree := do
  let s ← here
  let left ← parse .atomExpr
  let t ← symAt s "Expecting symbol in power expression!"
  if t.kind = .PyPower then do
    next
    let right ← parse .factor
    mk .PowerExpr s [left, .tok t, right]
  else pure left

/-- `expressions.rs` 283-311 `parse_expressions_factor`. -/
def factorBody : Prog Tree := do
  let s ← here
  let t ← symAt s "Expecting symbol in factor expression!"
  if t.kind = .PyPlus then do
    next
    let right ← parse .factor
    mk .UnaryPlus s [.tok t, right]
  else if t.kind = .PyMinus then do
    next
    let right ← parse .factor
    mk .UnaryMinus s [.tok t, right]
  else if t.kind = .PyBitInvert then do
    next
    let right ← parse .factor
    mk .UnaryInvert s [.tok t, right]
  else parse .power

/-- One iteration of the loops of the left associative binary operators: `op` gives the node
variant of each operator token of the match, `operand` is the function that parses the right
operand, `self` the loop with the new left operand, `msg` the error text. -/
def leftLoopBody (op : Kind → Option Tag) (operand : Fn) (self : Nat → Tree → Fn) (msg : String)
    (s : Nat) (left : Tree) : Prog Tree := do
  let t ← symAt s msg
  match op t.kind with
  | some tag => do
    next
    let right ← parse operand
    let left ← mk tag s [left, .tok t, right]
    parse (self s left)
  | none => pure left

/-- `expressions.rs` 320-349 -/
def termOp : Kind → Option Tag
  | .PyMul => some .MulTerm
  | .PyDiv => some .DivTerm
  | .PyFloorDiv => some .FloorDivTerm
  | .PyModulo => some .ModuloTerm
  | .PyMatrice => some .MatriceTerm
  | _ => none

/-- `expressions.rs` 313-315 `parse_expressions_term`; the loop is 316-355. -/
def termBody : Prog Tree := do
  let s ← here
  let left ← parse .factor
  parse (.termLoop s left)

/-- `expressions.rs` 316-355 -/
def termLoopBody : Nat → Tree → Prog Tree :=
  leftLoopBody termOp .factor .termLoop "Expecting symbol in term expression!"

/-- `expressions.rs` 365-376 -/
def arithOp : Kind → Option Tag
  | .PyPlus => some .PlusArithExpr
  | .PyMinus => some .MinusArithExpr
  | _ => none

/-- `expressions.rs` 358-360 `parse_expressions_arith` -/
def arithBody : Prog Tree := do
  let s ← here
  let left ← parse .term
  parse (.arithLoop s left)

/-- `expressions.rs` 361-382 -/
def arithLoopBody : Nat → Tree → Prog Tree :=
  leftLoopBody arithOp .term .arithLoop "Expecting symbol in arith expression!"

/-- `expressions.rs` 392-403 -/
def shiftOp : Kind → Option Tag
  | .PyShiftLeft => some .ShiftLeftExpr
  | .PyShiftRight => some .ShiftRightExpr
  | _ => none

/-- `expressions.rs` 385-387 `parse_expressions_shift` -/
def shiftBody : Prog Tree := do
  let s ← here
  let left ← parse .arith
  parse (.shiftLoop s left)

/-- `expressions.rs` 388-409 -/
def shiftLoopBody : Nat → Tree → Prog Tree :=
  leftLoopBody shiftOp .arith .shiftLoop "Expecting symbol in shift expression!"

/-- `expressions.rs` 419-424 -/
def andExprOp : Kind → Option Tag
  | .PyBitAnd => some .AndExpr
  | _ => none

/-- `expressions.rs` 412-414 `parse_expressions_and_expr` -/
def andExprBody : Prog Tree := do
  let s ← here
  let left ← parse .shift
  parse (.andExprLoop s left)

/-- `expressions.rs` 415-430 -/
def andExprLoopBody : Nat → Tree → Prog Tree :=
  leftLoopBody andExprOp .shift .andExprLoop "Expecting symbol in and expression!"

/-- `expressions.rs` 440-445 -/
def xorExprOp : Kind → Option Tag
  | .PyBitXor => some .XorExpr
  | _ => none

/-- `expressions.rs` 433-435 `parse_expressions_xor_expr` -/
def xorExprBody : Prog Tree := do
  let s ← here
  let left ← parse .andExpr
  parse (.xorExprLoop s left)

/-- `expressions.rs` 436-451 -/
def xorExprLoopBody : Nat → Tree → Prog Tree :=
  leftLoopBody xorExprOp .andExpr .xorExprLoop "Expecting symbol in xor expression!"

/-- `expressions.rs` 461-466 -/
def exprOp : Kind → Option Tag
  | .PyBitOr => some .Expr
  | _ => none

/-- `expressions.rs` 454-456 `parse_expressions_expr` -/
def exprBody : Prog Tree := do
  let s ← here
  let left ← parse .xorExpr
  parse (.exprLoop s left)

/-- `expressions.rs` 457-472 -/
def exprLoopBody : Nat → Tree → Prog Tree :=
  leftLoopBody exprOp .xorExpr .exprLoop "Expecting symbol in or expression!"

/-- `expressions.rs` 475-491 `parse_expressions_star_expr` -/
def starExprBody : Prog Tree := do
  let s ← here
  let t ← symAt s "Expecting symbol in star expression!"
  if t.kind = .PyMul then do
    next
    let right ← parse .expr
    mk .StarExpr s [.tok t, right]
  else fail s "Expecting '*' in star expression!"

/-- `expressions.rs` 500-541: the comparison operators of one token. -/
def compOp : Kind → Option Tag
  | .PyLess => some .LessComparison
  | .PyLessEqual => some .LessEqualComparison
  | .PyEqual => some .EqualComparison
  | .PyGreaterEqual => some .GreaterEqualComparison
  | .PyGreater => some .GreaterComparison
  | .PyNotEqual => some .NotEqualComparison
  | .PyIn => some .InComparison
  | _ => none

/-- `expressions.rs` 493-495 `parse_expressions_comparison` -/
def comparisonBody : Prog Tree := do
  let s ← here
  let left ← parse .expr
  parse (.comparisonLoop s left)

/-- `expressions.rs` 496-592 -/
def comparisonLoopBody (s : Nat) (left : Tree) : Prog Tree := do
  let t ← symAt s "Expecting symbol in comparison expression!"
  match compOp t.kind with
  | some tag => do
    next
    let right ← parse .expr
    let left ← mk tag s [left, .tok t, right]
    parse (.comparisonLoop s left)
  | none =>
    if t.kind = .PyIs then do                                         -- 542-564
      next
      let t2 ← symAt s "Expecting 'is' pr 'is not' in comparison expression!"
      if t2.kind = .PyNot then do
        next
        let right ← parse .expr
        let left ← mk .IsNotComparison s [left, .tok t, .tok t2, right]
        parse (.comparisonLoop s left)
      else do
        let right ← parse .expr
        let left ← mk .IsComparison s [left, .tok t, right]
        parse (.comparisonLoop s left)
    else if t.kind = .PyNot then do                                   -- 565-586
      next
      let t2 ← symAt s "Expecting 'is' pr 'is not' in comparison expression!"
      if t2.kind = .PyIn then do
        next
        let right ← parse .expr
        let left ← mk .NotInComparison s [left, .tok t, .tok t2, right]
        parse (.comparisonLoop s left)
      else fail s "Expecting 'in' pr 'not in' in comparison expression!"
    else pure left

/-- `expressions.rs` 595-611 `parse_expressions_not_test` -/
def notTestBody : Prog Tree := do
  let s ← here
  let t ← symAt s "Expecting symbol in not test expression!"
  if t.kind = .PyNot then do
    next
    let right ← parse .notTest
    mk .NotTest s [.tok t, right]
  else parse .comparison

/-- `expressions.rs` 620-625 -/
def andTestOp : Kind → Option Tag
  | .PyAnd => some .AndTest
  | _ => none

/-- `expressions.rs` 613-615 `parse_expressions_and_test` -/
def andTestBody : Prog Tree := do
  let s ← here
  let left ← parse .notTest
  parse (.andTestLoop s left)

/-- `expressions.rs` 616-631 -/
def andTestLoopBody : Nat → Tree → Prog Tree :=
  leftLoopBody andTestOp .notTest .andTestLoop "Expecting symbol in and test expression!"

/-- `expressions.rs` 641-646 -/
def orTestOp : Kind → Option Tag
  | .PyOr => some .OrTest
  | _ => none

/-- `expressions.rs` 634-636 `parse_expressions_or_test` -/
def orTestBody : Prog Tree := do
  let s ← here
  let left ← parse .andTest
  parse (.orTestLoop s left)

/-- `expressions.rs` 637-652 -/
def orTestLoopBody : Nat → Tree → Prog Tree :=
  leftLoopBody orTestOp .andTest .orTestLoop "Expecting symbol in and test expression!"

/-- `expressions.rs` 655-696 `parse_expressions_lambda_def` -/
def lambdaDefBody (cond : Bool) : Prog Tree := do
  let s ← here
  let t ← symHere "Expecting symbol in 'lambda' expression!"
  next
  let t2 ← symHere "Expecting symbol in 'lambda' expression!"
  let left ← if t2.kind = .PyColon then pure .none else parse .varArgsList
  let t3 ← symHere "Expecting symbol in 'lambda' expression!"
  if t3.kind = .PyColon then do
    next
    let right ← if cond then parse .test else parse .orTest
    mk .Lambda s [.tok t, left, .tok t3, right]
  else failHere "Expecting ':' in 'lambda' expression!"

/-- `expressions.rs` 698-709 `parse_expressions_no_cond_test` -/
def noCondTestBody : Prog Tree := do
  let t ← symHere "Expecting symbol in non conditional test expression!"
  if t.kind = .PyLambda then parse (.lambdaDef false) else parse .orTest

/-- `expressions.rs` 711-751 `parse_expressions_test` -/
def testBody : Prog Tree := do
  let s ← here
  let t ← symHere "Expecting symbol in non conditional test expression!"
  if t.kind = .PyLambda then parse (.lambdaDef true)
  else do
    let left ← parse .orTest
    let t1 ← symHere "Expecting symbol in test expression!"
    if t1.kind = .PyIf then do
      next
      let right ← parse .orTest
      let t2 ← symHere "Expecting symbol in test expression!"
      if t2.kind = .PyElse then do
        next
        let nxt ← parse .test
        mk .Test s [left, .tok t1, right, .tok t2, nxt]
      else failHere "Expecting 'else' in test expression!"
    else pure left

/-- `expressions.rs` 753-770 `parse_expressions_named_expression` -/
def namedExpressionBody : Prog Tree := do
  let s ← here
  let left ← parse .test
  let t ← symHere "Expecting symbol in named expression!"
  if t.kind = .PyColonAssign then do
    next
    let right ← parse .test
    mk .NamedExpr s [left, .tok t, right]
  else pure left

/-- `expressions.rs` 776-786, 802-812, 996-1006: an element of a list. -/
def starOrNamed : Prog Tree := do
  let t ← symHere "Expecting symbol in list expression!"
  if t.kind = .PyMul then parse .starExpr else parse .namedExpression

/-- `expressions.rs` 795-819, then 826-828 -/
def testlistCompLoopBody (s : Nat) (nodes : List Tree) (seps : List Token) : Prog Tree := do
  let t ← symHere "Expecting symbol in list expression!"
  if t.kind = .PyComa then do
    next
    let x ← starOrNamed
    parse (.testlistCompLoop s (nodes ++ [x]) (seps ++ [t]))
  else mk .TestListComp s [.seq nodes.reverse, .toks seps.reverse]

/-- `expressions.rs` 772-829 `parse_expressions_testlist_comp` -/
def testlistCompBody : Prog Tree := do
  let s ← here
  let x ← starOrNamed
  let t ← symHere "Expecting symbol in list expression!"
  if t.kind = .PyFor ∨ t.kind = .PyAsync then do
    let y ← parse .compFor
    mk .TestListComp s [.seq [x, y].reverse, .toks []]
  else if t.kind = .PyComa then parse (.testlistCompLoop s [x] [])
  else mk .TestListComp s [.seq [x].reverse, .toks []]

/-- `expressions.rs` 831-901 `parse_expressions_trailer` -/
def trailerBody : Prog Tree := do
  let s ← here
  let t ← symHere "Expecting symbol in trailer expression!"
  if t.kind = .PyLeftParen then do
    next
    let t2 ← symHere "Expecting symbol in trailer expression!"
    let right ← if t2.kind = .PyRightParen then pure .none else parse .subscriptList
    let t3 ← symHere "Expecting symbol in trailer expression!"
    if t3.kind = .PyRightParen then do next; mk .CallTrailer s [.tok t, right, .tok t3]
    else failHere "Expecting ')' in trailer expression!"
  else if t.kind = .PyLeftBracket then do
    next
    let right ← parse .subscriptList
    let t3 ← symHere "Expecting symbol in trailer expression!"
    if t3.kind = .PyRightBracket then do next; mk .IndexTrailer s [.tok t, right, .tok t3]
    else failHere "Expecting ']' in trailer expression!"
  else if t.kind = .PyDot then do
    next
    let t2 ← symHere "Expecting symbol in trailer expression!"
    if t2.kind = .AtomName then do next; mk .DotNameTrailer s [.tok t, .tok t2]
    else failHere "Expecting a valid name after '.' in trailer expression!"
  else failHere "Expecting a valid trailer expression!"

/-- `expressions.rs` 908-926 -/
def subscriptListLoopBody (s : Nat) (nodes : List Tree) (seps : List Token) : Prog Tree := do
  let t ← symHere "Expecting symbol in subscript list expression!"
  if t.kind = .PyComa then do
    next
    let x ← parse .subscript
    parse (.subscriptListLoop s (nodes ++ [x]) (seps ++ [t]))
  else mk .SubscriptList s [.seq nodes.reverse, .toks seps.reverse]

/-- `expressions.rs` 903-927 `parse_expressions_subscript_list` -/
def subscriptListBody : Prog Tree := do
  let s ← here
  let x ← parse .subscript
  parse (.subscriptListLoop s [x] [])

/-- `expressions.rs` 929-990 `parse_expressions_subscript`.  The match of line 963 inspects `s2`
(the first colon) instead of `s3`, so it always takes its first arm: the token after the first
colon and the optional second expression is consumed whatever it is. -/
def subscriptBody : Prog Tree := do
  let s ← here
  let t ← symHere "Expecting symbol in subscript expression!"
  let first ← if t.kind = .PyColon then pure .none else parse .test
  let t2 ← symHere "Expecting symbol in subscript expression!"
  if t2.kind = .PyColon then do
    next
    let t3 ← symHere "Expecting symbol in subscript expression!"
    let second ←
      if t3.kind = .PyRightBracket ∨ t3.kind = .PyColon then pure .none else parse .test
    let t4 ← symHere "Expecting symbol in subscript expression!"
    next
    let t5 ← symHere "Expecting symbol in subscript expression!"
    let third ←
      if t5.kind = .PyRightBracket ∨ t5.kind = .PyColon then pure .none else parse .test
    mk .Subscript s [first, .tok t2, second, .tok t4, third]
  else mk .Subscript s [first, .none, .none, .none, .none]

/-- `expressions.rs` 1039-1044, 1082-1087: a single element without separator is returned as it
is. -/
def listResult (tag : Tag) (s : Nat) (nodes : List Tree) (seps : List Token) : Prog Tree :=
  match nodes, seps with
  | [x], [] => pure x
  | _, _ => mk tag s [.seq nodes, .toks seps]

/-- `expressions.rs` 1007-1044.  The value of the match of 1015-1031 is discarded: the loop goes
on and stops at the next test if no comma follows. -/
def exprlistLoopBody (s : Nat) (nodes : List Tree) (seps : List Token) : Prog Tree := do
  let t ← symHere "Expecting symbol in subscript list expression!"
  if t.kind = .PyComa then do
    next
    let t2 ← symHere "Expecting symbol in list expression!"
    if t2.kind = .PyIn then parse (.exprlistLoop s nodes (seps ++ [t]))
    else if t2.kind = .PyComa then failHere "Missing elements between two ',' in list expression!"
    else if t2.kind = .PyMul then do
      let x ← parse .starExpr
      parse (.exprlistLoop s (nodes ++ [x]) (seps ++ [t]))
    else do
      let x ← parse .namedExpression
      parse (.exprlistLoop s (nodes ++ [x]) (seps ++ [t]))
  else listResult .ExprList s nodes seps

/-- `expressions.rs` 992-1045 `parse_expressions_exprlist` -/
def exprlistBody : Prog Tree := do
  let s ← here
  let x ← starOrNamed
  parse (.exprlistLoop s [x] [])

/-- `expressions.rs` 1052-1087 -/
def testlistLoopBody (s : Nat) (nodes : List Tree) (seps : List Token) : Prog Tree := do
  let t ← symHere "Expecting symbol in subscript list expression!"
  if t.kind = .PyComa then do
    next
    let t2 ← symHere "Expecting symbol in list expression!"
    if t2.kind = .Newline ∨ t2.kind = .PySemiColon ∨ t2.kind = .EOF then
      parse (.testlistLoop s nodes (seps ++ [t]))
    else if t2.kind = .PyComa then failHere "Missing elements between two ',' in list expression!"
    else do
      let x ← parse .test
      parse (.testlistLoop s (nodes ++ [x]) (seps ++ [t]))
  else listResult .TestList s nodes seps

/-- `expressions.rs` 1047-1088 `parse_expressions_testlist` -/
def testlistBody : Prog Tree := do
  let s ← here
  let x ← parse .test
  parse (.testlistLoop s [x] [])

/-- `expressions.rs` 1137-1185, then 1225-1230.  The loop body ends with `false` (1179), so it
runs at most once and is not a function of its own here. -/
def dictRest (s : Nat) (nodes : List Tree) : Prog Tree := do
  let t ← symHere "Expecting symbol in argument list expression!"
  if t.kind = .PyComa then do
    next
    let t2 ← symHere "Expecting symbol in argument list expression!"
    if t2.kind = .PyRightCurly then fin nodes [t]
    else if t2.kind = .PyComa then
      failHere "Missing elements between two ',' in set list expression!"
    else if t2.kind = .PyPower then do
      next
      let right ← parse .expr
      let x ← mk .PowerDictionary s [.tok t2, right]
      fin (nodes ++ [x]) [t]
    else do
      let left ← parse .test
      let t3 ← symHere "Expecting symbol in argument list expression!"
      if t3.kind = .PyColon then do
        next
        let right ← parse .test
        let x ← mk .DictionaryEntry s [left, .tok t3, right]
        fin (nodes ++ [x]) [t]
      else failHere "Expecting ':' in dictionary entry expression!"
  else fin nodes []
where
  /-- 1225-1230 -/
  fin (nodes : List Tree) (seps : List Token) : Prog Tree :=
    mk .DictionaryContainer s [.seq nodes.reverse, .toks seps.reverse]

/-- `expressions.rs` 1188-1222, then 1225-1233 -/
def setLoopBody (s : Nat) (nodes : List Tree) (seps : List Token) : Prog Tree := do
  let t ← symHere "Expecting symbol in argument list expression!"
  if t.kind = .PyComa then do
    next
    let t2 ← symHere "Expecting symbol in argument list expression!"
    if t2.kind = .PyRightCurly then parse (.setLoop s nodes (seps ++ [t]))
    else if t2.kind = .PyComa then
      failHere "Missing elements between two ',' in set list expression!"
    else if t2.kind = .PyMul then do
      next
      let right ← parse .expr
      let x ← mk .MulSet s [.tok t2, right]
      parse (.setLoop s (nodes ++ [x]) (seps ++ [t]))
    else do
      let x ← parse .test
      parse (.setLoop s (nodes ++ [x]) (seps ++ [t]))
  else mk .SetContainer s [.seq nodes.reverse, .toks seps.reverse]

/-- `expressions.rs` 1090-1235 `parse_expressions_dictorset_maker` -/
def dictorsetMakerBody : Prog Tree := do
  let s ← here
  let t ← symHere "Expecting symbol in dictionary/set expression!"
  if t.kind = .PyMul then do
    next
    let right ← parse .expr
    let x ← mk .MulSet s [.tok t, right]
    parse (.setLoop s [x] [])
  else if t.kind = .PyPower then do
    next
    let right ← parse .expr
    let x ← mk .PowerDictionary s [.tok t, right]
    dictRest s [x]
  else do
    let left ← parse .test
    let t2 ← symHere "Expecting symbol in dictionary/set expression!"
    if t2.kind = .PyColon then do
      next
      let right ← parse .test
      let x ← mk .DictionaryEntry s [left, .tok t2, right]
      dictRest s [x]
    else parse (.setLoop s [left] [])

/-- `expressions.rs` 1242-1272 -/
def arglistLoopBody (s : Nat) (nodes : List Tree) (seps : List Token) : Prog Tree := do
  let t ← symHere "Expecting symbol in argument list expression!"
  if t.kind = .PyComa then do
    next
    let t2 ← symHere "Expecting symbol in argument list expression!"
    if t2.kind = .PyRightParen then parse (.arglistLoop s nodes (seps ++ [t]))
    else if t2.kind = .PyComa then
      failHere "Missing elements between two ',' in argument list expression!"
    else do
      let x ← parse .argument
      parse (.arglistLoop s (nodes ++ [x]) (seps ++ [t]))
  else mk .ArgList s [.seq nodes.reverse, .toks seps.reverse]

/-- `expressions.rs` 1237-1273 `parse_expressions_arglist` -/
def arglistBody : Prog Tree := do
  let s ← here
  let x ← parse .argument
  parse (.arglistLoop s [x] [])

/-- `expressions.rs` 1275-1316 `parse_expressions_argument` -/
def argumentBody : Prog Tree := do
  let s ← here
  let t ← symHere "Expecting symbol in argument expression!"
  if t.kind = .PyMul ∨ t.kind = .PyPower then do
    next
    let right ← parse .test
    mk .Argument s [.none, .tok t, right]
  else do
    let left ← parse .test
    let t2 ← symHere "Expecting symbol in argument expression!"
    if t2.kind = .PyFor ∨ t2.kind = .PyAsync then do
      let right ← parse .compFor
      mk .Argument s [left, .none, right]
    else if t2.kind = .PyColonAssign ∨ t2.kind = .PyAssign then do
      next
      let right ← parse .test
      mk .Argument s [left, .tok t2, right]
    else mk .Argument s [left, .none, .none]

/-- `expressions.rs` 1318-1334 `parse_expressions_comp_iter` -/
def compIterBody : Prog Tree := do
  let t ← symHere "Expecting symbol in compiter expression!"
  if t.kind = .PyFor ∨ t.kind = .PyAsync then parse .compFor
  else if t.kind = .PyIf then parse .compIf
  else failHere "Expecting 'if', 'for' or 'async' in compiter expression!"

/-- `expressions.rs` 1336-1380 `parse_expressions_sync_comp_for` -/
def syncCompForBody : Prog Tree := do
  let s ← here
  let t ← symHere "Expecting symbol in comprehension 'for' expression!"
  if t.kind = .PyFor then do
    next
    let left ← parse .exprlist
    let t2 ← symHere "Expecting 'for' in comprehension 'for' expression!"
    if t2.kind = .PyIn then do
      next
      let right ← parse .orTest
      let t3 ← symHere "Expecting symbol in comprehension 'for' expression!"
      if t3.kind = .PyAsync ∨ t3.kind = .PyFor ∨ t3.kind = .PyIf then do
        let nxt ← parse .compIter
        mk .SyncCompForComprehension s [.tok t, left, .tok t2, right, nxt]
      else mk .SyncCompForComprehension s [.tok t, left, .tok t2, right, .none]
    else failHere "Expecting 'in' in comprehension 'for' expression!"
  else failHere "Expecting 'for' in comprehension 'for' expression!"

/-- `expressions.rs` 1382-1400 `parse_expressions_comp_for` -/
def compForBody : Prog Tree := do
  let s ← here
  let t ← symHere "Expecting symbol in comprehension 'async' expression!"
  if t.kind = .PyAsync then do
    next
    let right ← parse .syncCompFor
    mk .CompForComprehension s [.tok t, right]
  else parse .syncCompFor

/-- `expressions.rs` 1402-1433 `parse_expressions_comp_if` -/
def compIfBody : Prog Tree := do
  let s ← here
  let t ← symHere "Expecting symbol in comprehension 'if' expression!"
  if t.kind = .PyIf then do
    next
    let right ← parse .noCondTest
    let t2 ← symHere "Expecting symbol in comprehension 'if' expression!"
    if t2.kind = .PyAsync ∨ t2.kind = .PyFor ∨ t2.kind = .PyIf then do
      let nxt ← parse .compIter
      mk .CompIfComprehension s [.tok t, right, nxt]
    else mk .CompIfComprehension s [.tok t, right, .none]
  else failHere "Expecting 'if' in comprehension 'if' expression!"

/-- `expressions.rs` 1435-1466 `parse_expressions_yield_expr` -/
def yieldExprBody : Prog Tree := do
  let s ← here
  let t ← symHere "Expecting symbol in comprehension 'yield' expression!"
  if t.kind = .PyYield then do
    next
    let t2 ← symHere "Expecting symbol in comprehension 'yield' expression!"
    if t2.kind = .PyFrom then do
      next
      let right ← parse .test
      mk .YieldFromExpr s [.tok t, .tok t2, right]
    else do
      let right ← parse .testlistStarExpr
      mk .YieldExpr s [.tok t, right]
  else failHere "Expecting symbol in comprehension 'yield' expression!"

/-- `expressions.rs` 1494-1511: the tokens that may follow a trailing comma. -/
def starListEnd : List Kind := [
  .PyPlusAssign, .PyMinusAssign, .PyMulAssign, .PyPowerAssign, .PyModuloAssign, .PyMatriceAssign,
  .PyFloorDivAssign, .PyDivAssign, .PyShiftLeftAssign, .PyShiftRightAssign, .PyBitAndAssign,
  .PyBitOrAssign, .PyBitXorAssign, .PyAssign, .PySemiColon, .Newline, .EOF, .PyColon]

/-- `expressions.rs` 1534-1539: like `listResult`, after the reversal of 1532-1533. -/
def testlistStarExprResult (s : Nat) (nodes : List Tree) (seps : List Token) : Prog Tree :=
  match nodes.reverse, seps.reverse with
  | [x], [] => pure x
  | ns, ss => mk .TestListStarExpr s [.seq ns, .toks ss]

/-- `expressions.rs` 1483-1539 -/
def testlistStarExprLoopBody (s : Nat) (nodes : List Tree) (seps : List Token) : Prog Tree := do
  let t ← symHere "Expecting symbol in subscript list expression!"
  if t.kind = .PyComa then do
    next
    let t2 ← symHere "Expecting symbol in list expression!"
    if t2.kind ∈ starListEnd then parse (.testlistStarExprLoop s nodes (seps ++ [t]))
    else if t2.kind = .PyComa then failHere "Missing elements between two ',' in list expression!"
    else if t2.kind = .PyMul then do
      let x ← parse .starExpr
      parse (.testlistStarExprLoop s (nodes ++ [x]) (seps ++ [t]))
    else do
      let x ← parse .test
      parse (.testlistStarExprLoop s (nodes ++ [x]) (seps ++ [t]))
  else testlistStarExprResult s nodes seps

/-- `expressions.rs` 1468-1540 `parse_expressions_testlist_star_expr` -/
def testlistStarExprBody : Prog Tree := do
  let s ← here
  let t ← symHere "Expecting symbol in list expression!"
  let x ← if t.kind = .PyMul then parse .starExpr else parse .test
  parse (.testlistStarExprLoop s [x] [])

/-- `expressions.rs` 1826-1828: the end of `parse_expressions_var_args_list`. -/
def varArgsResult (s : Nat) (v : VA) : Prog Tree :=
  mk .VarArgsList s
    [.seq v.nodes.reverse, .toks v.seps.reverse, v.mulS, v.mulN, v.powS, v.powN, v.div]

/-- The text of every `Expecting symbol` error of `parse_expressions_var_args_list`. -/
def vaMsg : String := "Expecting symbol in variable arguments list expression!"

/-- `expressions.rs` 1603-1617 = 1570-1585 = 1682-1697 = 1716-1731 = 1756-1771 = 1790-1805: `**`
(`t`), a name, an optional trailing comma.  Every use is followed by the end of the function. -/
def varArgsPower (s : Nat) (v : VA) (t : Token) : Prog Tree := do
  next
  let x ← parse .varArgsAssignments
  let t2 ← symHere vaMsg
  if t2.kind = .PyComa then do
    next
    varArgsResult s { v with powS := .tok t, powN := x, seps := v.seps ++ [t2] }
  else varArgsResult s { v with powS := .tok t, powN := x }

/-- `expressions.rs` 1556-1558 = 1668-1670 = 1742-1744: `*` (`t`) and a name, then the loop. -/
def varArgsMul (s : Nat) (v : VA) (t : Token) : Prog Tree := do
  next
  let x ← parse .varArgsAssignments
  parse (.varArgsStarLoop s { v with mulS := .tok t, mulN := x })

/-- `expressions.rs` 1559-1600 = 1671-1712 = 1745-1786: the loop after `* name`. -/
def varArgsStarLoopBody (s : Nat) (v : VA) : Prog Tree := do
  let t ← symHere vaMsg
  if t.kind = .PyComa then do
    next
    let t2 ← symHere vaMsg
    if t2.kind = .PyPower then varArgsPower s { v with seps := v.seps ++ [t] } t2
    else do
      let x ← parse .varArgsAssignments
      parse (.varArgsStarLoop s { v with seps := v.seps ++ [t], nodes := v.nodes ++ [x] })
  else varArgsResult s v

/-- `expressions.rs` 1634-1662: the loop after `/`, then 1664-1739.  `coma_found` is true exactly
when the loop is left at 1646, with `*` or `**` as the current symbol, which 1664-1732 then
matches; otherwise 1733-1735 applies. -/
def varArgsDivLoopBody (s : Nat) (v : VA) : Prog Tree := do
  let t ← symHere vaMsg
  if t.kind = .PyComa then do
    next
    let t2 ← symHere vaMsg
    if t2.kind = .PyMul then varArgsMul s { v with seps := v.seps ++ [t] } t2
    else if t2.kind = .PyPower then varArgsPower s { v with seps := v.seps ++ [t] } t2
    else do
      let x ← parse .varArgsAssignments
      parse (.varArgsDivLoop s { v with seps := v.seps ++ [t], nodes := v.nodes ++ [x] })
  else varArgsResult s v

/-- `expressions.rs` 1621-1820: the loop over the leading parameters. -/
def varArgsMainLoopBody (s : Nat) (v : VA) : Prog Tree := do
  let t ← symHere vaMsg
  if t.kind = .PyComa then do
    next
    let t2 ← symHere vaMsg
    if t2.kind = .PyDiv then do
      next
      parse (.varArgsDivLoop s { v with seps := v.seps ++ [t], div := .tok t2 })
    else if t2.kind = .PyMul then varArgsMul s { v with seps := v.seps ++ [t] } t2
    else if t2.kind = .PyPower then varArgsPower s { v with seps := v.seps ++ [t] } t2
    else do
      let x ← parse .varArgsAssignments
      parse (.varArgsMainLoop s { v with seps := v.seps ++ [t], nodes := v.nodes ++ [x] })
  else varArgsResult s v

/-- `expressions.rs` 1542-1829 `parse_expressions_var_args_list` -/
def varArgsListBody : Prog Tree := do
  let s ← here
  let t ← symHere vaMsg
  if t.kind = .PyMul then varArgsMul s {} t
  else if t.kind = .PyPower then varArgsPower s {} t
  else do
    let x ← parse .varArgsAssignments
    parse (.varArgsMainLoop s { nodes := [x] })

/-- `expressions.rs` 1831-1850 `parse_expressions_var_args_assignments` -/
def varArgsAssignmentsBody : Prog Tree := do
  let s ← here
  let left ← parse .vfpDef
  let t ← symHere "Expecting symbol in varargs assignment expression!"
  if t.kind = .PyAssign then do
    next
    let right ← parse .test
    mk .VFPAssign s [left, .tok t, right]
  else pure left

/-- `expressions.rs` 1852-1867 `parse_expressions_vfp_def` -/
def vfpDefBody : Prog Tree := do
  let s ← here
  let t ← symHere "Expecting symbol in vfpdef expression!"
  if t.kind = .AtomName then do next; mk .VFPDef s [.tok t]
  else failHere "Expecting name literal in vfpdef expression!"

end Verif
