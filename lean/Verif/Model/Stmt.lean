import Verif.Model.Parser

/-!
# Statement rules

Models `src/parser/statements.rs` 50-1895.  Conventions as in `Expr.lean`.
-/

namespace Verif
open Prog

/-- The tokens of `statements.rs` 56-64 (and of `blocks.rs` 110-118) -/
def compoundStart : List Kind := [
  .PyIf, .PyFor, .PyWhile, .PyWith, .PyTry, .PyAsync, .PyMatrice, .PyDef, .PyClass]

/-- `Token::AtomName(_, _, _, txt)` with `txt == "match"` -/
def Token.isMatchName : Token → Bool
  | .name _ _ _ txt => txt == cs! "match"
  | _ => false

/-- `statements.rs` 51-84 `parse_statements_stmt` -/
def stmtBody : Prog Tree := do
  let s ← here
  let t ← symAt s "Expecting symbol in statement"
  if t.kind ∈ compoundStart then parse .compoundStmt
  else if t.isMatchName then parse .patternsMatch
  else parse .simpleStmt

/-- `statements.rs` 91-134 -/
def simpleStmtLoopBody (s : Nat) (nodes : List Tree) (seps : List Token) : Prog Tree := do
  let t ← symAt s "Expecting symbol in statement list!"
  if t.kind = .PySemiColon then do
    next
    let t2 ← symAt s "Expecting symbol in statement list!"
    if t2.kind = .Newline ∨ t2.kind = .EOF then fin (seps ++ [t])
    else do
      let x ← parse .smallStmt
      parse (.simpleStmtLoop s (nodes ++ [x]) (seps ++ [t]))
  else fin seps
where
  /-- 121-134 -/
  fin (seps : List Token) : Prog Tree := do
    let t3 ← symAt s "Expecting symbol in statement list!"
    if t3.kind = .Newline then do
      next
      mk .SimpleStmtList s [.seq nodes.reverse, .toks seps.reverse, .tok t3]
    else fail s "Expecting Newline at end of statement list!"

/-- `statements.rs` 86-135 `parse_statements_simple_stmt` -/
def simpleStmtBody : Prog Tree := do
  let s ← here
  let x ← parse .smallStmt
  parse (.simpleStmtLoop s [x] [])

/-- `statements.rs` 137-175 `parse_statements_small_stmt` -/
def smallStmtBody : Prog Tree := do
  let s ← here
  let t ← symAt s "Expecting symbol in simple statement!"
  if t.kind = .PyDel then parse .delStmt
  else if t.kind = .PyPass then parse .passStmt
  else if t.kind ∈ [Kind.PyBreak, .PyContinue, .PyReturn, .PyRaise, .PyYield] then parse .flowStmt
  else if t.kind = .PyImport ∨ t.kind = .PyFrom then parse .importStmt
  else if t.kind = .PyGlobal then parse .globalStmt
  else if t.kind = .PyNonLocal then parse .nonlocalStmt
  else if t.kind = .PyAssert then parse .assertStmt
  else parse .exprStmt

/-- `statements.rs` 233-479: the augmented assignment operators. -/
def augOp : Kind → Option Tag
  | .PyPlusAssign => some .PlusAssignStmt
  | .PyMinusAssign => some .MinusAssignStmt
  | .PyMulAssign => some .MulAssignStmt
  | .PyPowerAssign => some .PowerAssignStmt
  | .PyDivAssign => some .DivAssignStmt
  | .PyFloorDivAssign => some .FloorDivAssignStmt
  | .PyModuloAssign => some .ModuloAssignStmt
  | .PyMatriceAssign => some .MatriceAssignStmt
  | .PyBitAndAssign => some .BitAndAssignStmt
  | .PyBitOrAssign => some .BitOrAssignStmt
  | .PyBitXorAssign => some .BitXorAssignStmt
  | .PyShiftLeftAssign => some .ShiftLeftAssignStmt
  | .PyShiftRightAssign => some .ShiftRightAssignStmt
  | _ => none

/-- `statements.rs` 195-210 and its copies: the right hand side of an assignment. -/
def yieldOrTestlist (s : Nat) : Prog Tree := do
  let t ← symAt s "Expecting symbol in expression statement!"
  if t.kind = .PyYield then parse .yieldExpr else parse .testlist

/-- `statements.rs` 188-231: the loop over `= rhs`, then the optional type comment. -/
def assignLoopBody (s : Nat) (left : Tree) (nodes : List Tree) : Prog Tree := do
  let t ← symAt s "Expecting symbol in expression statement!"
  if t.kind = .PyAssign then do
    next
    let right ← yieldOrTestlist s
    parse (.assignLoop s left (nodes ++ [.seq [.tok t, right]]))
  else if t.kind = .TypeComment then do
    next
    mk .AssignmentStmt s [left, .seq nodes, .tok t]
  else mk .AssignmentStmt s [left, .seq nodes, .none]

/-- `statements.rs` 177-487 `parse_statements_expr_stmt` -/
def exprStmtBody : Prog Tree := do
  let s ← here
  let left ← parse .testlistStarExpr
  let t ← symAt s "Expecting symbol in expression statement!"
  if t.kind = .PyColon then parse (.annAssign s left)
  else if t.kind = .PyAssign then parse (.assignLoop s left [])
  else
    match augOp t.kind with
    | some tag => do
      next
      let right ← yieldOrTestlist s
      mk tag s [left, .tok t, right]
    | none => pure left

/-- `statements.rs` 489-532 `parse_statements_ann_assign` -/
def annAssignBody (s : Nat) (left : Tree) : Prog Tree := do
  let t ← symAt s "Expecting symbol in annotation assignment statement!"
  if t.kind = .PyColon then do
    next
    let right ← parse .test
    let t2 ← symAt s "Expecting symbol in annotation assignment statement!"
    if t2.kind = .PyAssign then do
      next
      let nxt ← yieldOrTestlist s
      mk .AnnAssignStmt s [left, .tok t, right, .seq [.tok t2, nxt]]
    else mk .AnnAssignStmt s [left, .tok t, right, .none]
  else fail s "Expecting ':' in annotation assignment statement!"

/-- `statements.rs` 534-550 `parse_statements_del_stmt` -/
def delStmtBody : Prog Tree := do
  let s ← here
  let t ← symAt s "Expecting symbol in 'del' statement!"
  if t.kind = .PyDel then do
    next
    let right ← parse .exprlist
    mk .DelStmt s [.tok t, right]
  else fail s "Expecting 'del' in del statement!"

/-- `statements.rs` 552-567 `parse_statements_pass_stmt` -/
def passStmtBody : Prog Tree := do
  let s ← here
  let t ← symAt s "Expecting symbol in 'pass' statement!"
  if t.kind = .PyPass then do next; mk .PassStmt s [.tok t]
  else fail s "Expecting 'pass' in pass statement!"

/-- `statements.rs` 569-594 `parse_statements_flow_stmt` -/
def flowStmtBody : Prog Tree := do
  let s ← here
  let t ← symAt s "Expecting symbol in flow statement!"
  if t.kind = .PyBreak then parse .breakStmt
  else if t.kind = .PyContinue then parse .continueStmt
  else if t.kind = .PyReturn then parse .returnStmt
  else if t.kind = .PyRaise then parse .raiseStmt
  else if t.kind = .PyYield then parse .yieldStmt
  else fail s "Expecting flow statement!"

/-- `statements.rs` 596-611 `parse_statements_break_stmt` -/
def breakStmtBody : Prog Tree := do
  let s ← here
  let t ← symAt s "Expecting symbol in 'break' statement!"
  if t.kind = .PyBreak then do next; mk .BreakStmt s [.tok t]
  else fail s "Expecting 'break' in break statement!"

/-- `statements.rs` 613-628 `parse_statements_continue_stmt` -/
def continueStmtBody : Prog Tree := do
  let s ← here
  let t ← symAt s "Expecting symbol in 'continue' statement!"
  if t.kind = .PyContinue then do next; mk .ContinueStmt s [.tok t]
  else fail s "Expecting 'continue' in pass statement!"

/-- `statements.rs` 630-660 `parse_statements_return_stmt` -/
def returnStmtBody : Prog Tree := do
  let s ← here
  let t ← symAt s "Expecting symbol in 'return' statement!"
  if t.kind = .PyReturn then do
    next
    let t2 ← symAt s "Expecting symbol in 'return' statement!"
    if t2.kind = .PySemiColon ∨ t2.kind = .Newline ∨ t2.kind = .EOF then
      mk .ReturnStmt s [.tok t, .none]
    else do
      let right ← parse .testlistStarExpr
      mk .ReturnStmt s [.tok t, right]
  else fail s "Expecting 'return' in 'return' statement!"

/-- `statements.rs` 662-664 `parse_statements_yield_stmt` -/
def yieldStmtBody : Prog Tree := parse .yieldExpr

/-- `statements.rs` 666-711 `parse_statements_raise_stmt` -/
def raiseStmtBody : Prog Tree := do
  let s ← here
  let t ← symAt s "Expecting Symbol in 'raise' statement!"
  if t.kind = .PyRaise then do
    next
    let t2 ← symAt s "Expecting Symbol in 'raise' statement!"
    if t2.kind = .PySemiColon ∨ t2.kind = .Newline ∨ t2.kind = .EOF then
      mk .RaiseStmt s [.tok t, .none]
    else do
      let left ← parse .test
      let t3 ← symAt s "Expecting Symbol in 'raise' statement!"
      if t3.kind = .PyFrom then do
        next
        let right ← parse .test
        mk .RaiseStmt s [.tok t, .seq [left, .seq [.tok t3, right]]]
      else mk .RaiseStmt s [.tok t, .seq [left, .none]]
  else fail s "Expecting 'raise' in 'raise' statement!"

/-- `statements.rs` 713-729 `parse_statements_import_stmt` (719 calls the function itself, not
`parse_statements_import_name`) -/
def importStmtBody : Prog Tree := do
  let s ← here
  let t ← symAt s "Expecting symbol in 'import' or 'from' statement!"
  if t.kind = .PyImport then parse .importStmt
  else if t.kind = .PyFrom then parse .importFrom
  else fail s "Expecting 'import' or 'from' in statement!"

/-- `statements.rs` 731-747 `parse_statements_import_name` -/
def importNameBody : Prog Tree := do
  let s ← here
  let t ← symAt s "Expecting symbol in 'import' statement!"
  if t.kind = .PyImport then do
    next
    let right ← parse .dottedAsNames
    mk .ImportNameStmt s [.tok t, right]
  else fail s "Expecting 'import' in import statement!"

/-- `statements.rs` 776-838: `parse_statements_import_from` after the dots. -/
def importFromRest (s : Nat) (t : Token) (dots : List Token) : Prog Tree := do
  let t3 ← symAt s "Expecting symbol in 'from' statement!"
  let left ←
    if t3.kind = .PyImport then
      if dots.reverse.length = 0 then fail s "Expecting '.' in from part of import statement!"
      else pure .none
    else parse .dottedName
  let t4 ← symAt s "Expecting 'import' in from import statement!"
  if t4.kind = .PyImport then do
    next
    let t5 ← symAt s "Expecting symbol in 'from' statement!"
    if t5.kind = .PyMul then do
      next
      mk .ImportFromStmt s [.tok t, .toks dots.reverse, left, .tok t4, .tok t5, .none, .none]
    else if t5.kind = .PyLeftParen then do
      next
      let right ← parse .importAsNames
      let t6 ← symAt s "Expecting symbol in 'from' statement!"
      if t6.kind = .PyRightParen then do
        next
        mk .ImportFromStmt s
          [.tok t, .toks dots.reverse, left, .tok t4, .tok t5, right, .tok t6]
      else fail s "Expecting ')' in from import statement!"
    else do
      let right ← parse .importAsNames
      mk .ImportFromStmt s [.tok t, .toks dots.reverse, left, .tok t4, .none, right, .none]
  else fail s "Expecting symbol in 'from' statement!"

/-- `statements.rs` 758-774: the leading dots. -/
def importDotLoopBody (s : Nat) (t : Token) (dots : List Token) : Prog Tree := do
  match ← sym? with
  | some t2 =>
    if t2.kind = .PyDot ∨ t2.kind = .PyElipsis then do
      next
      parse (.importDotLoop s t (dots ++ [t2]))
    else importFromRest s t dots
  | none => importFromRest s t dots

/-- `statements.rs` 749-845 `parse_statements_import_from` -/
def importFromBody : Prog Tree := do
  let s ← here
  let t ← symAt s "Expecting symbol in 'from' statement!"
  if t.kind = .PyFrom then do
    next
    parse (.importDotLoop s t [])
  else fail s "Expecting 'from' in import statement!"

/-- `statements.rs` 847-888 `parse_statements_import_as_name` -/
def importAsNameBody : Prog Tree := do
  let s ← here
  let t ← symAt s "Expecting symbol in import as name statement!"
  if t.kind = .AtomName then do
    next
    let t2 ← symAt s "Expecting symbol in import as name statement!"
    if t2.kind = .PyAs then do
      next
      let t3 ← symAt s "Expecting symbol in import as name statement!"
      if t3.kind = .AtomName then do
        next
        mk .ImportAsName s [.tok t, .seq [.tok t2, .tok t3]]
      else fail s "Expecting name literal in import as name statement!"
    else mk .ImportAsName s [.tok t, .none]
  else fail s "Expecting name literal in import as name statement!"

/-- `statements.rs` 890-930 `parse_statements_dotted_as_name` -/
def dottedAsNameBody : Prog Tree := do
  let s ← here
  let t ← symAt s "Expecting symbol in dotted as name statement!"
  if t.kind = .AtomName then do
    let left ← parse .dottedName
    let t2 ← symAt s "Expecting symbol in dotted as name statement!"
    if t2.kind = .PyAs then do
      next
      let t3 ← symAt s "Expecting symbol in dotted as name statement!"
      if t3.kind = .AtomName then do
        next
        mk .DottedAsNameStmt s [left, .seq [.tok t2, .tok t3]]
      else fail s "Expecting name literal in dotted as name statement!"
    else mk .DottedAsNameStmt s [left, .none]
  else fail s "Expecting name literal in dotted as name statement!"

/-- `statements.rs` 937-954 -/
def importAsNamesLoopBody (s : Nat) (nodes : List Tree) (seps : List Token) : Prog Tree := do
  let t ← symAt s "Expecting symbol in import as names statement!"
  if t.kind = .PyComa then do
    next
    let x ← parse .importAsName
    parse (.importAsNamesLoop s (nodes ++ [x]) (seps ++ [t]))
  else mk .ImportAsNamesStmt s [.seq nodes.reverse, .toks seps.reverse]

/-- `statements.rs` 932-955 `parse_statements_import_as_names` -/
def importAsNamesBody : Prog Tree := do
  let s ← here
  let x ← parse .importAsName
  parse (.importAsNamesLoop s [x] [])

/-- `statements.rs` 962-979 -/
def dottedAsNamesLoopBody (s : Nat) (nodes : List Tree) (seps : List Token) : Prog Tree := do
  let t ← symAt s "Expecting symbol in dotted as name statement!"
  if t.kind = .PyComa then do
    next
    let x ← parse .dottedAsName
    parse (.dottedAsNamesLoop s (nodes ++ [x]) (seps ++ [t]))
  else mk .DottedAsNamesStmt s [.seq nodes.reverse, .toks seps.reverse]

/-- `statements.rs` 957-980 `parse_statements_dotted_as_names` -/
def dottedAsNamesBody : Prog Tree := do
  let s ← here
  let x ← parse .dottedAsName
  parse (.dottedAsNamesLoop s [x] [])

/-- `statements.rs` 992-1020 -/
def dottedNameLoopBody (s : Nat) (nodes seps : List Token) : Prog Tree := do
  let t ← symAt s "Expecting symbol in dotted name statement!"
  if t.kind = .PyDot then do
    next
    let t2 ← symAt s "Expecting symbol in dotted name statement!"
    if t2.kind = .AtomName then do
      next
      parse (.dottedNameLoop s (nodes ++ [t2]) (seps ++ [t]))
    else fail s "Expecting literal name in import statement!"
  else mk .DottedNameStmt s [.toks nodes.reverse, .toks seps.reverse]

/-- `statements.rs` 982-1027 `parse_statements_dotted_name` -/
def dottedNameBody : Prog Tree := do
  let s ← here
  let t ← symAt s "Expecting symbol in dotted name statement!"
  if t.kind = .AtomName then do
    next
    parse (.dottedNameLoop s [t] [])
  else fail s "Expecting literal name in import statement!"

/-- `statements.rs` 1051-1079 -/
def globalLoopBody (s : Nat) (sym : Token) (nodes seps : List Token) : Prog Tree := do
  let t ← symAt s "Expecting symbol in 'global' statement!"
  if t.kind = .PyComa then do
    next
    let t2 ← symAt s "Expecting 'global' in global statement!"
    if t2.kind = .AtomName then do
      next
      parse (.globalLoop s sym (nodes ++ [t2]) (seps ++ [t]))
    else fail s "Expecting name literal in global statement!"
  else mk .GlobalStmt s [.tok sym, .toks nodes.reverse, .toks seps.reverse]

/-- `statements.rs` 1029-1086 `parse_statements_global_stmt` -/
def globalStmtBody : Prog Tree := do
  let s ← here
  let t ← symAt s "Expecting symbol in 'global' statement!"
  if t.kind = .PyGlobal then do
    next
    let t2 ← symAt s "Expecting symbol in 'global' statement!"
    if t2.kind = .AtomName then do
      next
      parse (.globalLoop s t [t2] [])
    else fail s "Expecting name literal in global statement!"
  else fail s "Expecting 'global' in global statement!"

/-- `statements.rs` 1110-1138 -/
def nonlocalLoopBody (s : Nat) (sym : Token) (nodes seps : List Token) : Prog Tree := do
  let t ← symAt s "Expecting symbol in 'nonlocal' statement!"
  if t.kind = .PyComa then do
    next
    let t2 ← symAt s "Expecting 'nonlocal' in global statement!"
    if t2.kind = .AtomName then do
      next
      parse (.nonlocalLoop s sym (nodes ++ [t2]) (seps ++ [t]))
    else fail s "Expecting name literal in nonlocal statement!"
  else mk .NonLocalStmt s [.tok sym, .toks nodes.reverse, .toks seps.reverse]

/-- `statements.rs` 1088-1145 `parse_statements_nonlocal_stmt` -/
def nonlocalStmtBody : Prog Tree := do
  let s ← here
  let t ← symAt s "Expecting symbol in 'nonlocal' statement!"
  if t.kind = .PyNonLocal then do
    next
    let t2 ← symAt s "Expecting symbol in 'nonlocal' statement!"
    if t2.kind = .AtomName then do
      next
      parse (.nonlocalLoop s t [t2] [])
    else fail s "Expecting name literal in nonlocal statement!"
  else fail s "Expecting 'nonlocal' in nonlocal statement!"

/-- `statements.rs` 1147-1178 `parse_statements_assert_stmt` (1159 tests for `from`) -/
def assertStmtBody : Prog Tree := do
  let s ← here
  let t ← symAt s "Expecting symbol in 'assert' statement!"
  if t.kind = .PyAssert then do
    next
    let left ← parse .test
    let t2 ← symAt s "Expecting symbol in 'assert' statement!"
    if t2.kind = .PyFrom then do
      next
      let right ← parse .test
      mk .AssertStmt s [.tok t, left, .seq [.tok t2, right]]
    else mk .AssertStmt s [.tok t, left, .none]
  else fail s "Expecting 'assert' in assert statement!"

/-- `statements.rs` 1180-1217 `parse_statements_compound_stmt` -/
def compoundStmtBody : Prog Tree := do
  let s ← here
  let t ← symAt s "Expecting symbol in compound statement!"
  if t.kind = .PyIf then parse .ifStmt
  else if t.kind = .PyWhile then parse .whileStmt
  else if t.kind = .PyFor then parse .forStmt
  else if t.kind = .PyTry then parse .tryStmt
  else if t.kind = .PyWith then parse .withStmt
  else if t.kind = .PyDef then parse .funcDef
  else if t.kind = .PyClass then parse .classDef
  else if t.kind = .PyMatrice then parse .decorated
  else if t.kind = .PyAsync then parse .asyncStmt
  else fail s "Expecting compound statement!"

/-- `statements.rs` 1219-1253 `parse_statements_async_stmt` (1231 calls `class_def`) -/
def asyncStmtBody : Prog Tree := do
  let s ← here
  let t ← symAt s "Expecting symbol in async statement!"
  if t.kind = .PyAsync then do
    next
    let t2 ← symAt s "Expecting symbol in async statement!"
    if t2.kind = .PyDef then do
      let right ← parse .classDef
      mk .AsyncStmt s [.tok t, right]
    else if t2.kind = .PyWith then do
      let right ← parse .withStmt
      mk .AsyncStmt s [.tok t, right]
    else if t2.kind = .PyFor then do
      let right ← parse .forStmt
      mk .AsyncStmt s [.tok t, right]
    else fail s "Expecting 'def', 'with' or 'for' in 'async' statement!"
  else fail s "Expecting 'async' in async statement!"

/-- `statements.rs` 1272-1299: the `elif` loop and the optional `else`. -/
def ifLoopBody (s : Nat) (t : Token) (left : Tree) (t2 : Token) (right : Tree)
    (nodes : List Tree) : Prog Tree := do
  let t3 ← symAt s "Expecting symbol in if statement!"
  if t3.kind = .PyElif then do
    let x ← parse .elifStmt
    parse (.ifLoop s t left t2 right (nodes ++ [x]))
  else if t3.kind = .PyElse then do
    let nxt ← parse .elseStmt
    mk .IfStmt s [.tok t, left, .tok t2, right, .seq nodes.reverse, nxt]
  else mk .IfStmt s [.tok t, left, .tok t2, right, .seq nodes.reverse, .none]

/-- `statements.rs` 1255-1312 `parse_statements_if_stmt` -/
def ifStmtBody : Prog Tree := do
  let s ← here
  let t ← symAt s "Expecting symbol in if statement!"
  if t.kind = .PyIf then do
    next
    let left ← parse .test
    let t2 ← symAt s "Expecting symbol in if statement!"
    if t2.kind = .PyColon then do
      next
      let right ← parse .suite
      parse (.ifLoop s t left t2 right [])
    else fail s "Expecting ':' in if statement!"
  else fail s "Expecting symbol in 'if' statement!"

/-- `statements.rs` 1314-1343 `parse_statements_elif_stmt` -/
def elifStmtBody : Prog Tree := do
  let s ← here
  let t ← symAt s "Expecting symbol in elif statement!"
  if t.kind = .PyElif then do
    next
    let left ← parse .test
    let t2 ← symAt s "Expecting symbol in elif statement!"
    if t2.kind = .PyColon then do
      next
      let right ← parse .suite
      mk .ElifStmt s [.tok t, left, .tok t2, right]
    else fail s "Expecting ':' in elif statement!"
  else fail s "Expecting 'elif' in elif statement!"

/-- `statements.rs` 1345-1374 `parse_statements_else_stmt` -/
def elseStmtBody : Prog Tree := do
  let s ← here
  let t ← symAt s "Expecting symbol in else statement!"
  if t.kind = .PyElse then do
    next
    let t2 ← symAt s "Expecting symbol in elif statement!"
    if t2.kind = .PyColon then do
      next
      let right ← parse .suite
      mk .ElseStmt s [.tok t, .tok t2, right]
    else fail s "Expecting ':' in else statement!"
  else fail s "Expecting 'else' in elif statement!"

/-- `statements.rs` 1376-1418 `parse_statements_while_stmt` -/
def whileStmtBody : Prog Tree := do
  let s ← here
  let t ← symAt s "Expecting symbol in while statement!"
  if t.kind = .PyWhile then do
    next
    let left ← parse .test
    let t2 ← symAt s "Expecting symbol in while statement!"
    if t2.kind = .PyColon then do
      next
      let right ← parse .suite
      let t3 ← symAt s "Expecting symbol in while statement!"
      if t3.kind = .PyElse then do
        let nxt ← parse .elseStmt
        mk .WhileStmt s [.tok t, left, .tok t2, right, nxt]
      else mk .WhileStmt s [.tok t, left, .tok t2, right, .none]
    else fail s "Expecting ':' in while statement!"
  else fail s "Expecting 'while' in while statement!"

/-- `statements.rs` 1420-1488 `parse_statements_for_stmt` -/
def forStmtBody : Prog Tree := do
  let s ← here
  let t ← symAt s "Expecting symbol in for statement!"
  if t.kind = .PyFor then do
    next
    let left ← parse .exprlist
    let t2 ← symAt s "Expecting symbol in for statement!"
    if t2.kind = .PyIn then do
      next
      let right ← parse .testlist
      let t3 ← symAt s "Expecting symbol in for statement!"
      if t3.kind = .PyColon then do
        next
        let t4 ← symAt s "Expecting symbol in for statement!"
        let tc ← if t4.kind = .TypeComment then do next; pure (.tok t4) else pure .none
        let nxt ← parse .suite
        let t5 ← symAt s "Expecting symbol in for statement!"
        if t5.kind = .PyElse then do
          let els ← parse .elseStmt
          mk .ForStmt s [.tok t, left, .tok t2, right, .tok t3, tc, nxt, els]
        else mk .ForStmt s [.tok t, left, .tok t2, right, .tok t3, tc, nxt, .none]
      else fail s "Expecting ':' in for statement!"
    else fail s "Expecting 'in' in for statement!"
  else fail s "Expecting 'for' in for statement!"

/-- `statements.rs` 1518-1554: the loop over `except` clauses, optional `else` and `finally`. -/
def tryLoopBody (s : Nat) (t t2 : Token) (left : Tree) (nodes : List Tree) : Prog Tree := do
  let t4 ← symAt s "Expecting symbol in try statement!"
  if t4.kind = .PyExcept then do
    let x ← parse .exceptStmt
    parse (.tryLoop s t t2 left (nodes ++ [x]))
  else do
    let t5 ← symAt s "Expecting symbol in try statement!"
    let els ← if t5.kind = .PyElse then parse .elseStmt else pure .none
    let t6 ← symAt s "Expecting symbol in try statement!"
    let right ← if t6.kind = .PyFinally then parse .finallyStmt else pure .none
    mk .TryStmt s [.tok t, .tok t2, left, .seq nodes.reverse, els, right]

/-- `statements.rs` 1490-1572 `parse_statements_try_stmt` -/
def tryStmtBody : Prog Tree := do
  let s ← here
  let t ← symAt s "Expecting symbol in try statement!"
  if t.kind = .PyTry then do
    next
    setExc .exceptNone (pure ())
    let t2 ← symAt s "Expecting symbol in try statement!"
    if t2.kind = .PyColon then do
      next
      let left ← parse .suite
      let t3 ← symAt s "Expecting symbol in try statement!"
      if t3.kind = .PyFinally then do
        let right ← parse .finallyStmt
        mk .TryStmt s [.tok t, .tok t2, left, .none, .none, right]
      else do
        let x ← parse .exceptStmt
        parse (.tryLoop s t t2 left [x])
    else fail s "Expecting ':' in try statement!"
  else fail s "Expecting 'try' in try statement!"

/-- `statements.rs` 1574-1602 `parse_statements_finally_stmt` -/
def finallyStmtBody : Prog Tree := do
  let s ← here
  let t ← symAt s "Expecting symbol in finally statement!"
  if t.kind = .PyFinally then do
    next
    let t2 ← symAt s "Expecting symbol in finally statement!"
    if t2.kind = .PyColon then do
      next
      let right ← parse .suite
      mk .FinallyStmt s [.tok t, .tok t2, right]
    else fail s "Expecting ':' in finally statement!"
  else fail s "Expecting 'finally' in finally statement!"

/-- `statements.rs` 1684-1699: colon, suite, node. -/
def withRest (s : Nat) (t : Token) (lpar : Tree) (nodes : List Tree) (seps : List Token)
    (rpar : Tree) : Prog Tree := do
  let t2 ← symAt s "Expecting symbol in with statement!"
  if t2.kind = .PyColon then do
    next
    let right ← parse .suite
    mk .WithStmt s [.tok t, lpar, .seq nodes.reverse, .toks seps.reverse, rpar, .tok t2, right]
  else fail s "Expecting ':' in with statement!"

/-- `statements.rs` 1649-1660 -/
def withParenEnd (s : Nat) (t lpar : Token) (nodes : List Tree) (seps : List Token) :
    Prog Tree := do
  let t7 ← symAt s "Expecting symbol in with statement!"
  if t7.kind = .PyRightParen then do
    next
    withRest s t (.tok lpar) nodes seps (.tok t7)
  else fail s "Expecting ')' in with statement!"

/-- `statements.rs` 1624-1648 -/
def withParenLoopBody (s : Nat) (t lpar : Token) (nodes : List Tree) (seps : List Token) :
    Prog Tree := do
  let t5 ← symAt s "Expecting symbol in with statement!"
  if t5.kind = .PyComa then do
    next
    let t6 ← symAt s "Expecting symbol in with statement!"
    if t6.kind = .PyRightParen then withParenEnd s t lpar nodes (seps ++ [t5])
    else do
      let x ← parse .withItem
      parse (.withParenLoop s t lpar (nodes ++ [x]) (seps ++ [t5]))
  else withParenEnd s t lpar nodes seps

/-- `statements.rs` 1664-1678 -/
def withLoopBody (s : Nat) (t : Token) (nodes : List Tree) (seps : List Token) : Prog Tree := do
  let t4 ← symAt s "Expecting symbol in with statement!"
  if t4.kind = .PyComa then do
    next
    let x ← parse .withItem
    parse (.withLoop s t (nodes ++ [x]) (seps ++ [t4]))
  else withRest s t .none nodes seps .none

/-- `statements.rs` 1604-1706 `parse_statements_with_stmt` -/
def withStmtBody : Prog Tree := do
  let s ← here
  let t ← symAt s "Expecting symbol in with statement!"
  if t.kind = .PyWith then do
    next
    let t3 ← symAt s "Expecting symbol in with statement!"
    if t3.kind = .PyLeftParen then do
      next
      let x ← parse .withItem
      parse (.withParenLoop s t t3 [x] [])
    else do
      let x ← parse .withItem
      parse (.withLoop s t [x] [])
  else fail s "Expecting 'with' in finally statement!"

/-- `statements.rs` 1708-1727 `parse_statements_with_item` (1718 builds an `ExceptStmt`) -/
def withItemBody : Prog Tree := do
  let s ← here
  let left ← parse .test
  let t ← symAt s "Expecting symbol in with item statement!"
  if t.kind = .PyAs then do
    next
    let right ← parse .expr
    mk .ExceptStmt s [left, .tok t, right]
  else mk .WithItem s [left, .none]

/-- `statements.rs` 1729-1746 `parse_statements_except_stmt` -/
def exceptStmtBody : Prog Tree := do
  let s ← here
  let left ← parse .exceptClause
  let t ← symAt s "Expecting symbol in except statement!"
  if t.kind = .PyColon then do
    next
    let right ← parse .suite
    mk .ExceptStmt s [left, .tok t, right]
  else fail s "Expecting ':' in except statement!"

/-- `statements.rs` 1759-1782: `*` or not, against `except_status`. -/
def exceptStar (s : Nat) : Prog Tree := do
  let t10 ← symAt s "Expecting symbol in except statement!"
  if t10.kind = .PyMul then do
    next
    getExc fun x =>
      match x with
      | .exceptNone => setExc .exceptMul (pure (.tok t10))
      | .except => fail s "Expecting 'except*' except statement!"
      | .exceptMul => pure (.tok t10)
  else
    getExc fun x =>
      match x with
      | .exceptNone => setExc .except (pure .none)
      | .exceptMul => fail s "Expecting 'except' except statement!"
      | .except => pure .none

/-- `statements.rs` 1748-1833 `parse_statements_except_clause` -/
def exceptClauseBody : Prog Tree := do
  let s ← here
  let t ← symAt s "Expecting symbol in except clause statement!"
  if t.kind = .PyExcept then do
    next
    let mul ← exceptStar s
    let t2 ← symAt s "Expecting symbol in except statement!"
    if t2.kind = .PyColon then mk .ExceptClauseStmt s [.tok t, mul, .none]
    else do
      let left ← parse .test
      let t3 ← symAt s "Expecting symbol in except statement!"
      if t3.kind = .PyAs then do
        next
        let t4 ← symAt s "Expecting symbol in except clause statement!"
        if t4.kind = .AtomName then do
          next
          mk .ExceptClauseStmt s [.tok t, mul, .seq [left, .seq [.tok t3, .tok t4]]]
        else fail s "Expecting name literal after 'as' in except statement!"
      else mk .ExceptClauseStmt s [.tok t, mul, .seq [left, .none]]
  else fail s "Expecting 'except' in except statement!"

/-- `statements.rs` 1853-1885 -/
def suiteLoopBody (s : Nat) (t t2 : Token) (nodes : List Tree) : Prog Tree := do
  let t3 ← symAt s "Expecting symbol in suite statement!"
  if t3.kind = .Dedent then do
    next
    mk .SuiteStmt s [.tok t, .tok t2, .seq nodes.reverse, .tok t3]
  else do
    let x ← parse .stmt
    parse (.suiteLoop s t t2 (nodes ++ [x]))

/-- `statements.rs` 1835-1894 `parse_statements_suite` -/
def suiteBody : Prog Tree := do
  let s ← here
  let t ← symAt s "Expecting symbol in suite statement!"
  if t.kind = .Newline then do
    next
    let t2 ← symAt s "Expecting symbol in suite statement!"
    if t2.kind = .Indent then do
      next
      let x ← parse .stmt
      parse (.suiteLoop s t t2 [x])
    else fail s "Expecting indentation in suite statement!"
  else parse .simpleStmt

end Verif
