import Verif.Model.Stmt

/-!
# Entry points, definitions, function types, patterns

Models `src/parser/blocks.rs` 25-682, `src/parser/functions.rs` 11-196 and
`src/parser/patterns.rs`.  Conventions as in `Expr.lean`.
-/

namespace Verif
open Prog

/-- `blocks.rs` 31-57 -/
def evalLoopBody (s : Nat) (right : Tree) (seps : List Token) : Prog Tree := do
  let t ← symAt s "Expecting symbol in eval expression!"
  if t.kind = .Newline then do
    next
    parse (.evalLoop s right (seps ++ [t]))
  else if t.kind = .EOF then mk .EvalInput s [right, .toks seps.reverse, .tok t]
  else fail s "Expecting send of file in eval expression!"

/-- `blocks.rs` 26-58 `parse_blocks_eval_input` -/
def evalInputBody : Prog Tree := do
  next
  let s ← here
  let right ← parse .testlist
  parse (.evalLoop s right [])

/-- `blocks.rs` 65-96.  The loop is left only at 69, with `EOF` as the current symbol, which
85-96 then matches. -/
def fileLoopBody (s : Nat) (nodes : List Tree) (seps : List Token) : Prog Tree := do
  let t ← symAt s "Expecting symbol in eval expression!"
  if t.kind = .EOF then mk .FileInput s [.seq nodes.reverse, .toks seps.reverse, .tok t]
  else if t.kind = .Newline then do
    next
    parse (.fileLoop s nodes (seps ++ [t]))
  else do
    let x ← parse .stmt
    parse (.fileLoop s (nodes ++ [x]) seps)

/-- `blocks.rs` 60-97 `parse_blocks_file_input` -/
def fileInputBody : Prog Tree := do
  next
  let s ← here
  parse (.fileLoop s [] [])

/-- `blocks.rs` 120-131 = 137-148: a `Newline` must follow (it is stored but not consumed). -/
def singleNewline (s : Nat) (right : Tree) : Prog Tree := do
  let t ← symAt s "Expecting symbol in single input!"
  if t.kind = .Newline then mk .SingleInput s [right, .tok t]
  else fail s "Expecting Newline after compound statement in single input!"

/-- `blocks.rs` 99-164 `parse_blocks_single_input` -/
def singleInputBody : Prog Tree := do
  next
  let s ← here
  let t ← symAt s "Expecting symbol in single input!"
  if t.kind = .Newline then do
    next
    mk .SingleInput s [.none, .tok t]
  else if t.kind ∈ compoundStart then do
    let right ← parse .compoundStmt
    singleNewline s right
  else if t.isMatchName then do
    let right ← parse .patternsMatch
    singleNewline s right
  else do
    let right ← parse .simpleStmt
    mk .SingleInput s [right, .none]

/-- `blocks.rs` 171-197 -/
def funcTypeLoopBody (s : Nat) (right : Tree) (seps : List Token) : Prog Tree := do
  let t ← symAt s "Expecting symbol in functional input!"
  if t.kind = .Newline then do
    next
    parse (.funcTypeLoop s right (seps ++ [t]))
  else if t.kind = .EOF then mk .FuncTypeInput s [right, .toks seps.reverse, .tok t]
  else fail s "Expecting end of file in function input!"

/-- `blocks.rs` 166-198 `parse_blocks_func_type_input` -/
def funcTypeInputBody : Prog Tree := do
  next
  let s ← here
  let right ← parse .funcType
  parse (.funcTypeLoop s right [])

/-- `blocks.rs` 248-259: the `Newline` is stored but not consumed. -/
def decoratorEnd (s : Nat) (t : Token) (left t2 right t3 : Tree) : Prog Tree := do
  let t5 ← symAt s "Expecting symbol in functional input!"
  if t5.kind = .Newline then mk .Decorator s [.tok t, left, t2, right, t3, .tok t5]
  else fail s "Expecting end of file in function input!"

/-- `blocks.rs` 200-266 `parse_blocks_decorator` -/
def decoratorBody : Prog Tree := do
  let s ← here
  let t ← symAt s "Expecting symbol in decorator statement!"
  if t.kind = .PyMatrice then do
    next
    let left ← parse .dottedName
    let t2 ← symAt s "Expecting symbol in functional input!"
    if t2.kind = .PyLeftParen then do
      next
      let t3 ← symAt s "Expecting symbol in functional input!"
      let right ← if t3.kind = .PyRightParen then pure .none else parse .arglist
      let t4 ← symAt s "Expecting symbol in functional input!"
      if t4.kind = .PyRightParen then do
        next
        decoratorEnd s t left (.tok t2) right (.tok t4)
      else fail s "Expecting ')' in functional input!"
    else decoratorEnd s t left .none .none .none
  else fail s "Expecting '@' in decorator statement!"

/-- `blocks.rs` 272-286 -/
def decoratorsLoopBody (s : Nat) (nodes : List Tree) : Prog Tree := do
  let t ← symAt s "Expecting symbol in decorator statement!"
  if t.kind = .PyMatrice then do
    let x ← parse .decorator
    parse (.decoratorsLoop s (nodes ++ [x]))
  else mk .Decorators s [.seq nodes.reverse]

/-- `blocks.rs` 268-287 `parse_blocks_decorators` -/
def decoratorsBody : Prog Tree := do
  let s ← here
  let x ← parse .decorator
  parse (.decoratorsLoop s [x])

/-- `blocks.rs` 289-322 `parse_blocks_decorated` -/
def decoratedBody : Prog Tree := do
  let s ← here
  let t ← symAt s "Expecting symbol in decorator statement!"
  if t.kind = .PyMatrice then do
    let left ← parse .decorators
    let t2 ← symAt s "Expecting symbol in decorator statement!"
    if t2.kind = .PyClass then do
      let right ← parse .classDef
      mk .Decorated s [left, right]
    else if t2.kind = .PyDef then do
      let right ← parse .funcDef
      mk .Decorated s [left, right]
    else if t2.kind = .PyAsync then do
      let right ← parse .asyncFuncDef
      mk .Decorated s [left, right]
    else fail s "Expecting 'class', 'def' or 'async' after '@' in decorator statement!"
  else fail s "Expecting '@' in decorator statement!"

/-- `blocks.rs` 324-340 `parse_blocks_async_func_def` -/
def asyncFuncDefBody : Prog Tree := do
  let s ← here
  let t ← symAt s "Expecting symbol in async statement!"
  if t.kind = .PyAsync then do
    next
    let right ← parse .funcDef
    mk .AsyncStmt s [.tok t, right]
  else fail s "Expecting 'async' in async statement!"

/-- `blocks.rs` 342-420 `parse_blocks_func_def` -/
def funcDefBody : Prog Tree := do
  let s ← here
  let t ← symAt s "Expecting symbol in function statement!"
  if t.kind = .PyDef then do
    next
    let t2 ← symAt s "Expecting 'def' in function statement!"
    if t2.kind = .AtomName then do
      next
      let t3 ← symAt s "Expecting 'def' in function statement!"
      let left ← if t3.kind = .PyLeftParen then parse .parameters else pure .none
      let t4 ← symAt s "Expecting 'def' in function statement!"
      let ret ←
        if t4.kind = .PyArrow then do
          next
          let r ← parse .test
          pure (.seq [.tok t4, r])
        else pure .none
      let t5 ← symAt s "Expecting symbol in function statement!"
      if t5.kind = .PyColon then do
        next
        let t6 ← symAt s "Expecting symbol in function statement!"
        let tc ← if t6.kind = .TypeComment then do next; pure (.tok t6) else pure .none
        let body ← parse .funcBodySuite
        mk .FuncDef s [.tok t, .tok t2, left, ret, .tok t5, tc, body]
      else fail s "Expecting ':' in function statement!"
    else fail s "Expecting literal name in function statement!"
  else fail s "Expecting 'def' in function statement!"

/-- `blocks.rs` 422-458 `parse_blocks_parameters` -/
def parametersBody : Prog Tree := do
  let s ← here
  let t ← symAt s "Expecting symbol in parameters of function statement!"
  if t.kind = .PyLeftParen then do
    next
    let t2 ← symAt s "Expecting symbol in parameters of function statement!"
    let right ← if t2.kind = .PyRightParen then pure .none else parse .typedArgsList
    let t3 ← symAt s "Expecting symbol in parameters of function statement!"
    if t3.kind = .PyRightParen then do
      next
      mk .Parameter s [.tok t, right, .tok t3]
    else fail s "Expecting ')' in parameters of function statement!"
  else fail s "Expecting '(' in parameters of function statement!"

/-- `blocks.rs` 460-469 `parse_blocks_typed_args_list` (a stub in the source) -/
def typedArgsListBody : Prog Tree := do
  let s ← here
  mk .TypedArgsList s [.seq [], .seq [], .seq [], .none, .none]

/-- `blocks.rs` 471-488 `parse_blocks_tfp_def_assign` -/
def tfpDefAssignBody : Prog Tree := do
  let s ← here
  let left ← parse .tfpDef
  let t ← symAt s "Expecting symbol in parameter of function statement!"
  if t.kind = .PyAssign then do
    next
    let right ← parse .test
    mk .TFPAssign s [left, .tok t, right]
  else pure left

/-- `blocks.rs` 490-520 `parse_blocks_tfp_def` -/
def tfpDefBody : Prog Tree := do
  let s ← here
  let t ← symAt s "Expecting symbol in parameter of function statement!"
  if t.kind = .AtomName then do
    next
    let t2 ← symAt s "Expecting symbol in parameter of function statement!"
    if t2.kind = .PyColon then do
      next
      let right ← parse .test
      mk .TFPDef s [.tok t, .seq [.tok t2, right]]
    else mk .TFPDef s [.tok t, .none]
  else fail s "Expecting name literal in parameter of function statement!"

/-- `blocks.rs` 564-590 -/
def funcBodyLoopBody (s : Nat) (t : Token) (tc tcnl : Tree) (t4 : Token) (nodes : List Tree) :
    Prog Tree := do
  let t5 ← symAt s "Expecting symbol in function body!"
  if t5.kind = .Dedent then do
    next
    mk .FuncBodySuite s [.tok t, tc, tcnl, .tok t4, .seq nodes.reverse, .tok t5]
  else do
    let x ← parse .stmt
    parse (.funcBodyLoop s t tc tcnl t4 (nodes ++ [x]))

/-- `blocks.rs` 557-596: indentation and statements. -/
def funcBodyIndent (s : Nat) (t : Token) (tc tcnl : Tree) : Prog Tree := do
  let t4 ← symAt s "Expecting symbol in function body!"
  if t4.kind = .Indent then do
    next
    let x ← parse .stmt
    parse (.funcBodyLoop s t tc tcnl t4 [x])
  else fail s "Expecting indentation in function body!"

/-- `blocks.rs` 522-603 `parse_blocks_func_body_suite` -/
def funcBodySuiteBody : Prog Tree := do
  let s ← here
  let t ← symAt s "Expecting symbol in function body!"
  if t.kind = .Newline then do
    next
    let t2 ← symAt s "Expecting symbol in function body!"
    if t2.kind = .TypeComment then do
      next
      let t3 ← symAt s "Expecting symbol in function body!"
      if t3.kind = .Newline then do
        next
        funcBodyIndent s t (.tok t2) (.tok t3)
      else fail s "Expecting Newline after TypeComment in function body!"
    else funcBodyIndent s t .none .none
  else parse .simpleStmt

/-- `blocks.rs` 655-668: colon, suite, node. -/
def classRest (s : Nat) (t t2 : Token) (t3 left t4 : Tree) : Prog Tree := do
  let t5 ← symAt s "Expecting symbol in class statement!"
  if t5.kind = .PyColon then do
    next
    let right ← parse .suite
    mk .ClassDef s [.tok t, .tok t2, t3, left, t4, .tok t5, right]
  else fail s "Expecting ':' in class statement!"

/-- `blocks.rs` 605-681 `parse_blocks_class_def` -/
def classDefBody : Prog Tree := do
  let s ← here
  let t ← symAt s "Expecting symbol in class statement!"
  if t.kind = .PyClass then do
    next
    let t2 ← symAt s "Expecting symbol in class statement!"
    if t2.kind = .AtomName then do
      next
      let t3 ← symAt s "Expecting symbol in class statement!"
      if t3.kind = .PyLeftParen then do
        next
        let t5 ← symAt s "Expecting symbol in class statement!"
        let left ← if t5.kind = .PyRightParen then pure .none else parse .varArgsList
        let t6 ← symAt s "Expecting symbol in class statement!"
        if t6.kind = .PyRightParen then do
          next
          classRest s t t2 (.tok t3) left (.tok t6)
        else fail s "Expecting ')' in class statement!"
      else classRest s t t2 .none .none .none
    else fail s "Expecting literal name in class statement!"
  else fail s "Expecting 'class' in class statement!"

/-! ### functions.rs -/

/-- `functions.rs` 12-64 `parse_functions_func_type` -/
def funcTypeBody : Prog Tree := do
  let s ← here
  let t ← symAt s "Expecting symbol in functional type!"
  if t.kind = .PyLeftParen then do
    next
    let t2 ← symAt s "Expecting symbol in functional type!"
    let left ← if t2.kind = .PyRightParen then pure .none else parse .typeList
    let t3 ← symAt s "Expecting symbol in functional type!"
    if t3.kind = .PyRightParen then do
      next
      let t4 ← symAt s "Expecting symbol in functional type!"
      if t4.kind = .PyArrow then do
        next
        let right ← parse .test
        mk .FuncType s [.tok t, left, .tok t3, .tok t4, right]
      else fail s "Expecting '(' in functional type!"
    else fail s "Expecting '(' in functional type!"
  else fail s "Expecting '(' in functional type!"

/-- `functions.rs` 192-194 -/
def typeListResult (s : Nat) (v : VA) : Prog Tree :=
  mk .TypeList s [.seq v.nodes.reverse, .toks v.seps.reverse, v.mulS, v.mulN, v.powS, v.powN]

/-- The text of every error of `parse_functions_type_list`. -/
def tlMsg : String := "Expecting symbol in functional type list!"

/-- `functions.rs` 93-96 = 114-116 = 145-148 = 167-170: `**` (`t`) and a type; always followed by
the end of the function. -/
def typeListPower (s : Nat) (v : VA) (t : Token) : Prog Tree := do
  next
  let x ← parse .test
  typeListResult s { v with powS := .tok t, powN := x }

/-- `functions.rs` 79-81 = 131-133: `*` (`t`) and a type, then the loop. -/
def typeListMul (s : Nat) (v : VA) (t : Token) : Prog Tree := do
  next
  let x ← parse .test
  parse (.typeListStarLoop s { v with mulS := .tok t, mulN := x })

/-- `functions.rs` 82-111 = 134-163 -/
def typeListStarLoopBody (s : Nat) (v : VA) : Prog Tree := do
  let t ← symAt s tlMsg
  if t.kind = .PyComa then do
    next
    let t2 ← symAt s tlMsg
    if t2.kind = .PyPower then typeListPower s { v with seps := v.seps ++ [t] } t2
    else do
      let x ← parse .test
      parse (.typeListStarLoop s { v with seps := v.seps ++ [t], nodes := v.nodes ++ [x] })
  else typeListResult s v

/-- `functions.rs` 120-185 -/
def typeListMainLoopBody (s : Nat) (v : VA) : Prog Tree := do
  let t ← symAt s tlMsg
  if t.kind = .PyComa then do
    next
    let t2 ← symAt s tlMsg
    if t2.kind = .PyMul then typeListMul s { v with seps := v.seps ++ [t] } t2
    else if t2.kind = .PyPower then typeListPower s { v with seps := v.seps ++ [t] } t2
    else do
      let x ← parse .test
      parse (.typeListMainLoop s { v with seps := v.seps ++ [t], nodes := v.nodes ++ [x] })
  else typeListResult s v

/-- `functions.rs` 66-195 `parse_functions_type_list` -/
def typeListBody : Prog Tree := do
  let s ← here
  let t ← symAt s tlMsg
  if t.kind = .PyMul then typeListMul s {} t
  else if t.kind = .PyPower then typeListPower s {} t
  else do
    let x ← parse .test
    parse (.typeListMainLoop s { nodes := [x] })

/-! ### patterns.rs -/

/-- `patterns.rs` 9-13 `parse_patterns_match`: `todo!()` -/
def patternsMatchBody : Prog Tree := panic

end Verif
