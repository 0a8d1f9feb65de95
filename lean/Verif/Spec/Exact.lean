import Verif.Model.Parser

/-!
# The exact language of the parser

`Spec/Grammar.lean` gives an upper bound for what the parser accepts.  This file gives the language itself:
`pRule` is a grammar whose sentences are exactly the accepted token sequences (`Props/Exact.lean`).  It is written in
EBNF with two additions.

* `only p a` stands for the sentences of `a` that pass the test `p`.
* The parser keeps one piece of state besides its position in the text: whether the last `except` clause it has
  seen was written `except` or `except*`.  `XDer rule r x ts y` says that `ts` is a sentence of `r` when the state is
  `x` before it, and that the state is `y` after it; `mark` tests and updates the state.

Comments name the differences from Python's grammar.
-/

namespace Verif

/-- The nonterminals.  A name ending in `_tr` is a list that may end with a comma. -/
inductive PN
  | file_input | eval_input | single_input | func_type_input
  | stmt | simple_stmt | small_stmt | expr_stmt | star_list | star_list_tr | del_stmt | pass_stmt | flow_stmt | break_stmt
  | continue_stmt | return_stmt | yield_stmt | raise_stmt | import_stmt | import_from | import_as_name | import_as_names
  | dotted_name | global_stmt | nonlocal_stmt | assert_stmt | compound_stmt | async_stmt | if_stmt | elif_part | else_part
  | while_stmt | for_stmt | try_stmt | except_part | except_clause | finally_part | with_stmt | with_item | suite
  | funcdef | parameters | func_body_suite | classdef
  | namedexpr_test | test | test_nocond | lambdef | lambdef_nocond | varargslist | vararg | vfpdef
  | or_test | and_test | not_test | comparison | star_expr | expr | xor_expr | and_expr | shift_expr | arith_expr | term
  | factor | power | atom_expr | atom | testlist_comp | trailer | subscriptlist | subscriptlist_open | subscript
  | subscript_open | exprlist | exprlist_in | testlist | testlist_tr | dictorsetmaker | comp_iter | sync_comp_for
  | comp_for | comp_if | yield_expr | yield_expr_tr | func_type | typelist

/-- What happens to the state: a `try` statement starts; a clause `except`; a clause `except*`. -/
inductive Mark
  | newTry | plain | starred

/-- `except` and `except*` may not follow each other. -/
def Mark.act : Mark → ExcStatus → Option ExcStatus
  | .newTry, _ => some .exceptNone
  | .plain, .exceptMul => none
  | .plain, _ => some .except
  | .starred, .except => none
  | .starred, _ => some .exceptMul

/-- Right hand sides. -/
inductive XR
  | eps
  /-- a token of kind `x` -/
  | k (x : Kind)
  /-- any token -/
  | any
  | n (x : PN)
  | seq (a b : XR)
  | alt (a b : XR)
  /-- `[a]` -/
  | opt (a : XR)
  /-- `a*` -/
  | star (a : XR)
  /-- the sentences of `a` that pass the test -/
  | only (p : List Token → Bool) (a : XR)
  | mark (m : Mark)

namespace XR
scoped infixr:65 " ⬝ " => XR.seq
scoped infixr:60 " ∥ " => XR.alt
/-- `a+` -/
def plus (a : XR) : XR := a ⬝ star a
end XR
open XR

/-- `XDer rule r x ts y`: the tokens `ts` are a sentence of `r` and change the state from `x` to `y`. -/
inductive XDer (rule : PN → XR) : XR → ExcStatus → List Token → ExcStatus → Prop
  | eps {x} : XDer rule .eps x [] x
  | k {K t x} : t.kind = K → XDer rule (.k K) x [t] x
  | any {t x} : XDer rule .any x [t] x
  | n {p x ts y} : XDer rule (rule p) x ts y → XDer rule (.n p) x ts y
  | seq {a b x ts z us y} : XDer rule a x ts z → XDer rule b z us y → XDer rule (a ⬝ b) x (ts ++ us) y
  | left {a b x ts y} : XDer rule a x ts y → XDer rule (a ∥ b) x ts y
  | right {a b x ts y} : XDer rule b x ts y → XDer rule (a ∥ b) x ts y
  | absent {a x} : XDer rule (.opt a) x [] x
  | present {a x ts y} : XDer rule a x ts y → XDer rule (.opt a) x ts y
  | stop {a x} : XDer rule (.star a) x [] x
  | more {a x ts z us y} : XDer rule a x ts z → XDer rule (.star a) z us y → XDer rule (.star a) x (ts ++ us) y
  | only {p a x ts y} : XDer rule a x ts y → p ts = true → XDer rule (.only p a) x ts y
  | mark {m x y} : m.act x = some y → XDer rule (.mark m) x [] y

namespace X
def comma : XR := k .PyComa
def colon : XR := k .PyColon
def name : XR := k .AtomName
/-- `x (',' x)*` -/
def list (x : XR) : XR := x ⬝ star (comma ⬝ x)
/-- `x (',' x)* [',']` -/
def listTr (x : XR) : XR := x ⬝ star (comma ⬝ x) ⬝ opt comma

/-- The tokens that, after an expression, belong to the same expression. -/
def continues : List Kind := [
  .PyLeftParen, .PyLeftBracket, .PyDot, .PyPower, .PyMul, .PyDiv, .PyFloorDiv, .PyModulo, .PyMatrice, .PyPlus, .PyMinus,
  .PyShiftLeft, .PyShiftRight, .PyBitAnd, .PyBitXor, .PyBitOr, .PyLess, .PyGreater, .PyEqual, .PyGreaterEqual,
  .PyLessEqual, .PyNotEqual, .PyIn, .PyNot, .PyIs, .PyAnd, .PyOr, .PyIf]
/-- The last token does not continue the expression before it (a string continues a string). -/
def separate (ts : List Token) : Bool :=
  match ts.reverse with
  | u :: v :: _ => !continues.contains u.kind && !(u.kind == .AtomString && v.kind == .AtomString)
  | _ => true
/-- The first token is not the name `match`. -/
def notMatch (ts : List Token) : Bool :=
  match ts.head? with
  | some (.name _ _ _ txt) => txt != cs! "match"
  | _ => true
/-- The first token is not a left parenthesis. -/
def notParen (ts : List Token) : Bool := ts.head?.map Token.kind != some .PyLeftParen

/-- `test | star_expr` -/
def starOrTest : XR := n .test ∥ n .star_expr
/-- `namedexpr_test | star_expr` -/
def elem : XR := n .namedexpr_test ∥ n .star_expr
def comp_op : XR :=
  k .PyLess ∥ k .PyGreater ∥ k .PyEqual ∥ k .PyGreaterEqual ∥ k .PyLessEqual ∥ k .PyNotEqual ∥ k .PyIn ∥
  k .PyNot ⬝ k .PyIn ∥ k .PyIs ⬝ k .PyNot ∥ k .PyIs
def term_op : XR := k .PyMul ∥ k .PyMatrice ∥ k .PyDiv ∥ k .PyModulo ∥ k .PyFloorDiv
def augassign : XR :=
  k .PyPlusAssign ∥ k .PyMinusAssign ∥ k .PyMulAssign ∥ k .PyMatriceAssign ∥ k .PyDivAssign ∥ k .PyModuloAssign ∥
  k .PyBitAndAssign ∥ k .PyBitOrAssign ∥ k .PyBitXorAssign ∥ k .PyShiftLeftAssign ∥ k .PyShiftRightAssign ∥
  k .PyPowerAssign ∥ k .PyFloorDivAssign
/-- the beginning of a slice: `[test] ':' ':'`, where any token is taken for the second colon if an expression
precedes it, and a right bracket if none does -/
def slice : XR := opt (n .test) ⬝ colon ⬝ (colon ∥ k .PyRightBracket ∥ only separate (n .test ⬝ any))
/-- `test ':' test | '**' expr` -/
def dictEntry : XR := n .test ⬝ colon ⬝ n .test ∥ k .PyPower ⬝ n .expr
/-- `'**' vararg [',']` -/
def kwargs : XR := k .PyPower ⬝ n .vararg ⬝ opt comma
/-- `'*' vararg (',' vararg)* [',' kwargs]` -/
def starargs : XR := k .PyMul ⬝ n .vararg ⬝ star (comma ⬝ n .vararg) ⬝ opt (comma ⬝ kwargs)
/-- `'.' | '...'` -/
def dots : XR := k .PyDot ∥ k .PyElipsis
/-- the right hand side of the last assignment of a statement -/
def rhs_tr : XR := n .yield_expr_tr ∥ n .testlist_tr
/-- `'**' test` -/
def typeKw : XR := k .PyPower ⬝ n .test
/-- `'*' test (',' test)* [',' '**' test]` -/
def typeStar : XR := k .PyMul ⬝ n .test ⬝ star (comma ⬝ n .test) ⬝ opt (comma ⬝ typeKw)
end X
open X

/-- The grammar of the parser. -/
def pRule : PN → XR
  | .file_input => star (k .Newline ∥ n .stmt) ⬝ k .EOF
  | .eval_input => n .testlist_tr ⬝ star (k .Newline) ⬝ k .EOF
  | .func_type_input => n .func_type ⬝ star (k .Newline) ⬝ k .EOF
  | .single_input => k .Newline ∥ only notMatch (n .simple_stmt) ∥ n .compound_stmt ⬝ k .Newline
  /- a statement may not start with the name `match` -/
  | .stmt => only notMatch (n .simple_stmt) ∥ n .compound_stmt
  | .simple_stmt => n .small_stmt ⬝ star (k .PySemiColon ⬝ n .small_stmt) ⬝ opt (k .PySemiColon) ⬝ k .Newline
  | .small_stmt => n .expr_stmt ∥ n .del_stmt ∥ n .pass_stmt ∥ n .flow_stmt ∥ n .import_stmt ∥ n .global_stmt ∥
      n .nonlocal_stmt ∥ n .assert_stmt
  /- a list of plain expressions before a further `=` or a type comment may not end with a comma; no starred
  elements on the right -/
  | .expr_stmt => n .star_list_tr ⬝
      (eps ∥ colon ⬝ n .test ⬝ opt (k .PyAssign ⬝ rhs_tr) ∥ augassign ⬝ rhs_tr ∥
        star (k .PyAssign ⬝ (n .yield_expr_tr ∥ n .testlist)) ⬝ k .PyAssign ⬝
          (rhs_tr ∥ (n .yield_expr ∥ n .testlist) ⬝ k .TypeComment))
  | .star_list => list starOrTest
  | .star_list_tr => listTr starOrTest
  /- no comma at the end -/
  | .del_stmt => k .PyDel ⬝ n .exprlist
  | .pass_stmt => k .PyPass
  | .flow_stmt => n .break_stmt ∥ n .continue_stmt ∥ n .return_stmt ∥ n .raise_stmt ∥ n .yield_stmt
  | .break_stmt => k .PyBreak
  | .continue_stmt => k .PyContinue
  | .return_stmt => k .PyReturn ⬝ opt (n .star_list_tr)
  | .yield_stmt => n .yield_expr_tr
  | .raise_stmt => k .PyRaise ⬝ opt (n .test ⬝ opt (k .PyFrom ⬝ n .test))
  /- no `import` statement -/
  | .import_stmt => n .import_from
  | .import_from => k .PyFrom ⬝ (star dots ⬝ n .dotted_name ∥ plus dots) ⬝ k .PyImport ⬝
      (k .PyMul ∥ k .PyLeftParen ⬝ n .import_as_names ⬝ k .PyRightParen ∥ n .import_as_names)
  | .import_as_name => name ⬝ opt (k .PyAs ⬝ name)
  /- no comma at the end -/
  | .import_as_names => list (n .import_as_name)
  | .dotted_name => name ⬝ star (k .PyDot ⬝ name)
  | .global_stmt => k .PyGlobal ⬝ name ⬝ star (comma ⬝ name)
  | .nonlocal_stmt => k .PyNonLocal ⬝ name ⬝ star (comma ⬝ name)
  /- `from` instead of a comma -/
  | .assert_stmt => k .PyAssert ⬝ n .test ⬝ opt (k .PyFrom ⬝ n .test)
  /- no decorators -/
  | .compound_stmt => n .if_stmt ∥ n .while_stmt ∥ n .for_stmt ∥ n .try_stmt ∥ n .with_stmt ∥ n .funcdef ∥
      n .classdef ∥ n .async_stmt
  /- no `async def` -/
  | .async_stmt => k .PyAsync ⬝ (n .with_stmt ∥ n .for_stmt)
  /- no `:=` at the top of a condition -/
  | .if_stmt => k .PyIf ⬝ n .test ⬝ colon ⬝ n .suite ⬝ star (n .elif_part) ⬝ opt (n .else_part)
  | .elif_part => k .PyElif ⬝ n .test ⬝ colon ⬝ n .suite
  | .else_part => k .PyElse ⬝ colon ⬝ n .suite
  | .while_stmt => k .PyWhile ⬝ n .test ⬝ colon ⬝ n .suite ⬝ opt (n .else_part)
  | .for_stmt => k .PyFor ⬝ n .exprlist_in ⬝ k .PyIn ⬝ n .testlist ⬝ colon ⬝ opt (k .TypeComment) ⬝ n .suite ⬝
      opt (n .else_part)
  | .try_stmt => k .PyTry ⬝ mark .newTry ⬝ colon ⬝ n .suite ⬝
      (plus (n .except_part) ⬝ opt (n .else_part) ⬝ opt (n .finally_part) ∥ n .finally_part)
  | .except_part => n .except_clause ⬝ colon ⬝ n .suite
  /- `except*` needs no expression -/
  | .except_clause => k .PyExcept ⬝ (mark .plain ∥ k .PyMul ⬝ mark .starred) ⬝ opt (n .test ⬝ opt (k .PyAs ⬝ name))
  | .finally_part => k .PyFinally ⬝ colon ⬝ n .suite
  /- a left parenthesis after `with` is the one around all items -/
  | .with_stmt => k .PyWith ⬝
      (k .PyLeftParen ⬝ listTr (n .with_item) ⬝ k .PyRightParen ∥ only notParen (list (n .with_item))) ⬝ colon ⬝ n .suite
  | .with_item => n .test ⬝ opt (k .PyAs ⬝ n .expr)
  | .suite => n .simple_stmt ∥ k .Newline ⬝ k .Indent ⬝ plus (n .stmt) ⬝ k .Dedent
  /- the parameters may be left out -/
  | .funcdef => k .PyDef ⬝ name ⬝ opt (n .parameters) ⬝ opt (k .PyArrow ⬝ n .test) ⬝ colon ⬝ opt (k .TypeComment) ⬝
      n .func_body_suite
  /- no parameters -/
  | .parameters => k .PyLeftParen ⬝ k .PyRightParen
  | .func_body_suite => n .simple_stmt ∥
      k .Newline ⬝ opt (k .TypeComment ⬝ k .Newline) ⬝ k .Indent ⬝ plus (n .stmt) ⬝ k .Dedent
  /- a parameter list for the base classes -/
  | .classdef => k .PyClass ⬝ name ⬝ opt (k .PyLeftParen ⬝ opt (n .varargslist) ⬝ k .PyRightParen) ⬝ colon ⬝ n .suite
  | .namedexpr_test => n .test ⬝ opt (k .PyColonAssign ⬝ n .test)
  | .test => n .or_test ⬝ opt (k .PyIf ⬝ n .or_test ⬝ k .PyElse ⬝ n .test) ∥ n .lambdef
  | .test_nocond => n .or_test ∥ n .lambdef_nocond
  | .lambdef => k .PyLambda ⬝ opt (n .varargslist) ⬝ colon ⬝ n .test
  /- no lambda in the body of this lambda -/
  | .lambdef_nocond => k .PyLambda ⬝ opt (n .varargslist) ⬝ colon ⬝ n .or_test
  /- no bare `*`, no comma at the end except after `**`; `*` and `**` parameters may have default values -/
  | .varargslist =>
      n .vararg ⬝ star (comma ⬝ n .vararg) ⬝ opt (comma ⬝ k .PyDiv ⬝ star (comma ⬝ n .vararg)) ⬝
        opt (comma ⬝ (starargs ∥ kwargs)) ∥ starargs ∥ kwargs
  | .vararg => n .vfpdef ⬝ opt (k .PyAssign ⬝ n .test)
  | .vfpdef => name
  | .or_test => n .and_test ⬝ star (k .PyOr ⬝ n .and_test)
  | .and_test => n .not_test ⬝ star (k .PyAnd ⬝ n .not_test)
  | .not_test => k .PyNot ⬝ n .not_test ∥ n .comparison
  | .comparison => n .expr ⬝ star (comp_op ⬝ n .expr)
  | .star_expr => k .PyMul ⬝ n .expr
  | .expr => n .xor_expr ⬝ star (k .PyBitOr ⬝ n .xor_expr)
  | .xor_expr => n .and_expr ⬝ star (k .PyBitXor ⬝ n .and_expr)
  | .and_expr => n .shift_expr ⬝ star (k .PyBitAnd ⬝ n .shift_expr)
  | .shift_expr => n .arith_expr ⬝ star ((k .PyShiftLeft ∥ k .PyShiftRight) ⬝ n .arith_expr)
  | .arith_expr => n .term ⬝ star ((k .PyPlus ∥ k .PyMinus) ⬝ n .term)
  | .term => n .factor ⬝ star (term_op ⬝ n .factor)
  | .factor => (k .PyPlus ∥ k .PyMinus ∥ k .PyBitInvert) ⬝ n .factor ∥ n .power
  | .power => n .atom_expr ⬝ opt (k .PyPower ⬝ n .factor)
  | .atom_expr => opt (k .PyAwait) ⬝ n .atom ⬝ star (n .trailer)
  /- no empty dictionary -/
  | .atom =>
      k .PyLeftParen ⬝ opt (n .yield_expr ∥ n .testlist_comp) ⬝ k .PyRightParen ∥
      k .PyLeftBracket ⬝ opt (n .testlist_comp) ⬝ k .PyRightBracket ∥
      k .PyLeftCurly ⬝ n .dictorsetmaker ⬝ k .PyRightCurly ∥
      name ∥ k .AtomNumber ∥ plus (k .AtomString) ∥ k .PyElipsis ∥ k .PyNone ∥ k .PyTrue ∥ k .PyFalse
  /- no comma at the end -/
  | .testlist_comp => elem ⬝ (n .comp_for ∥ star (comma ⬝ elem))
  /- a call takes a list of subscripts -/
  | .trailer => k .PyLeftParen ⬝ opt (n .subscriptlist) ⬝ k .PyRightParen ∥
      k .PyLeftBracket ⬝ (n .subscriptlist ∥ n .subscriptlist_open) ⬝ k .PyRightBracket ∥ k .PyDot ⬝ name
  | .subscriptlist => list (n .subscript)
  | .subscriptlist_open => star (n .subscript ⬝ comma) ⬝ n .subscript_open
  /- a slice has two colons (see `slice`); its last part may be left out only before a right bracket -/
  | .subscript => n .test ∥ slice ⬝ n .test
  | .subscript_open => slice
  | .exprlist => list elem
  /- before `in`: the last element is starred or followed by a comma -/
  | .exprlist_in => star (elem ⬝ comma) ⬝ (n .star_expr ∥ elem ⬝ comma)
  | .testlist => list (n .test)
  | .testlist_tr => listTr (n .test)
  /- at most two dictionary entries; no comprehensions -/
  | .dictorsetmaker => dictEntry ⬝ opt (comma ⬝ opt dictEntry) ∥ listTr starOrTest
  | .comp_iter => n .comp_for ∥ n .comp_if
  | .sync_comp_for => k .PyFor ⬝ n .exprlist_in ⬝ k .PyIn ⬝ n .or_test ⬝ opt (n .comp_iter)
  | .comp_for => opt (k .PyAsync) ⬝ n .sync_comp_for
  | .comp_if => k .PyIf ⬝ n .test_nocond ⬝ opt (n .comp_iter)
  /- `yield` needs a value -/
  | .yield_expr => k .PyYield ⬝ (k .PyFrom ⬝ n .test ∥ n .star_list)
  | .yield_expr_tr => k .PyYield ⬝ (k .PyFrom ⬝ n .test ∥ n .star_list_tr)
  | .func_type => k .PyLeftParen ⬝ opt (n .typelist) ⬝ k .PyRightParen ⬝ k .PyArrow ⬝ n .test
  /- no bare `*`, no comma at the end -/
  | .typelist => n .test ⬝ star (comma ⬝ n .test) ⬝ opt (comma ⬝ (typeStar ∥ typeKw)) ∥ typeStar ∥ typeKw

end Verif
