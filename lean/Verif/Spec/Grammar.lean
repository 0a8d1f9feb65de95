import Verif.Model.Token

/-!
# The grammar

`pyRule` is the LL(1) grammar of Python as published in `Grammar/Grammar` of CPython 3.8, which the rules of
the parser are named after, with two later additions the parser knows: bracketed `with` items (3.9) and
`except*` (3.11).  `rule` is `pyRule` with the rules of `wider` replaced: there the parser also accepts
token sequences that Python does not.  Everywhere else the parser may accept less than Python, but
nothing else.
-/

namespace Verif

/-- Nonterminals. -/
inductive NT
  | single_input | file_input | eval_input | decorator | decorators | decorated | async_funcdef | funcdef
  | parameters | typedargslist | tfpdef | varargslist | vfpdef | stmt | simple_stmt | small_stmt | expr_stmt
  | testlist_star_expr | del_stmt | pass_stmt | flow_stmt | break_stmt | continue_stmt
  | return_stmt | yield_stmt | raise_stmt | import_stmt | import_name | import_from | import_as_name
  | dotted_as_name | import_as_names | dotted_as_names | dotted_name | global_stmt | nonlocal_stmt
  | assert_stmt | compound_stmt | async_stmt | if_stmt | while_stmt | for_stmt | try_stmt | with_stmt
  | with_item | except_clause | suite | namedexpr_test | test | test_nocond | lambdef | lambdef_nocond
  | or_test | and_test | not_test | comparison | star_expr | expr | xor_expr | and_expr | shift_expr
  | arith_expr | term | factor | power | atom_expr | atom | testlist_comp | trailer | subscriptlist
  | subscript | exprlist | testlist | dictorsetmaker | classdef | arglist | argument | comp_iter
  | sync_comp_for | comp_for | comp_if | yield_expr | func_body_suite | func_type_input | func_type | typelist

/-- Right hand sides of EBNF rules. -/
inductive Rx
  /-- nothing -/
  | eps
  /-- a token of kind `x` -/
  | k (x : Kind)
  /-- any token -/
  | any
  /-- a nonterminal -/
  | n (x : NT)
  | seq (a b : Rx)
  | alt (a b : Rx)
  /-- `[a]` -/
  | opt (a : Rx)
  /-- `a*` -/
  | star (a : Rx)

namespace Rx
scoped infixr:65 " ⬝ " => Rx.seq
scoped infixr:60 " ∥ " => Rx.alt
/-- `a+` -/
def plus (a : Rx) : Rx := a ⬝ star a
end Rx
open Rx

/-- `Der rule r ts`: the tokens `ts` are a sentence of `r`, where nonterminals stand for their rules. -/
inductive Der (rule : NT → Rx) : Rx → List Token → Prop
  | eps : Der rule .eps []
  | k {x t} : t.kind = x → Der rule (.k x) [t]
  | any {t} : Der rule .any [t]
  | n {x ts} : Der rule (rule x) ts → Der rule (.n x) ts
  | seq {a b ts us} : Der rule a ts → Der rule b us → Der rule (a ⬝ b) (ts ++ us)
  | left {a b ts} : Der rule a ts → Der rule (a ∥ b) ts
  | right {a b ts} : Der rule b ts → Der rule (a ∥ b) ts
  | absent {a} : Der rule (.opt a) []
  | present {a ts} : Der rule a ts → Der rule (.opt a) ts
  | stop {a} : Der rule (.star a) []
  | more {a ts us} : Der rule a ts → Der rule (.star a) us → Der rule (.star a) (ts ++ us)

/-! ### Parts of rules -/

namespace G
def comma : Rx := k .PyComa
def colon : Rx := k .PyColon
def name : Rx := k .AtomName
/-- `NAME ['=' test]` in a parameter list of a lambda -/
def vararg : Rx := n .vfpdef ⬝ opt (k .PyAssign ⬝ n .test)
/-- `'**' vfpdef [',']` -/
def pyKwargs : Rx := k .PyPower ⬝ n .vfpdef ⬝ opt comma
/-- `'*' [vfpdef] (',' vfpdef ['=' test])* [',' ['**' vfpdef [',']]]` -/
def pyStarargs : Rx := k .PyMul ⬝ opt (n .vfpdef) ⬝ star (comma ⬝ vararg) ⬝ opt (comma ⬝ opt pyKwargs)
/-- the same with `tfpdef` -/
def typedarg : Rx := n .tfpdef ⬝ opt (k .PyAssign ⬝ n .test)
def typedKwargs : Rx := k .PyPower ⬝ n .tfpdef ⬝ opt comma
def typedStarargs : Rx :=
  k .PyMul ⬝ opt (n .tfpdef) ⬝ star (comma ⬝ typedarg) ⬝ opt (comma ⬝ opt typedKwargs)
/-- `yield_expr | testlist_star_expr` -/
def rhs : Rx := n .yield_expr ∥ n .testlist_star_expr
/-- `':' test ['=' (yield_expr|testlist_star_expr)]` -/
def annassign : Rx := colon ⬝ n .test ⬝ opt (k .PyAssign ⬝ rhs)
def augassign : Rx :=
  k .PyPlusAssign ∥ k .PyMinusAssign ∥ k .PyMulAssign ∥ k .PyMatriceAssign ∥ k .PyDivAssign ∥ k .PyModuloAssign ∥
  k .PyBitAndAssign ∥ k .PyBitOrAssign ∥ k .PyBitXorAssign ∥ k .PyShiftLeftAssign ∥ k .PyShiftRightAssign ∥
  k .PyPowerAssign ∥ k .PyFloorDivAssign
/-- `'.' | '...'` -/
def dots : Rx := k .PyDot ∥ k .PyElipsis
/-- `'import' ('*' | '(' import_as_names ')' | import_as_names)` -/
def importWhat : Rx :=
  k .PyImport ⬝ (k .PyMul ∥ k .PyLeftParen ⬝ n .import_as_names ⬝ k .PyRightParen ∥ n .import_as_names)
/-- `'elif' namedexpr_test ':' suite` -/
def elifPart : Rx := k .PyElif ⬝ n .namedexpr_test ⬝ colon ⬝ n .suite
/-- `'else' ':' suite` -/
def elsePart : Rx := k .PyElse ⬝ colon ⬝ n .suite
/-- `except_clause ':' suite` -/
def exceptPart : Rx := n .except_clause ⬝ colon ⬝ n .suite
/-- `'finally' ':' suite` -/
def finallyPart : Rx := k .PyFinally ⬝ colon ⬝ n .suite
def comp_op : Rx :=
  k .PyLess ∥ k .PyGreater ∥ k .PyEqual ∥ k .PyGreaterEqual ∥ k .PyLessEqual ∥ k .PyNotEqual ∥ k .PyIn ∥
  k .PyNot ⬝ k .PyIn ∥ k .PyIs ⬝ k .PyNot ∥ k .PyIs
def shift_op : Rx := k .PyShiftLeft ∥ k .PyShiftRight
def arith_op : Rx := k .PyPlus ∥ k .PyMinus
def term_op : Rx := k .PyMul ∥ k .PyMatrice ∥ k .PyDiv ∥ k .PyModulo ∥ k .PyFloorDiv
/-- `namedexpr_test | star_expr` -/
def elem : Rx := n .namedexpr_test ∥ n .star_expr
/-- `test ':' test | '**' expr` -/
def dictEntry : Rx := n .test ⬝ colon ⬝ n .test ∥ k .PyPower ⬝ n .expr
/-- `test | star_expr` -/
def setEntry : Rx := n .test ∥ n .star_expr
/-- `x (',' x)* [',']` -/
def listOf (x : Rx) : Rx := x ⬝ star (comma ⬝ x) ⬝ opt comma
end G
open G

/-- CPython 3.8 `Grammar/Grammar`. -/
def pyRule : NT → Rx
  | .single_input => k .Newline ∥ n .simple_stmt ∥ n .compound_stmt ⬝ k .Newline
  | .file_input => star (k .Newline ∥ n .stmt) ⬝ k .EOF
  | .eval_input => n .testlist ⬝ star (k .Newline) ⬝ k .EOF
  | .decorator => k .PyMatrice ⬝ n .dotted_name ⬝ opt (k .PyLeftParen ⬝ opt (n .arglist) ⬝ k .PyRightParen) ⬝ k .Newline
  | .decorators => plus (n .decorator)
  | .decorated => n .decorators ⬝ (n .classdef ∥ n .funcdef ∥ n .async_funcdef)
  | .async_funcdef => k .PyAsync ⬝ n .funcdef
  | .funcdef => k .PyDef ⬝ name ⬝ n .parameters ⬝ opt (k .PyArrow ⬝ n .test) ⬝ colon ⬝ opt (k .TypeComment) ⬝
      n .func_body_suite
  | .parameters => k .PyLeftParen ⬝ opt (n .typedargslist) ⬝ k .PyRightParen
  | .typedargslist =>
      typedarg ⬝ star (comma ⬝ typedarg) ⬝ opt (comma ⬝ k .PyDiv ⬝ star (comma ⬝ typedarg)) ⬝
        opt (comma ⬝ opt (typedStarargs ∥ typedKwargs)) ∥ typedStarargs ∥ typedKwargs
  | .tfpdef => name ⬝ opt (colon ⬝ n .test)
  | .varargslist =>
      vararg ⬝ star (comma ⬝ vararg) ⬝ opt (comma ⬝ k .PyDiv ⬝ star (comma ⬝ vararg)) ⬝
        opt (comma ⬝ opt (pyStarargs ∥ pyKwargs)) ∥ pyStarargs ∥ pyKwargs
  | .vfpdef => name
  | .stmt => n .simple_stmt ∥ n .compound_stmt
  | .simple_stmt => n .small_stmt ⬝ star (k .PySemiColon ⬝ n .small_stmt) ⬝ opt (k .PySemiColon) ⬝ k .Newline
  | .small_stmt => n .expr_stmt ∥ n .del_stmt ∥ n .pass_stmt ∥ n .flow_stmt ∥ n .import_stmt ∥ n .global_stmt ∥
      n .nonlocal_stmt ∥ n .assert_stmt
  | .expr_stmt => n .testlist_star_expr ⬝ (annassign ∥ augassign ⬝ (n .yield_expr ∥ n .testlist) ∥
      opt (plus (k .PyAssign ⬝ rhs) ⬝ opt (k .TypeComment)))
  | .testlist_star_expr => listOf (n .test ∥ n .star_expr)
  | .del_stmt => k .PyDel ⬝ n .exprlist
  | .pass_stmt => k .PyPass
  | .flow_stmt => n .break_stmt ∥ n .continue_stmt ∥ n .return_stmt ∥ n .raise_stmt ∥ n .yield_stmt
  | .break_stmt => k .PyBreak
  | .continue_stmt => k .PyContinue
  | .return_stmt => k .PyReturn ⬝ opt (n .testlist_star_expr)
  | .yield_stmt => n .yield_expr
  | .raise_stmt => k .PyRaise ⬝ opt (n .test ⬝ opt (k .PyFrom ⬝ n .test))
  | .import_stmt => n .import_name ∥ n .import_from
  | .import_name => k .PyImport ⬝ n .dotted_as_names
  | .import_from => k .PyFrom ⬝ (star dots ⬝ n .dotted_name ∥ plus dots) ⬝ importWhat
  | .import_as_name => name ⬝ opt (k .PyAs ⬝ name)
  | .dotted_as_name => n .dotted_name ⬝ opt (k .PyAs ⬝ name)
  | .import_as_names => listOf (n .import_as_name)
  | .dotted_as_names => n .dotted_as_name ⬝ star (comma ⬝ n .dotted_as_name)
  | .dotted_name => name ⬝ star (k .PyDot ⬝ name)
  | .global_stmt => k .PyGlobal ⬝ name ⬝ star (comma ⬝ name)
  | .nonlocal_stmt => k .PyNonLocal ⬝ name ⬝ star (comma ⬝ name)
  | .assert_stmt => k .PyAssert ⬝ n .test ⬝ opt (comma ⬝ n .test)
  | .compound_stmt => n .if_stmt ∥ n .while_stmt ∥ n .for_stmt ∥ n .try_stmt ∥ n .with_stmt ∥ n .funcdef ∥
      n .classdef ∥ n .decorated ∥ n .async_stmt
  | .async_stmt => k .PyAsync ⬝ (n .funcdef ∥ n .with_stmt ∥ n .for_stmt)
  | .if_stmt => k .PyIf ⬝ n .namedexpr_test ⬝ colon ⬝ n .suite ⬝ star elifPart ⬝ opt elsePart
  | .while_stmt => k .PyWhile ⬝ n .namedexpr_test ⬝ colon ⬝ n .suite ⬝ opt elsePart
  | .for_stmt => k .PyFor ⬝ n .exprlist ⬝ k .PyIn ⬝ n .testlist ⬝ colon ⬝ opt (k .TypeComment) ⬝ n .suite ⬝ opt elsePart
  | .try_stmt => k .PyTry ⬝ colon ⬝ n .suite ⬝
      (plus exceptPart ⬝ opt elsePart ⬝ opt finallyPart ∥ finallyPart)
  | .with_stmt => k .PyWith ⬝ (n .with_item ⬝ star (comma ⬝ n .with_item) ∥
      k .PyLeftParen ⬝ listOf (n .with_item) ⬝ k .PyRightParen) ⬝ colon ⬝ opt (k .TypeComment) ⬝ n .suite
  | .with_item => n .test ⬝ opt (k .PyAs ⬝ n .expr)
  | .except_clause => k .PyExcept ⬝ (opt (n .test ⬝ opt (k .PyAs ⬝ name)) ∥
      k .PyMul ⬝ n .test ⬝ opt (k .PyAs ⬝ name))
  | .suite => n .simple_stmt ∥ k .Newline ⬝ k .Indent ⬝ plus (n .stmt) ⬝ k .Dedent
  | .namedexpr_test => n .test ⬝ opt (k .PyColonAssign ⬝ n .test)
  | .test => n .or_test ⬝ opt (k .PyIf ⬝ n .or_test ⬝ k .PyElse ⬝ n .test) ∥ n .lambdef
  | .test_nocond => n .or_test ∥ n .lambdef_nocond
  | .lambdef => k .PyLambda ⬝ opt (n .varargslist) ⬝ colon ⬝ n .test
  | .lambdef_nocond => k .PyLambda ⬝ opt (n .varargslist) ⬝ colon ⬝ n .test_nocond
  | .or_test => n .and_test ⬝ star (k .PyOr ⬝ n .and_test)
  | .and_test => n .not_test ⬝ star (k .PyAnd ⬝ n .not_test)
  | .not_test => k .PyNot ⬝ n .not_test ∥ n .comparison
  | .comparison => n .expr ⬝ star (comp_op ⬝ n .expr)
  | .star_expr => k .PyMul ⬝ n .expr
  | .expr => n .xor_expr ⬝ star (k .PyBitOr ⬝ n .xor_expr)
  | .xor_expr => n .and_expr ⬝ star (k .PyBitXor ⬝ n .and_expr)
  | .and_expr => n .shift_expr ⬝ star (k .PyBitAnd ⬝ n .shift_expr)
  | .shift_expr => n .arith_expr ⬝ star (shift_op ⬝ n .arith_expr)
  | .arith_expr => n .term ⬝ star (arith_op ⬝ n .term)
  | .term => n .factor ⬝ star (term_op ⬝ n .factor)
  | .factor => (k .PyPlus ∥ k .PyMinus ∥ k .PyBitInvert) ⬝ n .factor ∥ n .power
  | .power => n .atom_expr ⬝ opt (k .PyPower ⬝ n .factor)
  | .atom_expr => opt (k .PyAwait) ⬝ n .atom ⬝ star (n .trailer)
  | .atom =>
      k .PyLeftParen ⬝ opt (n .yield_expr ∥ n .testlist_comp) ⬝ k .PyRightParen ∥
      k .PyLeftBracket ⬝ opt (n .testlist_comp) ⬝ k .PyRightBracket ∥
      k .PyLeftCurly ⬝ opt (n .dictorsetmaker) ⬝ k .PyRightCurly ∥
      name ∥ k .AtomNumber ∥ plus (k .AtomString) ∥ k .PyElipsis ∥ k .PyNone ∥ k .PyTrue ∥ k .PyFalse
  | .testlist_comp => elem ⬝ (n .comp_for ∥ star (comma ⬝ elem) ⬝ opt comma)
  | .trailer => k .PyLeftParen ⬝ opt (n .arglist) ⬝ k .PyRightParen ∥
      k .PyLeftBracket ⬝ n .subscriptlist ⬝ k .PyRightBracket ∥ k .PyDot ⬝ name
  | .subscriptlist => listOf (n .subscript)
  | .subscript => n .test ∥ opt (n .test) ⬝ colon ⬝ opt (n .test) ⬝ opt (colon ⬝ opt (n .test))
  | .exprlist => listOf (n .expr ∥ n .star_expr)
  | .testlist => listOf (n .test)
  | .dictorsetmaker => dictEntry ⬝ (n .comp_for ∥ star (comma ⬝ dictEntry) ⬝ opt comma) ∥
      setEntry ⬝ (n .comp_for ∥ star (comma ⬝ setEntry) ⬝ opt comma)
  | .classdef => k .PyClass ⬝ name ⬝ opt (k .PyLeftParen ⬝ opt (n .arglist) ⬝ k .PyRightParen) ⬝ colon ⬝ n .suite
  | .arglist => listOf (n .argument)
  | .argument => n .test ⬝ opt (n .comp_for) ∥ n .test ⬝ k .PyColonAssign ⬝ n .test ∥
      n .test ⬝ k .PyAssign ⬝ n .test ∥ k .PyPower ⬝ n .test ∥ k .PyMul ⬝ n .test
  | .comp_iter => n .comp_for ∥ n .comp_if
  | .sync_comp_for => k .PyFor ⬝ n .exprlist ⬝ k .PyIn ⬝ n .or_test ⬝ opt (n .comp_iter)
  | .comp_for => opt (k .PyAsync) ⬝ n .sync_comp_for
  | .comp_if => k .PyIf ⬝ n .test_nocond ⬝ opt (n .comp_iter)
  | .yield_expr => k .PyYield ⬝ opt (k .PyFrom ⬝ n .test ∥ n .testlist_star_expr)
  | .func_body_suite => n .simple_stmt ∥
      k .Newline ⬝ opt (k .TypeComment ⬝ k .Newline) ⬝ k .Indent ⬝ plus (n .stmt) ⬝ k .Dedent
  | .func_type_input => n .func_type ⬝ star (k .Newline) ⬝ k .EOF
  | .func_type => k .PyLeftParen ⬝ opt (n .typelist) ⬝ k .PyRightParen ⬝ k .PyArrow ⬝ n .test
  | .typelist =>
      n .test ⬝ star (comma ⬝ n .test) ⬝ opt (comma ⬝
        opt (k .PyMul ⬝ opt (n .test) ⬝ star (comma ⬝ n .test) ⬝ opt (comma ⬝ k .PyPower ⬝ n .test) ∥
          k .PyPower ⬝ n .test)) ∥
      k .PyMul ⬝ opt (n .test) ⬝ star (comma ⬝ n .test) ⬝ opt (comma ⬝ k .PyPower ⬝ n .test) ∥
      k .PyPower ⬝ n .test

namespace G
/-- `'**' vfpdef ['=' test] [',']` -/
def kwargs : Rx := k .PyPower ⬝ vararg ⬝ opt comma
/-- `'*' vfpdef ['=' test] (',' vfpdef ['=' test])* [',' '**' vfpdef ['=' test] [',']]` -/
def starargs : Rx := k .PyMul ⬝ vararg ⬝ star (comma ⬝ vararg) ⬝ opt (comma ⬝ kwargs)
end G

/-- The rules in which the parser accepts more than Python. -/
def wider : List NT :=
  [.subscript, .trailer, .exprlist, .varargslist, .classdef, .funcdef, .assert_stmt, .except_clause]

/-- The grammar of what the parser accepts. -/
def rule : NT → Rx
  /- any token is taken for the second colon -/
  | .subscript => n .test ∥ opt (n .test) ⬝ colon ⬝ opt (n .test) ⬝ any ⬝ opt (n .test)
  /- a call takes a subscript list -/
  | .trailer => k .PyLeftParen ⬝ opt (n .subscriptlist) ⬝ k .PyRightParen ∥
      k .PyLeftBracket ⬝ n .subscriptlist ⬝ k .PyRightBracket ∥ k .PyDot ⬝ name
  /- elements may be any expression -/
  | .exprlist => listOf elem
  /- `*` and `**` parameters may have default values -/
  | .varargslist =>
      vararg ⬝ star (comma ⬝ vararg) ⬝ opt (comma ⬝ k .PyDiv ⬝ star (comma ⬝ vararg)) ⬝
        opt (comma ⬝ (starargs ∥ kwargs)) ∥ starargs ∥ kwargs
  /- a parameter list for the base classes -/
  | .classdef => k .PyClass ⬝ name ⬝ opt (k .PyLeftParen ⬝ opt (n .varargslist) ⬝ k .PyRightParen) ⬝ colon ⬝ n .suite
  /- the parameters may be left out -/
  | .funcdef => k .PyDef ⬝ name ⬝ opt (n .parameters) ⬝ opt (k .PyArrow ⬝ n .test) ⬝ colon ⬝ opt (k .TypeComment) ⬝
      n .func_body_suite
  /- `from` instead of a comma -/
  | .assert_stmt => k .PyAssert ⬝ n .test ⬝ opt (k .PyFrom ⬝ n .test)
  /- `except*` without an expression -/
  | .except_clause => k .PyExcept ⬝ opt (k .PyMul) ⬝ opt (n .test ⬝ opt (k .PyAs ⬝ name))
  | x => pyRule x

/-- The parser's grammar is Python's except for the rules of `wider`. -/
theorem rule_eq_pyRule (x : NT) (h : x ∉ wider) : rule x = pyRule x := by
  cases x <;> first | rfl | simp [wider] at h

end Verif
