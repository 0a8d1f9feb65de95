import Verif.Proof.Reads
import Verif.Proof.ExactRun

/-!
# What the parse functions consume is in the exact grammar: definitions
-/

namespace Verif
open XR
set_option linter.unusedVariables false

/-! ### What is known after a successful call -/

/-- A string at the end of `ts` is not continued. -/
def StrOk (ts : List Token) (c' : PSt) : Prop := ∀ u, c'.symbol = .ok u → StrEnd ts u
/-- The current symbol is none of `K`. -/
def NoCont (K : List Kind) (c : PSt) : Prop := ∀ u, c.symbol = .ok u → K.contains u.kind = false
/-- The current symbol is one of `K`. -/
def SymIn (K : List Kind) (c : PSt) : Prop := ∃ u, c.symbol = .ok u ∧ K.contains u.kind = true

section
variable [Uni]
/-- The tokens consumed are a sentence of `r`. -/
def XG (r : XR) (c c' : PSt) : Prop := ∃ ts, Consumed c ts c' ∧ XDer pRule r c.exc ts c'.exc
/-- The tokens consumed and the current symbol are a sentence of `r`. -/
def XPeek (r : XR) (c c' : PSt) : Prop :=
  ∃ ts u, Consumed c ts c' ∧ c'.symbol = .ok u ∧ XDer pRule r c.exc (ts ++ [u]) c'.exc
/-- The tokens consumed are a sentence of `r` that the current symbol does not continue. -/
def XE (r : XR) (K : List Kind) (c c' : PSt) : Prop :=
  ∃ ts, Consumed c ts c' ∧ XDer pRule r c.exc ts c'.exc ∧ StrOk ts c' ∧ NoCont K c'
/-- The same for the rest of an expression. -/
def XL (r : XR) (K K' : List Kind) (c c' : PSt) : Prop :=
  ∃ ts, Consumed c ts c' ∧ XDer pRule r c.exc ts c'.exc ∧ StrOk ts c' ∧ (NoCont K c → NoCont K' c')
/-- A sentence of `r`, or one of `r'` with one of `E` next. -/
def XT (r r' : XR) (E : List Kind) (c c' : PSt) : Prop := XG r c c' ∨ (XG r' c c' ∧ SymIn E c')

/-- Without a comma nothing is consumed. -/
def Halts (c : PSt) (ts : List Token) (c' : PSt) : Prop := NoCont [.PyComa] c → ts = [] ∧ c'.exc = c.exc
/-- The rest of a list of `r`. -/
def LoopX (r : XR) (E : List Kind) (c c' : PSt) : Prop :=
  ∃ ts, Consumed c ts c' ∧ Halts c ts c' ∧ ∀ x a, XDer pRule r x a c.exc →
    (XDer pRule (X.list r) x (a ++ ts) c'.exc ∨ (XDer pRule (X.listTr r) x (a ++ ts) c'.exc ∧ SymIn E c'))

/-- The end of an `exprlist`. -/
def ExprEnd (x : ExcStatus) (b : List Token) (c' : PSt) : Prop :=
  (XDer pRule (n .exprlist) x b c'.exc ∧ (SymIn [.PyIn] c' → XDer pRule (n .exprlist_in) x b c'.exc)) ∨
  (XDer pRule (n .exprlist_in) x b c'.exc ∧ SymIn [.PyIn] c')
/-- An element of an `exprlist`. -/
def ExprItem (x : ExcStatus) (a : List Token) (c : PSt) : Prop :=
  XDer pRule X.elem x a c.exc ∧ (SymIn [.PyIn] c → XDer pRule (n .star_expr) x a c.exc)

def subEnds : List Kind := [.PyRightBracket, .PyColon]
def listEnds : List Kind := [.Newline, .PySemiColon, .EOF]
def SubEnd (x : ExcStatus) (b : List Token) (c' : PSt) : Prop :=
  XDer pRule (n .subscriptlist) x b c'.exc ∨ (XDer pRule (n .subscriptlist_open) x b c'.exc ∧ SymIn subEnds c')
def SubItem (x : ExcStatus) (a : List Token) (c : PSt) : Prop :=
  XDer pRule (n .subscript) x a c.exc ∨ (XDer pRule (n .subscript_open) x a c.exc ∧ SymIn subEnds c)

/-- The right hand side of an assignment. -/
def RhsX (c c' : PSt) : Prop :=
  XG (n .yield_expr ∥ n .testlist) c c' ∨ (XG (n .yield_expr_tr) c c' ∧ SymIn starListEnd c') ∨
  (XG (n .testlist_tr) c c' ∧ SymIn listEnds c')
end

/-! ### The parts of rules that are parsed by loops -/

def xAssigns : XR := star (k .PyAssign ⬝ (n .yield_expr_tr ∥ n .testlist)) ⬝ k .PyAssign ⬝
  (X.rhs_tr ∥ (n .yield_expr ∥ n .testlist) ⬝ k .TypeComment)
def xImport : XR := k .PyImport ⬝
      (k .PyMul ∥ k .PyLeftParen ⬝ n .import_as_names ⬝ k .PyRightParen ∥ n .import_as_names)
def xVarargs : XR := star (X.comma ⬝ n .vararg) ⬝ opt (X.comma ⬝ k .PyDiv ⬝ star (X.comma ⬝ n .vararg)) ⬝
        opt (X.comma ⬝ (X.starargs ∥ X.kwargs))

section
variable [Uni]
/-- What is known after a successful call of each function. -/
def ΦEx : Fn → PSt → Tree → PSt → Prop
  | .atomStrLoop _ _, c, t, c' => XE (star (k .AtomString)) [.AtomString] c c'
  | .trailerLoop _ _ _ _, c, t, c' => XE (star (n .trailer)) contAtomExpr c c'
  | .termLoop _ _, c, t, c' => XL (star (X.term_op ⬝ n .factor)) contPower contTerm c c'
  | .arithLoop _ _, c, t, c' => XL (star ((k .PyPlus ∥ k .PyMinus) ⬝ n .term)) contTerm contArith c c'
  | .shiftLoop _ _, c, t, c' => XL (star ((k .PyShiftLeft ∥ k .PyShiftRight) ⬝ n .arith_expr)) contArith contShift c c'
  | .andExprLoop _ _, c, t, c' => XL (star (k .PyBitAnd ⬝ n .shift_expr)) contShift contAnd c c'
  | .xorExprLoop _ _, c, t, c' => XL (star (k .PyBitXor ⬝ n .and_expr)) contAnd contXor c c'
  | .exprLoop _ _, c, t, c' => XL (star (k .PyBitOr ⬝ n .xor_expr)) contXor contExpr c c'
  | .comparisonLoop _ _, c, t, c' => XL (star (X.comp_op ⬝ n .expr)) contExpr contComp c c'
  | .andTestLoop _ _, c, t, c' => XL (star (k .PyAnd ⬝ n .not_test)) contComp contAndTest c c'
  | .orTestLoop _ _, c, t, c' => XL (star (k .PyOr ⬝ n .and_test)) contAndTest contOrTest c c'
  | .lambdaDef b, c, t, c' => ∃ u ts, Consumed c (u :: ts) c' ∧
      XDer pRule (opt (n .varargslist) ⬝ X.colon ⬝ n (if b then .test else .or_test)) c.exc ts c'.exc ∧
      StrOk ts c' ∧ NoCont (if b then contTest else contOrTest) c'
  | .testlistCompLoop _ _ _, c, t, c' => XG (star (X.comma ⬝ X.elem)) c c'
  | .subscript, c, t, c' => XT (n .subscript) (n .subscript_open) subEnds c c'
  | .subscriptListLoop _ _ _, c, t, c' =>
    ∃ ts, Consumed c ts c' ∧ ∀ x a, SubItem x a c → SubEnd x (a ++ ts) c'
  | .subscriptList, c, t, c' => XT (n .subscriptlist) (n .subscriptlist_open) subEnds c c'
  | .exprlistLoop _ _ _, c, t, c' => ∃ ts, Consumed c ts c' ∧ Halts c ts c' ∧
      ∀ x a, ExprItem x a c → ExprEnd x (a ++ ts) c'
  | .exprlist, c, t, c' => ∃ ts, Consumed c ts c' ∧ ExprEnd c.exc ts c'
  | .testlistLoop _ _ _, c, t, c' => LoopX (n .test) listEnds c c'
  | .testlist, c, t, c' => XT (n .testlist) (n .testlist_tr) listEnds c c'
  | .setLoop _ _ _, c, t, c' => LoopX X.starOrTest [.PyRightCurly] c c'
  | .testlistStarExprLoop _ _ _, c, t, c' => LoopX X.starOrTest starListEnd c c'
  | .testlistStarExpr, c, t, c' => XT (n .star_list) (n .star_list_tr) starListEnd c c'
  | .yieldExpr, c, t, c' => XT (n .yield_expr) (n .yield_expr_tr) starListEnd c c'
  | .yieldStmt, c, t, c' => XG (n .yield_stmt) c c'
  | .varArgsMainLoop _ _, c, t, c' => XG xVarargs c c'
  | .varArgsStarLoop _ _, c, t, c' => XG (star (X.comma ⬝ n .vararg) ⬝ opt (X.comma ⬝ X.kwargs)) c c'
  | .varArgsDivLoop _ _, c, t, c' => XG (star (X.comma ⬝ n .vararg) ⬝ opt (X.comma ⬝ (X.starargs ∥ X.kwargs))) c c'
  | .varArgsAssignments, c, t, c' => XG (n .vararg) c c'
  | .delStmt, c, t, c' => XG (n .del_stmt) c c' ∨ SymIn [.PyIn] c'
  | .smallStmt, c, t, c' => XG (n .small_stmt) c c' ∨ SymIn [.PyIn] c'
  | .simpleStmtLoop _ _ _, c, t, c' =>
    XG (star (k .PySemiColon ⬝ n .small_stmt) ⬝ opt (k .PySemiColon) ⬝ k .Newline) c c' ∧ SymIn stmtEnd c
  | .assignLoop _ _ _, c, t, c' =>
    (SymIn [.PyAssign] c ∧ XG xAssigns c c') ∨ (XG .eps c c' ∧ c' = c) ∨ (SymIn [.TypeComment] c ∧ XG (k .TypeComment) c c')
  | .annAssign _ _, c, t, c' => XG (X.colon ⬝ n .test ⬝ opt (k .PyAssign ⬝ X.rhs_tr)) c c'
  | .importDotLoop _ _ ds, c, t, c' =>
    if ds = [] then XG ((star X.dots ⬝ n .dotted_name ∥ plus X.dots) ⬝ xImport) c c'
    else XG ((star X.dots ⬝ n .dotted_name ∥ star X.dots) ⬝ xImport) c c'
  | .importAsNamesLoop _ _ _, c, t, c' => XG (star (X.comma ⬝ n .import_as_name)) c c'
  | .dottedNameLoop _ _ _, c, t, c' => XG (star (k .PyDot ⬝ X.name)) c c'
  | .globalLoop _ _ _ _, c, t, c' => XG (star (X.comma ⬝ X.name)) c c'
  | .nonlocalLoop _ _ _ _, c, t, c' => XG (star (X.comma ⬝ X.name)) c c'
  | .ifLoop _ _ _ _ _ _, c, t, c' => XG (star (n .elif_part) ⬝ opt (n .else_part)) c c'
  | .elifStmt, c, t, c' => XG (n .elif_part) c c'
  | .elseStmt, c, t, c' => XG (n .else_part) c c'
  | .tryLoop _ _ _ _ _, c, t, c' => XG (star (n .except_part) ⬝ opt (n .else_part) ⬝ opt (n .finally_part)) c c'
  | .finallyStmt, c, t, c' => XG (n .finally_part) c c'
  | .withParenLoop _ _ _ _ _, c, t, c' =>
    XG ((star (X.comma ⬝ n .with_item) ⬝ opt X.comma) ⬝ k .PyRightParen ⬝ X.colon ⬝ n .suite) c c'
  | .withLoop _ _ _ _, c, t, c' => XG (star (X.comma ⬝ n .with_item) ⬝ X.colon ⬝ n .suite) c c'
  | .exceptStmt, c, t, c' => XG (n .except_part) c c'
  | .suiteLoop _ _ _ _, c, t, c' => XG (star (n .stmt) ⬝ k .Dedent) c c'
  | .evalInput, c, t, c' => XPeek (n .eval_input) c.advance c'
  | .evalLoop _ _ _, c, t, c' => XPeek (star (k .Newline) ⬝ k .EOF) c c'
  | .fileInput, c, t, c' => XPeek (n .file_input) c.advance c'
  | .fileLoop _ _ _, c, t, c' => XPeek (star (k .Newline ∥ n .stmt) ⬝ k .EOF) c c'
  | .singleInput, c, t, c' => XG (n .single_input) c.advance c' ∨ XPeek (n .single_input) c.advance c'
  | .funcTypeInput, c, t, c' => XPeek (n .func_type_input) c.advance c'
  | .funcTypeLoop _ _ _, c, t, c' => XPeek (star (k .Newline) ⬝ k .EOF) c c'
  | .decorator, c, t, c' => SymIn [.Newline] c'
  | .decorators, c, t, c' => SymIn [.Newline] c'
  | .decoratorsLoop _ _, c, t, c' => SymIn [.Newline] c → c' = c
  | .decorated, c, t, c' => False
  | .typedArgsList, c, t, c' => c' = c
  | .funcBodyLoop _ _ _ _ _ _, c, t, c' => XG (star (n .stmt) ⬝ k .Dedent) c c'
  | .classDef, c, t, c' => XG (n .classdef) c c' ∧ SymIn [.PyClass] c
  | .typeListMainLoop _ _, c, t, c' => XG (star (X.comma ⬝ n .test) ⬝ opt (X.comma ⬝ (X.typeStar ∥ X.typeKw))) c c'
  | .typeListStarLoop _ _, c, t, c' => XG (star (X.comma ⬝ n .test) ⬝ opt (X.comma ⬝ X.typeKw)) c c'
  | .patternsMatch, c, t, c' => False
  /- reached only from `decorated` -/
  | .arglist, _, _, _ | .arglistLoop _ _ _, _, _, _ | .argument, _, _, _ | .asyncFuncDef, _, _, _ => True
  /- never called -/
  | .importName, _, _, _ | .dottedAsName, _, _, _ | .dottedAsNames, _, _, _ | .dottedAsNamesLoop _ _ _, _, _, _
  | .tfpDefAssign, _, _, _ | .tfpDef, _, _, _ => True
  | .atom, c, t, c' => XE (n .atom) [] c c'
  | .atomExpr, c, t, c' => XE (n .atom_expr) contAtomExpr c c'
  | .power, c, t, c' => XE (n .power) contPower c c'
  | .factor, c, t, c' => XE (n .factor) contPower c c'
  | .term, c, t, c' => XE (n .term) contTerm c c'
  | .arith, c, t, c' => XE (n .arith_expr) contArith c c'
  | .shift, c, t, c' => XE (n .shift_expr) contShift c c'
  | .andExpr, c, t, c' => XE (n .and_expr) contAnd c c'
  | .xorExpr, c, t, c' => XE (n .xor_expr) contXor c c'
  | .expr, c, t, c' => XE (n .expr) contExpr c c'
  | .starExpr, c, t, c' => XG (n .star_expr) c c'
  | .comparison, c, t, c' => XE (n .comparison) contComp c c'
  | .notTest, c, t, c' => XE (n .not_test) contComp c c'
  | .andTest, c, t, c' => XE (n .and_test) contAndTest c c'
  | .orTest, c, t, c' => XE (n .or_test) contOrTest c c'
  | .noCondTest, c, t, c' => XG (n .test_nocond) c c'
  | .test, c, t, c' => XE (n .test) contTest c c'
  | .namedExpression, c, t, c' => XE (n .namedexpr_test) contTest c c'
  | .testlistComp, c, t, c' => XG (n .testlist_comp) c c'
  | .trailer, c, t, c' => XE (n .trailer) [] c c'
  | .dictorsetMaker, c, t, c' => XG (n .dictorsetmaker) c c'
  | .compIter, c, t, c' => XG (n .comp_iter) c c'
  | .syncCompFor, c, t, c' => XG (n .sync_comp_for) c c'
  | .compFor, c, t, c' => XG (n .comp_for) c c'
  | .compIf, c, t, c' => XG (n .comp_if) c c'
  | .varArgsList, c, t, c' => XG (n .varargslist) c c'
  | .vfpDef, c, t, c' => XG (n .vfpdef) c c'
  | .stmt, c, t, c' => XG (n .stmt) c c'
  | .simpleStmt, c, t, c' => XG (n .simple_stmt) c c'
  | .exprStmt, c, t, c' => XG (n .expr_stmt) c c'
  | .passStmt, c, t, c' => XG (n .pass_stmt) c c'
  | .flowStmt, c, t, c' => XG (n .flow_stmt) c c'
  | .breakStmt, c, t, c' => XG (n .break_stmt) c c'
  | .continueStmt, c, t, c' => XG (n .continue_stmt) c c'
  | .returnStmt, c, t, c' => XG (n .return_stmt) c c'
  | .raiseStmt, c, t, c' => XG (n .raise_stmt) c c'
  | .importStmt, c, t, c' => XG (n .import_stmt) c c'
  | .importFrom, c, t, c' => XG (n .import_from) c c'
  | .importAsName, c, t, c' => XG (n .import_as_name) c c'
  | .importAsNames, c, t, c' => XG (n .import_as_names) c c'
  | .dottedName, c, t, c' => XG (n .dotted_name) c c'
  | .globalStmt, c, t, c' => XG (n .global_stmt) c c'
  | .nonlocalStmt, c, t, c' => XG (n .nonlocal_stmt) c c'
  | .assertStmt, c, t, c' => XG (n .assert_stmt) c c'
  | .compoundStmt, c, t, c' => XG (n .compound_stmt) c c'
  | .asyncStmt, c, t, c' => XG (n .async_stmt) c c'
  | .ifStmt, c, t, c' => XG (n .if_stmt) c c'
  | .whileStmt, c, t, c' => XG (n .while_stmt) c c'
  | .forStmt, c, t, c' => XG (n .for_stmt) c c'
  | .tryStmt, c, t, c' => XG (n .try_stmt) c c'
  | .withStmt, c, t, c' => XG (n .with_stmt) c c'
  | .withItem, c, t, c' => XG (n .with_item) c c'
  | .exceptClause, c, t, c' => XG (n .except_clause) c c'
  | .suite, c, t, c' => XG (n .suite) c c'
  | .funcDef, c, t, c' => XG (n .funcdef) c c'
  | .parameters, c, t, c' => XG (n .parameters) c c'
  | .funcBodySuite, c, t, c' => XG (n .func_body_suite) c c'
  | .funcType, c, t, c' => XG (n .func_type) c c'
  | .typeList, c, t, c' => XG (n .typelist) c c'

end

/-! ### Sequences of right hand sides -/

/-- The tokens are a sentence of the right hand sides, one after another. -/
def XDK : List XR → ExcStatus → List Token → ExcStatus → Prop
  | [], x, ts, y => ts = [] ∧ x = y
  | r :: rs, x, ts, y => ∃ u v z, ts = u ++ v ∧ XDer pRule r x u z ∧ XDK rs z v y

theorem XDK.nil {x} : XDK [] x [] x := ⟨rfl, rfl⟩
theorem XDK.of {r u rs v x z y} (h : XDer pRule r x u z) (h' : XDK rs z v y) : XDK (r :: rs) x (u ++ v) y := ⟨u, v, z, rfl, h, h'⟩
theorem XDK.k {K t rs v x y} (h : t.kind = K) (h' : XDK rs x v y) : XDK (.k K :: rs) x (t :: v) y := ⟨[t], v, x, rfl, .k h, h'⟩
theorem XDK.any {t rs v x y} (h' : XDK rs x v y) : XDK (.any :: rs) x (t :: v) y := ⟨[t], v, x, rfl, .any, h'⟩
theorem XDK.eps {rs v x y} (h' : XDK rs x v y) : XDK (.eps :: rs) x v y := ⟨[], v, x, rfl, .eps, h'⟩
theorem XDK.mark {m rs v x z y} (h : Mark.act m x = some z) (h' : XDK rs z v y) : XDK (.mark m :: rs) x v y :=
  ⟨[], v, z, rfl, .mark h, h'⟩
theorem XDK.seq {a b rs x ts y} (h : XDK (a :: b :: rs) x ts y) : XDK ((a ⬝ b) :: rs) x ts y := by
  obtain ⟨u, v, z, rfl, h1, w, q, z', rfl, h2, h3⟩ := h
  exact ⟨u ++ w, q, z', (List.append_assoc ..).symm, .seq h1 h2, h3⟩
theorem XDK.left {a b rs x ts y} (h : XDK (a :: rs) x ts y) : XDK ((a ∥ b) :: rs) x ts y := by
  obtain ⟨u, v, z, e, h1, h2⟩ := h; exact ⟨u, v, z, e, .left h1, h2⟩
theorem XDK.right {a b rs x ts y} (h : XDK (b :: rs) x ts y) : XDK ((a ∥ b) :: rs) x ts y := by
  obtain ⟨u, v, z, e, h1, h2⟩ := h; exact ⟨u, v, z, e, .right h1, h2⟩
theorem XDK.present {a rs x ts y} (h : XDK (a :: rs) x ts y) : XDK (.opt a :: rs) x ts y := by
  obtain ⟨u, v, z, e, h1, h2⟩ := h; exact ⟨u, v, z, e, .present h1, h2⟩
theorem XDK.absent {a rs x ts y} (h : XDK rs x ts y) : XDK (.opt a :: rs) x ts y := ⟨[], ts, x, rfl, .absent, h⟩
theorem XDK.stop {a rs x ts y} (h : XDK rs x ts y) : XDK (.star a :: rs) x ts y := ⟨[], ts, x, rfl, .stop, h⟩
theorem XDK.more {a rs x ts y} (h : XDK (a :: .star a :: rs) x ts y) : XDK (.star a :: rs) x ts y := by
  obtain ⟨u, v, z, rfl, h1, w, q, z', rfl, h2, h3⟩ := h
  exact ⟨u ++ w, q, z', (List.append_assoc ..).symm, .more h1 h2, h3⟩
theorem XDK.n {p rs x ts y} (h : XDK (pRule p :: rs) x ts y) : XDK (.n p :: rs) x ts y := by
  obtain ⟨u, v, z, e, h1, h2⟩ := h; exact ⟨u, v, z, e, .n h1, h2⟩
theorem XDK.out {r x ts y} (h : XDK [r] x ts y) : XDer pRule r x ts y := by
  obtain ⟨u, v, z, rfl, h1, rfl, rfl⟩ := h; rwa [List.append_nil]
theorem XDK.of1 {r u x y} (h : XDer pRule r x u y) : XDK [r] x u y := ⟨u, [], y, (List.append_nil _).symm, h, rfl, rfl⟩

/-! ### Inclusions between rules -/

theorem XDer.listTr {r x ts y} (h : XDer pRule (X.list r) x ts y) : XDer pRule (X.listTr r) x ts y := by
  cases h with
  | seq h1 h2 =>
    refine .seq h1 ?_
    have := XDer.seq h2 (XDer.absent (a := X.comma))
    rwa [List.append_nil] at this
theorem XDer.testlist_tr {x ts y} (h : XDer pRule (.n .testlist) x ts y) : XDer pRule (.n .testlist_tr) x ts y := by
  cases h with | n h => exact .n (XDer.listTr h)
theorem XDer.star_list_tr {x ts y} (h : XDer pRule (.n .star_list) x ts y) : XDer pRule (.n .star_list_tr) x ts y := by
  cases h with | n h => exact .n (XDer.listTr h)
theorem XDer.yield_tr {x ts y} (h : XDer pRule (.n .yield_expr) x ts y) : XDer pRule (.n .yield_expr_tr) x ts y := by
  cases h with
  | n h =>
    cases h with
    | seq h1 h2 =>
      refine .n (.seq h1 ?_)
      cases h2 with
      | left h2 => exact .left h2
      | right h2 => exact .right h2.star_list_tr

/-- One more round of a loop. -/
theorem XDer.round {a b x u z v y} (h : XDer pRule a x u z) (h' : XDer pRule (.star a ⬝ b) z v y) :
    XDer pRule (.star a ⬝ b) x (u ++ v) y := by
  cases h' with
  | seq h1 h2 => rw [← List.append_assoc]; exact .seq (.more h h1) h2

/-- A list with one more element in front. -/
theorem XDer.consList {r x a z t v y} (h : XDer pRule r x a z) (hk : t.kind = .PyComa) (h' : XDer pRule (X.list r) z v y) :
    XDer pRule (X.list r) x (a ++ t :: v) y := by
  cases h' with
  | seq h1 h2 =>
    refine .seq h ?_
    exact XDer.more (ts := t :: _) (.seq (ts := [t]) (.k hk) h1) h2
theorem XDer.consListTr {r x a z t v y} (h : XDer pRule r x a z) (hk : t.kind = .PyComa) (h' : XDer pRule (X.listTr r) z v y) :
    XDer pRule (X.listTr r) x (a ++ t :: v) y := by
  cases h' with
  | seq h1 h2 =>
    refine .seq h ?_
    exact XDer.round (u := t :: _) (.seq (ts := [t]) (.k hk) h1) h2
theorem XDer.single {r x a z} (h : XDer pRule r x a z) : XDer pRule (X.list r) x a z := by
  have := XDer.seq h (XDer.stop (a := X.comma ⬝ r)); rwa [List.append_nil] at this
theorem XDer.singleTr {r x a z t} (h : XDer pRule r x a z) (hk : t.kind = .PyComa) : XDer pRule (X.listTr r) x (a ++ [t]) z :=
  .seq h (.seq (ts := []) .stop (.present (.k hk)))

/-! ### Strings and following symbols -/

theorem StrOk.nil {c} : StrOk [] c := fun u _ _ l hl => by simp at hl
theorem StrOk.tok {t c K} (h : t.kind = K) (hK : K ≠ .AtomString) : StrOk [t] c := fun u _ _ l hl => by
  simp at hl; subst hl; rw [h]; exact hK
theorem StrOk.cons {t ts c K} (h : t.kind = K) (hK : K ≠ .AtomString) (h' : StrOk ts c) : StrOk (t :: ts) c := by
  intro u hu e l hl
  cases ts with
  | nil => simp at hl; subst hl; rw [h]; exact hK
  | cons s ts => exact h' u hu e l (by simpa using hl)
theorem StrOk.none {ts c} (h : NoCont [.AtomString] c) : StrOk ts c := fun u hu e l _ => by
  have := h u hu; rw [e] at this; exact absurd this (by decide)
theorem NoCont.nil {c} : NoCont [] c := fun _ _ => rfl
theorem NoCont.err {c x K} (h : c.symbol = .error x) : NoCont K c := fun u hu => by rw [h] at hu; cases hu
theorem NoCont.of {K c t} (h : c.symbol = .ok t) (h' : K.contains t.kind = false) : NoCont K c := fun u hu => by
  rw [h] at hu; cases hu; exact h'
theorem NoCont.add {K c t x} (h : NoCont K c) (ht : c.symbol = .ok t) (hk : ¬ t.kind = x) : NoCont (K ++ [x]) c := by
  refine .of ht ?_
  have := h t ht
  simp only [List.contains_eq_mem, List.mem_append, List.mem_singleton, decide_eq_false_iff_not] at this ⊢
  exact not_or.2 ⟨this, hk⟩
theorem NoCont.addOp {K L c t} (h : NoCont K c) (ht : c.symbol = .ok t) (hk : L.contains t.kind = false) :
    NoCont (K ++ L) c := by
  refine .of ht ?_
  have := h t ht
  simp only [List.contains_eq_mem, List.mem_append, decide_eq_false_iff_not] at this hk ⊢
  exact not_or.2 ⟨this, hk⟩
theorem NoCont.mono {K L c} (h : NoCont L c) (hs : ∀ x, K.contains x = true → L.contains x = true) : NoCont K c := fun u hu => by
  cases hc : K.contains u.kind with
  | false => rfl
  | true => exact absurd (hs _ hc) (by rw [h u hu]; simp)
theorem SymIn.no {K c t x} (h : SymIn K c) (ht : c.symbol = .ok t) (hk : t.kind = x) (hx : K.contains x = false) : False := by
  obtain ⟨u, hu, hc⟩ := h
  rw [ht] at hu; cases hu; rw [hk, hx] at hc; cases hc
theorem SymIn.noCont {K L c} (h : SymIn K c) (h' : NoCont L c) (hx : ∀ x, K.contains x = true → L.contains x = true) : False := by
  obtain ⟨u, hu, hc⟩ := h
  have := h' u hu
  rw [hx _ hc] at this; cases this
theorem SymIn.of {K c t x} (ht : c.symbol = .ok t) (hk : t.kind = x) (hx : K.contains x = true) : SymIn K c :=
  ⟨t, ht, by rw [hk]; exact hx⟩
theorem SymIn.disj {K L c} (h : SymIn K c) (h' : SymIn L c) (hx : ∀ x, K.contains x = true → L.contains x = false) : False := by
  obtain ⟨u, hu, hc⟩ := h
  obtain ⟨v, hv, hd⟩ := h'
  rw [hu] at hv; cases hv
  rw [hx _ hc] at hd; cases hd

/-! ### Combining -/

section
variable [Uni]
theorem Consumed.nil_symbol {c c'} (h : Consumed c [] c') : c'.symbol = c.symbol := by cases h with | done _ h => exact h
theorem Consumed.head {c t ts c'} (h : Consumed c (t :: ts) c') : c.symbol = .ok t := by cases h with | step h _ => exact h
theorem SymIn.back {K c c'} (h : SymIn K c) (h' : Consumed c [] c') : SymIn K c' := by
  unfold SymIn; rw [h'.nil_symbol]; exact h

theorem StrOk.app {a b c1 c'} (h : StrOk a c1) (h' : StrOk b c') (hc : Consumed c1 b c') : StrOk (a ++ b) c' := by
  cases b with
  | nil => rw [List.append_nil]; intro u hu; exact h u (hc.nil_symbol ▸ hu)
  | cons t b =>
    intro u hu e l hl
    exact h' u hu e l (by rw [List.getLast?_append] at hl; simpa using hl)
omit [Uni] in
theorem StrOk.after {a t b c'} (h' : StrOk (t :: b) c') : StrOk (a ++ t :: b) c' := by
  intro u hu e l hl
  exact h' u hu e l (by rw [List.getLast?_append] at hl; simpa using hl)

theorem XG.mk {r c c' ts} (h : Consumed c ts c') (h' : XDK [r] c.exc ts c'.exc) : XG r c c' := ⟨ts, h, h'.out⟩
theorem XG.elim {r c c'} (h : XG r c c') : ∃ ts, Consumed c ts c' ∧ XDer pRule r c.exc ts c'.exc := h
theorem XE.mk {r K c c' ts} (h : Consumed c ts c') (h' : XDK [r] c.exc ts c'.exc) (h2 : StrOk ts c') (h3 : NoCont K c') :
    XE r K c c' := ⟨ts, h, h'.out, h2, h3⟩
theorem XE.elim {r K c c'} (h : XE r K c c') :
    ∃ ts, Consumed c ts c' ∧ XDer pRule r c.exc ts c'.exc ∧ StrOk ts c' ∧ NoCont K c' := h
theorem XL.mk {r K K' c c' ts} (h : Consumed c ts c') (h' : XDer pRule r c.exc ts c'.exc) (h2 : StrOk ts c')
    (h3 : NoCont K c → NoCont K' c') : XL r K K' c c' := ⟨ts, h, h', h2, h3⟩
theorem XL.elim {r K K' c c'} (h : XL r K K' c c') :
    ∃ ts, Consumed c ts c' ∧ XDer pRule r c.exc ts c'.exc ∧ StrOk ts c' ∧ (NoCont K c → NoCont K' c') := h
theorem XT.mk1 {r r' E c c' ts} (h : Consumed c ts c') (h' : XDK [r] c.exc ts c'.exc) : XT r r' E c c' := Or.inl ⟨ts, h, h'.out⟩
theorem XT.mk2 {r r' E c c' ts} (h : Consumed c ts c') (h' : XDK [r'] c.exc ts c'.exc) (h2 : SymIn E c') : XT r r' E c c' :=
  Or.inr ⟨⟨ts, h, h'.out⟩, h2⟩
theorem xg_imp {r c c'} {P : Prop} : (XG r c c' → P) ↔ ∀ ts, Consumed c ts c' → XDer pRule r c.exc ts c'.exc → P :=
  ⟨fun h ts a b => h ⟨ts, a, b⟩, fun h ⟨ts, a, b⟩ => h ts a b⟩
theorem xe_imp {r K c c'} {P : Prop} : (XE r K c c' → P) ↔
    ∀ ts, Consumed c ts c' → XDer pRule r c.exc ts c'.exc → StrOk ts c' → NoCont K c' → P :=
  ⟨fun h ts a b d e => h ⟨ts, a, b, d, e⟩, fun h ⟨ts, a, b, d, e⟩ => h ts a b d e⟩
theorem xl_imp {r K K' c c'} {P : Prop} : (XL r K K' c c' → P) ↔
    ∀ ts, Consumed c ts c' → XDer pRule r c.exc ts c'.exc → StrOk ts c' → (NoCont K c → NoCont K' c') → P :=
  ⟨fun h ts a b d e => h ⟨ts, a, b, d, e⟩, fun h ⟨ts, a, b, d, e⟩ => h ts a b d e⟩
theorem xt_imp {r r' E c c'} {P : Prop} : (XT r r' E c c' → P) ↔
    (∀ ts, Consumed c ts c' → XDer pRule r c.exc ts c'.exc → P) ∧
    (∀ ts, Consumed c ts c' → XDer pRule r' c.exc ts c'.exc → SymIn E c' → P) :=
  ⟨fun h => ⟨fun ts a b => h (Or.inl ⟨ts, a, b⟩), fun ts a b e => h (Or.inr ⟨⟨ts, a, b⟩, e⟩)⟩,
   fun ⟨h, h'⟩ g => by
    rcases g with ⟨ts, a, b⟩ | ⟨⟨ts, a, b⟩, e⟩
    · exact h ts a b
    · exact h' ts a b e⟩
end

syntax "xder" : tactic
macro_rules
  | `(tactic| xder) => `(tactic| first
    | exact XDK.nil
    | (refine XDK.k (by assumption) ?_; xder)
    | (refine XDK.of (by assumption) ?_; xder)
    | (refine XDK.of (XDer.testlist_tr (by assumption)) ?_; xder)
    | (refine XDK.of (XDer.star_list_tr (by assumption)) ?_; xder)
    | (refine XDK.of (XDer.yield_tr (by assumption)) ?_; xder)
    | (refine XDK.seq ?_; xder)
    | (refine XDK.present ?_; xder)
    | (refine XDK.absent ?_; xder)
    | (refine XDK.left ?_; xder)
    | (refine XDK.right ?_; xder)
    | (refine XDK.more ?_; xder)
    | (refine XDK.stop ?_; xder)
    | (refine XDK.any ?_; xder)
    | (refine XDK.eps ?_; xder)
    | (refine XDK.n (p := .star_expr) ?_; xder))

syntax "strs" : tactic
macro_rules
  | `(tactic| strs) => `(tactic| first
    | exact StrOk.nil
    | assumption
    | (refine StrOk.cons (by assumption) (by decide) ?_; strs)
    | (refine StrOk.app (by assumption) ?_ (by consume); strs)
    | (refine StrOk.after ?_; strs)
    | exact StrOk.none (by assumption))
macro "nocont" : tactic => `(tactic| first
    | exact NoCont.nil
    | assumption
    | exact NoCont.add (by assumption) (by assumption) (by assumption)
    | (with_reducible apply_assumption; assumption))

macro "xe_no" : tactic => `(tactic| (exfalso; first
  | exact SymIn.no (by assumption) (by assumption) (by assumption) (by decide)
  | exact SymIn.disj (by assumption) (by assumption) (by decide)))
macro "xend" : tactic => `(tactic| ((try simp only [advance_exc_eq]); first | xder | (refine XDK.n ?_; xder)))
macro "xe_close" : tactic => `(tactic| ((try simp only [ΦEx]); first
  | xe_no
  | ((with_reducible apply XG.mk); (consume); (xend))
  | ((with_reducible apply XE.mk); (consume); (xend); (strs); (nocont))
  | ((with_reducible apply XT.mk1); (consume); (xend))
  | ((with_reducible apply XT.mk2); (consume); (xend); (assumption))
  | trivial
  | contradiction
  | (exfalso; simp_all only [Except.ok.injEq, reduceCtorEq, not_true_eq_false, not_false_eq_true]; done)))

syntax "xe_simp" (" [" Lean.Parser.Tactic.simpLemma,* "]")? : tactic
macro_rules
  | `(tactic| xe_simp) => `(tactic| xe_simp [])
  | `(tactic| xe_simp [$ls,*]) => `(tactic| simp only [wp_bind, wp_here, wp_symAt, wp_symHere, wp_sym?, wp_ite,
  wp_next, wp_mk, wp_parse, wp_fail, wp_failHere, wp_panic, wp_pure, wp_ret, wp_getExc, wp_setExc,
  implies_true, and_true, true_and, ΦEx, advance_exc, advance_exc_eq, consumed_exc, true_implies, imp_self, xg_imp, xe_imp, xl_imp,
  xt_imp, and_imp, forall_const, false_implies, $ls,*])

macro "xe_auto" : tactic => `(tactic| (wp_paths <;> (try casesm* _ ∨ _) <;> xe_close))

end Verif
