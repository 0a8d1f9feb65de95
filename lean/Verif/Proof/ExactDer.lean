import Verif.Spec.Exact
import Verif.Proof.Ev

/-!
# Analysis of the exact grammar: heights of derivations, first tokens, tokens that may follow
-/

namespace Verif
open XR
set_option linter.unusedVariables false

def Kind.all : List Kind := [
  .PyFalse, .PyNone, .PyTrue, .PyAnd, .PyAs, .PyAssert, .PyAsync, .PyAwait, .PyBreak, .PyClass, .PyContinue,
  .PyDef, .PyDel, .PyElif, .PyElse, .PyExcept, .PyFinally, .PyFor, .PyFrom, .PyGlobal, .PyIf, .PyImport,
  .PyIn, .PyIs, .PyLambda, .PyNonLocal, .PyNot, .PyOr, .PyPass, .PyRaise, .PyReturn, .PyTry, .PyWhile,
  .PyWith, .PyYield, .PyPlus, .PyMinus, .PyMul, .PyPower, .PyDiv, .PyFloorDiv, .PyModulo, .PyMatrice,
  .PyShiftLeft, .PyShiftRight, .PyBitAnd, .PyBitOr, .PyBitXor, .PyBitInvert, .PyColonAssign, .PyLess,
  .PyGreater, .PyLessEqual, .PyGreaterEqual, .PyEqual, .PyNotEqual, .PyLeftParen, .PyLeftBracket,
  .PyLeftCurly, .PyRightParen, .PyRightBracket, .PyRightCurly, .PyComa, .PyColon, .PyDot, .PySemiColon,
  .PyAssign, .PyArrow, .PyPlusAssign, .PyMinusAssign, .PyMulAssign, .PyDivAssign, .PyFloorDivAssign,
  .PyModuloAssign, .PyMatriceAssign, .PyBitAndAssign, .PyBitOrAssign, .PyBitXorAssign, .PyShiftLeftAssign,
  .PyShiftRightAssign, .PyPowerAssign, .PyElipsis, .AtomName, .AtomNumber, .AtomString, .Newline, .Indent,
  .Dedent, .TypeComment, .EOF]
theorem Kind.mem_all (k : Kind) : k ∈ Kind.all := by cases k <;> decide
instance {p : Kind → Prop} [DecidablePred p] : Decidable (∀ k, p k) :=
  decidable_of_iff (∀ k ∈ Kind.all, p k) ⟨fun h k => h k k.mem_all, fun h k _ => h k⟩

def PN.all : List PN := [
  .file_input, .eval_input, .single_input, .func_type_input, .stmt, .simple_stmt, .small_stmt, .expr_stmt,
  .star_list, .star_list_tr, .del_stmt, .pass_stmt, .flow_stmt, .break_stmt, .continue_stmt, .return_stmt,
  .yield_stmt, .raise_stmt, .import_stmt, .import_from, .import_as_name, .import_as_names, .dotted_name,
  .global_stmt, .nonlocal_stmt, .assert_stmt, .compound_stmt, .async_stmt, .if_stmt, .elif_part, .else_part,
  .while_stmt, .for_stmt, .try_stmt, .except_part, .except_clause, .finally_part, .with_stmt, .with_item,
  .suite, .funcdef, .parameters, .func_body_suite, .classdef, .namedexpr_test, .test, .test_nocond, .lambdef,
  .lambdef_nocond, .varargslist, .vararg, .vfpdef, .or_test, .and_test, .not_test, .comparison, .star_expr,
  .expr, .xor_expr, .and_expr, .shift_expr, .arith_expr, .term, .factor, .power, .atom_expr, .atom,
  .testlist_comp, .trailer, .subscriptlist, .subscriptlist_open, .subscript, .subscript_open, .exprlist,
  .exprlist_in, .testlist, .testlist_tr, .dictorsetmaker, .comp_iter, .sync_comp_for, .comp_for, .comp_if,
  .yield_expr, .yield_expr_tr, .func_type, .typelist]
theorem PN.mem_all (x : PN) : x ∈ PN.all := by cases x <;> simp [PN.all]
instance {p : PN → Prop} [DecidablePred p] : Decidable (∀ k, p k) :=
  decidable_of_iff (∀ k ∈ PN.all, p k) ⟨fun h k => h k k.mem_all, fun h k _ => h k⟩

/-! ### Heights -/

/-- `XDer`, with a bound for the number of nested nonterminals. -/
inductive XN : Nat → XR → ExcStatus → List Token → ExcStatus → Prop
  | eps {h x} : XN h .eps x [] x
  | k {h K t x} : t.kind = K → XN h (.k K) x [t] x
  | any {h t x} : XN h .any x [t] x
  | n {h p x ts y} : XN h (pRule p) x ts y → XN (h + 1) (.n p) x ts y
  | seq {h a b x ts z us y} : XN h a x ts z → XN h b z us y → XN h (a ⬝ b) x (ts ++ us) y
  | left {h a b x ts y} : XN h a x ts y → XN h (a ∥ b) x ts y
  | right {h a b x ts y} : XN h b x ts y → XN h (a ∥ b) x ts y
  | absent {h a x} : XN h (.opt a) x [] x
  | present {h a x ts y} : XN h a x ts y → XN h (.opt a) x ts y
  | stop {h a x} : XN h (.star a) x [] x
  | more {h a x ts z us y} : XN h a x ts z → XN h (.star a) z us y → XN h (.star a) x (ts ++ us) y
  | only {h p a x ts y} : XN h a x ts y → p ts = true → XN h (.only p a) x ts y
  | mark {h m x y} : m.act x = some y → XN h (.mark m) x [] y

theorem XN.mono {h r x ts y} (d : XN h r x ts y) : ∀ h', h ≤ h' → XN h' r x ts y := by
  induction d with
  | eps => intro _ _; exact .eps
  | k e => intro _ _; exact .k e
  | any => intro _ _; exact .any
  | n _ ih =>
    intro h' hh
    obtain ⟨h', rfl⟩ : ∃ j, h' = j + 1 := ⟨h' - 1, by omega⟩
    exact .n (ih _ (by omega))
  | seq _ _ ih1 ih2 => intro h' hh; exact .seq (ih1 _ hh) (ih2 _ hh)
  | left _ ih => intro h' hh; exact .left (ih _ hh)
  | right _ ih => intro h' hh; exact .right (ih _ hh)
  | absent => intro _ _; exact .absent
  | present _ ih => intro h' hh; exact .present (ih _ hh)
  | stop => intro _ _; exact .stop
  | more _ _ ih1 ih2 => intro h' hh; exact .more (ih1 _ hh) (ih2 _ hh)
  | only _ e ih => intro h' hh; exact .only (ih _ hh) e
  | mark e => intro _ _; exact .mark e

theorem XN.of {r x ts y} (d : XDer pRule r x ts y) : ∃ h, XN h r x ts y := by
  induction d with
  | eps => exact ⟨0, .eps⟩
  | k e => exact ⟨0, .k e⟩
  | any => exact ⟨0, .any⟩
  | n _ ih => obtain ⟨h, ih⟩ := ih; exact ⟨h + 1, .n ih⟩
  | seq _ _ ih1 ih2 =>
    obtain ⟨h, ih1⟩ := ih1; obtain ⟨j, ih2⟩ := ih2
    exact ⟨max h j, .seq (ih1.mono _ (Nat.le_max_left _ _)) (ih2.mono _ (Nat.le_max_right _ _))⟩
  | left _ ih => obtain ⟨h, ih⟩ := ih; exact ⟨h, .left ih⟩
  | right _ ih => obtain ⟨h, ih⟩ := ih; exact ⟨h, .right ih⟩
  | absent => exact ⟨0, .absent⟩
  | present _ ih => obtain ⟨h, ih⟩ := ih; exact ⟨h, .present ih⟩
  | stop => exact ⟨0, .stop⟩
  | more _ _ ih1 ih2 =>
    obtain ⟨h, ih1⟩ := ih1; obtain ⟨j, ih2⟩ := ih2
    exact ⟨max h j, .more (ih1.mono _ (Nat.le_max_left _ _)) (ih2.mono _ (Nat.le_max_right _ _))⟩
  | only _ e ih => obtain ⟨h, ih⟩ := ih; exact ⟨h, .only ih e⟩
  | mark e => exact ⟨0, .mark e⟩

theorem xn_eps {h x ts y} : XN h .eps x ts y ↔ ts = [] ∧ y = x :=
  ⟨fun d => by cases d; exact ⟨rfl, rfl⟩, fun ⟨a, b⟩ => by subst a b; exact .eps⟩
theorem xn_k {h K x ts y} : XN h (.k K) x ts y ↔ ∃ t, ts = [t] ∧ t.kind = K ∧ y = x :=
  ⟨fun d => by cases d; exact ⟨_, rfl, by assumption, rfl⟩, fun ⟨t, a, b, e⟩ => by subst a e; exact .k b⟩
theorem xn_any {h x ts y} : XN h .any x ts y ↔ ∃ t, ts = [t] ∧ y = x :=
  ⟨fun d => by cases d; exact ⟨_, rfl, rfl⟩, fun ⟨t, a, e⟩ => by subst a e; exact .any⟩
theorem xn_seq {h a b x ts y} : XN h (a ⬝ b) x ts y ↔ ∃ u z v, XN h a x u z ∧ XN h b z v y ∧ ts = u ++ v :=
  ⟨fun d => by cases d; exact ⟨_, _, _, by assumption, by assumption, rfl⟩,
    fun ⟨u, z, v, d, e, f⟩ => by subst f; exact .seq d e⟩
theorem xn_alt {h a b x ts y} : XN h (a ∥ b) x ts y ↔ XN h a x ts y ∨ XN h b x ts y :=
  ⟨fun d => by cases d with | left d => exact .inl d | right d => exact .inr d,
    fun d => d.elim .left .right⟩
theorem xn_opt {h a x ts y} : XN h (.opt a) x ts y ↔ (ts = [] ∧ y = x) ∨ XN h a x ts y :=
  ⟨fun d => by cases d with | absent => exact .inl ⟨rfl, rfl⟩ | present d => exact .inr d,
    fun d => d.elim (fun ⟨a, b⟩ => by subst a b; exact .absent) .present⟩
theorem xn_star {h a x ts y} :
    XN h (.star a) x ts y ↔ (ts = [] ∧ y = x) ∨ ∃ u z v, XN h a x u z ∧ XN h (.star a) z v y ∧ ts = u ++ v :=
  ⟨fun d => by cases d with | stop => exact .inl ⟨rfl, rfl⟩ | more d e => exact .inr ⟨_, _, _, d, e, rfl⟩,
    fun d => d.elim (fun ⟨a, b⟩ => by subst a b; exact .stop) (fun ⟨u, z, v, d1, d2, f⟩ => by subst f; exact .more d1 d2)⟩
theorem xn_only {h p a x ts y} : XN h (.only p a) x ts y ↔ XN h a x ts y ∧ p ts = true :=
  ⟨fun d => by cases d; exact ⟨by assumption, by assumption⟩, fun ⟨d, e⟩ => .only d e⟩
theorem xn_mark {h m x ts y} : XN h (.mark m) x ts y ↔ ts = [] ∧ m.act x = some y :=
  ⟨fun d => by cases d; exact ⟨rfl, by assumption⟩, fun ⟨a, d⟩ => by subst a; exact .mark d⟩
theorem xn_kseq {h K b x ts y} (d : XN h (.k K ⬝ b) x ts y) : ∃ t us, ts = t :: us ∧ t.kind = K ∧ XN h b x us y := by
  rw [xn_seq] at d
  obtain ⟨_, _, us, d1, d2, rfl⟩ := d
  obtain ⟨t, rfl, hk, rfl⟩ := xn_k.1 d1
  exact ⟨t, us, rfl, hk, d2⟩
theorem xn_n {h p x ts y} (d : XN h (.n p) x ts y) : ∃ j, h = j + 1 ∧ XN j (pRule p) x ts y := by
  cases d; exact ⟨_, rfl, by assumption⟩

/-- Induction over the rounds of a repetition. -/
theorem XN.star_ind {h a} {P : ExcStatus → List Token → ExcStatus → Prop} (h0 : ∀ x, P x [] x)
    (h1 : ∀ x u z v y, XN h a x u z → XN h (.star a) z v y → P z v y → P x (u ++ v) y) {x ts y} (d : XN h (.star a) x ts y) :
    P x ts y := by
  generalize hr : XR.star a = r at d
  induction d with
  | stop => exact h0 _
  | more d1 d2 _ ih => cases hr; exact h1 _ _ _ _ _ d1 d2 (ih h1 rfl)
  | _ => cases hr

/-! ### First tokens -/

/-- May `r` be empty? -/
def XR.null : XR → Bool
  | .eps | .opt _ | .star _ | .mark _ => true
  | .k _ | .any | .n _ => false
  | .seq a b => a.null && b.null
  | .alt a b => a.null || b.null
  | .only _ a => a.null

/-- What an atom starts with. -/
def firstAtom : List Kind := [.PyLeftParen, .PyLeftBracket, .PyLeftCurly, .AtomName, .AtomNumber, .AtomString, .PyElipsis,
  .PyNone, .PyTrue, .PyFalse]
def firstExpr : List Kind := firstAtom ++ [.PyAwait, .PyPlus, .PyMinus, .PyBitInvert]
def firstOr : List Kind := firstExpr ++ [.PyNot]
def firstTest : List Kind := firstOr ++ [.PyLambda]
def firstElem : List Kind := firstTest ++ [.PyMul]
def firstFlow : List Kind := [.PyBreak, .PyContinue, .PyReturn, .PyRaise, .PyYield]
def firstSmall : List Kind := firstElem ++ [.PyDel, .PyPass, .PyFrom, .PyGlobal, .PyNonLocal, .PyAssert] ++ firstFlow
def firstCompound : List Kind := [.PyIf, .PyWhile, .PyFor, .PyTry, .PyWith, .PyDef, .PyClass, .PyAsync]

def PN.firsts : PN → List Kind
  | .file_input => firstSmall ++ firstCompound ++ [.Newline, .EOF]
  | .eval_input => firstTest
  | .single_input => firstSmall ++ firstCompound ++ [.Newline]
  | .func_type_input | .func_type | .parameters => [.PyLeftParen]
  | .stmt => firstSmall ++ firstCompound
  | .simple_stmt | .small_stmt => firstSmall
  | .expr_stmt | .star_list | .star_list_tr | .exprlist | .exprlist_in | .testlist_comp => firstElem
  | .dictorsetmaker => firstElem ++ [.PyPower]
  | .del_stmt => [.PyDel]
  | .pass_stmt => [.PyPass]
  | .flow_stmt => firstFlow
  | .break_stmt => [.PyBreak]
  | .continue_stmt => [.PyContinue]
  | .return_stmt => [.PyReturn]
  | .yield_stmt | .yield_expr | .yield_expr_tr => [.PyYield]
  | .raise_stmt => [.PyRaise]
  | .import_stmt | .import_from => [.PyFrom]
  | .import_as_name | .import_as_names | .dotted_name | .vararg | .vfpdef => [.AtomName]
  | .global_stmt => [.PyGlobal]
  | .nonlocal_stmt => [.PyNonLocal]
  | .assert_stmt => [.PyAssert]
  | .compound_stmt => firstCompound
  | .async_stmt => [.PyAsync]
  | .if_stmt | .comp_if => [.PyIf]
  | .elif_part => [.PyElif]
  | .else_part => [.PyElse]
  | .while_stmt => [.PyWhile]
  | .for_stmt | .sync_comp_for => [.PyFor]
  | .try_stmt => [.PyTry]
  | .except_part | .except_clause => [.PyExcept]
  | .finally_part => [.PyFinally]
  | .with_stmt => [.PyWith]
  | .with_item | .namedexpr_test | .test | .testlist | .testlist_tr => firstTest
  | .test_nocond => firstTest
  | .suite | .func_body_suite => .Newline :: firstSmall
  | .funcdef => [.PyDef]
  | .classdef => [.PyClass]
  | .lambdef | .lambdef_nocond => [.PyLambda]
  | .varargslist => [.AtomName, .PyMul, .PyPower]
  | .or_test | .and_test | .not_test => firstOr
  | .comparison | .expr | .xor_expr | .and_expr | .shift_expr | .arith_expr | .term | .factor => firstExpr
  | .star_expr => [.PyMul]
  | .power | .atom_expr => firstAtom ++ [.PyAwait]
  | .atom => firstAtom
  | .trailer => [.PyLeftParen, .PyLeftBracket, .PyDot]
  | .subscriptlist | .subscriptlist_open | .subscript | .subscript_open => .PyColon :: firstTest
  | .comp_iter => [.PyFor, .PyAsync, .PyIf]
  | .comp_for => [.PyFor, .PyAsync]
  | .typelist => firstElem ++ [.PyPower]

/-- May `r` start with a token of kind `x`? -/
def XR.first : XR → Kind → Bool
  | .eps, _ | .mark _, _ => false
  | .k K, x => x == K
  | .any, _ => true
  | .n p, x => p.firsts.contains x
  | .seq a b, x => a.first x || (a.null && b.first x)
  | .alt a b, x => a.first x || b.first x
  | .opt a, x | .star a, x | .only _ a, x => a.first x

theorem PN.first_table : ∀ p : PN, ∀ x : Kind, (pRule p).first x = true → p.firsts.contains x = true := by
  decide +kernel
theorem PN.null_table : ∀ p : PN, (pRule p).null = false := by decide +kernel

theorem XN.null {h r x y ts} (d : XN h r x ts y) (e : ts = []) : r.null = true := by
  induction d with
  | eps | absent | stop | mark => rfl
  | k | any => cases e
  | n _ ih => have := ih e; rw [PN.null_table] at this; cases this
  | seq _ _ ih1 ih2 =>
    obtain ⟨e1, e2⟩ := List.append_eq_nil_iff.1 e
    simp [XR.null, ih1 e1, ih2 e2]
  | left _ ih | right _ ih => simp [XR.null, ih e]
  | present | more => rfl
  | only _ _ ih => exact ih e

theorem XN.first {h r x y ts} (d : XN h r x ts y) : ∀ t us, ts = t :: us → r.first t.kind = true := by
  induction d with
  | eps | absent | stop | mark => intro t us e; cases e
  | k hk => intro t us e; cases e; simp [XR.first, hk]
  | any => intro t us e; rfl
  | n _ ih => intro t us e; exact PN.first_table _ _ (ih t us e)
  | @seq _ _ _ _ ts' _ _ _ d1 _ ih1 ih2 =>
    intro t us e
    cases ts' with
    | nil => simp [XR.first, d1.null rfl, ih2 t us e]
    | cons s ts' => cases e; simp [XR.first, ih1 _ _ rfl]
  | left _ ih | right _ ih => intro t us e; simp [XR.first, ih t us e]
  | present _ ih | only _ _ ih => intro t us e; exact ih t us e
  | @more _ _ _ ts' _ _ _ d1 _ ih1 ih2 =>
    intro t us e
    cases ts' with
    | nil => exact ih2 t us e
    | cons s ts' => cases e; exact ih1 _ _ rfl

/-- A sentence of a nonterminal starts with one of its first tokens. -/
theorem XN.head {h p x ts y} (d : XN h (.n p) x ts y) : ∃ t us, ts = t :: us ∧ p.firsts.contains t.kind = true := by
  cases ts with
  | nil => have := d.null rfl; simp [XR.null] at this
  | cons t us => exact ⟨t, us, rfl, d.first _ _ rfl⟩

end Verif
