import Verif.Proof.ExactDer
import Mathlib.Tactic.CasesM

/-!
# Running the parse functions on sentences of the exact grammar: definitions
-/

namespace Verif
open XR Prog
set_option linter.unusedVariables false

/-! ### The functions and what may follow -/

def PN.fn : PN → Fn
  | .file_input => .fileInput | .eval_input => .evalInput | .single_input => .singleInput
  | .func_type_input => .funcTypeInput
  | .stmt => .stmt | .simple_stmt => .simpleStmt | .small_stmt => .smallStmt | .expr_stmt => .exprStmt
  | .star_list | .star_list_tr => .testlistStarExpr
  | .del_stmt => .delStmt | .pass_stmt => .passStmt | .flow_stmt => .flowStmt | .break_stmt => .breakStmt
  | .continue_stmt => .continueStmt | .return_stmt => .returnStmt | .yield_stmt => .yieldStmt | .raise_stmt => .raiseStmt
  | .import_stmt => .importStmt | .import_from => .importFrom | .import_as_name => .importAsName
  | .import_as_names => .importAsNames | .dotted_name => .dottedName | .global_stmt => .globalStmt
  | .nonlocal_stmt => .nonlocalStmt | .assert_stmt => .assertStmt | .compound_stmt => .compoundStmt
  | .async_stmt => .asyncStmt | .if_stmt => .ifStmt | .elif_part => .elifStmt | .else_part => .elseStmt
  | .while_stmt => .whileStmt | .for_stmt => .forStmt | .try_stmt => .tryStmt | .except_part => .exceptStmt
  | .except_clause => .exceptClause | .finally_part => .finallyStmt | .with_stmt => .withStmt | .with_item => .withItem
  | .suite => .suite | .funcdef => .funcDef | .parameters => .parameters | .func_body_suite => .funcBodySuite
  | .classdef => .classDef
  | .namedexpr_test => .namedExpression | .test => .test | .test_nocond => .noCondTest | .lambdef => .lambdaDef true
  | .lambdef_nocond => .lambdaDef false | .varargslist => .varArgsList | .vararg => .varArgsAssignments | .vfpdef => .vfpDef
  | .or_test => .orTest | .and_test => .andTest | .not_test => .notTest | .comparison => .comparison
  | .star_expr => .starExpr | .expr => .expr | .xor_expr => .xorExpr | .and_expr => .andExpr | .shift_expr => .shift
  | .arith_expr => .arith | .term => .term | .factor => .factor | .power => .power | .atom_expr => .atomExpr
  | .atom => .atom | .testlist_comp => .testlistComp | .trailer => .trailer
  | .subscriptlist | .subscriptlist_open => .subscriptList | .subscript | .subscript_open => .subscript
  | .exprlist | .exprlist_in => .exprlist | .testlist | .testlist_tr => .testlist | .dictorsetmaker => .dictorsetMaker
  | .comp_iter => .compIter | .sync_comp_for => .syncCompFor | .comp_for => .compFor | .comp_if => .compIf
  | .yield_expr | .yield_expr_tr => .yieldExpr | .func_type => .funcType | .typelist => .typeList

def contAtomExpr : List Kind := [.PyLeftParen, .PyLeftBracket, .PyDot]
def contPower : List Kind := contAtomExpr ++ [Kind.PyPower]
def contTerm : List Kind := contPower ++ [Kind.PyMul, .PyDiv, .PyFloorDiv, .PyModulo, .PyMatrice]
def contArith : List Kind := contTerm ++ [Kind.PyPlus, .PyMinus]
def contShift : List Kind := contArith ++ [Kind.PyShiftLeft, .PyShiftRight]
def contAnd : List Kind := contShift ++ [Kind.PyBitAnd]
def contXor : List Kind := contAnd ++ [Kind.PyBitXor]
def contExpr : List Kind := contXor ++ [Kind.PyBitOr]
def contComp : List Kind := contExpr ++ [Kind.PyLess, .PyGreater, .PyEqual, .PyGreaterEqual, .PyLessEqual, .PyNotEqual, .PyIn,
  .PyNot, .PyIs]
def contAndTest : List Kind := contComp ++ [Kind.PyAnd]
def contOrTest : List Kind := contAndTest ++ [Kind.PyOr]
def contTest : List Kind := contOrTest ++ [Kind.PyIf]
def stmtEnd : List Kind := [.PySemiColon, .Newline]

/-- The tokens after which, or before which, the function of a nonterminal stops. -/
def PN.follow : PN → Kind → Bool
  | .file_input, _ | .eval_input, _ | .single_input, _ | .func_type_input, _ => false
  | .atom, _ | .trailer, _ | .vfpdef, _ | .suite, _ | .func_body_suite, _ | .simple_stmt, _ | .parameters, _
  | .else_part, _ | .elif_part, _ | .finally_part, _ | .except_part, _ => true
  | .atom_expr, x => !contAtomExpr.contains x
  | .power, x | .factor, x => !contPower.contains x
  | .term, x => !contTerm.contains x
  | .arith_expr, x => !contArith.contains x
  | .shift_expr, x => !contShift.contains x
  | .and_expr, x => !contAnd.contains x
  | .xor_expr, x => !contXor.contains x
  | .expr, x | .star_expr, x => !contExpr.contains x
  | .comparison, x | .not_test, x => !contComp.contains x
  | .and_test, x => !contAndTest.contains x
  | .or_test, x | .test_nocond, x | .lambdef_nocond, x => !contOrTest.contains x
  | .test, x | .lambdef, x => !contTest.contains x
  | .namedexpr_test, x => !(contTest ++ [Kind.PyColonAssign]).contains x
  | .testlist, x | .star_list, x | .yield_expr, x => !(contTest ++ [Kind.PyComa]).contains x
  | .exprlist, x => !(contTest ++ [Kind.PyComa, .PyColonAssign]).contains x
  | .testlist_tr, x => [Kind.Newline, .PySemiColon, .EOF].contains x
  | .star_list_tr, x | .yield_expr_tr, x => starListEnd.contains x
  | .exprlist_in, x => [Kind.PyIn].contains x
  | .subscript, x => !(contTest ++ [Kind.PyColon]).contains x
  | .subscriptlist, x => !(contTest ++ [Kind.PyColon, .PyComa]).contains x
  | .subscript_open, x | .subscriptlist_open, x => [Kind.PyRightBracket].contains x
  | .testlist_comp, x | .comp_for, x | .comp_iter, x | .sync_comp_for, x | .comp_if, x =>
    [Kind.PyRightParen, .PyRightBracket].contains x
  | .dictorsetmaker, x => [Kind.PyRightCurly].contains x
  | .varargslist, x => [Kind.PyColon, .PyRightParen].contains x
  | .vararg, x => [Kind.PyComa, .PyColon, .PyRightParen].contains x
  | .small_stmt, x | .expr_stmt, x | .del_stmt, x | .pass_stmt, x | .flow_stmt, x | .break_stmt, x | .continue_stmt, x
  | .return_stmt, x | .yield_stmt, x | .raise_stmt, x | .import_stmt, x | .import_from, x | .global_stmt, x
  | .nonlocal_stmt, x | .assert_stmt, x => stmtEnd.contains x
  | .import_as_name, x => (stmtEnd ++ [Kind.PyComa, .PyRightParen]).contains x
  | .import_as_names, x => (stmtEnd ++ [Kind.PyRightParen]).contains x
  | .dotted_name, x => [Kind.PyImport].contains x
  | .with_item, x => [Kind.PyComa, .PyColon, .PyRightParen].contains x
  | .except_clause, x => [Kind.PyColon].contains x
  | .if_stmt, x | .while_stmt, x | .for_stmt, x | .try_stmt, x | .with_stmt, x | .funcdef, x | .classdef, x
  | .async_stmt, x | .compound_stmt, x | .stmt, x => ![Kind.PyElif, .PyElse, .PyExcept, .PyFinally].contains x
  | .func_type, x => [Kind.Newline, .EOF].contains x
  | .typelist, x => [Kind.PyRightParen].contains x

/-- After `ts`, with `u` next, a string is not continued. -/
def StrEnd (ts : List Token) (u : Token) : Prop :=
  u.kind = .AtomString → ∀ l, ts.getLast? = some l → l.kind ≠ .AtomString

/-- The function of `p` stops after `ts` when `u` is next. -/
def XFits (p : PN) (ts : List Token) (u : Token) : Prop := p.follow u.kind = true ∧ StrEnd ts u

section
variable [Uni]

/-! ### Positions -/

/-- The state after the tokens. -/
def PSt.after (c : PSt) : List Token → ExcStatus → PSt
  | [], y => { c with exc := y }
  | _ :: ts, y => c.advance.after ts y

/-- The current symbols from here on are the tokens and then `u`. -/
def On : PSt → List Token → Token → Prop
  | c, [], u => c.symbol = .ok u
  | c, t :: ts, u => c.symbol = .ok t ∧ On c.advance ts u

omit [Uni] in
/-- The first of `ts`, or else `u`. -/
def hdT (ts : List Token) (u : Token) : Token := ts.head?.getD u

theorem advance_withExc (c : PSt) (x) : ({ c with exc := x } : PSt).advance = { c.advance with exc := x } := by
  unfold PSt.advance
  cases getSymbol c.lex <;> rfl

theorem advance_exc_eq (c : PSt) : c.advance.exc = c.exc := by
  unfold PSt.advance; cases getSymbol c.lex <;> rfl

theorem after_withExc (c : PSt) (x ts y) : ({ c with exc := x } : PSt).after ts y = c.after ts y := by
  induction ts generalizing c with
  | nil => rfl
  | cons t ts ih => simp only [PSt.after, advance_withExc, ih]

theorem after_exc (c : PSt) (ts y) : (c.after ts y).exc = y := by
  induction ts generalizing c with
  | nil => rfl
  | cons t ts ih => exact ih _

theorem after_append (c : PSt) (ts z us y) : (c.after ts z).after us y = c.after (ts ++ us) y := by
  induction ts generalizing c with
  | nil => exact after_withExc ..
  | cons t ts ih => exact ih _

theorem on_withExc {c : PSt} {x ts u} : On { c with exc := x } ts u ↔ On c ts u := by
  induction ts generalizing c with
  | nil => exact Iff.rfl
  | cons t ts ih => simp only [On, advance_withExc, ih]

theorem on_append {c : PSt} {ts z us u} : On c (ts ++ us) u ↔ On c ts (hdT us u) ∧ On (c.after ts z) us u := by
  induction ts generalizing c with
  | nil =>
    refine ⟨fun h => ⟨?_, on_withExc.2 h⟩, fun h => on_withExc.1 h.2⟩
    cases us with
    | nil => exact h
    | cons t us => exact h.1
  | cons t ts ih =>
    simp only [List.cons_append, On, ih, PSt.after, and_assoc]

/-- `p` succeeds and consumes exactly `ts`. -/
def Eats {α : Type} (p : Prog α) (c : PSt) (ts : List Token) (y : ExcStatus) : Prop := ∃ a, EvP p c a (c.after ts y)

theorem acc_bind {α β : Type} {p : Prog α} {f : α → Prog β} {c ts z us y} (h1 : Eats p c ts z)
    (h2 : ∀ a, Eats (f a) (c.after ts z) us y) : Eats (p >>= f) c (ts ++ us) y := by
  obtain ⟨a, h1⟩ := h1
  obtain ⟨b, h2⟩ := h2 a
  rw [after_append] at h2
  exact ⟨b, evp_bind h1 h2⟩

theorem acc_zero {α β : Type} {p : Prog α} {f : α → Prog β} {c a ts y} (h1 : EvP p c a c) (h2 : Eats (f a) c ts y) :
    Eats (p >>= f) c ts y := by
  obtain ⟨b, h2⟩ := h2
  exact ⟨b, evp_bind h1 h2⟩

theorem acc_here {β : Type} {f : Nat → Prog β} {c ts y} (h : ∀ s, Eats (f s) c ts y) : Eats (here >>= f) c ts y :=
  acc_zero evp_here (h _)
theorem acc_mkBind {β : Type} {tag s l} {f : Tree → Prog β} {c ts y} (h : ∀ t, Eats (f t) c ts y) :
    Eats (mk tag s l >>= f) c ts y := acc_zero evp_mk (h _)
theorem acc_pureBind {α β : Type} {a : α} {f : α → Prog β} {c ts y} (h : Eats (f a) c ts y) :
    Eats (pure a >>= f) c ts y := h
theorem acc_next {β : Type} {f : Unit → Prog β} {c t ts y} (h : Eats (f ()) c.advance ts y) :
    Eats (next >>= f) c (t :: ts) y := by
  obtain ⟨b, h⟩ := h
  exact ⟨b, evp_bind evp_next h⟩
theorem acc_pure {α : Type} {a : α} {c : PSt} {x} (h : c.exc = x) : Eats (pure a) c [] x := by
  subst h; exact ⟨a, evp_pure⟩
theorem acc_mk {tag s l} {c : PSt} {x} (h : c.exc = x) : Eats (mk tag s l) c [] x := by
  subst h; exact ⟨_, evp_mk⟩

theorem on_hd {c : PSt} {ts u} (h : On c ts u) : c.symbol = .ok (hdT ts u) := by
  cases ts with
  | nil => exact h
  | cons t ts => exact h.1

theorem acc_symAt {β : Type} {s m} {f : Token → Prog β} {c ts u y} (ho : On c ts u) (h : Eats (f (hdT ts u)) c ts y) :
    Eats (symAt s m >>= f) c ts y := acc_zero (evp_symAt (on_hd ho)) h
theorem acc_symHere {β : Type} {m} {f : Token → Prog β} {c ts u y} (ho : On c ts u) (h : Eats (f (hdT ts u)) c ts y) :
    Eats (symHere m >>= f) c ts y := acc_zero (evp_symHere (on_hd ho)) h
theorem acc_sym? {β : Type} {f : Option Token → Prog β} {c ts u y} (ho : On c ts u) (h : Eats (f (some (hdT ts u))) c ts y) :
    Eats (sym? >>= f) c ts y := acc_zero (evp_sym? (on_hd ho)) h

/-- `f` succeeds on `ts`. -/
def Suc (f : Fn) (c : PSt) (ts : List Token) (y : ExcStatus) : Prop := ∃ t, Ev f c t (c.after ts y)

theorem Suc.of {f c ts y} (h : Eats (body f) c ts y) : Suc f c ts y := by
  obtain ⟨t, h⟩ := h; exact ⟨t, ev_body h⟩
theorem Suc.parse {f c ts y} (h : Suc f c ts y) : Eats (parse f) c ts y := by
  obtain ⟨t, h⟩ := h; exact ⟨t, evp_parse h⟩

theorem acc_call {β : Type} {f : Fn} {k : Tree → Prog β} {c ts z us u y} (h1 : Suc f c ts z) (ho : On c (ts ++ us) u)
    (h2 : ∀ d t, d.exc = z → On d us u → Eats (k t) d us y) : Eats (parse f >>= k) c (ts ++ us) y :=
  acc_bind h1.parse fun t => h2 _ t (after_exc ..) (on_append.1 ho).2

/-- Every sentence of `p` of height `h` is accepted by the function of `p`. -/
def Claim (h : Nat) (p : PN) : Prop := ∀ c x ts y u, XN h (.n p) x ts y → c.exc = x → On c ts u → XFits p ts u →
  Suc p.fn c ts y

end

/-! ### `XFits` -/

theorem StrEnd.of {ts u} (h : u.kind ≠ .AtomString) : StrEnd ts u := fun e => absurd e h
theorem StrEnd.of_last {ts t u} (h : t.kind ≠ .AtomString) : StrEnd (ts ++ [t]) u := fun e l hl => by
  simp at hl; subst hl; exact h

theorem XFits.kind {p ts} {u : Token} {K} (hk : u.kind = K) (h : p.follow K = true ∧ K ≠ .AtomString) : XFits p ts u :=
  ⟨by rw [hk]; exact h.1, .of (by rw [hk]; exact h.2)⟩

theorem XFits.fol {p ts u} (h : XFits p ts u) : p.follow u.kind = true := h.1
theorem XFits.mk' {p ts u} (h : p.follow u.kind = true) (h' : StrEnd ts u) : XFits p ts u := ⟨h, h'⟩

theorem XFits.sub {p q ts u} (h : XFits p ts u) (hpq : ∀ x, p.follow x = true → q.follow x = true) : XFits q ts u :=
  ⟨hpq _ h.1, h.2⟩
theorem StrEnd.suff {ts us u} (h : StrEnd ts u) (hs : us <:+ ts) : StrEnd us u := fun e l hl => by
  obtain ⟨r, rfl⟩ := hs
  exact h e l (by rw [List.getLast?_append, hl]; rfl)
theorem XFits.suff {p ts us u} (h : XFits p ts u) (hs : us <:+ ts) : XFits p us u := ⟨h.1, h.2.suff hs⟩

/-- Before a part `r` that may be empty. -/
theorem XFits.rest {p q a b u h r z y} (hf : XFits q (a ++ b) u) (d : XN h r z b y)
    (h1 : ∀ x, q.follow x = true → p.follow x = true)
    (h2 : ∀ x, r.first x = true → p.follow x = true ∧ x ≠ .AtomString) : XFits p a (hdT b u) := by
  cases b with
  | nil => rw [List.append_nil] at hf; exact hf.sub h1
  | cons t b => have := h2 _ (d.first _ _ rfl); exact ⟨this.1, .of this.2⟩

theorem XFits.str {p t u} (hf : XFits p [t] u) (hk : t.kind = .AtomString) : u.kind ≠ .AtomString :=
  fun e => hf.2 e t rfl hk

theorem XN.ne {h p x ts y} (d : XN h (.n p) x ts y) : ts ≠ [] := by
  obtain ⟨t, us, rfl, _⟩ := d.head; simp

end Verif
