import Verif.Proof.ExactList
import Verif.Proof.ExactList2
import Verif.Proof.ExactList3
import Verif.Proof.ExactStmt
import Verif.Proof.ExactBlock2
import Verif.Spec.Stream

/-!
# Every sentence of the exact grammar is accepted
-/

namespace Verif
open XR Prog
set_option linter.unusedVariables false
set_option linter.unusedSimpArgs false
set_option linter.unusedSectionVars false

section
variable [Uni]

theorem claims (h : Nat) : ∀ p, Claim h p := by
  induction h with
  | zero => intro p c x ts y u d; cases d
  | succ h ih =>
    intro p
    cases p with
    | file_input | eval_input | single_input | func_type_input => intro c x ts y u d hx ho hf; cases hf.1
    | stmt => exact cx_stmt ih
    | simple_stmt => exact cx_simpleStmt ih
    | small_stmt => exact cx_smallStmt ih
    | expr_stmt => exact cx_exprStmt ih
    | star_list => exact cx_starList ih
    | star_list_tr => exact cx_starListTr ih
    | del_stmt => exact cx_delStmt ih
    | pass_stmt => exact cx_passStmt ih
    | flow_stmt => exact cx_flowStmt ih
    | break_stmt => exact cx_breakStmt ih
    | continue_stmt => exact cx_continueStmt ih
    | return_stmt => exact cx_returnStmt ih
    | yield_stmt => exact cx_yieldStmt ih
    | raise_stmt => exact cx_raiseStmt ih
    | import_stmt => exact cx_importStmt ih
    | import_from => exact cx_importFrom ih
    | import_as_name => exact cx_importAsName ih
    | import_as_names => exact cx_importAsNames ih
    | dotted_name => exact cx_dottedName ih
    | global_stmt => exact cx_globalStmt ih
    | nonlocal_stmt => exact cx_nonlocalStmt ih
    | assert_stmt => exact cx_assertStmt ih
    | compound_stmt => exact cx_compoundStmt ih
    | async_stmt => exact cx_asyncStmt ih
    | if_stmt => exact cx_if ih
    | elif_part => exact cx_elif ih
    | else_part => exact cx_else ih
    | while_stmt => exact cx_while ih
    | for_stmt => exact cx_for ih
    | try_stmt => exact cx_try ih
    | except_part => exact cx_exceptPart ih
    | except_clause => exact cx_exceptClause ih
    | finally_part => exact cx_finally ih
    | with_stmt => exact cx_with ih
    | with_item => exact cx_withItem ih
    | suite => exact cx_suite ih
    | funcdef => exact cx_funcdef ih
    | parameters => exact cx_parameters ih
    | func_body_suite => exact cx_funcBody ih
    | classdef => exact cx_classdef ih
    | namedexpr_test => exact cx_namedExpr ih
    | test => exact cx_test ih
    | test_nocond => exact cx_testNocond ih
    | lambdef => exact cx_lambdef ih
    | lambdef_nocond => exact cx_lambdefNocond ih
    | varargslist => exact cx_varargslist ih
    | vararg => exact cx_vararg ih
    | vfpdef => exact cx_vfpdef ih
    | or_test => exact cx_orTest ih
    | and_test => exact cx_andTest ih
    | not_test => exact cx_notTest ih
    | comparison => exact cx_comparison ih
    | star_expr => exact cx_starExpr ih
    | expr => exact cx_expr ih
    | xor_expr => exact cx_xor ih
    | and_expr => exact cx_and ih
    | shift_expr => exact cx_shift ih
    | arith_expr => exact cx_arith ih
    | term => exact cx_term ih
    | factor => exact cx_factor ih
    | power => exact cx_power ih
    | atom_expr => exact cx_atomExpr ih
    | atom => exact cx_atom ih
    | testlist_comp => exact cx_testlistComp ih
    | trailer => exact cx_trailer ih
    | subscriptlist => exact cx_subscriptList ih
    | subscriptlist_open => exact cx_subscriptListOpen ih
    | subscript => exact cx_subscript ih
    | subscript_open => exact cx_subscriptOpen ih
    | exprlist => exact cx_exprlist ih
    | exprlist_in => exact cx_exprlistIn ih
    | testlist => exact cx_testlist ih
    | testlist_tr => exact cx_testlistTr ih
    | dictorsetmaker => exact cx_dictorset ih
    | comp_iter => exact cx_compIter ih
    | sync_comp_for => exact cx_syncCompFor ih
    | comp_for => exact cx_compFor ih
    | comp_if => exact cx_compIf ih
    | yield_expr => exact cx_yield ih
    | yield_expr_tr => exact cx_yieldTr ih
    | func_type => exact cx_funcType ih
    | typelist => exact cx_typelist ih

/-! ### The inputs -/

theorem onW_of_tokens {c : PSt} {l ts l'} (h : Tokens l ts l') (e : c.lex = l) : OnW c.advance ts := by
  induction h generalizing c with
  | nil => trivial
  | cons h1 _ ih =>
    subst e
    refine ⟨?_, ih ?_⟩ <;> simp only [PSt.advance, h1]

theorem onW_snoc {c : PSt} {ts u} (h : OnW c (ts ++ [u])) : On c ts u := (onW_split (z := c.exc) h).1

end

section
variable [Uni]
attribute [local irreducible] Prog.bind Prog.here Prog.symAt Prog.symHere Prog.sym? Prog.next Prog.parse Prog.mk
  Prog.failHere On Eats XFits PSt.after hdT HdIs PSt.advance Suc StrEnd OnW
variable {h : Nat}

theorem eats_start {β : Type} {f : Unit → Prog β} {c t ts y} (h : Eats (f ()) c.advance ts y) : Eats (next >>= f) c (t :: ts) y :=
  acc_next h

theorem cx_fileLoop {x ts y} (d : XN h (star (.k .Newline ∥ .n .stmt)) x ts y) :
    ∀ s a b c u, c.exc = x → On c ts u → u.kind = .EOF → Suc (.fileLoop s a b) c ts y := by
  have ih := claims h
  refine XN.star_ind (P := fun x ts y => ∀ s a b c u, c.exc = x → On c ts u → u.kind = .EOF → Suc (.fileLoop s a b) c ts y)
    ?_ ?_ d
  · intro x s a b c u hx ho hu
    go fileLoopBody
    eat
  · intro x a z b y d1 d2 hi s l1 l2 c u hx ho hu
    rw [xn_alt, xn_k] at d1
    obtain ⟨t, rfl, ht, rfl⟩ | d1 := d1
    · lists
      go fileLoopBody
      eat
      exact eats_tail (by assumption) fun ho => hi _ _ _ _ _ (by assumption) ho hu
    · have hq : XFits .stmt a (hdT b u) := by
        refine XFits.mk' ?_ (d1.strEnd rfl)
        cases b with
        | nil => rw [hdT_nil]; kdec
        | cons t b =>
          have := d2.first _ _ rfl
          rw [hdT_cons]
          kdec
      hds
      go fileLoopBody
      eat
      exact eats_tail (by assumption) fun ho => hi _ _ _ _ _ (by assumption) ho hu

theorem cx_fileInput {x ts y u c t} (d : XN h (star (.k .Newline ∥ .n .stmt)) x ts y) (hx : c.advance.exc = x)
    (ho : On c.advance ts u) (hu : u.kind = .EOF) : Suc .fileInput c (t :: ts) y := by
  go fileInputBody
  refine eats_start ?_
  eat
  exact eats_tail (by assumption) fun ho => cx_fileLoop d _ _ _ _ _ hx ho hu

theorem cx_evalLoop {x ts y} (d : XN h (star (.k .Newline)) x ts y) :
    ∀ s a b c u, c.exc = x → On c ts u → u.kind = .EOF → Suc (.evalLoop s a b) c ts y := by
  refine XN.star_ind (P := fun x ts y => ∀ s a b c u, c.exc = x → On c ts u → u.kind = .EOF → Suc (.evalLoop s a b) c ts y)
    ?_ ?_ d
  · intro x s a b c u hx ho hu
    go evalLoopBody
    eat
  · intro x a z b y d1 d2 hi s l1 l2 c u hx ho hu
    rw [xn_k] at d1
    obtain ⟨t, rfl, ht, rfl⟩ := d1
    lists
    go evalLoopBody
    eat
    exact eats_tail (by assumption) fun ho => hi _ _ _ _ _ (by assumption) ho hu

theorem cx_evalInput {x ts y u c t} (d : XN h (.n .testlist_tr ⬝ star (.k .Newline)) x ts y) (hx : c.advance.exc = x)
    (ho : On c.advance ts u) (hu : u.kind = .EOF) : Suc .evalInput c (t :: ts) y := by
  have ih := claims h
  obtain ⟨a, z, b, d1, d2, rfl⟩ := xn_seq.1 d
  have hq : XFits .testlist_tr a (hdT b u) := by
    cases b with
    | nil => rw [hdT_nil]; exact XFits.mk' (by kdec) (StrEnd.of (by kdec))
    | cons t b =>
      have := d2.first _ _ rfl
      rw [hdT_cons]
      exact XFits.mk' (by kdec) (StrEnd.of (by kdec))
  go evalInputBody
  refine eats_start ?_
  eat
  exact eats_tail (by assumption) fun ho => cx_evalLoop d2 _ _ _ _ _ (by assumption) ho hu

theorem cx_funcTypeLoop {x ts y} (d : XN h (star (.k .Newline)) x ts y) :
    ∀ s a b c u, c.exc = x → On c ts u → u.kind = .EOF → Suc (.funcTypeLoop s a b) c ts y := by
  refine XN.star_ind (P := fun x ts y => ∀ s a b c u, c.exc = x → On c ts u → u.kind = .EOF → Suc (.funcTypeLoop s a b) c ts y)
    ?_ ?_ d
  · intro x s a b c u hx ho hu
    go funcTypeLoopBody
    eat
  · intro x a z b y d1 d2 hi s l1 l2 c u hx ho hu
    rw [xn_k] at d1
    obtain ⟨t, rfl, ht, rfl⟩ := d1
    lists
    go funcTypeLoopBody
    eat
    exact eats_tail (by assumption) fun ho => hi _ _ _ _ _ (by assumption) ho hu

theorem cx_funcTypeInput {x ts y u c t} (d : XN h (.n .func_type ⬝ star (.k .Newline)) x ts y) (hx : c.advance.exc = x)
    (ho : On c.advance ts u) (hu : u.kind = .EOF) : Suc .funcTypeInput c (t :: ts) y := by
  have ih := claims h
  obtain ⟨a, z, b, d1, d2, rfl⟩ := xn_seq.1 d
  have hq : XFits .func_type a (hdT b u) := by
    cases b with
    | nil => rw [hdT_nil]; exact XFits.mk' (by kdec) (StrEnd.of (by kdec))
    | cons t b =>
      have := d2.first _ _ rfl
      rw [hdT_cons]
      exact XFits.mk' (by kdec) (StrEnd.of (by kdec))
  go funcTypeInputBody
  refine eats_start ?_
  eat
  exact eats_tail (by assumption) fun ho => cx_funcTypeLoop d2 _ _ _ _ _ (by assumption) ho hu

/-- An empty line. -/
theorem cx_singleEmpty {c t u} (ho : OnW c.advance [u]) (hu : u.kind = .Newline) :
    Suc .singleInput c [t, u] c.advance.exc := by
  go singleInputBody
  refine eats_start ?_
  repeat eatW

/-- Simple statements. -/
theorem cx_singleSimple {x ts y c t} (d : XN h (.n .simple_stmt) x ts y) (hx : c.advance.exc = x)
    (ho : OnW c.advance ts) (hm : X.notMatch ts = true) : Suc .singleInput c (t :: ts) y := by
  obtain ⟨j, rfl, _⟩ := xn_n d
  obtain ⟨t1, us, rfl, k1⟩ := d.head
  have hm := notMatch_hd HdIs.cons hm
  go singleInputBody
  refine eats_start ?_
  repeat eatW
  refine eats_neg hm ?_
  have := cx_simpleW (claims j) d hx ho
  rw [← List.append_nil (t1 :: us)]
  refine acc_bind this.parse fun _ => acc_mk (after_exc ..)

/-- A compound statement. -/
theorem cx_singleCompound {x ts y c t u} (d : XN h (.n .compound_stmt) x ts y) (hx : c.advance.exc = x)
    (ho : On c.advance ts u) (hu : u.kind = .Newline) : Suc .singleInput c (t :: ts) y := by
  have ih := claims h
  hds
  go singleInputBody
  refine eats_start ?_
  eat

end
end Verif
