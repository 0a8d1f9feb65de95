import Verif.Proof.ViableStmt3

/-!
# Failing runs: blocks and entry points
-/

namespace Verif
open Prog XR
set_option linter.unusedVariables false
set_option linter.unusedSectionVars false
set_option linter.unusedSimpArgs false

section
variable [Uni]

omit [Uni] in
theorem notMatch_front {t : Token} {l m} (h : X.notMatch (t :: l) = true) : X.notMatch (t :: m) = true := h

/-- a simple statement that does not start with the name `match` -/
theorem Pre.notMatch {r x ts} (h : Pre r x ts) (hr : ∀ x, ∃ us y, XDer pRule r' x us y)
    (f : ∀ us y, XDer pRule (only X.notMatch r) x us y → XDer pRule r' x us y) (hm : X.notMatch ts = true) : Pre r' x ts := by
  obtain ⟨a, b, rfl, ⟨vs, y, d⟩, ht⟩ := h
  cases a with
  | nil =>
    obtain ⟨vs, y, d⟩ := hr x
    exact ⟨[], b, rfl, ⟨vs, y, d⟩, ht⟩
  | cons t a => exact ⟨t :: a, b, rfl, ⟨vs, y, f _ _ (.only d (notMatch_front (l := a ++ b) hm))⟩, ht⟩

theorem Pre.atDecorator {r x ts us} (hv : Viable r x ts) (he : EndsLine ts) (hu : ∀ u us', us = u :: us' → u.kind = .PyMatrice) :
    Pre r x (ts ++ us) := by
  refine ⟨ts, us, rfl, hv, ?_⟩
  cases us with
  | nil => exact .inl rfl
  | cons u us => exact .inr (.inr ⟨he, u, us, rfl, hu u us rfl⟩)

theorem SymIn.headKind {c d : PSt} {us} (h : SymIn [.PyMatrice] c) (h' : Consumed c us d) (u us') (e : us = u :: us') : u.kind = .PyMatrice := by
  subst e
  obtain ⟨v, hv, hk⟩ := h
  rw [h'.head] at hv; cases hv
  simpa using hk

theorem XVD.of {r c d} (h : XV r c d) : XVD r c d := .inl h
theorem XVD.sub {r r' c d} (h : XVD r c d) (f : ∀ ts, Pre r c.exc ts → Pre r' c.exc ts) : XVD r' c d :=
  h.imp (fun ⟨ts, a, b⟩ => ⟨ts, a, f ts b⟩) id
/-- A line has been read before. -/
theorem XVD.line {r r' : XR} {c c1 d : PSt} {ts x} (h : XVD r c1 d) (hx : x = c1.exc) (hc : Consumed c ts c1) (he : EndsLine ts)
    (f : ∀ us y, XDer pRule r x us y → ∃ vs z, XDer pRule r' c.exc (ts ++ (us ++ vs)) z) (hr : ∀ x, ∃ us y, XDer pRule r x us y) : XV r' c d := by
  subst hx
  rcases h with ⟨us, w, a, b, rfl, ⟨vs, y, d⟩, ht⟩ | ⟨hs, us, w⟩
  · refine ⟨ts ++ (a ++ b), hc.trans w, ts ++ a, b, by rw [List.append_assoc], ?_, ht.app _⟩
    obtain ⟨ws, z, d'⟩ := f _ _ d
    exact ⟨vs ++ ws, z, by simpa using d'⟩
  · refine ⟨ts ++ us, hc.trans w, .atDecorator ?_ he (fun u us' => hs.headKind w u us')⟩
    obtain ⟨vs, y, d⟩ := hr c1.exc
    obtain ⟨ws, z, d'⟩ := f _ _ d
    exact ⟨vs ++ ws, z, d'⟩

omit [Uni] in
theorem endsLine_last {l : List Token} {t : Token} (h : lineEdge.contains t.kind = true) : EndsLine (l ++ [t]) := ⟨t, by simp, h⟩

attribute [local irreducible] XG XPeek XE XL XT StrOk NoCont SymIn WF PSt.advance LoopX ExprEnd ExprItem SubEnd SubItem Halts XV XVD XVL Pre

abbrev xBlock : XR := star (n .stmt) ⬝ k .Dedent

theorem blockPre {x ts} (h : Pre (n .stmt) x ts) : Pre xBlock x ts := by
  have : Pre xBlock x (ts ++ []) := PreK.out (.seq (.more (.vi h rfl)))
  rwa [List.append_nil] at this

theorem block_more {x ts z us y} (h : XDer pRule (n .stmt) x ts z) (h' : XDer pRule xBlock z us y) : XDer pRule xBlock x (ts ++ us) y :=
  XDer.round h h'

theorem block_loop {c : PSt} {c1 d ts} (u : Consumed c ts c1) (v : XDer pRule (n .stmt) c.exc ts c1.exc) (h : XVD xBlock c1 d) : XV xBlock c d :=
  h.line rfl u (stmt_endsLine v) (fun us y d => ⟨[], y, by rw [List.append_nil]; exact block_more v d⟩) (fun x => prod_of rfl x)

theorem vf_suiteLoop (s t t2 ns c) : VF (suiteLoopBody s t t2 ns) (.suiteLoop s t t2 ns) c := by
  unfold suiteLoopBody
  vf_simp
  exact ⟨fun t ht hk => ⟨fun d h => h.sub fun _ => blockPre, fun x c1 ts u v d h => .of (block_loop u v h)⟩,
    fun _ _ => .of (XV.mk (.refl _) (.nil rfl))⟩

theorem vf_funcBodyLoop (a0 a1 a2 a3 a4 a5 c) : VF (funcBodyLoopBody a0 a1 a2 a3 a4 a5) (.funcBodyLoop a0 a1 a2 a3 a4 a5) c := by
  unfold funcBodyLoopBody
  vf_simp
  exact ⟨fun t ht hk => ⟨fun d h => h.sub fun _ => blockPre, fun x c1 ts u v d h => .of (block_loop u v h)⟩,
    fun _ _ => .of (XV.mk (.refl _) (.nil rfl))⟩

/-- the body of a block, after the indentation -/
theorem block_first {p : PN} {c c1 d : PSt} {a} (ha : Consumed c a c1) (hx : c1.exc = c.exc) (he : EndsLine a)
    (f : ∀ ts z us y, XDer pRule (n .stmt) c.exc ts z → XDer pRule xBlock z us y → XDer pRule (n p) c.exc (a ++ (ts ++ us)) y)
    (h : XVD (n .stmt) c1 d) : XV (n p) c d :=
  h.line (x := c.exc) hx.symm ha he (fun us y d => by
    obtain ⟨vs, z, d'⟩ := prod_of (r := xBlock) rfl y
    exact ⟨vs, z, f _ _ _ _ d d'⟩) (fun x => prod_of rfl x)

theorem block_rest {p : PN} {c c1 c2 d : PSt} {a ts} (ha : Consumed c a c1) (he : EndsLine a)
    (f : ∀ ts z us y, XDer pRule (n .stmt) c.exc ts z → XDer pRule xBlock z us y → XDer pRule (n p) c.exc (a ++ (ts ++ us)) y)
    (u : Consumed c1 ts c2) (v : XDer pRule (n .stmt) c.exc ts c2.exc) (h : XVD xBlock c2 d) : XV (n p) c d :=
  h.line rfl (ha.trans u) (stmt_endsLine v).app (fun us y d => ⟨[], y, by rw [List.append_nil, List.append_assoc]; exact f _ _ _ _ v d⟩)
    (fun x => prod_of rfl x)

theorem vf_suite (c) : VF suiteBody .suite c := by
  unfold suiteBody
  vf_simp
  refine ⟨fun t ht => ⟨fun hk => ⟨fun t2 ht2 => ⟨fun hk2 => ?_, by vf_auto⟩, by vf_auto⟩, by vf_auto⟩, by vf_auto⟩
  have ha : Consumed c [t, t2] c.advance.advance := .step ht (.step ht2 (.refl _))
  have he : EndsLine [t, t2] := endsLine_last (l := [t]) (by rw [hk2]; decide)
  have f : ∀ ts z us y, XDer pRule (n .stmt) c.exc ts z → XDer pRule xBlock z us y → XDer pRule (n .suite) c.exc ([t, t2] ++ (ts ++ us)) y := by
    intro ts z us y v w
    cases w with
    | seq w1 w2 => exact .n (.right (.seq (ts := [t]) (.k hk) (.seq (ts := [t2]) (.k hk2) (by rw [← List.append_assoc]; exact .seq (.seq v w1) w2))))
  exact ⟨fun d h => block_first ha (by simp only [advance_exc_eq]) he f h, fun x c1 ts u v d h => block_rest ha he f u v h⟩

theorem vf_funcBodySuite (c) : VF funcBodySuiteBody .funcBodySuite c := by
  unfold funcBodySuiteBody funcBodyIndent
  vf_simp
  refine ⟨fun t ht => ⟨fun hk => ⟨fun t2 ht2 => ⟨fun hk2 => ⟨fun t3 ht3 => ⟨fun hk3 => ⟨fun t4 ht4 => ⟨fun hk4 => ?_, by vf_auto⟩, by vf_auto⟩,
    by vf_auto⟩, by vf_auto⟩, fun _ => ⟨fun t4 ht4 => ⟨fun hk4 => ?_, by vf_auto⟩, by vf_auto⟩⟩, by vf_auto⟩, by vf_auto⟩, by vf_auto⟩
  · have ha : Consumed c [t, t2, t3, t4] c.advance.advance.advance.advance := .step ht (.step ht2 (.step ht3 (.step ht4 (.refl _))))
    have he : EndsLine [t, t2, t3, t4] := endsLine_last (l := [t, t2, t3]) (by rw [hk4]; decide)
    have f : ∀ ts z us y, XDer pRule (n .stmt) c.exc ts z → XDer pRule xBlock z us y →
        XDer pRule (n .func_body_suite) c.exc ([t, t2, t3, t4] ++ (ts ++ us)) y := by
      intro ts z us y v w
      cases w with
      | seq w1 w2 => exact .n (.right (.seq (ts := [t]) (.k hk) (.seq (ts := [t2, t3]) (.present (.seq (ts := [t2]) (.k hk2) (.k hk3)))
          (.seq (ts := [t4]) (.k hk4) (by rw [← List.append_assoc]; exact .seq (.seq v w1) w2)))))
    exact ⟨fun d h => block_first ha (by simp only [advance_exc_eq]) he f h, fun x c1 ts u v d h => block_rest ha he f u v h⟩
  · have ha : Consumed c [t, t4] c.advance.advance := .step ht (.step ht4 (.refl _))
    have he : EndsLine [t, t4] := endsLine_last (l := [t]) (by rw [hk4]; decide)
    have f : ∀ ts z us y, XDer pRule (n .stmt) c.exc ts z → XDer pRule xBlock z us y →
        XDer pRule (n .func_body_suite) c.exc ([t, t4] ++ (ts ++ us)) y := by
      intro ts z us y v w
      cases w with
      | seq w1 w2 => exact .n (.right (.seq (ts := [t]) (.k hk) (.seq (ts := []) .absent
          (.seq (ts := [t4]) (.k hk4) (by rw [← List.append_assoc]; exact .seq (.seq v w1) w2)))))
    exact ⟨fun d h => block_first ha (by simp only [advance_exc_eq]) he f h, fun x c1 ts u v d h => block_rest ha he f u v h⟩

abbrev xFile : XR := star (k .Newline ∥ n .stmt) ⬝ k .EOF

theorem vf_fileLoop (s ns ss c) : VF (fileLoopBody s ns ss) (.fileLoop s ns ss) c := by
  unfold fileLoopBody
  vf_simp
  refine ⟨fun t ht _ => ⟨fun hk d h => .of ?_, fun _ => ⟨fun d h => h.sub fun ts h => ?_, fun x c1 ts u v d h => .of ?_⟩⟩,
    fun _ _ => .of (XV.mk (.refl _) (.nil rfl))⟩
  · refine h.line (x := c.exc) (by simp only [advance_exc_eq]) (ts := [t]) (.step ht (.refl _)) (endsLine_last (l := []) (by rw [hk]; decide))
      (fun us y d => ⟨[], y, ?_⟩) (fun x => prod_of rfl x)
    rw [List.append_nil]
    exact XDer.round (.left (.k hk)) d
  · have : Pre xFile c.exc (ts ++ []) := PreK.out (.seq (.more (.right (.vi h rfl))))
    rwa [List.append_nil] at this
  · refine h.line rfl u (stmt_endsLine v) (fun us y d => ⟨[], y, ?_⟩) (fun x => prod_of rfl x)
    rw [List.append_nil]
    exact XDer.round (.right v) d

theorem vf_evalLoop (s r ss c) : VF (evalLoopBody s r ss) (.evalLoop s r ss) c := by
  unfold evalLoopBody
  vf_simp
  vf_auto
theorem vf_funcTypeLoop (s r ss c) : VF (funcTypeLoopBody s r ss) (.funcTypeLoop s r ss) c := by
  unfold funcTypeLoopBody
  vf_simp
  vf_auto
theorem vf_evalInput (c) : VF evalInputBody .evalInput c := by
  unfold evalInputBody
  vf_simp
  vf_auto
theorem vf_funcTypeInput (c) : VF funcTypeInputBody .funcTypeInput c := by
  unfold funcTypeInputBody
  vf_simp
  vf_auto
theorem Pre.rule {p : PN} {x ts} (h : Pre (pRule p) x ts) : Pre (n p) x ts := h.sub fun _ _ d => .n d
theorem vf_fileInput (c) : VF fileInputBody .fileInput c := by
  unfold fileInputBody
  vf_simp
  exact fun d h => h.sub fun ts h => Pre.rule (p := .file_input) h
theorem vf_singleInput (c) : VF singleInputBody .singleInput c := by
  unfold singleInputBody singleNewline
  vf_simp
  have hx : c.advance.exc = c.exc := advance_exc_eq c
  refine ⟨fun t ht hk => ⟨fun hk2 => ⟨fun d h => h.sub fun ts h => ?_, fun x c1 ts u v => ?_⟩, fun _ hm d ts u h => .of ?_⟩,
    fun _ _ => .of (XV.mk (.refl _) (.nil rfl))⟩
  · have : Pre (n .single_input) c.advance.exc (ts ++ []) := PreK.out (.n (.right (.right (.seq (.vi h rfl)))))
    rwa [List.append_nil] at this
  · have : XVD (n .single_input) c.advance c1 :=
      .of (XV.mk (u.trans (.refl _)) (by rw [hx]; exact .n (.right (.right (.seq (.of v (.nil rfl)))))))
    exact ⟨fun _ _ _ => this, fun _ _ => this⟩
  · exact XV.mk u (Pre.notMatch (r := n .simple_stmt) (by rw [hx]; exact h) (fun x => prod_of rfl x) (fun us y d => XDer.n (p := .single_input) (.right (.left d)))
      (xs_notMatch u ht (by simpa using hm))).k1
theorem vf_stmt (c) : VF stmtBody .stmt c := by
  unfold stmtBody; vf_simp
  refine ⟨fun t ht => ⟨fun hk d h => h.sub fun ts h => h.sub fun _ _ d => .n (.right d), fun _ hm d ts u h => .of ?_⟩,
    fun _ _ => .of (XV.mk (.refl _) (.nil rfl))⟩
  exact XV.mk u (Pre.notMatch h (fun x => prod_of rfl x) (fun us y d => XDer.n (p := .stmt) (.left d)) (xs_notMatch u ht (by simpa using hm))).k1
theorem vf_asyncStmt (c) : VF asyncStmtBody .asyncStmt c := by
  unfold asyncStmtBody
  vf_simp
  refine ⟨fun t ht => ⟨fun hk => ⟨fun t2 ht2 => ⟨fun hk2 d ts u h h' => ?_, by vf_auto⟩, by vf_auto⟩, by vf_auto⟩, by vf_auto⟩
  rw [h' (.of ht2 hk2 (by decide))]
  vf_close
theorem vf_compoundStmt (c) : VF compoundStmtBody .compoundStmt c := by
  unfold compoundStmtBody
  vf_simp
  have hd : ∀ {t d}, c.symbol = .ok t → t.kind = .PyMatrice → (∃ ts, Consumed c ts d) → XVD (n .compound_stmt) c d :=
    fun ht hk h => by with_unfolding_all exact .inr ⟨.of ht hk (by decide), h⟩
  wp_paths
  all_goals first
    | exact hd (by assumption) (by assumption) (by assumption)
    | exact hd (by assumption) (by assumption) ⟨_, by assumption⟩
    | exact XVD.of (by vf_close)
theorem vf_classDef (c) : VF classDefBody .classDef c := by
  unfold classDefBody classRest
  vf_simp
  wp_paths
  all_goals vf_close
theorem vf_parameters (c) : VF parametersBody .parameters c := by
  unfold parametersBody
  vf_simp
  wp_paths
  all_goals (try subst_vars)
  all_goals vf_close


/-! ### Statements on one line -/

/-- What is known after a successful call, for the functions that are still missing. -/
def Φ2 (f : Fn) (c : PSt) (t : Tree) (c' : PSt) : Prop :=
  ΦEx f c t c' ∧ ΦR f c t c' ∧ (f = .smallStmt → XV (n .small_stmt) c c')

theorem ExprEnd.pre' {x b c} (h : ExprEnd x b c) : Pre (n .exprlist) x b := by
  have : (XDer pRule (n .exprlist) x b c.exc ∧ (SymIn [.PyIn] c → XDer pRule (n .exprlist_in) x b c.exc)) ∨
      (XDer pRule (n .exprlist_in) x b c.exc ∧ SymIn [.PyIn] c) := by with_unfolding_all exact h
  exact this.elim (fun h => .of h.1) (fun h => h.1.un_in)

theorem del_ok {m c t c'} (h : run m .delStmt c = .ok t c') : XV (n .del_stmt) c c' := by
  cases m with
  | zero => simp [run] at h
  | succ m =>
    refine wp_sound (rec := run m) (fun f c t c' h => run_exact (n := m) h) (body .delStmt) c (fun _ c' => XV (n .del_stmt) c c') ?_ t c' h
    show WP ΦEx delStmtBody c _
    unfold delStmtBody; xe_simp
    intro t ht hk x c1 ⟨ts, a, b⟩
    have := b.pre'
    vf_close

theorem small_ok {m c t c'} (h : run m .smallStmt c = .ok t c') : XV (n .small_stmt) c c' := by
  cases m with
  | zero => simp [run] at h
  | succ m =>
    refine wp_sound (Φ := fun f c t c' => ΦEx f c t c' ∧ (f = .delStmt → XV (n .del_stmt) c c'))
      (rec := run m) (fun f c t c' h => ⟨run_exact (n := m) h, fun e => by subst e; exact del_ok h⟩) (body .smallStmt) c (fun _ c' => XV (n .small_stmt) c c') ?_ t c' h
    show WP _ smallStmtBody c _
    unfold smallStmtBody; xe_simp
    intro t ht
    refine ⟨fun _ x c1 _ h => ?_, fun _ => ?_⟩
    · obtain ⟨ts, u, v⟩ := h.elim
      vf_close
    · wp_paths <;> vf_close

theorem run_known (m f c t c') (h : run m f c = .ok t c') : Φ2 f c t c' :=
  ⟨run_exact h, run_reads h, fun e => by subst e; exact small_ok h⟩

theorem vf_smallStmt (c) : VF smallStmtBody .smallStmt c := by
  unfold smallStmtBody
  vf_simp
  vf_auto

/-- The same with what is known about successful calls. -/
abbrev VF2 (p : Prog Tree) (f : Fn) (c : PSt) : Prop := WF Φ2 ΨV (ΨV f c) p c (fun _ _ => True)

abbrev xLine : XR := star (k .PySemiColon ⬝ n .small_stmt) ⬝ opt (k .PySemiColon) ⬝ k .Newline

theorem vf_simpleStmtLoop (s ns ss c) : VF2 (simpleStmtLoopBody s ns ss) (.simpleStmtLoop s ns ss) c := by
  unfold simpleStmtLoopBody simpleStmtLoopBody.fin
  vf_simp [Φ2]
  refine ⟨fun t ht => ⟨fun hk => ?_, by vf_auto⟩, by vf_auto⟩
  have hi : ∀ {P : Prop}, SymIn [.PyIn] c → P := fun h => (h.no ht hk (by decide)).elim
  have hs : XV xLine c c.advance ∧ (SymIn [.PyIn] c → c.advance = c) := ⟨by vf_close, hi⟩
  refine ⟨fun t2 ht2 => ⟨fun _ => ⟨fun _ _ _ => hs, fun _ _ => hs⟩, fun _ => ⟨fun d ts u v => ⟨by vf_close, hi⟩,
    fun x c1 h _ ts u v d us w z hd => ⟨?_, hi⟩⟩⟩, fun _ _ => hs⟩
  rcases h with h | h
  · obtain ⟨ts', u', v'⟩ := h.elim
    rw [advance_exc_eq] at v'
    refine XV.mk (.step ht (u'.trans w)) (Pre.k1 ?_)
    exact z.after (p := t :: ts') (fun us y z => XDer.round (.seq (ts := [t]) (.k hk) v') z)
  · rw [hd h]
    exact XV.mk (.step ht (u.trans (.refl _))) (.seq (.more (.seq (.k hk (.vi v rfl)))))

theorem vf_simpleStmt (c) : VF2 simpleStmtBody .simpleStmt c := by
  unfold simpleStmtBody
  vf_simp [Φ2]
  refine ⟨by vf_auto, fun x c1 h _ ts u v d us w z hd => ?_⟩
  rcases h with h | h
  · obtain ⟨ts', u', v'⟩ := h.elim
    refine XV.mk (u'.trans w) (Pre.k1 ?_)
    exact z.after (p := ts') (fun us y z => .n (.seq v' z))
  · rw [hd h]
    exact XV.mk (u.trans (.refl _)) (.n (.seq (.vi v rfl)))

/-! ### Decorators -/

theorem rdv_imp {c t c'} {P : Prop} : (Rd c t c' → P) ↔ ∀ ts, Consumed c ts c' → Reads [t] ts → P :=
  ⟨fun h ts a b => h ⟨ts, a, b⟩, fun h ⟨ts, a, b⟩ => h ts a b⟩
theorem rdvPeek_imp {K c t c'} {P : Prop} : (RdPeek K c t c' → P) ↔
    ∀ ts u, Consumed c ts c' → c'.symbol = .ok u → u.kind = K → Reads [t] (ts ++ [u]) → P :=
  ⟨fun h ts u a b x y => h ⟨ts, u, a, b, x, y⟩, fun h ⟨ts, u, a, b, x, y⟩ => h ts u a b x y⟩

macro "vc" : tactic => `(tactic| (vf_simp [Φ2, ΦR, rdv_imp, rdvPeek_imp, exists_imp]; wp_paths <;> first
  | exact ⟨_, by consume⟩
  | xe_no
  | contradiction
  | (exfalso; simp_all only [Except.ok.injEq, reduceCtorEq, not_true_eq_false, not_false_eq_true]; done)))

theorem vf_argument (c) : VF2 argumentBody .argument c := by
  unfold argumentBody; vc
theorem vf_arglist (c) : VF2 arglistBody .arglist c := by
  unfold arglistBody; vc
theorem vf_arglistLoop (s ns ss c) : VF2 (arglistLoopBody s ns ss) (.arglistLoop s ns ss) c := by
  unfold arglistLoopBody; vc
theorem vf_decorator (c) : VF2 decoratorBody .decorator c := by
  unfold decoratorBody decoratorEnd; vc
theorem vf_decoratorsLoop (s ns c) : VF2 (decoratorsLoopBody s ns) (.decoratorsLoop s ns) c := by
  unfold decoratorsLoopBody
  vf_simp [Φ2, ΦR]
  exact ⟨fun t ht hk => ⟨fun d _ h => h.no ht hk (by decide), fun _ c1 _ _ _ d _ h => h.no ht hk (by decide)⟩,
    fun x hx h => by with_unfolding_all exact h.elim fun u hu => by rw [hx] at hu; cases hu.1⟩
theorem vf_decorators (c) : VF2 decoratorsBody .decorators c := by
  unfold decoratorsBody
  vf_simp [Φ2, ΦR]
  exact fun t c1 h _ _ d h' => (h' h).elim
theorem vf_decorated (c) : VF2 decoratedBody .decorated c := by
  unfold decoratedBody
  vf_simp [Φ2, ΦR, rdvPeek_imp]
  refine ⟨fun t ht => ⟨fun hk x c1 hs ts u a hu hk' _ _ => ?_, fun _ => ⟨[], .refl _⟩⟩, fun _ _ => ⟨[], .refl _⟩⟩
  refine ⟨fun t2 ht2 => ?_, fun _ _ => ⟨ts, a⟩⟩
  rw [hu] at ht2; cases ht2
  rw [hk']
  exact ⟨fun h => (by cases h), fun _ => ⟨fun h => (by cases h), fun _ => ⟨fun h => (by cases h), fun _ => ⟨ts, a⟩⟩⟩⟩

end

end Verif
