import Verif.Proof.GramExpr

/-!
# Accepted token sequences are in the grammar: statements, definitions, entry points
-/

namespace Verif
open Prog Rx
set_option linter.unusedVariables false

section
variable [Uni]
attribute [local irreducible] Gr GrPeek WP PSt.advance

theorem gr_yieldOrTestlist (s c) : WP ΦG (yieldOrTestlist s) c (fun _ c' => Gr (n .yield_expr ∥ n .testlist) c c') := by
  unfold yieldOrTestlist; gr_simp; gr_auto

omit [Uni] in
theorem Der.rhs {ts} (h : Der rule (Rx.n .yield_expr ∥ Rx.n .testlist) ts) : Der rule G.rhs ts := by
  cases h with
  | left h => exact .left h
  | right h => exact .right h.testlist_star

theorem gr_assignLoop (s l ns c) : WP ΦG (assignLoopBody s l ns) c (ΦG (.assignLoop s l ns) c) := by
  unfold assignLoopBody
  gr_simp
  intro t ht
  refine ⟨fun hk => ?_, fun hk => ⟨fun hk2 => ?_, fun _ => ?_⟩⟩
  · refine wp_mono _ (fun x c1 hx => ?_) (gr_yieldOrTestlist _ _)
    intro y c2 us u v _
    obtain ⟨ts, w, z⟩ := hx.elim
    have z := z.rhs
    have h1 : Der rule (k .PyAssign ⬝ G.rhs) (t :: ts) := .seq (ts := [t]) (.k hk) z
    cases v with
    | seq v1 v2 =>
      refine ⟨Gr.mk (.step ht (w.trans u)) (DK.of1 (Der.round h1 (.seq v1 v2))), fun _ => Gr.mk (.step ht (w.trans u)) ?_⟩
      have := Der.seq (Der.seq h1 v1) v2
      exact DK.of1 (by simpa [plus] using this)
  · exact ⟨by gr_close, fun ⟨u, hu, hk'⟩ => by rw [ht] at hu; cases hu; exact absurd hk' hk⟩
  · exact ⟨by gr_close, fun ⟨u, hu, hk'⟩ => by rw [ht] at hu; cases hu; exact absurd hk' hk⟩

theorem gr_annAssign (s l c) : WP ΦG (annAssignBody s l) c (ΦG (.annAssign s l) c) := by
  unfold annAssignBody
  gr_simp
  intro t ht hk x c1 ts u v t2 ht2
  refine ⟨fun hk => ?_, fun _ => ?_⟩
  · refine wp_mono _ (fun y c2 hy => ?_) (gr_yieldOrTestlist _ _)
    obtain ⟨us, w, z⟩ := hy.elim
    have z := z.rhs
    gr_close
  · gr_close

theorem gr_exprStmt (c) : WP ΦG exprStmtBody c (ΦG .exprStmt c) := by
  unfold exprStmtBody
  gr_simp
  intro x c1 ts u v t ht
  refine ⟨fun hk y c2 us u' v' => ?_, fun _ => ⟨fun hk y c2 us u' v' h => ?_, fun _ => ?_⟩⟩
  · gr_close
  · obtain ⟨us', w, z⟩ := (h ⟨t, ht, hk⟩).elim
    exact Gr.mk (u.trans w) (DK.of1 (.n (.seq v (.right (.right (.present z))))))
  · split
    · rename_i tag htag
      gr_simp
      refine wp_mono _ (fun y c2 hy => ?_) (gr_yieldOrTestlist _ _)
      obtain ⟨us, w, z⟩ := hy.elim
      have h1 : Der rule G.augassign [t] := by
        unfold augOp at htag; split at htag <;> simp at htag <;> exact DK.out (by der)
      exact Gr.mk (u.trans (.step ht w)) (DK.of1 (.n (.seq v (.right (.left (.seq h1 z))))))
    · gr_simp
      gr_close

theorem gr_importFromRest (s t ds c) :
    WP ΦG (importFromRest s t ds) c (fun _ c' => Gr ((n .dotted_name ∥ .eps) ⬝ G.importWhat) c c' ∧
      (ds = [] → Gr (n .dotted_name ⬝ G.importWhat) c c')) := by
  unfold importFromRest
  gr_simp
  intro t3 ht3
  refine ⟨fun hk3 hd => ?_, fun _ x c1 ts u v => ?_⟩
  · have hd : ds ≠ [] := by rintro rfl; exact hd rfl
    have key : ∀ us : List Token, Der rule G.importWhat us → Der rule ((n .dotted_name ∥ .eps) ⬝ G.importWhat) us :=
      fun us h => .seq (ts := []) (.right .eps) h
    intro t4 ht4 hk t5 ht5
    refine ⟨fun _ => ?_, fun _ => ⟨fun _ x c2 ts u v t6 ht6 _ => ?_, fun _ x c2 ts u v => ?_⟩⟩
    · exact ⟨Gr.mk (.step ht4 (.step ht5 (.refl _))) (DK.of1 (key _ (DK.out (by der)))), fun h => absurd h hd⟩
    · exact ⟨Gr.mk (.step ht4 (.step ht5 (u.trans (.step ht6 (.refl _))))) (DK.of1 (key _ (DK.out (by der)))), fun h => absurd h hd⟩
    · exact ⟨Gr.mk (.step ht4 (u.trans (.refl _))) (DK.of1 (key _ (DK.out (by der)))), fun h => absurd h hd⟩
  · intro t4 ht4 hk t5 ht5
    refine ⟨fun _ => ?_, fun _ => ⟨fun _ x c2 ts u v t6 ht6 _ => ?_, fun _ x c2 ts u v => ?_⟩⟩ <;>
      exact ⟨by gr_close, fun _ => by gr_close⟩

theorem gr_importDots {ds : List Token} {c c' : PSt} (h : Gr ((n .dotted_name ∥ .eps) ⬝ G.importWhat) c c' ∧
      (ds = [] → Gr (n .dotted_name ⬝ G.importWhat) c c')) :
    if ds = [] then Gr ((star G.dots ⬝ n .dotted_name ∥ plus G.dots) ⬝ G.importWhat) c c'
    else Gr ((star G.dots ⬝ n .dotted_name ∥ star G.dots) ⬝ G.importWhat) c c' := by
  split
  · rename_i hd
    obtain ⟨ts, u, v⟩ := (h.2 hd).elim
    cases v with
    | seq v w => exact Gr.mk u (DK.of1 (.seq (.left (.seq (ts := []) .stop v)) w))
  · obtain ⟨ts, u, v⟩ := h.1.elim
    cases v with
    | seq v w =>
      cases v with
      | left v => exact Gr.mk u (DK.of1 (.seq (.left (.seq (ts := []) .stop v)) w))
      | right v => cases v; exact Gr.mk u (DK.of1 (.seq (ts := []) (.right .stop) w))

omit [Uni] in
theorem Der.moreDots {t ts} (h : Der rule G.dots [t])
    (h' : Der rule ((star G.dots ⬝ Rx.n .dotted_name ∥ star G.dots) ⬝ G.importWhat) ts) :
    Der rule ((star G.dots ⬝ Rx.n .dotted_name ∥ plus G.dots) ⬝ G.importWhat) (t :: ts) ∧
    Der rule ((star G.dots ⬝ Rx.n .dotted_name ∥ star G.dots) ⬝ G.importWhat) (t :: ts) := by
  cases h' with
  | @seq _ _ us vs v w =>
    cases v with
    | left v =>
      have := Der.round h v
      exact ⟨.seq (ts := t :: us) (.left this) w, .seq (ts := t :: us) (.left this) w⟩
    | right v =>
      exact ⟨.seq (ts := t :: us) (.right (.seq (ts := [t]) h v)) w, .seq (ts := t :: us) (.right (.more (ts := [t]) h v)) w⟩

theorem gr_importDotLoop (s t ds c) : WP ΦG (importDotLoopBody s t ds) c (ΦG (.importDotLoop s t ds) c) := by
  unfold importDotLoopBody
  gr_simp
  refine ⟨fun t2 ht2 => ⟨fun hk x c1 hx => ?_, fun _ => ?_⟩, fun _ _ => ?_⟩
  · rw [if_neg (by simp)] at hx
    obtain ⟨ts, u, v⟩ := hx.elim
    have hd : Der rule G.dots [t2] := by rcases hk with h | h <;> exact DK.out (by der)
    obtain ⟨h1, h2⟩ := Der.moreDots hd v
    split
    · exact Gr.mk (.step ht2 u) (DK.of1 h1)
    · exact Gr.mk (.step ht2 u) (DK.of1 h2)
  · exact wp_mono _ (fun _ _ h => by gr_simp; exact gr_importDots h) (gr_importFromRest _ _ _ _)
  · exact wp_mono _ (fun _ _ h => by gr_simp; exact gr_importDots h) (gr_importFromRest _ _ _ _)

theorem gr_importFrom (c) : WP ΦG importFromBody c (ΦG .importFrom c) := by
  unfold importFromBody; gr_simp [if_true]; gr_auto

theorem gr_exceptClause (c) : WP ΦG exceptClauseBody c (ΦG .exceptClause c) := by
  unfold exceptClauseBody exceptStar
  gr_simp
  wp_paths
  · cases c.advance.advance.exc <;> gr_simp <;> gr_auto
  · cases c.advance.exc <;> gr_simp <;> gr_auto

theorem gr_withParenLoop (s t lp ns ss c) :
    WP ΦG (withParenLoopBody s t lp ns ss) c (ΦG (.withParenLoop s t lp ns ss) c) := by
  unfold withParenLoopBody withParenEnd withRest
  gr_simp
  intro t5 ht5
  refine ⟨fun hk t6 ht6 => ⟨fun _ => ?_, fun _ x c1 ts u v y c2 us w z => ?_⟩, fun _ => ?_⟩
  · gr_auto
  · cases z with
    | seq z1 z2 =>
      have := Der.seq (Der.round (.seq (ts := [t5]) (.k hk) v) z1) z2
      rw [List.append_assoc] at this
      exact Gr.mk (.step ht5 (u.trans w)) (DK.of1 this)
  · gr_auto

theorem gr_withLoop (s t ns ss c) : WP ΦG (withLoopBody s t ns ss) c (ΦG (.withLoop s t ns ss) c) := by
  unfold withLoopBody withRest
  gr_simp
  intro t5 ht5
  refine ⟨fun hk x c1 ts u v y c2 us w z => ?_, ?_⟩
  · exact Gr.mk (.step ht5 (u.trans w)) (DK.of1 (Der.round (.seq (ts := [t5]) (.k hk) v) z))
  · gr_auto

theorem gr_withStmt (c) : WP ΦG withStmtBody c (ΦG .withStmt c) := by
  unfold withStmtBody
  gr_simp
  intro t ht hk t3 ht3
  refine ⟨fun hk3 x c1 ts u v y c2 us w z => ?_, fun _ x c1 ts u v y c2 us w z => ?_⟩
  · cases z with
    | seq z1 z2 =>
      cases z2 with
      | seq z2 z3 =>
        cases z3 with
        | seq z3 z4 =>
          have := DK.of1 (Der.n (rule := rule) (x := .with_stmt) (.seq (.k hk) (.seq (.right (.seq (.k hk3) (.seq (.seq v z1) z2))) (.seq z3 (.seq (ts := []) .absent z4)))))
          exact Gr.mk (.step ht (.step ht3 (u.trans w))) (by simpa using this)
  · cases z with
    | seq z1 z2 =>
      cases z2 with
      | seq z3 z4 =>
          have := DK.of1 (Der.n (rule := rule) (x := .with_stmt) (.seq (.k hk) (.seq (.left (.seq v z1)) (.seq z3 (.seq (ts := []) .absent z4)))))
          exact Gr.mk (.step ht (u.trans w)) (by simpa using this)

omit [Uni] in
theorem Der.loopDedent {x y : Rx} {u us} (h : Der rule x u) (h' : Der rule (star x ⬝ y) us) :
    Der rule (plus x ⬝ y) (u ++ us) := by
  cases h' with
  | seq a b => rw [← List.append_assoc]; exact .seq (.seq h a) b

theorem gr_ifLoop (s t l t2 r ns c) : WP ΦG (ifLoopBody s t l t2 r ns) c (ΦG (.ifLoop s t l t2 r ns) c) := by
  unfold ifLoopBody
  gr_simp
  intro t3 ht3
  refine ⟨fun hk x c1 ts u v y c2 us w z => ?_, ?_⟩
  · exact Gr.mk (u.trans w) (DK.of1 (Der.round v z))
  · gr_auto

theorem gr_tryLoop (s t t2 l ns c) : WP ΦG (tryLoopBody s t t2 l ns) c (ΦG (.tryLoop s t t2 l ns) c) := by
  unfold tryLoopBody
  gr_simp
  intro t3 ht3
  refine ⟨fun hk x c1 ts u v y c2 us w z => ?_, ?_⟩
  · exact Gr.mk (u.trans w) (DK.of1 (Der.round v z))
  · gr_auto

theorem gr_tryStmt (c) : WP ΦG tryStmtBody c (ΦG .tryStmt c) := by
  unfold tryStmtBody
  gr_simp
  intro t ht hk t2 ht2 hk2 x c1 ts u v t3 ht3
  refine ⟨fun _ y c2 us w z => ?_, fun _ y c2 us w z y' c3 vs w' z' => ?_⟩
  · gr_close
  · have := Der.loopDedent z z'
    have := DK.of1 (Der.n (rule := rule) (x := .try_stmt) (.seq (.k hk) (.seq (.k hk2) (.seq v (.left this)))))
    exact Gr.mk (.step ht (.step ht2 (u.trans (w.trans w')))) (by simpa using this)

theorem gr_suiteLoop (s t t2 ns c) : WP ΦG (suiteLoopBody s t t2 ns) c (ΦG (.suiteLoop s t t2 ns) c) := by
  unfold suiteLoopBody
  gr_simp
  intro t3 ht3
  refine ⟨?_, fun hk x c1 ts u v y c2 us w z => ?_⟩
  · gr_auto
  · exact Gr.mk (u.trans w) (DK.of1 (Der.round v z))

theorem gr_suite (c) : WP ΦG suiteBody c (ΦG .suite c) := by
  unfold suiteBody
  gr_simp
  intro t ht
  refine ⟨fun hk t2 ht2 hk2 x c1 ts u v y c2 us w z => ?_, fun _ => ?_⟩
  · have := Der.loopDedent v z
    exact Gr.mk (.step ht (.step ht2 (u.trans w))) (DK.of1 (.n (.right (.seq (ts := [t]) (.k hk) (.seq (ts := [t2]) (.k hk2) this)))))
  · gr_auto

theorem gr_funcBodyLoop (s t a b t4 ns c) :
    WP ΦG (funcBodyLoopBody s t a b t4 ns) c (ΦG (.funcBodyLoop s t a b t4 ns) c) := by
  unfold funcBodyLoopBody
  gr_simp
  intro t3 ht3
  refine ⟨?_, fun hk x c1 ts u v y c2 us w z => ?_⟩
  · gr_auto
  · exact Gr.mk (u.trans w) (DK.of1 (Der.round v z))

theorem gr_funcBodySuite (c) : WP ΦG funcBodySuiteBody c (ΦG .funcBodySuite c) := by
  unfold funcBodySuiteBody funcBodyIndent
  gr_simp
  intro t ht
  refine ⟨fun hk t2 ht2 => ⟨fun hk2 t3 ht3 hk3 t4 ht4 hk4 x c1 ts u v y c2 us w z => ?_, fun _ t4 ht4 hk4 x c1 ts u v y c2 us w z => ?_⟩, fun _ => ?_⟩
  · have := Der.loopDedent v z
    exact Gr.mk (.step ht (.step ht2 (.step ht3 (.step ht4 (u.trans w))))) (DK.of1 (.n (.right (.seq (ts := [t]) (.k hk)
      (.seq (ts := [t2, t3]) (.present (.seq (ts := [t2]) (.k hk2) (.k hk3))) (.seq (ts := [t4]) (.k hk4) this))))))
  · have := Der.loopDedent v z
    exact Gr.mk (.step ht (.step ht4 (u.trans w))) (DK.of1 (.n (.right (.seq (ts := [t]) (.k hk)
      (.seq (ts := []) .absent (.seq (ts := [t4]) (.k hk4) this))))))
  · gr_auto

theorem gr_simpleStmtLoop (s ns ss c) : WP ΦG (simpleStmtLoopBody s ns ss) c (ΦG (.simpleStmtLoop s ns ss) c) := by
  unfold simpleStmtLoopBody simpleStmtLoopBody.fin
  gr_simp
  intro t ht
  refine ⟨fun hk t2 ht2 => ⟨fun hk2 t3 ht3 hk3 => ?_, fun _ x c1 ts u v y c2 us w z => ?_⟩, fun _ t3 ht3 hk3 => ?_⟩
  · gr_close
  · exact Gr.mk (.step ht (u.trans w)) (DK.of1 (Der.round (.seq (ts := [t]) (.k hk) v) z))
  · gr_close

/-! ### Function types -/

theorem gr_typeListPower (s v t c) (ht : c.symbol = .ok t) (hk : t.kind = .PyPower) :
    WP ΦG (typeListPower s v t) c (fun _ c' => Gr (k .PyPower ⬝ n .test) c c') := by
  unfold typeListPower typeListResult; gr_simp; gr_auto

theorem gr_typeListMul (s v t c) (ht : c.symbol = .ok t) (hk : t.kind = .PyMul) :
    WP ΦG (typeListMul s v t) c (fun _ c' => Gr (k .PyMul ⬝ opt (n .test) ⬝ typeStar) c c') := by
  unfold typeListMul; gr_simp; gr_auto

theorem gr_typeListStarLoop (s v c) : WP ΦG (typeListStarLoopBody s v) c (ΦG (.typeListStarLoop s v) c) := by
  unfold typeListStarLoopBody typeListResult
  gr_simp
  intro t ht
  refine ⟨fun hk t2 ht2 => ⟨fun hk2 => ?_, fun _ x c1 ts u w y c2 us u' w' => ?_⟩, fun _ => ?_⟩
  · refine wp_mono _ (fun y c2 hy => ?_) (gr_typeListPower _ _ _ _ ht2 hk2)
    obtain ⟨us, u', w'⟩ := hy.elim
    gr_close
  · exact Gr.mk (.step ht (u.trans u')) (DK.of1 (Der.round (.seq (ts := [t]) (.k hk) w) w'))
  · gr_close

theorem gr_typeListMainLoop (s v c) : WP ΦG (typeListMainLoopBody s v) c (ΦG (.typeListMainLoop s v) c) := by
  unfold typeListMainLoopBody typeListResult
  gr_simp
  intro t ht
  refine ⟨fun hk t2 ht2 => ⟨fun hk2 => ?_, fun _ => ⟨fun hk2 => ?_, fun _ x c1 ts u w y c2 us u' w' => ?_⟩⟩, fun _ => ?_⟩
  · refine wp_mono _ (fun y c2 hy => ?_) (gr_typeListMul _ _ _ _ ht2 hk2)
    obtain ⟨us, u', w'⟩ := hy.elim
    exact Gr.mk (.step ht u') (DK.of1 (.seq (ts := []) .stop (.present (.seq (ts := [t]) (.k hk) (.present (.left w'))))))
  · refine wp_mono _ (fun y c2 hy => ?_) (gr_typeListPower _ _ _ _ ht2 hk2)
    obtain ⟨us, u', w'⟩ := hy.elim
    exact Gr.mk (.step ht u') (DK.of1 (.seq (ts := []) .stop (.present (.seq (ts := [t]) (.k hk) (.present (.right w'))))))
  · exact Gr.mk (.step ht (u.trans u')) (DK.of1 (Der.round (.seq (ts := [t]) (.k hk) w) w'))
  · gr_close

theorem gr_typeList (c) : WP ΦG typeListBody c (ΦG .typeList c) := by
  unfold typeListBody
  gr_simp
  intro t ht
  refine ⟨fun hk => ?_, fun _ => ⟨fun hk => ?_, fun _ x c1 ts u w y c2 us u' w' => ?_⟩⟩
  · refine wp_mono _ (fun y c2 hy => ?_) (gr_typeListMul _ _ _ _ ht hk)
    obtain ⟨us, u', w'⟩ := hy.elim
    exact Gr.mk u' (DK.of1 (.n (.right (.left w'))))
  · refine wp_mono _ (fun y c2 hy => ?_) (gr_typeListPower _ _ _ _ ht hk)
    obtain ⟨us, u', w'⟩ := hy.elim
    exact Gr.mk u' (DK.of1 (.n (.right (.right w'))))
  · exact Gr.mk (u.trans u') (DK.of1 (.n (.left (.seq w w'))))

/-! ### Entry points -/

theorem GrPeek.intro {r c c' ts u} (h1 : Consumed c ts c') (h2 : c'.symbol = .ok u) (h3 : Der rule r (ts ++ [u])) :
    GrPeek r c c' := by
  with_unfolding_all exact ⟨ts, u, h1, h2, h3⟩
theorem GrPeek.elim {r c c'} (h : GrPeek r c c') :
    ∃ ts u, Consumed c ts c' ∧ c'.symbol = .ok u ∧ Der rule r (ts ++ [u]) := by
  with_unfolding_all exact h

theorem gr_peekStep {x y : Rx} {c c1 c' : PSt} {ts} (h1 : Consumed c ts c1) (h2 : Der rule x ts)
    (h3 : GrPeek (star x ⬝ y) c1 c') : GrPeek (star x ⬝ y) c c' := by
  obtain ⟨us, u, a, b, d⟩ := h3.elim
  exact .intro (h1.trans a) b (by rw [List.append_assoc]; exact Der.round h2 d)
theorem gr_peekOf {x y : Rx} {N : NT} {c c1 c' : PSt} {ts} (h1 : Consumed c ts c1) (h2 : Der rule x ts)
    (h3 : GrPeek y c1 c') (hN : rule N = (x ⬝ y)) : GrPeek (n N) c c' := by
  obtain ⟨us, u, a, b, d⟩ := h3.elim
  exact .intro (h1.trans a) b (.n (by rw [hN, List.append_assoc]; exact .seq h2 d))
theorem gr_peekEnd {x y : Rx} {c : PSt} {t} (h1 : c.symbol = .ok t) (h2 : Der rule y [t]) : GrPeek (star x ⬝ y) c c :=
  .intro (.refl _) h1 (.seq (ts := []) .stop h2)

theorem gr_evalLoop (s r ss c) : WP ΦG (evalLoopBody s r ss) c (ΦG (.evalLoop s r ss) c) := by
  unfold evalLoopBody
  gr_simp
  intro t ht
  refine ⟨fun hk y c2 hy => ?_, fun _ hk => ?_⟩
  · exact gr_peekStep (.step ht (.refl _)) (.k hk) hy
  · exact gr_peekEnd ht (.k hk)
theorem gr_funcTypeLoop (s r ss c) : WP ΦG (funcTypeLoopBody s r ss) c (ΦG (.funcTypeLoop s r ss) c) := by
  unfold funcTypeLoopBody
  gr_simp
  intro t ht
  refine ⟨fun hk y c2 hy => ?_, fun _ hk => ?_⟩
  · exact gr_peekStep (.step ht (.refl _)) (.k hk) hy
  · exact gr_peekEnd ht (.k hk)
theorem gr_fileLoop (s ns ss c) : WP ΦG (fileLoopBody s ns ss) c (ΦG (.fileLoop s ns ss) c) := by
  unfold fileLoopBody
  gr_simp
  intro t ht
  refine ⟨fun hk => ?_, fun _ => ⟨fun hk y c2 hy => ?_, fun _ x c1 ts u v y c2 hy => ?_⟩⟩
  · exact gr_peekEnd ht (.k hk)
  · exact gr_peekStep (.step ht (.refl _)) (.left (.k hk)) hy
  · exact gr_peekStep u (.right v) hy
theorem gr_evalInput (c) : WP ΦG evalInputBody c (ΦG .evalInput c) := by
  unfold evalInputBody
  gr_simp
  intro x c1 ts u v y c2 hy
  exact gr_peekOf u v hy rfl
theorem gr_funcTypeInput (c) : WP ΦG funcTypeInputBody c (ΦG .funcTypeInput c) := by
  unfold funcTypeInputBody
  gr_simp
  intro x c1 ts u v y c2 hy
  exact gr_peekOf u v hy rfl
theorem gr_fileInput (c) : WP ΦG fileInputBody c (ΦG .fileInput c) := by
  unfold fileInputBody
  gr_simp
  intro y c2 hy
  obtain ⟨us, u, a, b, d⟩ := hy.elim
  exact .intro a b (.n d)
theorem gr_singleInput (c) : WP ΦG singleInputBody c (ΦG .singleInput c) := by
  unfold singleInputBody singleNewline
  gr_simp
  intro t ht
  refine ⟨fun hk => .inl ?_, fun _ => ⟨fun hk x c1 ts u v t2 ht2 hk2 => .inr ?_, fun _ _ x c1 ts u v => .inl ?_⟩⟩
  · gr_close
  · exact .intro u ht2 (.n (.right (.right (.seq v (.k hk2)))))
  · gr_close

theorem gr_decorator (c) : WP ΦG decoratorBody c (ΦG .decorator c) := by
  unfold decoratorBody decoratorEnd
  gr_simp
  intro t ht hk x c1 ts u v t2 ht2
  refine ⟨fun hk2 t3 ht3 => ⟨fun hk3 t4 ht4 hk4 t5 ht5 hk5 => ?_, fun hk3 y c2 us w z t4 ht4 hk4 t5 ht5 hk5 => ?_⟩, fun _ t5 ht5 hk5 => ?_⟩
  · refine ⟨.intro (.step ht (u.trans (.step ht2 (.step ht4 (.refl _))))) ht5 (.n ?_), t5, ht5, hk5⟩
    have : Der rule (rule .decorator) _ := .seq (.k hk) (.seq v (.seq (.present (.seq (.k hk2) (.seq .absent (.k hk4)))) (.k hk5)))
    simpa using this
  · refine ⟨.intro (.step ht (u.trans (.step ht2 (w.trans (.step ht4 (.refl _)))))) ht5 (.n ?_), t5, ht5, hk5⟩
    have : Der rule (rule .decorator) _ := .seq (.k hk) (.seq v (.seq (.present (.seq (.k hk2) (.seq (.present z) (.k hk4)))) (.k hk5)))
    simpa using this
  · refine ⟨.intro (.step ht u) ht5 (.n ?_), t5, ht5, hk5⟩
    have : Der rule (rule .decorator) _ := .seq (.k hk) (.seq v (.seq .absent (.k hk5)))
    simpa using this

theorem gr_decoratorsLoop (s ns c) : WP ΦG (decoratorsLoopBody s ns) c (ΦG (.decoratorsLoop s ns) c) := by
  unfold decoratorsLoopBody
  gr_simp
  intro t ht hk x c1 hx _ y c2 hy ⟨u, hu, hk'⟩
  rw [ht] at hu; cases hu; rw [hk] at hk'; cases hk'

theorem gr_decorators (c) : WP ΦG decoratorsBody c (ΦG .decorators c) := by
  unfold decoratorsBody
  gr_simp
  intro x c1 hx hn y c2 hy
  rw [hy hn]
  refine ⟨?_, hn⟩
  obtain ⟨ts, u, h1, h2, h4⟩ := hx.elim
  exact .intro h1 h2 (.n (by have := Der.seq h4 (.stop (a := n .decorator)); rwa [List.append_nil] at this))

theorem gr_decorated (c) : WP ΦG decoratedBody c (ΦG .decorated c) := by
  unfold decoratedBody
  gr_simp
  intro t ht hk x c1 hx ⟨u, h2, h3⟩ t2 ht2
  rw [ht2] at h2; cases h2
  refine ⟨fun h => ?_, fun _ => ⟨fun h => ?_, fun _ h => ?_⟩⟩ <;> rw [h3] at h <;> cases h

theorem gr_asyncStmt (c) : WP ΦG asyncStmtBody c (ΦG .asyncStmt c) := by
  unfold asyncStmtBody
  gr_simp
  intro t ht hk t2 ht2
  refine ⟨fun hk2 x c1 ts u v ⟨w, hw, hkw⟩ => ?_, fun _ => ?_⟩
  · rw [ht2] at hw; cases hw; rw [hk2] at hkw; cases hkw
  · gr_auto

theorem gr_compoundStmt (c) : WP ΦG compoundStmtBody c (ΦG .compoundStmt c) := by
  unfold compoundStmtBody
  gr_simp
  gr_auto

theorem gr_classDef (c) : WP ΦG classDefBody c (ΦG .classDef c) := by
  unfold classDefBody classRest
  gr_simp
  intro t ht hk
  wp_paths
  all_goals first
    | exact ⟨t, ht, hk⟩
    | gr_close

theorem gr_parameters (c) : WP ΦG parametersBody c (ΦG .parameters c) := by
  unfold parametersBody
  gr_simp
  intro t ht hk t2 ht2
  refine ⟨fun hk2 t3 ht3 hk3 => ?_, fun hk2 x c1 h t3 ht3 hk3 => ?_⟩
  · gr_close
  · subst h; rw [ht2] at ht3; cases ht3; exact absurd hk3 hk2

theorem gr_patternsMatch (c) : WP ΦG patternsMatchBody c (ΦG .patternsMatch c) := by
  unfold patternsMatchBody; gr_simp
theorem gr_typedArgsList (c) : WP ΦG typedArgsListBody c (ΦG .typedArgsList c) := by
  unfold typedArgsListBody; gr_simp

/-! ### The functions without loops -/

theorem gr_stmt (c) : WP ΦG stmtBody c (ΦG .stmt c) := by
  unfold stmtBody; gr_simp; gr_auto
theorem gr_simpleStmt (c) : WP ΦG simpleStmtBody c (ΦG .simpleStmt c) := by
  unfold simpleStmtBody; gr_simp; gr_auto
theorem gr_smallStmt (c) : WP ΦG smallStmtBody c (ΦG .smallStmt c) := by
  unfold smallStmtBody; gr_simp; gr_auto
theorem gr_delStmt (c) : WP ΦG delStmtBody c (ΦG .delStmt c) := by
  unfold delStmtBody; gr_simp; gr_auto
theorem gr_passStmt (c) : WP ΦG passStmtBody c (ΦG .passStmt c) := by
  unfold passStmtBody; gr_simp; gr_auto
theorem gr_flowStmt (c) : WP ΦG flowStmtBody c (ΦG .flowStmt c) := by
  unfold flowStmtBody; gr_simp; gr_auto
theorem gr_breakStmt (c) : WP ΦG breakStmtBody c (ΦG .breakStmt c) := by
  unfold breakStmtBody; gr_simp; gr_auto
theorem gr_continueStmt (c) : WP ΦG continueStmtBody c (ΦG .continueStmt c) := by
  unfold continueStmtBody; gr_simp; gr_auto
theorem gr_returnStmt (c) : WP ΦG returnStmtBody c (ΦG .returnStmt c) := by
  unfold returnStmtBody; gr_simp; gr_auto
theorem gr_yieldStmt (c) : WP ΦG yieldStmtBody c (ΦG .yieldStmt c) := by
  unfold yieldStmtBody; gr_simp; gr_auto
theorem gr_raiseStmt (c) : WP ΦG raiseStmtBody c (ΦG .raiseStmt c) := by
  unfold raiseStmtBody; gr_simp; gr_auto
theorem gr_importStmt (c) : WP ΦG importStmtBody c (ΦG .importStmt c) := by
  unfold importStmtBody; gr_simp; gr_auto
theorem gr_importName (c) : WP ΦG importNameBody c (ΦG .importName c) := by
  unfold importNameBody; gr_simp; gr_auto
theorem gr_importAsName (c) : WP ΦG importAsNameBody c (ΦG .importAsName c) := by
  unfold importAsNameBody; gr_simp; gr_auto
theorem gr_dottedAsName (c) : WP ΦG dottedAsNameBody c (ΦG .dottedAsName c) := by
  unfold dottedAsNameBody; gr_simp; gr_auto
theorem gr_importAsNames (c) : WP ΦG importAsNamesBody c (ΦG .importAsNames c) := by
  unfold importAsNamesBody; gr_simp; gr_auto
theorem gr_importAsNamesLoop (s ns ss c) : WP ΦG (importAsNamesLoopBody s ns ss) c (ΦG (.importAsNamesLoop s ns ss) c) := by
  unfold importAsNamesLoopBody; gr_simp; gr_auto
theorem gr_dottedAsNames (c) : WP ΦG dottedAsNamesBody c (ΦG .dottedAsNames c) := by
  unfold dottedAsNamesBody; gr_simp; gr_auto
theorem gr_dottedAsNamesLoop (s ns ss c) : WP ΦG (dottedAsNamesLoopBody s ns ss) c (ΦG (.dottedAsNamesLoop s ns ss) c) := by
  unfold dottedAsNamesLoopBody; gr_simp; gr_auto
theorem gr_dottedName (c) : WP ΦG dottedNameBody c (ΦG .dottedName c) := by
  unfold dottedNameBody; gr_simp; gr_auto
theorem gr_globalStmt (c) : WP ΦG globalStmtBody c (ΦG .globalStmt c) := by
  unfold globalStmtBody; gr_simp; gr_auto
theorem gr_nonlocalStmt (c) : WP ΦG nonlocalStmtBody c (ΦG .nonlocalStmt c) := by
  unfold nonlocalStmtBody; gr_simp; gr_auto
theorem gr_assertStmt (c) : WP ΦG assertStmtBody c (ΦG .assertStmt c) := by
  unfold assertStmtBody; gr_simp; gr_auto
theorem gr_ifStmt (c) : WP ΦG ifStmtBody c (ΦG .ifStmt c) := by
  unfold ifStmtBody; gr_simp; gr_auto
theorem gr_elifStmt (c) : WP ΦG elifStmtBody c (ΦG .elifStmt c) := by
  unfold elifStmtBody; gr_simp; gr_auto
theorem gr_elseStmt (c) : WP ΦG elseStmtBody c (ΦG .elseStmt c) := by
  unfold elseStmtBody; gr_simp; gr_auto
theorem gr_whileStmt (c) : WP ΦG whileStmtBody c (ΦG .whileStmt c) := by
  unfold whileStmtBody; gr_simp; gr_auto
theorem gr_forStmt (c) : WP ΦG forStmtBody c (ΦG .forStmt c) := by
  unfold forStmtBody; gr_simp; gr_auto
theorem gr_finallyStmt (c) : WP ΦG finallyStmtBody c (ΦG .finallyStmt c) := by
  unfold finallyStmtBody; gr_simp; gr_auto
theorem gr_withItem (c) : WP ΦG withItemBody c (ΦG .withItem c) := by
  unfold withItemBody; gr_simp; gr_auto
theorem gr_exceptStmt (c) : WP ΦG exceptStmtBody c (ΦG .exceptStmt c) := by
  unfold exceptStmtBody; gr_simp; gr_auto
theorem gr_asyncFuncDef (c) : WP ΦG asyncFuncDefBody c (ΦG .asyncFuncDef c) := by
  unfold asyncFuncDefBody; gr_simp; gr_auto
theorem gr_funcDef (c) : WP ΦG funcDefBody c (ΦG .funcDef c) := by
  unfold funcDefBody; gr_simp; gr_auto
theorem gr_tfpDefAssign (c) : WP ΦG tfpDefAssignBody c (ΦG .tfpDefAssign c) := by
  unfold tfpDefAssignBody; gr_simp; gr_auto
theorem gr_tfpDef (c) : WP ΦG tfpDefBody c (ΦG .tfpDef c) := by
  unfold tfpDefBody; gr_simp; gr_auto
theorem gr_funcType (c) : WP ΦG funcTypeBody c (ΦG .funcType c) := by
  unfold funcTypeBody; gr_simp; gr_auto
theorem gr_dottedNameLoop (s ns ss c) : WP ΦG (dottedNameLoopBody s ns ss) c (ΦG (.dottedNameLoop s ns ss) c) := by
  unfold dottedNameLoopBody; gr_simp; gr_auto
theorem gr_globalLoop (s g ns ss c) : WP ΦG (globalLoopBody s g ns ss) c (ΦG (.globalLoop s g ns ss) c) := by
  unfold globalLoopBody; gr_simp; gr_auto
theorem gr_nonlocalLoop (s g ns ss c) : WP ΦG (nonlocalLoopBody s g ns ss) c (ΦG (.nonlocalLoop s g ns ss) c) := by
  unfold nonlocalLoopBody; gr_simp; gr_auto

theorem gr_body (f c) : WP ΦG (body f) c (ΦG f c) := by
  cases f with
  | atom => exact gr_atom c
  | atomStrLoop a0 a1 => exact gr_atomStrLoop a0 a1 c
  | atomExpr => exact gr_atomExpr c
  | trailerLoop a0 a1 a2 a3 => exact gr_trailerLoop a0 a1 a2 a3 c
  | power => exact gr_power c
  | factor => exact gr_factor c
  | term => exact gr_term c
  | termLoop a0 a1 => exact gr_termLoop a0 a1 c
  | arith => exact gr_arith c
  | arithLoop a0 a1 => exact gr_arithLoop a0 a1 c
  | shift => exact gr_shift c
  | shiftLoop a0 a1 => exact gr_shiftLoop a0 a1 c
  | andExpr => exact gr_andExpr c
  | andExprLoop a0 a1 => exact gr_andExprLoop a0 a1 c
  | xorExpr => exact gr_xorExpr c
  | xorExprLoop a0 a1 => exact gr_xorExprLoop a0 a1 c
  | expr => exact gr_expr c
  | exprLoop a0 a1 => exact gr_exprLoop a0 a1 c
  | starExpr => exact gr_starExpr c
  | comparison => exact gr_comparison c
  | comparisonLoop a0 a1 => exact gr_comparisonLoop a0 a1 c
  | notTest => exact gr_notTest c
  | andTest => exact gr_andTest c
  | andTestLoop a0 a1 => exact gr_andTestLoop a0 a1 c
  | orTest => exact gr_orTest c
  | orTestLoop a0 a1 => exact gr_orTestLoop a0 a1 c
  | lambdaDef a0 => exact gr_lambdaDef a0 c
  | noCondTest => exact gr_noCondTest c
  | test => exact gr_test c
  | namedExpression => exact gr_namedExpression c
  | testlistComp => exact gr_testlistComp c
  | testlistCompLoop a0 a1 a2 => exact gr_testlistCompLoop a0 a1 a2 c
  | trailer => exact gr_trailer c
  | subscriptList => exact gr_subscriptList c
  | subscriptListLoop a0 a1 a2 => exact gr_subscriptListLoop a0 a1 a2 c
  | subscript => exact gr_subscript c
  | exprlist => exact gr_exprlist c
  | exprlistLoop a0 a1 a2 => exact gr_exprlistLoop a0 a1 a2 c
  | testlist => exact gr_testlist c
  | testlistLoop a0 a1 a2 => exact gr_testlistLoop a0 a1 a2 c
  | dictorsetMaker => exact gr_dictorsetMaker c
  | setLoop a0 a1 a2 => exact gr_setLoop a0 a1 a2 c
  | arglist => exact gr_arglist c
  | arglistLoop a0 a1 a2 => exact gr_arglistLoop a0 a1 a2 c
  | argument => exact gr_argument c
  | compIter => exact gr_compIter c
  | syncCompFor => exact gr_syncCompFor c
  | compFor => exact gr_compFor c
  | compIf => exact gr_compIf c
  | yieldExpr => exact gr_yieldExpr c
  | testlistStarExpr => exact gr_testlistStarExpr c
  | testlistStarExprLoop a0 a1 a2 => exact gr_testlistStarExprLoop a0 a1 a2 c
  | varArgsList => exact gr_varArgsList c
  | varArgsMainLoop a0 a1 => exact gr_varArgsMainLoop a0 a1 c
  | varArgsStarLoop a0 a1 => exact gr_varArgsStarLoop a0 a1 c
  | varArgsDivLoop a0 a1 => exact gr_varArgsDivLoop a0 a1 c
  | varArgsAssignments => exact gr_varArgsAssignments c
  | vfpDef => exact gr_vfpDef c
  | stmt => exact gr_stmt c
  | simpleStmt => exact gr_simpleStmt c
  | simpleStmtLoop a0 a1 a2 => exact gr_simpleStmtLoop a0 a1 a2 c
  | smallStmt => exact gr_smallStmt c
  | exprStmt => exact gr_exprStmt c
  | assignLoop a0 a1 a2 => exact gr_assignLoop a0 a1 a2 c
  | annAssign a0 a1 => exact gr_annAssign a0 a1 c
  | delStmt => exact gr_delStmt c
  | passStmt => exact gr_passStmt c
  | flowStmt => exact gr_flowStmt c
  | breakStmt => exact gr_breakStmt c
  | continueStmt => exact gr_continueStmt c
  | returnStmt => exact gr_returnStmt c
  | yieldStmt => exact gr_yieldStmt c
  | raiseStmt => exact gr_raiseStmt c
  | importStmt => exact gr_importStmt c
  | importName => exact gr_importName c
  | importFrom => exact gr_importFrom c
  | importDotLoop a0 a1 a2 => exact gr_importDotLoop a0 a1 a2 c
  | importAsName => exact gr_importAsName c
  | dottedAsName => exact gr_dottedAsName c
  | importAsNames => exact gr_importAsNames c
  | importAsNamesLoop a0 a1 a2 => exact gr_importAsNamesLoop a0 a1 a2 c
  | dottedAsNames => exact gr_dottedAsNames c
  | dottedAsNamesLoop a0 a1 a2 => exact gr_dottedAsNamesLoop a0 a1 a2 c
  | dottedName => exact gr_dottedName c
  | dottedNameLoop a0 a1 a2 => exact gr_dottedNameLoop a0 a1 a2 c
  | globalStmt => exact gr_globalStmt c
  | globalLoop a0 a1 a2 a3 => exact gr_globalLoop a0 a1 a2 a3 c
  | nonlocalStmt => exact gr_nonlocalStmt c
  | nonlocalLoop a0 a1 a2 a3 => exact gr_nonlocalLoop a0 a1 a2 a3 c
  | assertStmt => exact gr_assertStmt c
  | compoundStmt => exact gr_compoundStmt c
  | asyncStmt => exact gr_asyncStmt c
  | ifStmt => exact gr_ifStmt c
  | ifLoop a0 a1 a2 a3 a4 a5 => exact gr_ifLoop a0 a1 a2 a3 a4 a5 c
  | elifStmt => exact gr_elifStmt c
  | elseStmt => exact gr_elseStmt c
  | whileStmt => exact gr_whileStmt c
  | forStmt => exact gr_forStmt c
  | tryStmt => exact gr_tryStmt c
  | tryLoop a0 a1 a2 a3 a4 => exact gr_tryLoop a0 a1 a2 a3 a4 c
  | finallyStmt => exact gr_finallyStmt c
  | withStmt => exact gr_withStmt c
  | withParenLoop a0 a1 a2 a3 a4 => exact gr_withParenLoop a0 a1 a2 a3 a4 c
  | withLoop a0 a1 a2 a3 => exact gr_withLoop a0 a1 a2 a3 c
  | withItem => exact gr_withItem c
  | exceptStmt => exact gr_exceptStmt c
  | exceptClause => exact gr_exceptClause c
  | suite => exact gr_suite c
  | suiteLoop a0 a1 a2 a3 => exact gr_suiteLoop a0 a1 a2 a3 c
  | evalInput => exact gr_evalInput c
  | evalLoop a0 a1 a2 => exact gr_evalLoop a0 a1 a2 c
  | fileInput => exact gr_fileInput c
  | fileLoop a0 a1 a2 => exact gr_fileLoop a0 a1 a2 c
  | singleInput => exact gr_singleInput c
  | funcTypeInput => exact gr_funcTypeInput c
  | funcTypeLoop a0 a1 a2 => exact gr_funcTypeLoop a0 a1 a2 c
  | decorator => exact gr_decorator c
  | decorators => exact gr_decorators c
  | decoratorsLoop a0 a1 => exact gr_decoratorsLoop a0 a1 c
  | decorated => exact gr_decorated c
  | asyncFuncDef => exact gr_asyncFuncDef c
  | funcDef => exact gr_funcDef c
  | parameters => exact gr_parameters c
  | typedArgsList => exact gr_typedArgsList c
  | tfpDefAssign => exact gr_tfpDefAssign c
  | tfpDef => exact gr_tfpDef c
  | funcBodySuite => exact gr_funcBodySuite c
  | funcBodyLoop a0 a1 a2 a3 a4 a5 => exact gr_funcBodyLoop a0 a1 a2 a3 a4 a5 c
  | classDef => exact gr_classDef c
  | funcType => exact gr_funcType c
  | typeList => exact gr_typeList c
  | typeListMainLoop a0 a1 => exact gr_typeListMainLoop a0 a1 c
  | typeListStarLoop a0 a1 => exact gr_typeListStarLoop a0 a1 c
  | patternsMatch => exact gr_patternsMatch c

/-- What a successful run consumes is in the grammar. -/
theorem run_grammar {n f c t c'} (h : run n f c = .ok t c') : ΦG f c t c' := run_sound gr_body n f c t c' h

end

end Verif
