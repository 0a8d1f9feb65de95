import Verif.Proof.Gram

/-!
# Accepted token sequences are in the grammar: expressions
-/

namespace Verif
open Prog Rx
set_option linter.unusedVariables false

section
variable [Uni]
attribute [local irreducible] Gr GrPeek WP PSt.advance

theorem gr_left {op : Kind → Option Tag} {operand self msg r x}
    (h1 : ∀ k tag, op k = some tag → ∀ t : Token, t.kind = k → Der rule r [t])
    (h2 : ∀ c t c', ΦG operand c t c' → Gr (n x) c c')
    (h3 : ∀ s l c t c', ΦG (self s l) c t c' → Gr (star (r ⬝ n x)) c c')
    (s left c) : WP ΦG (leftLoopBody op operand self msg s left) c (fun t c' => Gr (star (r ⬝ n x)) c c') := by
  unfold leftLoopBody
  gr_simp
  intro t ht
  split
  · rename_i tag htag
    gr_simp
    intro x c1 hx y c2 hy
    obtain ⟨ts, a, b⟩ := (h2 _ _ _ hx).elim
    obtain ⟨us, a', b'⟩ := (h3 _ _ _ _ _ hy).elim
    have := Der.more (.seq (h1 _ _ htag t rfl) b) b'
    exact Gr.mk (.step ht (a.trans a')) (DK.of1 this)
  · gr_simp
    exact Gr.mk (.refl _) (.stop .nil)

macro "op_case" h:ident "," d:ident : tactic => `(tactic|
  (unfold $d at $h:ident; split at $h:ident <;> simp at $h:ident <;> intro t ht <;> exact DK.out (by der)))

theorem gr_termLoop (s l c) : WP ΦG (termLoopBody s l) c (ΦG (.termLoop s l) c) := by
  refine gr_left ?_ ?_ ?_ _ _ _
  · intro k tag h; op_case h, termOp
  · intro c t c' h; simpa only [ΦG] using h
  · intro s l c t c' h; simpa only [ΦG] using h
theorem gr_arithLoop (s l c) : WP ΦG (arithLoopBody s l) c (ΦG (.arithLoop s l) c) := by
  refine gr_left ?_ ?_ ?_ _ _ _
  · intro k tag h; op_case h, arithOp
  · intro c t c' h; simpa only [ΦG] using h
  · intro s l c t c' h; simpa only [ΦG] using h
theorem gr_shiftLoop (s l c) : WP ΦG (shiftLoopBody s l) c (ΦG (.shiftLoop s l) c) := by
  refine gr_left ?_ ?_ ?_ _ _ _
  · intro k tag h; op_case h, shiftOp
  · intro c t c' h; simpa only [ΦG] using h
  · intro s l c t c' h; simpa only [ΦG] using h
theorem gr_andExprLoop (s l c) : WP ΦG (andExprLoopBody s l) c (ΦG (.andExprLoop s l) c) := by
  refine gr_left ?_ ?_ ?_ _ _ _
  · intro k tag h; op_case h, andExprOp
  · intro c t c' h; simpa only [ΦG] using h
  · intro s l c t c' h; simpa only [ΦG] using h
theorem gr_xorExprLoop (s l c) : WP ΦG (xorExprLoopBody s l) c (ΦG (.xorExprLoop s l) c) := by
  refine gr_left ?_ ?_ ?_ _ _ _
  · intro k tag h; op_case h, xorExprOp
  · intro c t c' h; simpa only [ΦG] using h
  · intro s l c t c' h; simpa only [ΦG] using h
theorem gr_exprLoop (s l c) : WP ΦG (exprLoopBody s l) c (ΦG (.exprLoop s l) c) := by
  refine gr_left ?_ ?_ ?_ _ _ _
  · intro k tag h; op_case h, exprOp
  · intro c t c' h; simpa only [ΦG] using h
  · intro s l c t c' h; simpa only [ΦG] using h
theorem gr_andTestLoop (s l c) : WP ΦG (andTestLoopBody s l) c (ΦG (.andTestLoop s l) c) := by
  refine gr_left ?_ ?_ ?_ _ _ _
  · intro k tag h; op_case h, andTestOp
  · intro c t c' h; simpa only [ΦG] using h
  · intro s l c t c' h; simpa only [ΦG] using h
theorem gr_orTestLoop (s l c) : WP ΦG (orTestLoopBody s l) c (ΦG (.orTestLoop s l) c) := by
  refine gr_left ?_ ?_ ?_ _ _ _
  · intro k tag h; op_case h, orTestOp
  · intro c t c' h; simpa only [ΦG] using h
  · intro s l c t c' h; simpa only [ΦG] using h

theorem gr_comparisonLoop (s l c) : WP ΦG (comparisonLoopBody s l) c (ΦG (.comparisonLoop s l) c) := by
  unfold comparisonLoopBody
  gr_simp
  intro t ht
  split
  · rename_i tag htag
    gr_simp
    intro x c1 ts a b y c2 us a' b'
    have h1 : Der rule G.comp_op [t] := by
      unfold compOp at htag; split at htag <;> simp at htag <;> exact DK.out (by der)
    exact Gr.mk (.step ht (a.trans a')) (DK.of1 (.more (.seq h1 b) b'))
  · gr_simp
    gr_auto

/-- The end of a list, with or without a comma. -/
theorem gr_trail {x : Rx} {c c' : PSt} {t t2} (ht : c.symbol = .ok t) (hk : t.kind = .PyComa)
    (ht2 : c.advance.symbol = .ok t2) (hk2 : t2.kind ≠ .PyComa) (h : Stops c.advance c') :
    Gr (commaRest x) c c' ∧ Stops c c' := by
  refine ⟨Gr.mk (.step ht (h _ ht2 hk2)) ?_, ?_⟩
  · unfold commaRest; exact .seq (.stop (.present (.k hk .nil)))
  · intro u hu hn; rw [ht] at hu; cases hu; exact absurd hk hn

theorem gr_round {x : Rx} {c c1 c' : PSt} {t ts us} (ht : c.symbol = .ok t) (hk : t.kind = .PyComa)
    (h1 : Consumed c.advance ts c1) (h2 : Der rule x ts) (h3 : Consumed c1 us c')
    (h4 : Der rule (commaRest x) us) : Gr (commaRest x) c c' ∧ Stops c c' := by
  refine ⟨Gr.mk (.step ht (h1.trans h3)) (DK.of1 ?_), ?_⟩
  · have := Der.round (.seq (.k hk) h2 : Der rule (G.comma ⬝ x) _) h4
    exact this
  · intro u hu hn; rw [ht] at hu; cases hu; exact absurd hk hn

theorem gr_end {x : Rx} {c : PSt} : Gr (commaRest x) c c ∧ Stops c c :=
  ⟨Gr.mk (.refl _) (by unfold commaRest; exact .seq (.stop (.absent .nil))), fun _ _ _ => .refl _⟩

theorem gr_exprlistLoop (s ns ss c) : WP ΦG (exprlistLoopBody s ns ss) c (ΦG (.exprlistLoop s ns ss) c) := by
  unfold exprlistLoopBody
  gr_simp
  intro t ht
  refine ⟨fun hk t2 ht2 => ⟨fun hk2 x c1 us hu hd hs => ?_, fun _ _ => ⟨fun _ x c1 ts u v y c2 us w z hs => ?_, fun _ x c1 ts u v y c2 us w z hs => ?_⟩⟩, fun _ => ?_⟩
  · exact gr_trail ht hk ht2 (by rw [hk2]; decide) hs
  · exact gr_round ht hk u (.right v) w z
  · exact gr_round ht hk u (.left v) w z
  · unfold listResult; split <;> gr_simp <;> exact gr_end

theorem gr_testlistLoop (s ns ss c) : WP ΦG (testlistLoopBody s ns ss) c (ΦG (.testlistLoop s ns ss) c) := by
  unfold testlistLoopBody
  gr_simp
  intro t ht
  refine ⟨fun hk t2 ht2 => ⟨fun hk2 x c1 us hu hd hs => ?_, fun _ _ x c1 ts u v y c2 us w z hs => ?_⟩, fun _ => ?_⟩
  · exact gr_trail ht hk ht2 (by rcases hk2 with h | h | h <;> rw [h] <;> decide) hs
  · exact gr_round ht hk u v w z
  · unfold listResult; split <;> gr_simp <;> exact gr_end

theorem gr_arglistLoop (s ns ss c) : WP ΦG (arglistLoopBody s ns ss) c (ΦG (.arglistLoop s ns ss) c) := by
  unfold arglistLoopBody
  gr_simp
  intro t ht
  refine ⟨fun hk t2 ht2 => ⟨fun hk2 x c1 us hu hd hs => ?_, fun _ _ x c1 ts u v y c2 us w z hs => ?_⟩, fun _ => ?_⟩
  · exact gr_trail ht hk ht2 (by rw [hk2]; decide) hs
  · exact gr_round ht hk u v w z
  · exact gr_end

theorem gr_setLoop (s ns ss c) : WP ΦG (setLoopBody s ns ss) c (ΦG (.setLoop s ns ss) c) := by
  unfold setLoopBody
  gr_simp
  intro t ht
  refine ⟨fun hk t2 ht2 => ⟨fun hk2 x c1 us hu hd hs => ?_, fun _ _ => ⟨fun hm x c1 ts u v y c2 us w z hs => ?_, fun _ x c1 ts u v y c2 us w z hs => ?_⟩⟩, fun _ => ?_⟩
  · exact gr_trail ht hk ht2 (by rw [hk2]; decide) hs
  · exact gr_round ht hk (.step ht2 u) (.right (.n (.seq (.k hm) v))) w z
  · exact gr_round ht hk u (.left v) w z
  · exact gr_end

theorem gr_testlistStarExprLoop (s ns ss c) : WP ΦG (testlistStarExprLoopBody s ns ss) c (ΦG (.testlistStarExprLoop s ns ss) c) := by
  unfold testlistStarExprLoopBody
  gr_simp
  intro t ht
  refine ⟨fun hk t2 ht2 => ⟨fun hk2 x c1 us hu hd hs => ?_, fun _ _ => ⟨fun _ x c1 ts u v y c2 us w z hs => ?_, fun _ x c1 ts u v y c2 us w z hs => ?_⟩⟩, fun _ => ?_⟩
  · exact gr_trail ht hk ht2 (by rintro h; rw [h] at hk2; exact absurd hk2 (by decide)) hs
  · exact gr_round ht hk u (.right v) w z
  · exact gr_round ht hk u (.left v) w z
  · unfold testlistStarExprResult; split <;> gr_simp <;> exact gr_end

theorem gr_dictRest (s ns c) : WP ΦG (dictRest s ns) c (fun t c' => Gr (commaRest G.dictEntry) c c') := by
  unfold dictRest dictRest.fin
  gr_simp
  gr_auto

theorem gr_dictorsetMaker (c) : WP ΦG dictorsetMakerBody c (ΦG .dictorsetMaker c) := by
  unfold dictorsetMakerBody
  gr_simp
  intro t ht
  refine ⟨fun hk x c1 ts u v y c2 us w z _ => ?_, fun _ => ⟨fun hk x c1 ts u v => ?_, fun hk x c1 ts u v t2 ht2 => ⟨fun _ y c2 us w z => ?_, fun _ y c2 us w z _ => ?_⟩⟩⟩
  · gr_close
  · refine wp_mono _ (fun y c2 hy => ?_) (gr_dictRest _ _ _)
    obtain ⟨us, w, z⟩ := hy.elim
    gr_close
  · refine wp_mono _ (fun y c2 hy => ?_) (gr_dictRest _ _ _)
    obtain ⟨us, w, z⟩ := hy.elim
    gr_close
  · gr_close

theorem gr_trailerFin (s a r lst c) : WP ΦG (trailerLoopBody.fin s a r lst) c (fun t c' => Gr (star (n .trailer)) c c') := by
  unfold trailerLoopBody.fin
  split <;> gr_simp <;> gr_close
theorem gr_trailerLoop (s a r lst c) : WP ΦG (trailerLoopBody s a r lst) c (ΦG (.trailerLoop s a r lst) c) := by
  unfold trailerLoopBody
  gr_simp
  refine ⟨fun t ht => ⟨fun hk x c1 ts u v y c2 us w z => ?_, fun _ => ?_⟩, fun _ _ => ?_⟩
  · gr_close
  · exact gr_trailerFin s a r lst c
  · exact gr_trailerFin s a r lst c

/-! ### Parameter lists -/

theorem gr_varArgsPower (s v t c) (ht : c.symbol = .ok t) (hk : t.kind = .PyPower) :
    WP ΦG (varArgsPower s v t) c (fun _ c' => Gr G.kwargs c c') := by
  unfold varArgsPower varArgsResult; gr_simp; gr_auto
theorem gr_varArgsMul (s v t c) (ht : c.symbol = .ok t) (hk : t.kind = .PyMul) :
    WP ΦG (varArgsMul s v t) c (fun _ c' => Gr G.starargs c c') := by
  unfold varArgsMul
  gr_simp
  intro x c1 ts u w y c2 us u' w'
  exact Gr.mk (.step ht (u.trans u')) (DK.of1 (.seq (ts := [t]) (.k hk) (.seq w w')))

theorem gr_varArgsStarLoop (s v c) : WP ΦG (varArgsStarLoopBody s v) c (ΦG (.varArgsStarLoop s v) c) := by
  unfold varArgsStarLoopBody varArgsResult
  gr_simp
  intro t ht
  refine ⟨fun hk t2 ht2 => ⟨fun hk2 => ?_, fun _ x c1 ts u w y c2 us u' w' => ?_⟩, fun _ => ?_⟩
  · refine wp_mono _ (fun y c2 hy => ?_) (gr_varArgsPower _ _ _ _ ht2 hk2)
    obtain ⟨us, u', w'⟩ := hy.elim
    gr_close
  · exact Gr.mk (.step ht (u.trans u')) (DK.of1 (Der.round (.seq (ts := [t]) (.k hk) w) w'))
  · gr_close

theorem gr_varArgsDivLoop (s v c) : WP ΦG (varArgsDivLoopBody s v) c (ΦG (.varArgsDivLoop s v) c) := by
  unfold varArgsDivLoopBody varArgsResult
  gr_simp
  intro t ht
  refine ⟨fun hk t2 ht2 => ⟨fun hk2 => ?_, fun _ => ⟨fun hk2 => ?_, fun _ x c1 ts u w y c2 us u' w' => ?_⟩⟩, fun _ => ?_⟩
  · refine wp_mono _ (fun y c2 hy => ?_) (gr_varArgsMul _ _ _ _ ht2 hk2)
    obtain ⟨us, u', w'⟩ := hy.elim
    gr_close
  · refine wp_mono _ (fun y c2 hy => ?_) (gr_varArgsPower _ _ _ _ ht2 hk2)
    obtain ⟨us, u', w'⟩ := hy.elim
    gr_close
  · exact Gr.mk (.step ht (u.trans u')) (DK.of1 (Der.round (.seq (ts := [t]) (.k hk) w) w'))
  · gr_close

theorem gr_varArgsMainLoop (s v c) : WP ΦG (varArgsMainLoopBody s v) c (ΦG (.varArgsMainLoop s v) c) := by
  unfold varArgsMainLoopBody varArgsResult
  gr_simp
  intro t ht
  refine ⟨fun hk t2 ht2 => ⟨fun hk2 y c2 us u' w' => ?_, fun _ => ⟨fun hk2 => ?_, fun _ => ⟨fun hk2 => ?_, fun _ x c1 ts u w y c2 us u' w' => ?_⟩⟩⟩, fun _ => ?_⟩
  · cases w' with
    | seq w1 w2 =>
      refine Gr.mk (.step ht (.step ht2 u')) (DK.of1 ?_)
      exact .seq (ts := []) .stop (.seq (.present (.seq (ts := [t]) (.k hk) (.seq (ts := [t2]) (.k hk2) w1))) w2)
  · refine wp_mono _ (fun y c2 hy => ?_) (gr_varArgsMul _ _ _ _ ht2 hk2)
    obtain ⟨us, u', w'⟩ := hy.elim
    gr_close
  · refine wp_mono _ (fun y c2 hy => ?_) (gr_varArgsPower _ _ _ _ ht2 hk2)
    obtain ⟨us, u', w'⟩ := hy.elim
    gr_close
  · exact Gr.mk (.step ht (u.trans u')) (DK.of1 (Der.round (.seq (ts := [t]) (.k hk) w) w'))
  · gr_close

theorem gr_varArgsList (c) : WP ΦG varArgsListBody c (ΦG .varArgsList c) := by
  unfold varArgsListBody
  gr_simp
  intro t ht
  refine ⟨fun hk => ?_, fun _ => ⟨fun hk => ?_, fun _ x c1 ts u w y c2 us u' w' => ?_⟩⟩
  · refine wp_mono _ (fun y c2 hy => ?_) (gr_varArgsMul _ _ _ _ ht hk)
    obtain ⟨us, u', w'⟩ := hy.elim
    exact Gr.mk u' (DK.of1 (.n (.right (.left w'))))
  · refine wp_mono _ (fun y c2 hy => ?_) (gr_varArgsPower _ _ _ _ ht hk)
    obtain ⟨us, u', w'⟩ := hy.elim
    exact Gr.mk u' (DK.of1 (.n (.right (.right w'))))
  · exact Gr.mk (u.trans u') (DK.of1 (.n (.left (.seq w w'))))

theorem gr_atomStrLoop (s l c) : WP ΦG (atomStrLoopBody s l) c (ΦG (.atomStrLoop s l) c) := by
  unfold atomStrLoopBody; gr_simp; gr_auto

theorem gr_lambdaDef (b c) : WP ΦG (lambdaDefBody b) c (ΦG (.lambdaDef b) c) := by
  unfold lambdaDefBody
  cases b <;> gr_simp [if_true, if_false, Bool.false_eq_true, not_false_eq_true, not_true_eq_false, reduceIte]
  all_goals
    intro t ht t2 ht2
    refine ⟨fun hk t3 ht3 hk3 => ?_, fun hk x c1 ts u w t3 ht3 hk3 => ?_⟩
    · intro y c2 us u' w'
      exact ⟨t, _, .step ht (.step ht3 u'), .seq (ts := []) .absent (.seq (ts := [t3]) (.k hk3) w')⟩
    · intro y c2 us u' w'
      exact ⟨t, _, .step ht (u.trans (.step ht3 u')), .seq (.present w) (.seq (ts := [t3]) (.k hk3) w')⟩

theorem gr_noCondTest (c) : WP ΦG noCondTestBody c (ΦG .noCondTest c) := by
  unfold noCondTestBody
  gr_simp
  intro t ht
  refine ⟨fun hk x c1 ⟨u, ts, h, h'⟩ => ?_, fun _ x c1 ts u w => ?_⟩
  · cases h with
    | step hs h => rw [ht] at hs; cases hs; exact Gr.mk (.step ht h) (DK.of1 (Der.lambda_nocond hk h'))
  · gr_close

theorem gr_test (c) : WP ΦG testBody c (ΦG .test c) := by
  unfold testBody
  gr_simp
  intro t ht
  refine ⟨fun hk x c1 ⟨u, ts, h, h'⟩ => ?_, fun _ => ?_⟩
  · cases h with
    | step hs h => rw [ht] at hs; cases hs; exact Gr.mk (.step ht h) (DK.of1 (Der.lambda hk h'))
  · gr_auto

/-! ### The functions without loops -/

theorem gr_atom (c) : WP ΦG atomBody c (ΦG .atom c) := by
  unfold atomBody; gr_simp; gr_auto
theorem gr_testlistCompLoop (s ns ss c) : WP ΦG (testlistCompLoopBody s ns ss) c (ΦG (.testlistCompLoop s ns ss) c) := by
  unfold testlistCompLoopBody; gr_simp [starOrNamed]; gr_auto
theorem gr_subscriptListLoop (s ns ss c) : WP ΦG (subscriptListLoopBody s ns ss) c (ΦG (.subscriptListLoop s ns ss) c) := by
  unfold subscriptListLoopBody; gr_simp; gr_auto
theorem gr_atomExpr (c) : WP ΦG atomExprBody c (ΦG .atomExpr c) := by
  unfold atomExprBody; gr_simp; gr_auto
theorem gr_power (c) : WP ΦG powerBody c (ΦG .power c) := by
  unfold powerBody; gr_simp; gr_auto
theorem gr_factor (c) : WP ΦG factorBody c (ΦG .factor c) := by
  unfold factorBody; gr_simp; gr_auto
theorem gr_term (c) : WP ΦG termBody c (ΦG .term c) := by
  unfold termBody; gr_simp; gr_auto
theorem gr_arith (c) : WP ΦG arithBody c (ΦG .arith c) := by
  unfold arithBody; gr_simp; gr_auto
theorem gr_shift (c) : WP ΦG shiftBody c (ΦG .shift c) := by
  unfold shiftBody; gr_simp; gr_auto
theorem gr_andExpr (c) : WP ΦG andExprBody c (ΦG .andExpr c) := by
  unfold andExprBody; gr_simp; gr_auto
theorem gr_xorExpr (c) : WP ΦG xorExprBody c (ΦG .xorExpr c) := by
  unfold xorExprBody; gr_simp; gr_auto
theorem gr_expr (c) : WP ΦG exprBody c (ΦG .expr c) := by
  unfold exprBody; gr_simp; gr_auto
theorem gr_starExpr (c) : WP ΦG starExprBody c (ΦG .starExpr c) := by
  unfold starExprBody; gr_simp; gr_auto
theorem gr_comparison (c) : WP ΦG comparisonBody c (ΦG .comparison c) := by
  unfold comparisonBody; gr_simp; gr_auto
theorem gr_notTest (c) : WP ΦG notTestBody c (ΦG .notTest c) := by
  unfold notTestBody; gr_simp; gr_auto
theorem gr_andTest (c) : WP ΦG andTestBody c (ΦG .andTest c) := by
  unfold andTestBody; gr_simp; gr_auto
theorem gr_orTest (c) : WP ΦG orTestBody c (ΦG .orTest c) := by
  unfold orTestBody; gr_simp; gr_auto
theorem gr_namedExpression (c) : WP ΦG namedExpressionBody c (ΦG .namedExpression c) := by
  unfold namedExpressionBody; gr_simp; gr_auto
theorem gr_testlistComp (c) : WP ΦG testlistCompBody c (ΦG .testlistComp c) := by
  unfold testlistCompBody; gr_simp [starOrNamed]; gr_auto
theorem gr_trailer (c) : WP ΦG trailerBody c (ΦG .trailer c) := by
  unfold trailerBody; gr_simp; gr_auto
theorem gr_subscriptList (c) : WP ΦG subscriptListBody c (ΦG .subscriptList c) := by
  unfold subscriptListBody; gr_simp; gr_auto
theorem gr_subscript (c) : WP ΦG subscriptBody c (ΦG .subscript c) := by
  unfold subscriptBody; gr_simp; gr_auto
theorem gr_exprlist (c) : WP ΦG exprlistBody c (ΦG .exprlist c) := by
  unfold exprlistBody; gr_simp [starOrNamed]; gr_auto
theorem gr_testlist (c) : WP ΦG testlistBody c (ΦG .testlist c) := by
  unfold testlistBody; gr_simp; gr_auto
theorem gr_arglist (c) : WP ΦG arglistBody c (ΦG .arglist c) := by
  unfold arglistBody; gr_simp; gr_auto
theorem gr_argument (c) : WP ΦG argumentBody c (ΦG .argument c) := by
  unfold argumentBody; gr_simp; gr_auto
theorem gr_compIter (c) : WP ΦG compIterBody c (ΦG .compIter c) := by
  unfold compIterBody; gr_simp; gr_auto
theorem gr_syncCompFor (c) : WP ΦG syncCompForBody c (ΦG .syncCompFor c) := by
  unfold syncCompForBody; gr_simp; gr_auto
theorem gr_compFor (c) : WP ΦG compForBody c (ΦG .compFor c) := by
  unfold compForBody; gr_simp; gr_auto
theorem gr_compIf (c) : WP ΦG compIfBody c (ΦG .compIf c) := by
  unfold compIfBody; gr_simp; gr_auto
theorem gr_yieldExpr (c) : WP ΦG yieldExprBody c (ΦG .yieldExpr c) := by
  unfold yieldExprBody; gr_simp; gr_auto
theorem gr_testlistStarExpr (c) : WP ΦG testlistStarExprBody c (ΦG .testlistStarExpr c) := by
  unfold testlistStarExprBody; gr_simp; gr_auto
theorem gr_varArgsAssignments (c) : WP ΦG varArgsAssignmentsBody c (ΦG .varArgsAssignments c) := by
  unfold varArgsAssignmentsBody; gr_simp; gr_auto
theorem gr_vfpDef (c) : WP ΦG vfpDefBody c (ΦG .vfpDef c) := by
  unfold vfpDefBody; gr_simp; gr_auto

end

end Verif
