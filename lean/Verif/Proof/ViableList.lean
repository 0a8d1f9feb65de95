import Verif.Proof.Viable

/-!
# Failing runs: lists
-/

namespace Verif
open Prog XR
set_option linter.unusedVariables false
set_option linter.unusedSectionVars false
set_option linter.unusedSimpArgs false

section
variable [Uni]

theorem Pre.after {r r' x z p ts} (h : Pre r z ts) (f : ∀ us y, XDer pRule r z us y → XDer pRule r' x (p ++ us) y) : Pre r' x (p ++ ts) := by
  obtain ⟨a, b, rfl, ⟨vs, y, hv⟩, ht⟩ := h
  refine ⟨p ++ a, b, by rw [List.append_assoc], ⟨vs, y, ?_⟩, ht.app p⟩
  rw [List.append_assoc]; exact f _ _ hv

theorem XVL.stop {r c} : XVL r c c :=
  ⟨[], .refl _, fun _ => rfl, fun x a d => by rw [List.append_nil]; exact .of d.single⟩

theorem XVL.fail {r c d t ts} (hr : r.prod (fun _ => true) = true) (ht : c.symbol = .ok t) (hk : t.kind = .PyComa)
    (h : Consumed c.advance ts d) (h' : Pre r c.exc ts) : XVL r c d := by
  refine ⟨t :: ts, .step ht h, fun hN => absurd (hN t ht) (by rw [hk]; decide), fun x a d => ?_⟩
  have : PreK [X.list r] x (a ++ ([t] ++ (ts ++ []))) := .seq (.of d (.more (.seq (.k hk (.vi h' (by simp [prodK, XR.prod]))))))
  simpa using this.out

theorem XVL.failC {r c t} (hr : r.prod (fun _ => true) = true) (ht : c.symbol = .ok t) (hk : t.kind = .PyComa) : XVL r c c.advance :=
  XVL.fail hr ht hk (.refl _) (PreK.nil (by simp [prodK, hr])).out

theorem XVL.trail {r r' c d t} (hr : r.prod (fun _ => true) = true) (ht : c.symbol = .ok t) (hk : t.kind = .PyComa)
    (hN : NoCont [.PyComa] c.advance) (h : XVL r' c.advance d) : XVL r c d := by
  obtain ⟨ts, h, h2, _⟩ := h
  cases h2 hN
  exact .fail hr ht hk h (PreK.nil (by simp [prodK, hr])).out

theorem XVL.round {r c c1 d t ts} (ht : c.symbol = .ok t) (hk : t.kind = .PyComa)
    (h1 : Consumed c.advance ts c1) (h2 : XDer pRule r c.exc ts c1.exc) (h : XVL r c1 d) : XVL r c d := by
  obtain ⟨us, a, _, b⟩ := h
  refine ⟨t :: (ts ++ us), .step ht (h1.trans a), fun hN => absurd (hN t ht) (by rw [hk]; decide), fun x p d => ?_⟩
  have := (b _ _ h2).after (r' := X.list r) (x := x) (p := p ++ [t]) (fun us y hy => by simpa using XDer.consList d hk hy)
  simpa using this

theorem XVL.use {r c c1 d ts} (h1 : Consumed c ts c1) (h2 : XDer pRule r c.exc ts c1.exc) (h : XVL r c1 d) : XV (X.list r) c d := by
  obtain ⟨us, a, _, b⟩ := h
  exact ⟨_, h1.trans a, b _ _ h2⟩

theorem XV.list {r c d} (hr : r.prod (fun _ => true) = true) (h : XV r c d) : XV (X.list r) c d := by
  obtain ⟨ts, a, b⟩ := h
  exact XV.mk (a.trans (.refl _)) (.seq (.vi b (by simp [prodK, XR.prod])))
theorem XV.n {p c d} (h : XV (pRule p) c d) : XV (.n p) c d := by
  obtain ⟨ts, a, b⟩ := h
  exact ⟨ts, a, (PreK.n b.k1).out⟩
theorem XV.sub {r r' c d} (h : XV r c d) (f : ∀ x us y, XDer pRule r x us y → XDer pRule r' x us y) : XV r' c d := by
  obtain ⟨ts, a, b⟩ := h
  exact ⟨ts, a, b.sub (f _)⟩

attribute [local irreducible] XG XPeek XE XL XT StrOk NoCont SymIn WF PSt.advance LoopX ExprEnd ExprItem SubEnd SubItem Halts XV XVD XVL Pre

theorem noComma {c : PSt} {t K} (ht : c.symbol = .ok t) (hk : t.kind = K) (h : [Kind.PyComa].contains K = false) : NoCont [.PyComa] c :=
  .of ht (by rw [hk]; exact h)

theorem XV.starElem {c d} (h : XV (XR.n .star_expr) c d) : XV X.elem c d := h.sub fun _ _ _ d => .right d
theorem XV.namedElem {c d} (h : XV (XR.n .namedexpr_test) c d) : XV X.elem c d := h.sub fun _ _ _ d => .left d

theorem vf_exprlistLoop (s ns ss c) : VF (exprlistLoopBody s ns ss) (.exprlistLoop s ns ss) c := by
  unfold exprlistLoopBody
  vf_simp
  refine ⟨fun t ht => ⟨fun hk => ⟨fun t2 ht2 => ⟨fun hk2 d h => .trail rfl ht hk (noComma ht2 hk2 (by decide)) h, fun _ =>
    ⟨fun _ => .failC rfl ht hk, fun _ => ⟨fun _ => ⟨fun d ts h h' => .fail rfl ht hk h (h'.sub fun _ _ d => .right d),
      fun x c1 ts u v d h => h.round ht hk u (.right v)⟩, fun _ => ⟨fun d ts h h' => .fail rfl ht hk h (h'.sub fun _ _ d => .left d),
      fun x c1 ts u v _ _ d h => h.round ht hk u (.left v)⟩⟩⟩⟩, fun _ _ => .failC rfl ht hk⟩, fun _ => ?_⟩, fun _ _ => .stop⟩
  unfold listResult; split <;> vf_simp

theorem vf_exprlist (c) : VF exprlistBody .exprlist c := by
  unfold exprlistBody
  vf_simp [starOrNamed]
  refine ⟨fun t ht => ⟨fun _ => ⟨by vf_auto, fun x c1 ts u v d h => XV.n (p := .exprlist) (h.use u (.right v))⟩,
    fun _ => ⟨by vf_auto, fun x c1 ts u v _ _ d h => XV.n (p := .exprlist) (h.use u (.left v))⟩⟩, by vf_auto⟩

theorem vf_testlistLoop (s ns ss c) : VF (testlistLoopBody s ns ss) (.testlistLoop s ns ss) c := by
  unfold testlistLoopBody
  vf_simp
  refine ⟨fun t ht => ⟨fun hk => ⟨fun t2 ht2 => ⟨fun hk2 d h => .trail rfl ht hk ?_ h, fun _ =>
    ⟨fun _ => .failC rfl ht hk, fun _ => ⟨fun d ts h h' => .fail rfl ht hk h h', fun x c1 ts u v _ _ d h => h.round ht hk u v⟩⟩⟩,
    fun _ _ => .failC rfl ht hk⟩, fun _ => ?_⟩, fun _ _ => .stop⟩
  · rcases hk2 with hk2 | hk2 | hk2 <;> exact noComma ht2 hk2 (by decide)
  · unfold listResult; split <;> vf_simp

theorem vf_setLoop (s ns ss c) : VF (setLoopBody s ns ss) (.setLoop s ns ss) c := by
  unfold setLoopBody
  vf_simp
  refine ⟨fun t ht hk => ⟨fun t2 ht2 => ⟨fun hk2 d h => .trail rfl ht hk (noComma ht2 hk2 (by decide)) h, fun _ =>
    ⟨fun _ => .failC rfl ht hk, fun _ => ⟨fun hm => ⟨fun d ts h h' => .fail rfl ht hk (.step ht2 h) ?_,
      fun x c1 ts u v _ _ d h => h.round ht hk (.step ht2 u) (.right (.n (.seq (ts := [t2]) (.k hm) v)))⟩,
      fun _ => ⟨fun d ts h h' => .fail rfl ht hk h (h'.sub fun _ _ d => .left d),
      fun x c1 ts u v _ _ d h => h.round ht hk u (.left v)⟩⟩⟩⟩, fun _ _ => .failC rfl ht hk⟩, fun _ _ => .stop⟩
  have : PreK [X.starOrTest] c.exc (t2 :: (ts ++ [])) := .right (.n (.seq (.k hm (.vi h' rfl))))
  simpa using this.out

theorem vf_testlistStarExprLoop (s ns ss c) : VF (testlistStarExprLoopBody s ns ss) (.testlistStarExprLoop s ns ss) c := by
  unfold testlistStarExprLoopBody
  vf_simp
  refine ⟨fun t ht => ⟨fun hk => ⟨fun t2 ht2 => ⟨fun hk2 d h => .trail rfl ht hk ?_ h, fun _ =>
    ⟨fun _ => .failC rfl ht hk, fun _ => ⟨fun _ => ⟨fun d ts h h' => .fail rfl ht hk h (h'.sub fun _ _ d => .right d),
      fun x c1 ts u v d h => h.round ht hk u (.right v)⟩, fun _ => ⟨fun d ts h h' => .fail rfl ht hk h (h'.sub fun _ _ d => .left d),
      fun x c1 ts u v _ _ d h => h.round ht hk u (.left v)⟩⟩⟩⟩, fun _ _ => .failC rfl ht hk⟩, fun _ => ?_⟩, fun _ _ => .stop⟩
  · refine noComma ht2 rfl ?_
    revert hk2; generalize t2.kind = q; revert q; decide
  · unfold testlistStarExprResult; split <;> vf_simp

theorem vf_testlist (c) : VF testlistBody .testlist c := by
  unfold testlistBody
  vf_simp
  exact ⟨by vf_auto, fun x c1 ts u v _ _ d h => XV.n (p := .testlist) (h.use u v)⟩

theorem vf_testlistStarExpr (c) : VF testlistStarExprBody .testlistStarExpr c := by
  unfold testlistStarExprBody
  vf_simp
  refine ⟨fun t ht => ⟨fun _ => ⟨by vf_auto, fun x c1 ts u v d h => XV.n (p := .star_list) (h.use u (.right v))⟩,
    fun _ => ⟨by vf_auto, fun x c1 ts u v _ _ d h => XV.n (p := .star_list) (h.use u (.left v))⟩⟩, by vf_auto⟩

theorem vf_dictRest (s ns c) : WF ΦEx ΨV (fun d => XV (opt (X.comma ⬝ opt X.dictEntry)) c d) (dictRest s ns) c (fun _ _ => True) := by
  unfold dictRest dictRest.fin
  vf_simp
  vf_auto

theorem XVL.set {c c1 d ts} (h1 : Consumed c ts c1) (h2 : XDer pRule X.starOrTest c.exc ts c1.exc) (h : XVL X.starOrTest c1 d) :
    XV (XR.n .dictorsetmaker) c d :=
  XV.n (p := .dictorsetmaker) ((h.use h1 h2).sub fun _ _ _ d => .right d.listTr)

theorem vf_dictorsetMaker (c) : VF dictorsetMakerBody .dictorsetMaker c := by
  unfold dictorsetMakerBody
  vf_simp
  refine ⟨fun t ht => ⟨fun hk => ⟨by vf_auto, fun x c1 ts u v _ _ d h =>
      h.set (.step ht u) (.right (.n (.seq (ts := [t]) (.k hk) v)))⟩, fun _ => ⟨fun hk => ⟨by vf_auto, fun x c1 ts u v _ _ => ?_⟩,
    fun _ => ⟨by vf_auto, fun x c1 ts u v _ _ => ⟨fun t2 ht2 => ⟨fun hk2 => ⟨by vf_auto, fun y c2 us w z _ _ => ?_⟩,
      fun _ d h => h.set u (.left v)⟩, by vf_auto⟩⟩⟩⟩, by vf_auto⟩
  · refine wf_mono _ (fun _ _ _ => True.intro) (fun d hd => ?_) (vf_dictRest _ _ _)
    obtain ⟨ws, p, q⟩ := hd.elim
    vf_close
  · refine wf_mono _ (fun _ _ _ => True.intro) (fun d hd => ?_) (vf_dictRest _ _ _)
    obtain ⟨ws, p, q⟩ := hd.elim
    vf_close

end
end Verif
