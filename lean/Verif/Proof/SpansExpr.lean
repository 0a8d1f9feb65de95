import Verif.Proof.Spans
import Verif.Proof.ReadsExpr

/-!
# Where the nodes of a tree start and end: expressions
-/

namespace Verif
open Prog
set_option linter.unusedVariables false

section
variable [Uni]
attribute [local irreducible] Sp SpFrom SpFromE SpPeek SpFromPeek SpLoose WP PSt.advance PSt.pos

theorem sp_left {op : Kind → Option Tag} {operand self msg}
    (h1 : ∀ k tag, op k = some tag → tag.isEntry = false ∧ ∀ a b d, arrange tag [a, b, d] = some [a, b, d])
    (h2 : ∀ c t c', ΦP operand c t c' → Sp1 c t c') (h3 : ∀ s l c t c', ΦP (self s l) c t c' → SpFrom s [l] c t c')
    (s left c) : WP ΦP (leftLoopBody op operand self msg s left) c (SpFrom s [left] c) := by
  unfold leftLoopBody
  sp_simp
  intro t ht
  split
  · rename_i tag htag
    sp_simp
    intro x c1 hx y c2 hy
    have b := (h2 _ _ _ hx).elim
    have := h3 _ _ _ _ _ hy
    refine SpFrom.re this (fun c0 hs hp => ?_)
    refine .node ((h1 _ _ htag).2 _ _ _) ?_ hs rfl (h1 _ _ htag).1
    exact hp.app (.tok ht b)
  · sp_simp
    exact SpFrom.self _ _ _

theorem sp_termLoop (s l c) : WP ΦP (termLoopBody s l) c (ΦP (.termLoop s l) c) := by
  refine sp_left ?_ ?_ ?_ _ _ _
  · intro k tag h; unfold termOp at h; split at h <;> simp at h <;> subst h <;> exact ⟨rfl, fun _ _ _ => rfl⟩
  · intro c t c' h; simpa only [ΦP] using h
  · intro s l c t c' h; simpa only [ΦP] using h
theorem sp_arithLoop (s l c) : WP ΦP (arithLoopBody s l) c (ΦP (.arithLoop s l) c) := by
  refine sp_left ?_ ?_ ?_ _ _ _
  · intro k tag h; unfold arithOp at h; split at h <;> simp at h <;> subst h <;> exact ⟨rfl, fun _ _ _ => rfl⟩
  · intro c t c' h; simpa only [ΦP] using h
  · intro s l c t c' h; simpa only [ΦP] using h
theorem sp_shiftLoop (s l c) : WP ΦP (shiftLoopBody s l) c (ΦP (.shiftLoop s l) c) := by
  refine sp_left ?_ ?_ ?_ _ _ _
  · intro k tag h; unfold shiftOp at h; split at h <;> simp at h <;> subst h <;> exact ⟨rfl, fun _ _ _ => rfl⟩
  · intro c t c' h; simpa only [ΦP] using h
  · intro s l c t c' h; simpa only [ΦP] using h
theorem sp_andExprLoop (s l c) : WP ΦP (andExprLoopBody s l) c (ΦP (.andExprLoop s l) c) := by
  refine sp_left ?_ ?_ ?_ _ _ _
  · intro k tag h; unfold andExprOp at h; split at h <;> simp at h <;> subst h <;> exact ⟨rfl, fun _ _ _ => rfl⟩
  · intro c t c' h; simpa only [ΦP] using h
  · intro s l c t c' h; simpa only [ΦP] using h
theorem sp_xorExprLoop (s l c) : WP ΦP (xorExprLoopBody s l) c (ΦP (.xorExprLoop s l) c) := by
  refine sp_left ?_ ?_ ?_ _ _ _
  · intro k tag h; unfold xorExprOp at h; split at h <;> simp at h <;> subst h <;> exact ⟨rfl, fun _ _ _ => rfl⟩
  · intro c t c' h; simpa only [ΦP] using h
  · intro s l c t c' h; simpa only [ΦP] using h
theorem sp_exprLoop (s l c) : WP ΦP (exprLoopBody s l) c (ΦP (.exprLoop s l) c) := by
  refine sp_left ?_ ?_ ?_ _ _ _
  · intro k tag h; unfold exprOp at h; split at h <;> simp at h <;> subst h <;> exact ⟨rfl, fun _ _ _ => rfl⟩
  · intro c t c' h; simpa only [ΦP] using h
  · intro s l c t c' h; simpa only [ΦP] using h
theorem sp_andTestLoop (s l c) : WP ΦP (andTestLoopBody s l) c (ΦP (.andTestLoop s l) c) := by
  refine sp_left ?_ ?_ ?_ _ _ _
  · intro k tag h; unfold andTestOp at h; split at h <;> simp at h <;> subst h <;> exact ⟨rfl, fun _ _ _ => rfl⟩
  · intro c t c' h; simpa only [ΦP] using h
  · intro s l c t c' h; simpa only [ΦP] using h
theorem sp_orTestLoop (s l c) : WP ΦP (orTestLoopBody s l) c (ΦP (.orTestLoop s l) c) := by
  refine sp_left ?_ ?_ ?_ _ _ _
  · intro k tag h; unfold orTestOp at h; split at h <;> simp at h <;> subst h <;> exact ⟨rfl, fun _ _ _ => rfl⟩
  · intro c t c' h; simpa only [ΦP] using h
  · intro s l c t c' h; simpa only [ΦP] using h

theorem sp_comparisonLoop (s l c) : WP ΦP (comparisonLoopBody s l) c (ΦP (.comparisonLoop s l) c) := by
  unfold comparisonLoopBody
  sp_simp
  intro t ht
  split
  · rename_i tag htag
    sp_simp
    intro x c1 b y c2 hy
    refine SpFrom.re hy (fun c0 hs hp => ?_) 
    refine .node (fs' := [l, .tok t, x]) ?_ ?_ hs rfl (by
      unfold compOp at htag; split at htag <;> simp at htag <;> subst htag <;> rfl)
    · unfold compOp at htag; split at htag <;> simp at htag <;> subst htag <;> rfl
    · exact hp.app (.tok ht b)
  · sp_simp
    refine ⟨fun hk => ?_, fun hk => ⟨fun hk => ?_, fun hk => ?_⟩⟩
    · intro t2 ht2
      refine ⟨fun hk2 => ?_, fun hk2 => ?_⟩
      · intro x c1 b y c2 hy
        refine SpFrom.re hy (fun c0 hs hp => ?_) 
        exact .node (fs' := [l, .tok t, .tok t2, x]) rfl (hp.app (.tok ht (.tok ht2 b))) hs rfl
      · intro x c1 b y c2 hy
        refine SpFrom.re hy (fun c0 hs hp => ?_) 
        exact .node (fs' := [l, .tok t, x]) rfl (hp.app (.tok ht b)) hs rfl
    · intro t2 ht2 hk2 x c1 b y c2 hy
      refine SpFrom.re hy (fun c0 hs hp => ?_) 
      exact .node (fs' := [l, .tok t, .tok t2, x]) rfl (hp.app (.tok ht (.tok ht2 b))) hs rfl
    · exact SpFrom.self _ _ _

theorem sp_atomStrLoop (s l c) : WP ΦP (atomStrLoopBody s l) c (ΦP (.atomStrLoop s l) c) := by
  unfold atomStrLoopBody
  sp_simp
  refine ⟨fun t ht => ⟨fun hk x c1 hx => ?_, fun _ => ?_⟩, fun _ _ => ?_⟩
  · rw [List.map_append] at hx
    exact SpFrom.step hx (.tok ht (.refl _))
  · refine SpFrom.re (SpFrom.self _ _ _) (fun c0 hs hp => ?_)
    exact .node (fs' := [.seq (l.map .tok)]) rfl (.seq (by simpa using hp)) hs rfl
  · refine SpFrom.re (SpFrom.self _ _ _) (fun c0 hs hp => ?_)
    exact .node (fs' := [.seq (l.map .tok)]) rfl (.seq (by simpa using hp)) hs rfl

theorem sp_trailerFin (s a r lst c) : WP ΦP (trailerLoopBody.fin s a r lst) c (SpFrom s (a :: r :: lst) c) := by
  unfold trailerLoopBody.fin
  split
  · sp_simp
    refine SpFrom.re (SpFrom.self _ _ _) (fun c0 hs hp => ?_)
    exact hp.unNone
  · sp_simp
    refine SpFrom.re (SpFrom.self _ _ _) (fun c0 hs hp => ?_)
    refine .node rfl ?_ hs rfl
    exact Sp.pack (l := [a, r]) hp

theorem sp_trailerLoop (s a r lst c) : WP ΦP (trailerLoopBody s a r lst) c (ΦP (.trailerLoop s a r lst) c) := by
  unfold trailerLoopBody
  sp_simp
  refine ⟨fun t ht => ⟨fun hk x c1 v y c2 hy => ?_, fun _ => ?_⟩, fun _ _ => ?_⟩
  · exact SpFrom.step (l := a :: r :: lst) hy v
  · exact sp_trailerFin s a r lst c
  · exact sp_trailerFin s a r lst c


theorem sp_testlistCompLoop (s ns ss c) : WP ΦP (testlistCompLoopBody s ns ss) c (ΦP (.testlistCompLoop s ns ss) c) := by
  unfold testlistCompLoopBody starOrNamed
  sp_simp
  intro t ht
  refine ⟨fun hk t2 ht2 => ⟨fun _ x c1 v y c2 hy hl => ?_, fun _ x c1 v y c2 hy hl => ?_⟩, fun _ hl => ?_⟩
  · exact SpFrom.snoc (p := []) hl hy (.tok ht v)
  · exact SpFrom.snoc (p := []) hl hy (.tok ht v)
  · exact SpFrom.fin (m := []) (by arr) (.refl _) rfl

theorem sp_subscriptListLoop (s ns ss c) : WP ΦP (subscriptListLoopBody s ns ss) c (ΦP (.subscriptListLoop s ns ss) c) := by
  unfold subscriptListLoopBody
  sp_simp
  intro t ht
  refine ⟨fun hk x c1 v y c2 hy hl => ?_, fun _ hl => ?_⟩
  · exact SpFrom.snoc (p := []) hl hy (.tok ht v)
  · exact SpFrom.fin (m := []) (by arr) (.refl _) rfl

theorem sp_listResult (tag s ns ss c) (h : ∀ ns ss, arrange tag [.seq ns, .seq ss] = some (alternate ns ss))
    (hn : tag.isEntry = false) : WP ΦP (listResult tag s ns ss) c (SpFrom s (alternate ns (ss.map .tok)) c) := by
  unfold listResult
  split
  · sp_simp; exact SpFrom.self _ _ _
  · sp_simp; exact SpFrom.fin (m := []) (by rw [Tree.toks, h, List.append_nil]) (.refl _) rfl hn

theorem sp_starResult (s ns ss c) :
    WP ΦP (testlistStarExprResult s ns ss) c (SpFrom s (alternate ns (ss.map .tok)) c) := by
  unfold testlistStarExprResult
  split
  · rename_i x h1 h2
    sp_simp
    rw [List.reverse_eq_iff] at h1 h2
    subst h1 h2
    exact SpFrom.self _ _ _
  · sp_simp; exact SpFrom.fin (m := []) (by arr) (.refl _) rfl

theorem sp_exprlistLoop (s ns ss c) : WP ΦP (exprlistLoopBody s ns ss) c (ΦP (.exprlistLoop s ns ss) c) := by
  unfold exprlistLoopBody
  sp_simp
  intro t ht
  refine ⟨fun hk t2 ht2 => ⟨fun hk2 x c1 hx hl => ?_, fun _ _ => ⟨fun _ x c1 v y c2 hy hl => ?_, fun _ x c1 v y c2 hy hl => ?_⟩⟩, fun _ => ?_⟩
  · exact SpFrom.trail (hl.comma ht hk) hx ht ht2 (by rw [hk2]; decide)
  · exact SpFrom.snoc (p := []) (hl.comma ht hk) (fun h => hy (.inl h)) (.tok ht v)
  · exact SpFrom.snoc (p := []) (hl.comma ht hk) (fun h => hy (.inl h)) (.tok ht v)
  · exact wp_mono _ (fun _ _ h _ => h) (sp_listResult _ _ _ _ _ (fun _ _ => rfl) rfl)

theorem sp_testlistLoop (s ns ss c) : WP ΦP (testlistLoopBody s ns ss) c (ΦP (.testlistLoop s ns ss) c) := by
  unfold testlistLoopBody
  sp_simp
  intro t ht
  refine ⟨fun hk t2 ht2 => ⟨fun hk2 x c1 hx hl => ?_, fun _ _ x c1 v y c2 hy hl => ?_⟩, fun _ => ?_⟩
  · exact SpFrom.trail (hl.comma ht hk) hx ht ht2 (by rcases hk2 with h | h | h <;> rw [h] <;> decide)
  · exact SpFrom.snoc (p := []) (hl.comma ht hk) (fun h => hy (.inl h)) (.tok ht v)
  · exact wp_mono _ (fun _ _ h _ => h) (sp_listResult _ _ _ _ _ (fun _ _ => rfl) rfl)

theorem sp_arglistLoop (s ns ss c) : WP ΦP (arglistLoopBody s ns ss) c (ΦP (.arglistLoop s ns ss) c) := by
  unfold arglistLoopBody
  sp_simp
  intro t ht
  refine ⟨fun hk t2 ht2 => ⟨fun hk2 x c1 hx hl => ?_, fun _ _ x c1 v y c2 hy hl => ?_⟩, fun _ hl => ?_⟩
  · exact SpFrom.trail (hl.comma ht hk) hx ht ht2 (by rw [hk2]; decide)
  · exact SpFrom.snoc (p := []) (hl.comma ht hk) (fun h => hy (.inl h)) (.tok ht v)
  · exact SpFrom.fin (m := []) (by arr) (.refl _) rfl

theorem sp_setLoop (s ns ss c) : WP ΦP (setLoopBody s ns ss) c (ΦP (.setLoop s ns ss) c) := by
  unfold setLoopBody
  sp_simp
  intro t ht
  refine ⟨fun hk t2 ht2 => ⟨fun hk2 x c1 hx hl => ?_, fun _ _ => ⟨fun _ x c1 v y c2 hy hl => ?_, fun _ x c1 v y c2 hy hl => ?_⟩⟩, fun _ hl => ?_⟩
  · have h := SepOk.comma hl ht hk
    refine ⟨SpFromE.trail h (fun h => (hx h).1) ht ht2 (by rw [hk2]; decide), ?_⟩
    exact (hx (.inr ⟨by simpa using h, by rintro rfl; simp at h, t2, ht2, by rw [hk2]; decide⟩)).2
  · have h := SepOk.comma hl ht hk
    refine ⟨SpFromE.snoc (p := []) h (fun h => (hy (.inl h)).1) (.tok ht (.node (.inl rfl) rfl rfl (.tok ht2 (v.at _)) (.nil rfl rfl))), ?_⟩
    exact (hy (.inl (by simpa using h))).2
  · have h := SepOk.comma hl ht hk
    refine ⟨SpFromE.snoc (p := []) h (fun h => (hy (.inl h)).1) (.tok ht (v.at _)), ?_⟩
    exact (hy (.inl (by simpa using h))).2
  · exact ⟨SpFromE.fin (m := []) (by arr) (.nil rfl rfl) rfl, rfl⟩

theorem sp_testlistStarExprLoop (s ns ss c) : WP ΦP (testlistStarExprLoopBody s ns ss) c (ΦP (.testlistStarExprLoop s ns ss) c) := by
  unfold testlistStarExprLoopBody
  sp_simp
  intro t ht
  refine ⟨fun hk t2 ht2 => ⟨fun hk2 x c1 hx hl => ?_, fun _ _ => ⟨fun _ x c1 v y c2 hy hl => ?_, fun _ x c1 v y c2 hy hl => ?_⟩⟩, fun _ => ?_⟩
  · exact SpFrom.trail (hl.comma ht hk) hx ht ht2 (by rintro h; rw [h] at hk2; exact absurd hk2 (by decide))
  · exact SpFrom.snoc (p := []) (hl.comma ht hk) (fun h => hy (.inl h)) (.tok ht v)
  · exact SpFrom.snoc (p := []) (hl.comma ht hk) (fun h => hy (.inl h)) (.tok ht v)
  · exact wp_mono _ (fun _ _ h _ => h) (sp_starResult _ _ _ _)

theorem sp_dictRest (s ns c) (hn : ns.length = 1) : WP ΦP (dictRest s ns) c (fun t c' => SpFromE s ns c t c' ∧ t.tag? = some .DictionaryContainer) := by
  match ns, hn with
  | [n], _ =>
  unfold dictRest dictRest.fin
  sp_simp
  intro t ht
  refine ⟨fun hk t2 ht2 => ⟨fun hk2 => ?_, fun _ _ => ⟨fun _ x c1 v => ?_, fun _ x c1 v t3 ht3 hk3 y c2 z => ?_⟩⟩, fun _ => ?_⟩
  · exact ⟨SpFromE.fin (m := [.tok t]) (by arr) (.tok ht (.nil rfl rfl)) rfl, rfl⟩
  · exact ⟨SpFromE.fin (m := [.tok t, .node _ _ _ [.tok t2, x]]) (by arr) (.tok ht (.node (.inl rfl) rfl rfl (.tok ht2 (v.at _)) (.nil rfl rfl))) rfl, rfl⟩
  · exact ⟨SpFromE.fin (m := [.tok t, .node _ _ _ [x, .tok t3, y]]) (by arr) (.tok ht (.node (fs' := [x, .tok t3, y]) (.inl rfl) rfl rfl ((v.at _).app (.tok ht3 (z.at _))) (.nil rfl rfl))) rfl, rfl⟩
  · exact ⟨SpFromE.fin (m := []) (by arr) (.nil rfl rfl) rfl, rfl⟩

theorem sp_dictorsetMaker (c) : WP ΦP dictorsetMakerBody c (ΦP .dictorsetMaker c) := by
  unfold dictorsetMakerBody
  sp_simp
  intro t ht
  refine ⟨fun hk x c1 v y c2 hy => ?_, fun _ => ⟨fun hk x c1 v => ?_, fun hk x c1 v t2 ht2 => ⟨fun _ y c2 z => ?_, fun _ y c2 hy => ?_⟩⟩⟩
  · exact ⟨hy.1.elim _ rfl (.node (.inl rfl) rfl rfl (.tok ht (v.at _)) (.nil rfl rfl)), .inr hy.2⟩
  · refine wp_mono _ (fun y c2 hy => ?_) (sp_dictRest _ _ _ rfl)
    exact ⟨hy.1.elim _ rfl (.node (.inl rfl) rfl rfl (.tok ht (v.at _)) (.nil rfl rfl)), .inl hy.2⟩
  · refine wp_mono _ (fun y' c2 hy => ?_) (sp_dictRest _ _ _ rfl)
    exact ⟨hy.1.elim _ rfl (.node (fs' := [x, .tok t2, y]) (.inl rfl) rfl rfl ((v.at _).app (.tok ht2 (z.at _))) (.nil rfl rfl)), .inl hy.2⟩
  · exact ⟨hy.1.elim _ rfl (v.at _), .inr hy.2⟩


theorem sp_atom (c) : WP ΦP atomBody c (ΦP .atom c) := by
  unfold atomBody
  sp_simp
  wp_paths
  all_goals try sp_close
  · rename_i hm _ _ _ _
    have v := hm.1.elim
    refine Sp1.mk (.node rfl (.tok (by assumption) (.cons v (.tok (by assumption) (.refl _)))) rfl rfl)
  · rename_i hm _ _ _ _ _
    have v := hm.1.elim
    refine Sp1.mk (.node rfl (.tok (by assumption) (.cons v (.tok (by assumption) (.refl _)))) rfl rfl)
  · rename_i hm _ _ _ h1 h2
    rcases hm.2 with h | h
    · exact absurd h h1
    · exact absurd h h2

/-! ### Parameter lists -/

theorem sp_varArgsResult (s v c) : WP ΦP (varArgsResult s v) c (SpLoose s v c) := by
  unfold varArgsResult
  sp_simp
  exact SpLoose.fin (fun _ => rfl) rfl rfl

theorem sp_varArgsPower (s v t c) (ht : c.symbol = .ok t) (a : v.powS = .none) (b : v.powN = .none) :
    WP ΦP (varArgsPower s v t) c (SpLoose s v c) := by
  unfold varArgsPower
  sp_simp
  intro x c1 w t2 ht2
  refine ⟨fun hk => ?_, fun hk => ?_⟩
  · refine wp_mono _ (fun y c2 hy => ?_) (sp_varArgsResult _ _ _)
    refine SpLoose.step hy (m := (.tok t :: present [x]) ++ [.tok t2])
      (fun l hl => by rw [← List.append_assoc]; exact (hl.pow a b t x).sep t2)
      (.tok ht ((Sp.present w).app (.tok ht2 (.refl _))))
  · refine wp_mono _ (fun y c2 hy => ?_) (sp_varArgsResult _ _ _)
    exact SpLoose.step hy (fun l hl => hl.pow a b t x) (.tok ht (Sp.present w))

theorem sp_varArgsMul (s v t c) (ht : c.symbol = .ok t) (a : v.mulS = .none) (b : v.mulN = .none)
    (d : v.powS = .none) (e : v.powN = .none) : WP ΦP (varArgsMul s v t) c (SpLoose s v c) := by
  unfold varArgsMul
  sp_simp
  intro x c1 w y c2 hy
  exact SpLoose.step (hy d e) (fun l hl => hl.mul a b t x) (.tok ht (Sp.present w))

theorem sp_varArgsStarLoop (s v c) : WP ΦP (varArgsStarLoopBody s v) c (ΦP (.varArgsStarLoop s v) c) := by
  unfold varArgsStarLoopBody
  sp_simp
  intro t ht
  refine ⟨fun hk t2 ht2 => ⟨fun hk2 => ?_, fun _ x c1 w y c2 hy a b => ?_⟩, fun _ => ?_⟩
  · by_cases hn : v.powS = .none ∧ v.powN = .none
    · refine wp_mono _ (fun y c2 hy _ _ => ?_) (sp_varArgsPower _ _ _ _ ht2 hn.1 hn.2)
      exact SpLoose.step hy (fun l hl => hl.sep t) (.tok ht (.refl _))
    · exact wp_any _ fun y c2 a b => absurd ⟨a, b⟩ hn
  · exact SpLoose.step (hy a b) (m := [.tok t] ++ present [x])
      (fun l hl => by rw [← List.append_assoc]; exact (hl.sep t).node x) (.tok ht (Sp.present w))
  · exact wp_mono _ (fun y c2 hy _ _ => hy) (sp_varArgsResult _ _ _)

theorem sp_varArgsDivLoop (s v c) : WP ΦP (varArgsDivLoopBody s v) c (ΦP (.varArgsDivLoop s v) c) := by
  unfold varArgsDivLoopBody
  sp_simp
  intro t ht
  refine ⟨fun hk t2 ht2 => ⟨fun hk2 => ?_, fun _ => ⟨fun hk2 => ?_, fun _ x c1 w y c2 hy a b d e => ?_⟩⟩, fun _ => ?_⟩
  · by_cases hn : v.mulS = .none ∧ v.mulN = .none ∧ v.powS = .none ∧ v.powN = .none
    · refine wp_mono _ (fun y c2 hy _ _ _ _ => ?_) (sp_varArgsMul _ _ _ _ ht2 hn.1 hn.2.1 hn.2.2.1 hn.2.2.2)
      exact SpLoose.step hy (fun l hl => hl.sep t) (.tok ht (.refl _))
    · exact wp_any _ fun y c2 a b d e => absurd ⟨a, b, d, e⟩ hn
  · by_cases hn : v.powS = .none ∧ v.powN = .none
    · refine wp_mono _ (fun y c2 hy _ _ _ _ => ?_) (sp_varArgsPower _ _ _ _ ht2 hn.1 hn.2)
      exact SpLoose.step hy (fun l hl => hl.sep t) (.tok ht (.refl _))
    · exact wp_any _ fun y c2 _ _ a b => absurd ⟨a, b⟩ hn
  · exact SpLoose.step (hy a b d e) (m := [.tok t] ++ present [x])
      (fun l hl => by rw [← List.append_assoc]; exact (hl.sep t).node x) (.tok ht (Sp.present w))
  · exact wp_mono _ (fun y c2 hy _ _ _ _ => hy) (sp_varArgsResult _ _ _)

theorem sp_varArgsMainLoop (s v c) : WP ΦP (varArgsMainLoopBody s v) c (ΦP (.varArgsMainLoop s v) c) := by
  unfold varArgsMainLoopBody
  sp_simp
  intro t ht
  refine ⟨fun hk t2 ht2 => ⟨fun hk2 y c2 hy a b d e f => ?_, fun _ => ⟨fun hk2 => ?_, fun _ => ⟨fun hk2 => ?_, fun _ x c1 w y c2 hy a b d e f => ?_⟩⟩⟩, fun _ => ?_⟩
  · exact SpLoose.step (hy a b d e) (m := [.tok t, .tok t2])
      (fun l hl => by
        have := (hl.sep t).setDiv f t2
        rwa [List.append_assoc] at this) (.tok ht (.tok ht2 (.refl _)))
  · by_cases hn : v.mulS = .none ∧ v.mulN = .none ∧ v.powS = .none ∧ v.powN = .none
    · refine wp_mono _ (fun y c2 hy _ _ _ _ _ => ?_) (sp_varArgsMul _ _ _ _ ht2 hn.1 hn.2.1 hn.2.2.1 hn.2.2.2)
      exact SpLoose.step hy (fun l hl => hl.sep t) (.tok ht (.refl _))
    · exact wp_any _ fun y c2 a b d e _ => absurd ⟨a, b, d, e⟩ hn
  · by_cases hn : v.powS = .none ∧ v.powN = .none
    · refine wp_mono _ (fun y c2 hy _ _ _ _ _ => ?_) (sp_varArgsPower _ _ _ _ ht2 hn.1 hn.2)
      exact SpLoose.step hy (fun l hl => hl.sep t) (.tok ht (.refl _))
    · exact wp_any _ fun y c2 _ _ a b _ => absurd ⟨a, b⟩ hn
  · exact SpLoose.step (hy a b d e f) (m := [.tok t] ++ present [x])
      (fun l hl => by rw [← List.append_assoc]; exact (hl.sep t).node x) (.tok ht (Sp.present w))
  · exact wp_mono _ (fun y c2 hy _ _ _ _ _ => hy) (sp_varArgsResult _ _ _)

theorem sp_varArgsList (c) : WP ΦP varArgsListBody c (ΦP .varArgsList c) := by
  unfold varArgsListBody
  sp_simp
  intro t ht
  refine ⟨fun hk => ?_, fun _ => ⟨fun hk => ?_, fun _ x c1 w y c2 hy => ?_⟩⟩
  · exact wp_mono _ (fun y c2 hy => Sp1.ofLoose hy holds_nil (.refl _) rfl) (sp_varArgsMul _ _ _ _ ht rfl rfl rfl rfl)
  · exact wp_mono _ (fun y c2 hy => Sp1.ofLoose hy holds_nil (.refl _) rfl) (sp_varArgsPower _ _ _ _ ht rfl rfl)
  · exact Sp1.ofLoose hy (holds_nil.node x) (Sp.present w) rfl

/-! ### The functions without loops -/

theorem sp_lambdaDef (b c) : WP ΦP (lambdaDefBody b) c (ΦP (.lambdaDef b) c) := by
  unfold lambdaDefBody; sp_simp; wp_paths <;> sp_close
theorem sp_atomExpr (c) : WP ΦP atomExprBody c (ΦP .atomExpr c) := by
  unfold atomExprBody; sp_simp; try (wp_paths <;> sp_close)
theorem sp_power (c) : WP ΦP powerBody c (ΦP .power c) := by
  unfold powerBody; sp_simp; try (wp_paths <;> sp_close)
theorem sp_factor (c) : WP ΦP factorBody c (ΦP .factor c) := by
  unfold factorBody; sp_simp; try (wp_paths <;> sp_close)
theorem sp_term (c) : WP ΦP termBody c (ΦP .term c) := by
  unfold termBody; sp_simp; try (wp_paths <;> sp_close)
theorem sp_arith (c) : WP ΦP arithBody c (ΦP .arith c) := by
  unfold arithBody; sp_simp; try (wp_paths <;> sp_close)
theorem sp_shift (c) : WP ΦP shiftBody c (ΦP .shift c) := by
  unfold shiftBody; sp_simp; try (wp_paths <;> sp_close)
theorem sp_andExpr (c) : WP ΦP andExprBody c (ΦP .andExpr c) := by
  unfold andExprBody; sp_simp; try (wp_paths <;> sp_close)
theorem sp_xorExpr (c) : WP ΦP xorExprBody c (ΦP .xorExpr c) := by
  unfold xorExprBody; sp_simp; try (wp_paths <;> sp_close)
theorem sp_expr (c) : WP ΦP exprBody c (ΦP .expr c) := by
  unfold exprBody; sp_simp; try (wp_paths <;> sp_close)
theorem sp_starExpr (c) : WP ΦP starExprBody c (ΦP .starExpr c) := by
  unfold starExprBody; sp_simp; try (wp_paths <;> sp_close)
theorem sp_comparison (c) : WP ΦP comparisonBody c (ΦP .comparison c) := by
  unfold comparisonBody; sp_simp; try (wp_paths <;> sp_close)
theorem sp_notTest (c) : WP ΦP notTestBody c (ΦP .notTest c) := by
  unfold notTestBody; sp_simp; try (wp_paths <;> sp_close)
theorem sp_andTest (c) : WP ΦP andTestBody c (ΦP .andTest c) := by
  unfold andTestBody; sp_simp; try (wp_paths <;> sp_close)
theorem sp_orTest (c) : WP ΦP orTestBody c (ΦP .orTest c) := by
  unfold orTestBody; sp_simp; try (wp_paths <;> sp_close)
theorem sp_noCondTest (c) : WP ΦP noCondTestBody c (ΦP .noCondTest c) := by
  unfold noCondTestBody; sp_simp; try (wp_paths <;> sp_close)
theorem sp_test (c) : WP ΦP testBody c (ΦP .test c) := by
  unfold testBody; sp_simp; try (wp_paths <;> sp_close)
theorem sp_namedExpression (c) : WP ΦP namedExpressionBody c (ΦP .namedExpression c) := by
  unfold namedExpressionBody; sp_simp; try (wp_paths <;> sp_close)
theorem sp_testlistComp (c) : WP ΦP testlistCompBody c (ΦP .testlistComp c) := by
  unfold testlistCompBody; sp_simp [starOrNamed]; try (wp_paths <;> sp_close)
theorem sp_trailer (c) : WP ΦP trailerBody c (ΦP .trailer c) := by
  unfold trailerBody; sp_simp; try (wp_paths <;> sp_close)
theorem sp_subscriptList (c) : WP ΦP subscriptListBody c (ΦP .subscriptList c) := by
  unfold subscriptListBody; sp_simp; try (wp_paths <;> sp_close)
theorem sp_subscript (c) : WP ΦP subscriptBody c (ΦP .subscript c) := by
  unfold subscriptBody; sp_simp; try (wp_paths <;> sp_close)
theorem sp_exprlist (c) : WP ΦP exprlistBody c (ΦP .exprlist c) := by
  unfold exprlistBody; sp_simp [starOrNamed]; try (wp_paths <;> sp_close)
theorem sp_testlist (c) : WP ΦP testlistBody c (ΦP .testlist c) := by
  unfold testlistBody; sp_simp; try (wp_paths <;> sp_close)
theorem sp_arglist (c) : WP ΦP arglistBody c (ΦP .arglist c) := by
  unfold arglistBody; sp_simp; try (wp_paths <;> sp_close)
theorem sp_argument (c) : WP ΦP argumentBody c (ΦP .argument c) := by
  unfold argumentBody; sp_simp; try (wp_paths <;> sp_close)
theorem sp_compIter (c) : WP ΦP compIterBody c (ΦP .compIter c) := by
  unfold compIterBody; sp_simp; try (wp_paths <;> sp_close)
theorem sp_syncCompFor (c) : WP ΦP syncCompForBody c (ΦP .syncCompFor c) := by
  unfold syncCompForBody; sp_simp; try (wp_paths <;> sp_close)
theorem sp_compFor (c) : WP ΦP compForBody c (ΦP .compFor c) := by
  unfold compForBody; sp_simp; try (wp_paths <;> sp_close)
theorem sp_compIf (c) : WP ΦP compIfBody c (ΦP .compIf c) := by
  unfold compIfBody; sp_simp; try (wp_paths <;> sp_close)
theorem sp_yieldExpr (c) : WP ΦP yieldExprBody c (ΦP .yieldExpr c) := by
  unfold yieldExprBody; sp_simp; try (wp_paths <;> sp_close)
theorem sp_testlistStarExpr (c) : WP ΦP testlistStarExprBody c (ΦP .testlistStarExpr c) := by
  unfold testlistStarExprBody; sp_simp; try (wp_paths <;> sp_close)
theorem sp_varArgsAssignments (c) : WP ΦP varArgsAssignmentsBody c (ΦP .varArgsAssignments c) := by
  unfold varArgsAssignmentsBody; sp_simp; try (wp_paths <;> sp_close)
theorem sp_vfpDef (c) : WP ΦP vfpDefBody c (ΦP .vfpDef c) := by
  unfold vfpDefBody; sp_simp; try (wp_paths <;> sp_close)

end

end Verif
