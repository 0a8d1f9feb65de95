import Verif.Proof.Reads

/-!
# The tokens of a tree are the tokens consumed: expressions
-/

namespace Verif
open Prog
set_option linter.unusedVariables false

section
variable [Uni]
attribute [local irreducible] Rd RdFrom RdPeek RdFromPeek RdLoose WP PSt.advance

macro "arr" : tactic => `(tactic| first | rfl | (refine congrArg some ?_; simp [List.map_reverse]))

theorem rd_left {op : Kind → Option Tag} {operand self msg}
    (h1 : ∀ k tag, op k = some tag → ∀ a b d, arrange tag [a, b, d] = some [a, b, d])
    (h2 : ∀ c t c', ΦR operand c t c' → Rd c t c') (h3 : ∀ s l c t c', ΦR (self s l) c t c' → RdFrom [l] c t c')
    (s left c) : WP ΦR (leftLoopBody op operand self msg s left) c (RdFrom [left] c) := by
  unfold leftLoopBody
  rd_simp
  intro t ht
  split
  · rename_i tag htag
    rd_simp
    intro x c1 hx y c2 hy
    obtain ⟨ts, a, b⟩ := (h2 _ _ _ hx).elim
    have := h3 _ _ _ _ _ hy
    refine RdFrom.re this (fun pre hp => ?_) (.step ht a)
    refine .node (h1 _ _ htag _ _ _) ?_
    exact hp.app (.tok b)
  · rd_simp
    exact RdFrom.self _ _

theorem rd_termLoop (s l c) : WP ΦR (termLoopBody s l) c (ΦR (.termLoop s l) c) := by
  refine rd_left ?_ ?_ ?_ _ _ _
  · intro k tag h; unfold termOp at h; split at h <;> simp at h <;> subst h <;> intros <;> rfl
  · intro c t c' h; simpa only [ΦR] using h
  · intro s l c t c' h; simpa only [ΦR] using h
theorem rd_arithLoop (s l c) : WP ΦR (arithLoopBody s l) c (ΦR (.arithLoop s l) c) := by
  refine rd_left ?_ ?_ ?_ _ _ _
  · intro k tag h; unfold arithOp at h; split at h <;> simp at h <;> subst h <;> intros <;> rfl
  · intro c t c' h; simpa only [ΦR] using h
  · intro s l c t c' h; simpa only [ΦR] using h
theorem rd_shiftLoop (s l c) : WP ΦR (shiftLoopBody s l) c (ΦR (.shiftLoop s l) c) := by
  refine rd_left ?_ ?_ ?_ _ _ _
  · intro k tag h; unfold shiftOp at h; split at h <;> simp at h <;> subst h <;> intros <;> rfl
  · intro c t c' h; simpa only [ΦR] using h
  · intro s l c t c' h; simpa only [ΦR] using h
theorem rd_andExprLoop (s l c) : WP ΦR (andExprLoopBody s l) c (ΦR (.andExprLoop s l) c) := by
  refine rd_left ?_ ?_ ?_ _ _ _
  · intro k tag h; unfold andExprOp at h; split at h <;> simp at h <;> subst h <;> intros <;> rfl
  · intro c t c' h; simpa only [ΦR] using h
  · intro s l c t c' h; simpa only [ΦR] using h
theorem rd_xorExprLoop (s l c) : WP ΦR (xorExprLoopBody s l) c (ΦR (.xorExprLoop s l) c) := by
  refine rd_left ?_ ?_ ?_ _ _ _
  · intro k tag h; unfold xorExprOp at h; split at h <;> simp at h <;> subst h <;> intros <;> rfl
  · intro c t c' h; simpa only [ΦR] using h
  · intro s l c t c' h; simpa only [ΦR] using h
theorem rd_exprLoop (s l c) : WP ΦR (exprLoopBody s l) c (ΦR (.exprLoop s l) c) := by
  refine rd_left ?_ ?_ ?_ _ _ _
  · intro k tag h; unfold exprOp at h; split at h <;> simp at h <;> subst h <;> intros <;> rfl
  · intro c t c' h; simpa only [ΦR] using h
  · intro s l c t c' h; simpa only [ΦR] using h
theorem rd_andTestLoop (s l c) : WP ΦR (andTestLoopBody s l) c (ΦR (.andTestLoop s l) c) := by
  refine rd_left ?_ ?_ ?_ _ _ _
  · intro k tag h; unfold andTestOp at h; split at h <;> simp at h <;> subst h <;> intros <;> rfl
  · intro c t c' h; simpa only [ΦR] using h
  · intro s l c t c' h; simpa only [ΦR] using h
theorem rd_orTestLoop (s l c) : WP ΦR (orTestLoopBody s l) c (ΦR (.orTestLoop s l) c) := by
  refine rd_left ?_ ?_ ?_ _ _ _
  · intro k tag h; unfold orTestOp at h; split at h <;> simp at h <;> subst h <;> intros <;> rfl
  · intro c t c' h; simpa only [ΦR] using h
  · intro s l c t c' h; simpa only [ΦR] using h

theorem rd_comparisonLoop (s l c) : WP ΦR (comparisonLoopBody s l) c (ΦR (.comparisonLoop s l) c) := by
  unfold comparisonLoopBody
  rd_simp
  intro t ht
  split
  · rename_i tag htag
    rd_simp
    intro x c1 ts a b y c2 hy
    refine RdFrom.re hy (fun pre hp => ?_) (.step ht a)
    refine .node (fs' := [l, .tok t, x]) ?_ ?_
    · unfold compOp at htag; split at htag <;> simp at htag <;> subst htag <;> rfl
    · exact hp.app (.tok b)
  · rd_simp
    refine ⟨fun hk => ?_, fun hk => ⟨fun hk => ?_, fun hk => ?_⟩⟩
    · intro t2 ht2
      refine ⟨fun hk2 => ?_, fun hk2 => ?_⟩
      · intro x c1 ts a b y c2 hy
        refine RdFrom.re hy (fun pre hp => ?_) (.step ht (.step ht2 a))
        exact .node rfl (hp.app (.tok (.tok b)))
      · intro x c1 ts a b y c2 hy
        refine RdFrom.re hy (fun pre hp => ?_) (.step ht a)
        exact .node rfl (hp.app (.tok b))
    · intro t2 ht2 hk2 x c1 ts a b y c2 hy
      refine RdFrom.re hy (fun pre hp => ?_) (.step ht (.step ht2 a))
      exact .node rfl (hp.app (.tok (.tok b)))
    · exact RdFrom.self _ _

theorem rd_atomStrLoop (s l c) : WP ΦR (atomStrLoopBody s l) c (ΦR (.atomStrLoop s l) c) := by
  unfold atomStrLoopBody
  rd_simp
  refine ⟨fun t ht => ⟨fun hk x c1 hx => ?_, fun _ => ?_⟩, fun _ _ => ?_⟩
  · rw [List.map_append] at hx
    exact RdFrom.step hx (.step ht (.refl _)) (.tok .nil)
  · exact RdFrom.re (RdFrom.self _ _) (ts := []) (fun pre hp => by
      rw [List.append_nil]; exact .node rfl (.seq (by simpa using hp))) (.refl _)
  · exact RdFrom.re (RdFrom.self _ _) (ts := []) (fun pre hp => by
      rw [List.append_nil]; exact .node rfl (.seq (by simpa using hp))) (.refl _)

theorem rd_trailerFin (s a r lst c) : WP ΦR (trailerLoopBody.fin s a r lst) c (RdFrom (a :: r :: lst) c) := by
  unfold trailerLoopBody.fin
  split
  · rd_simp
    refine RdFrom.re (RdFrom.self _ _) (ts := []) (fun pre hp => ?_) (.refl _)
    cases hp with | none hp => simpa using hp
  · rd_simp
    refine RdFrom.re (RdFrom.self _ _) (ts := []) (fun pre hp => ?_) (.refl _)
    rw [List.append_nil]
    refine .node rfl ?_
    exact Reads.pack (l := [a, r]) hp

theorem rd_trailerLoop (s a r lst c) : WP ΦR (trailerLoopBody s a r lst) c (ΦR (.trailerLoop s a r lst) c) := by
  unfold trailerLoopBody
  rd_simp
  refine ⟨fun t ht => ⟨fun hk x c1 ts u v y c2 hy => ?_, fun _ => ?_⟩, fun _ _ => ?_⟩
  · exact RdFrom.step hy u v
  · exact rd_trailerFin s a r lst c
  · exact rd_trailerFin s a r lst c


theorem rd_testlistCompLoop (s ns ss c) : WP ΦR (testlistCompLoopBody s ns ss) c (ΦR (.testlistCompLoop s ns ss) c) := by
  unfold testlistCompLoopBody starOrNamed
  rd_simp
  intro t ht
  refine ⟨fun hk t2 ht2 => ⟨fun _ x c1 ts u v y c2 hy hl => ?_, fun _ x c1 ts u v y c2 hy hl => ?_⟩, fun _ hl => ?_⟩
  · exact RdFrom.snoc (p := []) hl hy (.step ht u) (.tok v)
  · exact RdFrom.snoc (p := []) hl hy (.step ht u) (.tok v)
  · exact RdFrom.fin (m := []) (by arr) (.refl _) .nil

theorem rd_subscriptListLoop (s ns ss c) : WP ΦR (subscriptListLoopBody s ns ss) c (ΦR (.subscriptListLoop s ns ss) c) := by
  unfold subscriptListLoopBody
  rd_simp
  intro t ht
  refine ⟨fun hk x c1 ts u v y c2 hy hl => ?_, fun _ hl => ?_⟩
  · exact RdFrom.snoc (p := []) hl hy (.step ht u) (.tok v)
  · exact RdFrom.fin (m := []) (by arr) (.refl _) .nil

theorem rd_listResult (tag s ns ss c) (h : ∀ ns ss, arrange tag [.seq ns, .seq ss] = some (alternate ns ss)) :
    WP ΦR (listResult tag s ns ss) c (RdFrom (alternate ns (ss.map .tok)) c) := by
  unfold listResult
  split
  · rd_simp; exact RdFrom.self _ _
  · rd_simp; exact RdFrom.fin (m := []) (by rw [Tree.toks, h, List.append_nil]) (.refl _) .nil

theorem rd_starResult (s ns ss c) :
    WP ΦR (testlistStarExprResult s ns ss) c (RdFrom (alternate ns (ss.map .tok)) c) := by
  unfold testlistStarExprResult
  split
  · rename_i x h1 h2
    rd_simp
    rw [List.reverse_eq_iff] at h1 h2
    subst h1 h2
    exact RdFrom.self _ _
  · rd_simp; exact RdFrom.fin (m := []) (by arr) (.refl _) .nil

theorem rd_exprlistLoop (s ns ss c) : WP ΦR (exprlistLoopBody s ns ss) c (ΦR (.exprlistLoop s ns ss) c) := by
  unfold exprlistLoopBody
  rd_simp
  intro t ht
  refine ⟨fun hk t2 ht2 => ⟨fun hk2 x c1 hx hl => ?_, fun _ _ => ⟨fun _ x c1 ts u v y c2 hy hl => ?_, fun _ x c1 ts u v y c2 hy hl => ?_⟩⟩, fun _ => ?_⟩
  · exact RdFrom.trail (hl.comma ht hk) hx ht ht2 (by rw [hk2]; decide)
  · exact RdFrom.snoc (p := []) (hl.comma ht hk) (fun h => hy (.inl h)) (.step ht u) (.tok v)
  · exact RdFrom.snoc (p := []) (hl.comma ht hk) (fun h => hy (.inl h)) (.step ht u) (.tok v)
  · exact wp_mono _ (fun _ _ h _ => h) (rd_listResult _ _ _ _ _ fun _ _ => rfl)

theorem rd_testlistLoop (s ns ss c) : WP ΦR (testlistLoopBody s ns ss) c (ΦR (.testlistLoop s ns ss) c) := by
  unfold testlistLoopBody
  rd_simp
  intro t ht
  refine ⟨fun hk t2 ht2 => ⟨fun hk2 x c1 hx hl => ?_, fun _ _ x c1 ts u v y c2 hy hl => ?_⟩, fun _ => ?_⟩
  · exact RdFrom.trail (hl.comma ht hk) hx ht ht2 (by rcases hk2 with h | h | h <;> rw [h] <;> decide)
  · exact RdFrom.snoc (p := []) (hl.comma ht hk) (fun h => hy (.inl h)) (.step ht u) (.tok v)
  · exact wp_mono _ (fun _ _ h _ => h) (rd_listResult _ _ _ _ _ fun _ _ => rfl)

theorem rd_arglistLoop (s ns ss c) : WP ΦR (arglistLoopBody s ns ss) c (ΦR (.arglistLoop s ns ss) c) := by
  unfold arglistLoopBody
  rd_simp
  intro t ht
  refine ⟨fun hk t2 ht2 => ⟨fun hk2 x c1 hx hl => ?_, fun _ _ x c1 ts u v y c2 hy hl => ?_⟩, fun _ hl => ?_⟩
  · exact RdFrom.trail (hl.comma ht hk) hx ht ht2 (by rw [hk2]; decide)
  · exact RdFrom.snoc (p := []) (hl.comma ht hk) (fun h => hy (.inl h)) (.step ht u) (.tok v)
  · exact RdFrom.fin (m := []) (by arr) (.refl _) .nil

theorem rd_setLoop (s ns ss c) : WP ΦR (setLoopBody s ns ss) c (ΦR (.setLoop s ns ss) c) := by
  unfold setLoopBody
  rd_simp
  intro t ht
  refine ⟨fun hk t2 ht2 => ⟨fun hk2 x c1 hx hl => ?_, fun _ _ => ⟨fun _ x c1 ts u v y c2 hy hl => ?_, fun _ x c1 ts u v y c2 hy hl => ?_⟩⟩, fun _ hl => ?_⟩
  · have h := SepOk.comma hl ht hk
    refine ⟨RdFrom.trail h (fun h => (hx h).1) ht ht2 (by rw [hk2]; decide), ?_⟩
    exact (hx (.inr ⟨by simpa using h, by rintro rfl; simp at h, t2, ht2, by rw [hk2]; decide⟩)).2
  · have h := SepOk.comma hl ht hk
    refine ⟨RdFrom.snoc (p := []) h (fun h => (hy (.inl h)).1) (.step ht (.step ht2 u)) (.tok (.node rfl (.tok v))), ?_⟩
    exact (hy (.inl (by simpa using h))).2
  · have h := SepOk.comma hl ht hk
    refine ⟨RdFrom.snoc (p := []) h (fun h => (hy (.inl h)).1) (.step ht u) (.tok v), ?_⟩
    exact (hy (.inl (by simpa using h))).2
  · exact ⟨RdFrom.fin (m := []) (by arr) (.refl _) .nil, rfl⟩

theorem rd_testlistStarExprLoop (s ns ss c) : WP ΦR (testlistStarExprLoopBody s ns ss) c (ΦR (.testlistStarExprLoop s ns ss) c) := by
  unfold testlistStarExprLoopBody
  rd_simp
  intro t ht
  refine ⟨fun hk t2 ht2 => ⟨fun hk2 x c1 hx hl => ?_, fun _ _ => ⟨fun _ x c1 ts u v y c2 hy hl => ?_, fun _ x c1 ts u v y c2 hy hl => ?_⟩⟩, fun _ => ?_⟩
  · exact RdFrom.trail (hl.comma ht hk) hx ht ht2 (by rintro h; rw [h] at hk2; exact absurd hk2 (by decide))
  · exact RdFrom.snoc (p := []) (hl.comma ht hk) (fun h => hy (.inl h)) (.step ht u) (.tok v)
  · exact RdFrom.snoc (p := []) (hl.comma ht hk) (fun h => hy (.inl h)) (.step ht u) (.tok v)
  · exact wp_mono _ (fun _ _ h _ => h) (rd_starResult _ _ _ _)

theorem rd_dictRest (s ns c) (hn : ns.length = 1) : WP ΦR (dictRest s ns) c (fun t c' => RdFrom ns c t c' ∧ t.tag? = some .DictionaryContainer) := by
  match ns, hn with
  | [n], _ =>
  unfold dictRest dictRest.fin
  rd_simp
  intro t ht
  refine ⟨fun hk t2 ht2 => ⟨fun hk2 => ?_, fun _ _ => ⟨fun _ x c1 ts u v => ?_, fun _ x c1 ts u v t3 ht3 hk3 y c2 us w z => ?_⟩⟩, fun _ => ?_⟩
  · exact ⟨RdFrom.fin (m := [.tok t]) (by arr) (.step ht (.refl _)) (.tok .nil), rfl⟩
  · exact ⟨RdFrom.fin (m := [.tok t, .node _ _ _ [.tok t2, x]]) (by arr) (.step ht (.step ht2 u)) (.tok (.node rfl (.tok v))), rfl⟩
  · exact ⟨RdFrom.fin (m := [.tok t, .node _ _ _ [x, .tok t3, y]]) (by arr) (.step ht (u.trans (.step ht3 w))) (.tok (.node (fs' := [x, .tok t3, y]) rfl (v.app (.tok z)))), rfl⟩
  · exact ⟨RdFrom.fin (m := []) (by arr) (.refl _) .nil, rfl⟩

theorem rd_dictorsetMaker (c) : WP ΦR dictorsetMakerBody c (ΦR .dictorsetMaker c) := by
  unfold dictorsetMakerBody
  rd_simp
  intro t ht
  refine ⟨fun hk x c1 ts u v y c2 hy => ?_, fun _ => ⟨fun hk x c1 ts u v => ?_, fun hk x c1 ts u v t2 ht2 => ⟨fun _ y c2 us w z => ?_, fun _ y c2 hy => ?_⟩⟩⟩
  · exact ⟨Rd.of hy.1 (.step ht u) (.node rfl (.tok v)), .inr hy.2⟩
  · refine wp_mono _ (fun y c2 hy => ?_) (rd_dictRest _ _ _ rfl)
    exact ⟨Rd.of hy.1 (.step ht u) (.node rfl (.tok v)), .inl hy.2⟩
  · refine wp_mono _ (fun y' c2 hy => ?_) (rd_dictRest _ _ _ rfl)
    exact ⟨Rd.of hy.1 (u.trans (.step ht2 w)) (.node (fs' := [x, .tok t2, y]) rfl (v.app (.tok z))), .inl hy.2⟩
  · exact ⟨Rd.of hy.1 u v, .inr hy.2⟩


theorem rd_atom (c) : WP ΦR atomBody c (ΦR .atom c) := by
  unfold atomBody
  rd_simp
  wp_paths
  all_goals try rd_close
  · rename_i hm _ _ _ _
    obtain ⟨ts, u, v⟩ := hm.1.elim
    refine Rd.mk (.step (by assumption) (u.trans (.step (by assumption) (.refl _)))) ?_
    exact .node rfl (.tok (v.app (.tok .nil)))
  · rename_i hm _ _ _ _ _
    obtain ⟨ts, u, v⟩ := hm.1.elim
    refine Rd.mk (.step (by assumption) (u.trans (.step (by assumption) (.refl _)))) ?_
    exact .node rfl (.tok (v.app (.tok .nil)))
  · rename_i hm _ _ _ h1 h2
    rcases hm.2 with h | h
    · exact absurd h h1
    · exact absurd h h2

/-! ### Parameter lists -/

theorem rd_varArgsResult (s v c) : WP ΦR (varArgsResult s v) c (RdLoose v c) := by
  unfold varArgsResult
  rd_simp
  exact RdLoose.fin (fun _ => rfl) rfl

theorem rd_varArgsPower (s v t c) (ht : c.symbol = .ok t) (a : v.powS = .none) (b : v.powN = .none) :
    WP ΦR (varArgsPower s v t) c (RdLoose v c) := by
  unfold varArgsPower
  rd_simp
  intro x c1 ts u w t2 ht2
  refine ⟨fun hk => ?_, fun hk => ?_⟩
  · refine wp_mono _ (fun y c2 hy => ?_) (rd_varArgsResult _ _ _)
    refine RdLoose.step hy (m := (.tok t :: present [x]) ++ [.tok t2])
      (fun l hl => by rw [← List.append_assoc]; exact (hl.pow a b t x).sep t2)
      (.step ht (u.trans (.step ht2 (.refl _)))) (.tok ((reads_present w).app (.tok .nil)))
  · refine wp_mono _ (fun y c2 hy => ?_) (rd_varArgsResult _ _ _)
    exact RdLoose.step hy (fun l hl => hl.pow a b t x) (.step ht u) (.tok (reads_present w))

theorem rd_varArgsMul (s v t c) (ht : c.symbol = .ok t) (a : v.mulS = .none) (b : v.mulN = .none)
    (d : v.powS = .none) (e : v.powN = .none) : WP ΦR (varArgsMul s v t) c (RdLoose v c) := by
  unfold varArgsMul
  rd_simp
  intro x c1 ts u w y c2 hy
  exact RdLoose.step (hy d e) (fun l hl => hl.mul a b t x) (.step ht u) (.tok (reads_present w))

theorem rd_varArgsStarLoop (s v c) : WP ΦR (varArgsStarLoopBody s v) c (ΦR (.varArgsStarLoop s v) c) := by
  unfold varArgsStarLoopBody
  rd_simp
  intro t ht
  refine ⟨fun hk t2 ht2 => ⟨fun hk2 => ?_, fun _ x c1 ts u w y c2 hy a b => ?_⟩, fun _ => ?_⟩
  · by_cases hn : v.powS = .none ∧ v.powN = .none
    · refine wp_mono _ (fun y c2 hy _ _ => ?_) (rd_varArgsPower _ _ _ _ ht2 hn.1 hn.2)
      exact RdLoose.step hy (fun l hl => hl.sep t) (.step ht (.refl _)) (.tok .nil)
    · exact wp_any _ fun y c2 a b => absurd ⟨a, b⟩ hn
  · exact RdLoose.step (hy a b) (m := [.tok t] ++ present [x])
      (fun l hl => by rw [← List.append_assoc]; exact (hl.sep t).node x) (.step ht u) (.tok (reads_present w))
  · exact wp_mono _ (fun y c2 hy _ _ => hy) (rd_varArgsResult _ _ _)

theorem rd_varArgsDivLoop (s v c) : WP ΦR (varArgsDivLoopBody s v) c (ΦR (.varArgsDivLoop s v) c) := by
  unfold varArgsDivLoopBody
  rd_simp
  intro t ht
  refine ⟨fun hk t2 ht2 => ⟨fun hk2 => ?_, fun _ => ⟨fun hk2 => ?_, fun _ x c1 ts u w y c2 hy a b d e => ?_⟩⟩, fun _ => ?_⟩
  · by_cases hn : v.mulS = .none ∧ v.mulN = .none ∧ v.powS = .none ∧ v.powN = .none
    · refine wp_mono _ (fun y c2 hy _ _ _ _ => ?_) (rd_varArgsMul _ _ _ _ ht2 hn.1 hn.2.1 hn.2.2.1 hn.2.2.2)
      exact RdLoose.step hy (fun l hl => hl.sep t) (.step ht (.refl _)) (.tok .nil)
    · exact wp_any _ fun y c2 a b d e => absurd ⟨a, b, d, e⟩ hn
  · by_cases hn : v.powS = .none ∧ v.powN = .none
    · refine wp_mono _ (fun y c2 hy _ _ _ _ => ?_) (rd_varArgsPower _ _ _ _ ht2 hn.1 hn.2)
      exact RdLoose.step hy (fun l hl => hl.sep t) (.step ht (.refl _)) (.tok .nil)
    · exact wp_any _ fun y c2 _ _ a b => absurd ⟨a, b⟩ hn
  · exact RdLoose.step (hy a b d e) (m := [.tok t] ++ present [x])
      (fun l hl => by rw [← List.append_assoc]; exact (hl.sep t).node x) (.step ht u) (.tok (reads_present w))
  · exact wp_mono _ (fun y c2 hy _ _ _ _ => hy) (rd_varArgsResult _ _ _)

theorem rd_varArgsMainLoop (s v c) : WP ΦR (varArgsMainLoopBody s v) c (ΦR (.varArgsMainLoop s v) c) := by
  unfold varArgsMainLoopBody
  rd_simp
  intro t ht
  refine ⟨fun hk t2 ht2 => ⟨fun hk2 y c2 hy a b d e f => ?_, fun _ => ⟨fun hk2 => ?_, fun _ => ⟨fun hk2 => ?_, fun _ x c1 ts u w y c2 hy a b d e f => ?_⟩⟩⟩, fun _ => ?_⟩
  · exact RdLoose.step (hy a b d e) (m := [.tok t, .tok t2])
      (fun l hl => by
        have := (hl.sep t).setDiv f t2
        rwa [List.append_assoc] at this) (.step ht (.step ht2 (.refl _))) (.tok (.tok .nil))
  · by_cases hn : v.mulS = .none ∧ v.mulN = .none ∧ v.powS = .none ∧ v.powN = .none
    · refine wp_mono _ (fun y c2 hy _ _ _ _ _ => ?_) (rd_varArgsMul _ _ _ _ ht2 hn.1 hn.2.1 hn.2.2.1 hn.2.2.2)
      exact RdLoose.step hy (fun l hl => hl.sep t) (.step ht (.refl _)) (.tok .nil)
    · exact wp_any _ fun y c2 a b d e _ => absurd ⟨a, b, d, e⟩ hn
  · by_cases hn : v.powS = .none ∧ v.powN = .none
    · refine wp_mono _ (fun y c2 hy _ _ _ _ _ => ?_) (rd_varArgsPower _ _ _ _ ht2 hn.1 hn.2)
      exact RdLoose.step hy (fun l hl => hl.sep t) (.step ht (.refl _)) (.tok .nil)
    · exact wp_any _ fun y c2 _ _ a b _ => absurd ⟨a, b⟩ hn
  · exact RdLoose.step (hy a b d e f) (m := [.tok t] ++ present [x])
      (fun l hl => by rw [← List.append_assoc]; exact (hl.sep t).node x) (.step ht u) (.tok (reads_present w))
  · exact wp_mono _ (fun y c2 hy _ _ _ _ _ => hy) (rd_varArgsResult _ _ _)

theorem rd_varArgsList (c) : WP ΦR varArgsListBody c (ΦR .varArgsList c) := by
  unfold varArgsListBody
  rd_simp
  intro t ht
  refine ⟨fun hk => ?_, fun _ => ⟨fun hk => ?_, fun _ x c1 ts u w y c2 hy => ?_⟩⟩
  · exact wp_mono _ (fun y c2 hy => Rd.ofLoose hy holds_nil (.refl _) .nil) (rd_varArgsMul _ _ _ _ ht rfl rfl rfl rfl)
  · exact wp_mono _ (fun y c2 hy => Rd.ofLoose hy holds_nil (.refl _) .nil) (rd_varArgsPower _ _ _ _ ht rfl rfl)
  · exact Rd.ofLoose hy (holds_nil.node x) u (reads_present w)

/-! ### The functions without loops -/

theorem rd_lambdaDef (b c) : WP ΦR (lambdaDefBody b) c (ΦR (.lambdaDef b) c) := by
  unfold lambdaDefBody; rd_simp; wp_paths <;> rd_close
theorem rd_atomExpr (c) : WP ΦR atomExprBody c (ΦR .atomExpr c) := by
  unfold atomExprBody; rd_simp; try (wp_paths <;> rd_close)
theorem rd_power (c) : WP ΦR powerBody c (ΦR .power c) := by
  unfold powerBody; rd_simp; try (wp_paths <;> rd_close)
theorem rd_factor (c) : WP ΦR factorBody c (ΦR .factor c) := by
  unfold factorBody; rd_simp; try (wp_paths <;> rd_close)
theorem rd_term (c) : WP ΦR termBody c (ΦR .term c) := by
  unfold termBody; rd_simp; try (wp_paths <;> rd_close)
theorem rd_arith (c) : WP ΦR arithBody c (ΦR .arith c) := by
  unfold arithBody; rd_simp; try (wp_paths <;> rd_close)
theorem rd_shift (c) : WP ΦR shiftBody c (ΦR .shift c) := by
  unfold shiftBody; rd_simp; try (wp_paths <;> rd_close)
theorem rd_andExpr (c) : WP ΦR andExprBody c (ΦR .andExpr c) := by
  unfold andExprBody; rd_simp; try (wp_paths <;> rd_close)
theorem rd_xorExpr (c) : WP ΦR xorExprBody c (ΦR .xorExpr c) := by
  unfold xorExprBody; rd_simp; try (wp_paths <;> rd_close)
theorem rd_expr (c) : WP ΦR exprBody c (ΦR .expr c) := by
  unfold exprBody; rd_simp; try (wp_paths <;> rd_close)
theorem rd_starExpr (c) : WP ΦR starExprBody c (ΦR .starExpr c) := by
  unfold starExprBody; rd_simp; try (wp_paths <;> rd_close)
theorem rd_comparison (c) : WP ΦR comparisonBody c (ΦR .comparison c) := by
  unfold comparisonBody; rd_simp; try (wp_paths <;> rd_close)
theorem rd_notTest (c) : WP ΦR notTestBody c (ΦR .notTest c) := by
  unfold notTestBody; rd_simp; try (wp_paths <;> rd_close)
theorem rd_andTest (c) : WP ΦR andTestBody c (ΦR .andTest c) := by
  unfold andTestBody; rd_simp; try (wp_paths <;> rd_close)
theorem rd_orTest (c) : WP ΦR orTestBody c (ΦR .orTest c) := by
  unfold orTestBody; rd_simp; try (wp_paths <;> rd_close)
theorem rd_noCondTest (c) : WP ΦR noCondTestBody c (ΦR .noCondTest c) := by
  unfold noCondTestBody; rd_simp; try (wp_paths <;> rd_close)
theorem rd_test (c) : WP ΦR testBody c (ΦR .test c) := by
  unfold testBody; rd_simp; try (wp_paths <;> rd_close)
theorem rd_namedExpression (c) : WP ΦR namedExpressionBody c (ΦR .namedExpression c) := by
  unfold namedExpressionBody; rd_simp; try (wp_paths <;> rd_close)
theorem rd_testlistComp (c) : WP ΦR testlistCompBody c (ΦR .testlistComp c) := by
  unfold testlistCompBody; rd_simp [starOrNamed]; try (wp_paths <;> rd_close)
theorem rd_trailer (c) : WP ΦR trailerBody c (ΦR .trailer c) := by
  unfold trailerBody; rd_simp; try (wp_paths <;> rd_close)
theorem rd_subscriptList (c) : WP ΦR subscriptListBody c (ΦR .subscriptList c) := by
  unfold subscriptListBody; rd_simp; try (wp_paths <;> rd_close)
theorem rd_subscript (c) : WP ΦR subscriptBody c (ΦR .subscript c) := by
  unfold subscriptBody; rd_simp; try (wp_paths <;> rd_close)
theorem rd_exprlist (c) : WP ΦR exprlistBody c (ΦR .exprlist c) := by
  unfold exprlistBody; rd_simp [starOrNamed]; try (wp_paths <;> rd_close)
theorem rd_testlist (c) : WP ΦR testlistBody c (ΦR .testlist c) := by
  unfold testlistBody; rd_simp; try (wp_paths <;> rd_close)
theorem rd_arglist (c) : WP ΦR arglistBody c (ΦR .arglist c) := by
  unfold arglistBody; rd_simp; try (wp_paths <;> rd_close)
theorem rd_argument (c) : WP ΦR argumentBody c (ΦR .argument c) := by
  unfold argumentBody; rd_simp; try (wp_paths <;> rd_close)
theorem rd_compIter (c) : WP ΦR compIterBody c (ΦR .compIter c) := by
  unfold compIterBody; rd_simp; try (wp_paths <;> rd_close)
theorem rd_syncCompFor (c) : WP ΦR syncCompForBody c (ΦR .syncCompFor c) := by
  unfold syncCompForBody; rd_simp; try (wp_paths <;> rd_close)
theorem rd_compFor (c) : WP ΦR compForBody c (ΦR .compFor c) := by
  unfold compForBody; rd_simp; try (wp_paths <;> rd_close)
theorem rd_compIf (c) : WP ΦR compIfBody c (ΦR .compIf c) := by
  unfold compIfBody; rd_simp; try (wp_paths <;> rd_close)
theorem rd_yieldExpr (c) : WP ΦR yieldExprBody c (ΦR .yieldExpr c) := by
  unfold yieldExprBody; rd_simp; try (wp_paths <;> rd_close)
theorem rd_testlistStarExpr (c) : WP ΦR testlistStarExprBody c (ΦR .testlistStarExpr c) := by
  unfold testlistStarExprBody; rd_simp; try (wp_paths <;> rd_close)
theorem rd_varArgsAssignments (c) : WP ΦR varArgsAssignmentsBody c (ΦR .varArgsAssignments c) := by
  unfold varArgsAssignmentsBody; rd_simp; try (wp_paths <;> rd_close)
theorem rd_vfpDef (c) : WP ΦR vfpDefBody c (ΦR .vfpDef c) := by
  unfold vfpDefBody; rd_simp; try (wp_paths <;> rd_close)

end

end Verif
