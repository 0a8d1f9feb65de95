import Verif.Spec.Lookahead
import Verif.Proof.AlikeAll
import Verif.Props.ErrorPos

/-!
# A parse looks at no symbol behind the one at which it stops
-/

namespace Verif
variable {e : Token → Token}
section
variable [Uni]

/-- `ResUpTo` for bodies. -/
def OutUpTo (e : Token → Token) {α : Type} [Lk e α] (k : Nat) (d : PSt) : Res α → Res α → Prop
  | .ok a c', .ok b d' => Lk.rel e a b ∧ d' = { d.ahead k with exc := c'.exc }
  | .err _ m, .err _ m' => m = m'
  | .panic, .panic => True
  | .diverge, .diverge => True
  | _, _ => False

theorem ViewUpTo.advance {k} {c d : PSt} (h : ViewUpTo e (k + 1) c d) : ViewUpTo e k c.advance d.advance :=
  ⟨by rw [advance_exc_eq, advance_exc_eq]; exact h.1, fun i hi => h.2 (i + 1) (by omega)⟩

theorem ViewUpTo.exc {k} {c d : PSt} (h : ViewUpTo e k c d) (x : ExcStatus) :
    ViewUpTo e k { c with exc := x } { d with exc := x } := by
  refine ⟨rfl, fun i hi => ?_⟩
  rw [ahead_exc i c x, ahead_exc i d x]
  exact h.2 i hi

theorem ViewUpTo.mono {k m} {c d : PSt} (h : ViewUpTo e k c d) (hm : m ≤ k) : ViewUpTo e m c d :=
  ⟨h.1, fun i hi => h.2 i (by omega)⟩

theorem ViewUpTo.skip {j k} {c d : PSt} (h : ViewUpTo e (j + k) c d) (x : ExcStatus) :
    ViewUpTo e k { c.ahead j with exc := x } { d.ahead j with exc := x } := by
  refine ⟨rfl, fun i hi => ?_⟩
  rw [ahead_exc i _ x, ahead_exc i _ x, ← ahead_plus, ← ahead_plus]
  exact h.2 (j + i) (by omega)

/-- A body stops `k` symbols further on, and does the same on all symbols that are alike up to there. -/
def Looks (e : Token → Token) {α : Type} [Lk e α] (r : Fn → PSt → Res Tree) (s : Fn → PSt → PSt) (p : Prog α) (c : PSt) : Prop :=
  ∃ k, Ahead k c (p.stop r s c) ∧ ∀ q, RelP e p q → ∀ d, ViewUpTo e k c d → OutUpTo e k d (p.exec r c) (q.exec r d)

theorem Ahead.zero (c : PSt) : Ahead 0 c c := ⟨c.exc, rfl⟩
theorem Ahead.trans {j k} {a b c : PSt} (h1 : Ahead j a b) (h2 : Ahead k b c) : Ahead (j + k) a c := by
  obtain ⟨x, rfl⟩ := h1
  obtain ⟨y, rfl⟩ := h2
  exact ⟨y, by rw [ahead_exc, ahead_plus]⟩

theorem looks_exec {α : Type} [Lk e α] {r : Fn → PSt → Res Tree} {s : Fn → PSt → PSt}
    (hr : ∀ f c, ∃ k, Ahead k c (s f c) ∧ (∀ t c', r f c = .ok t c' → c' = s f c) ∧
      ∀ g, Fn.Like e f g → ∀ d, ViewUpTo e k c d → OutUpTo e k d (r f c) (r g d)) (p : Prog α) : ∀ c, Looks e r s p c := by
  induction p with
  | ret a =>
    intro c
    refine ⟨0, .zero c, fun q h d hv => ?_⟩
    cases q with
    | ret b => exact ⟨h, by show d = { d with exc := c.exc }; rw [hv.1]⟩
    | _ => exact h.elim
  | fail =>
    intro c
    refine ⟨0, .zero c, fun q h d hv => ?_⟩
    cases q <;> first | exact h | exact h.elim
  | panic =>
    intro c
    refine ⟨0, .zero c, fun q h d hv => ?_⟩
    cases q <;> first | exact h | exact h.elim
  | getPos k ih =>
    intro c
    obtain ⟨j, h1, h2⟩ := ih c.lex.tokStart c
    refine ⟨j, h1, fun q h d hv => ?_⟩
    cases q <;> first | exact h2 _ (h _ _) d hv | exact h.elim
  | getExc k ih =>
    intro c
    obtain ⟨j, h1, h2⟩ := ih c.exc c
    refine ⟨j, h1, fun q h d hv => ?_⟩
    cases q with
    | getExc l => simp only [Prog.exec]; rw [← hv.1]; exact h2 _ (h _) d hv
    | _ => exact h.elim
  | setExc x k ih =>
    intro c
    obtain ⟨j, ⟨y, h1⟩, h2⟩ := ih { c with exc := x }
    refine ⟨j, ⟨y, by simp only [Prog.stop]; rw [h1, ahead_exc]⟩, fun q h d hv => ?_⟩
    cases q with
    | setExc y l =>
      obtain ⟨rfl, h⟩ := h
      have := h2 _ h _ (hv.exc x)
      simp only [Prog.exec]
      revert this
      cases k.exec r { c with exc := x } <;> cases l.exec r { d with exc := x } <;> intro h
      · refine ⟨h.1, h.2.trans ?_⟩
        rw [ahead_exc]
      all_goals exact h
    | _ => exact h.elim
  | adv k ih =>
    intro c
    obtain ⟨j, ⟨y, h1⟩, h2⟩ := ih c.advance
    refine ⟨j + 1, ⟨y, h1⟩, fun q h d hv => ?_⟩
    cases q <;> first | exact h2 _ h _ hv.advance | exact h.elim
  | sym k x ih1 ih2 =>
    intro c
    cases hc : c.symbol with
    | ok t =>
      obtain ⟨j, h1, h2⟩ := ih1 t c
      refine ⟨j, by simpa only [Prog.stop, hc] using h1, fun q h d hv => ?_⟩
      cases q with
      | sym l y =>
        have h0 := hv.2 0 (Nat.zero_le _)
        simp only [PSt.ahead, SymLike] at h0
        simp only [Prog.exec]
        cases hd : d.symbol <;> simp only [hc, hd] at h0 ⊢
        exact h2 _ (h.1 _ _ h0) d hv
      | _ => exact h.elim
    | error z =>
      obtain ⟨j, h1, h2⟩ := ih2 c
      refine ⟨j, by simpa only [Prog.stop, hc] using h1, fun q h d hv => ?_⟩
      cases q with
      | sym l y =>
        have h0 := hv.2 0 (Nat.zero_le _)
        simp only [PSt.ahead, SymLike] at h0
        simp only [Prog.exec]
        cases hd : d.symbol <;> simp only [hc, hd] at h0 ⊢
        exact h2 _ h.2 d hv
      | _ => exact h.elim
  | call f k ih =>
    intro c
    obtain ⟨j, h1, h2, h3⟩ := hr f c
    cases hc : r f c with
    | ok t c1 =>
      obtain ⟨i, g1, g2⟩ := ih t c1
      have e1 := h2 t c1 hc
      refine ⟨j + i, by simpa only [Prog.stop, hc] using (e1 ▸ h1).trans g1, fun q h d hv => ?_⟩
      cases q with
      | call g l =>
        have h0 := h3 g h.1 d (hv.mono (Nat.le_add_right j i))
        simp only [Prog.exec]
        cases hd : r g d <;> simp only [hc, hd, OutUpTo] at h0 ⊢
        rename_i u d1
        obtain ⟨h4, rfl⟩ := h0
        obtain ⟨x, hx⟩ := e1 ▸ h1
        have hv' : ViewUpTo e i c1 { d.ahead j with exc := c1.exc } := by
          have := hv.skip x
          rw [← hx] at this
          rw [hx]
          exact hv.skip x
        have := g2 _ (h.2 _ _ h4) _ hv'
        revert this
        cases (k t).exec r c1 <;> cases (l u).exec r { d.ahead j with exc := c1.exc } <;> intro h
        · refine ⟨h.1, h.2.trans ?_⟩
          rw [ahead_exc, ahead_plus]
        all_goals exact h
      | _ => exact h.elim
    | _ =>
      refine ⟨j, by simpa only [Prog.stop, hc] using h1, fun q h d hv => ?_⟩
      cases q with
      | call g l =>
        have h0 := h3 g h.1 d hv
        simp only [Prog.exec]
        cases hd : r g d <;> simp only [hc, hd, OutUpTo] at h0 ⊢
        try exact h0
      | _ => exact h.elim

theorem looks_run [Keeps e] : ∀ n f c, ∃ k, Ahead k c (runStop n f c) ∧ (∀ t c', run n f c = .ok t c' → c' = runStop n f c) ∧
    ∀ g, Fn.Like e f g → ∀ d, ViewUpTo e k c d → OutUpTo e k d (run n f c) (run n g d)
  | 0, f, c => ⟨0, .zero c, fun _ _ h => (by cases h), fun _ _ _ _ => trivial⟩
  | n + 1, f, c => by
    obtain ⟨k, h1, h2⟩ := looks_exec (e := e) (looks_run n) (body f) c
    exact ⟨k, h1, (later_run (n + 1) f c).2, fun g hg d hv => h2 _ (al_body hg) d hv⟩

end
end Verif
