import Verif.Spec.View
import Verif.Spec.Parse
import Verif.Proof.TermAll
import Verif.Proof.Reads

/-!
# A parse depends only on the symbols it looks at
-/

namespace Verif
section
variable [Uni]

theorem ahead_exc (k : Nat) (c : PSt) (x) : PSt.ahead k { c with exc := x } = { PSt.ahead k c with exc := x } := by
  induction k generalizing c with
  | zero => rfl
  | succ k ih =>
    simp only [PSt.ahead]
    rw [← ih]
    congr 1
    unfold PSt.advance
    cases getSymbol c.lex <;> rfl

theorem SameView.mono {k m c d} (h : SameView k c d) (hm : m ≤ k) : SameView m c d :=
  ⟨h.1, fun i hi => h.2 i (by omega)⟩

theorem exc_advance (c : PSt) : c.advance.exc = c.exc := by
  unfold PSt.advance; cases getSymbol c.lex <;> rfl

theorem SameView.adv {k c d} (h : SameView (k + 1) c d) : SameView k c.advance d.advance :=
  ⟨by rw [exc_advance, exc_advance]; exact h.1, fun i hi => h.2 (i + 1) (by omega)⟩

theorem SameView.setExc {k c d} (h : SameView k c d) (x) : SameView k { c with exc := x } { d with exc := x } :=
  ⟨rfl, fun i hi => by
    have h1 := ahead_exc i c x
    have h2 := ahead_exc i d x
    have h3 := h.2 i hi
    rw [h1, h2]; exact h3⟩

/-- Outcomes that look the same: the same tree and then the same symbols, or the same error. -/
def SameOutcome {α} (k : Nat) : Res α → Res α → Prop
  | .ok a c, .ok b d => a = b ∧ SameView k c d
  | .err p m, .err q m' => p = q ∧ m = m'
  | .panic, .panic => True
  | _, _ => False

/-- `Local r r' k`… after `k` symbols: whatever follows, the outcome is the same. -/
def Local {α} (r : PSt → Res α) (c : PSt) : Prop :=
  r c ≠ .diverge → ∃ k, ∀ m d, SameView (k + m) c d → SameOutcome m (r c) (r d)

theorem exec_local {α} {rec : Fn → PSt → Res Tree} (hrec : ∀ f c, Local (rec f) c) (p : Prog α) (c : PSt) :
    Local (p.exec rec) c := by
  induction p generalizing c with
  | ret a => exact fun _ => ⟨0, fun m d h => ⟨rfl, by simpa using h⟩⟩
  | fail p m => exact fun _ => ⟨0, fun m d h => ⟨rfl, rfl⟩⟩
  | panic => exact fun _ => ⟨0, fun m d h => trivial⟩
  | getPos k ih =>
    intro hd
    obtain ⟨j, hj⟩ := ih _ c hd
    refine ⟨j, fun m d h => ?_⟩
    have := hj m d h
    simp only [Prog.exec]
    rw [show d.lex.tokStart = c.lex.tokStart from (h.2 0 (by omega)).1.symm]
    exact this
  | sym k e ih1 ih2 =>
    intro hd
    simp only [Prog.exec] at hd
    cases hs : c.symbol with
    | ok t =>
      rw [hs] at hd
      obtain ⟨j, hj⟩ := ih1 t c hd
      refine ⟨j, fun m d h => ?_⟩
      have hv := (h.2 0 (by omega)).2
      simp only [PSt.ahead, hs] at hv
      cases hds : d.symbol with
      | error x => rw [hds] at hv; exact hv.elim
      | ok u => rw [hds] at hv; subst hv; simp only [Prog.exec, hs, hds]; exact hj m d h
    | error x =>
      rw [hs] at hd
      obtain ⟨j, hj⟩ := ih2 c hd
      refine ⟨j, fun m d h => ?_⟩
      have hv := (h.2 0 (by omega)).2
      simp only [PSt.ahead, hs] at hv
      cases hds : d.symbol with
      | ok u => rw [hds] at hv; exact hv.elim
      | error y => simp only [Prog.exec, hs, hds]; exact hj m d h
  | adv k ih =>
    intro hd
    obtain ⟨j, hj⟩ := ih c.advance hd
    exact ⟨j + 1, fun m d h => hj m d.advance (SameView.adv (h.mono (by omega)))⟩
  | call f k ih =>
    intro hd
    simp only [Prog.exec] at hd
    cases hf : rec f c with
    | ok t c1 =>
      rw [hf] at hd
      obtain ⟨i, hi⟩ := hrec f c (by rw [hf]; simp)
      obtain ⟨j, hj⟩ := ih t c1 hd
      refine ⟨i + j, fun m d h => ?_⟩
      have h1 := hi (j + m) d (h.mono (by omega))
      rw [hf] at h1
      simp only [Prog.exec, hf]
      cases hfd : rec f d with
      | ok t' d1 => rw [hfd] at h1; obtain ⟨rfl, h2⟩ := h1; exact hj m d1 h2
      | _ => rw [hfd] at h1; exact h1.elim
    | err p q =>
      obtain ⟨i, hi⟩ := hrec f c (by rw [hf]; simp)
      refine ⟨i, fun m d h => ?_⟩
      have h1 := hi m d h
      rw [hf] at h1
      simp only [Prog.exec, hf]
      cases hfd : rec f d with
      | err p' q' => rw [hfd] at h1; exact h1
      | _ => rw [hfd] at h1; exact h1.elim
    | panic =>
      obtain ⟨i, hi⟩ := hrec f c (by rw [hf]; simp)
      refine ⟨i, fun m d h => ?_⟩
      have h1 := hi m d h
      rw [hf] at h1
      simp only [Prog.exec, hf]
      cases hfd : rec f d with
      | panic => trivial
      | _ => rw [hfd] at h1; exact h1.elim
    | diverge => rw [hf] at hd; exact absurd rfl hd
  | getExc k ih =>
    intro hd
    obtain ⟨j, hj⟩ := ih _ c hd
    refine ⟨j, fun m d h => ?_⟩
    simp only [Prog.exec]
    rw [← h.1]
    exact hj m d h
  | setExc x k ih =>
    intro hd
    obtain ⟨j, hj⟩ := ih _ hd
    exact ⟨j, fun m d h => hj m _ (h.setExc x)⟩

theorem run_local (n : Nat) (f : Fn) (c : PSt) : Local (run n f) c := by
  induction n generalizing f c with
  | zero => exact fun h => absurd rfl h
  | succ n ih => exact exec_local ih (body f) c

/-- A successful run that consumes `ts`: the same for every state that sees `ts` and the same symbol after it. -/
def LocalOk {α} (r : PSt → Res α) (c : PSt) (a : α) (c' : PSt) : Prop :=
  ∃ ts, Consumed c ts c' ∧ ∀ m d, SameView (ts.length + m) c d → ∃ d', r d = .ok a d' ∧ Consumed d ts d' ∧ SameView m c' d'

theorem SameView.symbol {k c d t} (h : SameView k c d) (hs : c.symbol = .ok t) : d.symbol = .ok t := by
  have hv := (h.2 0 (by omega)).2
  simp only [PSt.ahead, hs] at hv
  cases hds : d.symbol with
  | error x => rw [hds] at hv; exact hv.elim
  | ok u => rw [hds] at hv; rw [hv]

theorem SameView.noSymbol {k c d x} (h : SameView k c d) (hs : c.symbol = .error x) : ∃ y, d.symbol = .error y := by
  have hv := (h.2 0 (by omega)).2
  simp only [PSt.ahead, hs] at hv
  cases hds : d.symbol with
  | error x => exact ⟨x, rfl⟩
  | ok u => rw [hds] at hv; exact hv.elim

theorem twp_local {α} {src B} {rec : Fn → PSt → Res Tree}
    (hrec : ∀ f c t d, f.input = false → Good src c → rec f c = .ok t d → Good src d ∧ d.left + f.step ≤ c.left)
    (hloc : ∀ f c t d, f.input = false → Good src c → rec f c = .ok t d → LocalOk (rec f) c t d)
    (p : Prog α) (c : PSt) (hc : Good src c) (Q : α → PSt → Prop) (h : TWP src B p c Q) (a : α) (c' : PSt)
    (hr : p.exec rec c = .ok a c') : LocalOk (p.exec rec) c a c' := by
  induction p generalizing c with
  | ret b =>
    simp only [Prog.exec, Res.ok.injEq] at hr; obtain ⟨rfl, rfl⟩ := hr
    exact ⟨[], .refl _, fun m d hv => ⟨d, rfl, .refl _, by simpa using hv⟩⟩
  | fail => simp [Prog.exec] at hr
  | panic => simp [Prog.exec] at hr
  | getPos k ih =>
    obtain ⟨ts, h1, h2⟩ := ih _ _ hc (h _) hr
    refine ⟨ts, h1, fun m d hv => ?_⟩
    simp only [Prog.exec]
    rw [show d.lex.tokStart = c.lex.tokStart from (hv.2 0 (by omega)).1.symm]
    exact h2 m d hv
  | sym k e ih1 ih2 =>
    simp only [Prog.exec] at hr
    cases hs : c.symbol with
    | ok t =>
      rw [hs] at hr
      obtain ⟨ts, h1, h2⟩ := ih1 _ _ hc (h.1 t hs) hr
      refine ⟨ts, h1, fun m d hv => ?_⟩
      simp only [Prog.exec, hv.symbol hs]
      exact h2 m d hv
    | error x =>
      rw [hs] at hr
      obtain ⟨ts, h1, h2⟩ := ih2 _ hc (h.2 x hs) hr
      refine ⟨ts, h1, fun m d hv => ?_⟩
      obtain ⟨y, hy⟩ := hv.noSymbol hs
      simp only [Prog.exec, hy]
      exact h2 m d hv
  | adv k ih =>
    obtain ⟨t, ht, h⟩ := h
    obtain ⟨ts, h1, h2⟩ := ih _ hc.advance (h _ hc.advance (hc.advance_le ht) (advance_left hc.inv t ht)) hr
    refine ⟨t :: ts, .step ht h1, fun m d hv => ?_⟩
    obtain ⟨d', h3, h4, h5⟩ := h2 m d.advance (SameView.adv (hv.mono (by simp only [List.length_cons]; omega)))
    exact ⟨d', h3, .step (hv.symbol ht) h4, h5⟩
  | call f k ih =>
    simp only [Prog.exec] at hr
    cases hf : rec f c with
    | ok t c1 =>
      rw [hf] at hr
      have hi : f.input = false := by
        rcases h.1 with h | ⟨rfl, -⟩
        · exact h.1
        · rfl
      obtain ⟨h1, h2⟩ := hrec _ _ _ _ hi hc hf
      obtain ⟨ts, e1, e2⟩ := hloc _ _ _ _ hi hc hf
      obtain ⟨us, e3, e4⟩ := ih _ _ h1 (h.2 t c1 h1 h2) hr
      refine ⟨ts ++ us, e1.trans e3, fun m d hv => ?_⟩
      obtain ⟨d1, e5, e6, e7⟩ := e2 (us.length + m) d (hv.mono (by simp only [List.length_append]; omega))
      obtain ⟨d2, e8, e9, e10⟩ := e4 m d1 e7
      refine ⟨d2, ?_, e6.trans e9, e10⟩
      simp only [Prog.exec, e5]
      exact e8
    | err => rw [hf] at hr; simp at hr
    | panic => rw [hf] at hr; simp at hr
    | diverge => rw [hf] at hr; simp at hr
  | getExc k ih =>
    obtain ⟨ts, h1, h2⟩ := ih _ _ hc (h _) hr
    refine ⟨ts, h1, fun m d hv => ?_⟩
    simp only [Prog.exec]
    rw [← hv.1]
    exact h2 m d hv
  | setExc x k ih =>
    obtain ⟨ts, h1, h2⟩ := ih _ (hc.exc x) (h _ (hc.exc x) rfl rfl) hr
    refine ⟨ts, h1.exc, fun m d hv => ?_⟩
    obtain ⟨d', h3, h4, h5⟩ := h2 m _ (hv.setExc x)
    exact ⟨d', h3, h4.exc, h5⟩

theorem run_localOk {src} (n f c t d) (hf : f.input = false) (hc : Good src c) (hr : run n f c = .ok t d) :
    LocalOk (run n f) c t d := by
  induction n generalizing f c t d with
  | zero => simp [run] at hr
  | succ n ih =>
    exact twp_local (tok_run (t_all src) n) (fun f c t d hf hc hr => ih f c t d hf hc hr) (body f) c hc _ (t_all src f hf c hc) t d hr

end
end Verif
