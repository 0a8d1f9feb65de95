import Verif.Model.Run

/-!
# Reasoning about successful runs of parse functions

`WP Φ p c Q`: if the body `p`, started in state `c`, succeeds, and all calls in it satisfy `Φ`, then
its result and final state satisfy `Q`.
-/

namespace Verif

def WP [Uni] {α : Type} (Φ : Fn → PSt → Tree → PSt → Prop) : Prog α → PSt → (α → PSt → Prop) → Prop
  | .ret a, c, Q => Q a c
  | .fail .., _, _ => True
  | .panic, _, _ => True
  | .getPos k, c, Q => WP Φ (k c.lex.tokStart) c Q
  | .sym k e, c, Q => (∀ t, c.symbol = .ok t → WP Φ (k t) c Q) ∧ (∀ x, c.symbol = .error x → WP Φ e c Q)
  | .adv k, c, Q => WP Φ k c.advance Q
  | .call f k, c, Q => ∀ t c1, Φ f c t c1 → WP Φ (k t) c1 Q
  | .getExc k, c, Q => WP Φ (k c.exc) c Q
  | .setExc x k, c, Q => WP Φ k { c with exc := x } Q

section
variable [Uni] {α β : Type} {Φ : Fn → PSt → Tree → PSt → Prop}

theorem wp_sound {rec : Fn → PSt → Res Tree} (hrec : ∀ f c t c', rec f c = .ok t c' → Φ f c t c')
    (p : Prog α) (c : PSt) (Q : α → PSt → Prop) (h : WP Φ p c Q) (a : α) (c' : PSt)
    (hr : p.exec rec c = .ok a c') : Q a c' := by
  induction p generalizing c with
  | ret a => simp only [Prog.exec, Res.ok.injEq] at hr; obtain ⟨rfl, rfl⟩ := hr; exact h
  | fail => simp [Prog.exec] at hr
  | panic => simp [Prog.exec] at hr
  | getPos k ih => exact ih _ _ h hr
  | sym k e ih1 ih2 =>
    simp only [Prog.exec] at hr
    cases hs : c.symbol with
    | ok t => rw [hs] at hr; exact ih1 _ _ (h.1 t hs) hr
    | error x => rw [hs] at hr; exact ih2 _ (h.2 x hs) hr
  | adv k ih => exact ih _ h hr
  | call f k ih =>
    simp only [Prog.exec] at hr
    cases hf : rec f c with
    | ok t c1 => rw [hf] at hr; exact ih _ _ (h t c1 (hrec _ _ _ _ hf)) hr
    | err => rw [hf] at hr; simp at hr
    | panic => rw [hf] at hr; simp at hr
    | diverge => rw [hf] at hr; simp at hr
  | getExc k ih => exact ih _ _ h hr
  | setExc x k ih => exact ih _ h hr

/-- The induction principle: an invariant of the bodies holds for all successful runs. -/
theorem run_sound (h : ∀ f c, WP Φ (body f) c (Φ f c)) (n : Nat) (f : Fn) (c : PSt) (t : Tree) (c' : PSt)
    (hr : run n f c = .ok t c') : Φ f c t c' := by
  induction n generalizing f c t c' with
  | zero => simp [run] at hr
  | succ n ih => exact wp_sound ih (body f) c _ (h f c) t c' hr

theorem wp_mono (p : Prog α) {c : PSt} {Q Q' : α → PSt → Prop} (h : ∀ a c', Q a c' → Q' a c')
    (hp : WP Φ p c Q) : WP Φ p c Q' := by
  induction p generalizing c with
  | ret a => exact h _ _ hp
  | fail | panic => trivial
  | getPos k ih | getExc k ih => exact ih _ hp
  | adv k ih | setExc x k ih => exact ih hp
  | sym k e ih1 ih2 => exact ⟨fun t ht => ih1 t (hp.1 t ht), fun x hx => ih2 (hp.2 x hx)⟩
  | call f k ih => exact fun t c1 hf => ih t (hp t c1 hf)

theorem wp_any (p : Prog α) {c : PSt} {Q : α → PSt → Prop} (h : ∀ a c', Q a c') : WP Φ p c Q := by
  induction p generalizing c with
  | ret a => exact h _ _
  | fail | panic => trivial
  | getPos k ih | getExc k ih => exact ih _
  | adv k ih | setExc x k ih => exact ih
  | sym k e ih1 ih2 => exact ⟨fun t _ => ih1 t, fun _ _ => ih2⟩
  | call f k ih => exact fun t c1 _ => ih t

@[simp] theorem wp_bind (p : Prog α) (k : α → Prog β) (c Q) :
    WP Φ (p >>= k) c Q = WP Φ p c (fun a c' => WP Φ (k a) c' Q) := by
  show WP Φ (p.bind k) c Q = _
  induction p generalizing c with
  | ret | fail | panic => rfl
  | getPos k ih | adv k ih | getExc k ih | setExc x k ih => simp only [Prog.bind, WP, ih]
  | sym k e ih1 ih2 => simp only [Prog.bind, WP, ih1, ih2]
  | call f k ih => simp only [Prog.bind, WP, ih]

@[simp] theorem wp_pure (a : α) (c Q) : WP Φ (pure a : Prog α) c Q = Q a c := rfl
@[simp] theorem wp_ret (a : α) (c Q) : WP Φ (.ret a) c Q = Q a c := rfl
@[simp] theorem wp_fail (p m c Q) : WP Φ (.fail p m : Prog α) c Q = True := rfl
@[simp] theorem wp_panic (c Q) : WP Φ (.panic : Prog α) c Q = True := rfl
@[simp] theorem wp_failHere (m c Q) : WP Φ (Prog.failHere m : Prog α) c Q = True := rfl
@[simp] theorem wp_here (c Q) : WP Φ Prog.here c Q = Q c.lex.tokStart c := rfl
@[simp] theorem wp_next (c Q) : WP Φ Prog.next c Q = Q () c.advance := rfl
@[simp] theorem wp_parse (f c Q) : WP Φ (Prog.parse f) c Q = ∀ t c1, Φ f c t c1 → Q t c1 := rfl
@[simp] theorem wp_symAt (p m c Q) :
    WP Φ (Prog.symAt p m) c Q = ∀ t, c.symbol = .ok t → Q t c := by
  simp [Prog.symAt, WP]
@[simp] theorem wp_symHere (m c Q) :
    WP Φ (Prog.symHere m) c Q = ∀ t, c.symbol = .ok t → Q t c := by
  simp [Prog.symHere, Prog.failHere, WP]
@[simp] theorem wp_sym? (c Q) :
    WP Φ Prog.sym? c Q = ((∀ t, c.symbol = .ok t → Q (some t) c) ∧ ∀ x, c.symbol = .error x → Q none c) := by
  simp [Prog.sym?, WP]
@[simp] theorem wp_mk (tag s l c Q) : WP Φ (Prog.mk tag s l) c Q = Q (.node tag s c.lex.tokStart l) c := rfl
@[simp] theorem wp_getExc (k : ExcStatus → Prog α) (c Q) : WP Φ (.getExc k) c Q = WP Φ (k c.exc) c Q := rfl
@[simp] theorem wp_setExc (x) (k : Prog α) (c Q) :
    WP Φ (.setExc x k) c Q = WP Φ k { c with exc := x } Q := rfl
@[simp] theorem wp_ite (b : Prop) [Decidable b] (p q : Prog α) (c Q) :
    WP Φ (if b then p else q) c Q = ((b → WP Φ p c Q) ∧ (¬ b → WP Φ q c Q)) := by
  by_cases h : b <;> simp [h]

end

end Verif
