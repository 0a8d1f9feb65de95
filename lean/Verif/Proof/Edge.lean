import Verif.Proof.ExcFree
import Verif.Proof.ExactSoundStmt3
import Verif.Proof.ExactDer

/-!
# A statement does not depend on what follows it

Two parsers that see the same symbols up to the end of a block of statements; then the first is at the end of the text
while the second sees the start of another statement.
-/

namespace Verif
variable {e : Token → Token} [Uni] {B : PSt}

/-- At the end of the text: `EOF` now and after any number of calls of `advance`. -/
def Edge (c : PSt) : Prop := ∀ i, ∃ t, (c.ahead i).symbol = .ok t ∧ t.kind = .EOF

theorem Edge.sym {c : PSt} (h : Edge c) : ∃ t, c.symbol = .ok t ∧ t.kind = .EOF := h 0
theorem Edge.advance {c : PSt} (h : Edge c) : Edge c.advance := fun i => h (i + 1)
theorem Edge.exc {c : PSt} (h : Edge c) (x) : Edge { c with exc := x } := fun i => by rw [ahead_exc]; exact h i

theorem exec_edge {α : Type} {r : Fn → PSt → Res Tree} (hr : ∀ f c t c', Edge c → r f c = .ok t c' → Edge c') {p : Prog α} :
    ∀ {c a c'}, Edge c → p.exec r c = .ok a c' → Edge c' := by
  induction p with
  | ret a => intro c a c' h e; cases e; exact h
  | fail | panic => intro c a c' h e; cases e
  | getPos k ih => intro c a c' h e; exact ih _ h e
  | getExc k ih => intro c a c' h e; exact ih _ h e
  | setExc x k ih => intro c a c' h e; exact ih (h.exc x) e
  | adv k ih => intro c a c' h e; exact ih h.advance e
  | sym k x ih1 ih2 =>
    intro c a c' h e
    simp only [Prog.exec] at e
    split at e
    · exact ih1 _ h e
    · exact ih2 h e
  | call f k ih =>
    intro c a c' h e
    simp only [Prog.exec] at e
    split at e
    · rename_i hc; exact ih _ (hr _ _ _ _ h hc) e
    all_goals cases e

theorem run_edge (n : Nat) : ∀ f c t c', Edge c → run n f c = .ok t c' → Edge c' := by
  induction n with
  | zero => intro f c t c' _ h; cases h
  | succ n ih => intro f c t c' he h; exact exec_edge ih he h

/-- May a statement be followed by this? -/
def Starts (K : Kind) : Prop := K ≠ .PyElif ∧ K ≠ .PyElse ∧ K ≠ .PyExcept ∧ K ≠ .PyFinally

/-- The same symbols up to the `k`-th, none of them `EOF` and the last one the end of a line or a block; then the first
parser is at the end of the text and the second sees what `B` sees, something that starts a statement. -/
structure Off (e : Token → Token) (B : PSt) (k : Nat) (c d : PSt) : Prop where
  exc : c.exc = d.exc
  same : ∀ i < k, SymLike e (c.ahead i) (d.ahead i)
  last : ∀ j, k = j + 1 → ∃ t, (c.ahead j).symbol = .ok t ∧ (t.kind = .Newline ∨ t.kind = .Dedent)
  edge : Edge (c.ahead k)
  start : ∃ u, (d.ahead k).symbol = .ok u ∧ Starts u.kind
  noEof : ∀ i < k, ∀ t, (c.ahead i).symbol = .ok t → t.kind ≠ .EOF
  tail : SeesLike e (d.ahead k) B

theorem Off.advance {k} {c d : PSt} (h : Off e B (k + 1) c d) : Off e B k c.advance d.advance where
  exc := by rw [advance_exc_eq, advance_exc_eq]; exact h.exc
  same i hi := h.same (i + 1) (by omega)
  last j hj := h.last (j + 1) (by omega)
  edge := h.edge
  start := h.start
  noEof i hi := h.noEof (i + 1) (by omega)
  tail := h.tail

theorem Off.setExc {k} {c d : PSt} (h : Off e B k c d) (x) : Off e B k { c with exc := x } { d with exc := x } where
  exc := rfl
  same i hi := by rw [ahead_exc i c x, ahead_exc i d x]; exact h.same i hi
  last j hj := by rw [ahead_exc]; exact h.last j hj
  edge := by rw [ahead_exc]; exact h.edge.exc x
  start := by rw [ahead_exc]; exact h.start
  noEof i hi := by rw [ahead_exc]; exact h.noEof i hi
  tail i := by
    rw [ahead_exc k d x, ahead_exc i _ x]
    exact h.tail i

theorem Off.zero {c d : PSt} (h : Off e B 0 c d) : Edge c := h.edge

/-- Before the end, a call either does the same in both or gets to the end. -/
theorem off_exec {α : Type} [Lk e α] {r : Fn → PSt → Res Tree} (hr : ∀ f c t c', Edge c → r f c = .ok t c' → Edge c')
    (hr' : ∀ f g, Fn.Like e f g → ∀ k c d, Off e B (k + 1) c d → ∀ t c', r f c = .ok t c' →
      Edge c' ∨ ∃ u d' k', r g d = .ok u d' ∧ t.erase e = u.erase e ∧ Off e B (k' + 1) c' d') {p q : Prog α} (h : RelP e p q) :
    ∀ {k c d a c'}, Off e B (k + 1) c d → p.exec r c = .ok a c' →
      Edge c' ∨ ∃ b d' k', q.exec r d = .ok b d' ∧ Lk.rel e a b ∧ Off e B (k' + 1) c' d' := by
  induction p generalizing q with
  | ret a =>
    intro k c d a c' ho hx
    cases hx
    cases q <;> first | exact h.elim | exact .inr ⟨_, _, k, rfl, h, ho⟩
  | fail | panic => intro k c d a c' ho hx; cases hx
  | getPos k ih => intro k' c d a c' ho hx; cases q <;> first | exact h.elim | exact ih _ (h _ _) ho hx
  | getExc k ih =>
    intro k' c d a c' ho hx
    cases q with
    | getExc l =>
      simp only [Prog.exec] at hx ⊢
      rw [← ho.exc]
      exact ih _ (h _) ho hx
    | _ => exact h.elim
  | setExc x k ih =>
    intro k' c d a c' ho hx
    cases q with
    | setExc y l => obtain ⟨rfl, h⟩ := h; exact ih h (ho.setExc _) hx
    | _ => exact h.elim
  | sym k x ih1 ih2 =>
    intro k' c d a c' ho hx
    cases q with
    | sym l y =>
      have h0 := ho.same 0 (by omega)
      simp only [PSt.ahead, SymLike] at h0
      simp only [Prog.exec] at hx ⊢
      cases hc : c.symbol <;> cases hd : d.symbol <;> simp only [hc, hd] at h0 hx ⊢
      · exact ih2 h.2 ho hx
      · exact ih1 _ (h.1 _ _ h0) ho hx
    | _ => exact h.elim
  | adv k ih =>
    intro k' c d a c' ho hx
    cases q with
    | adv l =>
      cases k' with
      | zero => exact .inl (exec_edge hr ho.advance.zero hx)
      | succ k' => exact ih h ho.advance hx
    | _ => exact h.elim
  | call f k ih =>
    intro k' c d a c' ho hx
    cases q with
    | call g l =>
      simp only [Prog.exec] at hx
      split at hx
      · rename_i hc
        rcases hr' f g h.1 _ c d ho _ _ hc with he | ⟨u, d', k'', h1, h2, h3⟩
        · exact .inl (exec_edge hr he hx)
        · simp only [Prog.exec, h1]
          exact ih _ (h.2 _ _ h2) h3 hx
      all_goals cases hx
    | _ => exact h.elim

theorem run_off [Keeps e] (n : Nat) : ∀ f g, Fn.Like e f g → ∀ k c d, Off e B (k + 1) c d → ∀ t c', run n f c = .ok t c' →
    Edge c' ∨ ∃ u d' k', run n g d = .ok u d' ∧ t.erase e = u.erase e ∧ Off e B (k' + 1) c' d' := by
  induction n with
  | zero => intro f g _ k c d _ t c' h; cases h
  | succ n ih => intro f g hl k c d ho t c' h; exact off_exec (run_edge n) ih (al_body hl) ho h

end Verif
