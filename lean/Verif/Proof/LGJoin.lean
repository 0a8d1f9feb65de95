import Verif.Proof.LGInsert

/-!
# The text after the end of a line does not matter for the symbols before it
-/

set_option linter.unusedSimpArgs false

namespace Verif
attribute [-simp] List.drop_one List.tail_drop
namespace LG

section
variable {r r' : List Char}

theorem solid_operators : ∀ x ∈ operators, Solid (.sym x.2 0 0 none) := by simp [operators, Solid, Token.kind]
theorem solid_keywords : ∀ x ∈ pyKeywords, Solid (.sym x.2 0 0 none) := by simp [pyKeywords, Solid, Token.kind]

theorem Word.swapLine [Uni] {st cs t st' x} (h : Word st cs t st' (x ++ '\n' :: r)) :
    ∃ w, cs = w ++ (x ++ '\n' :: r) ∧ Word st (w ++ (x ++ '\n' :: r')) t st' (x ++ '\n' :: r') := by
  by_cases hx : x ≠ [] ∨ Solid t
  · obtain ⟨w, h1, -, h2⟩ := h.swap (b' := '\n' :: r') (by simp [gapChars]) (by simp) hx
    exact ⟨w, h1, h2⟩
  · have hx0 : x = [] := Classical.byContradiction fun h => hx (.inl h)
    have hs : ¬ Solid t := fun h => hx (.inr h)
    subst hx0
    generalize hr : [] ++ '\n' :: r = z at h
    cases h with
    | eof h => subst hr; exact absurd h (by simp [AtEnd])
    | typeComment h h2 =>
      subst hr
      obtain ⟨rfl, h3, h4⟩ := h
      exact ⟨_, rfl, .typeComment ⟨rfl, h3, by simp⟩ h2⟩
    | @operator w k _ _ h => exact absurd (solid_operators _ h.1) hs
    | @keyword w k _ h => exact absurd (solid_keywords _ h) hs
    | _ => exact absurd (by simp [Solid, Token.kind]) hs

theorem margin_suffix {k col : Nat} {cs z : List Char} (h : margin k cs = (col, z)) : ∃ w, cs = w ++ z := by
  by_cases hz : z = []
  · exact ⟨cs, by simp [hz]⟩
  · obtain ⟨w, e, -⟩ := margin_swap (b := []) (b' := []) (x := z) (by simpa using h) hz
    exact ⟨w, by simpa using e⟩

theorem Enter.suffix {p b q} (h : Enter p b q) : ∃ w, p.text = w ++ q.text := by
  cases h with
  | mid => exact ⟨[], rfl⟩
  | noCode _ hm | brackets _ hm | same _ hm | deeper _ hm | shallower _ hm => exact margin_suffix hm

theorem Enter.swapLine {p b q x} (h : Enter p b q) (hq : q.text = x ++ '\n' :: r) :
    ∃ y, p.text = y ++ '\n' :: r ∧ Enter (p.setText (y ++ '\n' :: r')) b (q.setText (x ++ '\n' :: r')) := by
  have e : ∀ s : List Char, x ++ '\n' :: s = (x ++ ['\n']) ++ s := by simp
  obtain ⟨y, -, e1, he'⟩ := h.swap (b' := r') (hq.trans (e r)) (by simp)
  obtain ⟨w, e2⟩ := h.suffix
  have : y = w ++ x ++ ['\n'] := by
    refine List.append_cancel_right (bs := r) (e1.symm.trans (e2.trans ?_))
    rw [hq]; simp
  subst this
  exact ⟨w ++ x, by simp [e1], by simpa using he'⟩

theorem Skips.swapLine {b cs x} (h : Skips b cs (x ++ '\n' :: r)) :
    ∃ w, cs = w ++ (x ++ '\n' :: r) ∧ Skips b (w ++ (x ++ '\n' :: r')) (x ++ '\n' :: r') := by
  have e : ∀ s : List Char, x ++ '\n' :: s = (x ++ ['\n']) ++ s := by simp
  rw [e] at h
  obtain ⟨w, e1, h'⟩ := h.swap (b' := r') (by simp)
  exact ⟨w, by simp [e1], by simpa using h'⟩

theorem EndsLine.swapLine {cs x} (h : EndsLine cs (x ++ '\n' :: r)) :
    ∃ w, cs = w ++ (x ++ '\n' :: r) ∧ EndsLine (w ++ (x ++ '\n' :: r')) (x ++ '\n' :: r') := by
  have e : ∀ s : List Char, x ++ '\n' :: s = (x ++ ['\n']) ++ s := by simp
  rw [e] at h
  obtain ⟨w, e1, h'⟩ := h.swap (b' := r') (by simp)
  exact ⟨w, by simp [e1], by simpa using h'⟩

/-- Up to a line end: the symbol does not depend on the text after it. -/
theorem Next.swapLine [Uni] {p t q x} (h : Next p t q) (hq : q.text = x ++ '\n' :: r) :
    ∃ y, p.text = y ++ '\n' :: r ∧ Next (p.setText (y ++ '\n' :: r')) t (q.setText (x ++ '\n' :: r')) := by
  cases h with
  | dedent he ho =>
    obtain ⟨y, e1, he'⟩ := he.swapLine (r' := r') hq
    exact ⟨y, e1, .dedent he' ho⟩
  | indent he ho =>
    obtain ⟨y, e1, he'⟩ := he.swapLine (r' := r') hq
    exact ⟨y, e1, .indent he' ho⟩
  | @newline q cs _ he ho hc hs hl =>
    dsimp only at hq; subst hq
    obtain ⟨w, rfl, hl'⟩ := hl.swapLine (r' := r')
    rw [← List.append_assoc] at hs
    obtain ⟨w', e1, hs'⟩ := hs.swapLine (r' := r')
    rw [← List.append_assoc] at e1 hs'
    obtain ⟨y, e, he'⟩ := he.swapLine (r' := r') e1
    exact ⟨y, e, Next.newline (p := p.setText (y ++ '\n' :: r')) (q := q.setText (w' ++ (w ++ x) ++ '\n' :: r')) he' ho hc
      (by simpa using hs') (by simpa using hl')⟩
  | @word bl q cs t st _ he ho hs hw =>
    dsimp only at hq; subst hq
    obtain ⟨w, rfl, hw'⟩ := hw.swapLine (r' := r')
    rw [← List.append_assoc] at hs
    obtain ⟨w', e1, hs'⟩ := hs.swapLine (r' := r')
    rw [← List.append_assoc] at e1 hs'
    obtain ⟨y, e, he'⟩ := he.swapLine (r' := r') e1
    exact ⟨y, e, Next.word (p := p.setText (y ++ '\n' :: r')) (q := q.setText (w' ++ (w ++ x) ++ '\n' :: r')) he' ho
      (by simpa using hs') (by simpa using hw')⟩

/-- Symbols before a line end do not depend on the text after it. -/
theorem Run.swapLine [Uni] {ts : List Token} : ∀ {p q x}, Run p ts q → q.text = x ++ '\n' :: r →
    ∃ y, p.text = y ++ '\n' :: r ∧ Run (p.setText (y ++ '\n' :: r')) ts (q.setText (x ++ '\n' :: r')) := by
  induction ts with
  | nil => intro p q x h hq; cases h; exact ⟨x, hq, .nil⟩
  | cons t ts ih =>
    intro p q x h hq
    cases h with
    | cons h h' =>
      obtain ⟨y1, e1, h1⟩ := ih h' hq
      obtain ⟨y, e, h2⟩ := h.swapLine (r' := r') e1
      exact ⟨y, e, .cons h2 h1⟩

end
end LG
end Verif
