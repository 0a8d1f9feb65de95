import Verif.Proof.Term

/-!
# Calls and panics

`CWP P p c Q`: the body `p`, started in the state `c`, does not panic itself, makes only calls that satisfy `P`, and
if it succeeds, `Q` holds.  Nothing is known about what the calls return.
-/

namespace Verif
section
variable [Uni]

def CWP {α : Type} (P : Fn → PSt → Prop) : Prog α → PSt → (α → PSt → Prop) → Prop
  | .ret a, c, Q => Q a c
  | .fail .., _, _ => True
  | .panic, _, _ => False
  | .getPos k, c, Q => ∀ p, CWP P (k p) c Q
  | .sym k e, c, Q => (∀ t, c.symbol = .ok t → CWP P (k t) c Q) ∧ (∀ x, c.symbol = .error x → CWP P e c Q)
  | .adv k, _, Q => ∀ d, CWP P k d Q
  | .call f k, c, Q => P f c ∧ ∀ t d, CWP P (k t) d Q
  | .getExc k, c, Q => ∀ x, CWP P (k x) c Q
  | .setExc _ k, _, Q => ∀ d, CWP P k d Q

variable {α β : Type} {P : Fn → PSt → Prop}

theorem cwp_bind (p : Prog α) (k : α → Prog β) (c Q) :
    CWP P (p >>= k) c Q = CWP P p c (fun a c' => CWP P (k a) c' Q) := by
  show CWP P (p.bind k) c Q = _
  induction p generalizing c with
  | ret | fail | panic => rfl
  | getPos k ih | adv k ih | getExc k ih | setExc x k ih => simp only [Prog.bind, CWP, ih]
  | sym k e ih1 ih2 => simp only [Prog.bind, CWP, ih1, ih2]
  | call f k ih => simp only [Prog.bind, CWP, ih]

theorem cwp_pure (a : α) (c Q) : CWP P (pure a : Prog α) c Q = Q a c := rfl
theorem cwp_ret (a : α) (c Q) : CWP P (.ret a) c Q = Q a c := rfl
theorem cwp_fail (p m c Q) : CWP P (.fail p m : Prog α) c Q = True := rfl
theorem cwp_failHere (m c Q) : CWP P (Prog.failHere m : Prog α) c Q = True := by
  simp [Prog.failHere, CWP]
theorem cwp_here (c Q) : CWP P Prog.here c Q = ∀ p, Q p c := rfl
theorem cwp_next (c Q) : CWP P Prog.next c Q = ∀ d, Q () d := rfl
theorem cwp_parse (f c Q) : CWP P (Prog.parse f) c Q = (P f c ∧ ∀ t d, Q t d) := rfl
theorem cwp_symAt (p m c Q) : CWP P (Prog.symAt p m) c Q = ∀ t, c.symbol = .ok t → Q t c := by
  simp [Prog.symAt, CWP]
theorem cwp_symHere (m c Q) : CWP P (Prog.symHere m) c Q = ∀ t, c.symbol = .ok t → Q t c := by
  simp [Prog.symHere, Prog.failHere, CWP]
theorem cwp_sym? (c Q) : CWP P Prog.sym? c Q =
    ((∀ t, c.symbol = .ok t → Q (some t) c) ∧ ∀ x, c.symbol = .error x → Q none c) := by
  simp [Prog.sym?, CWP]
theorem cwp_mk (tag s l c Q) : CWP P (Prog.mk tag s l) c Q = ∀ p, Q (.node tag s p l) c := rfl
theorem cwp_getExc (k : ExcStatus → Prog α) (c Q) : CWP P (.getExc k) c Q = ∀ x, CWP P (k x) c Q := rfl
theorem cwp_setExc (x) (k : Prog α) (c Q) : CWP P (.setExc x k) c Q = ∀ d, CWP P k d Q := rfl
theorem cwp_ite (b : Prop) [Decidable b] (p q : Prog α) (c Q) :
    CWP P (if b then p else q) c Q = ((b → CWP P p c Q) ∧ (¬ b → CWP P q c Q)) := by
  by_cases h : b <;> simp [h]

/-- The calls made satisfy `P`. -/
theorem cwp_makes {p : Prog α} {c Q g d} (h : CWP P p c Q) (hm : Makes p c g d) : P g d := by
  induction hm with
  | here => exact h.1
  | later _ _ ih => exact ih (h.2 _ _)
  | getPos _ ih => exact ih (h _)
  | sym hs _ ih => exact ih (h.1 _ hs)
  | noSym hs _ ih => exact ih (h.2 _ hs)
  | adv _ ih => exact ih (h _)
  | getExc _ ih => exact ih (h _)
  | setExc _ ih => exact ih (h _)

/-- A panic comes from a call. -/
theorem cwp_panics {n} {p : Prog α} {c Q} (h : CWP P p c Q) (hr : p.exec (run n) c = .panic) :
    ∃ g d, Makes p c g d ∧ run n g d = .panic := by
  induction p generalizing c with
  | ret a => simp [Prog.exec] at hr
  | fail => simp [Prog.exec] at hr
  | panic => exact h.elim
  | getPos k ih => obtain ⟨g, d, h1, h2⟩ := ih _ (h _) hr; exact ⟨g, d, .getPos h1, h2⟩
  | sym k e ih1 ih2 =>
    simp only [Prog.exec] at hr
    cases hs : c.symbol with
    | ok t => rw [hs] at hr; obtain ⟨g, d, h1, h2⟩ := ih1 _ (h.1 t hs) hr; exact ⟨g, d, .sym hs h1, h2⟩
    | error x => rw [hs] at hr; obtain ⟨g, d, h1, h2⟩ := ih2 (h.2 x hs) hr; exact ⟨g, d, .noSym hs h1, h2⟩
  | adv k ih => obtain ⟨g, d, h1, h2⟩ := ih (h _) hr; exact ⟨g, d, .adv h1, h2⟩
  | call f k ih =>
    simp only [Prog.exec] at hr
    cases hf : run n f c with
    | ok t c1 => rw [hf] at hr; obtain ⟨g, d, h1, h2⟩ := ih _ (h.2 t c1) hr; exact ⟨g, d, .later hf h1, h2⟩
    | err => rw [hf] at hr; simp at hr
    | panic => exact ⟨f, c, .here, hf⟩
    | diverge => rw [hf] at hr; simp at hr
  | getExc k ih => obtain ⟨g, d, h1, h2⟩ := ih _ (h _) hr; exact ⟨g, d, .getExc h1, h2⟩
  | setExc x k ih => obtain ⟨g, d, h1, h2⟩ := ih (h _) hr; exact ⟨g, d, .setExc h1, h2⟩

/-- What a call does not return from, its caller does not return from. -/
theorem makes_panics {p : Prog α} {c g d} (hm : Makes p c g d) (hr : ∃ n, run n g d = .panic) :
    ∃ n, p.exec (run n) c = .panic := by
  induction hm with
  | here => obtain ⟨n, hr⟩ := hr; exact ⟨n, by simp only [Prog.exec, hr]⟩
  | later h _ ih =>
    rename_i f k c n t c1 g d _
    obtain ⟨m, hm⟩ := ih hr
    refine ⟨max n m, ?_⟩
    simp only [Prog.exec, run_ok_mono h (Nat.le_max_left n m)]
    rw [exec_mono (r := run m) (fun f c hd => run_mono hd _ (Nat.le_max_right _ _)) _ _ (by rw [hm]; simp), hm]
  | getPos _ ih | adv _ ih | getExc _ ih | setExc _ ih => exact ih hr
  | sym hs _ ih => obtain ⟨n, h⟩ := ih hr; exact ⟨n, by simpa only [Prog.exec, hs] using h⟩
  | noSym hs _ ih => obtain ⟨n, h⟩ := ih hr; exact ⟨n, by simpa only [Prog.exec, hs] using h⟩

theorem makes_diverges {p : Prog α} {c g d} (hm : Makes p c g d) (hr : ∀ n, run n g d = .diverge) :
    ∀ n, p.exec (run n) c = .diverge := by
  induction hm with
  | here => intro n; simp only [Prog.exec, hr n]
  | later h _ ih =>
    rename_i f k c n t c1 g d _
    intro m
    by_cases hd : run m f c = .diverge
    · simp only [Prog.exec, hd]
    · have := run_det hd (n := m) (m := n) (by rw [h]; simp)
      simp only [Prog.exec, this, h]; exact ih hr m
  | getPos _ ih | adv _ ih | getExc _ ih | setExc _ ih => exact ih hr
  | sym hs _ ih => intro n; simpa only [Prog.exec, hs] using ih hr n
  | noSym hs _ ih => intro n; simpa only [Prog.exec, hs] using ih hr n

theorem calls_panics {f c g d} (h : Calls f c g d) (hr : ∃ n, run n g d = .panic) : ∃ n, run n f c = .panic := by
  induction h with
  | self => exact hr
  | step hm _ ih => obtain ⟨n, h⟩ := makes_panics hm (ih hr); exact ⟨n + 1, h⟩

theorem calls_diverges {f c g d} (h : Calls f c g d) (hr : ∀ n, run n g d = .diverge) : ∀ n, run n f c = .diverge := by
  induction h with
  | self => exact hr
  | step hm _ ih =>
    intro n
    cases n with
    | zero => rfl
    | succ n => exact makes_diverges hm (ih hr) n

theorem stuck_diverges {f c} (h : Stuck f c) : ∀ n, run n f c = .diverge := by
  obtain ⟨rfl, u, h1, h2⟩ := h
  intro n
  induction n with
  | zero => rfl
  | succ n ih =>
    show (importStmtBody.exec (run n) c : Res Tree) = .diverge
    unfold importStmtBody
    simp [Prog.here, Prog.symAt, Prog.parse, Prog.exec, Bind.bind, Prog.bind, Pure.pure, h1, h2, ih]

/-- The calls that need looking at: `patterns_match` is called only where the current symbol is the name `match`, and input functions are
not called. -/
def MatchCall (f : Fn) (c : PSt) : Prop :=
  f.input = false ∧ (f = .patternsMatch → ∃ t, c.symbol = .ok t ∧ t.isMatchName = true)

end
end Verif
