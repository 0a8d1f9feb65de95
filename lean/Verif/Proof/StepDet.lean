import Verif.Proof.LexAt

/-!
# Tokenizer: `Step` determines the result, so a result can be shown by giving its gap and token
-/

set_option linter.unusedSimpArgs false

namespace Verif
open LexM
attribute [-simp] List.drop_one List.tail_drop

theorem HTrivia.det {pos cs t n t' n'} (h : HTrivia pos cs t n) (h' : HTrivia pos cs t' n') :
    t = t' ∧ n = n' := by
  cases h <;> cases h' <;> simp_all

theorem LineEnd.det {cs m m'} (h : LineEnd cs m) (h' : LineEnd cs m') : m = m' := by
  cases h <;> cases h' <;> simp_all

theorem HTrivia.not_lineEnd {pos cs t n m} (h : HTrivia pos cs t n) (h' : LineEnd cs m) : False := by
  cases h <;> cases h' <;> simp_all

/-- Nothing more can be skipped here; `q` = line ends are trivia. -/
def Stop (q : Bool) (cs : List Char) : Prop :=
  (∀ pos t n, ¬ HTrivia pos cs t n) ∧ (q = true → ∀ m, ¬ LineEnd cs m)

theorem Gap.det {q pos cs ts n ts' n'} (h : Gap q pos cs ts n) (hs : Stop q (cs.drop n))
    (h' : Gap q pos cs ts' n') (hs' : Stop q (cs.drop n')) : ts = ts' ∧ n = n' := by
  induction h generalizing ts' n' with
  | nil =>
    rw [List.drop_zero] at hs
    cases h' with
    | nil => exact ⟨rfl, rfl⟩
    | item h => exact absurd h (hs.1 _ _ _)
    | line hq h => exact absurd h (hs.2 hq _)
  | item h _ ih =>
    cases h' with
    | nil => rw [List.drop_zero] at hs'; exact absurd h (hs'.1 _ _ _)
    | item h2 hg =>
      obtain ⟨rfl, rfl⟩ := h.det h2
      rw [← List.drop_drop] at hs hs'
      obtain ⟨rfl, rfl⟩ := ih hs hg hs'
      exact ⟨rfl, rfl⟩
    | line hq h2 => exact (h.not_lineEnd h2).elim
  | line hq h _ ih =>
    cases h' with
    | nil => rw [List.drop_zero] at hs'; exact absurd h (hs'.2 hq _)
    | item h2 hg => exact (h2.not_lineEnd h).elim
    | line hq2 h2 hg =>
      obtain rfl := h.det h2
      rw [← List.drop_drop] at hs hs'
      obtain ⟨rfl, rfl⟩ := ih hs hg hs'
      exact ⟨rfl, rfl⟩

theorem Stop.of_plain {q cs} (h : hd cs ∉ [' ', '\t', '#', '\r', '\n', '\\']) : Stop q cs := by
  constructor
  · intro pos t n ht; cases ht <;> simp_all
  · intro _ m hm; cases hm <;> simp_all

theorem Stop.of_arms {q cs} (h : hd cs ∉ [' ', '\t', '#', '\x00', '\r', '\n', '\\']) : Stop q cs :=
  Stop.of_plain (by
    intro h1; apply h; simp only [List.mem_cons, List.not_mem_nil, or_false] at h1 ⊢
    rcases h1 with h1 | h1 | h1 | h1 | h1 | h1 <;> simp [h1])

theorem Stop.of_eof {q cs} (h : hd cs = '\x00') : Stop q cs := Stop.of_plain (by rw [h]; decide)

theorem Stop.of_type {q cs} (h : hd cs = '#') (ht : isTypeComment (lineText cs) = true) : Stop q cs := by
  constructor
  · intro pos t n ht; cases ht <;> simp_all
  · intro _ m hm; cases hm <;> simp_all

theorem Stop.of_badCont {q} {cs : List Char} {k} (h : hd (cs.drop k) = '\\')
    (h1 : hd (cs.drop (k + 1)) ≠ '\r') (h2 : hd (cs.drop (k + 1)) ≠ '\n') : Stop q (cs.drop k) := by
  have h1' : hd ((cs.drop k).drop 1) ≠ '\r' := by rwa [List.drop_drop]
  have h2' : hd ((cs.drop k).drop 1) ≠ '\n' := by rwa [List.drop_drop]
  constructor
  · intro pos t n ht; cases ht <;> simp_all
  · intro _ m hm; cases hm <;> simp_all

theorem Stop.of_lineEnd {cs m} (h : LineEnd cs m) : Stop false cs :=
  ⟨fun _ _ _ ht => ht.not_lineEnd h, by simp⟩

/-- What a `Step` other than a layout token found: the flag, the state after the line start step, the
gap, and the stop. -/
theorem Step.det [Uni] {l r r'} (h : Step l r) (h' : Step l r') : r = r' := by
  obtain ⟨b, l1, hb⟩ : ∃ b l1, bolState false (l.at l.pos) = (b, l1) := ⟨_, _, rfl⟩
  have same : ∀ {b' l1'}, bolState false (l.at l.pos) = (b', l1') → b' = b ∧ l1' = l1 := by
    intro b' l1' h; rw [hb] at h; injection h with h1 h2; exact ⟨h1.symm, h2.symm⟩
  have hch : ∀ {a a' : Char} {k : Nat}, hd (l1.rest.drop k) = a → hd (l1.rest.drop k) = a' → a = a' :=
    fun h h' => h.symm.trans h'
  have hle : ∀ {k m}, LineEnd (l1.rest.drop k) m →
      hd (l1.rest.drop k) = '\r' ∨ hd (l1.rest.drop k) = '\n' := by
    intro k m h; cases h with
    | crlf h => exact .inl h
    | cr h => exact .inl h
    | lf h => exact .inr h
  cases h with
  | dedent hb1 hp =>
    obtain ⟨rfl, rfl⟩ := same hb1
    cases h' with
    | dedent hb2 hp2 => obtain ⟨rfl, rfl⟩ := same hb2; rfl
    | indent hb2 hp2 => obtain ⟨rfl, rfl⟩ := same hb2; omega
    | newline hb2 hp2 => obtain ⟨rfl, rfl⟩ := same hb2; omega
    | typeComment hb2 hp2 => obtain ⟨rfl, rfl⟩ := same hb2; omega
    | eof hb2 hp2 => obtain ⟨rfl, rfl⟩ := same hb2; omega
    | badCont hb2 hp2 => obtain ⟨rfl, rfl⟩ := same hb2; omega
    | arms hb2 hp2 => obtain ⟨rfl, rfl⟩ := same hb2; omega
  | indent hb1 hp =>
    obtain ⟨rfl, rfl⟩ := same hb1
    cases h' with
    | dedent hb2 hp2 => obtain ⟨rfl, rfl⟩ := same hb2; omega
    | indent hb2 hp2 => obtain ⟨rfl, rfl⟩ := same hb2; rfl
    | newline hb2 hp2 => obtain ⟨rfl, rfl⟩ := same hb2; omega
    | typeComment hb2 hp2 => obtain ⟨rfl, rfl⟩ := same hb2; omega
    | eof hb2 hp2 => obtain ⟨rfl, rfl⟩ := same hb2; omega
    | badCont hb2 hp2 => obtain ⟨rfl, rfl⟩ := same hb2; omega
    | arms hb2 hp2 => obtain ⟨rfl, rfl⟩ := same hb2; omega
  | newline hb1 hp hbf hpar hrun hend hc1 hc2 =>
    obtain ⟨rfl, rfl⟩ := same hb1
    subst hbf
    cases h' with
    | dedent hb2 hp2 => obtain ⟨rfl, rfl⟩ := same hb2; omega
    | indent hb2 hp2 => obtain ⟨rfl, rfl⟩ := same hb2; omega
    | newline hb2 hp2 hbf2 hpar2 hrun2 hend2 hc12 hc22 =>
      obtain ⟨rfl, rfl⟩ := same hb2
      obtain ⟨rfl, rfl⟩ := Gap.det (q := false) (.of_hrun hrun) (.of_lineEnd hend) (.of_hrun hrun2)
        (.of_lineEnd hend2)
      obtain rfl := hend.det hend2
      rw [hc1, hc2, hc12, hc22]
    | typeComment hb2 hp2 hg hh ht =>
      obtain ⟨rfl, rfl⟩ := same hb2
      rw [hpar] at hg
      obtain ⟨rfl, rfl⟩ := Gap.det (.of_hrun hrun) (.of_lineEnd hend) hg (.of_type hh ht)
      rcases hle hend with h | h <;> exact absurd (hch h hh) (by decide)
    | eof hb2 hp2 hg hh =>
      obtain ⟨rfl, rfl⟩ := same hb2
      rw [hpar] at hg
      obtain ⟨rfl, rfl⟩ := Gap.det (.of_hrun hrun) (.of_lineEnd hend) hg (.of_eof hh)
      rcases hle hend with h | h <;> exact absurd (hch h hh) (by decide)
    | badCont hb2 hp2 hg hh h1 h2 =>
      obtain ⟨rfl, rfl⟩ := same hb2
      rw [hpar] at hg
      obtain ⟨rfl, rfl⟩ := Gap.det (.of_hrun hrun) (.of_lineEnd hend) hg (.of_badCont hh h1 h2)
      rcases hle hend with h | h <;> exact absurd (hch h hh) (by decide)
    | arms hb2 hp2 hg hh =>
      obtain ⟨rfl, rfl⟩ := same hb2
      rw [hpar] at hg
      obtain ⟨rfl, rfl⟩ := Gap.det (.of_hrun hrun) (.of_lineEnd hend) hg (.of_arms hh)
      rcases hle hend with h | h <;> rw [h] at hh <;> exact absurd hh (by decide)
  | typeComment hb1 hp hg hh ht =>
    obtain ⟨rfl, rfl⟩ := same hb1
    cases h' with
    | dedent hb2 hp2 => obtain ⟨rfl, rfl⟩ := same hb2; omega
    | indent hb2 hp2 => obtain ⟨rfl, rfl⟩ := same hb2; omega
    | newline hb2 hp2 hbf2 hpar2 hrun2 hend2 hc12 hc22 =>
      obtain ⟨rfl, rfl⟩ := same hb2
      subst hbf2
      rw [hpar2] at hg
      obtain ⟨rfl, rfl⟩ := Gap.det hg (.of_type hh ht) (.of_hrun hrun2) (.of_lineEnd hend2)
      rcases hle hend2 with h | h <;> exact absurd (hch h hh) (by decide)
    | typeComment hb2 hp2 hg2 hh2 ht2 =>
      obtain ⟨rfl, rfl⟩ := same hb2
      obtain ⟨rfl, rfl⟩ := hg.det (.of_type hh ht) hg2 (.of_type hh2 ht2)
      rfl
    | eof hb2 hp2 hg2 hh2 =>
      obtain ⟨rfl, rfl⟩ := same hb2
      obtain ⟨rfl, rfl⟩ := hg.det (.of_type hh ht) hg2 (.of_eof hh2)
      exact absurd (hch hh hh2) (by decide)
    | badCont hb2 hp2 hg2 hh2 h1 h2 =>
      obtain ⟨rfl, rfl⟩ := same hb2
      obtain ⟨rfl, rfl⟩ := hg.det (.of_type hh ht) hg2 (.of_badCont hh2 h1 h2)
      exact absurd (hch hh hh2) (by decide)
    | arms hb2 hp2 hg2 hh2 =>
      obtain ⟨rfl, rfl⟩ := same hb2
      obtain ⟨rfl, rfl⟩ := hg.det (.of_type hh ht) hg2 (.of_arms hh2)
      rw [hh] at hh2; exact absurd hh2 (by decide)
  | eof hb1 hp hg hh =>
    obtain ⟨rfl, rfl⟩ := same hb1
    cases h' with
    | dedent hb2 hp2 => obtain ⟨rfl, rfl⟩ := same hb2; omega
    | indent hb2 hp2 => obtain ⟨rfl, rfl⟩ := same hb2; omega
    | newline hb2 hp2 hbf2 hpar2 hrun2 hend2 hc12 hc22 =>
      obtain ⟨rfl, rfl⟩ := same hb2
      subst hbf2
      rw [hpar2] at hg
      obtain ⟨rfl, rfl⟩ := Gap.det hg (.of_eof hh) (.of_hrun hrun2) (.of_lineEnd hend2)
      rcases hle hend2 with h | h <;> exact absurd (hch h hh) (by decide)
    | typeComment hb2 hp2 hg2 hh2 ht2 =>
      obtain ⟨rfl, rfl⟩ := same hb2
      obtain ⟨rfl, rfl⟩ := hg.det (.of_eof hh) hg2 (.of_type hh2 ht2)
      exact absurd (hch hh hh2) (by decide)
    | eof hb2 hp2 hg2 hh2 =>
      obtain ⟨rfl, rfl⟩ := same hb2
      obtain ⟨rfl, rfl⟩ := hg.det (.of_eof hh) hg2 (.of_eof hh2)
      rfl
    | badCont hb2 hp2 hg2 hh2 h1 h2 =>
      obtain ⟨rfl, rfl⟩ := same hb2
      obtain ⟨rfl, rfl⟩ := hg.det (.of_eof hh) hg2 (.of_badCont hh2 h1 h2)
      exact absurd (hch hh hh2) (by decide)
    | arms hb2 hp2 hg2 hh2 =>
      obtain ⟨rfl, rfl⟩ := same hb2
      obtain ⟨rfl, rfl⟩ := hg.det (.of_eof hh) hg2 (.of_arms hh2)
      rw [hh] at hh2; exact absurd hh2 (by decide)
  | badCont hb1 hp hg hh a1 a2 =>
    obtain ⟨rfl, rfl⟩ := same hb1
    cases h' with
    | dedent hb2 hp2 => obtain ⟨rfl, rfl⟩ := same hb2; omega
    | indent hb2 hp2 => obtain ⟨rfl, rfl⟩ := same hb2; omega
    | newline hb2 hp2 hbf2 hpar2 hrun2 hend2 hc12 hc22 =>
      obtain ⟨rfl, rfl⟩ := same hb2
      subst hbf2
      rw [hpar2] at hg
      obtain ⟨rfl, rfl⟩ := Gap.det hg (.of_badCont hh a1 a2) (.of_hrun hrun2) (.of_lineEnd hend2)
      rcases hle hend2 with h | h <;> exact absurd (hch h hh) (by decide)
    | typeComment hb2 hp2 hg2 hh2 ht2 =>
      obtain ⟨rfl, rfl⟩ := same hb2
      obtain ⟨rfl, rfl⟩ := hg.det (.of_badCont hh a1 a2) hg2 (.of_type hh2 ht2)
      exact absurd (hch hh hh2) (by decide)
    | eof hb2 hp2 hg2 hh2 =>
      obtain ⟨rfl, rfl⟩ := same hb2
      obtain ⟨rfl, rfl⟩ := hg.det (.of_badCont hh a1 a2) hg2 (.of_eof hh2)
      exact absurd (hch hh hh2) (by decide)
    | badCont hb2 hp2 hg2 hh2 h1 h2 =>
      obtain ⟨rfl, rfl⟩ := same hb2
      obtain ⟨rfl, rfl⟩ := hg.det (.of_badCont hh a1 a2) hg2 (.of_badCont hh2 h1 h2)
      rfl
    | arms hb2 hp2 hg2 hh2 =>
      obtain ⟨rfl, rfl⟩ := same hb2
      obtain ⟨rfl, rfl⟩ := hg.det (.of_badCont hh a1 a2) hg2 (.of_arms hh2)
      rw [hh] at hh2; exact absurd hh2 (by decide)
  | arms hb1 hp hg hh =>
    obtain ⟨rfl, rfl⟩ := same hb1
    cases h' with
    | dedent hb2 hp2 => obtain ⟨rfl, rfl⟩ := same hb2; omega
    | indent hb2 hp2 => obtain ⟨rfl, rfl⟩ := same hb2; omega
    | newline hb2 hp2 hbf2 hpar2 hrun2 hend2 hc12 hc22 =>
      obtain ⟨rfl, rfl⟩ := same hb2
      subst hbf2
      rw [hpar2] at hg
      obtain ⟨rfl, rfl⟩ := Gap.det hg (.of_arms hh) (.of_hrun hrun2) (.of_lineEnd hend2)
      rcases hle hend2 with h | h <;> rw [h] at hh <;> exact absurd hh (by decide)
    | typeComment hb2 hp2 hg2 hh2 ht2 =>
      obtain ⟨rfl, rfl⟩ := same hb2
      obtain ⟨rfl, rfl⟩ := hg.det (.of_arms hh) hg2 (.of_type hh2 ht2)
      rw [hh2] at hh; exact absurd hh (by decide)
    | eof hb2 hp2 hg2 hh2 =>
      obtain ⟨rfl, rfl⟩ := same hb2
      obtain ⟨rfl, rfl⟩ := hg.det (.of_arms hh) hg2 (.of_eof hh2)
      rw [hh2] at hh; exact absurd hh (by decide)
    | badCont hb2 hp2 hg2 hh2 h1 h2 =>
      obtain ⟨rfl, rfl⟩ := same hb2
      obtain ⟨rfl, rfl⟩ := hg.det (.of_arms hh) hg2 (.of_badCont hh2 h1 h2)
      rw [hh2] at hh; exact absurd hh (by decide)
    | arms hb2 hp2 hg2 hh2 =>
      obtain ⟨rfl, rfl⟩ := same hb2
      obtain ⟨rfl, rfl⟩ := hg.det (.of_arms hh) hg2 (.of_arms hh2)
      rfl

/-- The result of a call is the one `Step` describes. -/
theorem getSymbol_eq [Uni] {src l r} (hi : Inv src l) (h : Step l r) : getSymbol l = r :=
  (getSymbol_step l hi.inter hi.ind).det h

end Verif
