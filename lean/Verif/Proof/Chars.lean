import Verif.Spec.Lexemes

/-!
# The tokenizer's character classes are the listed ones
-/

namespace Verif

/-- Two tests of a character agree when they agree below U+0080 and are false from there on. -/
theorem class_eq {f g : Char → Bool} (h : ∀ n, n < 128 → f (Char.ofNat n) = g (Char.ofNat n))
    (hf : ∀ c : Char, 128 ≤ c.toNat → f c = false) (hg : ∀ c : Char, 128 ≤ c.toNat → g c = false) : f = g := by
  funext c
  by_cases hc : c.toNat < 128
  · have := h _ hc
    rwa [Char.ofNat_toNat] at this
  · rw [hf c (by omega), hg c (by omega)]

theorem contains_ascii {l : List Char} (h : l.all (fun d => d.toNat < 128) = true) (c : Char)
    (hc : 128 ≤ c.toNat) : l.contains c = false := by
  rw [← Bool.not_eq_true, List.contains_iff_mem]
  intro hm
  have := List.all_eq_true.1 h c hm
  simp only [decide_eq_true_eq] at this
  omega

theorem isDec_eq : isDec = isDigit :=
  class_eq (by decide +kernel) (contains_ascii (by decide)) (fun c h => by simp [isDigit]; omega)

theorem isHex_eq : isHex = isHexDigit :=
  class_eq (by decide +kernel) (contains_ascii (by decide)) (fun c h => by simp [isHexDigit, isDigit]; omega)

theorem isOct_eq : isOct = isOctDigit :=
  class_eq (by decide +kernel) (contains_ascii (by decide)) (fun c h => by simp [isOctDigit]; omega)

theorem isBin_eq : isBin = isBinDigit := by
  funext c; rw [Bool.eq_iff_iff]; simp [isBin, isBinDigit]

theorem DigitPart.iff {cs} : DigitPart cs ↔ ∃ c t, cs = c :: t ∧ isDigit c = true ∧ DigitTail isDigit t := by
  rw [DigitPart, isDec_eq]

theorem Exponent.iff {lax cs} : Exponent lax cs ↔
    ∃ c sign ds, cs = c :: (sign ++ ds) ∧ (c = 'e' ∨ c = 'E') ∧ (sign = [] ∨ sign = ['+'] ∨ sign = ['-']) ∧
      if lax then DigitTail isDigit ds else DigitPart ds := by
  rw [Exponent, isDec_eq]

theorem RadixNumber.iff {txt} : RadixNumber txt ↔
    ∃ x ds, txt = '0' :: x :: ds ∧ ds ≠ [] ∧
    (((x = 'x' ∨ x = 'X') ∧ DigitTail isHexDigit ds) ∨ ((x = 'o' ∨ x = 'O') ∧ DigitTail isOctDigit ds) ∨
     ((x = 'b' ∨ x = 'B') ∧ DigitTail isBinDigit ds)) := by
  rw [RadixNumber, isHex_eq, isOct_eq, isBin_eq]

end Verif
