import Verif.Proof.LexAt
import Verif.Proof.Chars

/-!
# Tokenizer: what the number scanners accept
-/

set_option linter.unusedSimpArgs false

namespace Verif
attribute [-simp] List.drop_one List.tail_drop

/-- Not a character that continues a run of digits. -/
def Ends (d : Char → Bool) (cs : List Char) : Prop := d (hd cs) = false ∧ hd cs ≠ '_'

theorem digitRun_ends {d e cs} (h : Ends d cs) : digitRun d e cs = .ok [] := by
  cases cs with
  | nil => rfl
  | cons c cs =>
    obtain ⟨h1, h2⟩ := h
    simp only [hd_cons] at h1 h2
    simp [digitRun, h1, h2]

/-- Result of a scan after `u`. -/
def preRes (u : List Char) : Except ((Nat → LexErr) × Nat) (List Char) →
    Except ((Nat → LexErr) × Nat) (List Char)
  | .ok t => .ok (u ++ t)
  | .error (e, k) => .error (e, u.length + k)

theorem pre_eq (w : List Char) (s : Scan) (cs : List Char) :
    Scan.pre w s cs = preRes w (s (cs.drop w.length)) := by
  simp only [Scan.pre, preRes]
  cases s (cs.drop w.length) <;> rfl

theorem pre_append (w : List Char) (s : Scan) (cs : List Char) :
    Scan.pre w s (w ++ cs) = preRes w (s cs) := by
  rw [pre_eq]; simp

theorem preRes_preRes (u v r) : preRes u (preRes v r) = preRes (u ++ v) r := by
  cases r <;> simp [preRes, Nat.add_assoc]

theorem preRes_nil (r) : preRes [] r = r := by
  cases r <;> simp [preRes]

theorem preRes_ok {u r t} (h : preRes u r = .ok t) : ∃ t', r = .ok t' ∧ t = u ++ t' := by
  cases r with
  | ok t' => simp [preRes] at h; exact ⟨t', rfl, h.symm⟩
  | error e => simp [preRes] at h

theorem digitRun_append {d : Char → Bool} {e u} (hu : DigitTail d u) (h_ : d '_' = false) (cs : List Char) :
    digitRun d e (u ++ cs) = preRes u (digitRun d e cs) := by
  induction hu with
  | nil => simp [preRes_nil]
  | @digit c u hc _ ih =>
    have hne : c ≠ '_' := by rintro rfl; simp [h_] at hc
    rw [List.cons_append, digitRun, if_neg hne, if_pos hc, ih]
    cases digitRun d e cs <;> simp [preRes] <;> omega
  | @under c u hc _ ih =>
    have hne : c ≠ '_' := by rintro rfl; simp [h_] at hc
    rw [List.cons_append, digitRun, if_pos rfl, if_pos (by simpa using hc)]
    rw [List.cons_append, digitRun, if_neg hne, if_pos hc, ih]
    cases digitRun d e cs <;> simp [preRes] <;> omega

theorem digitRun_ok {d : Char → Bool} {e cs t} (h0 : d '\x00' = false) (h_ : d '_' = false)
    (h : digitRun d e cs = .ok t) : ∃ rest, cs = t ++ rest ∧ DigitTail d t ∧ Ends d rest := by
  induction cs generalizing t with
  | nil => simp [digitRun] at h; subst h; exact ⟨[], rfl, .nil, h0, by decide⟩
  | cons c cs ih =>
    rw [digitRun] at h
    split at h
    · rename_i hc
      split at h
      · rename_i hdc
        cases hr : digitRun d e cs with
        | error x => rw [hr] at h; simp at h
        | ok t' =>
          rw [hr] at h; simp at h; subst h
          obtain ⟨rest, e1, e2, e3⟩ := ih hr
          refine ⟨rest, by simp [hc, e1], ?_, e3⟩
          cases e2 with
          | nil => simp at e1; rw [← e1] at e3; simp [Ends, hdc] at e3
          | digit h1 h2 => exact .under h1 h2
          | under h1 h2 => rw [e1] at hdc; simp [h_] at hdc
      · simp at h
    · rename_i hc
      split at h
      · rename_i hdc
        cases hr : digitRun d e cs with
        | error x => rw [hr] at h; simp at h
        | ok t' =>
          rw [hr] at h; simp at h; subst h
          obtain ⟨rest, e1, e2, e3⟩ := ih hr
          exact ⟨rest, by simp [e1], .digit hdc e2, e3⟩
      · rename_i hdc
        simp at h; subst h
        exact ⟨c :: cs, rfl, .nil, by simpa using hdc, by simpa using hc⟩

/-- The decimal digit scanner. -/
abbrev decRun : Scan := digitRun isDigit .badUnderscore

theorem decRun_append {u} (hu : DigitTail isDigit u) (cs : List Char) :
    decRun (u ++ cs) = preRes u (decRun cs) := digitRun_append hu (by decide) cs

theorem decRun_exact {u} (hu : DigitTail isDigit u) {cs : List Char} (h : Ends isDigit cs) :
    decRun (u ++ cs) = .ok u := by
  rw [decRun_append hu, decRun, digitRun_ends h]; simp [preRes]

theorem decRun_ok {cs t} (h : decRun cs = .ok t) :
    ∃ rest, cs = t ++ rest ∧ DigitTail isDigit t ∧ Ends isDigit rest :=
  digitRun_ok (by decide) (by decide) h

theorem DigitPart.tail {ds} (h : DigitPart ds) : DigitTail isDigit ds := by
  obtain ⟨c, t, rfl, h1, h2⟩ := DigitPart.iff.1 h; exact .digit h1 h2

theorem DigitPart.hd {ds} (h : DigitPart ds) (cs : List Char) : isDigit (Verif.hd (ds ++ cs)) = true := by
  obtain ⟨c, t, rfl, h1, h2⟩ := DigitPart.iff.1 h; exact h1

theorem DigitTail.part {ds} (h : DigitTail isDigit ds) (h1 : isDigit (hd ds) = true) : DigitPart ds := by
  cases h with
  | nil => exact absurd h1 (by decide)
  | digit hc ht => exact DigitPart.iff.2 ⟨_, _, rfl, hc, ht⟩
  | under hc ht => rw [hd_cons] at h1; exact absurd h1 (by decide)

theorem fractionScan_dot {cs} (h : hd cs ≠ '_') :
    fractionScan ('.' :: cs) = preRes ['.'] (decRun cs) := by
  simp only [fractionScan, hd_cons, if_true, List.drop_succ_cons, List.drop_zero, h, if_false]
  exact pre_append ['.'] _ cs

theorem fractionScan_none {cs} (h : hd cs ≠ '.') : fractionScan cs = .ok [] := by
  simp [fractionScan, h]

theorem exponentScan_none {cs} (h : ¬ (hd cs = 'e' ∨ hd cs = 'E')) : exponentScan cs = .ok [] := by
  simp [exponentScan, h]

theorem exponentScan_sign {c s cs} (h : c = 'e' ∨ c = 'E') (hs : s = '+' ∨ s = '-') :
    exponentScan (c :: s :: cs) = preRes [c, s] (decRun cs) := by
  simp only [exponentScan, hd_cons, h, if_true, List.drop_succ_cons, List.drop_zero, hs]
  exact pre_append [c, s] _ cs

theorem exponentScan_nosign {c cs} (h : c = 'e' ∨ c = 'E') (hs : ¬ (hd cs = '+' ∨ hd cs = '-')) :
    exponentScan (c :: cs) = preRes [c] (decRun cs) := by
  simp only [exponentScan, hd_cons, h, if_true, List.drop_succ_cons, List.drop_zero, hs, if_false]
  exact pre_append [c] _ cs

theorem fractionScan_ok {cs t} (h : fractionScan cs = .ok t) :
    (t = [] ∧ hd cs ≠ '.') ∨ ∃ f rest, t = '.' :: f ∧ cs = '.' :: f ++ rest ∧ decRun (f ++ rest) = .ok f ∧
      DigitTail isDigit f ∧ Ends isDigit rest ∧ hd (f ++ rest) ≠ '_' := by
  by_cases hd0 : hd cs = '.'
  · right
    obtain ⟨r, rfl⟩ := (hd_eq_iff (by decide)).mp hd0
    by_cases h2 : hd r = '_'
    · simp [fractionScan, h2] at h
    · rw [fractionScan_dot h2] at h
      obtain ⟨f, hf, rfl⟩ := preRes_ok h
      obtain ⟨rest, rfl, h3, h4⟩ := decRun_ok hf
      exact ⟨f, rest, rfl, rfl, hf, h3, h4, h2⟩
  · left; rw [fractionScan_none hd0] at h; simp at h; exact ⟨h, hd0⟩

theorem exponentScan_ok {cs t} (h : exponentScan cs = .ok t) :
    (t = [] ∧ ¬ (hd cs = 'e' ∨ hd cs = 'E')) ∨ ∃ c sign ds rest, (c = 'e' ∨ c = 'E') ∧
      (sign = [] ∨ sign = ['+'] ∨ sign = ['-']) ∧ t = c :: (sign ++ ds) ∧ cs = t ++ rest ∧
      DigitTail isDigit ds ∧ Ends isDigit rest := by
  by_cases he : hd cs = 'e' ∨ hd cs = 'E'
  · right
    obtain ⟨c, r, rfl, hc⟩ : ∃ c r, cs = c :: r ∧ (c = 'e' ∨ c = 'E') := by
      cases cs with
      | nil => simp at he
      | cons c r => exact ⟨c, r, rfl, he⟩
    by_cases hs : hd r = '+' ∨ hd r = '-'
    · obtain ⟨s, r, rfl, hs'⟩ : ∃ s r', r = s :: r' ∧ (s = '+' ∨ s = '-') := by
        cases r with
        | nil => simp at hs
        | cons s r => exact ⟨s, r, rfl, hs⟩
      rw [exponentScan_sign hc hs'] at h
      obtain ⟨f, hf, rfl⟩ := preRes_ok h
      obtain ⟨rest, rfl, h3, h4⟩ := decRun_ok hf
      exact ⟨c, [s], f, rest, hc, by rcases hs' with h | h <;> simp [h], rfl, rfl, h3, h4⟩
    · rw [exponentScan_nosign hc hs] at h
      obtain ⟨f, hf, rfl⟩ := preRes_ok h
      obtain ⟨rest, rfl, h3, h4⟩ := decRun_ok hf
      exact ⟨c, [], f, rest, hc, .inl rfl, rfl, rfl, h3, h4⟩
  · left; rw [exponentScan_none he] at h; simp at h; exact ⟨h, he⟩

theorem imagScan_ok {cs t} (h : imagScan cs = .ok t) :
    (t = [] ∨ t = ['j'] ∨ t = ['J']) ∧ ∃ rest, cs = t ++ rest := by
  unfold imagScan at h
  split at h
  · rename_i hj
    simp at h; subst h
    cases cs with
    | nil => simp at hj
    | cons c r => simp at hj; rcases hj with h | h <;> subst h <;> simp
  · simp at h; subst h; simp

theorem seq_ok {s1 s2 : Scan} {cs t} (h : (s1.seq s2) cs = .ok t) :
    ∃ a b, s1 cs = .ok a ∧ s2 (cs.drop a.length) = .ok b ∧ t = a ++ b := by
  unfold Scan.seq at h
  cases h1 : s1 cs with
  | error e => rw [h1] at h; simp at h
  | ok a =>
    rw [h1] at h
    dsimp only at h
    rw [pre_eq] at h
    obtain ⟨b, h2, rfl⟩ := preRes_ok h
    exact ⟨a, b, rfl, h2, rfl⟩

theorem seq_of {s1 s2 : Scan} {a b rest} (h1 : s1 (a ++ (b ++ rest)) = .ok a) (h2 : s2 (b ++ rest) = .ok b) :
    (s1.seq s2) (a ++ (b ++ rest)) = .ok (a ++ b) := by
  unfold Scan.seq
  rw [h1]; dsimp only
  rw [pre_append, h2]; simp [preRes]

/-- Exponent and suffix. -/
theorem expImag_ok {cs ex im} (h : exponentScan cs = .ok ex) (h' : imagScan (cs.drop ex.length) = .ok im) :
    (ex = [] ∨ Exponent true ex) ∧ (im = [] ∨ im = ['j'] ∨ im = ['J']) ∧ ∃ rest, cs = ex ++ (im ++ rest) := by
  rcases exponentScan_ok h with ⟨rfl, he⟩ | ⟨c, sign, ds, rest, hc, hs, rfl, rfl, ht, hen⟩
  · obtain ⟨h1, rest, h2⟩ := imagScan_ok h'
    exact ⟨.inl rfl, h1, rest, by simpa using h2⟩
  · obtain ⟨h1, rest', h2⟩ := imagScan_ok h'
    rw [List.drop_left] at h2
    refine ⟨.inr (Exponent.iff.2 ⟨c, sign, ds, rfl, hc, hs, ht⟩), h1, rest', by rw [h2]⟩

theorem decScan_ok {cs t} (h : decScan cs = .ok t) : ∃ ds fr ex im,
    decRun cs = .ok ds ∧ fractionScan (cs.drop ds.length) = .ok fr ∧
    exponentScan ((cs.drop ds.length).drop fr.length) = .ok ex ∧
    imagScan (((cs.drop ds.length).drop fr.length).drop ex.length) = .ok im ∧
    t = ds ++ (fr ++ (ex ++ im)) := by
  obtain ⟨a, im, h1, h2, rfl⟩ := seq_ok h
  obtain ⟨b, ex, h3, h4, rfl⟩ := seq_ok h1
  obtain ⟨ds, fr, h5, h6, rfl⟩ := seq_ok h3
  refine ⟨ds, fr, ex, im, h5, h6, ?_, ?_, ?_⟩
  · rw [List.drop_drop, ← List.length_append]; exact h4
  · rw [List.drop_drop, List.drop_drop]; simp only [List.length_append, ← Nat.add_assoc] at h2 ⊢; exact h2
  · simp

/-- What `decScan` accepts is a literal (with lax exponent). -/
theorem decScan_sound {cs t} (h : decScan cs = .ok t) (hc : isDigit (hd cs) = true) (h0 : hd cs ≠ '0') :
    DecNumber true t ∧ ∃ rest, cs = t ++ rest := by
  obtain ⟨ds, fr, ex, im, h1, h2, h3, h4, rfl⟩ := decScan_ok h
  obtain ⟨c1, rfl, t1, e1⟩ := decRun_ok h1
  rw [List.drop_left] at h2 h3 h4
  have hpart : DigitPart ds := by
    apply t1.part
    cases ds with
    | nil => simp at hc; rw [e1.1] at hc; simp at hc
    | cons c ds => simpa using hc
  have hz : ds.head? ≠ some '0' := by
    obtain ⟨c, u, rfl, _⟩ := hpart
    simpa using h0
  rcases fractionScan_ok h2 with ⟨rfl, hne⟩ | ⟨f, rest, rfl, rfl, _, tf, ef, hu⟩
  · simp only [List.length_nil, List.drop_zero] at h3 h4
    obtain ⟨g1, g2, rest, rfl⟩ := expImag_ok h3 h4
    exact ⟨⟨ds, ex, im, by simp, .int hpart hz, g1, g2⟩, rest, by simp⟩
  · rw [List.drop_left] at h3 h4
    obtain ⟨g1, g2, rest', rfl⟩ := expImag_ok h3 h4
    refine ⟨⟨ds ++ '.' :: f, ex, im, by simp, ?_, g1, g2⟩, rest', by simp⟩
    cases tf with
    | nil => exact .point hpart hz
    | digit a b => exact .frac hpart hz (DigitPart.iff.2 ⟨_, _, rfl, a, b⟩)
    | under a b => simp at hu

theorem dotScan_eq {d cs} : dotScan ('.' :: d :: cs) =
    preRes ['.', d] (((decRun.seq exponentScan).seq imagScan) cs) := by
  simp only [dotScan, hd_cons, List.drop_succ_cons, List.drop_zero]
  exact pre_append ['.', d] _ cs

theorem dotScan_sound {cs t} (h : dotScan cs = .ok t) (hc : dotDigit cs) :
    DecNumber true t ∧ ∃ rest, cs = t ++ rest := by
  obtain ⟨d, r, rfl, hdig⟩ : ∃ d r, cs = '.' :: d :: r ∧ isDigit d = true := by
    obtain ⟨h1, h2⟩ := hc
    match cs, h1, h2 with
    | c :: d :: r, h1, h2 => exact ⟨d, r, by simp at h1; rw [h1], by simpa using h2⟩
    | [c], h1, h2 => simp at h2; exact absurd h2 (by decide)
    | [], h1, h2 => simp at h1
  rw [dotScan_eq] at h
  obtain ⟨t', h', rfl⟩ := preRes_ok h
  obtain ⟨a, im, h1, h2, rfl⟩ := seq_ok h'
  obtain ⟨ds, ex, h3, h4, rfl⟩ := seq_ok h1
  rw [List.length_append, ← List.drop_drop] at h2
  obtain ⟨c1, rfl, t1, e1⟩ := decRun_ok h3
  rw [List.drop_left] at h2 h4
  obtain ⟨g1, g2, rest, rfl⟩ := expImag_ok h4 h2
  exact ⟨⟨'.' :: d :: ds, ex, im, by simp, .dot (DigitPart.iff.2 ⟨d, ds, rfl, hdig, t1⟩), g1, g2⟩, rest, by simp⟩

/-! ### Longest -/

theorem ends_of {d : Char → Bool} {c : Char} {cs : List Char} (h : d c = false) (h' : c ≠ '_') : Ends d (c :: cs) :=
  ⟨h, h'⟩

theorem expImag_longest {ex' im' rest ex im : List Char} (h1 : ex' = [] ∨ Exponent true ex')
    (h2 : im' = [] ∨ im' = ['j'] ∨ im' = ['J'])
    (h3 : exponentScan (ex' ++ (im' ++ rest)) = .ok ex)
    (h4 : imagScan ((ex' ++ (im' ++ rest)).drop ex.length) = .ok im) :
    ex'.length + im'.length ≤ ex.length + im.length := by
  have himag : ∀ {cs : List Char}, (im' = [] ∨ im' = ['j'] ∨ im' = ['J']) → cs = im' ++ rest →
      imagScan cs = .ok im → im'.length ≤ im.length := by
    intro cs h e hi
    rcases h with rfl | rfl | rfl
    · simp
    · subst e; simp [imagScan] at hi; simp [← hi]
    · subst e; simp [imagScan] at hi; simp [← hi]
  rcases h1 with rfl | ⟨c, sign, ds, rfl, hc, hs, ht⟩
  · simp only [List.nil_append] at h3 h4
    rcases h2 with rfl | h2
    · simp
    · have hn : exponentScan (im' ++ rest) = .ok [] := by
        apply exponentScan_none
        rcases h2 with rfl | rfl <;> simp
      rw [hn] at h3; simp at h3; subst h3
      have := himag (.inr h2) rfl h4
      simpa using this
  · simp only [if_true] at ht
    by_cases hx : sign = [] ∧ ds = [] ∧ im' = []
    · obtain ⟨rfl, rfl, rfl⟩ := hx
      have : 1 ≤ ex.length := by
        rcases exponentScan_ok h3 with ⟨_, hn⟩ | ⟨c', s', d', r', _, _, rfl, _⟩
        · exact absurd (by simpa using hc) hn
        · simp
      simp; omega
    · have hex : exponentScan (c :: (sign ++ ds) ++ (im' ++ rest)) =
          preRes (c :: sign) (decRun (ds ++ (im' ++ rest))) := by
        rcases hs with rfl | hs
        · rw [List.nil_append, List.cons_append, exponentScan_nosign hc]
          intro hpm
          apply hx
          cases ht with
          | nil =>
            rcases h2 with rfl | rfl | rfl
            · exact ⟨rfl, rfl, rfl⟩
            · simp at hpm
            · simp at hpm
          | digit hd' _ =>
            simp at hpm
            rcases hpm with rfl | rfl <;> exact absurd hd' (by decide)
          | under _ _ => simp at hpm
        · rcases hs with rfl | rfl
          · simp only [List.cons_append, List.nil_append]
            exact exponentScan_sign hc (.inl rfl)
          · simp only [List.cons_append, List.nil_append]
            exact exponentScan_sign hc (.inr rfl)
      rw [hex, decRun_append (by simpa [isDec_eq] using ht), preRes_preRes] at h3
      rcases h2 with rfl | h2
      · obtain ⟨t', _, rfl⟩ := preRes_ok h3
        simp; omega
      · have hen : Ends isDigit (im' ++ rest) := by
          rcases h2 with rfl | rfl <;> exact ends_of (by decide) (by decide)
        rw [decRun, digitRun_ends hen] at h3
        simp only [preRes, List.append_nil, Except.ok.injEq] at h3
        subst h3
        rw [show c :: sign ++ ds = c :: (sign ++ ds) from rfl] at h4 ⊢
        rw [List.drop_left] at h4
        have := himag (.inr h2) rfl h4
        omega

theorem ends_expImag {ex im rest : List Char} (h1 : ex = [] ∨ Exponent true ex)
    (h2 : im = [] ∨ im = ['j'] ∨ im = ['J']) (hne : ¬ (ex = [] ∧ im = [])) :
    Ends isDigit (ex ++ (im ++ rest)) ∧ hd (ex ++ (im ++ rest)) ≠ '.' := by
  rcases h1 with rfl | ⟨c, sign, ds, rfl, hc, _⟩
  · rcases h2 with rfl | rfl | rfl
    · simp at hne
    · exact ⟨ends_of (by decide) (by decide), by simp⟩
    · exact ⟨ends_of (by decide) (by decide), by simp⟩
  · rcases hc with rfl | rfl
    · exact ⟨ends_of (by decide) (by decide), by simp⟩
    · exact ⟨ends_of (by decide) (by decide), by simp⟩

theorem decScan_longest {t' rest t : List Char} (h : DecNumber true t')
    (hs : decScan (t' ++ rest) = .ok t) (hc : isDigit (hd (t' ++ rest)) = true) :
    t'.length ≤ t.length := by
  obtain ⟨m, ex', im', rfl, hm, hex, him⟩ := h
  obtain ⟨ds, fr, ex, im, h1, h2, h3, h4, rfl⟩ := decScan_ok hs
  have hlen : ∀ {u v : List Char}, DigitTail isDigit u → decRun (u ++ v) = .ok ds → u.length ≤ ds.length := by
    intro u v hu hr
    rw [decRun_append hu] at hr
    obtain ⟨_, _, rfl⟩ := preRes_ok hr
    simp
  cases hm with
  | int hp hz =>
    by_cases hne : ex' = [] ∧ im' = []
    · obtain ⟨rfl, rfl⟩ := hne
      simp only [List.append_nil] at h1 ⊢
      have := hlen hp.tail h1
      simp; omega
    · obtain ⟨e1, e2⟩ := ends_expImag (rest := rest) hex him hne
      simp only [List.append_assoc] at h1 h2 h3 h4
      rw [decRun_exact hp.tail e1] at h1
      simp at h1; subst h1
      rw [List.drop_left] at h2 h3 h4
      rw [fractionScan_none e2] at h2; simp at h2; subst h2
      have := expImag_longest hex him h3 h4
      simp; omega
  | @point u hp hz =>
    have hed : Ends isDigit ('.' :: (ex' ++ (im' ++ rest))) := ends_of (by decide) (by decide)
    simp only [List.append_assoc, List.cons_append, List.nil_append] at h1 h2 h3 h4
    rw [decRun_exact hp.tail hed] at h1
    simp at h1; subst h1
    rw [List.drop_left] at h2 h3 h4
    by_cases hne : ex' = [] ∧ im' = []
    · obtain ⟨rfl, rfl⟩ := hne
      have : 1 ≤ fr.length := by
        rcases fractionScan_ok h2 with ⟨_, h⟩ | ⟨f, r, rfl, _⟩
        · simp at h
        · simp
      simp; omega
    · obtain ⟨e1, e2⟩ := ends_expImag (rest := rest) hex him hne
      rw [fractionScan_dot e1.2, decRun, digitRun_ends e1] at h2
      simp [preRes] at h2; subst h2
      simp only [List.length_singleton, List.drop_succ_cons, List.drop_zero] at h3 h4
      have := expImag_longest hex him h3 h4
      simp; omega
  | @frac u fs hp hz hf =>
    have hed : Ends isDigit ('.' :: (fs ++ (ex' ++ (im' ++ rest)))) := ends_of (by decide) (by decide)
    simp only [List.append_assoc, List.cons_append, List.nil_append] at h1 h2 h3 h4
    rw [decRun_exact hp.tail hed] at h1
    simp at h1; subst h1
    rw [List.drop_left] at h2 h3 h4
    have hu : hd (fs ++ (ex' ++ (im' ++ rest))) ≠ '_' := by
      have := hf.hd (ex' ++ (im' ++ rest))
      intro h; rw [h] at this; exact absurd this (by decide)
    rw [fractionScan_dot hu, decRun_append hf.tail] at h2
    by_cases hne : ex' = [] ∧ im' = []
    · obtain ⟨rfl, rfl⟩ := hne
      rw [preRes_preRes] at h2
      obtain ⟨_, _, rfl⟩ := preRes_ok h2
      simp
    · obtain ⟨e1, e2⟩ := ends_expImag (rest := rest) hex him hne
      rw [decRun, digitRun_ends e1] at h2
      simp [preRes] at h2; subst h2
      simp only [List.length_cons, List.drop_succ_cons, List.drop_left] at h3 h4
      have := expImag_longest hex him h3 h4
      simp; omega
  | dot hf => simp at hc; exact absurd hc (by decide)

theorem dotScan_longest {t' rest t : List Char} (h : DecNumber true t')
    (hs : dotScan (t' ++ rest) = .ok t) (hc : dotDigit (t' ++ rest)) : t'.length ≤ t.length := by
  obtain ⟨m, ex', im', rfl, hm, hex, him⟩ := h
  have hno : ∀ {ds v : List Char}, DigitPart ds → ¬ dotDigit (ds ++ v) := by
    rintro ds v hp ⟨h1, _⟩
    have := hp.hd v
    rw [h1] at this; exact absurd this (by decide)
  cases hm with
  | int hp hz => rw [List.append_assoc] at hc; exact absurd hc (hno hp)
  | point hp hz => rw [List.append_assoc, List.append_assoc] at hc; exact absurd hc (hno hp)
  | frac hp hz hf => rw [List.append_assoc, List.append_assoc] at hc; exact absurd hc (hno hp)
  | dot hf =>
    obtain ⟨d, u, rfl, hdg, hu⟩ := hf
    simp only [List.cons_append, List.append_assoc] at hs
    rw [dotScan_eq] at hs
    obtain ⟨t1, h, rfl⟩ := preRes_ok hs
    obtain ⟨a, im, h1, h2, rfl⟩ := seq_ok h
    obtain ⟨ds, ex, h3, h4, rfl⟩ := seq_ok h1
    rw [List.length_append, ← List.drop_drop] at h2
    by_cases hne : ex' = [] ∧ im' = []
    · obtain ⟨rfl, rfl⟩ := hne
      rw [isDec_eq] at hu
      rw [decRun_append hu] at h3
      obtain ⟨_, _, rfl⟩ := preRes_ok h3
      simp
    · obtain ⟨e1, e2⟩ := ends_expImag (rest := rest) hex him hne
      rw [isDec_eq] at hu
      rw [decRun_exact hu e1] at h3
      simp at h3; subst h3
      rw [List.drop_left] at h2 h4
      have := expImag_longest hex him h4 h2
      simp; omega

/-! ### Completeness -/

/-- What follows does not continue a number. -/
def NumEnd (rest : List Char) : Prop :=
  isDigit (hd rest) = false ∧ hd rest ≠ '_' ∧ hd rest ≠ '.' ∧ isAsciiLetter (hd rest) = false

theorem Exponent.lax {ex} (h : Exponent false ex) : Exponent true ex := by
  obtain ⟨c, s, ds, h1, h2, h3, h4⟩ := h
  exact ⟨c, s, ds, h1, h2, h3, by simp at h4; simpa [isDec_eq] using h4.tail⟩

theorem imagScan_exact {im rest} (h : im = [] ∨ im = ['j'] ∨ im = ['J']) (he : NumEnd rest) :
    imagScan (im ++ rest) = .ok im := by
  rcases h with rfl | rfl | rfl
  · have : ¬ (hd rest = 'j' ∨ hd rest = 'J') := by
      rintro (h | h) <;> (have := he.2.2.2; rw [h] at this; exact absurd this (by decide))
    simp [imagScan, this]
  · simp [imagScan]
  · simp [imagScan]

theorem expScan_exact {ex im rest} (h1 : ex = [] ∨ Exponent false ex)
    (h2 : im = [] ∨ im = ['j'] ∨ im = ['J']) (he : NumEnd rest) :
    exponentScan (ex ++ (im ++ rest)) = .ok ex := by
  have hend : Ends isDigit (im ++ rest) := by
    rcases h2 with rfl | rfl | rfl
    · exact ⟨he.1, he.2.1⟩
    · exact ends_of (by decide) (by decide)
    · exact ends_of (by decide) (by decide)
  rcases h1 with rfl | ⟨c, s, ds, rfl, hc, hs, hds⟩
  · apply exponentScan_none
    rcases h2 with rfl | rfl | rfl
    · rintro (h | h) <;>
        (have := he.2.2.2; rw [List.nil_append, List.nil_append] at h; rw [h] at this
         exact absurd this (by decide))
    · simp
    · simp
  · simp only [Bool.false_eq_true, if_false] at hds
    have hfin : ∀ u, preRes u (decRun (ds ++ (im ++ rest))) = .ok (u ++ ds) := by
      intro u; rw [decRun_exact hds.tail hend]; rfl
    rcases hs with rfl | rfl | rfl
    · rw [List.nil_append, List.cons_append, exponentScan_nosign hc, hfin]; · rfl
      have := hds.hd (im ++ rest)
      rintro (h | h) <;> (rw [h] at this; exact absurd this (by decide))
    · simp only [List.cons_append, List.nil_append]
      rw [exponentScan_sign hc (.inl rfl), hfin]; rfl
    · simp only [List.cons_append, List.nil_append]
      rw [exponentScan_sign hc (.inr rfl), hfin]; rfl

theorem ends_after {ex im rest} (h1 : ex = [] ∨ Exponent false ex)
    (h2 : im = [] ∨ im = ['j'] ∨ im = ['J']) (he : NumEnd rest) :
    Ends isDigit (ex ++ (im ++ rest)) ∧ hd (ex ++ (im ++ rest)) ≠ '.' := by
  by_cases hne : ex = [] ∧ im = []
  · obtain ⟨rfl, rfl⟩ := hne
    exact ⟨⟨he.1, he.2.1⟩, he.2.2.1⟩
  · exact ends_expImag (h1.imp_right Exponent.lax) h2 hne

theorem decScan_exact {m ex im rest : List Char} (hm : Mantissa m) (h1 : ex = [] ∨ Exponent false ex)
    (h2 : im = [] ∨ im = ['j'] ∨ im = ['J']) (he : NumEnd rest) (hc : isDigit (hd m) = true) :
    decScan (m ++ (ex ++ im) ++ rest) = .ok (m ++ (ex ++ im)) := by
  obtain ⟨e1, e2⟩ := ends_after h1 h2 he
  have hI := imagScan_exact h2 he
  have hE := expScan_exact h1 h2 he
  have key : ∀ ds fr, decRun (ds ++ (fr ++ (ex ++ (im ++ rest)))) = .ok ds →
      fractionScan (fr ++ (ex ++ (im ++ rest))) = .ok fr →
      decScan ((ds ++ fr) ++ (ex ++ im) ++ rest) = .ok ((ds ++ fr) ++ (ex ++ im)) := by
    intro ds fr g1 g2
    have a1 := seq_of g1 g2
    rw [← List.append_assoc] at a1
    have a2 := seq_of (s2 := exponentScan) a1 hE
    rw [← List.append_assoc] at a2
    have a3 := seq_of (s2 := imagScan) a2 hI
    unfold decScan
    simp only [List.append_assoc] at a3 ⊢
    exact a3
  cases hm with
  | int hp hz =>
    have := key m [] (by simpa using decRun_exact hp.tail e1) (by simpa using fractionScan_none e2)
    simpa using this
  | @point u hp hz =>
    exact key u ['.'] (decRun_exact hp.tail (ends_of (by decide) (by decide)))
      (by
        rw [List.singleton_append, fractionScan_dot e1.2, decRun, digitRun_ends e1]; rfl)
  | @frac u fs hp hz hf =>
    refine key u ('.' :: fs) (decRun_exact hp.tail (ends_of (by decide) (by decide))) ?_
    rw [List.cons_append, fractionScan_dot, decRun_exact hf.tail e1]; · rfl
    have := hf.hd (ex ++ (im ++ rest))
    intro h; rw [h] at this; exact absurd this (by decide)
  | dot hf => simp at hc; exact absurd hc (by decide)

theorem dotScan_exact {fs ex im rest : List Char} (hf : DigitPart fs) (h1 : ex = [] ∨ Exponent false ex)
    (h2 : im = [] ∨ im = ['j'] ∨ im = ['J']) (he : NumEnd rest) :
    dotScan ('.' :: fs ++ (ex ++ im) ++ rest) = .ok ('.' :: fs ++ (ex ++ im)) := by
  obtain ⟨e1, e2⟩ := ends_after h1 h2 he
  have hI := imagScan_exact h2 he
  have hE := expScan_exact h1 h2 he
  obtain ⟨d, u, rfl, hdg, hu⟩ := DigitPart.iff.1 hf
  have a2 := seq_of (s2 := exponentScan) (decRun_exact hu e1) hE
  rw [← List.append_assoc] at a2
  have a3 := seq_of (s2 := imagScan) a2 hI
  simp only [List.cons_append, List.append_assoc] at a3 ⊢
  rw [dotScan_eq, a3]; rfl

/-! ### Other radices -/

theorem zeroScan_radix {x : Char} {cs : List Char} (r : Char) (d : Char → Bool)
    (hx : ((x = 'x' ∨ x = 'X') ∧ r = 'x' ∧ d = isHexDigit) ∨ ((x = 'o' ∨ x = 'O') ∧ r = 'o' ∧ d = isOctDigit) ∨
      ((x = 'b' ∨ x = 'B') ∧ r = 'b' ∧ d = isBinDigit)) :
    zeroScan ('0' :: x :: cs) =
      if d (hd cs) = true ∨ hd cs = '_' then preRes ['0', x] (digitRun d (fun p => .badRadix p r) cs)
      else .error ((fun p => .badRadix p r), 2) := by
  have hgen : ∀ r d, Scan.pre ['0'] (radixScan r d) ('0' :: x :: cs) =
      if d (hd cs) = true ∨ hd cs = '_' then preRes ['0', x] (digitRun d (fun p => .badRadix p r) cs)
      else .error ((fun p => .badRadix p r), 2) := by
    intro r d
    rw [show ('0' :: x :: cs) = ['0'] ++ (x :: cs) from rfl, pre_append]
    simp only [radixScan, hd_cons, List.drop_succ_cons, List.drop_zero]
    split
    · rw [show (x :: cs) = [x] ++ cs from rfl, pre_append, preRes_preRes]; rfl
    · rfl
  unfold zeroScan
  simp only [List.drop_succ_cons, List.drop_zero, hd_cons]
  rcases hx with ⟨hx, rfl, rfl⟩ | ⟨hx, rfl, rfl⟩ | ⟨hx, rfl, rfl⟩
  · rw [if_pos hx]; exact hgen _ _
  · rw [if_neg (by rcases hx with h | h <;> subst h <;> decide), if_pos hx]; exact hgen _ _
  · rw [if_neg (by rcases hx with h | h <;> subst h <;> decide),
      if_neg (by rcases hx with h | h <;> subst h <;> decide), if_pos hx]; exact hgen _ _

theorem zeroScan_other {c : Char} {cs t : List Char} (hc : c ∉ ['x', 'X', 'o', 'O', 'b', 'B'])
    (h : zeroScan ('0' :: cs) = .ok t) (hh : hd cs = c) : ∃ t', t = '0' :: c :: t' := by
  subst hh
  simp only [List.mem_cons, List.not_mem_nil, or_false, not_or] at hc
  unfold zeroScan at h
  simp only [List.drop_succ_cons, List.drop_zero, hc, or_self, if_false] at h
  generalize hw : '0' :: hd cs :: _ = w at h
  have h := (pre_eq w _ _).symm.trans h
  obtain ⟨t', _, rfl⟩ := preRes_ok h
  rw [← hw]
  exact ⟨_, rfl⟩

end Verif
