import Verif.Proof.Numbers
import Verif.Spec.LexGrammar

/-!
# The number scanners read the numbers of the lexical grammar
-/

namespace Verif
namespace LG
attribute [-simp] List.drop_one List.tail_drop

/-- `s` reads the relation `R`. -/
def Reads (s : Scan) (R : List Char → List Char → List Char → Prop) : Prop :=
  ∀ cs txt, (s cs = .ok txt ↔ R cs txt (cs.drop txt.length)) ∧ ∀ r, R cs txt r → r = cs.drop txt.length

theorem Reads.iff {s R} (h : Reads s R) {cs txt} : s cs = .ok txt ↔ R cs txt (cs.drop txt.length) := (h cs txt).1
theorem Reads.rest {s R} (h : Reads s R) {cs txt r} (hr : R cs txt r) : r = cs.drop txt.length := (h cs txt).2 r hr
theorem Reads.ok {s R} (h : Reads s R) {cs txt r} (hr : R cs txt r) : s cs = .ok txt := by
  rw [h.iff, ← h.rest hr]; exact hr

theorem stops_iff {P : Char → Prop} {cs : List Char} (h0 : ¬ P '\x00') : Stops P cs ↔ ¬ P (hd cs) := by
  cases cs with
  | nil => simp [Stops, h0]
  | cons c cs => simp [Stops]

theorem ends_iff {d : Char → Bool} {cs : List Char} (h0 : d '\x00' = false) :
    Stops (fun c => d c = true ∨ c = '_') cs ↔ Ends d cs := by
  rw [stops_iff (by simp [h0])]
  simp [Ends]

theorem reads_digits {d : Char → Bool} {e} (h0 : d '\x00' = false) (h_ : d '_' = false) :
    Reads (digitRun d e) (Digits d) := by
  intro cs txt
  constructor
  · constructor
    · intro h
      obtain ⟨rest, rfl, h1, h2⟩ := digitRun_ok h0 h_ h
      rw [List.drop_left]
      exact ⟨rfl, h1, (ends_iff h0).2 h2⟩
    · rintro ⟨h1, h2, h3⟩
      generalize cs.drop txt.length = r at h1 h3
      subst h1
      rw [digitRun_append h2 h_, digitRun_ends ((ends_iff h0).1 h3)]
      simp [preRes]
  · rintro r ⟨rfl, _⟩; simp

theorem reads_dec : Reads decRun (Digits isDec) := by
  rw [isDec_eq]; exact reads_digits (by decide) (by decide)

theorem reads_fraction : Reads fractionScan Fraction := by
  intro cs txt
  constructor
  · constructor
    · intro h
      by_cases hd0 : hd cs = '.'
      · obtain ⟨r, rfl⟩ := (hd_eq_iff (by decide)).mp hd0
        by_cases h2 : hd r = '_'
        · simp [fractionScan, h2] at h
        · rw [fractionScan_dot h2] at h
          obtain ⟨f, hf, rfl⟩ := preRes_ok h
          exact .yes ((stops_iff (by decide)).2 h2) (reads_dec.iff.1 hf)
      · rw [fractionScan_none hd0] at h
        simp at h; subst h
        exact .no ((stops_iff (by decide)).2 hd0)
    · intro h
      generalize cs.drop txt.length = r at h
      cases h with
      | no h => exact fractionScan_none ((stops_iff (by decide)).1 h)
      | yes h1 h2 =>
        rw [fractionScan_dot ((stops_iff (by decide)).1 h1), reads_dec.ok h2]; rfl
  · intro r h
    cases h with
    | no => rfl
    | yes h1 h2 => rw [reads_dec.rest h2]; simp

theorem reads_power : Reads exponentScan Power := by
  intro cs txt
  constructor
  · constructor
    · intro h
      by_cases he : hd cs = 'e' ∨ hd cs = 'E'
      · obtain ⟨c, r, rfl, hc⟩ : ∃ c r, cs = c :: r ∧ (c = 'e' ∨ c = 'E') := by
          cases cs with
          | nil => simp at he
          | cons c r => exact ⟨c, r, rfl, he⟩
        by_cases hs : hd r = '+' ∨ hd r = '-'
        · obtain ⟨s, r, rfl, hs'⟩ : ∃ s r', r = s :: r' ∧ (s = '+' ∨ s = '-') := by
            cases r with
            | nil => simp at hs
            | cons s r => exact ⟨s, r, rfl, hs⟩
          rw [exponentScan_sign hc hs'] at h
          obtain ⟨f, hf, rfl⟩ := preRes_ok h
          exact .signed hc hs' (reads_dec.iff.1 hf)
        · rw [exponentScan_nosign hc hs] at h
          obtain ⟨f, hf, rfl⟩ := preRes_ok h
          exact .plain hc ((stops_iff (by decide)).2 hs) (reads_dec.iff.1 hf)
      · rw [exponentScan_none he] at h
        simp at h; subst h
        exact .no ((stops_iff (by decide)).2 he)
    · intro h
      generalize cs.drop txt.length = r at h
      cases h with
      | no h => exact exponentScan_none ((stops_iff (by decide)).1 h)
      | plain h1 h2 h3 => rw [exponentScan_nosign h1 ((stops_iff (by decide)).1 h2), reads_dec.ok h3]; rfl
      | signed h1 h2 h3 => rw [exponentScan_sign h1 h2, reads_dec.ok h3]; rfl
  · intro r h
    cases h with
    | no => rfl
    | plain h1 h2 h3 => rw [reads_dec.rest h3]; simp
    | signed h1 h2 h3 => rw [reads_dec.rest h3]; simp

theorem reads_suffix : Reads imagScan Suffix := by
  intro cs txt
  constructor
  · constructor
    · intro h
      unfold imagScan at h
      by_cases hj : hd cs = 'j' ∨ hd cs = 'J'
      · rw [if_pos hj] at h
        simp at h; subst h
        cases cs with
        | nil => simp at hj
        | cons c r => exact .yes hj
      · rw [if_neg hj] at h
        simp at h; subst h
        exact .no ((stops_iff (by decide)).2 hj)
    · intro h
      generalize cs.drop txt.length = r at h
      cases h with
      | no h => have := (stops_iff (by decide)).1 h; simp [imagScan, this]
      | yes h => simp [imagScan, h]
  · intro r h
    cases h <;> rfl

/-- One relation after the other. -/
def Then (R S : List Char → List Char → List Char → Prop) (cs txt r : List Char) : Prop :=
  ∃ u b v, R cs u b ∧ S b v r ∧ txt = u ++ v

theorem Reads.seq {s1 s2 R S} (h1 : Reads s1 R) (h2 : Reads s2 S) : Reads (s1.seq s2) (Then R S) := by
  intro cs txt
  constructor
  · constructor
    · intro h
      obtain ⟨a, b, e1, e2, rfl⟩ := seq_ok h
      refine ⟨a, _, b, h1.iff.1 e1, ?_, rfl⟩
      have := h2.iff.1 e2
      rwa [List.drop_drop, ← List.length_append] at this
    · rintro ⟨u, b, v, e1, e2, rfl⟩
      have e := h1.rest e1
      unfold Scan.seq
      rw [h1.ok e1]
      dsimp only
      rw [pre_eq, ← e, h2.ok e2]; rfl
  · rintro r ⟨u, b, v, e1, e2, rfl⟩
    rw [h2.rest e2, h1.rest e1, List.drop_drop, List.length_append]

theorem digits_cons {d : Char → Bool} {c : Char} {cs ds a : List Char} (hc : d c = true) :
    Digits d cs ds a → Digits d (c :: cs) (c :: ds) a := by
  rintro ⟨rfl, h2, h3⟩
  exact ⟨rfl, .digit hc h2, h3⟩

theorem digits_uncons {d : Char → Bool} {c : Char} {cs ds a : List Char} (hc : d c = true) (h_ : d '_' = false)
    (h : Digits d (c :: cs) ds a) : ∃ ds', ds = c :: ds' ∧ Digits d cs ds' a := by
  obtain ⟨h1, h2, h3⟩ := h
  cases h2 with
  | nil =>
    simp only [List.nil_append] at h1
    subst h1
    exact absurd (.inl hc) (h3 c rfl)
  | digit h4 h5 =>
    simp only [List.cons_append, List.cons.injEq] at h1
    obtain ⟨rfl, rfl⟩ := h1
    exact ⟨_, rfl, rfl, h5, h3⟩
  | under h4 h5 =>
    simp only [List.cons_append, List.cons.injEq] at h1
    obtain ⟨rfl, _⟩ := h1
    rw [h_] at hc; cases hc

theorem number_decimal {c : Char} {cs txt r : List Char} (hc : isDec c = true) (h0 : c ≠ '0') :
    Number (c :: cs) txt r ↔ Then (Then (Then (Digits isDec) Fraction) Power) Suffix (c :: cs) txt r := by
  constructor
  · intro h
    cases h with
    | decimal _ _ h1 h2 h3 h4 => exact ⟨_, _, _, ⟨_, _, _, ⟨_, _, _, digits_cons hc h1, h2, rfl⟩, h3, rfl⟩, h4, rfl⟩
    | point => exact absurd hc (by decide)
    | radix => exact absurd rfl h0
    | zero => exact absurd rfl h0
  · rintro ⟨_, _, _, ⟨_, _, _, ⟨_, _, _, h1, h2, rfl⟩, h3, rfl⟩, h4, rfl⟩
    obtain ⟨ds, rfl, h1'⟩ := digits_uncons hc (by decide) h1
    exact .decimal hc h0 h1' h2 h3 h4

theorem decScan_iff {c : Char} {cs txt : List Char} (hc : isDigit c = true) (h0 : c ≠ '0') :
    (decScan (c :: cs) = .ok txt ↔ Number (c :: cs) txt ((c :: cs).drop txt.length)) ∧
    ∀ r, Number (c :: cs) txt r → r = (c :: cs).drop txt.length := by
  rw [← isDec_eq] at hc
  have h := ((reads_dec.seq reads_fraction).seq reads_power).seq reads_suffix
  constructor
  · rw [number_decimal hc h0]; exact h.iff
  · intro r hr; exact h.rest ((number_decimal hc h0).1 hr)

theorem dotScan_iff {c : Char} {cs txt : List Char} (hc : isDigit c = true) :
    (dotScan ('.' :: c :: cs) = .ok txt ↔ Number ('.' :: c :: cs) txt (('.' :: c :: cs).drop txt.length)) ∧
    ∀ r, Number ('.' :: c :: cs) txt r → r = ('.' :: c :: cs).drop txt.length := by
  rw [← isDec_eq] at hc
  have h := (reads_dec.seq reads_power).seq reads_suffix
  have key : ∀ r, Number ('.' :: c :: cs) txt r ↔ ∃ v, txt = '.' :: c :: v ∧ Then (Then (Digits isDec) Power) Suffix cs v r := by
    intro r
    constructor
    · intro hn
      cases hn with
      | point _ h1 h2 h3 => exact ⟨_, by simp, _, _, _, ⟨_, _, _, h1, h2, rfl⟩, h3, rfl⟩
      | decimal h1 => exact absurd h1 (by decide)
    · rintro ⟨v, rfl, _, _, _, ⟨_, _, _, h1, h2, rfl⟩, h3, rfl⟩
      have := Number.point hc h1 h2 h3
      simpa using this
  rw [dotScan_eq]
  constructor
  · rw [key]
    constructor
    · intro hs
      obtain ⟨v, hv, rfl⟩ := preRes_ok hs
      exact ⟨v, rfl, h.iff.1 hv⟩
    · rintro ⟨v, rfl, hv⟩
      rw [h.iff.2 hv]; rfl
  · intro r hr
    obtain ⟨v, rfl, hv⟩ := (key r).1 hr
    rw [h.rest hv]; simp

theorem radix_not_nul {d} : ¬ Radix '\x00' d := by
  intro h; cases h <;> rename_i h <;> rcases h with h | h <;> cases h

theorem radix_scan {x : Char} {d : Char → Bool} {cs txt : List Char} (hx : Radix x d) :
    (zeroScan ('0' :: x :: cs) = .ok txt ↔ ∃ ds, txt = '0' :: x :: ds ∧ ds ≠ [] ∧ Digits d cs ds (cs.drop ds.length)) ∧
    ∀ ds r, Digits d cs ds r → r = cs.drop ds.length := by
  have gen : ∀ rc (d : Char → Bool), d '\x00' = false → d '_' = false →
      zeroScan ('0' :: x :: cs) = (if d (hd cs) = true ∨ hd cs = '_' then
        preRes ['0', x] (digitRun d (fun p => .badRadix p rc) cs)
        else .error ((fun p => .badRadix p rc), 2)) →
      (zeroScan ('0' :: x :: cs) = .ok txt ↔ ∃ ds, txt = '0' :: x :: ds ∧ ds ≠ [] ∧ Digits d cs ds (cs.drop ds.length)) ∧
      ∀ ds r, Digits d cs ds r → r = cs.drop ds.length := by
    intro rc d h0 h_ hz
    have hr := reads_digits (e := fun p => .badRadix p rc) h0 h_
    refine ⟨?_, fun ds r h => hr.rest h⟩
    rw [hz]
    constructor
    · intro h
      split at h
      · rename_i hf
        obtain ⟨ds, hds, rfl⟩ := preRes_ok h
        have hD := hr.iff.1 hds
        refine ⟨ds, rfl, ?_, hD⟩
        rintro rfl
        exact ((stops_iff (by simp [h0])).1 hD.2.2) hf
      · simp at h
    · rintro ⟨ds, rfl, hne, hD⟩
      rw [if_pos, hr.iff.2 hD]
      · rfl
      · obtain ⟨e, ht, _⟩ := hD
        cases ht with
        | nil => exact absurd rfl hne
        | digit h => rw [e]; exact .inl h
        | under h => rw [e]; exact .inr rfl
  cases hx with
  | hex hx => rw [isHex_eq]; exact gen 'x' isHexDigit (by decide) (by decide) (zeroScan_radix 'x' isHexDigit (.inl ⟨hx, rfl, rfl⟩))
  | oct hx => rw [isOct_eq]; exact gen 'o' isOctDigit (by decide) (by decide) (zeroScan_radix 'o' isOctDigit (.inr (.inl ⟨hx, rfl, rfl⟩)))
  | bin hx => rw [isBin_eq]; exact gen 'b' isBinDigit (by decide) (by decide) (zeroScan_radix 'b' isBinDigit (.inr (.inr ⟨hx, rfl, rfl⟩)))

theorem plain_digits (cs : List Char) : cs = cs.takeWhile isDigit ++ cs.drop (cs.takeWhile isDigit).length ∧
    (∀ y ∈ cs.takeWhile isDigit, isDigit y = true) ∧ Stops (fun y => isDigit y = true) (cs.drop (cs.takeWhile isDigit).length) := by
  induction cs with
  | nil => simp [Stops]
  | cons c cs ih =>
    by_cases h : isDigit c = true
    · simp only [List.takeWhile_cons, h, if_true, List.cons_append, List.length_cons, List.drop_succ_cons]
      refine ⟨by rw [← ih.1], ?_, ih.2.2⟩
      intro y hy
      rcases List.mem_cons.1 hy with rfl | hy
      · exact h
      · exact ih.2.1 y hy
    · simp [List.takeWhile_cons, h, Stops]

theorem plain_unique {cs ds a : List Char} (h : cs = ds ++ a) (h1 : ∀ y ∈ ds, isDigit y = true)
    (h2 : Stops (fun y => isDigit y = true) a) : ds = cs.takeWhile isDigit := by
  subst h
  rw [List.takeWhile_append_of_pos h1]
  cases a with
  | nil => simp
  | cons c a => have := h2 c rfl; simp [List.takeWhile_cons, this]

/-- The last part of `zeroScan`. -/
def zeroTail3 (ds fr ex : List Char) : Scan := fun cs =>
  match imagScan cs with
  | .error e => .error e
  | .ok im =>
    if ds.any (· != '0') = true ∧ fr = [] ∧ ex = [] ∧ im = [] then .error (.leadingZero, 0)
    else .ok im

@[inherit_doc zeroTail3]
def zeroTail2 (ds fr : List Char) : Scan := fun cs =>
  match exponentScan cs with
  | .error e => .error e
  | .ok ex => Scan.pre ex (zeroTail3 ds fr ex) cs

@[inherit_doc zeroTail3]
def zeroTail (ds : List Char) : Scan := fun cs =>
  match fractionScan cs with
  | .error e => .error e
  | .ok fr => Scan.pre fr (zeroTail2 ds fr) cs

theorem zeroScan_plain {cs : List Char} (hn : ∀ d, ¬ Radix (hd cs) d) :
    zeroScan ('0' :: cs) = Scan.pre ('0' :: hd cs :: (cs.drop 1).takeWhile isDigit)
      (zeroTail ((cs.drop 1).takeWhile isDigit)) ('0' :: cs) := by
  have h1 : ¬ (hd cs = 'x' ∨ hd cs = 'X') := fun h => hn _ (.hex h)
  have h2 : ¬ (hd cs = 'o' ∨ hd cs = 'O') := fun h => hn _ (.oct h)
  have h3 : ¬ (hd cs = 'b' ∨ hd cs = 'B') := fun h => hn _ (.bin h)
  simp only [zeroScan, List.drop_succ_cons, List.drop_zero, h1, h2, h3, if_false]
  rfl

theorem preRes_iff {u : List Char} {r : Except ((Nat → LexErr) × Nat) (List Char)} {t} :
    preRes u r = .ok t ↔ ∃ t', r = .ok t' ∧ t = u ++ t' := by
  refine ⟨preRes_ok, ?_⟩
  rintro ⟨t', rfl, rfl⟩; rfl

theorem zero_iff {cs txt : List Char} (hn : ∀ d, ¬ Radix (hd cs) d) :
    (zeroScan ('0' :: cs) = .ok txt ↔ ∃ r, Number ('0' :: cs) txt r) ∧
    ∀ r, Number ('0' :: cs) txt r → r = ('0' :: cs).drop txt.length := by
  have hsplit : ∀ r, Number ('0' :: cs) txt r ↔ ∃ fr b ex x im, 
      Fraction ((cs.drop 1).drop ((cs.drop 1).takeWhile isDigit).length) fr b ∧ Power b ex x ∧ Suffix x im r ∧
      ¬ (((cs.drop 1).takeWhile isDigit).any (· != '0') = true ∧ fr = [] ∧ ex = [] ∧ im = []) ∧
      txt = '0' :: hd cs :: (cs.drop 1).takeWhile isDigit ++ fr ++ ex ++ im := by
    intro r
    have hz : ∀ (ds fr ex im : List Char), (¬ (ds.any (· != '0') = true ∧ fr = [] ∧ ex = [] ∧ im = [])) ↔
        ((∀ y ∈ ds, y = '0') ∨ fr ≠ [] ∨ ex ≠ [] ∨ im ≠ []) := by
      intro ds fr ex im
      by_cases hz : ∀ y ∈ ds, y = '0'
      · have : ds.any (· != '0') = false := by
          rw [List.any_eq_false]; intro y hy; simp [hz y hy]
        simp only [this, Bool.false_eq_true, false_and, not_false_iff, true_iff]
        exact .inl hz
      · have : ds.any (· != '0') = true := by
          rw [List.any_eq_true]
          simp only [Classical.not_forall] at hz
          obtain ⟨y, hy, h⟩ := hz
          exact ⟨y, hy, by simpa using h⟩
        simp only [this, hz, true_and, false_or]
        constructor
        · intro h
          by_cases h1 : fr = []
          · by_cases h2 : ex = []
            · by_cases h3 : im = []
              · exact absurd ⟨h1, h2, h3⟩ h
              · exact .inr (.inr h3)
            · exact .inr (.inl h2)
          · exact .inl h1
        · rintro (h | h | h) ⟨a, b, c⟩
          · exact h a
          · exact h b
          · exact h c
    constructor
    · intro h
      cases h with
      | decimal h1 h2 => exact absurd rfl h2
      | radix h1 => exact absurd h1 (hn _)
      | zero hc _ h1 h2 h3 h4 h5 h6 h7 =>
        rw [isDec_eq] at h2 h3
        have e := plain_unique h1 h2 h3
        refine ⟨_, _, _, _, _, ?_, h5, h6, (hz _ _ _ _).2 (e ▸ h7), ?_⟩
        · rw [← e, h1, List.drop_left]; exact h4
        · rw [← e, ← hc]; rfl
    · rintro ⟨fr, b, ex, x, im, h4, h5, h6, h7, rfl⟩
      obtain ⟨e1, e2, e3⟩ := plain_digits (cs.drop 1)
      rw [← isDec_eq] at e1 e2 e3 h4 h7 ⊢
      exact .zero rfl hn e1 e2 e3 h4 h5 h6 ((hz _ _ _ _).1 h7)
  constructor
  · simp only [hsplit]
    rw [zeroScan_plain hn, pre_eq, preRes_iff]
    have ed : ('0' :: cs).drop ('0' :: hd cs :: (cs.drop 1).takeWhile isDigit).length =
        (cs.drop 1).drop ((cs.drop 1).takeWhile isDigit).length := by
      rw [List.drop_drop]
      simp only [List.length_cons, List.drop_succ_cons]
      rw [Nat.add_comm]
    rw [ed]
    generalize hA : (cs.drop 1).drop ((cs.drop 1).takeWhile isDigit).length = A
    unfold zeroTail
    constructor
    · rintro ⟨t', h, rfl⟩
      cases hf : fractionScan A with
      | error e => rw [hf] at h; cases h
      | ok fr =>
        rw [hf] at h
        dsimp only at h
        rw [pre_eq, preRes_iff] at h
        obtain ⟨t2, h, rfl⟩ := h
        have hF := reads_fraction.iff.1 hf
        unfold zeroTail2 at h
        generalize A.drop fr.length = B at hF h
        cases he : exponentScan B with
        | error e => rw [he] at h; cases h
        | ok ex =>
          rw [he] at h
          dsimp only at h
          rw [pre_eq, preRes_iff] at h
          obtain ⟨t3, h, rfl⟩ := h
          have hE := reads_power.iff.1 he
          unfold zeroTail3 at h
          generalize B.drop ex.length = C at hE h
          cases hi : imagScan C with
          | error e => rw [hi] at h; cases h
          | ok im =>
            rw [hi] at h
            dsimp only at h
            split at h
            · cases h
            · cases h
              have hI := reads_suffix.iff.1 hi
              exact ⟨_, fr, B, ex, C, t3, hF, hE, hI, by assumption, by simp⟩
    · rintro ⟨r, fr, b, ex, x, im, h4, h5, h6, h7, rfl⟩
      refine ⟨fr ++ (ex ++ im), ?_, by simp⟩
      rw [reads_fraction.ok h4]
      dsimp only
      rw [pre_eq, preRes_iff, ← reads_fraction.rest h4]
      refine ⟨ex ++ im, ?_, rfl⟩
      unfold zeroTail2
      rw [reads_power.ok h5]
      dsimp only
      rw [pre_eq, preRes_iff, ← reads_power.rest h5]
      refine ⟨im, ?_, rfl⟩
      unfold zeroTail3
      rw [reads_suffix.ok h6]
      dsimp only
      rw [if_neg h7]
  · intro r h
    obtain ⟨fr, b, ex, x, im, h4, h5, h6, h7, rfl⟩ := (hsplit r).1 h
    rw [reads_suffix.rest h6, reads_power.rest h5, reads_fraction.rest h4]
    simp only [List.drop_drop, List.length_append, List.length_cons, List.drop_succ_cons, Nat.add_right_comm _ 1]
    congr 1
    omega

theorem zeroScan_iff {cs txt : List Char} :
    (zeroScan ('0' :: cs) = .ok txt ↔ ∃ r, Number ('0' :: cs) txt r) ∧
    ∀ r, Number ('0' :: cs) txt r → r = ('0' :: cs).drop txt.length := by
  by_cases hn : ∀ d, ¬ Radix (hd cs) d
  · exact zero_iff hn
  · simp only [Classical.not_forall, Classical.not_not] at hn
    obtain ⟨d, hx⟩ := hn
    cases cs with
    | nil => exact absurd hx radix_not_nul
    | cons x cs =>
      rw [hd_cons] at hx
      have hs := radix_scan (cs := cs) (txt := txt) hx
      have key : ∀ r, Number ('0' :: x :: cs) txt r ↔ ∃ ds, txt = '0' :: x :: ds ∧ ds ≠ [] ∧ Digits d cs ds r := by
        intro r
        constructor
        · intro h
          cases h with
          | decimal h1 h2 => exact absurd rfl h2
          | @radix _ d' _ _ _ h1 h2 h3 =>
            have : d' = d := by
              cases h1 <;> cases hx <;> first | rfl | (rename_i a b; rcases a with a | a <;> rcases b with b | b <;> rw [a] at b <;> cases b)
            subst this
            exact ⟨_, rfl, h3, h2⟩
          | zero hc h1 => rw [← hc] at h1; exact absurd hx (h1 d)
        · rintro ⟨ds, rfl, h1, h2⟩
          exact .radix hx h2 h1
      constructor
      · rw [hs.1]
        constructor
        · rintro ⟨ds, rfl, h1, h2⟩; exact ⟨_, .radix hx h2 h1⟩
        · rintro ⟨r, h⟩
          obtain ⟨ds, e, h1, h2⟩ := (key r).1 h
          exact ⟨ds, e, h1, by rw [← hs.2 _ _ h2]; exact h2⟩
      · intro r h
        obtain ⟨ds, rfl, h1, h2⟩ := (key r).1 h
        rw [hs.2 _ _ h2]; simp

end LG
end Verif
