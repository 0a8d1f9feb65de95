import Verif.Proof.LexOuter
import Verif.Spec.Stream

/-!
# Tokenizer: what the token arms have in common
-/

set_option linter.unusedSimpArgs false

namespace Verif
open LexM
attribute [-simp] List.drop_one List.tail_drop

theorem lt_of_hd_ne {cs : List Char} {k : Nat} (h : hd (cs.drop k) ≠ '\x00') : k < cs.length := by
  rcases Nat.lt_or_ge k cs.length with h' | h'
  · exact h'
  · rw [List.drop_eq_nil_of_le h'] at h; simp at h

/-! ### Lengths and errors of scans -/

/-- Errors of the token arms. -/
def LexErr.isArm : LexErr → Bool
  | .mismatch .. | .badRadix .. | .underscoreAfterDot _ | .badUnderscore _ | .leadingZero _
  | .moreData | .unterminated _ | .lexical .. => true
  | _ => false

/-- The scan consumed at most `n` characters, and raised no error of the skipping loops. -/
def Fits (n : Nat) : Except ((Nat → LexErr) × Nat) (List Char) → Prop
  | .ok t => t.length ≤ n
  | .error (e, k) => k ≤ n ∧ ∀ p, (e p).isArm = true

@[simp] theorem fits_ok (n t) : Fits n (.ok t) ↔ t.length ≤ n := Iff.rfl
@[simp] theorem fits_error (n e k) : Fits n (.error (e, k)) ↔ k ≤ n ∧ ∀ p, (e p).isArm = true := Iff.rfl

theorem Fits.mono {n m r} (h : Fits n r) (hm : n ≤ m) : Fits m r := by
  cases r with
  | ok t => simp at h ⊢; omega
  | error e => obtain ⟨e, k⟩ := e; simp at h ⊢; exact ⟨by omega, h.2⟩

/-- The scan never consumes more than the text. -/
def Scan.Bounded (s : Scan) : Prop := ∀ cs, Fits cs.length (s cs)

theorem Scan.pre_fits {s : Scan} {n : Nat} {w cs : List Char} (h : Fits n (s (cs.drop w.length))) :
    Fits (w.length + n) (Scan.pre w s cs) := by
  simp only [Scan.pre]
  cases hs : s (cs.drop w.length) with
  | error e => obtain ⟨e, k⟩ := e; rw [hs] at h; simp at h ⊢; exact h
  | ok u => rw [hs] at h; simp at h ⊢; exact h

theorem Scan.Bounded.pre {s : Scan} (h : s.Bounded) {w cs : List Char} (hw : w.length ≤ cs.length) :
    Fits cs.length (Scan.pre w s cs) := by
  refine (Scan.pre_fits (h (cs.drop w.length))).mono ?_
  simp; omega

theorem Scan.Bounded.seq {s1 s2 : Scan} (h1 : s1.Bounded) (h2 : s2.Bounded) : (s1.seq s2).Bounded := by
  intro cs
  have := h1 cs
  simp only [Scan.seq]
  cases hs : s1 cs with
  | error e => rw [hs] at this; exact this
  | ok t => rw [hs] at this; exact h2.pre this

theorem digitRun_bounded (d) {e} (he : ∀ p, (e p).isArm = true) : (digitRun d e).Bounded := by
  intro cs
  induction cs with
  | nil => simp [digitRun]
  | cons c cs ih =>
    simp only [digitRun]
    split
    · split
      · cases h : digitRun d e cs with
        | ok t => rw [h] at ih; simpa using ih
        | error x => obtain ⟨x, k⟩ := x; rw [h] at ih; simpa using ih
      · simpa using he
    · split
      · cases h : digitRun d e cs with
        | ok t => rw [h] at ih; simpa using ih
        | error x => obtain ⟨x, k⟩ := x; rw [h] at ih; simpa using ih
      · simp

theorem decRun_bounded : (digitRun isDigit .badUnderscore).Bounded :=
  digitRun_bounded _ (by simp [LexErr.isArm])

theorem fractionScan_bounded : fractionScan.Bounded := by
  intro cs
  simp only [fractionScan]
  by_cases h : hd cs = '.'
  · have hl : 0 < cs.length := lt_of_hd_ne (k := 0) (by simp [h])
    rw [if_pos h]
    split
    · simp [LexErr.isArm]; omega
    · exact decRun_bounded.pre (by simp; omega)
  · rw [if_neg h]; simp

theorem exponentScan_bounded : exponentScan.Bounded := by
  intro cs
  simp only [exponentScan]
  by_cases h : hd cs = 'e' ∨ hd cs = 'E'
  · have hl : 0 < cs.length := lt_of_hd_ne (k := 0) (by rcases h with h | h <;> simp [h])
    rw [if_pos h]
    by_cases h2 : hd (cs.drop 1) = '+' ∨ hd (cs.drop 1) = '-'
    · have hl2 : 1 < cs.length := lt_of_hd_ne (k := 1) (by rcases h2 with h | h <;> rw [h] <;> decide)
      rw [if_pos h2]
      exact decRun_bounded.pre (by simp; omega)
    · rw [if_neg h2]
      exact decRun_bounded.pre (by simp; omega)
  · rw [if_neg h]; simp

theorem imagScan_bounded : imagScan.Bounded := by
  intro cs
  simp only [imagScan]
  by_cases h : hd cs = 'j' ∨ hd cs = 'J'
  · have hl : 0 < cs.length := lt_of_hd_ne (k := 0) (by rcases h with h | h <;> simp [h])
    rw [if_pos h]; simp; omega
  · rw [if_neg h]; simp

theorem radixScan_fits (r d) (cs : List Char) (hl : 0 < cs.length) :
    Fits cs.length (radixScan r d cs) := by
  simp only [radixScan]
  split
  · exact (digitRun_bounded _ (by simp [LexErr.isArm])).pre (by simp; omega)
  · simp [LexErr.isArm]; omega

theorem digitRun_pos {d e c cs t} (h : digitRun d e (c :: cs) = .ok t) (hc : d c = true) :
    0 < t.length := by
  simp only [digitRun, hc, if_true] at h
  split at h
  · split at h
    · cases hr : digitRun d e cs <;> simp [hr] at h; rw [← h]; simp
    · simp at h
  · cases hr : digitRun d e cs <;> simp [hr] at h; rw [← h]; simp

theorem seq_pos {s1 s2 : Scan} {cs t} (h : (s1.seq s2) cs = .ok t)
    (h1 : ∀ u, s1 cs = .ok u → 0 < u.length) : 0 < t.length := by
  simp only [Scan.seq, Scan.pre] at h
  cases hs : s1 cs with
  | error e => simp [hs] at h
  | ok u =>
    have := h1 u hs
    rw [hs] at h; simp only at h
    cases h2 : s2 (cs.drop u.length) with
    | error e => simp [h2] at h
    | ok v => simp [h2] at h; rw [← h]; simp; omega

/-- What a number arm may consume: between one character and the rest of the text, except that
`0` consumes the following character even at the end of the text. -/
def NumBound (s : Scan) (cs : List Char) : Prop :=
  Fits (max 2 cs.length) (s cs) ∧ ∀ t, s cs = .ok t → 0 < t.length

theorem decScan_bound (cs : List Char) (h : isDigit (hd cs) = true) : NumBound decScan cs := by
  have hb : decScan.Bounded :=
    ((decRun_bounded.seq fractionScan_bounded).seq exponentScan_bounded).seq imagScan_bounded
  refine ⟨(hb cs).mono (by omega), ?_⟩
  cases cs with
  | nil => simp [isDigit] at h
  | cons c cs =>
    intro t ht
    exact seq_pos ht fun u hu => seq_pos hu fun u hu => seq_pos hu fun u hu =>
      digitRun_pos hu (by simpa using h)

theorem dotScan_bound (cs : List Char) (h : 1 < cs.length) : NumBound dotScan cs := by
  have hb := ((decRun_bounded.seq exponentScan_bounded).seq
    imagScan_bounded).pre (w := [hd cs, hd (cs.drop 1)]) (cs := cs) (by simp; omega)
  refine ⟨hb.mono (by omega), ?_⟩
  intro t ht
  simp only [dotScan, Scan.pre] at ht
  split at ht <;> simp at ht
  rw [← ht]; simp

theorem zeroScan_bound (cs : List Char) (h : hd cs = '0') : NumBound zeroScan cs := by
  have hl0 : 0 < cs.length := lt_of_hd_ne (k := 0) (by simp [h])
  have hpre : ∀ (w : List Char) (s : Scan) t, w ≠ [] → Scan.pre w s cs = .ok t → 0 < t.length := by
    intro w s t hw ht
    simp only [Scan.pre] at ht
    split at ht <;> simp at ht
    rw [← ht]; cases w <;> simp at hw ⊢
  have hradix : ∀ r d, hd (cs.drop 1) ≠ '\x00' →
      Fits (max 2 cs.length) (Scan.pre ['0'] (radixScan r d) cs) := by
    intro r d hne
    have hl1 : 1 < cs.length := lt_of_hd_ne hne
    have := radixScan_fits r d (cs.drop 1) (by simp; omega)
    exact (Scan.pre_fits (w := ['0']) this).mono (by simp; omega)
  refine ⟨?_, ?_⟩
  · simp only [zeroScan]
    by_cases hx : hd (cs.drop 1) = 'x' ∨ hd (cs.drop 1) = 'X'
    · rw [if_pos hx]
      exact hradix _ _ (by rcases hx with h | h <;> rw [h] <;> decide)
    rw [if_neg hx]
    by_cases ho : hd (cs.drop 1) = 'o' ∨ hd (cs.drop 1) = 'O'
    · rw [if_pos ho]
      exact hradix _ _ (by rcases ho with h | h <;> rw [h] <;> decide)
    rw [if_neg ho]
    by_cases hb : hd (cs.drop 1) = 'b' ∨ hd (cs.drop 1) = 'B'
    · rw [if_pos hb]
      exact hradix _ _ (by rcases hb with h | h <;> rw [h] <;> decide)
    rw [if_neg hb]
    generalize hds : (cs.drop 2).takeWhile isDigit = ds
    have hdl : ds.length ≤ cs.length - 2 := by
      rw [← hds]; have := takeWhile_length_le isDigit (cs.drop 2); simpa using this
    refine (Scan.pre_fits (n := cs.length - 2 - ds.length) ?_).mono (by simp; omega)
    have hlen : (cs.drop ('0' :: hd (cs.drop 1) :: ds).length).length = cs.length - 2 - ds.length := by
      simp; omega
    rw [← hlen]
    generalize cs.drop ('0' :: hd (cs.drop 1) :: ds).length = cs'
    have h1 := fractionScan_bounded cs'
    cases hf : fractionScan cs' with
    | error e => rw [hf] at h1; exact h1
    | ok fr =>
      rw [hf] at h1; simp only [fits_ok] at h1
      refine (Scan.pre_fits (n := cs'.length - fr.length) ?_).mono (by omega)
      rw [← List.length_drop]
      generalize cs'.drop fr.length = cs2
      have h2 := exponentScan_bounded cs2
      cases he : exponentScan cs2 with
      | error e => rw [he] at h2; exact h2
      | ok ex =>
        rw [he] at h2; simp only [fits_ok] at h2
        refine (Scan.pre_fits (n := cs2.length - ex.length) ?_).mono (by omega)
        rw [← List.length_drop]
        generalize cs2.drop ex.length = cs3
        have h3 := imagScan_bounded cs3
        cases hi : imagScan cs3 with
        | error e => rw [hi] at h3; exact h3
        | ok im =>
          rw [hi] at h3; simp only [fits_ok] at h3
          dsimp only
          by_cases hc : ds.any (· != '0') = true ∧ fr = [] ∧ ex = [] ∧ im = []
          · rw [if_pos hc]; simp [LexErr.isArm]
          · rw [if_neg hc]; simpa using h3
  · intro t ht
    simp only [zeroScan] at ht
    split at ht
    · exact hpre _ _ _ (by simp) ht
    split at ht
    · exact hpre _ _ _ (by simp) ht
    split at ht
    · exact hpre _ _ _ (by simp) ht
    · exact hpre _ _ _ (by simp) ht

/-! ### Strings -/

theorem tripleBody_length {q cs t} (h : tripleBody q cs = some t) (hq : q ≠ '\x00') :
    t.length ≤ cs.length := by
  induction cs generalizing t with
  | nil => simp [tripleBody] at h
  | cons c cs ih =>
    simp only [tripleBody] at h
    split at h
    · simp at h
    · split at h
      · rename_i hc
        have h1 : 0 < cs.length := lt_of_hd_ne (k := 0) (by simp [hc.2.1, hq])
        have h2 : 1 < cs.length := lt_of_hd_ne (k := 1) (by rw [hc.2.2]; exact hq)
        simp at h; rw [← h]; simp; omega
      · cases hb : tripleBody q cs with
        | none => simp [hb] at h
        | some u =>
          simp [hb] at h
          have := ih hb
          rw [← h]; simpa using this

/-- Common facts about a string arm started at a position where the text starts with a quote. -/
theorem stringResult_facts (s : Nat) (q : Char) (hq : q = '\'' ∨ q = '"') (pfx acc) (l : Lexer)
    (hh : hd l.rest = q) :
    (∃ k txt, stringResult s q pfx acc l =
        .ok (.string s (l.pos + k) (finTrivia acc) txt pfx) (l.fwd k) ∧ 0 < k ∧ k ≤ l.rest.length) ∨
    (∃ e k, stringResult s q pfx acc l = .err e (l.fwd k) ∧ k ≤ l.rest.length ∧
      (e = .moreData ∨ ∃ p, e = .unterminated p)) := by
  have hq0 : q ≠ '\x00' := by rcases hq with h | h <;> subst h <;> decide
  have hl0 : 0 < l.rest.length := lt_of_hd_ne (k := 0) (by simpa [hh] using hq0)
  unfold stringResult
  by_cases h3 : hd (l.rest.drop 1) = q ∧ hd (l.rest.drop 2) = q
  · rw [if_pos h3]
    have hl1 : 1 < l.rest.length := lt_of_hd_ne (by rw [h3.1]; exact hq0)
    have hl2 : 2 < l.rest.length := lt_of_hd_ne (by rw [h3.2]; exact hq0)
    cases hb : tripleBody q (l.rest.drop 3) with
    | none =>
      right
      refine ⟨_, _, rfl, ?_, .inl rfl⟩
      have := takeWhile_length_le (· != '\x00') (l.rest.drop 3)
      simp at this; omega
    | some t =>
      left
      have := tripleBody_length hb hq0
      exact ⟨3 + t.length, q :: q :: q :: t, by simp only [Nat.add_assoc], by omega, by simp at this; omega⟩
  · rw [if_neg h3]
    by_cases h2 : hd (l.rest.drop 1) = q
    · rw [if_pos h2]
      have hl1 : 1 < l.rest.length := lt_of_hd_ne (by rw [h2]; exact hq0)
      left; exact ⟨2, _, rfl, by omega, by omega⟩
    · rw [if_neg h2]
      have hlb := takeWhile_length_le (fun c => !(c == q || c == '\x00' || c == '\r' || c == '\n')) (l.rest.drop 1)
      change (lineBody q (l.rest.drop 1)).length ≤ _ at hlb
      simp only [List.length_drop] at hlb
      generalize lineBody q (l.rest.drop 1) = b at *
      dsimp only
      by_cases hz : hd (l.rest.drop (1 + b.length)) = q
      · rw [if_pos hz]
        have hl1 : 1 + b.length < l.rest.length := lt_of_hd_ne (by rw [hz]; exact hq0)
        left
        exact ⟨b.length + 2, _, by rw [Nat.add_assoc, Nat.add_comm 2], by omega, by omega⟩
      · rw [if_neg hz]
        right
        exact ⟨_, _, rfl, by omega, .inr ⟨_, rfl⟩⟩

/-! ### Tables -/

theorem lookup_mem {α β : Type} [BEq α] [LawfulBEq α] {xs : List (α × β)} {a : α} {b : β}
    (h : xs.lookup a = some b) : (a, b) ∈ xs := by
  induction xs with
  | nil => simp at h
  | cons p ps ih =>
    obtain ⟨x, y⟩ := p
    simp only [List.lookup] at h
    split at h
    · rename_i hx
      simp at h hx; subst h; subst hx; simp
    · exact List.mem_cons_of_mem _ (ih h)

/-- Kinds that matter for brackets or line structure. -/
def Kind.special (k : Kind) : Bool :=
  k.isLayout || k == .EOF || k == .TypeComment || k == .PyLeftParen || k == .PyLeftBracket ||
    k == .PyLeftCurly || k == .PyRightParen || k == .PyRightBracket || k == .PyRightCurly

theorem keyword_not_special : ∀ p ∈ keywords, p.2.special = false := by decide

theorem brStep_of_not_special {k : Kind} (h : k.special = false) (st) : brStep st k = some st := by
  cases k <;> first | rfl | simp [Kind.special, Kind.isLayout] at h

theorem opArms_ok : ∀ a ∈ opArms, 0 < a.len ∧ a.len ≤ 3 ∧ a.p1 ≠ '\x00' ∧
    (2 ≤ a.len → ∃ c, a.p2 = .ch c ∧ c ≠ '\x00') ∧ (3 ≤ a.len → ∃ c, a.p3 = .ch c ∧ c ≠ '\x00') := by
  have h : opArms.all (fun a => decide (0 < a.len ∧ a.len ≤ 3 ∧ a.p1 ≠ '\x00') &&
    (decide (a.len < 2) || match a.p2 with | .ch c => c != '\x00' | _ => false) &&
    (decide (a.len < 3) || match a.p3 with | .ch c => c != '\x00' | _ => false)) = true := by decide
  intro a ha
  have := List.all_eq_true.mp h a ha
  simp only [Bool.and_eq_true, Bool.or_eq_true, decide_eq_true_eq] at this
  obtain ⟨⟨h1, h2⟩, h3⟩ := this
  refine ⟨h1.1, h1.2.1, h1.2.2, fun hl => ?_, fun hl => ?_⟩
  · rcases h2 with h2 | h2
    · omega
    · split at h2
      · rename_i c hc; exact ⟨c, hc, by simpa using h2⟩
      · simp at h2
  · rcases h3 with h2 | h2
    · omega
    · split at h2
      · rename_i c hc; exact ⟨c, hc, by simpa using h2⟩
      · simp at h2

theorem opArms_act : ∀ a ∈ opArms, match a.act with
    | .tok k => k.special = false
    | .openB k c => k.isLayout = false ∧ k ≠ .EOF ∧ k ≠ .TypeComment ∧
        ((k = .PyLeftParen ∧ c = ')') ∨ (k = .PyLeftBracket ∧ c = ']') ∨ (k = .PyLeftCurly ∧ c = '}'))
    | .closeB k c => k.isLayout = false ∧ k ≠ .EOF ∧ k ≠ .TypeComment ∧
        ((k = .PyRightParen ∧ c = ')') ∨ (k = .PyRightBracket ∧ c = ']') ∨
          (k = .PyRightCurly ∧ c = '}')) := by
  intro a ha
  simp only [opArms, List.mem_cons, List.not_mem_nil, or_false] at ha
  rcases ha with h | h | h | h | h | h | h | h | h | h | h | h | h | h | h | h | h | h | h | h | h |
    h | h | h | h | h | h | h | h | h | h | h | h | h | h | h | h | h | h | h | h | h | h | h | h |
    h | h | h <;> subst h <;> simp [Kind.special, Kind.isLayout]

theorem findArm_len {l : Lexer} {a : OpArm}
    (h : findArm (hd l.rest, hd (l.rest.drop 1), hd (l.rest.drop 2)) = some a) :
    a ∈ opArms ∧ 0 < a.len ∧ a.len ≤ l.rest.length ∧ a.p1 = hd l.rest := by
  have hm := List.mem_of_find?_eq_some h
  have ht := List.find?_some h
  obtain ⟨h0, h3, h4, h5, h6⟩ := opArms_ok a hm
  simp only [OpArm.test, Bool.and_eq_true, beq_iff_eq] at ht
  obtain ⟨⟨t1, t2⟩, t3⟩ := ht
  have hl0 : 0 < l.rest.length := lt_of_hd_ne (k := 0) (by simpa [← t1] using h4)
  refine ⟨hm, h0, ?_, t1⟩
  by_cases ha2 : 2 ≤ a.len
  · obtain ⟨c, hc, hc0⟩ := h5 ha2
    rw [hc] at t2; simp [Pat.test] at t2
    have hl1 : 1 < l.rest.length := lt_of_hd_ne (by rw [← t2]; exact hc0)
    by_cases ha3 : 3 ≤ a.len
    · obtain ⟨c, hc, hc0⟩ := h6 ha3
      rw [hc] at t3; simp [Pat.test] at t3
      have hl2 : 2 < l.rest.length := lt_of_hd_ne (by rw [← t3]; exact hc0)
      omega
    · omega
  · omega

/-! ### All arms -/

theorem numResult_facts {s : Scan} {acc : List Trivia} {l : Lexer} (hb : NumBound s l.rest) :
    (∃ k txt, numResult s acc l = .ok (.number l.tokStart (l.pos + k) (finTrivia acc) txt) (l.fwd k) ∧
        0 < k ∧ k ≤ max 2 l.rest.length) ∨
    (∃ e k, numResult s acc l = .err e (l.fwd k) ∧ k ≤ max 2 l.rest.length ∧ e.isArm = true) := by
  obtain ⟨h1, h2⟩ := hb
  unfold numResult
  cases hs : s l.rest with
  | error e => obtain ⟨e, k⟩ := e; rw [hs] at h1; exact .inr ⟨_, _, rfl, h1.1, h1.2 _⟩
  | ok t => rw [hs] at h1; exact .inl ⟨_, _, rfl, h2 t hs, h1⟩

/-- Common facts about the token arms. -/
theorem armsResult_facts [Uni] (acc : List Trivia) (l : Lexer) (ht : l.tokStart = l.pos) :
    (∃ t k ps, armsResult acc l = .ok t { l.fwd k with parens := ps } ∧ 0 < k ∧
      k ≤ max 2 l.rest.length ∧ t.span? = some (l.pos, l.pos + k) ∧ t.trivia = finTrivia acc ∧
      brStep l.parens t.kind = some ps ∧ t.kind.isLayout = false ∧ t.kind ≠ .EOF ∧
      t.kind ≠ .TypeComment) ∨
    (∃ e k, armsResult acc l = .err e (l.fwd k) ∧ k ≤ max 2 l.rest.length ∧ e.isArm = true) := by
  unfold armsResult
  cases hf : findArm (hd l.rest, hd (l.rest.drop 1), hd (l.rest.drop 2)) with
  | some a =>
    obtain ⟨hm, h0, hlen, _⟩ := findArm_len hf
    have hact := opArms_act a hm
    simp only [armResult]
    cases hk : a.act with
    | tok k =>
      simp only [hk] at hact
      left
      refine ⟨_, a.len, l.parens, rfl, h0, by omega, by simp [Token.span?, ht], rfl,
        brStep_of_not_special hact _, ?_, ?_, ?_⟩ <;> simp [Token.kind] <;> cases k <;>
        simp [Kind.special, Kind.isLayout] at hact ⊢
    | openB k c =>
      simp only [hk] at hact
      left
      refine ⟨_, a.len, c :: l.parens, rfl, h0, by omega, by simp [Token.span?, ht], rfl, ?_,
        hact.1, hact.2.1, hact.2.2.1⟩
      rcases hact.2.2.2 with h | h | h <;> rw [h.2] <;> simp [Token.kind, h.1, brStep]
    | closeB k c =>
      simp only [hk] at hact
      simp only
      split
      · rename_i htop
        left
        refine ⟨_, a.len, l.parens.tail, rfl, h0, by omega, by simp [Token.span?, ht], rfl, ?_,
          hact.1, hact.2.1, hact.2.2.1⟩
        rcases hact.2.2.2 with h | h | h <;> rw [h.2] at htop <;> simp [Token.kind, h.1, brStep, htop]
      · right
        exact ⟨_, a.len, rfl, by omega, rfl⟩
  | none =>
    simp only
    by_cases h1 : isNameStart (hd l.rest) = true
    · rw [if_pos h1, nameArm_apply]
      dsimp only
      have hwp : 0 < (word l.rest).length := by
        cases hr : l.rest with
        | nil => simp [hr, isNameStart, isAlphabetic, isAsciiLetter] at h1
        | cons c cs =>
          have hc : isNameChar c = true := by
            rw [hr] at h1; simp only [hd_cons] at h1
            unfold isNameStart at h1; unfold isNameChar isAlphanumeric
            unfold isAlphabetic at h1
            split <;> simp_all
            · rcases h1 with h | h <;> simp [h]
            · rcases h1 with h | h <;> simp [h]
          simp [word, hc]
      have hwl : (word l.rest).length ≤ l.rest.length := takeWhile_length_le _ _
      cases hk : keywords.lookup (word l.rest) with
      | some k =>
        have hsp := keyword_not_special _ (lookup_mem hk)
        simp only at hsp
        left
        refine ⟨_, (word l.rest).length, l.parens, rfl, hwp, by omega, by simp [Token.span?, ht], rfl,
          brStep_of_not_special hsp _, ?_, ?_, ?_⟩ <;> simp [Token.kind] <;> cases k <;>
          simp [Kind.special, Kind.isLayout] at hsp ⊢
      | none =>
        simp only
        split
        · rename_i hq
          rcases stringResult_facts l.tokStart _ hq.2 (some (word l.rest)) acc
            (l.fwd (word l.rest).length) (by simp) with ⟨k, txt, he, hk0, hk1⟩ | ⟨e, k, he, hk1, hee⟩
          · left
            refine ⟨_, (word l.rest).length + k, l.parens, by rw [he, fwd_fwd]; rfl, by omega, ?_,
              by simp [Token.span?, ht, Nat.add_assoc], rfl, rfl, rfl, by simp [Token.kind],
              by simp [Token.kind]⟩
            simp at hk1; omega
          · right
            refine ⟨e, (word l.rest).length + k, by rw [he, fwd_fwd], ?_, ?_⟩
            · simp at hk1; omega
            · rcases hee with h | ⟨p, h⟩ <;> subst h <;> rfl
        · left
          exact ⟨_, (word l.rest).length, l.parens, rfl, hwp, by omega, by simp [Token.span?, ht], rfl,
            rfl, rfl, by simp [Token.kind], by simp [Token.kind]⟩
    rw [if_neg h1]
    by_cases h2 : hd l.rest = '0'
    · rw [if_pos h2]
      rcases numResult_facts (acc := acc) (zeroScan_bound l.rest h2) with
        ⟨k, txt, he, hk0, hk1⟩ | ⟨e, k, he, hk1, hee⟩
      · left
        exact ⟨_, k, l.parens, by rw [he]; rfl, hk0, hk1, by simp [Token.span?, ht], rfl, rfl, rfl,
          by simp [Token.kind], by simp [Token.kind]⟩
      · right; exact ⟨e, k, he, hk1, hee⟩
    rw [if_neg h2]
    by_cases h3 : hd l.rest = '.' ∧ isDigit (hd (l.rest.drop 1)) = true
    · rw [if_pos h3]
      have hl1 : 1 < l.rest.length := lt_of_hd_ne (by
        intro h; rw [h] at h3; exact absurd h3.2 (by decide))
      rcases numResult_facts (acc := acc) (dotScan_bound l.rest hl1) with
        ⟨k, txt, he, hk0, hk1⟩ | ⟨e, k, he, hk1, hee⟩
      · left
        exact ⟨_, k, l.parens, by rw [he]; rfl, hk0, hk1, by simp [Token.span?, ht], rfl, rfl, rfl,
          by simp [Token.kind], by simp [Token.kind]⟩
      · right; exact ⟨e, k, he, hk1, hee⟩
    rw [if_neg h3]
    by_cases h4 : isDigit (hd l.rest) = true
    · rw [if_pos h4]
      rcases numResult_facts (acc := acc) (decScan_bound l.rest h4) with
        ⟨k, txt, he, hk0, hk1⟩ | ⟨e, k, he, hk1, hee⟩
      · left
        exact ⟨_, k, l.parens, by rw [he]; rfl, hk0, hk1, by simp [Token.span?, ht], rfl, rfl, rfl,
          by simp [Token.kind], by simp [Token.kind]⟩
      · right; exact ⟨e, k, he, hk1, hee⟩
    rw [if_neg h4]
    by_cases h5 : hd l.rest = '\'' ∨ hd l.rest = '"'
    · rw [if_pos h5]
      rcases stringResult_facts l.tokStart _ h5 none acc l rfl with
        ⟨k, txt, he, hk0, hk1⟩ | ⟨e, k, he, hk1, hee⟩
      · left
        exact ⟨_, k, l.parens, by rw [he]; rfl, hk0, by omega, by simp [Token.span?, ht], rfl, rfl, rfl,
          by simp [Token.kind], by simp [Token.kind]⟩
      · right
        refine ⟨e, k, he, by omega, ?_⟩
        rcases hee with h | ⟨p, h⟩ <;> subst h <;> rfl
    rw [if_neg h5]
    right
    exact ⟨_, 0, rfl, by omega, rfl⟩

end Verif
