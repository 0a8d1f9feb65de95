import Verif.Proof.LexFacts
import Verif.Spec.Lexemes

/-!
# Tokenizer: the arm is determined by the character at the start of the lexeme
-/

set_option linter.unusedSimpArgs false

namespace Verif
open LexM
attribute [-simp] List.drop_one List.tail_drop

theorem Inv.rest_eq {src l} (h : Inv src l) : l.rest = src.drop l.pos := by
  simp [Lexer.rest, Lexer.pos, h.chars]

theorem armsResult_start [Uni] (acc : List Trivia) (l : Lexer) (ht : l.tokStart = l.pos) :
    (armsResult acc l).lexer.tokStart = l.pos := by
  rcases armsResult_facts acc l ht with ⟨t, j, ps, hres, _⟩ | ⟨e, j, hres, _⟩ <;> rw [hres]
  · exact ht
  · exact ht

/-- The lexeme read by a call, by its first character. -/
inductive AtOut [Uni] (src : List Char) (l : Lexer) (p : Nat) : Prop
  | newline {ts m c1 c2 l'} : LineEnd (src.drop p) m →
      getSymbol l = .ok (.newline p (p + m) (finTrivia ts) c1 c2) l' → l.parens = [] →
      c1 = hd (src.drop p) → c2 = (if m = 3 then '\n' else ' ') →
      l'.pos = p + m → AtOut src l p
  | typeComment {ts l'} : hd (src.drop p) = '#' → isTypeComment (lineText (src.drop p)) = true →
      getSymbol l = .ok (.typeComment p (p + (lineText (src.drop p)).length) (finTrivia ts)
        (lineText (src.drop p))) l' → l'.pos = p + (lineText (src.drop p)).length → AtOut src l p
  | eof {ts l'} : hd (src.drop p) = '\x00' → getSymbol l = .ok (.eof p (finTrivia ts)) l' →
      l'.pos = p → AtOut src l p
  | badCont {l'} : hd (src.drop p) = '\\' → hd (src.drop (p + 1)) ≠ '\r' →
      hd (src.drop (p + 1)) ≠ '\n' → getSymbol l = .err (.badContinuation p) l' →
      l'.pos = p → l'.tokStart = p → l'.bol = false → l'.pending = 0 → AtOut src l p
  | arms {ts l2} : hd (src.drop p) ∉ [' ', '\t', '#', '\x00', '\r', '\n', '\\'] →
      getSymbol l = armsResult ts l2 → l2.tokStart = p → l2.pos = p → l2.rest = src.drop p →
      l2.parens = l.parens → l2.bol = false → l2.pending = 0 → Inv src l2 → AtOut src l p

theorem atOut [Uni] {src l p} (h : Inv src l) (hp : LexemeAt l p) : AtOut src l p := by
  have hs := getSymbol_step l h.inter h.ind
  obtain ⟨hp, hnl⟩ := hp
  have h0 : Inv src (l.at l.pos) := h.at (Nat.le_refl _)
  generalize hr : getSymbol l = r at hs hp hnl
  have hrest : ∀ {l1 : Lexer} {k}, Inv src l1 → l1.rest.drop k = src.drop (l1.pos + k) := by
    intro l1 k hi; rw [hi.rest_eq, List.drop_drop]
  cases hs with
  | dedent hb hq => exact absurd rfl (hnl _ _ rfl).2
  | indent hb hq => exact absurd rfl (hnl _ _ rfl).1
  | @newline b l1 ts k m c1 c2 hb hq hbf hpar hrun hend hc1 hc2 =>
    obtain ⟨hi, e1, e2, e3, e4, e5, e6, e7, e8⟩ := bolState_inv h0 hb
    simp only [LexRes.lexer, tokStart_setBol, tokStart_at] at hp
    subst hp
    rw [hrest hi] at hend hc1
    exact .newline hend hr (by rw [← hpar]; exact e5.symm) hc1 hc2 (by simp [Nat.add_assoc])
  | @typeComment b l1 ts k hb hq hg hh hty =>
    obtain ⟨hi, e1, e2, e3, e4, e5, e6, e7, e8⟩ := bolState_inv h0 hb
    simp only [LexRes.lexer, tokStart_at] at hp
    subst hp
    rw [hrest hi] at hh hty hr
    exact .typeComment hh hty hr (by simp [Nat.add_assoc])
  | @eof b l1 ts k hb hq hg hh =>
    obtain ⟨hi, e1, e2, e3, e4, e5, e6, e7, e8⟩ := bolState_inv h0 hb
    simp only [LexRes.lexer, tokStart_at] at hp
    subst hp
    rw [hrest hi] at hh
    exact .eof hh hr (by simp)
  | @badCont b l1 ts k hb hq hg hh hn1 hn2 =>
    obtain ⟨hi, e1, e2, e3, e4, e5, e6, e7, e8⟩ := bolState_inv h0 hb
    simp only [LexRes.lexer, tokStart_at] at hp
    subst hp
    rw [hrest hi] at hh hn1 hn2
    exact .badCont hh hn1 hn2 hr (by simp) (by simp) (by simpa using e1) (by simpa using hq)
  | @arms b l1 ts k hb hq hg hh =>
    obtain ⟨hi, e1, e2, e3, e4, e5, e6, e7, e8⟩ := bolState_inv h0 hb
    rw [armsResult_start _ _ rfl] at hp
    simp only [pos_at, pos_fwd] at hp
    subst hp
    have hne : hd (l1.rest.drop k) ≠ '\x00' := by
      intro h; rw [h] at hh; simp at hh
    have hlt : k < l1.rest.length := lt_of_hd_ne hne
    have hl := rest_length_add l1
    rw [hi.chars] at hl
    have hi2 : Inv src ((l1.fwd k).at (l1.pos + k)) := (hi.fwd (by omega)).at (by simp)
    refine .arms (by rw [hrest hi] at hh; exact hh) hr rfl (by simp) ?_ e5 (by simpa using e1)
      (by simpa using hq) hi2
    simp [hrest hi]

/-- The ordinary tokens. -/
theorem arms_at [Uni] {src l p} (h : Inv src l) (hp : LexemeAt l p)
    (hc : hd (src.drop p) ∉ [' ', '\t', '#', '\x00', '\r', '\n', '\\']) :
    ∃ ts l2, getSymbol l = armsResult ts l2 ∧ l2.tokStart = p ∧ l2.pos = p ∧ l2.rest = src.drop p ∧
      l2.parens = l.parens ∧ l2.bol = false ∧ l2.pending = 0 ∧ Inv src l2 := by
  cases atOut h hp with
  | newline he => exfalso; cases he <;> simp_all
  | typeComment he => exfalso; simp_all
  | eof he => exfalso; simp_all
  | badCont he => exfalso; simp_all
  | arms _ h1 h2 h3 h4 h5 h6 h7 h8 => exact ⟨_, _, h1, h2, h3, h4, h5, h6, h7, h8⟩

/-! ### Operators -/

/-- Spelling of an operator arm. -/
def OpArm.spell (a : OpArm) : List Char :=
  match a.p2, a.p3 with
  | .ch b, .ch c => [a.p1, b, c]
  | .ch b, _ => [a.p1, b]
  | _, _ => [a.p1]

def OpAct.kind : OpAct → Kind
  | .tok k | .openB k _ | .closeB k _ => k

theorem opArms_spell : ∀ a ∈ opArms, (a.spell, a.act.kind) ∈ operators ∧ a.spell.length = a.len ∧
    (a.p2 = .notDigit → a.p1 = '.') ∧ (a.p3 ≠ .any → ∃ c, a.p2 = .ch c) ∧ a.p3 ≠ .notDigit := by
  have h : opArms.all (fun a => decide ((a.spell, a.act.kind) ∈ operators) &&
      decide (a.spell.length = a.len) && (decide (a.p2 ≠ .notDigit) || decide (a.p1 = '.')) &&
      (decide (a.p3 = .any) || match a.p2 with | .ch _ => true | _ => false) &&
      decide (a.p3 ≠ .notDigit)) = true := by decide
  intro a ha
  have := List.all_eq_true.mp h a ha
  simp only [Bool.and_eq_true, Bool.or_eq_true, decide_eq_true_eq] at this
  obtain ⟨⟨⟨⟨h1, h2⟩, h3⟩, h4⟩, h5⟩ := this
  refine ⟨h1, h2, fun h => ?_, fun h => ?_, h5⟩
  · rcases h3 with h3 | h3
    · exact absurd h h3
    · exact h3
  · rcases h4 with h4 | h4
    · exact absurd h4 h
    · split at h4
      · rename_i c hc; exact ⟨c, hc⟩
      · simp at h4

theorem operators_arm : ∀ x ∈ operators, ∃ a ∈ opArms, a.spell = x.1 ∧ a.act.kind = x.2 := by
  have h : operators.all (fun x => opArms.any fun a => decide (a.spell = x.1 ∧ a.act.kind = x.2)) = true := by
    decide
  intro x hx
  have := List.all_eq_true.mp h x hx
  obtain ⟨a, ha, h⟩ := List.any_eq_true.mp this
  exact ⟨a, ha, by simpa using h⟩

theorem opArms_order : opArms.Pairwise fun a b => a.p1 = b.p1 → b.len ≤ a.len := by decide

theorem operators_unique : operators.Pairwise fun a b => a.1 ≠ b.1 := by decide

theorem operators_kind {w k k'} (h : (w, k) ∈ operators) (h' : (w, k') ∈ operators) : k = k' := by
  have key : ∀ (xs : List (List Char × Kind)), xs.Pairwise (fun a b => a.1 ≠ b.1) →
      (w, k) ∈ xs → (w, k') ∈ xs → k = k' := by
    intro xs
    induction xs with
    | nil => intro _ h; simp at h
    | cons x xs ih =>
      intro hp h1 h2
      rw [List.pairwise_cons] at hp
      simp only [List.mem_cons] at h1 h2
      rcases h1 with h1 | h1 <;> rcases h2 with h2 | h2
      · rw [← h1] at h2; simp at h2; exact h2.symm
      · exact absurd (by rw [← h1]) (hp.1 _ h2)
      · exact absurd (by rw [← h2]) (hp.1 _ h1)
      · exact ih hp.2 h1 h2
  exact key _ operators_unique h h'

theorem hd_eq_iff {cs : List Char} {c : Char} (hc : c ≠ '\x00') : hd cs = c ↔ ∃ r, cs = c :: r := by
  cases cs with
  | nil => simp [hc.symm]
  | cons a r => simp

theorem test_iff {a : OpArm} (ha : a ∈ opArms) (cs : List Char) :
    a.test (hd cs, hd (cs.drop 1), hd (cs.drop 2)) = true ↔
      a.spell <+: cs ∧ (a.p2 = .notDigit → isDigit (hd (cs.drop 1)) = false) := by
  obtain ⟨h0, h3, h4, h5, h6⟩ := opArms_ok a ha
  obtain ⟨_, hl, g1, g2, g3⟩ := opArms_spell a ha
  have hp2 : ∀ c, a.p2 = .ch c → c ≠ '\x00' := by
    intro c hc
    have : 2 ≤ a.len := by
      rw [← hl]; cases h3' : a.p3 <;> simp [OpArm.spell, hc, h3']
    obtain ⟨c', hc', h⟩ := h5 this
    rw [hc] at hc'; injection hc' with hc'; subst hc'; exact h
  have hp3 : ∀ b c, a.p2 = .ch b → a.p3 = .ch c → c ≠ '\x00' := by
    intro b c hb hc
    have : 3 ≤ a.len := by
      rw [← hl]; simp only [OpArm.spell, hb, hc]; simp
    obtain ⟨c', hc', h⟩ := h6 this
    rw [hc] at hc'; injection hc' with hc'; subst hc'; exact h
  simp only [OpArm.test, Bool.and_eq_true, beq_iff_eq, OpArm.spell]
  have hh : ∀ {w : List Char} {cs : List Char} {c}, (c :: w) <+: cs ↔ ∃ r, cs = c :: r ∧ w <+: r := by
    intro w cs c
    cases cs with
    | nil => simp
    | cons x r => simp [List.cons_prefix_cons]; grind
  have e1 : a.p1 = hd cs ↔ ∃ r, cs = a.p1 :: r := by rw [eq_comm]; exact hd_eq_iff h4
  cases h2 : a.p2 with
  | ch b =>
    have hb := hp2 b h2
    have e2 : (b = hd (cs.drop 1)) ↔ ∃ r, cs.drop 1 = b :: r := by rw [eq_comm]; exact hd_eq_iff hb
    cases h3' : a.p3 with
    | ch c =>
      have hc := hp3 b c h2 h3'
      have e3 : (c = hd (cs.drop 2)) ↔ ∃ r, cs.drop 2 = c :: r := by rw [eq_comm]; exact hd_eq_iff hc
      simp only [Pat.test, beq_iff_eq, e1, e2, e3, hh, List.nil_prefix, and_true]
      constructor
      · rintro ⟨⟨⟨r, rfl⟩, r2, h2⟩, r3, h3⟩
        simp only [List.drop_succ_cons, List.drop_zero] at h2 h3
        subst h2
        simp only [List.drop_succ_cons, List.drop_zero] at h3
        subst h3
        simp
      · rintro ⟨⟨r, rfl, r2, rfl, r3, rfl⟩, _⟩
        simp
    | any =>
      simp only [Pat.test, beq_iff_eq, e1, e2, hh, List.nil_prefix, and_true]
      constructor
      · rintro ⟨⟨r, rfl⟩, r2, h2⟩
        simp only [List.drop_succ_cons, List.drop_zero] at h2
        subst h2
        simp
      · rintro ⟨⟨r, rfl, r2, rfl⟩, _⟩
        simp
    | notDigit => exact absurd h3' g3
  | any =>
    have : a.p3 = .any := by
      cases h3' : a.p3 with
      | any => rfl
      | _ => obtain ⟨c, hc⟩ := g2 (by simp [h3']); rw [h2] at hc; simp at hc
    simp only [this, Pat.test, e1, hh, List.nil_prefix, and_true]
    simp
  | notDigit =>
    have : a.p3 = .any := by
      cases h3' : a.p3 with
      | any => rfl
      | _ => obtain ⟨c, hc⟩ := g2 (by simp [h3']); rw [h2] at hc; simp at hc
    simp only [this, Pat.test, e1, hh, List.nil_prefix, and_true]
    simp

/-- Text that starts with a dot and a digit. -/
def dotDigit (cs : List Char) : Prop := hd cs = '.' ∧ isDigit (hd (cs.drop 1)) = true

/-- The arm found is the longest operator. -/
theorem findArm_longest {cs : List Char} {a : OpArm}
    (h : findArm (hd cs, hd (cs.drop 1), hd (cs.drop 2)) = some a) (hd0 : ¬ dotDigit cs) :
    Longest operators cs a.spell a.act.kind := by
  have hm := List.mem_of_find?_eq_some h
  have ht := List.find?_some h
  have hs := (test_iff hm cs).mp ht
  refine ⟨(opArms_spell a hm).1, hs.1, ?_⟩
  intro w' k' hw hpre
  obtain ⟨a', ha', hsp, hk⟩ := operators_arm _ hw
  simp only at hsp hk
  have ht' : a'.test (hd cs, hd (cs.drop 1), hd (cs.drop 2)) = true := by
    rw [test_iff ha']
    refine ⟨by rw [hsp]; exact hpre, fun hnd => ?_⟩
    have hp1 := (opArms_spell a' ha').2.2.1 hnd
    cases hdig : isDigit (hd (cs.drop 1)) with
    | false => rfl
    | true =>
      exfalso; apply hd0
      refine ⟨?_, hdig⟩
      rw [← hp1]
      have : a'.spell <+: cs := by rw [hsp]; exact hpre
      cases cs with
      | nil => simp at hdig; exact absurd hdig (by decide)
      | cons c cs =>
        have h1 : a'.spell = [a'.p1] := by
          cases h3' : a'.p3 <;> simp [OpArm.spell, hnd]
        rw [h1] at this
        simp [List.cons_prefix_cons] at this
        simp [this]
  obtain ⟨_, as, bs, heq, has⟩ := List.find?_eq_some_iff_append.mp h
  have hmem : a' ∈ a :: bs := by
    rw [heq] at ha'
    simp only [List.mem_append] at ha'
    rcases ha' with h1 | h1
    · have := has a' h1; simp [ht'] at this
    · exact h1
  rw [(opArms_spell a hm).2.1, ← hsp, (opArms_spell a' ha').2.1]
  simp only [List.mem_cons] at hmem
  rcases hmem with rfl | hmem
  · exact Nat.le_refl _
  · have hord := opArms_order
    rw [heq] at hord
    have := (List.pairwise_append.mp hord).2.1
    rw [List.pairwise_cons] at this
    apply this.1 _ hmem
    simp only [OpArm.test, Bool.and_eq_true, beq_iff_eq] at ht ht'
    rw [ht.1.1, ht'.1.1]

theorem findArm_of_operator {cs w : List Char} {k : Kind} (hw : (w, k) ∈ operators) (hp : w <+: cs)
    (hd0 : ¬ dotDigit cs) : ∃ a, findArm (hd cs, hd (cs.drop 1), hd (cs.drop 2)) = some a := by
  cases hf : findArm (hd cs, hd (cs.drop 1), hd (cs.drop 2)) with
  | some a => exact ⟨a, rfl⟩
  | none =>
    exfalso
    obtain ⟨a', ha', hsp, hk⟩ := operators_arm _ hw
    simp only at hsp
    have := List.find?_eq_none.mp hf a' ha'
    apply this
    rw [test_iff ha']
    refine ⟨by rw [hsp]; exact hp, fun hnd => ?_⟩
    have hp1 := (opArms_spell a' ha').2.2.1 hnd
    cases hdig : isDigit (hd (cs.drop 1)) with
    | false => rfl
    | true =>
      exfalso; apply hd0
      refine ⟨?_, hdig⟩
      cases cs with
      | nil => simp at hdig; exact absurd hdig (by decide)
      | cons c cs =>
        have h1 : a'.spell = [a'.p1] := by
          cases h3' : a'.p3 <;> simp [OpArm.spell, hnd]
        rw [← hsp, h1] at hp
        simp [List.cons_prefix_cons] at hp
        simp [← hp, hp1]

theorem longest_unique {cs w w' : List Char} {k k' : Kind} (h : Longest operators cs w k)
    (h' : Longest operators cs w' k') : w = w' ∧ k = k' := by
  have h1 := h.2.2 _ _ h'.1 h'.2.1
  have h2 := h'.2.2 _ _ h.1 h.2.1
  have hw : w = w' := by
    have := List.prefix_of_prefix_length_le h.2.1 h'.2.1 (by omega)
    exact this.eq_of_length (by omega)
  subst hw
  exact ⟨rfl, operators_kind h.1 h'.1⟩

/-- Characters that start an operator are ASCII, and neither letters, digits, quotes nor
underscores. -/
theorem opArms_first : ∀ a ∈ opArms, a.p1.toNat < 128 ∧ isAsciiLetter a.p1 = false ∧
    isDigit a.p1 = false ∧ a.p1 ≠ '_' ∧ a.p1 ≠ '\'' ∧ a.p1 ≠ '"' := by decide

theorem findArm_none_of {cs : List Char} (h : ∀ a ∈ opArms, a.p1 ≠ hd cs) :
    findArm (hd cs, hd (cs.drop 1), hd (cs.drop 2)) = none := by
  rw [findArm, List.find?_eq_none]
  intro a ha ht
  simp only [OpArm.test, Bool.and_eq_true, beq_iff_eq] at ht
  exact h a ha ht.1.1

theorem findArm_nameStart [Uni] {cs : List Char} (h : isNameStart (hd cs) = true) :
    findArm (hd cs, hd (cs.drop 1), hd (cs.drop 2)) = none := by
  apply findArm_none_of
  intro a ha heq
  obtain ⟨h1, h2, _, h4, _⟩ := opArms_first a ha
  rw [← heq] at h
  simp [isNameStart, isAlphabetic, h1, h2, h4] at h

theorem findArm_digit {cs : List Char} (h : isDigit (hd cs) = true) :
    findArm (hd cs, hd (cs.drop 1), hd (cs.drop 2)) = none := by
  apply findArm_none_of
  intro a ha heq
  obtain ⟨h1, h2, h3, h4, _⟩ := opArms_first a ha
  rw [← heq, h3] at h; simp at h

theorem findArm_quote {cs : List Char} (h : hd cs = '\'' ∨ hd cs = '"') :
    findArm (hd cs, hd (cs.drop 1), hd (cs.drop 2)) = none := by
  apply findArm_none_of
  intro a ha heq
  obtain ⟨h1, h2, h3, h4, h5, h6⟩ := opArms_first a ha
  rw [← heq] at h; rcases h with h | h
  · exact h5 h
  · exact h6 h

theorem findArm_dotDigit {cs : List Char} (h : dotDigit cs) :
    findArm (hd cs, hd (cs.drop 1), hd (cs.drop 2)) = none := by
  obtain ⟨h1, h2⟩ := h
  rw [findArm, List.find?_eq_none]
  intro a ha ht
  rw [test_iff ha] at ht
  have hm : ∀ a ∈ opArms, a.p1 = '.' → a.p2 = .notDigit ∨ a.spell = cs! "..." := by decide
  have hp1 : a.p1 = '.' := by
    have := ht.1
    cases cs with
    | nil => simp at h1
    | cons c r =>
      have hsp : ∃ w, a.spell = a.p1 :: w := by unfold OpArm.spell; split <;> exact ⟨_, rfl⟩
      obtain ⟨w, hw⟩ := hsp
      rw [hw] at this
      simp [List.cons_prefix_cons] at this
      rw [this.1]; simpa using h1
  rcases hm a ha hp1 with h | h
  · rw [ht.2 h] at h2; simp at h2
  · have := ht.1
    rw [h] at this
    obtain ⟨r, rfl⟩ := this
    simp at h2
    exact absurd h2 (by decide)

/-! ### The cases -/

/-- First character of a word. -/
theorem isNameChar_of_start [Uni] {c : Char} (h : isNameStart c = true) : isNameChar c = true := by
  simp only [isNameStart, isAlphabetic, Bool.or_eq_true] at h
  simp only [isNameChar, isAlphanumeric, Bool.or_eq_true]
  rcases h with h | h
  · left; split at h
    · rename_i hc; rw [if_pos hc]; simp [h]
    · rename_i hc; rw [if_neg hc]; simp [h]
  · exact .inr h

theorem hd_word [Uni] {cs : List Char} (h : isNameStart (hd cs) = true) : hd (word cs) = hd cs := by
  cases cs with
  | nil => simp [isNameStart, isAlphabetic, isAsciiLetter] at h
  | cons c r =>
    have := isNameChar_of_start h
    rw [hd_cons] at this
    simp [word, this]

/-- The ways `armsResult` can go. -/
inductive ArmsCase [Uni] (ts : List Trivia) (l : Lexer) : LexRes Token → Prop
  | op {a} : findArm (hd l.rest, hd (l.rest.drop 1), hd (l.rest.drop 2)) = some a →
      ¬ dotDigit l.rest → ArmsCase ts l (armResult a ts l)
  | kw {k} : isNameStart (hd l.rest) = true → keywords.lookup (word l.rest) = some k →
      ArmsCase ts l (.ok (.sym k l.tokStart (l.pos + (word l.rest).length) (finTrivia ts))
        (l.fwd (word l.rest).length))
  | pstr : isNameStart (hd l.rest) = true → keywords.lookup (word l.rest) = none →
      stringPrefixes.contains (word l.rest) = true →
      (hd (l.rest.drop (word l.rest).length) = '\'' ∨ hd (l.rest.drop (word l.rest).length) = '"') →
      ArmsCase ts l (stringResult l.tokStart (hd (l.rest.drop (word l.rest).length))
        (some (word l.rest)) ts (l.fwd (word l.rest).length))
  | name : isNameStart (hd l.rest) = true → keywords.lookup (word l.rest) = none →
      ¬ (stringPrefixes.contains (word l.rest) = true ∧
      (hd (l.rest.drop (word l.rest).length) = '\'' ∨ hd (l.rest.drop (word l.rest).length) = '"')) →
      ArmsCase ts l (.ok (.name l.tokStart (l.pos + (word l.rest).length) (finTrivia ts) (word l.rest))
        (l.fwd (word l.rest).length))
  | zero : hd l.rest = '0' → ArmsCase ts l (numResult zeroScan ts l)
  | dot : dotDigit l.rest → ArmsCase ts l (numResult dotScan ts l)
  | dec : isDigit (hd l.rest) = true → hd l.rest ≠ '0' → ArmsCase ts l (numResult decScan ts l)
  | str : (hd l.rest = '\'' ∨ hd l.rest = '"') →
      ArmsCase ts l (stringResult l.tokStart (hd l.rest) none ts l)
  | bad : findArm (hd l.rest, hd (l.rest.drop 1), hd (l.rest.drop 2)) = none →
      isNameStart (hd l.rest) = false → isDigit (hd l.rest) = false → ¬ dotDigit l.rest →
      hd l.rest ≠ '\'' → hd l.rest ≠ '"' → ArmsCase ts l (.err (.lexical l.pos (hd l.rest)) l)

theorem armsCase [Uni] (ts : List Trivia) (l : Lexer) : ArmsCase ts l (armsResult ts l) := by
  unfold armsResult
  cases hf : findArm (hd l.rest, hd (l.rest.drop 1), hd (l.rest.drop 2)) with
  | some a =>
    refine .op hf ?_
    intro hd0
    rw [findArm_dotDigit hd0] at hf; simp at hf
  | none =>
    dsimp only
    by_cases h1 : isNameStart (hd l.rest) = true
    · rw [if_pos h1, nameArm_apply]
      dsimp only
      cases hk : keywords.lookup (word l.rest) with
      | some k => exact .kw h1 hk
      | none =>
        dsimp only
        split
        · rename_i h; exact .pstr h1 hk h.1 h.2
        · rename_i h; exact .name h1 hk h
    rw [if_neg h1]
    by_cases h2 : hd l.rest = '0'
    · rw [if_pos h2]; exact .zero h2
    rw [if_neg h2]
    by_cases h3 : hd l.rest = '.' ∧ isDigit (hd (l.rest.drop 1)) = true
    · rw [if_pos h3]; exact .dot h3
    rw [if_neg h3]
    by_cases h4 : isDigit (hd l.rest) = true
    · rw [if_pos h4]; exact .dec h4 h2
    rw [if_neg h4]
    by_cases h5 : hd l.rest = '\'' ∨ hd l.rest = '"'
    · rw [if_pos h5]; exact .str h5
    rw [if_neg h5]
    simp only [not_or] at h5
    exact .bad hf (by simpa using h1) (by simpa using h4) h3 h5.1 h5.2

/-- Which constructor a result has. -/
theorem stringResult_tok {s q pfx ts l t l'} (h : stringResult s q pfx ts l = .ok t l') :
    ∃ e txt, t = .string s e (finTrivia ts) txt pfx ∧ e = l'.pos ∧ e + 0 = l.pos + txt.length := by
  unfold stringResult at h
  split at h
  · split at h
    · simp only [LexRes.ok.injEq] at h
      obtain ⟨rfl, rfl⟩ := h
      exact ⟨_, _, rfl, by simp [Nat.add_assoc], by simp; omega⟩
    · simp at h
  · split at h
    · simp only [LexRes.ok.injEq] at h
      obtain ⟨rfl, rfl⟩ := h
      exact ⟨_, _, rfl, by simp, by simp⟩
    · dsimp only at h
      split at h
      · simp only [LexRes.ok.injEq] at h
        obtain ⟨rfl, rfl⟩ := h
        exact ⟨_, _, rfl, by simp; omega, by simp; omega⟩
      · simp at h

theorem numResult_tok {s ts l t l'} (h : numResult s ts l = .ok t l') :
    ∃ txt, s l.rest = .ok txt ∧ t = .number l.tokStart (l.pos + txt.length) (finTrivia ts) txt ∧
      l' = l.fwd txt.length := by
  unfold numResult at h
  split at h
  · rename_i t' ht
    simp only [LexRes.ok.injEq] at h
    exact ⟨_, ht, h.1.symm, h.2.symm⟩
  · simp at h

theorem armResult_tok {a ts l t l'} (h : armResult a ts l = .ok t l') :
    t = .sym a.act.kind l.tokStart (l.pos + a.len) (finTrivia ts) ∧ l'.pos = l.pos + a.len := by
  unfold armResult at h
  cases ha : a.act with
  | tok k =>
    rw [ha] at h; simp only [LexRes.ok.injEq] at h
    obtain ⟨rfl, rfl⟩ := h; exact ⟨rfl, rfl⟩
  | openB k c =>
    rw [ha] at h; simp only [LexRes.ok.injEq] at h
    obtain ⟨rfl, rfl⟩ := h; exact ⟨rfl, rfl⟩
  | closeB k c =>
    rw [ha] at h; dsimp only at h
    split at h
    · simp only [LexRes.ok.injEq] at h
      obtain ⟨rfl, rfl⟩ := h; exact ⟨rfl, rfl⟩
    · simp at h

/-- A token other than an indentation change is a lexeme. -/
theorem lexemeAt_of_ok [Uni] {l t l'} (h : getSymbol l = .ok t l') (h1 : t.kind ≠ .Indent)
    (h2 : t.kind ≠ .Dedent) : LexemeAt l l'.tokStart := by
  refine ⟨by rw [h]; rfl, ?_⟩
  intro t' l'' ht
  rw [h] at ht; injection ht with ht _; subst ht; exact ⟨h1, h2⟩

/-- In the middle of a line, in front of a character that is not skipped, the next call reads the
lexeme right there. -/
theorem getSymbol_here [Uni] {src l} (hi : Inv src l) (hb : l.bol = false) (hp : l.pending = 0)
    (hc : hd l.rest ∉ [' ', '\t', '#', '\x00', '\r', '\n', '\\']) :
    getSymbol l = armsResult [] (l.at l.pos) := by
  have hs := getSymbol_step l hi.inter hi.ind
  have hbs : bolState false (l.at l.pos) = (false, l.at l.pos) := bolState_mid hb
  have hstop : hd l.rest ∉ [' ', '\t', '#', '\r', '\n', '\\'] := by
    intro h; apply hc; simp only [List.mem_cons, List.not_mem_nil, or_false] at h ⊢
    rcases h with h | h | h | h | h | h <;> simp [h]
  generalize getSymbol l = r at hs ⊢
  have hnn : ∀ {q ts k}, Gap q (l.at l.pos).pos (l.at l.pos).rest ts k → k = 0 ∧ ts = [] :=
    fun hg => hg.of_stop hstop
  cases hs with
  | dedent hb' hq =>
    rw [hbs] at hb'; injection hb' with a b; subst b
    have : l.pending < 0 := hq
    omega
  | indent hb' hq =>
    rw [hbs] at hb'; injection hb' with a b; subst b
    have : l.pending > 0 := hq
    omega
  | newline hb' hq hbf hpar hrun hend =>
    rw [hbs] at hb'; injection hb' with a b; subst b
    obtain ⟨rfl, rfl⟩ := hnn (Gap.of_hrun (q := false) hrun)
    exfalso; apply hc
    rw [List.drop_zero] at hend
    cases hend with
    | crlf h => rw [rest_at] at h; rw [h]; decide
    | cr h => rw [rest_at] at h; rw [h]; decide
    | lf h => rw [rest_at] at h; rw [h]; decide
  | typeComment hb' hq hg hh =>
    rw [hbs] at hb'; injection hb' with a b; subst b
    obtain ⟨rfl, rfl⟩ := hnn hg
    exfalso; apply hc
    rw [List.drop_zero, rest_at] at hh; rw [hh]; decide
  | eof hb' hq hg hh =>
    rw [hbs] at hb'; injection hb' with a b; subst b
    obtain ⟨rfl, rfl⟩ := hnn hg
    exfalso; apply hc
    rw [List.drop_zero, rest_at] at hh; rw [hh]; decide
  | badCont hb' hq hg hh =>
    rw [hbs] at hb'; injection hb' with a b; subst b
    obtain ⟨rfl, rfl⟩ := hnn hg
    exfalso; apply hc
    rw [List.drop_zero, rest_at] at hh; rw [hh]; decide
  | arms hb' hq hg hh =>
    rw [hbs] at hb'; injection hb' with a b; subst b
    obtain ⟨rfl, rfl⟩ := hnn hg
    rfl

theorem lexemeAt_here [Uni] {src l} (hi : Inv src l) (hb : l.bol = false) (hp : l.pending = 0)
    (hc : hd l.rest ∉ [' ', '\t', '#', '\x00', '\r', '\n', '\\']) : LexemeAt l l.pos := by
  have h := getSymbol_here hi hb hp hc
  rcases armsResult_facts [] (l.at l.pos) rfl with
    ⟨t', k, ps, e, _, _, _, _, _, e5, _⟩ | ⟨e', k, e, _⟩
  · rw [e] at h
    refine ⟨by rw [h]; rfl, ?_⟩
    intro t l' ht
    rw [h] at ht; injection ht with ht _; subst ht
    constructor <;> intro hk <;> rw [hk] at e5 <;> simp [Kind.isLayout] at e5
  · rw [e] at h
    refine ⟨by rw [h]; rfl, ?_⟩
    intro t l' ht
    rw [h] at ht; simp at ht

end Verif
