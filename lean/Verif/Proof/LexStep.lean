import Verif.Proof.ArmFacts

/-!
# Tokenizer: one call of `get_symbol` as line start, gap, token
-/

set_option linter.unusedSimpArgs false

namespace Verif
open LexM
attribute [-simp] List.drop_one List.tail_drop

theorem Gap.of_hrun {q pos cs ts n} (h : HRun pos cs ts n) : Gap q pos cs ts n := by
  induction h with
  | nil => exact .nil
  | cons h _ ih => exact .item h ih

theorem Gap.append {q pos cs ts n us m} (h : Gap q pos cs ts n)
    (h' : Gap q (pos + n) (cs.drop n) us m) : Gap q pos cs (ts ++ us) (n + m) := by
  induction h with
  | nil => simpa using h'
  | item h _ ih =>
    have := ih (by simpa [Nat.add_assoc] using h')
    rw [List.cons_append, Nat.add_assoc]
    exact .item h this
  | line hq h _ ih =>
    have := ih (by simpa [Nat.add_assoc] using h')
    rw [List.cons_append, Nat.add_assoc]
    exact .line hq h this

theorem Gap.hrun {pos cs ts n} (h : Gap false pos cs ts n) : HRun pos cs ts n := by
  induction h with
  | nil => exact .nil
  | item h _ ih => exact .cons h ih
  | line h => simp at h

theorem LineEnd.bound {cs m} (h : LineEnd cs m) : 0 < m ∧ m ≤ 3 ∧ m ≤ cs.length + 1 ∧ 0 < cs.length := by
  cases h with
  | crlf h1 h2 =>
    have := lt_of_hd_ne (cs := cs) (k := 1) (by rw [h2]; decide); omega
  | cr h1 h2 => have := lt_of_hd_ne (cs := cs) (k := 0) (by simp [h1]); omega
  | lf h1 => have := lt_of_hd_ne (cs := cs) (k := 0) (by simp [h1]); omega

/-- A gap consumes at most one character more than there is. -/
theorem Gap.bound {q pos cs ts n} (h : Gap q pos cs ts n) : n ≤ cs.length + 1 := by
  induction h with
  | nil => omega
  | item h _ ih => have := h.pos_of; simp at ih; omega
  | @line pos cs n ts m _ h hg ih =>
    have h1 := h.bound
    have h2 := takeWhile_length_le isBlank (cs.drop n)
    simp at ih h2
    by_cases hn : cs.length < n
    · have : cs.drop (n + ((cs.drop n).takeWhile isBlank).length) = [] :=
        List.drop_eq_nil_of_le (by omega)
      rw [this] at hg
      have hm : m = 0 := by
        cases hg with
        | nil => rfl
        | item h _ => have := h.pos_of; simp at this; omega
        | line _ h => have := h.bound; simp at this
      omega
    · omega

theorem LineEnd.of_inner {cs : List Char} {k m : Nat}
    (h : (hd (cs.drop k) = '\r' ∧ hd (cs.drop (k + 1)) = '\n' ∧ m = 3) ∨
       (hd (cs.drop k) = '\r' ∧ hd (cs.drop (k + 1)) ≠ '\n' ∧ m = 1) ∨
       (hd (cs.drop k) = '\n' ∧ m = 1)) : LineEnd (cs.drop k) m := by
  rcases h with ⟨a, b, rfl⟩ | ⟨a, b, rfl⟩ | ⟨a, rfl⟩
  · exact .crlf a (by simpa [Nat.add_comm] using b)
  · exact .cr a (by simpa [Nat.add_comm] using b)
  · exact .lf a

/-- Results of the skipping loops started in the middle of a line, with no layout pending;
`q` = line ends are trivia. -/
inductive SkipOut (q : Bool) (acc : List Trivia) (l : Lexer) : LexRes (Token ⊕ List Trivia) → Prop
  | typeComment {ts k} : Gap q l.pos l.rest ts k → hd (l.rest.drop k) = '#' →
      isTypeComment (lineText (l.rest.drop k)) = true →
      SkipOut q acc l (.ok
        (.inl (.typeComment (l.pos + k) (l.pos + k + (lineText (l.rest.drop k)).length)
          (finTrivia (acc ++ ts)) (lineText (l.rest.drop k))))
        ((l.fwd (k + (lineText (l.rest.drop k)).length)).at (l.pos + k)))
  | eof {ts k} : Gap q l.pos l.rest ts k → hd (l.rest.drop k) = '\x00' →
      SkipOut q acc l (.ok (.inl (.eof (l.pos + k) (finTrivia (acc ++ ts))))
        ((l.fwd k).at (l.pos + k)))
  | newline {ts k m c1 c2} : q = false → HRun l.pos l.rest ts k → LineEnd (l.rest.drop k) m →
      c1 = hd (l.rest.drop k) → c2 = (if m = 3 then '\n' else ' ') →
      SkipOut q acc l (.ok
        (.inl (.newline (l.pos + k) (l.pos + k + m) (finTrivia (acc ++ ts)) c1 c2))
        (((l.fwd (k + m)).at (l.pos + k)).setBol true))
  | badCont {ts k} : Gap q l.pos l.rest ts k → hd (l.rest.drop k) = '\\' →
      hd (l.rest.drop (k + 1)) ≠ '\r' → hd (l.rest.drop (k + 1)) ≠ '\n' →
      SkipOut q acc l (.err (.badContinuation (l.pos + k)) ((l.fwd k).at (l.pos + k)))
  | brk {ts k} : Gap q l.pos l.rest ts k →
      hd (l.rest.drop k) ∉ [' ', '\t', '#', '\x00', '\r', '\n', '\\'] →
      SkipOut q acc l (.ok (.inr (acc ++ ts)) ((l.fwd k).at (l.pos + k)))

theorem SkipOut.prepend {q acc l ts k s r} (h : Gap q l.pos l.rest ts k) (hq : q = true)
    (h' : SkipOut q (acc ++ ts) ((l.fwd k).at s) r) : SkipOut q acc l r := by
  cases h' with
  | typeComment h1 h2 h3 =>
    have := SkipOut.typeComment (acc := acc) (l := l) (h.append (by simpa using h1))
      (by simpa [Nat.add_comm] using h2) (by simpa [Nat.add_comm] using h3)
    simpa [Nat.add_comm, Nat.add_assoc, Nat.add_left_comm] using this
  | eof h1 h2 =>
    have := SkipOut.eof (acc := acc) (l := l) (h.append (by simpa using h1))
      (by simpa [Nat.add_comm] using h2)
    simpa [Nat.add_comm, Nat.add_assoc, Nat.add_left_comm] using this
  | newline h0 => rw [hq] at h0; simp at h0
  | badCont h1 h2 h3 h4 =>
    have := SkipOut.badCont (acc := acc) (l := l) (h.append (by simpa using h1))
      (by simpa [Nat.add_comm, Nat.add_assoc, Nat.add_left_comm] using h2)
      (by simpa [Nat.add_comm, Nat.add_assoc, Nat.add_left_comm] using h3)
      (by simpa [Nat.add_comm, Nat.add_assoc, Nat.add_left_comm] using h4)
    simpa [Nat.add_comm, Nat.add_assoc, Nat.add_left_comm] using this
  | brk h1 h2 =>
    have := SkipOut.brk (acc := acc) (l := l) (h.append (by simpa using h1))
      (by simpa [Nat.add_comm] using h2)
    simpa [Nat.add_comm, Nat.add_assoc, Nat.add_left_comm] using this

theorem setBol_self {l : Lexer} {b} (h : l.bol = b) : l.setBol b = l := by
  subst h; rfl
@[simp] theorem setBol_setBol (l : Lexer) (a b) : (l.setBol a).setBol b = l.setBol b := rfl
@[simp] theorem bol_setBol (l : Lexer) (b) : (l.setBol b).bol = b := rfl
@[simp] theorem at_setBol (l : Lexer) (s b) : (l.setBol b).at s = (l.at s).setBol b := rfl

/-- A line start inside brackets or after a blank line: only the blanks are skipped. -/
theorem bolState_cont {blank l} (hb : l.bol = true) (hq : (blank || !l.parens.isEmpty) = true) :
    ∃ b, bolState blank l = (b, (l.fwd l.blanks.length).setBol false) ∧
      (b || !l.parens.isEmpty) = true := by
  refine ⟨blank || isSkipChar (hd (l.rest.drop l.blanks.length)), ?_, ?_⟩
  · unfold bolState
    rw [if_pos hb]
    dsimp only
    rw [if_neg]
    · rfl
    · rintro ⟨h1, h2⟩
      rw [h2] at hq
      simp at h1 hq
      rw [h1.1] at hq; simp at hq
  · cases blank <;> simp at hq ⊢; exact Or.inr hq

theorem OuterOut.skip {blank acc l r} (h : OuterOut blank acc l r) :
    ∀ b l1, bolState blank l = (b, l1) → l1.pending = 0 →
      SkipOut (b || !l1.parens.isEmpty) acc l1 r := by
  induction h with
  | dedent hb hp =>
    intro b l1 hb' hp'; rw [hb] at hb'; injection hb' with h1 h2; subst h2; omega
  | indent hb hp =>
    intro b l1 hb' hp'; rw [hb] at hb'; injection hb' with h1 h2; subst h2; omega
  | ret hb hp hin =>
    intro b l1 hb' hp'
    rw [hb] at hb'; injection hb' with h1 h2; subst h1; subst h2
    cases hin with
    | typeComment h1 h2 h3 => exact .typeComment (.of_hrun h1) h2 h3
    | eof h1 h2 => exact .eof (.of_hrun h1) h2
    | newline h1 h2 h3 h4 =>
      refine .newline (by simp [h3, h4]) h1 (.of_inner ?_) ?_ ?_
      · rcases h2 with h | h | h <;> simp [h]
      · rcases h2 with h | h | h <;> simp [h]
      · rcases h2 with h | h | h <;> simp [h]
  | brk hb hp hin =>
    intro b l1 hb' hp'
    rw [hb] at hb'; injection hb' with h1 h2; subst h1; subst h2
    cases hin with
    | brk h1 h2 => exact .brk (.of_hrun h1) h2
  | err hb hp hin =>
    intro b l1 hb' hp'
    rw [hb] at hb'; injection hb' with h1 h2; subst h1; subst h2
    cases hin with
    | badCont h1 h2 h3 h4 => exact .badCont (.of_hrun h1) h2 h3 h4
  | @again blank acc l b0 l0 acc' l2 r hb hp hin _ ih =>
    intro b l1 hb' hp'
    have hb1 : l0.bol = false := by
      have := bolState_bol blank l; rw [hb] at this; exact this
    rw [hb] at hb'; injection hb' with h1 h2; subst h1; subst h2
    cases hin with
    | @again ts k m h1 h2 h3 =>
      have hq : (b0 || !l0.parens.isEmpty) = true := by
        rcases h3 with h | h
        · simp [h]
        · cases hp : l0.parens <;> simp [hp] at h ⊢
      have he := LineEnd.of_inner h2
      obtain ⟨b', hb2, hq2⟩ := bolState_cont (blank := b0)
        (l := ((l0.fwd (k + m)).at (l0.pos + k)).setBol true) rfl hq
      have := ih b' _ hb2 (by simpa using hp)
      have hq2 : (b' || !l0.parens.isEmpty) = true := hq2
      simp only [parens_setBol, parens_fwd, parens_at, hq2] at this
      rw [hq]
      have hbl : Lexer.blanks (((l0.fwd (k + m)).at (l0.pos + k)).setBol true) =
          ((l0.rest.drop k).drop m).takeWhile isBlank := by
        simp [Lexer.blanks, List.drop_drop]
      rw [hbl] at this
      have hst : ((Lexer.fwd (((l0.rest.drop k).drop m).takeWhile isBlank).length
          (((l0.fwd (k + m)).at (l0.pos + k)).setBol true)).setBol false) =
          (l0.fwd (k + (m + (((l0.rest.drop k).drop m).takeWhile isBlank).length + 0))).at (l0.pos + k) := by
        simp only [fwd_setBol, setBol_setBol, fwd_at, fwd_fwd]
        rw [setBol_self (by simpa using hb1)]
        simp [Nat.add_assoc]
      rw [hst, List.append_assoc] at this
      exact SkipOut.prepend ((Gap.of_hrun h1).append (.line rfl he .nil)) rfl this

/-- One call of `get_symbol`: the line start step, then a layout token or a gap and a token. -/
inductive Step [Uni] (l : Lexer) : LexRes Token → Prop
  | dedent {b l1} : bolState false (l.at l.pos) = (b, l1) → l1.pending < 0 →
      Step l (.ok (.dedent none) { l1 with pending := l1.pending + 1 })
  | indent {b l1} : bolState false (l.at l.pos) = (b, l1) → l1.pending > 0 →
      Step l (.ok (.indent none) { l1 with pending := l1.pending - 1 })
  | newline {b l1 ts k m c1 c2} : bolState false (l.at l.pos) = (b, l1) → l1.pending = 0 →
      b = false → l1.parens = [] → HRun l1.pos l1.rest ts k → LineEnd (l1.rest.drop k) m →
      c1 = hd (l1.rest.drop k) → c2 = (if m = 3 then '\n' else ' ') →
      Step l (.ok (.newline (l1.pos + k) (l1.pos + k + m) (finTrivia ts) c1 c2)
        (((l1.fwd (k + m)).at (l1.pos + k)).setBol true))
  | typeComment {b l1 ts k} : bolState false (l.at l.pos) = (b, l1) → l1.pending = 0 →
      Gap (b || !l1.parens.isEmpty) l1.pos l1.rest ts k → hd (l1.rest.drop k) = '#' →
      isTypeComment (lineText (l1.rest.drop k)) = true →
      Step l (.ok (.typeComment (l1.pos + k) (l1.pos + k + (lineText (l1.rest.drop k)).length)
          (finTrivia ts) (lineText (l1.rest.drop k)))
        ((l1.fwd (k + (lineText (l1.rest.drop k)).length)).at (l1.pos + k)))
  | eof {b l1 ts k} : bolState false (l.at l.pos) = (b, l1) → l1.pending = 0 →
      Gap (b || !l1.parens.isEmpty) l1.pos l1.rest ts k → hd (l1.rest.drop k) = '\x00' →
      Step l (.ok (.eof (l1.pos + k) (finTrivia ts)) ((l1.fwd k).at (l1.pos + k)))
  | badCont {b l1 ts k} : bolState false (l.at l.pos) = (b, l1) → l1.pending = 0 →
      Gap (b || !l1.parens.isEmpty) l1.pos l1.rest ts k → hd (l1.rest.drop k) = '\\' →
      hd (l1.rest.drop (k + 1)) ≠ '\r' → hd (l1.rest.drop (k + 1)) ≠ '\n' →
      Step l (.err (.badContinuation (l1.pos + k)) ((l1.fwd k).at (l1.pos + k)))
  | arms {b l1 ts k} : bolState false (l.at l.pos) = (b, l1) → l1.pending = 0 →
      Gap (b || !l1.parens.isEmpty) l1.pos l1.rest ts k →
      hd (l1.rest.drop k) ∉ [' ', '\t', '#', '\x00', '\r', '\n', '\\'] →
      Step l (armsResult ts ((l1.fwd k).at (l1.pos + k)))

theorem getSymbol_step [Uni] (l : Lexer) (hi : l.interactive = false) (ho : IndOk l.indents) :
    Step l (getSymbol l) := by
  have h := getSymbol_spec l hi ho
  generalize getSymbol l = r at h
  obtain ⟨b, l1, hb⟩ : ∃ b l1, bolState false (l.at l.pos) = (b, l1) := ⟨_, _, rfl⟩
  cases h with
  | early h =>
    by_cases hp : l1.pending = 0
    · have := h.skip b l1 hb hp
      cases this with
      | typeComment h1 h2 h3 => exact .typeComment hb hp h1 h2 h3
      | eof h1 h2 => exact .eof hb hp h1 h2
      | newline h0 h1 h2 h3 h4 =>
        simp at h0
        exact .newline hb hp h0.1 h0.2 h1 h2 h3 h4
    · cases h with
      | dedent hb' h => rw [hb] at hb'; injection hb' with h1 h2; subst h2; exact .dedent hb h
      | indent hb' h => rw [hb] at hb'; injection hb' with h1 h2; subst h2; exact .indent hb h
      | ret hb' h => rw [hb] at hb'; injection hb' with h1 h2; subst h2; omega
      | again hb' h => rw [hb] at hb'; injection hb' with h1 h2; subst h2; omega
  | fail h =>
    have hp : l1.pending = 0 := by
      cases h with
      | err hb' h => rw [hb] at hb'; injection hb' with h1 h2; subst h2; omega
      | again hb' h => rw [hb] at hb'; injection hb' with h1 h2; subst h2; omega
    have := h.skip b l1 hb hp
    cases this with
    | badCont h1 h2 h3 h4 => exact .badCont hb hp h1 h2 h3 h4
  | arms h =>
    have hp : l1.pending = 0 := by
      cases h with
      | brk hb' h => rw [hb] at hb'; injection hb' with h1 h2; subst h2; omega
      | again hb' h => rw [hb] at hb'; injection hb' with h1 h2; subst h2; omega
    have := h.skip b l1 hb hp
    cases this with
    | brk h1 h2 => simpa using Step.arms hb hp h1 h2

end Verif
