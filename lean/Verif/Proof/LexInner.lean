import Verif.Spec.Trivia

/-!
# Tokenizer: the skipping loops without fuel
-/

set_option linter.unusedSimpArgs false

namespace Verif
open LexM
attribute [-simp] List.drop_one List.tail_drop

theorem HTrivia.pos_of {pos cs t n} (h : HTrivia pos cs t n) : 0 < n ∧ n ≤ cs.length := by
  cases h with
  | spaces h =>
    cases cs with
    | nil => simp at h
    | cons c cs => simp at h; subst h; simpa using takeWhile_length_le _ cs
  | tab h => cases cs <;> simp at h ⊢
  | comment h =>
    cases cs with
    | nil => simp at h
    | cons c cs => simp at h; subst h; simpa [lineText] using takeWhile_length_le _ cs
  | cont3 h h1 h2 =>
    rcases cs with _ | ⟨_, _ | ⟨_, _ | ⟨_, _⟩⟩⟩ <;> simp at h h1 h2 ⊢
  | contCR h h1 h2 =>
    rcases cs with _ | ⟨_, _ | ⟨_, _⟩⟩ <;> simp at h h1 h2 ⊢
  | contLF h h1 =>
    rcases cs with _ | ⟨_, _ | ⟨_, _⟩⟩ <;> simp at h h1 ⊢

theorem HRun.le_length {pos cs ts n} (h : HRun pos cs ts n) : n ≤ cs.length := by
  induction h with
  | nil => omega
  | cons h _ ih => have := h.pos_of; simp at ih; omega

theorem HRun.append {pos cs ts n us m} (h : HRun pos cs ts n)
    (h' : HRun (pos + n) (cs.drop n) us m) : HRun pos cs (ts ++ us) (n + m) := by
  induction h with
  | nil => simpa using h'
  | cons h _ ih =>
    have := ih (by simpa [Nat.add_assoc] using h')
    rw [List.cons_append, Nat.add_assoc]
    exact .cons h this

/-- With `tokStart` changed. -/
def Lexer.at (l : Lexer) (s : Nat) : Lexer := { l with tokStart := s }

@[simp] theorem rest_at (l : Lexer) (s) : (l.at s).rest = l.rest := rfl
@[simp] theorem pos_at (l : Lexer) (s) : (l.at s).pos = l.pos := rfl
@[simp] theorem buf_at (l : Lexer) (s) : (l.at s).buf = l.buf := rfl
@[simp] theorem tokStart_at (l : Lexer) (s) : (l.at s).tokStart = s := rfl
@[simp] theorem parens_at (l : Lexer) (s) : (l.at s).parens = l.parens := rfl
@[simp] theorem bol_at (l : Lexer) (s) : (l.at s).bol = l.bol := rfl
@[simp] theorem tabSize_at (l : Lexer) (s) : (l.at s).tabSize = l.tabSize := rfl
@[simp] theorem interactive_at (l : Lexer) (s) : (l.at s).interactive = l.interactive := rfl
@[simp] theorem pending_at (l : Lexer) (s) : (l.at s).pending = l.pending := rfl
@[simp] theorem indents_at (l : Lexer) (s) : (l.at s).indents = l.indents := rfl
@[simp] theorem at_at (l : Lexer) (s t) : (l.at s).at t = l.at t := rfl
@[simp] theorem fwd_at (l : Lexer) (s k) : (l.at s).fwd k = (l.fwd k).at s := rfl
@[simp] theorem at_tokStart (l : Lexer) : l.at l.tokStart = l := rfl
@[simp] theorem markStart_at (l : Lexer) : markStart l = .ok () (l.at l.pos) := rfl

theorem wsLoop_spec (n : Nat) (l : Lexer) (acc : List Trivia) (hn : l.rest.length < n) :
    ∃ ts k s, wsLoop acc n l = .ok (acc ++ ts) ((l.fwd k).at s) ∧ HRun l.pos l.rest ts k ∧
      isBlank (hd (l.rest.drop k)) = false := by
  induction n generalizing l acc with
  | zero => omega
  | succ n ih =>
    by_cases h : hd l.rest = ' '
    · let k := (l.rest.takeWhile (· == ' ')).length
      have ht : HTrivia l.pos l.rest (.whiteSpace l.pos (l.pos + k) ' ') k := .spaces h
      obtain ⟨ts, m, s, h1, h2, h3⟩ := ih ((l.fwd k).at l.pos) (acc ++ [.whiteSpace l.pos (l.pos + k) ' '])
        (by have := ht.pos_of; simp; omega)
      have hs := scanWhile_apply (· == ' ') (by decide) (l.buf.chars.length + 2) (l.at l.pos)
        (by have := rest_length_le l; simp; omega)
      refine ⟨.whiteSpace l.pos (l.pos + k) ' ' :: ts, k + m, s, ?_, ?_, ?_⟩
      · simp only [wsLoop, lexm_bind, curChar_apply, h, if_pos, markStart_at, loopFuel_apply, buf_at, hs,
          getPosition_apply, bufPos_apply, lexm_ite]
        simp at h1
        simpa [k] using h1
      · exact .cons ht (by simpa using h2)
      · simpa [Nat.add_comm] using h3
    · by_cases h' : hd l.rest = '\t'
      · have ht : HTrivia l.pos l.rest (.whiteSpace l.pos (l.pos + 1) '\t') 1 := .tab h'
        obtain ⟨ts, m, s, h1, h2, h3⟩ := ih ((l.fwd 1).at l.pos) (acc ++ [.whiteSpace l.pos (l.pos + 1) '\t'])
          (by have := ht.pos_of; simp; omega)
        refine ⟨.whiteSpace l.pos (l.pos + 1) '\t' :: ts, 1 + m, s, ?_, ?_, ?_⟩
        · simp only [wsLoop, lexm_bind, curChar_apply, lexm_ite, h, h', markStart_at,
            adv_apply, getPosition_apply, bufPos_apply]
          simp at h1
          simpa using h1
        · exact .cons ht (by simpa using h2)
        · simpa [Nat.add_comm] using h3
      · refine ⟨[], 0, l.tokStart, ?_, .nil, ?_⟩
        · simp [wsLoop, h, h']
        · simp [isBlank, h, h']

/-- Results of the `'inner` loop started in `l` with collected trivia `acc`. -/
inductive InnerOut (blank : Bool) (acc : List Trivia) (l : Lexer) : LexRes InnerExit → Prop
  /-- a type comment -/
  | typeComment {ts k} : HRun l.pos l.rest ts k → hd (l.rest.drop k) = '#' →
      isTypeComment (lineText (l.rest.drop k)) = true →
      InnerOut blank acc l (.ok
        (.ret (.typeComment (l.pos + k) (l.pos + k + (lineText (l.rest.drop k)).length)
          (finTrivia (acc ++ ts)) (lineText (l.rest.drop k))))
        ((l.fwd (k + (lineText (l.rest.drop k)).length)).at (l.pos + k)))
  /-- end of the text -/
  | eof {ts k} : HRun l.pos l.rest ts k → hd (l.rest.drop k) = '\x00' →
      InnerOut blank acc l (.ok (.ret (.eof (l.pos + k) (finTrivia (acc ++ ts))))
        ((l.fwd k).at (l.pos + k)))
  /-- a line end of `m` characters (as consumed) that is a token -/
  | newline {ts k m c1 c2} : HRun l.pos l.rest ts k →
      ((hd (l.rest.drop k) = '\r' ∧ hd (l.rest.drop (k + 1)) = '\n' ∧ m = 3 ∧ c1 = '\r' ∧ c2 = '\n') ∨
       (hd (l.rest.drop k) = '\r' ∧ hd (l.rest.drop (k + 1)) ≠ '\n' ∧ m = 1 ∧ c1 = '\r' ∧ c2 = ' ') ∨
       (hd (l.rest.drop k) = '\n' ∧ m = 1 ∧ c1 = '\n' ∧ c2 = ' ')) →
      blank = false → l.parens = [] →
      InnerOut blank acc l (.ok
        (.ret (.newline (l.pos + k) (l.pos + k + m) (finTrivia (acc ++ ts)) c1 c2))
        { ((l.fwd (k + m)).at (l.pos + k)) with bol := true })
  /-- a line end of `m` characters (as consumed) that is trivia -/
  | again {ts k m} : HRun l.pos l.rest ts k →
      ((hd (l.rest.drop k) = '\r' ∧ hd (l.rest.drop (k + 1)) = '\n' ∧ m = 3) ∨
       (hd (l.rest.drop k) = '\r' ∧ hd (l.rest.drop (k + 1)) ≠ '\n' ∧ m = 1) ∨
       (hd (l.rest.drop k) = '\n' ∧ m = 1)) →
      (blank = true ∨ l.parens ≠ []) →
      InnerOut blank acc l (.ok
        (.again (acc ++ ts ++ [.newline (l.pos + k) (l.pos + k + m) '\r' '\n']))
        { ((l.fwd (k + m)).at (l.pos + k)) with bol := true })
  /-- a backslash that is not followed by a line end -/
  | badCont {ts k} : HRun l.pos l.rest ts k → hd (l.rest.drop k) = '\\' →
      hd (l.rest.drop (k + 1)) ≠ '\r' → hd (l.rest.drop (k + 1)) ≠ '\n' →
      InnerOut blank acc l (.err (.badContinuation (l.pos + k)) ((l.fwd k).at (l.pos + k)))
  /-- the start of another token -/
  | brk {ts k} : HRun l.pos l.rest ts k →
      hd (l.rest.drop k) ∉ [' ', '\t', '#', '\x00', '\r', '\n', '\\'] →
      InnerOut blank acc l (.ok (.brk (acc ++ ts)) ((l.fwd k).at (l.pos + k)))

theorem InnerOut.prepend {blank acc l ts k s r} (h : HRun l.pos l.rest ts k)
    (h' : InnerOut blank (acc ++ ts) ((l.fwd k).at s) r) : InnerOut blank acc l r := by
  cases h' with
  | typeComment h1 h2 h3 =>
    have := InnerOut.typeComment (blank := blank) (acc := acc) (l := l) (h.append (by simpa using h1))
      (by simpa [Nat.add_comm] using h2) (by simpa [Nat.add_comm] using h3)
    simpa [Nat.add_comm, Nat.add_assoc, Nat.add_left_comm] using this
  | eof h1 h2 =>
    have := InnerOut.eof (blank := blank) (acc := acc) (l := l) (h.append (by simpa using h1))
      (by simpa [Nat.add_comm] using h2)
    simpa [Nat.add_comm, Nat.add_assoc, Nat.add_left_comm] using this
  | newline h1 h2 h3 h4 =>
    have := InnerOut.newline (blank := blank) (acc := acc) (l := l) (h.append (by simpa using h1))
      (by simpa [Nat.add_comm, Nat.add_assoc, Nat.add_left_comm] using h2) h3 (by simpa using h4)
    simpa [Nat.add_comm, Nat.add_assoc, Nat.add_left_comm] using this
  | again h1 h2 h3 =>
    have := InnerOut.again (blank := blank) (acc := acc) (l := l) (h.append (by simpa using h1))
      (by simpa [Nat.add_comm, Nat.add_assoc, Nat.add_left_comm] using h2) (by simpa using h3)
    simpa [Nat.add_comm, Nat.add_assoc, Nat.add_left_comm] using this
  | badCont h1 h2 h3 h4 =>
    have := InnerOut.badCont (blank := blank) (acc := acc) (l := l) (h.append (by simpa using h1))
      (by simpa [Nat.add_comm, Nat.add_assoc, Nat.add_left_comm] using h2)
      (by simpa [Nat.add_comm, Nat.add_assoc, Nat.add_left_comm] using h3)
      (by simpa [Nat.add_comm, Nat.add_assoc, Nat.add_left_comm] using h4)
    simpa [Nat.add_comm, Nat.add_assoc, Nat.add_left_comm] using this
  | brk h1 h2 =>
    have := InnerOut.brk (blank := blank) (acc := acc) (l := l) (h.append (by simpa using h1))
      (by simpa [Nat.add_comm] using h2)
    simpa [Nat.add_comm, Nat.add_assoc, Nat.add_left_comm] using this

theorem newlineExit_apply (acc blank c1 c2) (l : Lexer) :
    newlineExit acc blank c1 c2 l =
      if blank = true ∨ l.parens ≠ [] then
        .ok (.again (acc ++ [.newline l.tokStart l.pos '\r' '\n'])) { l with bol := true }
      else .ok (.ret (.newline l.tokStart l.pos (finTrivia acc) c1 c2)) { l with bol := true } := by
  by_cases h : blank = true ∨ l.parens ≠ []
  · rw [if_pos h]
    have : blank = true ∨ l.parens.isEmpty = false := by simpa using h
    simp only [newlineExit, lexm_bind, lexm_modify, lexm_get, getPosition_apply, bufPos_apply, lexm_ite, if_pos this]
    rfl
  · rw [if_neg h]
    have : ¬ (blank = true ∨ l.parens.isEmpty = false) := by simpa using h
    simp only [newlineExit, lexm_bind, lexm_modify, lexm_get, getPosition_apply, bufPos_apply, lexm_ite, if_neg this]
    rfl

theorem inner_spec (n : Nat) (blank : Bool) (acc : List Trivia) (l : Lexer) (hn : l.rest.length < n) :
    InnerOut blank acc l (inner blank acc n l) := by
  induction n generalizing l acc with
  | zero => omega
  | succ n ih =>
    obtain ⟨ts, k, s, hw, hrun, hb⟩ := wsLoop_spec (l.buf.chars.length + 2) l acc
      (by have := rest_length_le l; omega)
    refine InnerOut.prepend hrun (s := l.pos + k) ?_
    simp only [inner, lexm_bind, loopFuel_apply, hw, markStart_at, curChar_apply, lexm_ite]
    simp only [at_at, buf_at, pos_at, pos_fwd, rest_at, rest_fwd, chars_fwd]
    -- the state after the white space
    generalize hl0 : (l.fwd k).at (l.pos + k) = l0
    have hl0r : l.rest.drop k = l0.rest := by simp [← hl0]
    have hl0p : l.pos + k = l0.pos := by simp [← hl0]
    have hl0a : l0.at l0.pos = l0 := by rw [← hl0]; simp
    have hl0c : l.buf.chars = l0.buf.chars := by simp [← hl0]
    have hlen0 : l0.rest.length < n + 1 := by rw [← hl0r]; simp; omega
    rw [hl0r] at hb
    rw [hl0r, hl0c]
    clear hl0 hw hrun hl0r hl0p hl0c hn
    generalize acc ++ ts = acc
    -- a line continuation
    have hcont : ∀ t m, HTrivia l0.pos l0.rest t m →
        InnerOut blank acc l0 (inner blank (acc ++ [t]) n ((l0.fwd m).at l0.pos)) := by
      intro t m ht
      have h1 := ih (acc ++ [t]) ((l0.fwd m).at l0.pos) (by have := ht.pos_of; simp; omega)
      refine InnerOut.prepend (ts := [t]) (k := m) (s := l0.pos) ?_ h1
      have := HRun.cons ht HRun.nil
      simpa using this
    split
    · -- comment
      rename_i hc
      have hs := scanWhile_apply (fun c => !(c == '\r' || c == '\n' || c == '\x00')) (by decide)
        (l0.buf.chars.length + 2) l0 (by have := rest_length_le l0; omega)
      simp only [hs, getPosition_apply, bufPos_apply]
      have ht0 : l0.tokStart = l0.pos := by rw [← hl0a]; rfl
      change InnerOut _ _ _ (if isTypeComment (lineText l0.rest) = true then
        _ else inner blank (acc ++ [Trivia.comment l0.tokStart _ (lineText l0.rest)]) n _)
      split
      · rename_i hty
        have := InnerOut.typeComment (blank := blank) (acc := acc) (l := l0) HRun.nil hc hty
        simp only [List.append_nil, Nat.add_zero, Nat.zero_add, List.drop_zero, fwd_at] at this
        simp only [tokStart_fwd, ht0]
        rw [show (l0.fwd _).at l0.pos = (l0.at l0.pos).fwd (lineText l0.rest).length from rfl, hl0a] at this
        exact this
      · rename_i hty
        have := hcont _ _ (HTrivia.comment hc (by simpa using hty))
        rw [show (l0.fwd _).at l0.pos = (l0.at l0.pos).fwd (lineText l0.rest).length from rfl, hl0a] at this
        simp only [tokStart_fwd, ht0]
        exact this
    · split
      · -- end of text
        rename_i _ hz
        simp only [bufPos_apply]
        have := InnerOut.eof (blank := blank) (acc := acc) (l := l0) HRun.nil hz
        simpa [hl0a] using this
      · -- the rest
        rename_i hc hz
        simp only [peekThree_apply, hl0a]
        have ht0 : l0.tokStart = l0.pos := by rw [← hl0a]; rfl
        have hnl : ∀ m c1 c2,
          ((hd l0.rest = '\r' ∧ hd (l0.rest.drop 1) = '\n' ∧ m = 3 ∧ c1 = '\r' ∧ c2 = '\n') ∨
           (hd l0.rest = '\r' ∧ hd (l0.rest.drop 1) ≠ '\n' ∧ m = 1 ∧ c1 = '\r' ∧ c2 = ' ') ∨
           (hd l0.rest = '\n' ∧ m = 1 ∧ c1 = '\n' ∧ c2 = ' ')) →
          InnerOut blank acc l0 (newlineExit acc blank c1 c2 (l0.fwd m)) := by
          intro m c1 c2 h
          rw [newlineExit_apply]
          split
          · rename_i hbl
            have := InnerOut.again (blank := blank) (acc := acc) (l := l0) (m := m) HRun.nil
              (by rcases h with h | h | h <;> simp [h]) (by simpa using hbl)
            simp only [List.append_nil, Nat.add_zero, Nat.zero_add, fwd_at, hl0a] at this
            rw [show (l0.fwd _).at l0.pos = (l0.at l0.pos).fwd m from rfl, hl0a] at this
            simpa [ht0] using this
          · rename_i hbl
            simp only [not_or, Bool.not_eq_true, Decidable.not_not] at hbl
            have := InnerOut.newline (blank := blank) (acc := acc) (l := l0) (m := m) (c1 := c1) (c2 := c2)
              HRun.nil (by simpa using h) (by simpa using hbl.1) (by simpa using hbl.2)
            simp only [List.append_nil, Nat.add_zero, Nat.zero_add, fwd_at, hl0a] at this
            rw [show (l0.fwd _).at l0.pos = (l0.at l0.pos).fwd m from rfl, hl0a] at this
            simpa [ht0] using this
        have hco : ∀ t m, HTrivia l0.pos l0.rest t m →
            InnerOut blank acc l0 (inner blank (acc ++ [t]) n (l0.fwd m)) := by
          intro t m ht
          have := hcont t m ht
          rw [show (l0.fwd _).at l0.pos = (l0.at l0.pos).fwd m from rfl, hl0a] at this
          exact this
        split
        · rename_i h; simp only [lexm_bind, advN_apply]; exact hnl 3 _ _ (Or.inl ⟨h.1, h.2, rfl, rfl, rfl⟩)
        split
        · rename_i h' h; simp only [lexm_bind, advN_apply]
          exact hnl 1 _ _ (Or.inr (Or.inl ⟨h, fun h2 => h' ⟨h, h2⟩, rfl, rfl, rfl⟩))
        split
        · rename_i h; simp only [lexm_bind, advN_apply]
          exact hnl 1 _ _ (Or.inr (Or.inr ⟨h, rfl, rfl, rfl⟩))
        split
        · rename_i h; simp only [lexm_bind, advN_apply, getPosition_apply, bufPos_apply, tokStart_fwd, ht0]
          exact hco _ _ (.cont3 h.1 h.2.1 h.2.2)
        split
        · rename_i h' h; simp only [lexm_bind, advN_apply, getPosition_apply, bufPos_apply, tokStart_fwd, ht0]
          exact hco _ _ (.contCR h.1 h.2 (fun h3 => h' ⟨h.1, h.2, h3⟩))
        split
        · rename_i h; simp only [lexm_bind, advN_apply, getPosition_apply, bufPos_apply, tokStart_fwd, ht0]
          exact hco _ _ (.contLF h.1 h.2)
        split
        · rename_i h1 h2 h3 _ h4 h5 h6
          simp only [lexm_bind, bufPos_apply, lexm_throw]
          have := InnerOut.badCont (blank := blank) (acc := acc) (l := l0) HRun.nil h6
            (by simpa using fun h => h4 ⟨h6, h⟩) (by simpa using fun h => h5 ⟨h6, h⟩)
          simpa [hl0a] using this
        · rename_i h1 h2 h3 _ h4 h5 h6
          simp only [lexm_pure]
          have := InnerOut.brk (blank := blank) (acc := acc) (l := l0) HRun.nil (by
            simp [isBlank] at hb
            simp; exact ⟨hb.1, hb.2, hc, hz, h2, h3, h6⟩)
          simpa [hl0a] using this

end Verif
