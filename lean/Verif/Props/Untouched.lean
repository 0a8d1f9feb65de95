import Verif.Proof.LexLocal
import Verif.Props.ErrorPos

/-!
# C71: text that was not read does not matter

The outcome of a parse depends only on the characters up to the place at which the tokenizer stopped, and on the next three.
Whatever comes after them cannot change the tree, cannot turn the tree into an error, and cannot repair an error.
-/

namespace Verif
set_option linter.unusedVariables false

theorem SameStart.agree {k a b} (h : SameStart k a b) : AgreeAt k a b := by
  intro i hi
  have e : (a.take k)[i]? = (b.take k)[i]? := by rw [show a.take k = b.take k from h]
  rw [List.getElem?_take_of_lt hi, List.getElem?_take_of_lt hi] at e
  have key : ∀ x : List Char, (Source.mk x 0).charAt i = (x[i]?).getD '\x00' := by
    intro x
    simp only [Source.charAt]
    split
    · rw [List.getElem?_eq_getElem ‹_›]; rfl
    · rw [List.getElem?_eq_none (Nat.le_of_not_lt ‹_›)]; rfl
  rw [key, key, e]

section
variable [Uni]

theorem PReach.chars {src} {c : PSt} (h : PReach src c) : c.lex.buf.chars = src := h.good.inv.chars

theorem not_starved {src l} (h : Inv src l) : ¬ (getSymbol l).starved := by
  cases hr : getSymbol l with
  | ok t l' => exact id
  | err e l' =>
    have := (err_facts h hr).kind
    rintro (rfl : e = .fuel)
    rcases this with h | ⟨p, h⟩
    · simp [LexErr.isArm] at h
    · simp at h

theorem advance_index (c : PSt) : c.lex.buf.index ≤ c.advance.lex.buf.index := by
  have := Loc.getSymbol.mono c.lex
  unfold PSt.advance
  cases hr : getSymbol c.lex <;> rw [hr] at this <;> exact this

theorem ahead_index : ∀ j (c : PSt), c.lex.buf.index ≤ (c.ahead j).lex.buf.index
  | 0, _ => Nat.le_refl _
  | j + 1, c => Nat.le_trans (advance_index c) (ahead_index j _)

theorem Later.index {c d : PSt} (h : Later c d) : c.lex.buf.index ≤ d.lex.buf.index := by
  obtain ⟨j, x, rfl⟩ := h; exact ahead_index j c

theorem Later.preach {src} {c d : PSt} (h : Later c d) (hc : PReach src c) : PReach src d := by
  obtain ⟨j, x, rfl⟩ := h; exact .exc x (ahead_preach j hc)

theorem advance_withText {src src'} {c : PSt} (h : PReach src c) (h' : PReach src' (c.withText src'))
    (ha : AgreeAt (c.advance.lex.buf.index + 3) src src') : (c.withText src').advance = c.advance.withText src' := by
  have := Loc.getSymbol.same c.lex src' (not_starved h.good.inv) (not_starved h'.good.inv)
  rw [h.chars] at this
  unfold PSt.advance at ha ⊢
  show (match getSymbol (c.lex.withText src') with | .ok t l => _ | .err e l => _) = _
  cases hr : getSymbol c.lex <;> rw [hr] at this ha <;> rw [this ha] <;> rfl

theorem untouched_exec {α : Type} {src src'} {r : Fn → PSt → Res Tree} {s : Fn → PSt → PSt}
    (hl : ∀ f c, Later c (s f c) ∧ ∀ t c', r f c = .ok t c' → c' = s f c)
    (hl' : ∀ f c, ∀ t c', r f c = .ok t c' → Later c c')
    (hr : ∀ f c, PReach src c → PReach src' (c.withText src') → AgreeAt ((s f c).lex.buf.index + 3) src src' →
      r f (c.withText src') = (r f c).withText src') (p : Prog α) :
    ∀ c, PReach src c → PReach src' (c.withText src') → AgreeAt ((p.stop r s c).lex.buf.index + 3) src src' →
      p.exec r (c.withText src') = (p.exec r c).withText src' := by
  induction p with
  | ret a => exact fun c _ _ _ => rfl
  | fail | panic => exact fun c _ _ _ => rfl
  | getPos k ih | getExc k ih => exact fun c => ih _ c
  | adv k ih =>
    intro c h h' ha
    have e := advance_withText h h' (ha.mono (Nat.add_le_add_right (later_exec hl k c.advance).1.index 3))
    show k.exec r (c.withText src').advance = _
    rw [e]
    exact ih _ h.adv (e ▸ h'.adv) ha
  | setExc x k ih => exact fun c h h' ha => ih { c with exc := x } (.exc x h) (.exc x h') ha
  | sym k x ih1 ih2 =>
    intro c h h' ha
    simp only [Prog.stop, Prog.exec] at ha ⊢
    show (match c.symbol with | .ok t => _ | .error _ => _) = _
    cases hs : c.symbol <;> rw [hs] at ha
    · exact ih2 c h h' ha
    · exact ih1 _ c h h' ha
  | call f k ih =>
    intro c h h' ha
    obtain ⟨h1, h2⟩ := hl f c
    have hf := hr f c h h'
    simp only [Prog.stop, Prog.exec] at ha ⊢
    cases he : r f c <;> simp only [he] at ha
    · rename_i t c1
      have e := h2 _ _ he
      have hf := hf (ha.mono (Nat.add_le_add_right (e ▸ (later_exec hl (k t) c1).1.index) 3))
      rw [he] at hf
      rw [hf]
      exact ih t c1 (e ▸ h1.preach h) ((hl' _ _ _ _ hf).preach h') ha
    all_goals
      have hf := hf ha
      rw [he] at hf
      rw [hf]
      rfl

theorem untouched_run {src src'} : ∀ n f c, PReach src c → PReach src' (c.withText src') →
    AgreeAt ((runStop n f c).lex.buf.index + 3) src src' → run n f (c.withText src') = (run n f c).withText src'
  | 0, _, _, _, _, _ => rfl
  | n + 1, f, c, h, h', ha => untouched_exec (later_run n) (fun f c t c' he => (later_run n f c).2 t c' he ▸ (later_run n f c).1)
      (untouched_run n) (body f) c h h' ha

end

/-- C71 for the tokenizer: a call of `get_symbol` in a state that is reachable on two texts does the same on both when they have
the same characters up to the place at which it stops, and the same next three. -/
theorem C71_symbol [Uni] (src src' : List Char) (l : Lexer) (h : Reach src l) (h' : Reach src' (l.withText src'))
    (hs : SameStart ((getSymbol l).state.buf.index + 3) src src') :
    getSymbol (l.withText src') = (getSymbol l).withText src' :=
  Loc.getSymbol.same l src' (not_starved h.inv) (not_starved h'.inv) (by rw [h.inv.chars]; exact hs.agree)

/-- C71: let the parser stop at the character `s` of a text (after the symbol it looked at last), with a tree or with an error.
On every text that has the same first `s + 3` characters the same parse function ends with the same tree, or with the same error
at the same place. -/
theorem C71_unread_text [Uni] (src src' : List Char) (n : Nat) (f : Fn)
    (hs : SameStart ((runStop n f (PSt.new (Lexer.new src))).lex.buf.index + 3) src src') :
    run n f (PSt.new (Lexer.new src')) = (run n f (PSt.new (Lexer.new src))).withText src' :=
  untouched_run n f _ .new .new hs.agree

/-- C71, trees: what follows the accepted part of a text is not part of the question. -/
theorem C71_accepted [Uni] (src : List Char) (n : Nat) (f : Fn) (t : Tree) (c : PSt)
    (h : run n f (PSt.new (Lexer.new src)) = .ok t c) (src' : List Char) (hs : SameStart (c.lex.buf.index + 3) src src') :
    run n f (PSt.new (Lexer.new src')) = .ok t (c.withText src') := by
  have e := (later_run n f _).2 t c h
  have := C71_unread_text src src' n f (e ▸ hs)
  rw [this, h]
  rfl

/-- C71, errors: an error that was found three characters before the end of the text or earlier cannot be repaired by adding
text. -/
theorem C71_not_repaired [Uni] (src : List Char) (n : Nat) (f : Fn) (p : Nat) (m : String)
    (h : run n f (PSt.new (Lexer.new src)) = .err p m)
    (hs : (runStop n f (PSt.new (Lexer.new src))).lex.buf.index + 3 ≤ src.length) (rest : List Char) :
    run n f (PSt.new (Lexer.new (src ++ rest))) = .err p m := by
  have := C71_unread_text src (src ++ rest) n f (by
    show src.take _ = (src ++ rest).take _
    rw [List.take_append_of_le_length hs])
  rw [this, h]
  rfl

/-- The interactive input `x = 1` is read; the text that follows the first line may be anything, here it is not even a sequence of
symbols.  The tokenizer stops after the `y` that is the first symbol of the next line. -/
example : let _ := asciiUni
    ∃ t c, run 80 .singleInput (PSt.new (Lexer.new (cs! "x = 1\ny = ) $ 'a"))) = .ok t c ∧ c.lex.buf.index = 7 ∧
      run 80 .singleInput (PSt.new (Lexer.new (cs! "x = 1\ny = 2\n"))) = .ok t (c.withText (cs! "x = 1\ny = 2\n")) := by
  intro _
  obtain ⟨t, c, h, -⟩ := Res.shows (r := run 80 .singleInput (PSt.new (Lexer.new (cs! "x = 1\ny = ) $ 'a"))))
    (P := fun _ => True) (by decide +kernel)
  have hi : (runStop 80 .singleInput (PSt.new (Lexer.new (cs! "x = 1\ny = ) $ 'a")))).lex.buf.index = 7 := by decide +kernel
  have hc := (later_run 80 .singleInput _).2 _ _ h
  rw [← hc] at hi
  exact ⟨t, c, h, hi, C71_accepted _ _ _ _ _ h _ (by rw [hi]; exact rfl)⟩

/-- `x = (a b) + 1` is an error whatever follows. -/
example : let _ := asciiUni
    ∃ p m, ∀ rest, run 80 .fileInput (PSt.new (Lexer.new (cs! "x = (a b) + 1\n" ++ rest))) = .err p m := by
  intro _
  obtain ⟨m, h⟩ := Res.errAt_spec (r := run 80 .fileInput (PSt.new (Lexer.new (cs! "x = (a b) + 1\n")))) (p := 4) (by decide +kernel)
  exact ⟨_, m, C71_not_repaired _ _ _ _ _ h (by decide +kernel)⟩

end Verif
