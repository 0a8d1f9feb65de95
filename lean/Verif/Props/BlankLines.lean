import Verif.Proof.LGBlank
import Verif.Props.Insert
import Verif.Props.Balance
import Verif.Props.Concat

/-!
# C60: lines without code between two lines of a block
-/

namespace Verif
open LG

/-- Two states with the same next step of the lexical grammar have alike next symbols. -/
theorem lexLike_of_next [Uni] {src src' l l' t l2} (h : Reach src l) (h' : Reach src' l') (hr : getSymbol l = .ok t l2)
    (hn : ∀ w q, Next l.place w q → w.kind = t.kind → Next l'.place w q) : LexLike (getSymbol l) (getSymbol l') := by
  have h1 := (C55_next_symbol src l t.bare l2.place h).1 ⟨t, l2, hr, rfl, rfl⟩
  obtain ⟨t', l3, hr', e1, e2⟩ := (C55_next_symbol src' l' t.bare l2.place h').2 (hn _ _ h1 (by cases t <;> rfl))
  rw [hr, hr']
  exact .ok e1.symm e2.symm

/-- Texts with alike symbols so far and alike next symbols are alike. -/
theorem viewLike_of [Uni] {src src' : List Char} {ts us : List Token} {l l' : Lexer} (h : Tokens (Lexer.new src) ts l)
    (h' : Tokens (Lexer.new src') us l') (e : us.map Token.bare = ts.map Token.bare) (hl : LexLike (getSymbol l) (getSymbol l')) :
    ViewLike Token.bare (PSt.new (Lexer.new src)) (PSt.new (Lexer.new src')) := by
  refine ⟨rfl, fun i => ?_⟩
  have hlen : us.length = ts.length := by simpa using congrArg List.length e
  cases i with
  | zero => exact trivial
  | succ i =>
    by_cases hi : i < ts.length
    · unfold SymLike
      rw [h.seen rfl i hi, h'.seen rfl i (hlen ▸ hi)]
      have := congrArg (·[i]?) e
      simpa [hi, hlen ▸ hi] using this.symm
    · obtain ⟨j, rfl⟩ := Nat.exists_eq_add_of_le (Nat.le_of_not_lt hi)
      rw [Nat.add_assoc, ahead_add _ ts.length (j + 1), show ts.length + (j + 1) = us.length + (j + 1) by rw [hlen],
        ahead_add _ us.length (j + 1)]
      have c1 := h.left_state (c := PSt.new (Lexer.new src)) rfl
      have c2 := h'.left_state (c := PSt.new (Lexer.new src')) rfl
      exact LexLike.view j (c1 ▸ h.reach .new) (c2 ▸ h'.reach .new) (by rw [c1, c2]; exact hl)

theorem accepts_of_like [Uni] {f : Fn} {src src' : List Char}
    (key : ∀ n, ResLike Token.bare (run n f (PSt.new (Lexer.new src))) (run n f (PSt.new (Lexer.new src')))) :
    Accepts f src ↔ Accepts f src' := by
  constructor
  · rintro ⟨n, u, c, e⟩
    have := key n
    rw [e] at this
    cases hr : run n f (PSt.new (Lexer.new src')) with
    | ok u' c' => exact ⟨n, u', c', hr⟩
    | err => rw [hr] at this; exact this.elim
    | panic => rw [hr] at this; exact this.elim
    | diverge => rw [hr] at this; exact this.elim
  · rintro ⟨n, u, c, e⟩
    have := key n
    rw [e] at this
    cases hr : run n f (PSt.new (Lexer.new src)) with
    | ok u' c' => exact ⟨n, u', c', hr⟩
    | err => rw [hr] at this; exact this.elim
    | panic => rw [hr] at this; exact this.elim
    | diverge => rw [hr] at this; exact this.elim

/-- C60, symbols: at the start of a line whose first symbol is neither an indentation nor the end of a block, lines without
code can be put in: the symbols of the two texts are the same up to positions and trivia. -/
theorem C60_symbols [Uni] (a w r : List Char) (ts : List Token) (t : Token) (l l2 : Lexer)
    (h : Tokens (Lexer.new (a ++ r)) ts l) (hpos : l.buf.index = a.length) (ha : BeforeLine a ts)
    (hr : getSymbol l = .ok t l2) (ht : t.kind ≠ .Indent ∧ t.kind ≠ .Dedent) (hw : BlankLines w) :
    ViewLike Token.bare (PSt.new (Lexer.new (a ++ r))) (PSt.new (Lexer.new (a ++ (w ++ r)))) := by
  have hreach := h.reach .new
  have hrest : l.place.text = r := by
    show l.buf.chars.drop l.buf.index = _
    rw [hreach.inv.chars, hpos, List.drop_left]
  have hrun := (C55_symbols _ _ _).1 ⟨_, _, h, rfl, rfl⟩
  have ha' : BeforeLine a (ts.map Token.bare) := by
    rcases ha with ⟨rfl, rfl⟩ | ⟨b, us, t, h1, h2, rfl, h3⟩
    · exact .inl ⟨rfl, rfl⟩
    · exact .inr ⟨b, us.map Token.bare, t.bare, h1, h2, by simp, by cases t <;> exact h3⟩
  obtain ⟨hf, hc, hrun'⟩ := hrun.lineSwap (r' := w ++ r) ha' rfl hrest rfl rfl
  obtain ⟨us, l', h', e1, e2⟩ := (C55_symbols (a ++ (w ++ r)) _ _).2 hrun'
  refine viewLike_of h h' e1 (lexLike_of_next hreach (h'.reach .new) hr ?_)
  intro v q hn hk
  rw [e2]
  have := hn.blankLines hf hc hw (by rw [hk]; exact ht)
  rwa [hrest] at this

/-- C60: at the start of a line whose first symbol is neither an indentation nor the end of a block, blank lines and lines with
a comment only can be put in: every entry point gives the same tree up to positions and trivia, or the same error message. -/
theorem C60_blank_lines [Uni] (a w r : List Char) (ts : List Token) (t : Token) (l l2 : Lexer)
    (h : Tokens (Lexer.new (a ++ r)) ts l) (hpos : l.buf.index = a.length) (ha : BeforeLine a ts)
    (hr : getSymbol l = .ok t l2) (ht : t.kind ≠ .Indent ∧ t.kind ≠ .Dedent) (hw : BlankLines w) (n : Nat) (f : Fn) :
    ResLike Token.bare (run n f (PSt.new (Lexer.new (a ++ r)))) (run n f (PSt.new (Lexer.new (a ++ (w ++ r))))) :=
  C53_layout_anywhere n f _ _ (C60_symbols a w r ts t l l2 h hpos ha hr ht hw)

/-- C60: acceptance does not depend on such lines. -/
theorem C60_accepted [Uni] (a w r : List Char) (ts : List Token) (t : Token) (l l2 : Lexer)
    (h : Tokens (Lexer.new (a ++ r)) ts l) (hpos : l.buf.index = a.length) (ha : BeforeLine a ts)
    (hr : getSymbol l = .ok t l2) (ht : t.kind ≠ .Indent ∧ t.kind ≠ .Dedent) (hw : BlankLines w) (f : Fn) :
    Accepts f (a ++ r) ↔ Accepts f (a ++ (w ++ r)) :=
  accepts_of_like fun n => C60_blank_lines a w r ts t l l2 h hpos ha hr ht hw n f

/-- Inside a block: a blank line and a comment between two statements. -/
example : @Accepts asciiUni .fileInput (cs! "if a:\n  b\n\n # c\n  d\n") := by
  let _ := asciiUni
  refine (C60_accepted (cs! "if a:\n  b\n") (cs! "\n # c\n") (cs! "  d\n") [_, _, _, _, _, _, _] _ _ _
    (.cons rfl (.cons rfl (.cons rfl (.cons rfl (.cons rfl (.cons rfl (.cons rfl .nil))))))) rfl
    (.inr ⟨cs! "if a:\n  b", [_, _, _, _, _, _], _, rfl, by decide, rfl, rfl⟩) rfl (by decide) ?_ .fileInput).1 ?_
  · exact .more (.blank (w := []) (by simp)) (.one (.comment (w := [' ']) (txt := cs! "# c") (by simp) rfl (by decide) (by decide)))
  · exact Res.accepts (m := 100) (by decide +kernel)

/-- The condition on the next symbol is needed: with a blank line before it the end of a block is not noticed, and with one
before it the indentation is not. -/
theorem C60_before_block_end :
    (@Accepts asciiUni .fileInput (cs! "if a:\n  b\n") ∧ ¬ @Accepts asciiUni .fileInput (cs! "if a:\n  b\n\n")) ∧
    (@Accepts asciiUni .fileInput (cs! "if a:\n  b\n") ∧ ¬ @Accepts asciiUni .fileInput (cs! "if a:\n\n  b\n")) := by
  let _ := asciiUni
  refine ⟨⟨Res.accepts (m := 100) (by decide +kernel), ?_⟩, Res.accepts (m := 100) (by decide +kernel), ?_⟩
  · rintro ⟨n, t, c', h⟩
    exact C58_blank_last_line.2 n t c' h
  · rintro ⟨n, t, c', h⟩
    obtain ⟨m, hm⟩ : ∃ m, run 100 .fileInput (PSt.new (Lexer.new (cs! "if a:\n\n  b\n"))) = .err 5 m :=
      Res.errAt_spec (by decide +kernel)
    have := run_det (n := n) (m := 100) (by rw [h]; simp) (by rw [hm]; simp)
    rw [h, hm] at this
    cases this

end Verif
