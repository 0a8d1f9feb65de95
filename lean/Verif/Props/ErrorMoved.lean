import Verif.Proof.ShiftAt
import Verif.Props.Shift
import Verif.Props.ErrorPlace

/-!
# C82: a syntax error moves with the text

The same text further on: the error has the same message, and its position is moved by the same distance.
-/

namespace Verif
set_option linter.unusedVariables false

section
variable [Uni]

theorem Token.bare_shift (k : Nat) (t : Token) : (t.shift k).bare = t.bare := by cases t <;> rfl

theorem Fn.first_cases (f : Fn) : (∀ c : PSt, f.first c = c) ∨ ∀ c : PSt, f.first c = c.advance := by
  cases f
  case evalInput => exact .inr fun _ => rfl
  case fileInput => exact .inr fun _ => rfl
  case singleInput => exact .inr fun _ => rfl
  case funcTypeInput => exact .inr fun _ => rfl
  all_goals exact .inl fun _ => rfl

theorem Tokens.returned' {l ts l'} (h : Tokens l ts l') : Returned l ts l' := by
  induction h with
  | nil => exact .nil
  | cons h _ ih => exact .ok h ih

/-- After the same number of symbols, `k` characters apart. -/
theorem moved_ahead {src src' : List Char} {k : Nat} : ∀ (i : Nat) {c d : PSt}, Inv src c.lex → Inv src' d.lex →
    SameAhead k c.lex d.lex → SymLike Token.bare (c.ahead (i + 1)) (d.ahead (i + 1)) ∧
      (d.ahead (i + 1)).lex.tokStart = (c.ahead (i + 1)).lex.tokStart + k
  | i, c, d, hc, hd, h => by
    have h0 := getSymbol_shiftAt hc hd h
    have key : SymLike Token.bare c.advance d.advance ∧ SameAt k c.advance.lex d.advance.lex := by
      unfold PSt.advance SymLike
      generalize getSymbol c.lex = r at h0
      generalize getSymbol d.lex = r' at h0
      cases h0 with
      | ok h => exact ⟨(Token.bare_shift _ _).symm, h⟩
      | err h => exact ⟨trivial, h⟩
    cases i with
    | zero => exact ⟨key.1, key.2.start⟩
    | succ i => exact moved_ahead i (c := c.advance) (d := d.advance) (ahead_inv 1 hc) (ahead_inv 1 hd) key.2.toSameAhead

end

/-- C82, moved: let two parsers (on any two texts) have the same text ahead, the same open brackets and blocks, and the same
`except` status, with the second one `k` characters further on in its text.  If after reading the next symbol a parse
function fails for the first with an error at `p`, it fails for the second with the same message at `p + k`. -/
theorem C82_moved [Uni] (src src' : List Char) (k n : Nat) (f : Fn) (c d : PSt) (hc : PReach src c) (hd : PReach src' d)
    (hf : f ∈ Fn.decorated :: spanFns) (hs : SameAhead k c.lex d.lex) (hx : c.exc = d.exc) (p : Nat) (m : String)
    (hr : run n f c.advance = .err p m) : run n f d.advance = .err (p + k) m := by
  have hm := fun i => moved_ahead i hc.good.inv hd.good.inv hs
  have hv : ViewLike Token.bare c.advance d.advance :=
    ⟨by rw [advance_exc_eq, advance_exc_eq]; exact hx, fun i => (hm i).1⟩
  have h0 := outAt_first hv n hf
  rw [hr] at h0
  have hj : ∃ j, f.first c.advance = c.ahead (j + 1) ∧ f.first d.advance = d.ahead (j + 1) := by
    rcases Fn.first_cases f with h | h
    · exact ⟨0, h _, h _⟩
    · exact ⟨1, h _, h _⟩
  obtain ⟨j, e1, e2⟩ := hj
  rw [e1, e2] at h0
  cases hq : run n f d.advance with
  | err q m' =>
    rw [hq] at h0
    obtain ⟨⟨i, rfl, rfl⟩, rfl⟩ := h0
    rw [← ahead_add, ← ahead_add, show j + 1 + i = j + i + 1 by omega, (hm _).2]
  | _ => rw [hq] at h0; exact h0.elim

section
variable [Uni]

/-- Behind `a`, the tokenizer is in the same situation as a new one for `b`. -/
theorem same_behind (a b : List Char) (us : List Token) (l : Lexer) (ht : Tokens (Lexer.new (a ++ b)) us l)
    (hl : LineStart (a ++ b) l) (hpos : l.buf.index = a.length) (hbal : countKind .Indent us = countKind .Dedent us) :
    SameAhead a.length (Lexer.new b) l := by
  have hret : Returned (Lexer.new (a ++ b)) us l := ht.returned'
  obtain ⟨hi, hb, hp, hpar⟩ := hl.state
  have h10 := (C10_indent_dedent_balance (a ++ b) us l hret).1
  have hlen : l.indents.length = 1 := by
    have := hi.ind.length_pos
    rw [hp, hbal] at h10; omega
  have hind : l.indents = [0] := by
    have := hi.ind
    match h : l.indents, hlen with
    | [x], _ => rw [h] at this; simpa [IndOk] using this
  refine ⟨?_, ?_, hpar, hb, hi.tab, hi.inter, hp, hind⟩
  · show l.buf.index = 0 + a.length
    rw [hpos]; omega
  · show l.rest = b
    rw [hi.rest_eq]
    show (a ++ b).drop l.buf.index = b
    rw [hpos]; simp

theorem ahead_exc_same : ∀ k (c : PSt), (c.ahead k).exc = c.exc
  | 0, _ => rfl
  | k + 1, c => (ahead_exc_same k c.advance).trans (advance_exc_eq c)

end

/-- C82, behind another text: a statement (or any other construct) that is wrong at the beginning of the text `b` is wrong in
the same way in `a ++ b`, if `a` has been read up to its last line end and its blocks are closed: the same message, and the
position is that in `b` plus the length of `a`. -/
theorem C82_behind [Uni] (a b : List Char) (us : List Token) (l : Lexer) (ht : Tokens (Lexer.new (a ++ b)) us l)
    (hl : LineStart (a ++ b) l) (hpos : l.buf.index = a.length) (hbal : countKind .Indent us = countKind .Dedent us)
    (n : Nat) (f : Fn) (hf : f ∈ Fn.decorated :: spanFns) (p : Nat) (m : String)
    (hr : run n f (PSt.new (Lexer.new b)).advance = .err p m) :
    run n f ((PSt.new (Lexer.new (a ++ b))).ahead us.length).advance = .err (p + a.length) m := by
  have hs := same_behind a b us l ht hl hpos hbal
  have hlex : ((PSt.new (Lexer.new (a ++ b))).ahead us.length).lex = l := ht.left_state rfl
  exact C82_moved b (a ++ b) a.length n f _ _ .new (ahead_preach _ .new) hf (by rw [hlex]; exact hs)
    (by rw [ahead_exc_same]; rfl) p m hr

/-- `x = (a b)` behind eleven characters: the error at 4 is now at 15. -/
example : let _ := asciiUni
    ∃ us l m, Tokens (Lexer.new (cs! "if a:\n b\nc\n" ++ cs! "x = (a b)\n")) us l ∧
      LineStart (cs! "if a:\n b\nc\n" ++ cs! "x = (a b)\n") l ∧ l.buf.index = (cs! "if a:\n b\nc\n").length ∧
      countKind .Indent us = countKind .Dedent us ∧
      run 80 .stmt (PSt.new (Lexer.new (cs! "x = (a b)\n"))).advance = .err 4 m ∧
      run 80 .stmt ((PSt.new (Lexer.new (cs! "if a:\n b\nc\n" ++ cs! "x = (a b)\n"))).ahead us.length).advance = .err 15 m := by
  intro _
  obtain ⟨m, hm⟩ := Res.errAt_spec (r := run 80 .stmt (PSt.new (Lexer.new (cs! "x = (a b)\n"))).advance) (p := 4) (by decide +kernel)
  have ht : Tokens (Lexer.new (cs! "if a:\n b\nc\n" ++ cs! "x = (a b)\n")) _ _ :=
    .cons rfl (.cons rfl (.cons rfl (.cons rfl (.cons rfl (.cons rfl (.cons rfl (.cons rfl (.cons rfl (.cons rfl .nil)))))))))
  have hl : LineStart (cs! "if a:\n b\nc\n" ++ cs! "x = (a b)\n") _ :=
    .inr ⟨_, _, .ok (.ok (.ok (.ok (.ok (.ok (.ok (.ok (.ok .new rfl) rfl) rfl) rfl) rfl) rfl) rfl) rfl) rfl, rfl, rfl⟩
  exact ⟨_, _, m, ht, hl, rfl, rfl, hm, C82_behind _ _ _ _ ht hl rfl rfl 80 .stmt (by simp [spanFns, ruleFns]) 4 m hm⟩

end Verif
