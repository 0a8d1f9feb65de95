import Verif.Proof.MovedAll
import Verif.Props.ErrorMoved

/-!
# C83: the tree of a text further on is the same tree, moved

`Tree.mv` (`Spec/Moved.lean`) adds a distance to every position in a tree, also in the tokens and the trivia, and changes
nothing else.
-/

namespace Verif
set_option linter.unusedVariables false

/-- The same symbol, `k` characters further on (or an error in both, `k` characters apart). -/
def SymMoved (k : Nat) (c d : PSt) : Prop :=
  match c.symbol, d.symbol with
  | .ok t, .ok u => t.shift k = u
  | .error _, .error _ => True
  | _, _ => False

/-- The second parser is in the same situation as the first, `k` characters further on. -/
structure MovedSt (src src' : List Char) (k : Nat) (c d : PSt) : Prop where
  left : Inv src c.lex
  right : Inv src' d.lex
  lex : SameAt k c.lex d.lex
  sym : SymMoved k c d
  exc : c.exc = d.exc

section
variable [Uni] {src src' : List Char} {k : Nat}

theorem moved_advance {c d : PSt} (hc : Inv src c.lex) (hd : Inv src' d.lex) (hs : SameAhead k c.lex d.lex)
    (hx : c.exc = d.exc) : MovedSt src src' k c.advance d.advance := by
  have h0 := getSymbol_shiftAt hc hd hs
  have key : SymMoved k c.advance d.advance ∧ SameAt k c.advance.lex d.advance.lex := by
    unfold PSt.advance SymMoved
    generalize getSymbol c.lex = r at h0
    generalize getSymbol d.lex = r' at h0
    cases h0 with
    | ok h => exact ⟨rfl, h⟩
    | err h => exact ⟨trivial, h⟩
  exact ⟨ahead_inv 1 hc, ahead_inv 1 hd, key.2, key.1, by rw [advance_exc_eq, advance_exc_eq]; exact hx⟩

/-- Outcomes that are the same, `k` characters apart. -/
def OutMoved (src src' : List Char) (k : Nat) {α : Type} [LkMv k α] : Res α → Res α → Prop
  | .ok x c, .ok y d => LkMv.rel k x y ∧ MovedSt src src' k c d
  | .err p m, .err q m' => p + k = q ∧ m = m'
  | .panic, .panic => True
  | .diverge, .diverge => True
  | _, _ => False

theorem rmv_exec {α : Type} [LkMv k α] {r : Fn → PSt → Res Tree}
    (hr : ∀ f g, FnMv k f g → ∀ c d, MovedSt src src' k c d → OutMoved src src' k (r f c) (r g d))
    {p q : Prog α} (h : RelMv k p q) :
    ∀ {c d}, MovedSt src src' k c d → OutMoved src src' k (p.exec r c) (q.exec r d) := by
  induction p generalizing q with
  | ret a => intro c d hv; cases q <;> first | exact ⟨h, hv⟩ | exact h.elim
  | fail => intro c d hv; cases q <;> first | exact h | exact h.elim
  | panic => intro c d hv; cases q <;> first | exact h | exact h.elim
  | getPos j ih => intro c d hv; cases q <;> first | exact ih _ (h _ _ hv.lex.start.symm) hv | exact h.elim
  | getExc j ih =>
    intro c d hv
    cases q with
    | getExc l => simp only [Prog.exec]; rw [← hv.exc]; exact ih _ (h _) hv
    | _ => exact h.elim
  | sym j x ih1 ih2 =>
    intro c d hv
    cases q with
    | sym l y =>
      have h0 := hv.sym
      simp only [SymMoved] at h0
      simp only [Prog.exec]
      cases hc : c.symbol <;> cases hd : d.symbol <;> simp only [hc, hd] at h0 ⊢
      · exact ih2 h.2 hv
      · exact ih1 _ (h.1 _ _ h0) hv
    | _ => exact h.elim
  | adv j ih =>
    intro c d hv
    cases q <;> first | exact ih h (moved_advance hv.left hv.right hv.lex.toSameAhead hv.exc) | exact h.elim
  | setExc x j ih =>
    intro c d hv
    cases q with
    | setExc y l =>
      obtain ⟨rfl, h⟩ := h
      exact ih h ⟨hv.left, hv.right, hv.lex, hv.sym, rfl⟩
    | _ => exact h.elim
  | call f j ih =>
    intro c d hv
    cases q with
    | call g l =>
      have h0 := hr f g h.1 c d hv
      simp only [Prog.exec]
      cases hc : r f c <;> cases hd : r g d <;> simp only [hc, hd, OutMoved] at h0 ⊢
      · exact ih _ (h.2 _ _ h0.1) h0.2
      · exact h0
    | _ => exact h.elim

theorem outMoved_run : ∀ n f g, FnMv k f g → ∀ c d, MovedSt src src' k c d → OutMoved src src' k (run n f c) (run n g d)
  | 0, _, _, _, _, _, _ => trivial
  | n + 1, _, _, h, _, _, hv => rmv_exec (outMoved_run n) (mv_body h) hv

omit [Uni] in
theorem OutMoved.outcomes {r r' : Res Tree} (h0 : OutMoved src src' k r r') :
    (∀ t c', r = .ok t c' → ∃ d', r' = .ok (t.mv k) d' ∧ SameAhead k c'.lex d'.lex ∧ c'.exc = d'.exc) ∧
    (∀ p m, r = .err p m → r' = .err (p + k) m) ∧ (r = .panic → r' = .panic) ∧ (r = .diverge → r' = .diverge) := by
  cases r <;> cases r' <;> simp only [OutMoved] at h0
  · obtain ⟨h1, h2⟩ := h0
    refine ⟨?_, by simp, by simp, by simp⟩
    intro t c' h
    cases h
    exact ⟨_, by rw [← show Tree.mv k _ = _ from h1], h2.lex.toSameAhead, h2.exc⟩
  · obtain ⟨rfl, rfl⟩ := h0
    refine ⟨by simp, ?_, by simp, by simp⟩
    intro p m h
    cases h
    rfl
  · simp
  · simp

omit [Uni] in
theorem fnMv_plain {f : Fn} (hf : f ∈ Fn.decorated :: spanFns) : FnMv k f f := by
  simp only [spanFns, ruleFns, List.cons_append, List.nil_append, List.mem_cons, List.not_mem_nil, or_false] at hf
  repeat' (first | constructor | (rcases hf with rfl | hf))

end

/-- C83: let two parsers (on any two texts) have the same text ahead, the same open brackets and blocks, and the same `except`
status, with the second one `k` characters further on in its text.  After reading the next symbol, every parse function
does the same for both: it returns the same tree with all positions moved by `k`, and the parsers are again in the same
situation; or it fails with the same message, `k` characters further on; or it panics in both; or it goes on for more than
`n` steps in both. -/
theorem C83_moved [Uni] (src src' : List Char) (k n : Nat) (f : Fn) (c d : PSt) (hc : PReach src c) (hd : PReach src' d)
    (hf : f ∈ Fn.decorated :: spanFns) (hs : SameAhead k c.lex d.lex) (hx : c.exc = d.exc) :
    (∀ t c', run n f c.advance = .ok t c' → ∃ d', run n f d.advance = .ok (t.mv k) d' ∧ SameAhead k c'.lex d'.lex ∧ c'.exc = d'.exc) ∧
    (∀ p m, run n f c.advance = .err p m → run n f d.advance = .err (p + k) m) ∧
    (run n f c.advance = .panic → run n f d.advance = .panic) ∧
    (run n f c.advance = .diverge → run n f d.advance = .diverge) := by
  have h0 := outMoved_run n f f (fnMv_plain hf) _ _ (moved_advance hc.good.inv hd.good.inv hs hx)
  exact h0.outcomes

/-- C83 for a new parser and one further on: what is parsed at the beginning of the text `b` is parsed in the same way in
`a ++ b` behind `a`, if `a` has been read up to its last line end and its blocks are closed.  The tree is the same, and
every position in it is larger by the length of `a`. -/
theorem C83_behind [Uni] (a b : List Char) (us : List Token) (l : Lexer) (ht : Tokens (Lexer.new (a ++ b)) us l)
    (hl : LineStart (a ++ b) l) (hpos : l.buf.index = a.length) (hbal : countKind .Indent us = countKind .Dedent us)
    (n : Nat) (f : Fn) (hf : f ∈ Fn.decorated :: spanFns) (t : Tree) (c : PSt)
    (hr : run n f (PSt.new (Lexer.new b)).advance = .ok t c) :
    ∃ d, run n f ((PSt.new (Lexer.new (a ++ b))).ahead us.length).advance = .ok (t.mv a.length) d ∧
      SameAhead a.length c.lex d.lex := by
  have hs := same_behind a b us l ht hl hpos hbal
  have hlex : ((PSt.new (Lexer.new (a ++ b))).ahead us.length).lex = l := ht.left_state rfl
  obtain ⟨d, h1, h2, _⟩ := (C83_moved b (a ++ b) a.length n f _ _ .new (ahead_preach _ .new) hf (by rw [hlex]; exact hs)
    (by rw [ahead_exc_same]; rfl)).1 t c hr
  exact ⟨d, h1, h2⟩

section
variable [Uni] {src src' : List Char} {k : Nat}

/-- The input rules read their first symbol themselves. -/
theorem outMoved_entry {f : Fn} (hf : f = .evalInput ∨ f = .fileInput ∨ f = .singleInput ∨ f = .funcTypeInput) (n : Nat)
    {c d : PSt} (hc : Inv src c.lex) (hd : Inv src' d.lex) (hs : SameAhead k c.lex d.lex) (hx : c.exc = d.exc) :
    OutMoved src src' k (run n f c) (run n f d) := by
  cases n with
  | zero => exact trivial
  | succ n =>
    have hm := moved_advance hc hd hs hx
    have hb : RelMv k (body f) (body f) := mv_body (by rcases hf with rfl | rfl | rfl | rfl <;> constructor)
    obtain ⟨j, hj⟩ : ∃ j, body f = .adv j := by rcases hf with rfl | rfl | rfl | rfl <;> exact ⟨_, rfl⟩
    show OutMoved _ _ _ ((body f).exec (run n) c) ((body f).exec (run n) d)
    rw [hj] at hb ⊢
    exact rmv_exec (p := j) (q := j) (outMoved_run n) hb hm

end

/-- C83 for the entry points, called on a parser that is somewhere in its text (as in a session that parses one line after
the other): the same tree with all positions moved, or the same error moved. -/
theorem C83_entry_moved [Uni] (src src' : List Char) (k n : Nat) (f : Fn)
    (hf : f = .evalInput ∨ f = .fileInput ∨ f = .singleInput ∨ f = .funcTypeInput) (c d : PSt) (hc : PReach src c)
    (hd : PReach src' d) (hs : SameAhead k c.lex d.lex) (hx : c.exc = d.exc) :
    (∀ t c', run n f c = .ok t c' → ∃ d', run n f d = .ok (t.mv k) d' ∧ SameAhead k c'.lex d'.lex ∧ c'.exc = d'.exc) ∧
    (∀ p m, run n f c = .err p m → run n f d = .err (p + k) m) ∧
    (run n f c = .panic → run n f d = .panic) ∧ (run n f c = .diverge → run n f d = .diverge) := by
  have h0 := outMoved_entry hf n hc.good.inv hd.good.inv hs hx
  exact h0.outcomes

/-- C83 for a whole text behind another one, read on its own: the rest `b` of `a ++ b`, parsed as a file (or an expression, a
line, a function type) by a parser that has read `a`, has the tree of `b` with the length of `a` added to all positions. -/
theorem C83_entry_behind [Uni] (a b : List Char) (us : List Token) (l : Lexer) (ht : Tokens (Lexer.new (a ++ b)) us l)
    (hl : LineStart (a ++ b) l) (hpos : l.buf.index = a.length) (hbal : countKind .Indent us = countKind .Dedent us)
    (n : Nat) (f : Fn) (hf : f = .evalInput ∨ f = .fileInput ∨ f = .singleInput ∨ f = .funcTypeInput) :
    (∀ t c, run n f (PSt.new (Lexer.new b)) = .ok t c →
      ∃ d, run n f ((PSt.new (Lexer.new (a ++ b))).ahead us.length) = .ok (t.mv a.length) d) ∧
    (∀ p m, run n f (PSt.new (Lexer.new b)) = .err p m →
      run n f ((PSt.new (Lexer.new (a ++ b))).ahead us.length) = .err (p + a.length) m) := by
  have hs := same_behind a b us l ht hl hpos hbal
  have hlex : ((PSt.new (Lexer.new (a ++ b))).ahead us.length).lex = l := ht.left_state rfl
  obtain ⟨h1, h2, -⟩ := C83_entry_moved b (a ++ b) a.length n f hf _ _ .new (ahead_preach _ .new) (by rw [hlex]; exact hs)
    (by rw [ahead_exc_same]; rfl)
  exact ⟨fun t c h => (h1 t c h).imp fun d h => h.1, h2⟩

/-- `x = (a)` behind eleven characters. -/
example : let _ := asciiUni
    ∃ us l t c d, Tokens (Lexer.new (cs! "if a:\n b\nc\n" ++ cs! "x = (a)\n")) us l ∧
      LineStart (cs! "if a:\n b\nc\n" ++ cs! "x = (a)\n") l ∧ l.buf.index = (cs! "if a:\n b\nc\n").length ∧
      countKind .Indent us = countKind .Dedent us ∧
      run 80 .stmt (PSt.new (Lexer.new (cs! "x = (a)\n"))).advance = .ok t c ∧
      t.tokens.map Token.span? = [some (0, 1), some (2, 3), some (4, 5), some (5, 6), some (6, 7), some (7, 8)] ∧
      run 80 .stmt ((PSt.new (Lexer.new (cs! "if a:\n b\nc\n" ++ cs! "x = (a)\n"))).ahead us.length).advance = .ok (t.mv 11) d ∧
      ∃ v c' d', run 80 .fileInput (PSt.new (Lexer.new (cs! "x = (a)\n"))) = .ok v c' ∧ v.tokens.length = 7 ∧
        run 80 .fileInput ((PSt.new (Lexer.new (cs! "if a:\n b\nc\n" ++ cs! "x = (a)\n"))).ahead us.length) = .ok (v.mv 11) d' := by
  intro _
  obtain ⟨t, c, hm, hp⟩ := Res.shows (r := run 80 .stmt (PSt.new (Lexer.new (cs! "x = (a)\n"))).advance)
    (P := fun t => t.tokens.map Token.span? = [some (0, 1), some (2, 3), some (4, 5), some (5, 6), some (6, 7), some (7, 8)])
    (by decide +kernel)
  have ht : Tokens (Lexer.new (cs! "if a:\n b\nc\n" ++ cs! "x = (a)\n")) _ _ :=
    .cons rfl (.cons rfl (.cons rfl (.cons rfl (.cons rfl (.cons rfl (.cons rfl (.cons rfl (.cons rfl (.cons rfl .nil)))))))))
  have hl : LineStart (cs! "if a:\n b\nc\n" ++ cs! "x = (a)\n") _ :=
    .inr ⟨_, _, .ok (.ok (.ok (.ok (.ok (.ok (.ok (.ok (.ok .new rfl) rfl) rfl) rfl) rfl) rfl) rfl) rfl) rfl, rfl, rfl⟩
  obtain ⟨d, hd, -⟩ := C83_behind _ _ _ _ ht hl rfl rfl 80 .stmt (by simp [spanFns, ruleFns]) t c hm
  obtain ⟨v, c', hv, hq⟩ := Res.shows (r := run 80 .fileInput (PSt.new (Lexer.new (cs! "x = (a)\n"))))
    (P := fun t => t.tokens.length = 7) (by decide +kernel)
  obtain ⟨d', hd'⟩ := (C83_entry_behind _ _ _ _ ht hl rfl rfl 80 .fileInput (by simp)).1 v c' hv
  exact ⟨_, _, t, c, d, ht, hl, rfl, rfl, hm, hp, hd, v, c', d', hv, hq, hd'⟩

end Verif
