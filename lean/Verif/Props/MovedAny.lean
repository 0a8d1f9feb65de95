import Verif.Proof.ExcFree
import Verif.Props.Moved

/-!
# C83, whatever was read before

The `except` status that an earlier `try` statement has left behind makes no difference to a parse function that is not one
for the clauses of a `try` statement.
-/

namespace Verif
set_option linter.unusedVariables false

/-- As `MovedSt`, for any two statuses. -/
structure MovedAny (src src' : List Char) (k : Nat) (c d : PSt) : Prop where
  left : Inv src c.lex
  right : Inv src' d.lex
  lex : SameAt k c.lex d.lex
  sym : SymMoved k c d

/-- As `OutMoved`, for any two statuses. -/
def OutAny (src src' : List Char) (k : Nat) {α : Type} [LkMv k α] : Res α → Res α → Prop
  | .ok x c, .ok y d => LkMv.rel k x y ∧ MovedAny src src' k c d
  | .err p m, .err q m' => p + k = q ∧ m = m'
  | .panic, .panic => True
  | .diverge, .diverge => True
  | _, _ => False

section
variable [Uni] {src src' : List Char} {k : Nat}

omit [Uni] in
theorem MovedSt.any {c d : PSt} (h : MovedSt src src' k c d) : MovedAny src src' k c d := ⟨h.left, h.right, h.lex, h.sym⟩

omit [Uni] in
theorem OutMoved.any {α : Type} [LkMv k α] {r r' : Res α} (h : OutMoved src src' k r r') : OutAny src src' k r r' := by
  cases r <;> cases r' <;> first | exact h | exact ⟨h.1, h.2.any⟩

theorem any_advance {c d : PSt} (hc : Inv src c.lex) (hd : Inv src' d.lex) (hs : SameAhead k c.lex d.lex) :
    MovedAny src src' k c.advance d.advance := by
  have h0 := moved_advance (c := c) (d := { d with exc := c.exc }) hc hd hs rfl
  have h1 : ({ d with exc := c.exc } : PSt).advance = { d.advance with exc := c.exc } := ahead_exc 1 d c.exc
  rw [h1] at h0
  exact ⟨h0.left, h0.right, h0.lex, h0.sym⟩

theorem any_exec {α : Type} [LkMv k α] {r : Fn → PSt → Res Tree}
    (hv : ∀ f g, FnMv k f g → ∀ c d, MovedSt src src' k c d → OutMoved src src' k (r f c) (r g d))
    (hr : ∀ f g, FnMv k f g → f.usesExc = false → ∀ c d, MovedAny src src' k c d → OutAny src src' k (r f c) (r g d))
    {p q : Prog α} (h : RelMv k p q) (hp : ExcFree p) :
    ∀ {c d}, MovedAny src src' k c d → OutAny src src' k (p.exec r c) (q.exec r d) := by
  induction p generalizing q with
  | ret a => intro c d hs; cases q <;> first | exact ⟨h, hs⟩ | exact h.elim
  | fail => intro c d hs; cases q <;> first | exact h | exact h.elim
  | panic => intro c d hs; cases q <;> first | exact h | exact h.elim
  | getPos j ih => intro c d hs; cases q <;> first | exact ih _ (h _ _ hs.lex.start.symm) (hp _) hs | exact h.elim
  | getExc j ih => exact hp.elim
  | sym j x ih1 ih2 =>
    intro c d hs
    cases q with
    | sym l y =>
      have h0 := hs.sym
      simp only [SymMoved] at h0
      simp only [Prog.exec]
      cases hc : c.symbol <;> cases hd : d.symbol <;> simp only [hc, hd] at h0 ⊢
      · exact ih2 h.2 hp.2 hs
      · exact ih1 _ (h.1 _ _ h0) (hp.1 _) hs
    | _ => exact h.elim
  | adv j ih =>
    intro c d hs
    cases q <;> first | exact ih h hp (any_advance hs.left hs.right hs.lex.toSameAhead) | exact h.elim
  | setExc x j ih =>
    intro c d hs
    cases q with
    | setExc y l =>
      obtain ⟨rfl, h⟩ := h
      exact (rmv_exec (p := j) (q := l) hv h (c := { c with exc := x }) (d := { d with exc := x }) ⟨hs.left, hs.right, hs.lex, hs.sym, rfl⟩).any
    | _ => exact h.elim
  | call f j ih =>
    intro c d hs
    cases q with
    | call g l =>
      have h0 := hr f g h.1 hp.1 c d hs
      simp only [Prog.exec]
      cases hc : r f c <;> cases hd : r g d <;> simp only [hc, hd, OutAny] at h0 ⊢
      · exact ih _ (h.2 _ _ h0.1) (hp.2 _) h0.2
      · exact h0
    | _ => exact h.elim

theorem outAny_run (n : Nat) : ∀ f g, FnMv k f g → f.usesExc = false → ∀ c d, MovedAny src src' k c d →
    OutAny src src' k (run n f c) (run n g d) := by
  induction n with
  | zero => intro f g _ _ c d _; exact trivial
  | succ n ih => intro f g hl hf c d hs; exact any_exec (outMoved_run n) ih (mv_body hl) (ef_body f hf) hs

omit [Uni] in
theorem OutAny.outcomes {r r' : Res Tree} (h0 : OutAny src src' k r r') :
    (∀ t c', r = .ok t c' → ∃ d', r' = .ok (t.mv k) d' ∧ SameAhead k c'.lex d'.lex) ∧
    (∀ p m, r = .err p m → r' = .err (p + k) m) ∧ (r = .panic → r' = .panic) ∧ (r = .diverge → r' = .diverge) := by
  cases r <;> cases r' <;> simp only [OutAny] at h0
  · obtain ⟨h1, h2⟩ := h0
    refine ⟨?_, by simp, by simp, by simp⟩
    intro t c' h
    cases h
    exact ⟨_, by rw [← show Tree.mv k _ = _ from h1], h2.lex.toSameAhead⟩
  · obtain ⟨rfl, rfl⟩ := h0
    refine ⟨by simp, ?_, by simp, by simp⟩
    intro p m h
    cases h
    rfl
  · simp
  · simp

end

/-- C83, whatever the parsers have read before: as `C83_moved`, for two parsers whose `except` statuses may differ, and every
parse function but the two for `except` clauses. -/
theorem C83_moved_any_status [Uni] (src src' : List Char) (k n : Nat) (f : Fn) (c d : PSt) (hc : PReach src c) (hd : PReach src' d)
    (hf : f ∈ Fn.decorated :: spanFns) (he : f ≠ .exceptStmt ∧ f ≠ .exceptClause) (hs : SameAhead k c.lex d.lex) :
    (∀ t c', run n f c.advance = .ok t c' → ∃ d', run n f d.advance = .ok (t.mv k) d' ∧ SameAhead k c'.lex d'.lex) ∧
    (∀ p m, run n f c.advance = .err p m → run n f d.advance = .err (p + k) m) ∧
    (run n f c.advance = .panic → run n f d.advance = .panic) ∧
    (run n f c.advance = .diverge → run n f d.advance = .diverge) := by
  have hu : f.usesExc = false := by
    cases f
    case exceptClause => exact absurd rfl he.2
    case exceptStmt => exact absurd rfl he.1
    case tryLoop => simp [spanFns, ruleFns] at hf
    all_goals rfl
  exact (outAny_run n f f (fnMv_plain hf) hu _ _ (any_advance hc.good.inv hd.good.inv hs)).outcomes

/-- C83 for the entry points in a session, whatever was read before. -/
theorem C83_entry_any_status [Uni] (src src' : List Char) (k n : Nat) (f : Fn)
    (hf : f = .evalInput ∨ f = .fileInput ∨ f = .singleInput ∨ f = .funcTypeInput) (c d : PSt) (hc : PReach src c)
    (hd : PReach src' d) (hs : SameAhead k c.lex d.lex) :
    (∀ t c', run n f c = .ok t c' → ∃ d', run n f d = .ok (t.mv k) d' ∧ SameAhead k c'.lex d'.lex) ∧
    (∀ p m, run n f c = .err p m → run n f d = .err (p + k) m) ∧
    (run n f c = .panic → run n f d = .panic) ∧ (run n f c = .diverge → run n f d = .diverge) := by
  refine OutAny.outcomes (src := src) (src' := src') ?_
  cases n with
  | zero => exact trivial
  | succ n =>
    have hm := any_advance (c := c) (d := d) hc.good.inv hd.good.inv hs
    have hb : RelMv k (body f) (body f) := mv_body (by rcases hf with rfl | rfl | rfl | rfl <;> constructor)
    have he : ExcFree (body f) := ef_body f (by rcases hf with rfl | rfl | rfl | rfl <;> rfl)
    obtain ⟨j, hj⟩ : ∃ j, body f = .adv j := by rcases hf with rfl | rfl | rfl | rfl <;> exact ⟨_, rfl⟩
    show OutAny _ _ _ ((body f).exec (run n) c) ((body f).exec (run n) d)
    rw [hj] at hb he ⊢
    exact any_exec (p := j) (q := j) (outMoved_run n) (outAny_run n) hb he hm

/-- C83 for a parser that has read `a`, by whatever calls: if it is now at the last line end of `a` with all blocks closed, a
parse function that reads on from there returns the tree it returns at the beginning of the text `b`, with the length of `a`
added to all positions, or the same error so much further on. -/
theorem C83_behind_any_status [Uni] (a b : List Char) (us : List Token) (l : Lexer) (ht : Tokens (Lexer.new (a ++ b)) us l)
    (hl : LineStart (a ++ b) l) (hpos : l.buf.index = a.length) (hbal : countKind .Indent us = countKind .Dedent us)
    (d : PSt) (hd : PReach (a ++ b) d) (hdl : d.lex = l) (n : Nat) (f : Fn) (hf : f ∈ Fn.decorated :: spanFns)
    (he : f ≠ .exceptStmt ∧ f ≠ .exceptClause) :
    (∀ t c, run n f (PSt.new (Lexer.new b)).advance = .ok t c →
      ∃ d', run n f d.advance = .ok (t.mv a.length) d' ∧ SameAhead a.length c.lex d'.lex) ∧
    (∀ p m, run n f (PSt.new (Lexer.new b)).advance = .err p m → run n f d.advance = .err (p + a.length) m) := by
  have hs := same_behind a b us l ht hl hpos hbal
  obtain ⟨h1, h2, -⟩ := C83_moved_any_status b (a ++ b) a.length n f _ d .new hd hf he (by rw [hdl]; exact hs)
  exact ⟨h1, h2⟩

/-- `try: a` with `except: b` is read as a statement, then the name `z` and its line end are skipped.  The parser then has
another `except` status than a new one, and reads `x = (a)` as a new one does, 19 characters further on. -/
example : let _ := asciiUni
    ∃ us l t c u d0 d d', run 80 .stmt (PSt.new (Lexer.new (cs! "try: a\nexcept: b\nz\n" ++ cs! "x = (a)\n"))).advance = .ok u d0 ∧
      d = d0.advance ∧ d.exc ≠ (PSt.new (Lexer.new (cs! "x = (a)\n"))).exc ∧
      Tokens (Lexer.new (cs! "try: a\nexcept: b\nz\n" ++ cs! "x = (a)\n")) us l ∧
      LineStart (cs! "try: a\nexcept: b\nz\n" ++ cs! "x = (a)\n") l ∧ l.buf.index = (cs! "try: a\nexcept: b\nz\n").length ∧
      countKind .Indent us = countKind .Dedent us ∧ PReach (cs! "try: a\nexcept: b\nz\n" ++ cs! "x = (a)\n") d ∧ d.lex = l ∧
      run 80 .stmt (PSt.new (Lexer.new (cs! "x = (a)\n"))).advance = .ok t c ∧ t.tokens.length = 6 ∧
      run 80 .stmt d.advance = .ok (t.mv 19) d' := by
  intro _
  obtain ⟨t, c, hm, hp⟩ := Res.shows (r := run 80 .stmt (PSt.new (Lexer.new (cs! "x = (a)\n"))).advance)
    (P := fun t => t.tokens.length = 6) (by decide +kernel)
  obtain ⟨u, d0, hu, -⟩ := Res.shows
    (r := run 80 .stmt (PSt.new (Lexer.new (cs! "try: a\nexcept: b\nz\n" ++ cs! "x = (a)\n"))).advance)
    (P := fun _ => True) (by decide +kernel)
  have h0 := (later_run 80 .stmt (PSt.new (Lexer.new (cs! "try: a\nexcept: b\nz\n" ++ cs! "x = (a)\n"))).advance).2 u d0 hu
  have ht : Tokens (Lexer.new (cs! "try: a\nexcept: b\nz\n" ++ cs! "x = (a)\n")) _ _ :=
    .cons rfl (.cons rfl (.cons rfl (.cons rfl (.cons rfl (.cons rfl (.cons rfl (.cons rfl (.cons rfl (.cons rfl .nil)))))))))
  have hl : LineStart (cs! "try: a\nexcept: b\nz\n" ++ cs! "x = (a)\n") _ :=
    .inr ⟨_, _, .ok (.ok (.ok (.ok (.ok (.ok (.ok (.ok (.ok .new rfl) rfl) rfl) rfl) rfl) rfl) rfl) rfl) rfl, rfl, rfl⟩
  have hd : PReach (cs! "try: a\nexcept: b\nz\n" ++ cs! "x = (a)\n") d0.advance := .adv (.run (.adv .new) hu)
  have hdl : d0.advance.lex = ((PSt.new (Lexer.new (cs! "try: a\nexcept: b\nz\n" ++ cs! "x = (a)\n"))).ahead 10).lex := by
    rw [h0]
    decide +kernel
  have hx : d0.advance.exc ≠ (PSt.new (Lexer.new (cs! "x = (a)\n"))).exc := by
    rw [h0]
    decide +kernel
  obtain ⟨d', hd', -⟩ := (C83_behind_any_status _ _ _ _ ht hl rfl rfl _ hd (hdl.trans (ht.left_state rfl)) 80 .stmt
    (by simp [spanFns, ruleFns]) (by simp)).1 t c hm
  exact ⟨_, _, t, c, u, d0, _, d', hu, rfl, hx, ht, hl, rfl, rfl, hd, hdl.trans (ht.left_state rfl), hm, hp, hd'⟩

end Verif
