import Verif.Proof.Lookahead
import Verif.Props.Layout
import Verif.Props.Viable

/-!
# C80: the parser looks one symbol ahead, and not further

The outcome of a parse, a tree or an error, is determined by the symbols up to the one at which the parser stops.  Two texts with the
same symbols up to there have the same outcome, whatever their layout is and whatever follows, even if what follows is no symbol
at all.
-/

namespace Verif
set_option linter.unusedVariables false

section
variable [Uni]

theorem OutUpTo.res {e k} {d : PSt} {r r' : Res Tree} (h : OutUpTo e k d r r') : ResUpTo e k d r r' := by
  cases r <;> cases r' <;> exact h

theorem looks_entry {e : Token → Token} [Keeps e] {f : Fn} {q : Prog Tree} (hq : body f = .adv q) (src : List Char) (n : Nat) :
    ∃ k, Ahead k (started src) (runStop (n + 1) f (PSt.new (Lexer.new src))) ∧
      ∀ src', (∀ i, i ≤ k → SymLike e ((started src).ahead i) ((started src').ahead i)) →
        ResUpTo e k (started src') (run (n + 1) f (PSt.new (Lexer.new src))) (run (n + 1) f (PSt.new (Lexer.new src'))) := by
  obtain ⟨k, h1, h2⟩ := looks_exec (e := e) (looks_run n) q (started src)
  have hb : RelP e (body f) (body f) := al_body (like_refl f)
  rw [hq] at hb
  have key : ∀ s : List Char, run (n + 1) f (PSt.new (Lexer.new s)) = q.exec (run n) (started s) := by
    intro s
    show (body f).exec (run n) _ = _
    rw [hq]
    rfl
  refine ⟨k, ?_, fun src' hv => ?_⟩
  · show Ahead k _ ((body f).stop (run n) (runStop n) _)
    rw [hq]
    exact h1
  · rw [key, key]
    have he : ∀ s : List Char, (started s).exc = .exceptNone := fun s => advance_exc_eq _
    have := h2 q hb (started src') ⟨(he src).trans (he src').symm, hv⟩
    revert this
    cases q.exec (run n) (started src) <;> cases q.exec (run n) (started src') <;> exact id

omit [Uni] in
theorem entry_adv {f : Fn} {p : PN} (h : (f, p) ∈ entries) : ∃ q, body f = .adv q := by
  simp only [entries, List.mem_cons, List.not_mem_nil, or_false, Prod.mk.injEq] at h
  rcases h with ⟨rfl, rfl⟩ | ⟨rfl, rfl⟩ | ⟨rfl, rfl⟩ | ⟨rfl, rfl⟩ <;> exact ⟨_, rfl⟩

end

/-- C80: an entry point that has stopped after taking `k` symbols.  On every other text with the same symbols (kind and text) up to and
including the one at which it stopped the outcome is the same: the same tree up to positions, with the parser at the same symbol,
or the same error message. -/
theorem C80_lookahead [Uni] (f : Fn) (p : PN) (hf : (f, p) ∈ entries) (src : List Char) (n : Nat) :
    ∃ k, Ahead k (started src) (runStop (n + 1) f (PSt.new (Lexer.new src))) ∧
      ∀ src', (∀ i, i ≤ k → SymLike Token.bare ((started src).ahead i) ((started src').ahead i)) →
        ResUpTo Token.bare k (started src') (run (n + 1) f (PSt.new (Lexer.new src))) (run (n + 1) f (PSt.new (Lexer.new src'))) := by
  obtain ⟨q, hq⟩ := entry_adv hf
  exact looks_entry hq src n

/-- C80 for the kinds of the symbols only (and whether a name is `match`): the form of the tree, or the error message. -/
theorem C80_lookahead_kinds [Uni] (f : Fn) (p : PN) (hf : (f, p) ∈ entries) (src : List Char) (n : Nat) :
    ∃ k, Ahead k (started src) (runStop (n + 1) f (PSt.new (Lexer.new src))) ∧
      ∀ src', (∀ i, i ≤ k → SymLike Token.form ((started src).ahead i) ((started src').ahead i)) →
        ResUpTo Token.form k (started src') (run (n + 1) f (PSt.new (Lexer.new src))) (run (n + 1) f (PSt.new (Lexer.new src'))) := by
  obtain ⟨q, hq⟩ := entry_adv hf
  exact looks_entry hq src n

/-- C80 for a call of any parse function, in any state of the parser. -/
theorem C80_lookahead_call [Uni] (f : Fn) (c : PSt) (n : Nat) :
    ∃ k, Ahead k c (runStop n f c) ∧ ∀ d, ViewUpTo Token.bare k c d → ResUpTo Token.bare k d (run n f c) (run n f d) := by
  obtain ⟨k, h1, -, h2⟩ := looks_run (e := Token.bare) n f c
  exact ⟨k, h1, fun d hv => (h2 f (like_refl f) d hv).res⟩

/-- C80, errors: no text with the same kinds of symbols up to the one at which the parser stopped is accepted, with any number of
steps; the message is the same. -/
theorem C80_error_stays [Uni] (f : Fn) (p : PN) (hf : (f, p) ∈ entries) (src : List Char) (n pos : Nat) (m : String)
    (h : run n f (PSt.new (Lexer.new src)) = .err pos m) :
    ∃ k, Ahead k (started src) (runStop n f (PSt.new (Lexer.new src))) ∧
      ∀ src', (∀ i, i ≤ k → SymLike Token.form ((started src).ahead i) ((started src').ahead i)) →
        (∃ pos', run n f (PSt.new (Lexer.new src')) = .err pos' m) ∧ ¬ Accepts f src' := by
  cases n with
  | zero => cases h
  | succ n =>
    obtain ⟨k, h1, h2⟩ := C80_lookahead_kinds f p hf src n
    refine ⟨k, h1, fun src' hv => ?_⟩
    have hr := h2 src' hv
    rw [h] at hr
    cases he : run (n + 1) f (PSt.new (Lexer.new src')) with
    | err pos' m' =>
      rw [he] at hr
      refine ⟨⟨pos', by rw [show m = m' from hr]⟩, fun ⟨n', t, c', ha⟩ => ?_⟩
      have := run_det (n := n + 1) (m := n') (f := f) (c := PSt.new (Lexer.new src')) (by rw [he]; simp) (by rw [ha]; simp)
      rw [he, ha] at this
      cases this
    | _ => rw [he] at hr; exact hr.elim

/-- C79 and C80: the parser stops at the first mistake.  What was taken before it can be completed, and no text with the same
symbols up to and including the one at which it stopped is accepted. -/
theorem C79_first_mistake_partial [Uni] (f : Fn) (p : PN) (hf : (f, p) ∈ entries) (src : List Char) (n pos : Nat) (m : String)
    (h : run n f (PSt.new (Lexer.new src)) = .err pos m) :
    (∃ a b, Consumed (started src) (a ++ b) (runStop n f (PSt.new (Lexer.new src))) ∧ Viable (.n p) .exceptNone a ∧
      (b = [] ∨ Overrun a b)) ∧
    ∃ k, Ahead k (started src) (runStop n f (PSt.new (Lexer.new src))) ∧
      ∀ src', (∀ i, i ≤ k → SymLike Token.form ((started src).ahead i) ((started src').ahead i)) → ¬ Accepts f src' := by
  refine ⟨C79_prefix_completable_partial f p hf src n pos m h, ?_⟩
  obtain ⟨k, h1, h2⟩ := C80_error_stays f p hf src n pos m h
  exact ⟨k, h1, fun src' hv => (h2 src' hv).2⟩

/-! ### The hypotheses are met -/

theorem Ahead.bound [Uni] {src : List Char} {k j} {d : PSt} (h : Ahead k (started src) d)
    (hj : d.lex.tokStart < ((started src).ahead j).lex.tokStart) : k < j := by
  obtain ⟨x, rfl⟩ := h
  rcases Nat.lt_or_ge k j with hh | hh
  · exact hh
  · exact absurd (ahead_start_le (advance_inv (PReach.new (src := src)).good.inv) hh) (Nat.not_le.2 hj)

/-- The next `k` symbols of both are there and are the same up to `e`. -/
def sameNext [Uni] (e : Token → Token) : Nat → PSt → PSt → Bool
  | 0, _, _ => true
  | k + 1, c, d => (match c.symbol, d.symbol with
    | .ok t, .ok u => decide (e t = e u)
    | _, _ => false) && sameNext e k c.advance d.advance

theorem sameNext_spec [Uni] {e : Token → Token} (k : Nat) {c d : PSt} (h : sameNext e k c d = true) (i : Nat) (hi : i < k) :
    SymLike e (c.ahead i) (d.ahead i) := by
  induction k generalizing c d i with
  | zero => omega
  | succ k ih =>
    rw [sameNext, Bool.and_eq_true] at h
    obtain ⟨h1, h2⟩ := h
    cases i with
    | zero =>
      show SymLike e c d
      unfold SymLike
      generalize c.symbol = x at h1 ⊢
      generalize d.symbol = y at h1 ⊢
      cases x <;> cases y <;> first | exact of_decide_eq_true h1 | cases h1
    | succ i => exact ih h2 i (by omega)

/-- `a = = b` and, with another layout and other names, `xy =   = $`: the same error, although `$` is no symbol at all. -/
example : let _ := asciiUni
    ∃ pos m, run 60 .fileInput (PSt.new (Lexer.new (cs! "xy =   = $"))) = .err pos m := by
  intro _
  obtain ⟨m, h⟩ := Res.errAt_spec (r := run 60 .fileInput (PSt.new (Lexer.new (cs! "a = = b\n")))) (p := 4) (by decide +kernel)
  obtain ⟨k, h1, h2⟩ := C80_error_stays .fileInput .file_input (by simp [entries]) _ _ _ _ h
  have hk : k < 3 := h1.bound (by decide +kernel)
  have hv : sameNext Token.form 3 (started (cs! "a = = b\n")) (started (cs! "xy =   = $")) = true := by decide +kernel
  obtain ⟨pos, h3⟩ := (h2 _ fun i hi => sameNext_spec 3 hv i (Nat.lt_of_le_of_lt hi hk)).1
  exact ⟨pos, m, h3⟩

/-- The statement `a` before `b = c`, and before `b` and a character that no symbol starts with: the same tree. -/
example : let _ := asciiUni
    ∃ u d', run 60 .simpleStmt (started (cs! "a  # x\nb $")) = .ok u d' := by
  intro _
  obtain ⟨k, h1, h2⟩ := C80_lookahead_call .simpleStmt (started (cs! "a\nb = c\n")) 60
  have hk : k < 3 := h1.bound (by decide +kernel)
  have hv : sameNext Token.bare 3 (started (cs! "a\nb = c\n")) (started (cs! "a  # x\nb $")) = true := by decide +kernel
  have he : ∀ s : List Char, (started s).exc = .exceptNone := fun s => advance_exc_eq _
  have h3 := h2 _ ⟨(he _).trans (he _).symm, fun i hi => sameNext_spec 3 hv i (Nat.lt_of_le_of_lt hi hk)⟩
  have ho : (match run 60 .simpleStmt (started (cs! "a\nb = c\n")) with | .ok .. => true | _ => false) = true := by decide +kernel
  revert h3 ho
  generalize run 60 .simpleStmt (started (cs! "a\nb = c\n")) = x
  generalize run 60 .simpleStmt (started (cs! "a  # x\nb $")) = y
  intro h3 ho
  cases x <;> cases y <;> first | exact ⟨_, _, rfl⟩ | exact h3.elim | cases ho

end Verif
