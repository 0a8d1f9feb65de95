import Verif.Proof.NotNL
import Verif.Spec.Single
import Verif.Spec.Outcome

/-!
# C43: interactive input; C46: blank lines
-/

namespace Verif

/-- C46: a Newline symbol is never followed directly by another one: after a Newline, the next symbol is not
a Newline, whatever the text is. -/
theorem C46_no_two_newlines [Uni] (src : List Char) (l l' l'' : Lexer) (t u : Token) (hl : Reach src l)
    (ht : getSymbol l = .ok t l') (hk : t.kind = .Newline) (hu : getSymbol l' = .ok u l'') : u.kind ≠ .Newline :=
  not_newline (.ok hl ht) (after_layout hl ht (.inl hk)) hu

/-- C46: a Dedent symbol is not followed directly by a Newline either. -/
theorem C46_no_newline_after_dedent [Uni] (src : List Char) (l l' l'' : Lexer) (t u : Token) (hl : Reach src l)
    (ht : getSymbol l = .ok t l') (hk : t.kind = .Dedent) (hu : getSymbol l' = .ok u l'') : u.kind ≠ .Newline :=
  not_newline (.ok hl ht) (after_layout hl ht (.inr hk)) hu

/-- C46: the first symbol of a text is not a Newline. -/
theorem C46_not_first [Uni] (src : List Char) (l' : Lexer) (t : Token)
    (ht : getSymbol (Lexer.new src) = .ok t l') : t.kind ≠ .Newline :=
  not_newline .new (.inl rfl) ht

/-- `a`, two blank lines, `b`: the Newline of the first line, then the name `b`. -/
example : ∃ t l' u l'', @getSymbol asciiUni (@getSymbol asciiUni (Lexer.new (cs! "\na\n\n \nb\n"))).lexer = .ok t l' ∧
    t.kind = .Newline ∧ @getSymbol asciiUni l' = .ok u l'' ∧ u.kind = .AtomName := ⟨_, _, _, _, rfl, rfl, rfl, rfl⟩

/-- C43, an empty line: the result holds the Newline symbol and nothing after it is consumed. -/
theorem C43_empty_line [Uni] (n : Nat) (c : PSt) (t : Token) (ht : c.advance.symbol = .ok t) (hk : t.kind = .Newline) :
    ∃ s e, run (n + 1) .singleInput c = .ok (.node .SingleInput s e [.none, .tok t]) c.advance.advance := by
  simp only [run, body, singleInputBody, bind, Prog.bind, Prog.next, Prog.here, Prog.symAt, Prog.mk, Prog.exec, ht, hk, if_true]
  exact ⟨_, _, rfl⟩

/-- The parser has read `a`; the rest of the line is empty. -/
example : ∃ t, (@PSt.advance asciiUni (@started asciiUni (cs! "a\nb\n"))).symbol = .ok t ∧ t.kind = .Newline := ⟨_, rfl, rfl⟩

/-- C43: what an accepted interactive input looks like.  It is an empty line, or one simple statement line,
parsed as such, whose Newline symbol is the last symbol that is consumed.  (`PReach src c`: the parser is in
a state it can be in on the text `src`.) -/
theorem C43_one_line [Uni] (src : List Char) (n : Nat) (c c' : PSt) (y : Tree) (hc : PReach src c)
    (h : run (n + 1) .singleInput c = .ok y c') :
    (∃ s e t, c.advance.symbol = .ok t ∧ t.kind = .Newline ∧ y = .node .SingleInput s e [.none, .tok t] ∧
      c' = c.advance.advance) ∨
    (∃ s e x, run n .simpleStmt c.advance = .ok x c' ∧ y = .node .SingleInput s e [x, .none] ∧
      ∃ d nl, PReach src d ∧ d.symbol = .ok nl ∧ nl.kind = .Newline ∧ c' = d.advance ∧ x.IsLine nl) := by
  cases hs : c.advance.symbol with
  | error e =>
    simp only [run, body, singleInputBody, bind, Prog.bind, Prog.next, Prog.here, Prog.symAt, Prog.mk, Prog.exec, hs] at h
    cases h
  | ok t =>
    simp only [run, body, singleInputBody, bind, Prog.bind, Prog.next, Prog.here, Prog.symAt, Prog.mk, Prog.exec, hs] at h
    have ha : PReach src c.advance := .adv hc
    split at h
    · rename_i hk
      cases h
      exact .inl ⟨_, _, t, rfl, hk, rfl, rfl⟩
    · split at h
      · simp only [Prog.parse, Prog.bind, Prog.exec, singleNewline, bind, Prog.symAt, Prog.mk] at h
        cases hr : run n .compoundStmt c.advance with
        | ok x d =>
          rw [hr] at h
          have := (run_notNL hr ha).2
          unfold NotNL curKind at this
          cases hd : d.symbol with
          | error e => simp only [hd] at h; cases h
          | ok u =>
            simp only [hd] at h this
            rw [if_neg (by simpa using this)] at h
            cases h
        | _ => rw [hr] at h; cases h
      · split at h
        · simp only [Prog.parse, Prog.bind, Prog.exec, singleNewline, bind] at h
          cases hr : run n .patternsMatch c.advance with
          | ok x d => exact (run_notNL (src := src) hr).elim
          | _ => rw [hr] at h; cases h
        · simp only [Prog.parse, Prog.bind, Prog.exec] at h
          cases hr : run n .simpleStmt c.advance with
          | ok x d =>
            rw [hr] at h
            cases h
            have := (run_notNL hr ha).2.2
            unfold NlLast at this
            exact .inr ⟨_, _, x, rfl, rfl, this⟩
          | _ => rw [hr] at h; cases h

/-- C43, an empty line as the first thing that is read: it is not recognized (the text `⏎` is an error), because
the first symbol is never a Newline. -/
theorem C43_empty_input_rejected [Uni] (src : List Char) (n : Nat) (c' : PSt) (s e : Nat) (t : Token) :
    run n .singleInput (PSt.new (Lexer.new src)) ≠ .ok (.node .SingleInput s e [.none, .tok t]) c' := by
  intro h
  cases n with
  | zero => simp [run] at h
  | succ n =>
    rcases C43_one_line src n _ _ _ .new h with ⟨s, e, t, ht, hk, -⟩ | ⟨s, e, x, -, hy, -⟩
    · unfold PSt.advance at ht
      cases hg : getSymbol (Lexer.new src) with
      | ok u l =>
        have : getSymbol (PSt.new (Lexer.new src)).lex = .ok u l := hg
        rw [this] at ht
        cases ht
        exact C46_not_first src l _ hg hk
      | err e l =>
        have : getSymbol (PSt.new (Lexer.new src)).lex = .err e l := hg
        rw [this] at ht
        cases ht
    · cases hy

example : (@run asciiUni 100 .singleInput (PSt.new (Lexer.new (cs! "\n")))).isErr = true := by decide +kernel

/-- C43 for a simple statement line: a line that parses as such is accepted. -/
theorem C43_simple_accepted_partial [Uni] (n : Nat) (c c' : PSt) (t : Token) (x : Tree) (ht : c.advance.symbol = .ok t)
    (hk : t.kind ≠ .Newline) (hc : t.kind.opensCompound = false) (hm : t.isMatchName = false)
    (h : run n .simpleStmt c.advance = .ok x c') :
    ∃ s e, run (n + 1) .singleInput c = .ok (.node .SingleInput s e [x, .none]) c' := by
  have hk' : t.kind ∉ compoundStart := by
    cases ht : t.kind <;> simp_all [compoundStart, Kind.opensCompound]
  simp only [run, body, singleInputBody, bind, Prog.bind, Prog.next, Prog.here, Prog.symAt, Prog.mk, Prog.parse, Prog.exec, ht,
    if_neg hk, if_neg hk', hm, Bool.false_eq_true, if_false, h]
  exact ⟨_, _, rfl⟩

example : ∃ y c', @run asciiUni 100 .singleInput (PSt.new (Lexer.new (cs! "a = 1; b\nc\n"))) = .ok y c' ∧
    y.field 1 = .none := Res.shows (by decide +kernel)

/-- C43, for compound statements: it does not hold.  No input that starts with a compound statement is ever
accepted, whatever follows: when the statement is complete, the current symbol is not a Newline. -/
theorem C43_compound_rejected [Uni] (src : List Char) (n : Nat) (c : PSt) (t : Token) (hc : PReach src c)
    (ht : c.advance.symbol = .ok t) (hk : t.kind.opensCompound = true) :
    ∀ y c', run n .singleInput c ≠ .ok y c' := by
  intro y c' h
  cases n with
  | zero => simp [run] at h
  | succ n =>
    have hk' : t.kind ∈ compoundStart := by
      cases ht : t.kind <;> simp_all [compoundStart, Kind.opensCompound]
    have hnl : t.kind ≠ .Newline := by intro h; rw [h] at hk; cases hk
    have ha : PReach src c.advance := .adv hc
    simp only [run, body, singleInputBody, bind, Prog.bind, Prog.next, Prog.here, Prog.symAt, Prog.exec, ht, hk',
      if_true, if_neg hnl, singleNewline, Prog.parse, Prog.mk] at h
    cases hr : run n .compoundStmt c.advance with
    | ok x d =>
      rw [hr] at h
      have := (run_notNL hr ha).2
      unfold NotNL curKind at this
      cases hd : d.symbol with
      | error e => simp only [hd] at h; cases h
      | ok u =>
        simp only [hd] at h this
        rw [if_neg (by simpa using this)] at h
        cases h
    | _ => rw [hr] at h; cases h

/-- … for example an `if` statement. -/
theorem C43_if_rejected : (@run asciiUni 100 .singleInput (PSt.new (Lexer.new (cs! "if a:\n pass\n")))).isErr = true := by
  decide +kernel

/-- The statement itself is accepted. -/
example : ∃ y c', @run asciiUni 100 .stmt (@started asciiUni (cs! "if a:\n pass\n")) = .ok y c' ∧
    y.field 0 ≠ .none := Res.shows (by decide +kernel)

end Verif
