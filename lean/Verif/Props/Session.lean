import Verif.Spec.Session
import Verif.Proof.ExcFree
import Verif.Props.Single
import Verif.Props.Parse
import Verif.Props.JoinTrees

/-!
# C66 Several calls of one parser
-/

namespace Verif
section
variable [Uni]

omit [Uni] in
theorem Res.Same.refl (x : Res Tree) : Res.Same x x := by cases x <;> simp [Res.Same]

theorem advance_same {c d : PSt} (h : c.lex = d.lex) : c.advance.lex = d.advance.lex ∧ c.advance.symbol = d.advance.symbol := by
  unfold PSt.advance
  rw [h]
  cases getSymbol d.lex <;> exact ⟨rfl, rfl⟩

theorem same_exec {r : Fn → PSt → Res Tree}
    (hr : ∀ f, f.usesExc = false → ∀ c d : PSt, c.lex = d.lex → c.symbol = d.symbol → Res.Same (r f c) (r f d)) {p : Prog Tree}
    (hp : ExcFree p) : ∀ {c d : PSt}, c.lex = d.lex → c.symbol = d.symbol → Res.Same (p.exec r c) (p.exec r d) := by
  induction p with
  | ret a => intro c d h1 h2; exact ⟨rfl, h1, h2⟩
  | fail => intro c d h1 h2; exact ⟨rfl, rfl⟩
  | panic => intro c d h1 h2; trivial
  | getPos k ih => intro c d h1 h2; simp only [Prog.exec, h1]; exact ih _ (hp _) h1 h2
  | getExc k ih => exact hp.elim
  | sym k x ih1 ih2 =>
    intro c d h1 h2
    simp only [Prog.exec, h2]
    cases hd : d.symbol with
    | ok t => exact ih1 _ (hp.1 _) h1 h2
    | error e => exact ih2 hp.2 h1 h2
  | adv k ih => intro c d h1 h2; exact ih hp (advance_same h1).1 (advance_same h1).2
  | setExc x k ih =>
    intro c d h1 h2
    have : ({ c with exc := x } : PSt) = { d with exc := x } := by cases c; cases d; cases h1; cases h2; rfl
    simp only [Prog.exec, this]
    exact .refl _
  | call f k ih =>
    intro c d h1 h2
    have h0 := hr f hp.1 c d h1 h2
    simp only [Prog.exec]
    cases hc : r f c <;> cases hd : r f d <;> simp only [hc, hd, Res.Same] at h0 ⊢
    · obtain ⟨rfl, h3, h4⟩ := h0
      exact ih _ (hp.2 _) h3 h4
    · exact h0

theorem same_run (n : Nat) : ∀ f, f.usesExc = false → ∀ c d : PSt, c.lex = d.lex → c.symbol = d.symbol →
    Res.Same (run n f c) (run n f d) := by
  induction n with
  | zero => intro f _ c d _ _; trivial
  | succ n ih => intro f hf c d h1 h2; exact same_exec ih (ef_body f hf) h1 h2

end

/-- The four entry points. -/
def entryFns : List Fn := [.singleInput, .fileInput, .evalInput, .funcTypeInput]

/-- C66: whatever a parser was used for before, a call of an entry point has the outcome that the same call of a new parser
on its tokenizer, in its present state, has: the symbol that was looked at last, and the `except` status, play no role. -/
theorem C66_call_starts_afresh [Uni] (n : Nat) (f : Fn) (c : PSt) (hf : f ∈ entryFns) :
    Res.Same (run n f c) (run n f (PSt.new c.lex)) := by
  cases n with
  | zero => trivial
  | succ n =>
    obtain ⟨h1, h2⟩ := advance_same (c := c) (d := PSt.new c.lex) rfl
    have key : ∀ f (q : Prog Tree), f.usesExc = false → body f = .adv q → ExcFree q → Res.Same (run (n + 1) f c) (run (n + 1) f (PSt.new c.lex)) := by
      intro f q _ hb hq
      simp only [run, hb, Prog.exec]
      exact same_exec (same_run n) hq h1 h2
    have ef : ∀ f (q : Prog Tree), f.usesExc = false → body f = .adv q → ExcFree q := by
      intro f q h hb
      have := ef_body f h
      rw [hb] at this
      exact this
    simp only [entryFns, List.mem_cons, List.not_mem_nil, or_false] at hf
    rcases hf with rfl | rfl | rfl | rfl
    · exact key .singleInput _ rfl rfl (ef .singleInput _ rfl rfl)
    · exact key .fileInput _ rfl rfl (ef .fileInput _ rfl rfl)
    · exact key .evalInput _ rfl rfl (ef .evalInput _ rfl rfl)
    · exact key .funcTypeInput _ rfl rfl (ef .funcTypeInput _ rfl rfl)

theorem Reads.lastTok {l ts} (h : Reads l ts) : ∀ {l' t}, l = l' ++ [.tok t] → ∃ us, ts = us ++ [t] := by
  induction h with
  | nil => intro l' t e; simp at e
  | @none l ts _ ih =>
    intro l' t e
    cases l' with
    | nil => simp at e
    | cons x l' => simp only [List.cons_append, List.cons.injEq] at e; exact ih e.2
  | @tok t0 l ts h ih =>
    intro l' t e
    cases l' with
    | nil =>
      simp only [List.nil_append, List.cons.injEq, Tree.tok.injEq] at e
      obtain ⟨rfl, rfl⟩ := e
      cases h
      exact ⟨[], rfl⟩
    | cons x l' =>
      simp only [List.cons_append, List.cons.injEq] at e
      obtain ⟨us, rfl⟩ := ih e.2
      exact ⟨t0 :: us, rfl⟩
  | @seq xs l ts _ ih =>
    intro l' t e
    cases l' with
    | nil => simp at e
    | cons x l' =>
      simp only [List.cons_append, List.cons.injEq] at e
      exact ih (l' := xs ++ l') (by rw [e.2]; simp)
  | @node tag s e' fs fs' l ts _ _ ih | @loose tag s e' fs fs' l ts _ _ _ ih =>
    intro l' t e
    cases l' with
    | nil => simp at e
    | cons x l' =>
      simp only [List.cons_append, List.cons.injEq] at e
      exact ih (l' := fs' ++ l') (by rw [e.2]; simp)

theorem Consumed.stretch [Uni] {d ts c'} (h : Consumed d ts c') : ∀ {c : PSt}, d.lex = c.advance.lex →
    d.symbol = c.advance.symbol → ∃ l, Tokens c.lex ts l ∧ c'.lex = (getSymbol l).lexer := by
  induction h with
  | done e1 e2 =>
    intro c h1 h2
    refine ⟨_, .nil, ?_⟩
    rw [e1, h1]
    unfold PSt.advance
    cases getSymbol c.lex <;> rfl
  | @step d t ts c' hs _ ih =>
    intro c h1 h2
    rw [h2] at hs
    obtain ⟨l, h3, h4⟩ := ih (c := d) rfl rfl
    refine ⟨l, ?_, h4⟩
    cases hg : getSymbol c.lex with
    | ok u l1 =>
      have e : c.advance.symbol = .ok u := by unfold PSt.advance; rw [hg]
      have e2 : c.advance.lex = l1 := by unfold PSt.advance; rw [hg]
      rw [e] at hs
      cases hs
      rw [h1, e2] at h3
      exact .cons hg h3
    | err x l1 =>
      have e : c.advance.symbol = .error x := by unfold PSt.advance; rw [hg]
      rw [e] at hs
      cases hs

theorem single_line [Uni] {src n c y c'} (hc : PReach src c) (h : run n .singleInput c = .ok y c') :
    PReach src c' ∧ ∃ ts nl l, Tokens c.lex (ts ++ [nl]) l ∧ nl.kind = .Newline ∧ Reads [y] (ts ++ [nl]) ∧ c'.lex = (getSymbol l).lexer := by
  cases n with
  | zero => simp [run] at h
  | succ n =>
    rcases C43_one_line src n c c' y hc h with ⟨s, e, t, ht, hk, rfl, rfl⟩ | ⟨s, e, x, hx, rfl, d, nl, hd, hn, hk, rfl, hl⟩
    · refine ⟨.adv (.adv hc), ?_⟩
      obtain ⟨l, h1, h2⟩ := (Consumed.step ht (.done rfl rfl)).stretch (c := c) rfl rfl
      exact ⟨[], t, l, h1, hk, .node (fs' := [.none, .tok t]) rfl (.none (.tok .nil)), h2⟩
    · refine ⟨.adv hd, ?_⟩
      obtain ⟨ts, h1, h2, -⟩ := C24_tree_holds_consumed_tokens n .simpleStmt _ _ _ (by simp [ruleFns]) hx
      have hlast : ∃ us, ts = us ++ [nl] := by
        obtain ⟨s', e', a, b, rfl⟩ := hl
        cases h2 with
        | @node _ _ _ _ fs' _ _ ha hr =>
          have : ∃ g, fs' = g ++ [.tok nl] := by
            unfold arrange at ha
            split at ha <;> simp_all
            · exact ⟨_, ha.symm⟩
            · exact ⟨[a, b], ha.symm⟩
          obtain ⟨g, rfl⟩ := this
          exact hr.lastTok (l' := g) (by simp)
        | loose ha =>
          exfalso
          unfold arrange at ha
          split at ha <;> simp_all
      obtain ⟨us, rfl⟩ := hlast
      obtain ⟨l, h3, h4⟩ := h1.stretch (c := c) rfl rfl
      refine ⟨us, nl, l, h3, hk, ?_, h4⟩
      refine .node (fs' := [x, .none]) rfl ?_
      have : ∀ {l ts}, Reads l ts → Reads (l ++ [.none]) ts := by
        intro l ts h
        induction h with
        | nil => exact .none .nil
        | none _ ih => exact .none ih
        | tok _ ih => exact .tok ih
        | seq _ ih => exact .seq (by simpa using ih)
        | node ha _ ih => exact .node ha (by simpa using ih)
        | loose ha hi _ ih => exact .loose ha hi (by simpa using ih)
      exact this h2

/-- C66, as far as it holds: successive calls for interactive input return trees of successive stretches of the text, each
up to a line end.  Missing: between two stretches one symbol, the first one of the next line, is lost. -/
theorem C66_session_lines_partial [Uni] (src : List Char) (ys : List Tree) (c : PSt)
    (h : Session (PSt.new (Lexer.new src)) ys c) : LossyLines (Lexer.new src) ys c.lex := by
  have key : ∀ {c0 ys c}, Session c0 ys c → PReach src c0 → LossyLines c0.lex ys c.lex := by
    intro c0 ys c h
    induction h with
    | nil => intro _; exact .nil
    | cons hr _ ih =>
      intro hc
      obtain ⟨h1, ts, nl, l, h2, h3, h4, h5⟩ := single_line hc hr
      refine .cons h2 h3 h4 ?_
      rw [← h5]
      exact ih h1
  exact key h .new

/-- The kind of the symbol that was returned. -/
def LexRes.kind? : LexRes Token → Option Kind
  | .ok t _ => some t.kind
  | .err _ _ => none

/-- C66 does not hold: of the text `a⏎-b⏎` the second call returns the tree of `b⏎`. -/
theorem C66_symbol_lost :
    let _ := asciiUni
    ∃ y1 y2 c, Session (PSt.new (Lexer.new (cs! "a\n-b\n"))) [y1, y2] c ∧ y2.tokens.map Token.kind = [.AtomName, .Newline] ∧
      ∀ l', ¬ Lines (Lexer.new (cs! "a\n-b\n")) [y1, y2] l' := by
  intro _
  obtain ⟨y1, c1, h1, e1⟩ := Res.shows (P := fun t => t.tokens.map Token.kind = [.AtomName, .Newline])
    (r := run 100 .singleInput (PSt.new (Lexer.new (cs! "a\n-b\n")))) (by decide +kernel)
  have hl : c1.lex = (callTimes 3 (Lexer.new (cs! "a\n-b\n"))) := by
    obtain ⟨-, ts, nl, l, g1, g2, g3, g4⟩ := single_line PReach.new h1
    have hp : y1.tokens.Perm (ts ++ [nl]) := by simpa [tokensList] using g3.perm
    have hlen := (hp.map Token.kind).length_eq
    rw [e1] at hlen
    rw [g4]
    cases ts with
    | nil => simp at hlen
    | cons t ts =>
      cases ts with
      | nil =>
        cases g1 with
        | cons k1 g1 => cases g1 with
          | cons k2 g1 =>
            cases g1
            rename_i l2
            have k3 : getSymbol (Lexer.new (cs! "a\n-b\n")) = .ok t l2 := k1
            simp only [callTimes, k3, k2, LexRes.lexer]
      | cons => simp at hlen
  obtain ⟨y2, c2, h2, e2⟩ := Res.shows (P := fun t => t.tokens.map Token.kind = [.AtomName, .Newline])
    (r := run 100 .singleInput (PSt.new (callTimes 3 (Lexer.new (cs! "a\n-b\n"))))) (by decide +kernel)
  have h3 := C66_call_starts_afresh 100 .singleInput c1 (by simp [entryFns])
  rw [hl, h2] at h3
  cases h4 : run 100 .singleInput c1 <;> rw [h4] at h3 <;> simp only [Res.Same] at h3
  obtain ⟨rfl, -, -⟩ := h3
  refine ⟨y1, _, _, .cons h1 (.cons h4 .nil), e2, ?_⟩
  intro l' hL
  cases hL with
  | cons t1 k1 r1 hL =>
    cases hL with
    | cons t2 k2 r2 hL =>
      rename_i ts nl l1 ts2 nl2 l2
      have hp := (show y1.tokens.Perm (ts ++ [nl]) by simpa [tokensList] using r1.perm).map Token.kind
      have hp2 := (show Tree.tokens _ |>.Perm (ts2 ++ [nl2]) by simpa [tokensList] using r2.perm).map Token.kind
      rw [e1] at hp
      rw [e2] at hp2
      have hlen := hp.length_eq
      have hm : l1 = callTimes 2 (Lexer.new (cs! "a\n-b\n")) := by
        cases ts with
        | nil => simp at hlen
        | cons t ts =>
          cases ts with
          | nil =>
            cases t1 with
            | cons k1 g1 => cases g1 with
              | cons k2 g1 => cases g1; simp only [callTimes, k1, k2, LexRes.lexer]
          | cons => simp at hlen
      have hsym : (getSymbol (callTimes 2 (Lexer.new (cs! "a\n-b\n")))).kind? = some .PyMinus := by decide +kernel
      rw [← hm] at hsym
      have hh : ∃ u us, ts2 ++ [nl2] = u :: us := by cases ts2 <;> exact ⟨_, _, rfl⟩
      obtain ⟨u, us, hu⟩ := hh
      rw [hu] at t2 hp2
      cases t2 with
      | cons k1 _ =>
        rw [k1] at hsym
        have := hp2.symm.subset (List.mem_map.2 ⟨u, by simp, rfl⟩)
        simp only [LexRes.kind?, Option.some.injEq] at hsym
        rw [hsym] at this
        exact absurd this (by decide)

/-- C66, after a whole file was read: reading a file again from the same parser gives a file without statements. -/
theorem C66_after_the_end [Uni] (n : Nat) (f : Fn) (src : List Char) (t : Tree) (c : PSt)
    (hf : f = .evalInput ∨ f = .fileInput ∨ f = .funcTypeInput) (h : run n f (PSt.new (Lexer.new src)) = .ok t c) :
    ∃ u d, run 2 .fileInput c = .ok u d ∧ u.tokens.map Token.kind = [.EOF] ∧ fileStatements u = [] := by
  obtain ⟨ts, e, h1, h2, -, -, -⟩ := C22_whole_input_used n f src c t hf h
  obtain ⟨l1, h3, h4⟩ := h1.snoc
  have ff := ok_facts (h3.reach .new).inv h4
  obtain ⟨x1, x2, x3, x4⟩ := ff.atEof h2
  have hs := getSymbol_atEof ff.inv x1 x2 x3 x4
  have ha : c.advance.symbol = .ok (.eof c.lex.pos none) := by unfold PSt.advance; rw [hs]
  simp only [run, body, fileInputBody, fileLoopBody, bind, Prog.bind, Prog.next, Prog.here, Prog.symAt, Prog.mk, Prog.parse, Prog.exec, ha]
  exact ⟨_, _, rfl, rfl, rfl⟩

/-- A file is read, and then read again. -/
example : ∃ t c, @run asciiUni 100 .fileInput (PSt.new (Lexer.new (cs! "a\nb\n"))) = .ok t c ∧ (fileStatements t).length = 2 :=
  Res.shows (by decide +kernel)

/-- A parser that has read a `try` statement with `except*` up to the clause, and then fails. -/
example : Fn.fileInput ∈ entryFns ∧
    ∃ t c, @run asciiUni 100 .fileInput (PSt.new (Lexer.new (cs! "try: a\nexcept* b: c\n"))) = .ok t c ∧ t.tokens.length = 11 :=
  ⟨by simp [entryFns], Res.shows (by decide +kernel)⟩

end Verif
