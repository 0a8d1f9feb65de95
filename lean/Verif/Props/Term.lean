import Verif.Proof.TermAll
import Verif.Proof.PanicAll
import Verif.Props.Gaps
import Verif.Props.Parse

/-!
# Parser: termination (C30) and panics (C31)

`run n f c` is the parse function `f` with calls nested at most `n` deep, `diverge` if that is not enough.  So `f`
terminates from `c` if `run n f c ≠ .diverge` for some `n`, and does not terminate if `run n f c = .diverge` for all
`n`.  `PReach src c`: `c` is a state of a parser on the text `src`.  `Calls f c g d`: executing `f` from `c` comes to a
call of `g` in the state `d`.
-/

namespace Verif
open Prog

section
attribute [local irreducible] TWP PSt.advance PSt.left

/-- The input functions after their first `advance`. -/
theorem input_ends [Uni] {src f c} (hf : f.input = true) (hc : Good src c) :
    (∃ n, run n f c ≠ .diverge) ∨ ∃ d, Calls f c .importStmt d ∧ Stuck .importStmt d := by
  have key : ∀ (k : Prog Tree), body f = .adv k →
      (∀ d, Good src d → TWP src (100 * d.left + 200) k d (fun _ _ => True)) →
      (∃ n, run n f c ≠ .diverge) ∨ ∃ d, Calls f c .importStmt d ∧ Stuck .importStmt d := by
    intro k hk ht
    rcases twp_ends (tok_run (t_all src)) (fun f c hf hc _ => tok_ends (t_all src) f c hf hc) k c.advance hc.advance _
      (ht _ hc.advance) with ⟨n, hn⟩ | ⟨g, d, e, h1, h2, h3⟩
    · refine .inl ⟨n + 1, ?_⟩
      show (body f).exec (run n) c ≠ .diverge
      rw [hk]; exact hn
    · exact .inr ⟨e, .step (by rw [hk]; exact .adv h1) h2, h3⟩
  cases f <;> first | simp only [Fn.input, Bool.false_eq_true] at hf; done | skip
  · refine key (do let s ← here; let right ← parse .testlist; parse (.evalLoop s right [])) rfl ?_
    intro d hd; t_simp; t_auto
  · refine key (do let s ← here; parse (.fileLoop s [] [])) rfl ?_
    intro d hd; t_simp; t_auto
  · refine key _ rfl ?_
    intro d hd
    show TWP _ _ (do
      let s ← here
      let t ← symAt s "Expecting symbol in single input!"
      if t.kind = .Newline then do
        next
        mk .SingleInput s [.none, .tok t]
      else if t.kind ∈ compoundStart then do
        let right ← parse .compoundStmt
        singleNewline s right
      else if t.isMatchName then do
        let right ← parse .patternsMatch
        singleNewline s right
      else do
        let right ← parse .simpleStmt
        mk .SingleInput s [right, .none]) _ _
    unfold singleNewline
    t_simp; t_auto
  · refine key (do let s ← here; let right ← parse .funcType; parse (.funcTypeLoop s right [])) rfl ?_
    intro d hd; t_simp; t_auto
end

/-- C30: on every text, from every state, a parse function fails to terminate in exactly one case: its execution
calls `parse_statements_import_stmt` at an `import` token. -/
theorem C30_diverges_iff_import_partial [Uni] (src : List Char) (f : Fn) (c : PSt) (hc : PReach src c) :
    (∀ n, run n f c = .diverge) ↔ ∃ d u, Calls f c .importStmt d ∧ d.symbol = .ok u ∧ u.kind = .PyImport := by
  constructor
  · intro h
    have : (∃ n, run n f c ≠ .diverge) ∨ ∃ d, Calls f c .importStmt d ∧ Stuck .importStmt d := by
      cases hf : f.input with
      | true => exact input_ends hf hc.good
      | false => exact tok_ends (t_all src) f c hf hc.good
    rcases this with ⟨n, hn⟩ | ⟨d, h1, -, u, h2, h3⟩
    · exact absurd (h n) hn
    · exact ⟨d, u, h1, h2, h3⟩
  · rintro ⟨d, u, h1, h2, h3⟩
    exact calls_diverges h1 (stuck_diverges ⟨rfl, u, h2, h3⟩)

/-- Once enough depth is available, more makes no difference: `run` has at most one outcome. -/
theorem C30_outcome_unique [Uni] (f : Fn) (c : PSt) (n m : Nat) (h : run n f c ≠ .diverge) (hm : n ≤ m) :
    run m f c = run n f c := run_mono h m hm

/-- The states a parser is in during any calls are reachable by `advance` alone. -/
theorem C30_states [Uni] (src : List Char) (f : Fn) (c : PSt) (hc : PReach src c) :
    (∀ n t c', run n f c = .ok t c' → PReach src c') ∧ ∀ g d, Calls f c g d → PReach src d :=
  ⟨fun _ _ _ h => hc.run h, fun _ _ h => hc.calls h⟩

theorem PReach.reach [Uni] {src c} (h : PReach src c) :
    Reach src c.lex ∧ ∀ u, c.symbol = .ok u → ∃ l l', Reach src l ∧ getSymbol l = .ok u l' := by
  induction h with
  | new => exact ⟨.new, by simp [PSt.new]⟩
  | adv _ ih =>
    unfold PSt.advance
    split
    · rename_i t l hr
      refine ⟨.ok ih.1 hr, fun u hu => ?_⟩
      simp only [Except.ok.injEq] at hu
      subst hu
      exact ⟨_, _, ih.1, hr⟩
    · rename_i e l hr
      exact ⟨.err ih.1 hr, by simp⟩
  | exc x _ ih => exact ih

/-- A keyword token is that keyword in the text. -/
theorem keyword_in_text [Uni] {src l l' u} {w : List Char} {k} (h : Reach src l) (hr : getSymbol l = .ok u l')
    (hw : (w, k) ∈ pyKeywords) (hu : u.kind = k) : w <:+: src := by
  have hk3 : ∀ x ∈ pyKeywords, x.2 ≠ .Newline ∧ x.2 ≠ .EOF ∧ x.2 ≠ .AtomName ∧
    x.2 ≠ .AtomNumber ∧ x.2 ≠ .AtomString ∧ x.2 ≠ .TypeComment ∧ x.2 ≠ .Indent ∧ x.2 ≠ .Dedent := by decide
  obtain ⟨n3, n4, n5, n6, n7, n8, n9, n10⟩ := hk3 _ hw
  cases u with
  | sym k' s e tr =>
    have hu : k' = k := hu
    subst hu
    obtain ⟨rest, h2, -⟩ := C06_keyword_text src l l' w _ s e tr h hw hr
    exact ⟨src.take s, rest, by rw [List.append_assoc, ← h2, List.take_append_drop]⟩
  | _ => simp only [Token.kind] at hu; simp_all

/-- C30 for texts without the word `import`: every parse function terminates. -/
theorem C30_terminates_partial [Uni] (src : List Char) (f : Fn) (c : PSt) (hc : PReach src c)
    (hi : ¬ cs! "import" <:+: src) : ∃ n, ∀ m, n ≤ m → run m f c = run n f c ∧ run m f c ≠ .diverge := by
  have h : ¬ ∀ n, run n f c = .diverge := by
    rw [C30_diverges_iff_import_partial src f c hc]
    rintro ⟨d, u, h1, h2, h3⟩
    obtain ⟨l, l', hl, hr⟩ := (hc.calls h1).reach.2 u h2
    exact hi (keyword_in_text hl hr (by decide) h3)
  obtain ⟨n, hn⟩ := Classical.not_forall.1 h
  exact ⟨n, fun m hm => ⟨run_mono hn m hm, by rw [run_mono hn m hm]; exact hn⟩⟩

example : ¬ cs! "import" <:+: cs! "while a:\n    b = f(x) + [1, 2]\n" ∧
    ∃ t c', @run asciiUni 80 .fileInput (PSt.new (Lexer.new (cs! "while a:\n    b = f(x) + [1, 2]\n"))) = .ok t c' ∧
      t.tokens.length = 20 := ⟨by decide, Res.shows (by decide +kernel)⟩

macro "p_simp" : tactic => `(tactic| simp only [Prog.here, Prog.symAt, Prog.parse, Prog.next, Bind.bind, Prog.bind, Pure.pure])

/-- C30 fails: a statement that starts with `import` keeps the parser busy for ever. -/
theorem C30_import_diverges [Uni] (c : PSt) (u : Token) (hs : c.symbol = .ok u) (hu : u.kind = .PyImport) (n : Nat) :
    run n .stmt c = .diverge := by
  refine calls_diverges (g := .importStmt) (d := c) ?_ (stuck_diverges ⟨rfl, u, hs, hu⟩) n
  have hm : u.isMatchName = false := by cases u <;> simp_all [Token.kind, Token.isMatchName]
  refine .step (g := .simpleStmt) (d := c) ?_ (.step (g := .smallStmt) (d := c) ?_ (.step (g := .importStmt) (d := c) ?_ .self))
  · show Makes stmtBody _ _ _
    unfold stmtBody; p_simp
    refine .getPos (.sym hs ?_)
    simp only [hu, hm, compoundStart, List.mem_cons, List.not_mem_nil, reduceCtorEq, or_self, if_false, Bool.false_eq_true]
    exact .here
  · show Makes simpleStmtBody _ _ _
    unfold simpleStmtBody; p_simp
    exact .getPos .here
  · show Makes smallStmtBody _ _ _
    unfold smallStmtBody; p_simp
    refine .getPos (.sym hs ?_)
    simp only [hu, List.mem_cons, List.not_mem_nil, reduceCtorEq, or_self, if_false, or_false, if_true]
    exact .here

theorem file_first_stmt [Uni] {c : PSt} {u} (hs : c.advance.symbol = .ok u) (h1 : u.kind ≠ .EOF) (h2 : u.kind ≠ .Newline) :
    Calls .fileInput c .stmt c.advance := by
  refine .step (g := .fileLoop c.advance.lex.tokStart [] []) (d := c.advance) ?_ (.step (g := .stmt) (d := c.advance) ?_ .self)
  · show Makes fileInputBody _ _ _
    unfold fileInputBody; p_simp
    exact .adv (.getPos .here)
  · show Makes (fileLoopBody _ _ _) _ _ _
    unfold fileLoopBody; p_simp
    refine .sym hs ?_
    simp only [h1, h2, if_false]
    exact .here

/-- … for example the file `import os`. -/
theorem C30_import_os_diverges (n : Nat) :
    @run asciiUni n .fileInput (PSt.new (Lexer.new (cs! "import os\n"))) = .diverge := by
  let _ := asciiUni
  have hs : (PSt.new (Lexer.new (cs! "import os\n"))).advance.symbol = .ok (.sym .PyImport 0 6 none) := by rfl
  exact calls_diverges (file_first_stmt hs (by simp [Token.kind]) (by simp [Token.kind])) (C30_import_diverges _ _ hs rfl) n

/-! ### C31 -/

/-- C31: a parse function panics in exactly one case: its execution calls `parse_patterns_match`. -/
theorem C31_panics_iff_match_partial [Uni] (f : Fn) (c : PSt) :
    (∃ n, run n f c = .panic) ↔ ∃ d, Calls f c .patternsMatch d := by
  constructor
  · rintro ⟨n, h⟩
    induction n generalizing f c with
    | zero => simp [run] at h
    | succ n ih =>
      by_cases hf : f = .patternsMatch
      · exact ⟨c, by rw [hf]; exact .self⟩
      · obtain ⟨g, d, h1, h2⟩ := cwp_panics (c_all f hf c) h
        obtain ⟨e, he⟩ := ih g d h2
        exact ⟨e, .step h1 he⟩
  · rintro ⟨d, h⟩
    exact calls_panics h ⟨1, rfl⟩

/-- That function is called only at a name `match`, unless it is called directly. -/
theorem C31_match_calls [Uni] (f : Fn) (c d : PSt) (h : Calls f c .patternsMatch d) :
    (f = .patternsMatch ∧ d = c) ∨ ∃ t, d.symbol = .ok t ∧ t.isMatchName = true := by
  suffices ∀ g, Calls f c g d → g = .patternsMatch →
      (f = .patternsMatch ∧ d = c) ∨ ∃ t, d.symbol = .ok t ∧ t.isMatchName = true from this _ h rfl
  clear h; intro g h hg
  induction h with
  | self => exact .inl ⟨hg, rfl⟩
  | step hm hc ih =>
    rename_i f c g d g' e
    right
    by_cases hf : f = .patternsMatch
    · subst hf; cases hm
    · have hcall := cwp_makes (c_all f hf c) hm
      rcases ih hg with ⟨h, rfl⟩ | h
      · exact hcall.2 h
      · exact h

/-- C31 for texts without the word `match`: no parse function panics. -/
theorem C31_no_panic_partial [Uni] (src : List Char) (f : Fn) (c : PSt) (hc : PReach src c) (hf : f ≠ .patternsMatch)
    (hm : ¬ cs! "match" <:+: src) (n : Nat) : run n f c ≠ .panic := by
  intro h
  obtain ⟨d, hd⟩ := (C31_panics_iff_match_partial f c).1 ⟨n, h⟩
  rcases C31_match_calls f c d hd with ⟨h, -⟩ | ⟨t, h1, h2⟩
  · exact hf h
  · obtain ⟨l, l', hl, hr⟩ := (hc.calls hd).reach.2 t h1
    cases t <;> simp only [Token.isMatchName, Bool.false_eq_true] at h2
    rename_i s e tr txt
    obtain ⟨rest, h3, -⟩ := C06_name_text src l l' s e tr txt hl hr
    have : txt = cs! "match" := by simpa using h2
    subst this
    exact hm ⟨src.take s, rest, by rw [List.append_assoc, ← h3, List.take_append_drop]⟩

/-- C31 fails: a statement that starts with the name `match` makes the parser panic. -/
theorem C31_match_panics [Uni] (c : PSt) (u : Token) (hs : c.symbol = .ok u) (hu : u.isMatchName = true) :
    ∃ n, run n .stmt c = .panic := by
  refine calls_panics (g := .patternsMatch) (d := c) (.step (g := .patternsMatch) (d := c) ?_ .self) ⟨1, rfl⟩
  have hk : u.kind = .AtomName := by cases u <;> simp_all [Token.kind, Token.isMatchName]
  show Makes stmtBody _ _ _
  unfold stmtBody; p_simp
  refine .getPos (.sym hs ?_)
  simp only [hu, hk, compoundStart, List.mem_cons, List.not_mem_nil, reduceCtorEq, or_self, if_false, if_true]
  exact .here

/-- … for example the file `match = 1`, an assignment in Python. -/
theorem C31_match_assignment_panics :
    ∃ n, @run asciiUni n .fileInput (PSt.new (Lexer.new (cs! "match = 1\n"))) = .panic := by
  let _ := asciiUni
  have hs : (PSt.new (Lexer.new (cs! "match = 1\n"))).advance.symbol = .ok (.name 0 5 none (cs! "match")) := by rfl
  exact calls_panics (file_first_stmt hs (by simp [Token.kind]) (by simp [Token.kind])) (C31_match_panics _ _ hs rfl)

end Verif
