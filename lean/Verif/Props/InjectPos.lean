import Verif.Proof.InjectPos

/-!
# Different programs have different trees
-/

namespace Verif
open Prog

/-- C57: two accepted texts with the same tree (of an expression, a file or a function type) have the same symbols,
with the same positions, texts and trivia: different programs have different trees. -/
theorem C57_same_tree_same_symbols [Uni] (f : Fn) (hf : f = .evalInput ∨ f = .fileInput ∨ f = .funcTypeInput)
    (src src' : List Char) (n n' : Nat) (t : Tree) (c c' : PSt)
    (h : run n f (PSt.new (Lexer.new src)) = .ok t c) (h' : run n' f (PSt.new (Lexer.new src')) = .ok t c') :
    ∃ ts u, Tokens (Lexer.new src) (ts ++ [u]) c.lex ∧ Tokens (Lexer.new src') (ts ++ [u]) c'.lex ∧ u.kind = .EOF := by
  have fin : ∀ {ts u}, Consumed (PSt.new (Lexer.new src)).advance ts c → Consumed (PSt.new (Lexer.new src')).advance ts c' →
      c.symbol = .ok u → c'.symbol = .ok u → u.kind = .EOF → ∃ ts u, Tokens (Lexer.new src) (ts ++ [u]) c.lex ∧
        Tokens (Lexer.new src') (ts ++ [u]) c'.lex ∧ u.kind = .EOF :=
    fun h1 h2 h3 h4 h5 => ⟨_, _, h1.tokens (c := PSt.new (Lexer.new src)) rfl rfl h3, h2.tokens (c := PSt.new (Lexer.new src')) rfl rfl h4, h5⟩
  have peek : SpPeek .EOF (PSt.new (Lexer.new src)).advance t c → SpPeek .EOF (PSt.new (Lexer.new src')).advance t c' →
      t.All NodeOk → NoFileTop t → (∀ g s e fs, t = .node g s e fs → g = .EvalInput ∨ g = .FuncTypeInput) →
      ∃ ts u, Tokens (Lexer.new src) (ts ++ [u]) c.lex ∧ Tokens (Lexer.new src') (ts ++ [u]) c'.lex ∧ u.kind = .EOF := by
    rintro ⟨g, fs, fs', u, rfl, hu, hk, hg, ha, hs⟩ ⟨g', gs, gs', u', heq, hu', hk', hg', ha', hs'⟩ ho hn htag
    simp only [Tree.node.injEq] at heq
    obtain ⟨rfl, -, -, rfl⟩ := heq
    have hne : arrange g fs ≠ none := by
      intro h
      have := arrange_none h
      rcases htag _ _ _ _ rfl with rfl | rfl <;> simp [looseTags] at this
    have ha := ha.resolve_right fun h => hne h.1
    have ha' := ha'.resolve_right fun h => hne h.1
    rw [ha, Option.some.injEq] at ha'
    obtain ⟨rfl, h1⟩ := List.append_inj' ha' rfl
    simp at h1
    subst h1
    have hgd := good_of ho hn
    rw [Tree.All] at hgd
    obtain ⟨ts, h4, h5⟩ := (hs 0).det (.adv .new) (allIn_iff.2 fun x hx => by
      rcases arrange_mem ha x (by simp [hx]) with hx | ⟨xs, h1, h2⟩
      · exact allIn_iff.1 hgd.2 x hx
      · have := allIn_iff.1 hgd.2 _ h1
        rw [Tree.All] at this
        exact allIn_iff.1 this x h2) (hs' 0) (.adv .new)
    exact fin h4 h5 hu hu' hk
  rcases hf with rfl | rfl | rfl
  · have hsh := returns_shape (r := .is [.EvalInput]) (by simp [returns]) h
    refine peek (run_spans h) (run_spans h') hsh.1 (has_noFile hsh.2 (by decide)) ?_
    rintro g s e fs rfl
    obtain ⟨g', h1, h2⟩ := hsh.2
    simp [Tree.tag?] at h1 h2
    simp [h1, h2]
  · have hsh := returns_shape (r := .is [.FileInput]) (by simp [returns]) h
    obtain ⟨xs, u, s, e, rfl, h1, h2, h3⟩ := fileInput_spans h
    obtain ⟨xs', u', s', e', heq, h1', h2', h3'⟩ := fileInput_spans h'
    simp at heq
    obtain ⟨rfl, rfl, rfl, rfl⟩ := heq
    have hall := hsh.1
    rw [Tree.All] at hall
    obtain ⟨⟨⟨cc, hc, hcc⟩, -⟩, hl⟩ := hall
    have hsq := hasAll_noFile hcc (schema_noFile _ cc hc) (.seq xs.reverse) (by simp)
    have hal := allIn_mem hl (y := .seq xs.reverse) (by simp)
    rw [Tree.All] at hal
    obtain ⟨ts, h4, h5⟩ := (h1 0).det (.adv .new) (allIn_iff.2 fun x hx => good_of (allIn_mem hal (by simpa using hx)) (by
      cases hsq with | seq h => exact h x (by simpa using hx))) (h1' 0) (.adv .new)
    exact fin h4 h5 h2 h2' h3
  · have hsh := returns_shape (r := .is [.FuncTypeInput]) (by simp [returns]) h
    refine peek (run_spans h) (run_spans h') hsh.1 (has_noFile hsh.2 (by decide)) ?_
    rintro g s e fs rfl
    obtain ⟨g', h1, h2⟩ := hsh.2
    simp [Tree.tag?] at h1 h2
    simp [h1, h2]

/-- Both results are the same tree. -/
def Res.sameTree (r r' : Res Tree) : Bool :=
  match r.tree?, r'.tree? with
  | some t, some t' => t.same t'
  | _, _ => false

theorem Res.sameTree_spec {r r'} (h : Res.sameTree r r' = true) : ∃ t c c', r = .ok t c ∧ r' = .ok t c' := by
  unfold Res.sameTree at h
  cases r <;> cases r' <;> simp [Res.tree?] at h
  rw [(Tree.same_iff _ _).1 h]
  exact ⟨_, _, _, rfl, rfl⟩

/-- Two texts with the same tree, a parameter list in it: only the indentation, which no token records, differs. -/
example : ∃ t c c', @run asciiUni 100 .fileInput (PSt.new (Lexer.new (cs! "if a:\n  b\nlambda c, /, d: e\n"))) = .ok t c ∧
    @run asciiUni 100 .fileInput (PSt.new (Lexer.new (cs! "if a:\n\t b\nlambda c, /, d: e\n"))) = .ok t c' :=
  let _ := asciiUni
  Res.sameTree_spec (by decide +kernel)

end Verif
