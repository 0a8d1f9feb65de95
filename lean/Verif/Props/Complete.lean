import Verif.Proof.CompleteText

/-!
# C28, C29: every well formed expression is accepted
-/

namespace Verif
section
variable [Uni]

/-- C28: given the words of a well formed expression, and after them a token that does not continue it, the `test`
rule (the rule of all expressions) returns the tree of that expression and stops in front of that token. -/
theorem C28_complete {e : Ex} (hw : e.Wf) (hl : e.level ≤ 15) {c c' : PSt} (hf : Fed c e.words c') (he : EndsExpr 15 c') :
    ∃ n t, run n .test c = .ok t c' ∧ t.sk = e.sk := by
  obtain ⟨t, ht, n, h⟩ := (ex_good hw).parses 15 hl (by omega) c c' hf he
  exact ⟨n, t, h, ht⟩

/-- C28 for the other rules: the rule of each precedence level accepts the expressions that bind at least as
tightly. -/
theorem C28_levels {e : Ex} (hw : e.Wf) {c c' : PSt} (hf : Fed c e.words c') :
    ∀ n f, (n, f) ∈ [(0, Fn.atom), (1, .atomExpr), (2, .atomExpr), (3, .power), (4, .factor), (5, .term), (6, .arith), (7, .shift),
        (8, .andExpr), (9, .xorExpr), (10, .expr), (11, .comparison), (12, .notTest), (13, .andTest), (14, .orTest),
        (15, .test), (16, .namedExpression)] →
      e.level ≤ n → EndsExpr n c' → ∃ k t, run k f c = .ok t c' ∧ t.sk = e.sk := by
  intro n f hm hl he
  have key : f = levelFn n ∧ n ≤ 16 := by
    simp only [List.mem_cons, Prod.mk.injEq, List.not_mem_nil, or_false] at hm
    rcases hm with h | h | h | h | h | h | h | h | h | h | h | h | h | h | h | h | h <;> obtain ⟨rfl, rfl⟩ := h <;>
      exact ⟨rfl, by omega⟩
  obtain ⟨rfl, hn⟩ := key
  obtain ⟨t, ht, k, h⟩ := (ex_good hw).parses n hl hn c c' hf he
  exact ⟨k, t, h, ht⟩

/-- C28: what the rule returns does not depend on how long it is run, so no other tree and no error is ever
returned for these words. -/
theorem C28_unique {e : Ex} (hw : e.Wf) (hl : e.level ≤ 15) {c c' : PSt} (hf : Fed c e.words c') (he : EndsExpr 15 c') (n : Nat) :
    run n .test c = .diverge ∨ ∃ t, run n .test c = .ok t c' ∧ t.sk = e.sk := by
  obtain ⟨m, t, h, ht⟩ := C28_complete hw hl hf he
  by_cases hd : run n .test c = .diverge
  · exact .inl hd
  · exact .inr ⟨t, by rw [run_det hd (by rw [h]; simp), h], ht⟩

/-- C29: an expression written out as text, one space between its words, and parsed with the eval rule gives the tree of that
expression, followed by `EOF`. -/
theorem C29_roundtrip {e : Ex} (hw : e.Wf) (hl : e.level ≤ 15) (hok : ∀ x ∈ e.words, x.Ok) :
    ∃ n t c', run n .evalInput (PSt.new (Lexer.new (spacedText e.words))) = .ok t c' ∧
      t.sk = .node .EvalInput [e.sk, .seq [], kd .EOF] := by
  obtain ⟨c', hf, hu⟩ := fed_text hw hok
  obtain ⟨t, ht, hev⟩ := (ex_good hw).parses 15 hl (by omega) _ c' hf (ends_of_symbol hu rfl (by intro m h; cases h))
  have h : Ev .evalInput (PSt.new (Lexer.new (spacedText e.words))) (.node .EvalInput (started (spacedText e.words)).lex.tokStart c'.lex.tokStart
      [t, .toks [], .tok (.eof (spacedText e.words).length none)]) c' := by
    refine ev_body ?_
    simp only [body, evalInputBody]
    refine evp_bind evp_next (evp_bind evp_here (evp_bind (evp_parse (t := t) (c' := c') (ev_body ?_)) (evp_parse (ev_body ?_))))
    · simp only [body, testlistBody]
      refine evp_bind evp_here (evp_bind (evp_parse hev) (evp_parse (ev_body ?_)))
      simp only [body, testlistLoopBody]
      refine evp_bind (evp_symHere hu) ?_
      simp only [Token.kind, reduceCtorEq, if_false, listResult]
      exact evp_pure
    · simp only [body, evalLoopBody]
      refine evp_bind (evp_symAt hu) ?_
      simp only [Token.kind, reduceCtorEq, if_true, if_false]
      exact evp_mk
  obtain ⟨n, h⟩ := h
  exact ⟨n, _, c', h, by simp [Tree.sk, skList, Tree.toks, ht, Token.leaf, kd, Token.kind]⟩

end

/-- `- a ** 2 * f ( x , not y in z ) . g [ 1 : n : k ] if [ b , * c ] else lambda : { d : ( e := "s" 't' ) }` -/
def exampleEx : Ex :=
  .cond
    (.bin .mul (.un .minus (.pow (.name (cs! "a")) (.num (cs! "2"))))
      (.index (.attr (.call (.name (cs! "f")) [.name (cs! "x"), .not (.cmp .in_ (.name (cs! "y")) (.name (cs! "z")))]) (cs! "g"))
        [.slice (.num (cs! "1")) (.name (cs! "n")) (.name (cs! "k"))]))
    (.list [.name (cs! "b"), .star (.name (cs! "c"))])
    (.lam (.dict1 (.name (cs! "d")) (.tuple [.named (.name (cs! "e")) (.strs [([], '"', cs! "s"), ([], '\'', cs! "t")])])))

example : exampleEx.Wf ∧ exampleEx.level ≤ 15 ∧
    spacedText exampleEx.words =
      cs! "- a ** 2 * f ( x , not y in z ) . g [ 1 : n : k ] if [ b , * c ] else lambda : { d : ( e := \"s\" 't' ) }" := by
  refine ⟨?_, by simp [exampleEx, Ex.level], ?_⟩
  · simp [exampleEx, Ex.Wf, WfList, WfArgs, Ex.level, BinOp.level]
  · simp only [exampleEx, Ex.words, wordsList, BinOp.word, UnOp.word, CmpOp.words, List.map_cons, List.map_nil]
    rfl

/-- `a . b + ( 2 , c )` meets the hypotheses of the round trip. -/
def exampleEx2 : Ex := .bin .add (.attr (.name (cs! "a")) (cs! "b")) (.tuple [.num (cs! "2"), .name (cs! "c")])

example : exampleEx2.Wf ∧ exampleEx2.level ≤ 15 ∧ (∀ x ∈ exampleEx2.words, @Lexeme.Ok asciiUni x) ∧
    spacedText exampleEx2.words = cs! "a . b + ( 2 , c )" := by
  have hk : ∀ x ∈ pyKeywords, x.1 ≠ cs! "a" ∧ x.1 ≠ cs! "b" ∧ x.1 ≠ cs! "c" := by decide
  refine ⟨by simp [exampleEx2, Ex.Wf, WfList, Ex.level, BinOp.level], by simp [exampleEx2, Ex.level, BinOp.level], ?_, ?_⟩
  · intro x hx
    simp only [exampleEx2, Ex.words, wordsList, BinOp.word, List.cons_append, List.nil_append, List.mem_cons,
      List.not_mem_nil, or_false] at hx
    rcases hx with rfl | rfl | rfl | rfl | rfl | rfl | rfl | rfl | rfl
    · exact ⟨⟨_, _, rfl, rfl⟩, by decide, fun k h => (hk _ h).1 rfl⟩
    · show (_, _) ∈ operators; decide
    · exact ⟨⟨_, _, rfl, rfl⟩, by decide, fun k h => (hk _ h).2.1 rfl⟩
    · show (_, _) ∈ operators; decide
    · show (_, _) ∈ operators; decide
    · exact .inl ⟨cs! "2", [], [], rfl, .int ⟨'2', [], rfl, by decide, .nil⟩ (by decide), .inl rfl, .inl rfl⟩
    · show (_, _) ∈ operators; decide
    · exact ⟨⟨_, _, rfl, rfl⟩, by decide, fun k h => (hk _ h).2.2 rfl⟩
    · show (_, _) ∈ operators; decide
  · simp only [exampleEx2, Ex.words, wordsList, BinOp.word]
    rfl

end Verif
