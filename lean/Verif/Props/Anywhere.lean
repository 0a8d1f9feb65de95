import Verif.Proof.ReadLike
import Verif.Proof.Ev
import Verif.Props.PlugText

/-!
# C75: an expression is read in the same way wherever it is
-/

namespace Verif

/-- The parse functions for expressions. -/
def expressionFns : List Fn :=
  [.atom, .atomExpr, .power, .factor, .term, .arith, .shift, .andExpr, .xorExpr, .expr, .starExpr, .comparison, .notTest, .andTest,
    .orTest, .lambdaDef true, .lambdaDef false, .noCondTest, .test, .namedExpression, .testlistComp, .trailer, .subscriptList,
    .subscript, .exprlist, .testlist, .dictorsetMaker, .arglist, .argument, .compIter, .syncCompFor, .compFor, .compIf, .yieldExpr,
    .testlistStarExpr, .varArgsList]

/-- C75: what a function for expressions returns is decided by the kinds and the texts of the symbols it consumes and of the
one after them.  Wherever a parser of any text sees these symbols, the function returns the same tree up to positions and
trivia, and has consumed the same number of symbols. -/
theorem C75_expression_anywhere [Uni] (f : Fn) (hf : f ∈ expressionFns) (src : List Char) (c : PSt) (hc : PReach src c)
    (n : Nat) (t : Tree) (c' : PSt) (h : run n f c = .ok t c') :
    ∃ ts, Consumed c ts c' ∧ ∀ d, (∀ i ≤ ts.length, SymLike Token.bare (c.ahead i) (d.ahead i)) →
      ∃ k u, run k f d = .ok u (d.ahead ts.length) ∧ u.erase Token.bare = t.erase Token.bare := by
  have hx : f.isExpr = true := by
    have : expressionFns.all Fn.isExpr = true := rfl
    exact List.all_eq_true.1 this f hf
  obtain ⟨ts, g1, g2⟩ := run_likeOk (e := Token.bare) _ _ _ _ _ hx hc.good h
  refine ⟨ts, g1, fun d hd => ?_⟩
  obtain ⟨b, k1, k2, -⟩ := g2 _ ⟨f, like_refl f, rfl⟩ 0 d hd
  obtain ⟨k, hk⟩ := evp_parse_inv k1
  exact ⟨k, b, hk, k2.symm⟩

/-- C75, forms: if only the kinds are the same (and the name `match` is at the same places), the trees have the same form. -/
theorem C75_form_anywhere [Uni] (f : Fn) (hf : f ∈ expressionFns) (src : List Char) (c : PSt) (hc : PReach src c)
    (n : Nat) (t : Tree) (c' : PSt) (h : run n f c = .ok t c') :
    ∃ ts, Consumed c ts c' ∧ ∀ d, (∀ i ≤ ts.length, SymLike Token.form (c.ahead i) (d.ahead i)) →
      ∃ k u, run k f d = .ok u (d.ahead ts.length) ∧ u.erase Token.form = t.erase Token.form := by
  have hx : f.isExpr = true := by
    have : expressionFns.all Fn.isExpr = true := rfl
    exact List.all_eq_true.1 this f hf
  obtain ⟨ts, g1, g2⟩ := run_likeOk (e := Token.form) _ _ _ _ _ hx hc.good h
  refine ⟨ts, g1, fun d hd => ?_⟩
  obtain ⟨b, k1, k2, -⟩ := g2 _ ⟨f, like_refl f, rfl⟩ 0 d hd
  obtain ⟨k, hk⟩ := evp_parse_inv k1
  exact ⟨k, b, hk, k2.symm⟩

/-! ### The hypotheses are met -/

/-- `a or b` in `[a or b]` and in a text where other symbols are before and after the brackets. -/
example : let _ := asciiUni
    ∃ t c' k u d', run 60 .test (PSt.ahead 2 (PSt.new (Lexer.new (cs! "[a or b]")))) = .ok t c' ∧
      run k .test (PSt.ahead 5 (PSt.new (Lexer.new (cs! "f(g[  a or # c\n b] + 1)\n")))) = .ok u d' ∧
      u.erase Token.bare = t.erase Token.bare := by
  let _ := asciiUni
  have key : (match run 60 .test (PSt.ahead 2 (PSt.new (Lexer.new (cs! "[a or b]")))) with
      | .ok _ c => match c.symbol with
        | .ok z => z.kind == .PyRightBracket
        | _ => false
      | _ => false) = true := by decide +kernel
  split at key <;> first | (cases key; done) | skip
  rename_i t c' hr
  split at key <;> first | (cases key; done) | skip
  rename_i z hz
  have h1 : Tokens (Lexer.new (cs! "[a or b]")) [.sym .PyLeftBracket _ _ _, .name _ _ _ (cs! "a"), .sym .PyOr _ _ _,
    .name _ _ _ (cs! "b"), .sym .PyRightBracket _ _ _, .eof _ _] _ := .cons rfl (.cons rfl (.cons rfl (.cons rfl (.cons rfl (.cons rfl .nil)))))
  have h2 : Tokens (Lexer.new (cs! "f(g[  a or # c\n b] + 1)\n")) [.name _ _ _ (cs! "f"), .sym .PyLeftParen _ _ _, .name _ _ _ (cs! "g"),
    .sym .PyLeftBracket _ _ _, .name _ _ _ (cs! "a"), .sym .PyOr _ _ _,
    .name _ _ _ (cs! "b"), .sym .PyRightBracket _ _ _] _ :=
    .cons rfl (.cons rfl (.cons rfl (.cons rfl (.cons rfl (.cons rfl (.cons rfl (.cons rfl .nil)))))))
  obtain ⟨ts, g1, g2⟩ := C75_expression_anywhere .test (by simp [expressionFns]) _ _ (.adv (.adv .new)) 60 t c' hr
  have hts : ts.length ≤ 3 := by
    have g3 := g1.index.1
    rw [hz] at g3
    by_cases hle : ts.length ≤ 3
    · exact hle
    · obtain ⟨j, hj⟩ := Nat.exists_eq_add_of_le (Nat.lt_of_not_le hle)
      rw [show PSt.advance (PSt.advance (PSt.new (Lexer.new (cs! "[a or b]")))) = PSt.ahead 2 (PSt.new (Lexer.new (cs! "[a or b]"))) from rfl,
        ← ahead_add, hj, show 2 + (3 + 1 + j) = (5 + j) + 1 by omega] at g3
      obtain ⟨t, k1, k2, -⟩ := h1.sees ⟨_, List.mem_of_getElem? (i := 5) rfl, rfl⟩ (5 + j)
      rw [k1] at g3
      cases g3
      have : z.kind = .EOF := by
        rw [← plug_kind_bare, k2]
        cases j with
        | zero => rfl
        | succ j => rw [show 5 + (j + 1) = j + 6 by omega]; rfl
      rw [this] at key
      cases key
  obtain ⟨k, u, k1, k2⟩ := g2 (PSt.ahead 5 (PSt.new (Lexer.new (cs! "f(g[  a or # c\n b] + 1)\n")))) (by
    intro i hi
    have hi : i ≤ 3 := Nat.le_trans hi hts
    rw [show PSt.advance (PSt.advance (PSt.new (Lexer.new (cs! "[a or b]")))) = PSt.ahead 2 (PSt.new (Lexer.new (cs! "[a or b]"))) from rfl,
      ← ahead_add, ← ahead_add]
    rw [show 2 + i = (i + 1) + 1 by omega, show 5 + i = (i + 4) + 1 by omega]
    unfold SymLike
    rw [h1.seen rfl (i + 1) (by simp; omega), h2.seen rfl (i + 4) (by simp; omega)]
    match i, hi with
    | 0, _ | 1, _ | 2, _ | 3, _ => rfl)
  exact ⟨t, c', k, u, _, hr, k1, k2⟩

end Verif
