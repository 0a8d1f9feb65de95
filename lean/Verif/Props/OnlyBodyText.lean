import Verif.Props.Body
import Verif.Props.OnlyBody

/-!
# C78 for texts: a body that is moved to the right and put in the place of another one
-/

namespace Verif
open Prog LG

/-- C78, for texts: let `a` be a text up to the start of a line, with the line end `nl` as its last symbol, after which a block
starts.  Let its body be the text `F`, moved `k` columns to the right, and let the text `b` after it be empty or start with
a line that has code, less than `k` columns from the margin.  Let `F` and `G` be accepted as files, and be bodies of blocks
with no string that goes over the end of a line (moving it would change the string).  If the whole text is accepted, then so
is the text with `G` in the place of `F`, and its tree is that of the whole text with the statements of `G` as the body of
that block and nothing else changed, apart from positions and trivia. -/
theorem C78_only_the_body_text [Uni] (a F G b : List Char) (k : Nat) (us f gs : List Token) (nl i : Token) (l l1 : Lexer)
    (h : Tokens (Lexer.new (a ++ (indentLines k F ++ b))) (us ++ [nl]) l) (hpos : l.buf.index = a.length) (ha : BeforeLine a (us ++ [nl]))
    (hi : getSymbol l = .ok i l1) (hk : i.kind = .Indent) (htc : ∀ u, us.getLast? = some u → u.kind ≠ .TypeComment)
    (hb : (LG.margin 0 b).1 < k ∧ ¬ LG.NoCode (LG.margin 0 b).2)
    (hF : BodyText F) (hG : BodyText G) (htab : ('\t' ∉ F ∧ '\t' ∉ G) ∨ k % 4 = 0)
    (sF : AllSymbols F f) (sG : AllSymbols G gs) (oF : ∀ t ∈ f, t.OneLine) (oG : ∀ t ∈ gs, t.OneLine)
    (n m : Nat) (t v : Tree) (c d : PSt)
    (ht : run n .fileInput (PSt.new (Lexer.new (a ++ (indentLines k F ++ b)))) = .ok t c)
    (aF : Accepts .fileInput F)
    (hv : run m .fileInput (PSt.new (Lexer.new G)) = .ok v d) :
    ∃ j u c', run j .fileInput (PSt.new (Lexer.new (a ++ (indentLines k G ++ b)))) = .ok u c' ∧
      u.erase Token.bare = t.graft nl (eraseList Token.bare (fileStatements v).reverse) := by
  have tF : '\t' ∉ F ∨ k % 4 = 0 := htab.imp_left And.left
  have tG : '\t' ∉ G ∨ k % 4 = 0 := htab.imp_left And.right
  have knl : nl.kind = .Newline := by
    rcases ha with ⟨-, h⟩ | ⟨_, _, x, -, -, h, hx⟩
    · simp at h
    · have := congrArg List.getLast? h
      simp at this
      rw [this]; exact hx
  obtain ⟨L, top, rF, rG, hne, hL, hL0, htop⟩ := block_place (G := G) h hpos ha hi hk hF tF
  obtain ⟨gsF, nF, qF, bF⟩ := body_symbols aF hF
  obtain ⟨gsG, nG, qG, bG⟩ := body_symbols ⟨_, _, _, hv⟩ hG
  have same : ∀ {H : List Char} {gs h n q}, BodySymbols H gs n q → AllSymbols H h →
      h.map Token.bare = gs ++ n :: List.replicate (q.levels.length - 1) (.dedent none) := by
    intro H gs h n q hb hs
    obtain ⟨f', e, l, h1, h2, h3, h4⟩ := hb.all
    rw [hs.uniq ⟨e, l, h1, h2, h3⟩]; exact h4
  have eF := same bF sF
  have eG := same bG sG
  have line : ∀ {H gs : List Token} {r : List Token}, H.map Token.bare = gs ++ r → (∀ t ∈ H, t.OneLine) → ∀ t ∈ gs, t.OneLine := by
    intro H gs r e ho t ht s e' tr txt p hs
    have : t ∈ H.map Token.bare := by rw [e]; exact List.mem_append_left _ ht
    obtain ⟨z, hz, rfl⟩ := List.mem_map.1 this
    cases z with
    | string s1 e1 tr1 txt1 p1 =>
      cases hs
      exact ho _ hz _ _ _ _ _ rfl
    | _ => cases hs
  have noTry : ∀ {H gs n q} {h : List Token}, BodySymbols H gs n q →
      h.map Token.bare = gs ++ n :: List.replicate (q.levels.length - 1) (.dedent none) → ∀ t ∈ h, t.kind ≠ .PyTry := by
    intro H gs n q h hb e t ht
    have : t.bare ∈ h.map Token.bare := List.mem_map_of_mem ht
    rw [e] at this
    rw [← bare_kind]
    simp only [List.mem_append, List.mem_cons] at this
    rcases this with h | h | h
    · exact hb.noTry _ h
    · rw [h, hb.newline]; decide
    · rw [List.eq_of_mem_replicate h]; decide
  obtain ⟨q, hq⟩ := after_of (k := k) (col := (LG.margin 0 b).1) (cs := (LG.margin 0 b).2) rfl hb.2 hb.1 hL0
  obtain ⟨gsF', alF, sameF, xF⟩ := body_run hF.1 hF.lines tF bF.run bF.newline bF.text bF.last bF.num bF.noEof hL htop hq
  obtain ⟨gsG', alG, sameG, xG⟩ := body_run hG.1 hG.lines tG bG.run bG.newline bG.text bG.last bG.num bG.noEof hL htop hq
  obtain rfl := sameF (line eF oF)
  obtain rfl := sameG (line eG oG)
  rw [← eF] at xF
  rw [← eG] at xG
  have xF := run_follow rF xF
  have xG := run_follow rG xG
  -- the symbols of the first text
  obtain ⟨vs, lv, v1, v2, v3⟩ := (C55_symbols _ _ _).2 xF
  obtain ⟨ws, e, lw, y, w1, w2, w3, -, -, -, -⟩ := accepted_symbols ⟨_, _, _, ht⟩
  have hfe : ∀ t ∈ f, t.kind ≠ .EOF := by
    obtain ⟨_, _, -, -, h⟩ := sF
    exact h
  have hge : ∀ t ∈ gs, t.kind ≠ .EOF := by
    obtain ⟨_, _, -, -, h⟩ := sG
    exact h
  have hvs : ∀ t ∈ vs, t.kind ≠ .EOF := by
    intro t ht
    have : t.bare ∈ vs.map Token.bare := List.mem_map_of_mem ht
    rw [v2] at this
    rw [← bare_kind]
    simp only [List.mem_append, List.mem_cons, List.not_mem_nil, or_false, List.cons_append] at this
    rcases this with h | h | h | h
    · exact hne _ h
    · rw [h]; decide
    · obtain ⟨z, hz, e⟩ := List.mem_map.1 h
      rw [← e, bare_kind]; exact hfe z hz
    · rw [h]; decide
  obtain ⟨zs, rfl, hz⟩ := tokens_cmp v1 hvs w1 w2
  have hrz := run_of_tokens (v1.reach .new) hz
  rw [v3] at hrz
  have hne' : ∀ t ∈ us ++ [nl], t.kind ≠ .EOF := by
    intro t ht
    rw [← bare_kind]
    exact hne _ (List.mem_map_of_mem ht)
  obtain ⟨rs, e1, -⟩ := tokens_cmp h hne' w1 w2
  have e2 := congrArg (List.map Token.bare) e1
  rw [List.map_append, v2, List.map_append (l₁ := us ++ [nl]), List.append_assoc] at e2
  have e3 := List.append_cancel_left e2
  simp only [List.cons_append, List.append_assoc, List.nil_append] at e3
  obtain ⟨i', r1, rfl, e4, e5⟩ := List.map_eq_cons_iff.1 e3.symm
  obtain ⟨fs, r2, rfl, e6, e7⟩ := List.map_eq_append_iff.1 e5
  obtain ⟨o, r3, rfl, e8, e9⟩ := List.map_eq_cons_iff.1 e7
  have hA : AllSymbols (a ++ (indentLines k F ++ b)) (us ++ nl :: i' :: (fs ++ o :: r3)) := by
    refine ⟨e, lw, ?_, w2, ?_⟩
    · rw [e1] at w1; simpa using w1
    · rw [e1] at w3; simpa using w3
  -- the symbols of the second text
  obtain ⟨xs, lu, u1, u2, -⟩ := (C55_symbols _ _ _).2 (run_follow xG hrz)
  rw [List.map_append (l₁ := zs), ← List.append_assoc] at u2
  obtain ⟨bs, es, rfl, e10, e11⟩ := List.map_eq_append_iff.1 u2
  obtain ⟨e', es', rfl, e12, e13⟩ := List.map_eq_cons_iff.1 e11
  obtain rfl := List.map_eq_nil_iff.1 e13
  have ki' : i'.kind = .Indent := by rw [← bare_kind, e4]; rfl
  have ko : o.kind = .Dedent := by rw [← bare_kind, e8]; rfl
  have hbs : bs.map Token.bare = (us ++ nl :: i' :: (gs ++ o :: r3)).map Token.bare := by
    rw [e10]
    simp [e4, e8, e9]
  have hB : AllSymbols (a ++ (indentLines k G ++ b)) bs := by
    refine ⟨e', lu, u1, ?_, ?_⟩
    · rw [← bare_kind, e12, bare_kind]; exact w2
    · intro t ht
      have : t.bare ∈ bs.map Token.bare := List.mem_map_of_mem ht
      rw [hbs] at this
      obtain ⟨z, hz, ez⟩ := List.mem_map.1 this
      rw [← bare_kind, ← ez, bare_kind]
      have old : ∀ z ∈ us ++ nl :: i' :: (fs ++ o :: r3), z.kind ≠ .EOF := by
        obtain ⟨_, _, -, -, h⟩ := hA
        exact h
      simp only [List.mem_append, List.mem_cons] at hz old
      rcases hz with h | h | h | h | h | h
      · exact old z (.inl h)
      · exact old z (.inr (.inl h))
      · exact old z (.inr (.inr (.inl h)))
      · exact hge z h
      · exact old z (.inr (.inr (.inr (.inr (.inl h)))))
      · exact old z (.inr (.inr (.inr (.inr (.inr h)))))
  have hfn : fs ≠ [] := by
    rintro rfl
    rw [eF] at e6
    simp at e6
  have hgn : gs ≠ [] := by
    rintro rfl
    simp at eG
  have hft : ∀ u ∈ fs, u.kind ≠ .PyTry := noTry bF (e6.trans eF)
  exact C78_only_the_body _ _ F G us fs gs r3 f bs nl i' o hA hB hbs sF e6.symm sG knl ki' ko htc hft (noTry bG eG) hfn hgn n m t v c d ht aF hv

open BodyExample in
/-- The hypotheses are met: in a block inside a function the body `b` is replaced by a loop and another statement. -/
example : let _ := asciiUni
    ∃ n m t v c d k u c', run n .fileInput (PSt.new (Lexer.new old)) = .ok t c ∧
      run m .fileInput (PSt.new (Lexer.new (cs! "while x: y\nz\n"))) = .ok v d ∧
      run k .fileInput (PSt.new (Lexer.new (cs! "def f():\n  if a:\n    while x: y\n    z\n  c\nd\n"))) = .ok u c' ∧
      t.tokens.length = 21 ∧ u.erase Token.bare = t.graft nl (eraseList Token.bare (fileStatements v).reverse) := by
  intro _
  obtain ⟨t, c, ht, h1⟩ := Res.shows (P := fun t => t.tokens.length = 21)
    (r := run 200 .fileInput (PSt.new (Lexer.new old))) (by decide +kernel)
  obtain ⟨v, d, hv, -⟩ := Res.shows (P := fun t => (fileStatements t).length = 2)
    (r := run 200 .fileInput (PSt.new (Lexer.new (cs! "while x: y\nz\n")))) (by decide +kernel)
  have line : ∀ ts : List Token, (∀ t ∈ ts, t.kind ≠ .AtomString) → ∀ t ∈ ts, t.OneLine := by
    rintro ts h t ht s e tr txt p rfl
    exact absurd rfl (h _ ht)
  obtain ⟨k, u, c', hu, h2⟩ := C78_only_the_body_text (cs! "def f():\n  if a:\n") (cs! "b\n") (cs! "while x: y\nz\n") (cs! "  c\nd\n") 4 us f gs nl _ _ _
    (.cons rfl (.cons rfl (.cons rfl (.cons rfl (.cons rfl (.cons rfl (.cons rfl (.cons rfl (.cons rfl (.cons rfl (.cons rfl .nil)))))))))))
    rfl (.inr ⟨cs! "def f():\n  if a:", us, nl, rfl, by decide, rfl, rfl⟩) rfl rfl (by decide) (by simp only [LG.NoCode]; decide)
    (bodyText_of 10 (by decide) (by decide) (by decide) (by decide +kernel))
    (bodyText_of 30 (by decide) (by decide) (by decide) (by decide +kernel)) (.inl (by decide)) symF symG
    (line _ (by decide)) (line _ (by decide)) _ _ _ _ _ _ ht (Res.accepts (m := 100) (by decide +kernel)) hv
  exact ⟨_, _, t, v, c, d, k, u, c', ht, hv, hu, h1, h2⟩

/-- With a string that goes over the end of a line it is false: moving the text to the right changes the string. -/
theorem C78_string_moved : let _ := asciiUni
    ∃ n m u v c d s e tr s' e' tr', run n .fileInput (PSt.new (Lexer.new (cs! "if a:\n" ++ indentLines 1 (cs! "x = '''p\nq'''\n")))) = .ok u c ∧
      run m .fileInput (PSt.new (Lexer.new (cs! "x = '''p\nq'''\n"))) = .ok v d ∧
      Token.string s e tr (cs! "'''p\n q'''") none ∈ u.tokens ∧ Token.string s' e' tr' (cs! "'''p\nq'''") none ∈ v.tokens := by
  intro _
  obtain ⟨u, c, hu, h1⟩ := Res.shows (P := fun t => Token.string 11 21 (some [.whiteSpace 10 11 ' ']) (cs! "'''p\n q'''") none ∈ t.tokens)
    (r := run 200 .fileInput (PSt.new (Lexer.new (cs! "if a:\n" ++ indentLines 1 (cs! "x = '''p\nq'''\n"))))) (by decide +kernel)
  obtain ⟨v, d, hv, h2⟩ := Res.shows (P := fun t => Token.string 4 13 (some [.whiteSpace 3 4 ' ']) (cs! "'''p\nq'''") none ∈ t.tokens)
    (r := run 200 .fileInput (PSt.new (Lexer.new (cs! "x = '''p\nq'''\n")))) (by decide +kernel)
  exact ⟨_, _, u, v, c, d, _, _, _, _, _, _, hu, hv, h1, h2⟩

end Verif
