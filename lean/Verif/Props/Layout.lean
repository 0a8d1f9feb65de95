import Verif.Proof.AlikeAll
import Verif.Props.Kinds

/-!
# C53: the tree does not depend on the layout of the text, and its form depends only on the kinds of the tokens

`Token.bare` keeps the kind and the text of a token, `Token.form` only the kind (and whether it is the name `match`).
`Tree.erase` removes the positions from a tree.
-/

namespace Verif
set_option linter.unusedVariables false

/-- Only the kind, and whether the token is the name `match`. -/
def Token.form (t : Token) : Token := if t.isMatch then .name 0 0 none (cs! "match") else .sym t.kind 0 0 none

theorem isMatchName_eq (t : Token) : t.isMatchName = t.isMatch := by cases t <;> rfl

instance : Keeps Token.bare where
  kind {t u} h := by cases t <;> cases u <;> simp_all [Token.bare, Token.kind]
  isMatch {t u} h := by cases t <;> cases u <;> simp_all [Token.bare, Token.isMatchName]

theorem Token.isMatch_kind {t : Token} (h : t.isMatch = true) : t.kind = .AtomName := by
  cases t <;> simp_all [Token.isMatch, Token.kind]

theorem Token.form_iff (t u : Token) : t.form = u.form ↔ t.kind = u.kind ∧ t.isMatch = u.isMatch := by
  unfold Token.form
  cases ht : t.isMatch <;> cases hu : u.isMatch <;> simp
  rw [isMatch_kind ht, isMatch_kind hu]

instance : Keeps Token.form where
  kind h := ((Token.form_iff _ _).mp h).1
  isMatch h := by rw [isMatchName_eq, isMatchName_eq]; exact ((Token.form_iff _ _).mp h).2

section
variable [Uni] {e : Token → Token} [Keeps e]

theorem outLike_run : ∀ n f g, Fn.Like e f g → ∀ c d, ViewLike e c d → OutLike e (run n f c) (run n g d)
  | 0, _, _, _, _, _, _ => trivial
  | n + 1, _, _, h, _, _, hv => rel_exec (outLike_run n) (al_body h) hv

theorem OutLike.res {r r' : Res Tree} (h : OutLike e r r') : ResLike e r r' := by
  cases r <;> cases r' <;> first | exact h.1 | exact h | exact h.elim

/-- A function with the same arguments. -/
theorem like_refl (f : Fn) : Fn.Like e f f := by cases f <;> constructor <;> rfl

/-- The symbols of a reading, one after the other. -/
theorem Tokens.seen {l us l'} (h : Tokens l us l') : ∀ {c : PSt}, c.lex = l →
    ∀ i (hi : i < us.length), (c.ahead (i + 1)).symbol = .ok us[i] := by
  induction h with
  | nil => intro c _ i hi; simp at hi
  | cons h1 _ ih =>
    intro c hc i hi
    cases i with
    | zero => show c.advance.symbol = _; unfold PSt.advance; rw [hc, h1]; rfl
    | succ i => exact ih (c := c.advance) (by unfold PSt.advance; rw [hc, h1]) i (by simpa using hi)

theorem Tokens.left_state {l us l'} (h : Tokens l us l') : ∀ {c : PSt}, c.lex = l → (c.ahead us.length).lex = l' := by
  induction h with
  | nil => intro c h; exact h
  | cons h1 _ ih =>
    intro c hc
    refine ih (c := c.advance) ?_
    unfold PSt.advance; rw [hc, h1]

theorem ahead_add (c : PSt) (i j : Nat) : c.ahead (i + j) = (c.ahead i).ahead j := by
  induction i generalizing c with
  | zero => rw [Nat.zero_add]; rfl
  | succ i ih => rw [Nat.succ_add]; exact ih _

theorem stuck_ahead {l : Lexer} {t} (h : getSymbol l = .ok t l) : ∀ j {c : PSt}, c.lex = l → (c.ahead (j + 1)).symbol = .ok t
  | 0, c, hc => by show c.advance.symbol = _; unfold PSt.advance; rw [hc, h]
  | j + 1, c, hc => by
    refine stuck_ahead h j (c := c.advance) ?_
    unfold PSt.advance; rw [hc, h]

/-- Texts whose tokens are the same up to `e` are seen alike. -/
theorem viewLike_new {src1 src2 : List Char} {ts1 ts2 : List Token} {l1 l2 : Lexer}
    (heof : ∀ p tr p' tr', e (.eof p tr) = e (.eof p' tr'))
    (h1 : Tokens (Lexer.new src1) ts1 l1) (h2 : Tokens (Lexer.new src2) ts2 l2) (he : ∃ t ∈ ts1, t.kind = .EOF)
    (ha : ts1.map e = ts2.map e) : ViewLike e (PSt.new (Lexer.new src1)) (PSt.new (Lexer.new src2)) := by
  have hlen : ts1.length = ts2.length := by simpa using congrArg List.length ha
  have he2 : ∃ t ∈ ts2, t.kind = .EOF := by
    obtain ⟨t, ht, hk⟩ := he
    have : e t ∈ ts2.map e := ha ▸ List.mem_map_of_mem ht
    obtain ⟨u, hu, hk'⟩ := List.mem_map.mp this
    exact ⟨u, hu, (Keeps.kind hk').trans hk⟩
  refine ⟨rfl, fun i => ?_⟩
  cases i with
  | zero => exact trivial
  | succ i =>
    unfold SymLike
    by_cases hi : i < ts1.length
    · rw [h1.seen rfl i hi, h2.seen rfl i (hlen ▸ hi)]
      have := congrArg (·[i]?) ha
      simpa [hi, hlen ▸ hi] using this
    · obtain ⟨j, rfl⟩ := Nat.exists_eq_add_of_le (Nat.le_of_not_lt hi)
      obtain ⟨p, tr, s1⟩ := h1.eof_last (Inv.new src1) he
      obtain ⟨p', tr', s2⟩ := h2.eof_last (Inv.new src2) he2
      rw [Nat.add_assoc, ahead_add, stuck_ahead s1 j (h1.left_state rfl), hlen, ahead_add, stuck_ahead s2 j (h2.left_state rfl)]
      exact heof _ _ _ _

end

/-- C53, layout, from any state: two parsers that see symbols with the same kinds and texts, now and later, get the same
outcome from every function: trees that differ in positions and trivia only, or errors with the same message, or a
panic, or both go on for more than `n` steps. -/
theorem C53_layout_anywhere [Uni] (n : Nat) (f : Fn) (c d : PSt) (h : ViewLike Token.bare c d) :
    ResLike Token.bare (run n f c) (run n f d) :=
  (outLike_run n f f (like_refl f) c d h).res

/-- C53, layout: two texts with the same tokens up to positions and trivia (that is, up to blanks, comments, blank
lines, continuations, the width of indentation and the form of line ends) give the same tree up to positions and
trivia, or the same error message. -/
theorem C53_layout [Uni] (f : Fn) (src1 src2 : List Char) (ts1 ts2 : List Token) (l1 l2 : Lexer)
    (h1 : Tokens (Lexer.new src1) ts1 l1) (h2 : Tokens (Lexer.new src2) ts2 l2) (he : ∃ t ∈ ts1, t.kind = .EOF)
    (ha : ts1.map Token.bare = ts2.map Token.bare) (n : Nat) :
    ResLike Token.bare (run n f (PSt.new (Lexer.new src1))) (run n f (PSt.new (Lexer.new src2))) :=
  C53_layout_anywhere n f _ _ (viewLike_new (fun _ _ _ _ => rfl) h1 h2 he ha)

/-- C53, form: two texts whose tokens have the same kinds (and the name `match` at the same places) give trees of the
same form, or the same error message. -/
theorem C53_form [Uni] (f : Fn) (src1 src2 : List Char) (ts1 ts2 : List Token) (l1 l2 : Lexer)
    (h1 : Tokens (Lexer.new src1) ts1 l1) (h2 : Tokens (Lexer.new src2) ts2 l2) (he : ∃ t ∈ ts1, t.kind = .EOF)
    (ha : ts1.map (fun t => (t.kind, t.isMatch)) = ts2.map (fun t => (t.kind, t.isMatch))) (n : Nat) :
    ResLike Token.form (run n f (PSt.new (Lexer.new src1))) (run n f (PSt.new (Lexer.new src2))) := by
  have ha : ts1.map Token.form = ts2.map Token.form := by
    have := congrArg (List.map fun p : Kind × Bool => if p.2 then Token.name 0 0 none (cs! "match") else .sym p.1 0 0 none) ha
    rw [List.map_map, List.map_map] at this
    exact this
  exact (outLike_run n f f (like_refl f) _ _ (viewLike_new (fun _ _ _ _ => rfl) h1 h2 he ha)).res

/-! ### The hypotheses are met -/

mutual
theorem erase_tokens (e : Token → Token) : ∀ t : Tree, (t.erase e).tokens = t.tokens.map e
  | .tok t => rfl
  | .none => rfl
  | .seq l => erase_tokensList e l
  | .node _ _ _ l => erase_tokensList e l
theorem erase_tokensList (e : Token → Token) : ∀ l : List Tree, tokensList (eraseList e l) = (tokensList l).map e
  | [] => rfl
  | t :: l => by simp [eraseList, tokensList, erase_tokens e t, erase_tokensList e l]
end

/-- Two texts of which the first `n` tokens are the same up to `key` and contain `EOF`. -/
def sameUpTo [Uni] (key : Token → Token) (n : Nat) (src1 src2 : List Char) : Bool :=
  match firstTokens n (Lexer.new src1), firstTokens n (Lexer.new src2) with
  | some a, some b => decide (a.map key = b.map key) && a.any (fun t => t.kind == .EOF)
  | _, _ => false

theorem sameUpTo_spec [Uni] {n src1 src2} {key : Token → Token} (h : sameUpTo key n src1 src2 = true) :
    ∃ ts1 ts2 l1 l2, Tokens (Lexer.new src1) ts1 l1 ∧ Tokens (Lexer.new src2) ts2 l2 ∧ (∃ t ∈ ts1, t.kind = .EOF) ∧
      ts1.map key = ts2.map key := by
  unfold sameUpTo at h
  split at h
  · rename_i a b ha hb
    obtain ⟨l1, h1⟩ := firstTokens_spec _ _ _ ha
    obtain ⟨l2, h2⟩ := firstTokens_spec _ _ _ hb
    simp only [Bool.and_eq_true, decide_eq_true_eq, List.any_eq_true, beq_iff_eq] at h
    exact ⟨a, b, l1, l2, h1, h2, h.2, h.1⟩
  · simp at h

theorem both_trees [Uni] {e : Token → Token} [Keeps e] (heof : ∀ p tr p' tr', e (.eof p tr) = e (.eof p' tr'))
    {k n f src1 src2} (h : sameUpTo e k src1 src2 = true) {P Q : Tree → Prop}
    (h1 : ∃ t c, run n f (PSt.new (Lexer.new src1)) = .ok t c ∧ P t) (h2 : ∃ t c, run n f (PSt.new (Lexer.new src2)) = .ok t c ∧ Q t) :
    ∃ t u c d, run n f (PSt.new (Lexer.new src1)) = .ok t c ∧ run n f (PSt.new (Lexer.new src2)) = .ok u d ∧
      t.erase e = u.erase e ∧ P t ∧ Q u := by
  obtain ⟨ts1, ts2, l1, l2, i1, i2, i3, i4⟩ := sameUpTo_spec h
  have hx := (outLike_run n f f (like_refl f) _ _ (viewLike_new heof i1 i2 i3 i4)).res
  obtain ⟨t, c, h1, hp⟩ := h1
  obtain ⟨u, d, h2, hq⟩ := h2
  rw [h1, h2] at hx
  exact ⟨t, u, c, d, h1, h2, hx, hp, hq⟩

/-- Blanks, a comment, other indentation, a continuation: the same tree. -/
example : ∃ t u c d, @run asciiUni 80 .fileInput (PSt.new (Lexer.new (cs! "if a:\n  b = 1\n"))) = .ok t c ∧
    @run asciiUni 80 .fileInput (PSt.new (Lexer.new (cs! "if   a :  # why\n\tb=\\\n1\n"))) = .ok u d ∧
    t.erase Token.bare = u.erase Token.bare ∧ True ∧ True :=
  let _ := asciiUni
  both_trees (k := 12) (fun _ _ _ _ => rfl) (by decide +kernel) (Res.shows (by decide +kernel)) (Res.shows (by decide +kernel))

/-- Texts are compared: `a + b` and `a + c` have trees of the same form, but not the same trees. -/
theorem C53_texts_differ : ∃ t u c d, @run asciiUni 80 .evalInput (PSt.new (Lexer.new (cs! "a + b"))) = .ok t c ∧
    @run asciiUni 80 .evalInput (PSt.new (Lexer.new (cs! "a + c"))) = .ok u d ∧
    t.erase Token.form = u.erase Token.form ∧ t.erase Token.bare ≠ u.erase Token.bare := by
  let _ := asciiUni
  obtain ⟨t, u, c, d, h1, h2, h3, hp, hq⟩ := both_trees (e := Token.form) (k := 4) (n := 80) (f := .evalInput) (src1 := cs! "a + b")
    (src2 := cs! "a + c") (P := fun t => (t.tokens.map Token.bare).any (· == .name 0 0 none (cs! "b")) = true)
    (Q := fun t => (t.tokens.map Token.bare).any (· == .name 0 0 none (cs! "b")) = false)
    (fun _ _ _ _ => rfl) (by decide +kernel) (Res.shows (by decide +kernel)) (Res.shows (by decide +kernel))
  refine ⟨t, u, c, d, h1, h2, h3, fun h => ?_⟩
  have h := congrArg Tree.tokens h
  rw [erase_tokens, erase_tokens] at h
  rw [h, hq] at hp
  exact absurd hp (by simp)

/-- The order of the tokens in a tree, its nodes and the missing fields are part of the form: `-a` and `a` differ. -/
example : (Tree.node .UnaryMinus 0 2 [.tok (.sym .PyMinus 0 1 none)]).erase Token.form ≠ (Tree.tok (.sym .PyMinus 0 1 none)).erase Token.form := by
  simp [Tree.erase]

end Verif
