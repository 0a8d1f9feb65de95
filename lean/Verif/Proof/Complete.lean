import Verif.Proof.Ev

/-!
# Every well formed expression is accepted
-/

namespace Verif

/-- Sub-expressions are smaller. -/
macro "ex_size" : tactic => `(tactic| (simp only [Ex.attr.sizeOf_spec, Ex.call.sizeOf_spec, Ex.index.sizeOf_spec,
  Ex.await.sizeOf_spec, Ex.pow.sizeOf_spec, Ex.un.sizeOf_spec, Ex.bin.sizeOf_spec, Ex.cmp.sizeOf_spec, Ex.not.sizeOf_spec,
  Ex.cond.sizeOf_spec, Ex.lam.sizeOf_spec, Ex.named.sizeOf_spec, Ex.star.sizeOf_spec, Ex.slice.sizeOf_spec,
  Ex.dict1.sizeOf_spec, Ex.dict2.sizeOf_spec]; omega))

/-- The tightest level of an expression that starts with this token. -/
def Kind.starts : Kind → Option Nat
  | .PyFalse | .PyNone | .PyTrue | .PyElipsis | .AtomName | .AtomNumber | .AtomString | .PyLeftParen | .PyLeftBracket
  | .PyLeftCurly => some 0
  | .PyAwait => some 2
  | .PyPlus | .PyMinus | .PyBitInvert => some 4
  | .PyNot => some 12
  | .PyLambda => some 15
  | .PyMul => some 17
  | _ => none

theorem first_word : (e : Ex) → e.Wf → ∃ x r m, e.words = x :: r ∧ x.leaf.kind.starts = some m ∧ m ≤ e.level
  | .name w, _ => ⟨_, _, 0, by rw [Ex.words], rfl, Nat.zero_le _⟩
  | .num w, _ => ⟨_, _, 0, by rw [Ex.words], rfl, Nat.zero_le _⟩
  | .strs [], h => by rw [Ex.Wf] at h; exact absurd rfl h
  | .strs (x :: l), _ => ⟨_, _, 0, by rw [Ex.words, List.map_cons], rfl, Nat.zero_le _⟩
  | .const k, _ => ⟨_, _, 0, by rw [Ex.words], by cases k <;> rfl, Nat.zero_le _⟩
  | .tuple es, _ => ⟨_, _, 0, by rw [Ex.words], rfl, Nat.zero_le _⟩
  | .list es, _ => ⟨_, _, 0, by rw [Ex.words], rfl, Nat.zero_le _⟩
  | .set es, _ => ⟨_, _, 0, by rw [Ex.words], rfl, Nat.zero_le _⟩
  | .dict1 .., _ => ⟨_, _, 0, by rw [Ex.words], rfl, Nat.zero_le _⟩
  | .dict2 .., _ => ⟨_, _, 0, by rw [Ex.words], rfl, Nat.zero_le _⟩
  | .attr e w, h => by
    rw [Ex.Wf] at h
    obtain ⟨x, r, m, h1, h2, h3⟩ := first_word e h.1
    exact ⟨x, _, m, by rw [Ex.words, h1, List.cons_append], h2, Nat.le_trans h3 h.2⟩
  | .call e a, h => by
    rw [Ex.Wf] at h
    obtain ⟨x, r, m, h1, h2, h3⟩ := first_word e h.1
    exact ⟨x, _, m, by rw [Ex.words, h1, List.cons_append], h2, Nat.le_trans h3 h.2.1⟩
  | .index e a, h => by
    rw [Ex.Wf] at h
    obtain ⟨x, r, m, h1, h2, h3⟩ := first_word e h.1
    exact ⟨x, _, m, by rw [Ex.words, h1, List.cons_append], h2, Nat.le_trans h3 h.2.1⟩
  | .await e, _ => ⟨_, _, 2, by rw [Ex.words], rfl, Nat.le_refl _⟩
  | .pow a b, h => by
    rw [Ex.Wf] at h
    obtain ⟨x, r, m, h1, h2, h3⟩ := first_word a h.1
    exact ⟨x, _, m, by rw [Ex.words, h1, List.cons_append], h2, by rw [Ex.level]; omega⟩
  | .un op e, _ => ⟨_, _, 4, by rw [Ex.words], by cases op <;> rfl, Nat.le_refl _⟩
  | .bin op a b, h => by
    rw [Ex.Wf] at h
    obtain ⟨x, r, m, h1, h2, h3⟩ := first_word a h.1
    exact ⟨x, _, m, by rw [Ex.words, h1, List.cons_append], h2, by rw [Ex.level]; omega⟩
  | .cmp op a b, h => by
    rw [Ex.Wf] at h
    obtain ⟨x, r, m, h1, h2, h3⟩ := first_word a h.1
    exact ⟨x, _, m, by rw [Ex.words, h1, List.cons_append], h2, by rw [Ex.level]; omega⟩
  | .not e, _ => ⟨_, _, 12, by rw [Ex.words], rfl, Nat.le_refl _⟩
  | .cond a c b, h => by
    rw [Ex.Wf] at h
    obtain ⟨x, r, m, h1, h2, h3⟩ := first_word a h.1
    exact ⟨x, _, m, by rw [Ex.words, h1, List.cons_append], h2, by rw [Ex.level]; omega⟩
  | .lam e, _ => ⟨_, _, 15, by rw [Ex.words], rfl, Nat.le_refl _⟩
  | .named a b, h => by
    rw [Ex.Wf] at h
    obtain ⟨x, r, m, h1, h2, h3⟩ := first_word a h.1
    exact ⟨x, _, m, by rw [Ex.words, h1, List.cons_append], h2, by rw [Ex.level]; omega⟩
  | .star e, _ => ⟨_, _, 17, by rw [Ex.words], rfl, Nat.le_refl _⟩
  | .slice a b c, h => by
    rw [Ex.Wf] at h
    obtain ⟨x, r, m, h1, h2, h3⟩ := first_word a h.1
    exact ⟨x, _, m, by rw [Ex.words, h1, List.cons_append], h2, by rw [Ex.level]; omega⟩

section
variable [Uni]

/-- The first token of an expression. -/
theorem fed_first {e : Ex} {c c'} (hw : e.Wf) (h : Fed c e.words c') :
    ∃ t m, c.symbol = .ok t ∧ t.kind.starts = some m ∧ m ≤ e.level := by
  obtain ⟨x, r, m, h1, h2, h3⟩ := first_word e hw
  rw [h1] at h
  obtain ⟨t, h4, h5, _⟩ := fed_cons h
  exact ⟨t, m, h4, by rw [kind_of_leaf h5]; exact h2, h3⟩

omit [Uni] in
theorem starts_ne {k k' : Kind} {m n} (h : k.starts = some m) (hm : m ≤ n) (h' : ∀ m', k'.starts = some m' → n < m') : k ≠ k' := by
  rintro rfl
  exact absurd (h' _ h) (by omega)

omit [Uni] in
theorem EndsExpr.mono {n m c} (h : EndsExpr n c) (hm : m ≤ n) : EndsExpr m c := by
  obtain ⟨u, h1, h2⟩ := h
  exact ⟨u, h1, fun k hk => by have := h2 k hk; omega⟩

omit [Uni] in
theorem ends_of_symbol {n c t k} (h : c.symbol = .ok t) (hk : t.kind = k) (hn : ∀ m, k.continues = some m → n < m) :
    EndsExpr n c := ⟨t, h, by rw [hk]; exact hn⟩

omit [Uni] in
theorem continues_ne {k k' : Kind} {n} (h : ∀ m, k.continues = some m → n < m) (h' : ∃ m, k'.continues = some m ∧ m ≤ n) :
    k ≠ k' := by
  rintro rfl
  obtain ⟨m, h1, h2⟩ := h'
  exact absurd (h _ h1) (by omega)

omit [Uni] in
theorem skList_append (a b : List Tree) : skList (a ++ b) = skList a ++ skList b := by
  induction a with
  | nil => rfl
  | cons x a ih => simp only [List.cons_append, skList, ih]

omit [Uni] in
theorem skList_reverse (a : List Tree) : skList a.reverse = (skList a).reverse := by
  induction a with
  | nil => rfl
  | cons x a ih => simp only [List.reverse_cons, skList_append, skList, ih]

omit [Uni] in
theorem skList_length (a : List Tree) : (skList a).length = a.length := by
  induction a with
  | nil => rfl
  | cons x a ih => simp only [skList, List.length_cons, ih]

def levelFn : Nat → Fn
  | 0 => .atom
  | 1 => .atomExpr
  | 2 => .atomExpr
  | 3 => .power
  | 4 => .factor
  | 5 => .term
  | 6 => .arith
  | 7 => .shift
  | 8 => .andExpr
  | 9 => .xorExpr
  | 10 => .expr
  | 11 => .comparison
  | 12 => .notTest
  | 13 => .andTest
  | 14 => .orTest
  | 15 => .test
  | _ => .namedExpression

def levelLoop : Nat → Nat → Tree → Fn
  | 5 => .termLoop
  | 6 => .arithLoop
  | 7 => .shiftLoop
  | 8 => .andExprLoop
  | 9 => .xorExprLoop
  | 10 => .exprLoop
  | 11 => .comparisonLoop
  | 13 => .andTestLoop
  | _ => .orTestLoop

/-- The function of level `n` returns the tree of `e` when it is given the words of `e`. -/
def Parses (n : Nat) (e : Ex) : Prop :=
  ∀ c c', Fed c e.words c' → EndsExpr n c' → ∃ t, t.sk = e.sk ∧ Ev (levelFn n) c t c'

/-- The function of the left associative level `l` gets into its loop with the tree of `e`. -/
def LeftQ (l : Nat) (e : Ex) : Prop :=
  ∀ c c', Fed c e.words c' → EndsExpr (l - 1) c' → ∃ t, t.sk = e.sk ∧
    ∀ r c'', Ev (levelLoop l c.lex.tokStart t) c' r c'' → Ev (levelFn l) c r c''

/-- The trailers of `e` are collected by the trailer loop. -/
def Chain (e : Ex) : Prop :=
  ∀ c c', Fed c e.words c' → EndsExpr 0 c' → ∃ b lst d, b.sk = e.atom ∧ skList lst = e.trailers ∧ Ev .atom c b d ∧
    ∀ s aw r c'', Ev (.trailerLoop s aw b lst) c' r c'' → Ev (.trailerLoop s aw b []) d r c''

structure Good' (e : Ex) : Prop where
  parses : ∀ n, e.level ≤ n → n ≤ 16 → Parses n e
  chain : e.level ≤ 1 → Chain e
  left : ∀ l ∈ [5, 6, 7, 8, 9, 10, 11, 13, 14], e.level ≤ l → LeftQ l e

/-! ### Which expressions have which level -/

omit [Uni] in
theorem level_pow {e : Ex} (h : e.level = 3) : ∃ a b, e = .pow a b := by
  cases e <;> simp [Ex.level] at h
  case pow a b => exact ⟨a, b, rfl⟩
  case bin op _ _ => cases op <;> simp [BinOp.level] at h

omit [Uni] in
theorem level_await {e : Ex} (h : e.level = 2) : ∃ a, e = .await a := by
  cases e <;> simp [Ex.level] at h
  case await a => exact ⟨a, rfl⟩
  case bin op _ _ => cases op <;> simp [BinOp.level] at h

omit [Uni] in
theorem level_un {e : Ex} (h : e.level = 4) : ∃ op a, e = .un op a := by
  cases e <;> simp [Ex.level] at h
  case un op a => exact ⟨op, a, rfl⟩
  case bin op _ _ => cases op <;> simp [BinOp.level] at h

omit [Uni] in
theorem level_bin {e : Ex} (h : e.level ∈ [5, 6, 7, 8, 9, 10, 13, 14]) : ∃ op a b, e = .bin op a b := by
  cases e <;> simp [Ex.level] at h
  case bin op a b => exact ⟨op, a, b, rfl⟩

omit [Uni] in
theorem level_cmp {e : Ex} (h : e.level = 11) : ∃ op a b, e = .cmp op a b := by
  cases e <;> simp [Ex.level] at h
  case cmp op a b => exact ⟨op, a, b, rfl⟩
  case bin op _ _ => cases op <;> simp [BinOp.level] at h

omit [Uni] in
theorem level_not {e : Ex} (h : e.level = 12) : ∃ a, e = .not a := by
  cases e <;> simp [Ex.level] at h
  case not a => exact ⟨a, rfl⟩
  case bin op _ _ => cases op <;> simp [BinOp.level] at h

omit [Uni] in
theorem level_test {e : Ex} (h : e.level = 15) : (∃ a c b, e = .cond a c b) ∨ ∃ a, e = .lam a := by
  cases e <;> simp [Ex.level] at h
  case cond a c b => exact .inl ⟨a, c, b, rfl⟩
  case lam a => exact .inr ⟨a, rfl⟩
  case bin op _ _ => cases op <;> simp [BinOp.level] at h

omit [Uni] in
theorem level_named {e : Ex} (h : e.level = 16) : ∃ a b, e = .named a b := by
  cases e <;> simp [Ex.level] at h
  case named a b => exact ⟨a, b, rfl⟩
  case bin op _ _ => cases op <;> simp [BinOp.level] at h

omit [Uni] in
theorem level_star {e : Ex} (h : e.level = 17) : ∃ a, e = .star a := by
  cases e <;> simp [Ex.level] at h
  case star a => exact ⟨a, rfl⟩
  case bin op _ _ => cases op <;> simp [BinOp.level] at h

omit [Uni] in
theorem level_slice {e : Ex} (h : e.level = 18) : ∃ a b c, e = .slice a b c := by
  cases e <;> simp [Ex.level] at h
  case slice a b c => exact ⟨a, b, c, rfl⟩
  case bin op _ _ => cases op <;> simp [BinOp.level] at h

/-! ### Chains -/

omit [Uni] in
theorem sk_chain {e : Ex} (h : e.level ≤ 1) : e.sk = atomWith e.atom e.trailers := by
  cases e <;> simp [Ex.level] at h <;> try (simp only [Ex.sk, Ex.atom, Ex.trailers, atomWith]; done)
  case bin op _ _ => cases op <;> simp [BinOp.level] at h

def finTree (s e : Nat) (aw b : Tree) (lst : List Tree) : Tree :=
  match aw, lst with
  | .none, [] => b
  | _, _ => .node .AtomExpr s e [aw, b, .seq lst]

theorem trailerLoop_end {s aw b lst c'} (h : EndsExpr 1 c') :
    Ev (.trailerLoop s aw b lst) c' (finTree s c'.lex.tokStart aw b lst) c' := by
  obtain ⟨u, h1, h2⟩ := h
  refine ev_body ?_
  simp only [body, trailerLoopBody]
  refine evp_bind (evp_sym? h1) ?_
  have n1 : u.kind ≠ .PyLeftParen := continues_ne h2 ⟨1, rfl, Nat.le_refl _⟩
  have n2 : u.kind ≠ .PyLeftBracket := continues_ne h2 ⟨1, rfl, Nat.le_refl _⟩
  have n3 : u.kind ≠ .PyDot := continues_ne h2 ⟨1, rfl, Nat.le_refl _⟩
  simp only [n1, n2, n3, or_self, if_false]
  unfold trailerLoopBody.fin
  cases aw <;> cases lst <;> first | exact evp_pure | exact evp_mk

theorem parses_atomExpr {e : Ex} (hw : e.Wf) (hc : e.level ≤ 1 → Chain e)
    (ih : ∀ e', sizeOf e' < sizeOf e → e'.Wf → Good' e') : e.level ≤ 2 → ∀ n, 1 ≤ n → n ≤ 2 → e.level ≤ n → Parses n e := by
  intro hl n hn1 hn2 hn c c' hf he
  have hfn : levelFn n = .atomExpr := by
    rcases (by omega : n = 1 ∨ n = 2) with rfl | rfl <;> rfl
  rw [hfn]
  by_cases h1 : e.level ≤ 1
  · obtain ⟨b, lst, d, hb, hlst, ha, hloop⟩ := hc h1 c c' hf (he.mono (by omega))
    obtain ⟨u, m, hu, hs, hm⟩ := fed_first hw hf
    have hE := trailerLoop_end (s := c.lex.tokStart) (aw := .none) (b := b) (lst := lst) (he.mono hn1)
    refine ⟨_, ?_, ev_body (evp_bind evp_here (evp_bind (evp_symAt hu)
      (?_ : EvP _ c (finTree c.lex.tokStart c'.lex.tokStart .none b lst) c')))⟩
    rotate_left
    · have n1 : u.kind ≠ .PyAwait := starts_ne hs hm (by intro m' h'; cases h'; omega)
      simp only [n1, if_false]
      exact evp_bind evp_pure (evp_bind (evp_parse ha) (evp_parse (hloop _ _ _ _ hE)))
    · rw [sk_chain h1, ← hb, ← hlst]
      cases lst with
      | nil => rfl
      | cons x l => simp only [finTree, Tree.sk, skList, atomWith]
  · obtain ⟨a, rfl⟩ := level_await (by omega : e.level = 2)
    rw [Ex.Wf] at hw
    rw [Ex.words] at hf
    obtain ⟨t, ht, hleaf, hf⟩ := fed_cons hf
    obtain ⟨b, lst, d, hb, hlst, ha, hloop⟩ := (ih a (by ex_size) hw.1).chain hw.2 _ _ hf (he.mono (by omega))
    have hE := trailerLoop_end (s := c.lex.tokStart) (aw := .tok t) (b := b) (lst := lst) (he.mono hn1)
    refine ⟨_, ?_, ev_body (evp_bind evp_here (evp_bind (evp_symAt ht)
      (?_ : EvP _ c (.node .AtomExpr c.lex.tokStart c'.lex.tokStart [Tree.tok t, b, .seq lst]) c')))⟩
    rotate_left
    · have n1 : t.kind = .PyAwait := kind_of_leaf hleaf
      simp only [n1, if_true]
      exact evp_bind evp_next (evp_bind evp_pure (evp_bind (evp_parse ha) (evp_parse (hloop _ _ _ _ hE))))
    · cases lst <;> simp only [Tree.sk, skList, hb, ← hlst, Ex.sk, hleaf, Lexeme.leaf, kd]

/-! ### Power, unary operators, `not`, conditional, `lambda`, `:=` -/

theorem parses_power {e : Ex} (hw : e.Wf) (p2 : e.level ≤ 2 → Parses 2 e)
    (ih : ∀ e', sizeOf e' < sizeOf e → e'.Wf → Good' e') : e.level ≤ 3 → Parses 3 e := by
  intro hl c c' hf he
  by_cases h1 : e.level ≤ 2
  · obtain ⟨t, ht, hev⟩ := p2 h1 c c' hf (he.mono (by omega))
    obtain ⟨u, hu, hk⟩ := he
    refine ⟨t, ht, ev_body ?_⟩
    simp only [levelFn, body, powerBody]
    refine evp_bind evp_here (evp_bind (evp_parse hev) (evp_bind (evp_symAt hu) ?_))
    have n1 : u.kind ≠ .PyPower := continues_ne hk ⟨3, rfl, Nat.le_refl _⟩
    simp only [n1, if_false]
    exact evp_pure
  · obtain ⟨a, b, rfl⟩ := level_pow (by omega : e.level = 3)
    rw [Ex.Wf] at hw
    rw [Ex.words] at hf
    obtain ⟨d, hfa, hf⟩ := fed_append.1 hf
    obtain ⟨t, ht, hleaf, hfb⟩ := fed_cons hf
    have hk : t.kind = .PyPower := kind_of_leaf hleaf
    obtain ⟨ta, hta, ea⟩ := (ih a (by ex_size) hw.1).parses 2 hw.2.2.1 (by omega) c d hfa
      (ends_of_symbol ht hk (by intro m h; cases h; omega))
    obtain ⟨tb, htb, eb⟩ := (ih b (by ex_size) hw.2.1).parses 4 hw.2.2.2 (by omega) _ _ hfb
      (by
        obtain ⟨u, hu, hk⟩ := he
        refine ⟨u, hu, fun m hm => ?_⟩
        have := hk m hm
        cases hku : u.kind <;> rw [hku] at hm <;> simp [Kind.continues] at hm <;> omega)
    refine ⟨.node .PowerExpr c.lex.tokStart c'.lex.tokStart [ta, .tok t, tb], ?_, ev_body ?_⟩
    rotate_left
    · simp only [levelFn, body, powerBody]
      refine evp_bind evp_here (evp_bind (evp_parse ea) (evp_bind (evp_symAt ht) ?_))
      simp only [hk, if_true]
      exact evp_bind evp_next (evp_bind (evp_parse eb) evp_mk)
    · simp only [Tree.sk, skList, Ex.sk, hta, htb, hleaf, Lexeme.leaf, kd]

theorem parses_factor {e : Ex} (hw : e.Wf) (p3 : e.level ≤ 3 → Parses 3 e)
    (ih : ∀ e', sizeOf e' < sizeOf e → e'.Wf → Good' e') : e.level ≤ 4 → Parses 4 e := by
  intro hl c c' hf he
  by_cases h1 : e.level ≤ 3
  · obtain ⟨t, ht, hev⟩ := p3 h1 c c' hf (he.mono (by omega))
    obtain ⟨u, m, hu, hs, hm⟩ := fed_first hw hf
    refine ⟨t, ht, ev_body ?_⟩
    simp only [levelFn, body, factorBody]
    refine evp_bind evp_here (evp_bind (evp_symAt hu) ?_)
    have n1 : u.kind ≠ .PyPlus := starts_ne hs hm (by intro m' h'; cases h'; omega)
    have n2 : u.kind ≠ .PyMinus := starts_ne hs hm (by intro m' h'; cases h'; omega)
    have n3 : u.kind ≠ .PyBitInvert := starts_ne hs hm (by intro m' h'; cases h'; omega)
    simp only [n1, n2, n3, if_false]
    exact evp_parse hev
  · obtain ⟨op, a, rfl⟩ := level_un (by omega : e.level = 4)
    rw [Ex.Wf] at hw
    rw [Ex.words] at hf
    obtain ⟨t, ht, hleaf, hf⟩ := fed_cons hf
    obtain ⟨ta, hta, ea⟩ := (ih a (by ex_size) hw.1).parses 4 hw.2 (by omega) _ _ hf he
    have hk := kind_of_leaf hleaf
    refine ⟨.node op.tag c.lex.tokStart c'.lex.tokStart [.tok t, ta], ?_, ev_body ?_⟩
    · simp only [Tree.sk, skList, Ex.sk, hta, hleaf, Lexeme.sk]
    · simp only [levelFn, body, factorBody]
      refine evp_bind evp_here (evp_bind (evp_symAt ht) ?_)
      cases op <;> simp only [UnOp.word, Lexeme.leaf, Leaf.kind] at hk <;>
        simp only [hk, reduceCtorEq, if_true, if_false] <;>
        exact evp_bind evp_next (evp_bind (evp_parse ea) evp_mk)

theorem parses_notTest {e : Ex} (hw : e.Wf) (p : e.level ≤ 11 → Parses 11 e)
    (ih : ∀ e', sizeOf e' < sizeOf e → e'.Wf → Good' e') : e.level ≤ 12 → Parses 12 e := by
  intro hl c c' hf he
  by_cases h1 : e.level ≤ 11
  · obtain ⟨t, ht, hev⟩ := p h1 c c' hf (he.mono (by omega))
    obtain ⟨u, m, hu, hs, hm⟩ := fed_first hw hf
    refine ⟨t, ht, ev_body ?_⟩
    simp only [levelFn, body, notTestBody]
    refine evp_bind evp_here (evp_bind (evp_symAt hu) ?_)
    have n1 : u.kind ≠ .PyNot := starts_ne hs hm (by intro m' h'; cases h'; omega)
    simp only [n1, if_false]
    exact evp_parse hev
  · obtain ⟨a, rfl⟩ := level_not (by omega : e.level = 12)
    rw [Ex.Wf] at hw
    rw [Ex.words] at hf
    obtain ⟨t, ht, hleaf, hf⟩ := fed_cons hf
    obtain ⟨ta, hta, ea⟩ := (ih a (by ex_size) hw.1).parses 12 hw.2 (by omega) _ _ hf he
    have hk : t.kind = .PyNot := kind_of_leaf hleaf
    refine ⟨.node .NotTest c.lex.tokStart c'.lex.tokStart [.tok t, ta], ?_, ev_body ?_⟩
    · simp only [Tree.sk, skList, Ex.sk, hta, hleaf, Lexeme.leaf, kd]
    · simp only [levelFn, body, notTestBody]
      refine evp_bind evp_here (evp_bind (evp_symAt ht) ?_)
      simp only [hk, if_true]
      exact evp_bind evp_next (evp_bind (evp_parse ea) evp_mk)

theorem parses_test {e : Ex} (hw : e.Wf) (p : e.level ≤ 14 → Parses 14 e)
    (ih : ∀ e', sizeOf e' < sizeOf e → e'.Wf → Good' e') : e.level ≤ 15 → Parses 15 e := by
  intro hl c c' hf he
  by_cases h1 : e.level ≤ 14
  · obtain ⟨t, ht, hev⟩ := p h1 c c' hf (he.mono (by omega))
    obtain ⟨u, m, hu, hs, hm⟩ := fed_first hw hf
    obtain ⟨v, hv, hk⟩ := he
    refine ⟨t, ht, ev_body ?_⟩
    simp only [levelFn, body, testBody]
    refine evp_bind evp_here (evp_bind (evp_symHere hu) ?_)
    have n1 : u.kind ≠ .PyLambda := starts_ne hs hm (by intro m' h'; cases h'; omega)
    have n2 : v.kind ≠ .PyIf := continues_ne hk ⟨15, rfl, Nat.le_refl _⟩
    simp only [n1, if_false]
    refine evp_bind (evp_parse hev) (evp_bind (evp_symHere hv) ?_)
    simp only [n2, if_false]
    exact evp_pure
  · rcases level_test (by omega : e.level = 15) with ⟨a, x, b, rfl⟩ | ⟨a, rfl⟩
    · have hw' := hw
      have hf' := hf
      rw [Ex.Wf] at hw
      rw [Ex.words] at hf
      obtain ⟨hwa, hwx, hwb, la, lx, lb⟩ := hw
      obtain ⟨d, hfa, hf⟩ := fed_append.1 hf
      obtain ⟨t, ht, hleaf, hf⟩ := fed_cons hf
      obtain ⟨d', hfx, hf⟩ := fed_append.1 hf
      obtain ⟨t', ht', hleaf', hfb⟩ := fed_cons hf
      have hk : t.kind = .PyIf := kind_of_leaf hleaf
      have hk' : t'.kind = .PyElse := kind_of_leaf hleaf'
      obtain ⟨ta, hta, ea⟩ := (ih a (by ex_size) hwa).parses 14 la (by omega) c d hfa
        (ends_of_symbol ht hk (by intro m h; cases h; omega))
      obtain ⟨tx, htx, ex⟩ := (ih x (by ex_size) hwx).parses 14 lx (by omega) _ _ hfx
        (ends_of_symbol ht' hk' (by intro m h; cases h))
      obtain ⟨tb, htb, eb⟩ := (ih b (by ex_size) hwb).parses 15 lb (by omega) _ _ hfb he
      obtain ⟨u, m, hu, hs, hm⟩ := fed_first hwa hfa
      have n1 : u.kind ≠ .PyLambda := starts_ne hs hm (by intro m' h'; cases h'; omega)
      refine ⟨.node .Test c.lex.tokStart c'.lex.tokStart [ta, .tok t, tx, .tok t', tb], ?_, ev_body ?_⟩
      rotate_left
      · simp only [levelFn, body, testBody]
        refine evp_bind evp_here (evp_bind (evp_symHere hu) ?_)
        simp only [n1, if_false]
        refine evp_bind (evp_parse ea) (evp_bind (evp_symHere ht) ?_)
        simp only [hk, if_true]
        refine evp_bind evp_next (evp_bind (evp_parse ex) (evp_bind (evp_symHere ht') ?_))
        simp only [hk', if_true]
        exact evp_bind evp_next (evp_bind (evp_parse eb) evp_mk)
      · simp only [Tree.sk, skList, Ex.sk, hta, htx, htb, hleaf, hleaf', Lexeme.leaf, kd]
    · rw [Ex.Wf] at hw
      rw [Ex.words] at hf
      obtain ⟨t, ht, hleaf, hf⟩ := fed_cons hf
      obtain ⟨t', ht', hleaf', hf⟩ := fed_cons hf
      have hk : t.kind = .PyLambda := kind_of_leaf hleaf
      have hk' : t'.kind = .PyColon := kind_of_leaf hleaf'
      obtain ⟨ta, hta, ea⟩ := (ih a (by ex_size) hw.1).parses 15 hw.2 (by omega) _ _ hf he
      refine ⟨.node .Lambda c.lex.tokStart c'.lex.tokStart [.tok t, .none, .tok t', ta], ?_, ev_body ?_⟩
      · simp only [Tree.sk, skList, Ex.sk, hta, hleaf, hleaf', Lexeme.leaf, kd]
      · simp only [levelFn, body, testBody]
        refine evp_bind evp_here (evp_bind (evp_symHere ht) ?_)
        simp only [hk, if_true]
        refine evp_parse (ev_body ?_)
        simp only [body, lambdaDefBody]
        refine evp_bind evp_here (evp_bind (evp_symHere ht) (evp_bind evp_next (evp_bind (evp_symHere ht') ?_)))
        simp only [hk', if_true]
        refine evp_bind evp_pure (evp_bind (evp_symHere ht') ?_)
        simp only [hk', if_true]
        exact evp_bind evp_next (evp_bind (evp_parse ea) evp_mk)

theorem parses_named {e : Ex} (hw : e.Wf) (p : e.level ≤ 15 → Parses 15 e)
    (ih : ∀ e', sizeOf e' < sizeOf e → e'.Wf → Good' e') : e.level ≤ 16 → Parses 16 e := by
  intro hl c c' hf he
  by_cases h1 : e.level ≤ 15
  · obtain ⟨t, ht, hev⟩ := p h1 c c' hf (he.mono (by omega))
    obtain ⟨v, hv, hk⟩ := he
    refine ⟨t, ht, ev_body ?_⟩
    simp only [levelFn, body, namedExpressionBody]
    refine evp_bind evp_here (evp_bind (evp_parse hev) (evp_bind (evp_symHere hv) ?_))
    have n2 : v.kind ≠ .PyColonAssign := continues_ne hk ⟨16, rfl, Nat.le_refl _⟩
    simp only [n2, if_false]
    exact evp_pure
  · obtain ⟨a, b, rfl⟩ := level_named (by omega : e.level = 16)
    rw [Ex.Wf] at hw
    rw [Ex.words] at hf
    obtain ⟨hwa, hwb, la, lb⟩ := hw
    obtain ⟨d, hfa, hf⟩ := fed_append.1 hf
    obtain ⟨t, ht, hleaf, hfb⟩ := fed_cons hf
    have hk : t.kind = .PyColonAssign := kind_of_leaf hleaf
    obtain ⟨ta, hta, ea⟩ := (ih a (by ex_size) hwa).parses 15 la (by omega) c d hfa
      (ends_of_symbol ht hk (by intro m h; cases h; omega))
    obtain ⟨tb, htb, eb⟩ := (ih b (by ex_size) hwb).parses 15 lb (by omega) _ _ hfb (he.mono (by omega))
    refine ⟨.node .NamedExpr c.lex.tokStart c'.lex.tokStart [ta, .tok t, tb], ?_, ev_body ?_⟩
    rotate_left
    · simp only [levelFn, body, namedExpressionBody]
      refine evp_bind evp_here (evp_bind (evp_parse ea) (evp_bind (evp_symHere ht) ?_))
      simp only [hk, if_true]
      exact evp_bind evp_next (evp_bind (evp_parse eb) evp_mk)
    · simp only [Tree.sk, skList, Ex.sk, hta, htb, hleaf, Lexeme.leaf, kd]

/-! ### Left associative levels -/

theorem leftQ_low {e : Ex} {l : Nat} (hl : l ∈ [5, 6, 7, 8, 9, 10, 11, 13, 14]) (p : Parses (l - 1) e) : LeftQ l e := by
  intro c c' hf he
  obtain ⟨t, ht, hev⟩ := p c c' hf he
  refine ⟨t, ht, fun r c'' h => ev_body ?_⟩
  simp only [List.mem_cons, List.not_mem_nil, or_false] at hl
  rcases hl with rfl | rfl | rfl | rfl | rfl | rfl | rfl | rfl | rfl <;> exact evp_bind evp_here (evp_bind (evp_parse hev) (evp_parse h))

/-- The loops of the left associative operators other than comparisons. -/
theorem left_step {op : Kind → Option Tag} {operand : Fn} {self : Nat → Tree → Fn} {msg : String}
    (hb : ∀ s t, body (self s t) = leftLoopBody op operand self msg s t) {s : Nat} {l r x : Tree} {tag : Tag}
    {t : Token} {c d d' : PSt} (ht : c.symbol = .ok t) (hk : op t.kind = some tag) (hev : Ev operand c.advance x d)
    (h : Ev (self s (.node tag s d.lex.tokStart [l, .tok t, x])) d r d') : Ev (self s l) c r d' := by
  refine ev_body ?_
  rw [hb, leftLoopBody]
  refine evp_bind (evp_symAt ht) ?_
  simp only [hk]
  exact evp_bind evp_next (evp_bind (evp_parse hev) (evp_bind evp_mk (evp_parse h)))

theorem left_end {op : Kind → Option Tag} {operand : Fn} {self : Nat → Tree → Fn} {msg : String}
    (hb : ∀ s t, body (self s t) = leftLoopBody op operand self msg s t) {s : Nat} {l : Tree} {c : PSt} {u : Token}
    (hu : c.symbol = .ok u) (hk : op u.kind = none) : Ev (self s l) c l c := by
  refine ev_body ?_
  rw [hb, leftLoopBody]
  refine evp_bind (evp_symAt hu) ?_
  simp only [hk]
  exact evp_pure

def levelOp : Nat → Kind → Option Tag
  | 5 => termOp
  | 6 => arithOp
  | 7 => shiftOp
  | 8 => andExprOp
  | 9 => xorExprOp
  | 10 => exprOp
  | 13 => andTestOp
  | _ => orTestOp

def levelMsg : Nat → String
  | 5 => "Expecting symbol in term expression!"
  | 6 => "Expecting symbol in arith expression!"
  | 7 => "Expecting symbol in shift expression!"
  | 8 => "Expecting symbol in and expression!"
  | 9 => "Expecting symbol in xor expression!"
  | 10 => "Expecting symbol in or expression!"
  | _ => "Expecting symbol in and test expression!"

omit [Uni] in
theorem levelLoop_body {l : Nat} (hl : l ∈ [5, 6, 7, 8, 9, 10, 13, 14]) (s : Nat) (t : Tree) :
    body (levelLoop l s t) = leftLoopBody (levelOp l) (levelFn (l - 1)) (levelLoop l) (levelMsg l) s t := by
  simp only [List.mem_cons, List.not_mem_nil, or_false] at hl
  rcases hl with rfl | rfl | rfl | rfl | rfl | rfl | rfl | rfl <;> rfl

omit [Uni] in
theorem levelOp_word {op : BinOp} : levelOp op.level op.word.leaf.kind = some op.tag := by cases op <;> rfl

omit [Uni] in
theorem levelOp_end {l : Nat} (hl : l ∈ [5, 6, 7, 8, 9, 10, 13, 14]) {k : Kind} (h : ∀ m, k.continues = some m → l < m) :
    levelOp l k = none := by
  simp only [List.mem_cons, List.not_mem_nil, or_false] at hl
  rcases hl with rfl | rfl | rfl | rfl | rfl | rfl | rfl | rfl <;> cases k <;> first | rfl | exact absurd (h _ rfl) (by omega)

omit [Uni] in
theorem op_continues (op : BinOp) : op.word.leaf.kind.continues = some op.level := by cases op <;> rfl

omit [Uni] in
theorem op_level (op : BinOp) : op.level ∈ [5, 6, 7, 8, 9, 10, 13, 14] := by cases op <;> simp [BinOp.level]

theorem leftQ_bin {op : BinOp} {a b : Ex} (hw : (Ex.bin op a b).Wf) (ha : Good' a) (hb : Good' b) :
    LeftQ op.level (.bin op a b) := by
  intro c c' hf he
  rw [Ex.Wf] at hw
  rw [Ex.words] at hf
  obtain ⟨hwa, hwb, la, lb⟩ := hw
  obtain ⟨d, hfa, hf⟩ := fed_append.1 hf
  obtain ⟨t, ht, hleaf, hfb⟩ := fed_cons hf
  have hk := kind_of_leaf hleaf
  have hop := op_level op
  have h16 : op.level ≤ 16 := by cases op <;> simp [BinOp.level]
  have hpos : 5 ≤ op.level := by cases op <;> simp [BinOp.level]
  obtain ⟨ta, hta, hloop⟩ := ha.left op.level (by cases op <;> simp [BinOp.level]) la c d hfa
    ⟨t, ht, fun m hm => by rw [hk, op_continues] at hm; cases hm; omega⟩
  obtain ⟨tb, htb, eb⟩ := hb.parses (op.level - 1) (by omega) (by omega) _ _ hfb he
  refine ⟨.node op.tag c.lex.tokStart c'.lex.tokStart [ta, .tok t, tb], ?_, fun r c'' h => hloop r c'' ?_⟩
  · simp only [Tree.sk, skList, Ex.sk, hta, htb, hleaf, Lexeme.sk]
  · exact left_step (levelLoop_body hop) ht (by rw [hk]; exact levelOp_word) eb h

theorem parses_left {e : Ex} {l : Nat} (hl : l ∈ [5, 6, 7, 8, 9, 10, 13, 14]) (q : LeftQ l e) : Parses l e := by
  intro c c' hf he
  obtain ⟨t, ht, hloop⟩ := q c c' hf (he.mono (by omega))
  obtain ⟨u, hu, hk⟩ := he
  exact ⟨t, ht, hloop _ _ (left_end (levelLoop_body hl) hu (levelOp_end hl hk))⟩

/-- Comparisons. -/
theorem leftQ_cmp {op : CmpOp} {a b : Ex} (hw : (Ex.cmp op a b).Wf) (ha : Good' a) (hb : Good' b) :
    LeftQ 11 (.cmp op a b) := by
  intro c c' hf he
  rw [Ex.Wf] at hw
  rw [Ex.words] at hf
  obtain ⟨hwa, hwb, la, lb⟩ := hw
  obtain ⟨d, hfa, hf⟩ := fed_append.1 hf
  have key : ∀ x xs, op.words = x :: xs → x.leaf.kind.continues = some 11 → ∃ t, d.symbol = .ok t ∧ t.leaf = x.leaf ∧
      Fed d.advance (xs ++ b.words) c' ∧ ∃ ta : Tree, ta.sk = a.sk ∧
        ∀ r c'', Ev (levelLoop 11 c.lex.tokStart ta) d r c'' → Ev (levelFn 11) c r c'' := by
    intro x xs hx hk
    rw [hx] at hf
    obtain ⟨t, ht, hleaf, hf⟩ := fed_cons hf
    obtain ⟨ta, hta, hloop⟩ := ha.left 11 (by simp) la c d hfa
      ⟨t, ht, fun m hm => by rw [kind_of_leaf hleaf, hk] at hm; cases hm; omega⟩
    exact ⟨t, ht, hleaf, hf, ta, hta, hloop⟩
  have one : ∀ x tag, op.words = [x] → x.leaf.kind.continues = some 11 → compOp x.leaf.kind = some tag → op.tag = tag →
      ∃ t, t.sk = (Ex.cmp op a b).sk ∧
      ∀ r c'', Ev (levelLoop 11 c.lex.tokStart t) c' r c'' → Ev (levelFn 11) c r c'' := by
    intro x tag hx hk hc htag
    obtain ⟨t, ht, hleaf, hf, ta, hta, hloop⟩ := key x [] hx hk
    obtain ⟨tb, htb, eb⟩ := hb.parses 10 lb (by omega) _ _ hf he
    refine ⟨.node tag c.lex.tokStart c'.lex.tokStart [ta, .tok t, tb], ?_, fun r c'' h => hloop r c'' (ev_body ?_)⟩
    · simp only [Tree.sk, skList, Ex.sk, hta, htb, hx, htag, hleaf, Lexeme.sk, List.map_cons, List.map_nil, List.cons_append,
        List.nil_append]
    · simp only [levelLoop, body, comparisonLoopBody]
      refine evp_bind (evp_symAt ht) ?_
      rw [kind_of_leaf hleaf, hc]
      exact evp_bind evp_next (evp_bind (evp_parse eb) (evp_bind evp_mk (evp_parse h)))
  cases op
  case lt | le | eq | ge | gt | ne | in_ => exact one _ _ rfl rfl rfl rfl
  case is =>
    obtain ⟨t, ht, hleaf, hf, ta, hta, hloop⟩ := key _ [] rfl rfl
    obtain ⟨tb, htb, eb⟩ := hb.parses 10 lb (by omega) _ _ hf he
    obtain ⟨u, m, hu, hs, hm⟩ := fed_first hwb hf
    have n1 : u.kind ≠ .PyNot := starts_ne hs hm (by intro m' h'; cases h'; omega)
    refine ⟨.node .IsComparison c.lex.tokStart c'.lex.tokStart [ta, .tok t, tb], ?_, fun r c'' h => hloop r c'' (ev_body ?_)⟩
    · simp only [Tree.sk, skList, Ex.sk, hta, htb, CmpOp.words, CmpOp.tag, hleaf, Lexeme.sk, List.map_cons, List.map_nil, List.cons_append,
        List.nil_append]
    · simp only [levelLoop, body, comparisonLoopBody]
      refine evp_bind (evp_symAt ht) ?_
      have hk : t.kind = .PyIs := kind_of_leaf hleaf
      simp only [hk, compOp, if_true]
      refine evp_bind evp_next (evp_bind (evp_symAt hu) ?_)
      simp only [n1, if_false]
      exact evp_bind (evp_parse eb) (evp_bind evp_mk (evp_parse h))
  case isNot =>
    obtain ⟨t, ht, hleaf, hf, ta, hta, hloop⟩ := key _ _ rfl rfl
    obtain ⟨t', ht', hleaf', hf⟩ := fed_cons hf
    obtain ⟨tb, htb, eb⟩ := hb.parses 10 lb (by omega) _ _ hf he
    refine ⟨.node .IsNotComparison c.lex.tokStart c'.lex.tokStart [ta, .tok t, .tok t', tb], ?_, fun r c'' h => hloop r c'' (ev_body ?_)⟩
    · simp only [Tree.sk, skList, Ex.sk, hta, htb, CmpOp.words, CmpOp.tag, hleaf, hleaf', Lexeme.sk, List.map_cons, List.map_nil, List.cons_append,
        List.nil_append]
    · simp only [levelLoop, body, comparisonLoopBody]
      refine evp_bind (evp_symAt ht) ?_
      have hk : t.kind = .PyIs := kind_of_leaf hleaf
      have hk' : t'.kind = .PyNot := kind_of_leaf hleaf'
      simp only [hk, compOp, if_true]
      refine evp_bind evp_next (evp_bind (evp_symAt ht') ?_)
      simp only [hk', if_true]
      exact evp_bind evp_next (evp_bind (evp_parse eb) (evp_bind evp_mk (evp_parse h)))
  case notIn =>
    obtain ⟨t, ht, hleaf, hf, ta, hta, hloop⟩ := key _ _ rfl rfl
    obtain ⟨t', ht', hleaf', hf⟩ := fed_cons hf
    obtain ⟨tb, htb, eb⟩ := hb.parses 10 lb (by omega) _ _ hf he
    refine ⟨.node .NotInComparison c.lex.tokStart c'.lex.tokStart [ta, .tok t, .tok t', tb], ?_, fun r c'' h => hloop r c'' (ev_body ?_)⟩
    · simp only [Tree.sk, skList, Ex.sk, hta, htb, CmpOp.words, CmpOp.tag, hleaf, hleaf', Lexeme.sk, List.map_cons, List.map_nil, List.cons_append,
        List.nil_append]
    · simp only [levelLoop, body, comparisonLoopBody]
      refine evp_bind (evp_symAt ht) ?_
      have hk : t.kind = .PyNot := kind_of_leaf hleaf
      have hk' : t'.kind = .PyIn := kind_of_leaf hleaf'
      simp only [hk, compOp, reduceCtorEq, if_true, if_false]
      refine evp_bind evp_next (evp_bind (evp_symAt ht') ?_)
      simp only [hk', if_true]
      exact evp_bind evp_next (evp_bind (evp_parse eb) (evp_bind evp_mk (evp_parse h)))

theorem parses_cmp {e : Ex} (q : LeftQ 11 e) : Parses 11 e := by
  intro c c' hf he
  obtain ⟨t, ht, hloop⟩ := q c c' hf (he.mono (by omega))
  obtain ⟨u, hu, hk⟩ := he
  refine ⟨t, ht, hloop _ _ (ev_body ?_)⟩
  simp only [levelLoop, body, comparisonLoopBody]
  refine evp_bind (evp_symAt hu) ?_
  have h1 : compOp u.kind = none := by
    revert hk
    cases u.kind <;> intro hk <;> first | rfl | exact absurd (hk _ rfl) (by omega)
  have n1 : u.kind ≠ .PyIs := continues_ne hk ⟨11, rfl, Nat.le_refl _⟩
  have n2 : u.kind ≠ .PyNot := continues_ne hk ⟨11, rfl, Nat.le_refl _⟩
  simp only [h1, n1, n2, if_false]
  exact evp_pure

end
end Verif
