import Verif.Proof.CompleteList

/-!
# Every well formed simple statement is accepted
-/

namespace Verif

theorem skList_map (l : List Tree) : skList l = l.map Tree.sk := by
  induction l with
  | nil => rfl
  | cons x l ih => simp only [skList, List.map_cons, ih]

theorem sk_seps {seps : List Token} {x : Leaf} (h : ∀ t ∈ seps, t.leaf = x) :
    skList (seps.map .tok) = List.replicate seps.length (.leaf x) := by
  induction seps with
  | nil => rfl
  | cons t l ih =>
    simp only [List.map_cons, skList, Tree.sk, List.length_cons, List.replicate_succ]
    rw [h t (by simp), ih (fun u hu => h u (by simp [hu]))]

theorem sk_seps_reverse {seps : List Token} {x : Leaf} (h : ∀ t ∈ seps, t.leaf = x) :
    skList (seps.reverse.map .tok) = List.replicate seps.length (.leaf x) := by
  rw [sk_seps (x := x) (fun t ht => h t (by simpa using ht)), List.length_reverse]

/-- Walks over the fields of a tree. -/
macro "sk_simp" "[" ls:Lean.Parser.Tactic.simpLemma,* "]" : tactic =>
  `(tactic| simp only [Tree.sk, skList, Lexeme.leaf, Lexeme.sk, kd, nm, Tree.toks, $ls,*])

/-- A conditional on the kind of a token. -/
macro "kd_simp" "[" ls:Lean.Parser.Tactic.simpLemma,* "]" : tactic =>
  `(tactic| simp only [reduceCtorEq, if_true, if_false, or_self, or_false, false_or, or_true, true_or, List.mem_cons, List.not_mem_nil, $ls,*])

section
variable [Uni]

/-- Loops over elements with a word before each of them. -/
theorem after_loop {α β : Type} {sep : Lexeme} {f : α → List Lexeme} {g : α → Sk} {sk : β → Sk}
    {loop : List β → List Token → Fn} {Item : PSt → β → PSt → Prop} {Ok : PSt → Prop}
    (hstep : ∀ nodes seps c t x d r c', c.symbol = .ok t → t.leaf = sep.leaf → Item c.advance x d →
      Ev (loop (nodes ++ [x]) (seps ++ [t])) d r c' → Ev (loop nodes seps) c r c')
    (hsep : ∀ (c : PSt) t, c.symbol = .ok t → t.leaf = sep.leaf → Ok c) {c' : PSt} (hend : Ok c') :
    ∀ xs, (∀ a ∈ xs, ∀ c c', Fed c (f a) c' → Ok c' → ∃ x, sk x = g a ∧ Item c x c') →
      ∀ nodes seps c, (∀ t ∈ seps, t.leaf = sep.leaf) → Fed c (eachAfter sep f xs) c' →
        Ok c ∧ ∃ (nodes' : List β) (seps' : List Token), nodes'.map sk = nodes.map sk ++ xs.map g ∧
          (∀ t ∈ seps', t.leaf = sep.leaf) ∧ seps'.length = seps.length + xs.length ∧
          ∀ r c'', Ev (loop nodes' seps') c' r c'' → Ev (loop nodes seps) c r c'' := by
  intro xs
  induction xs with
  | nil =>
    intro _ nodes seps c hseps h
    rw [eachAfter] at h
    cases fed_nil h
    exact ⟨hend, nodes, seps, by simp, hseps, by simp, fun _ _ h => h⟩
  | cons a xs ih =>
    intro hi nodes seps c hseps h
    rw [eachAfter] at h
    obtain ⟨t, h1, h2, h⟩ := fed_cons h
    obtain ⟨d, h3, h4⟩ := fed_append.1 h
    have hends := (ih (fun e' he' => hi e' (by simp [he'])) nodes seps d hseps h4).1
    obtain ⟨x, hx, hix⟩ := hi a (by simp) _ _ h3 hends
    obtain ⟨_, nodes', seps', g1, g2, g3, g4⟩ := ih (fun e' he' => hi e' (by simp [he'])) (nodes ++ [x]) (seps ++ [t]) d
      (by
        intro u hu
        rcases List.mem_append.1 hu with hu | hu
        · exact hseps u hu
        · rw [List.mem_singleton.1 hu]; exact h2) h4
    refine ⟨hsep c t h1 h2, nodes', seps', ?_, g2, ?_,
      fun r c'' he => hstep nodes seps c t x d r c'' h1 h2 hix (g4 r c'' he)⟩
    · rw [g1]
      simp only [List.map_append, List.map_cons, List.map_nil, hx, List.append_assoc, List.cons_append, List.nil_append]
    · rw [g3]; simp only [List.length_append, List.length_cons, List.length_nil]; omega

/-- The end of a simple statement. -/
def lineEnd : List Kind := [.Newline, .PySemiColon, .EOF]

omit [Uni] in
theorem lineEnd_star {k : Kind} (h : k ∈ lineEnd) : k ∈ starListEnd := by
  revert h; simp only [lineEnd, starListEnd, List.mem_cons, List.not_mem_nil, or_false]
  rintro (rfl | rfl | rfl) <;> simp

omit [Uni] in
theorem starListEnd_endsExpr {c : PSt} {u : Token} (hu : c.symbol = .ok u) (hk : u.kind ∈ starListEnd) (n : Nat) : EndsExpr n c :=
  ⟨u, hu, fun m hm => by rw [(starListEnd_ends hk).1] at hm; cases hm⟩

theorem test_ev {e : Ex} (hw : e.Wf) (hl : e.level ≤ 15) {c c' : PSt} (hf : Fed c e.words c') (he : EndsExpr 15 c') :
    ∃ t : Tree, t.sk = e.sk ∧ Ev .test c t c' := (ex_good hw).parses 15 hl (by omega) c c' hf he

theorem yield_ev {l : Exprs} (hw : l.Wf true) {c c' : PSt} (hf : Fed c (wYield :: l.words) c') {u : Token} (hu : c'.symbol = .ok u)
    (hk : u.kind ∈ starListEnd) : ∃ t : Tree, t.sk = .node .YieldExpr [kd .PyYield, l.starSk] ∧ Ev .yieldExpr c t c' := by
  obtain ⟨t, h1, l1, hf⟩ := fed_cons hf
  have k1 : t.kind = .PyYield := kind_of_leaf l1
  obtain ⟨r, hr, er⟩ := testlistStar_ev hw hf hu hk
  obtain ⟨v, m, hv, hs⟩ : ∃ v m, c.advance.symbol = .ok v ∧ v.kind.starts = some m := by
    obtain ⟨es, b⟩ := l
    obtain ⟨hne, hw⟩ := hw
    cases es with
    | nil => exact absurd rfl hne
    | cons e es =>
      rw [exprs_words] at hf
      obtain ⟨d, hf1, _⟩ := fed_append.1 hf
      obtain ⟨v, m, hv, hs, _⟩ := fed_first (hw e (by simp)).1 hf1
      exact ⟨v, m, hv, hs⟩
  have n1 : v.kind ≠ .PyFrom := by intro h; rw [h] at hs; cases hs
  refine ⟨.node .YieldExpr c.lex.tokStart c'.lex.tokStart [.tok t, r], ?_, ev_body ?_⟩
  · sk_simp [hr, l1, wYield]
  · simp only [body, yieldExprBody]
    refine evp_bind evp_here (evp_bind (evp_symHere h1) ?_)
    simp only [k1, if_true]
    refine evp_bind evp_next (evp_bind (evp_symHere hv) ?_)
    simp only [n1, if_false]
    exact evp_bind (evp_parse er) evp_mk

theorem yieldFrom_ev {e : Ex} (hw : e.Wf) (hl : e.level ≤ 15) {c c' : PSt} (hf : Fed c (wYield :: wFrom :: e.words) c')
    (he : EndsExpr 15 c') : ∃ t : Tree, t.sk = .node .YieldFromExpr [kd .PyYield, kd .PyFrom, e.sk] ∧ Ev .yieldExpr c t c' := by
  obtain ⟨t, h1, l1, hf⟩ := fed_cons hf
  obtain ⟨t2, h2, l2, hf⟩ := fed_cons hf
  have k1 : t.kind = .PyYield := kind_of_leaf l1
  have k2 : t2.kind = .PyFrom := kind_of_leaf l2
  obtain ⟨r, hr, er⟩ := test_ev hw hl hf he
  refine ⟨.node .YieldFromExpr c.lex.tokStart c'.lex.tokStart [.tok t, .tok t2, r], ?_, ev_body ?_⟩
  · sk_simp [hr, l1, l2, wYield, wFrom]
  · simp only [body, yieldExprBody]
    refine evp_bind evp_here (evp_bind (evp_symHere h1) ?_)
    simp only [k1, if_true]
    refine evp_bind evp_next (evp_bind (evp_symHere h2) ?_)
    simp only [k2, if_true]
    exact evp_bind evp_next (evp_bind (evp_parse er) evp_mk)

omit [Uni] in
theorem exprs_first {star : Bool} {l : Exprs} (hw : l.Wf star) : ∃ x r m, l.words = x :: r ∧ x.leaf.kind.starts = some m := by
  obtain ⟨es, b⟩ := l
  obtain ⟨hne, hw⟩ := hw
  cases es with
  | nil => exact absurd rfl hne
  | cons e es =>
    obtain ⟨x, r, m, h1, h2, _⟩ := first_word e (hw e (by simp)).1
    exact ⟨x, r ++ (tailWords es ++ lastComma b), m, by rw [exprs_words, h1, List.cons_append], h2⟩

theorem exprs_fed_first {star : Bool} {l : Exprs} (hw : l.Wf star) {c c'} (hf : Fed c l.words c') :
    ∃ v m, c.symbol = .ok v ∧ v.kind.starts = some m := by
  obtain ⟨x, r, m, h1, h2⟩ := exprs_first hw
  rw [h1] at hf
  obtain ⟨t, h3, h4, _⟩ := fed_cons hf
  exact ⟨t, m, h3, by rw [kind_of_leaf h4]; exact h2⟩

theorem rhs_ev {r : Rhs} (hw : r.Wf) {s : Nat} {c c' : PSt} (hf : Fed c r.words c') {u : Token} (hu : c'.symbol = .ok u)
    (hk : u.kind ∈ lineEnd ∨ (r.noComma ∧ u.kind = .PyAssign)) : ∃ t : Tree, t.sk = r.sk ∧ EvP (yieldOrTestlist s) c t c' := by
  have hk' : u.kind ∈ starListEnd := by
    rcases hk with h | h
    · exact lineEnd_star h
    · rw [h.2]; simp [starListEnd]
  cases r with
  | exprs l =>
    obtain ⟨t, ht, et⟩ := testlist_ev (l := l) hw hf hu hk' (by
      intro hc
      rcases hk with h | h
      · simpa [lineEnd] using h
      · rw [show l.comma = false from h.1] at hc; cases hc)
    obtain ⟨v, m, hv, hs⟩ := exprs_fed_first (l := l) hw hf
    refine ⟨t, ht, evp_bind (evp_symAt hv) ?_⟩
    have n1 : v.kind ≠ .PyYield := by intro h; rw [h] at hs; cases hs
    simp only [n1, if_false]
    exact evp_parse et
  | yield l =>
    obtain ⟨t, ht, et⟩ := yield_ev (l := l) hw hf hu hk'
    obtain ⟨v, hv, lv, _⟩ := fed_cons hf
    refine ⟨t, ht, evp_bind (evp_symAt hv) ?_⟩
    have n1 : v.kind = .PyYield := kind_of_leaf lv
    simp only [n1, if_true]
    exact evp_parse et
  | yieldFrom e =>
    obtain ⟨t, ht, et⟩ := yieldFrom_ev (e := e) hw.1 hw.2 hf (starListEnd_endsExpr hu hk' _)
    obtain ⟨v, hv, lv, _⟩ := fed_cons hf
    refine ⟨t, ht, evp_bind (evp_symAt hv) ?_⟩
    have n1 : v.kind = .PyYield := kind_of_leaf lv
    simp only [n1, if_true]
    exact evp_parse et

def assignSk (x : Rhs) : Sk := .seq [kd .PyAssign, x.sk]

theorem assign_loop {s : Nat} {left : Tree} {c' : PSt} {u : Token} (hu : c'.symbol = .ok u) (hk : u.kind ∈ lineEnd) :
    ∀ rs r nodes c, (∀ x ∈ r :: rs, x.Wf) → (∀ x ∈ initRhs r rs, x.noComma) →
      Fed c (wAssign :: (r.words ++ eachAfter wAssign Rhs.words rs)) c' →
      ∃ nodes' : List Tree, skList nodes' = skList nodes ++ (r :: rs).map assignSk ∧
        Ev (.assignLoop s left nodes) c (.node .AssignmentStmt s c'.lex.tokStart [left, .seq nodes', .none]) c' := by
  intro rs
  induction rs with
  | nil =>
    intro r nodes c hw hc hf
    obtain ⟨t, h1, l1, hf⟩ := fed_cons hf
    rw [eachAfter, List.append_nil] at hf
    obtain ⟨x, hx, ex⟩ := rhs_ev (hw r (by simp)) (s := s) hf hu (.inl hk)
    have k1 : t.kind = .PyAssign := kind_of_leaf l1
    refine ⟨nodes ++ [.seq [.tok t, x]], ?_, ev_body ?_⟩
    · rw [skList_append]; sk_simp [hx, l1, wAssign, List.map_cons, List.map_nil, assignSk]
    · simp only [body, assignLoopBody]
      refine evp_bind (evp_symAt h1) ?_
      simp only [k1, if_true]
      refine evp_bind evp_next (evp_bind ex (evp_parse (ev_body ?_)))
      simp only [body, assignLoopBody]
      refine evp_bind (evp_symAt hu) ?_
      have n1 : u.kind ≠ .PyAssign := by intro h; rw [h] at hk; simp [lineEnd] at hk
      have n2 : u.kind ≠ .TypeComment := by intro h; rw [h] at hk; simp [lineEnd] at hk
      simp only [n1, n2, if_false]
      exact evp_mk
  | cons r' rs ih =>
    intro r nodes c hw hc hf
    obtain ⟨t, h1, l1, hf⟩ := fed_cons hf
    obtain ⟨d, hf1, hf2⟩ := fed_append.1 hf
    rw [eachAfter] at hf2
    obtain ⟨t2, h2, l2, _⟩ := fed_cons hf2
    obtain ⟨x, hx, ex⟩ := rhs_ev (hw r (by simp)) (s := s) hf1 h2
      (.inr ⟨hc r (by simp [initRhs]), kind_of_leaf l2⟩)
    have k1 : t.kind = .PyAssign := kind_of_leaf l1
    obtain ⟨nodes', g1, g2⟩ := ih r' (nodes ++ [.seq [.tok t, x]]) d (fun y hy => hw y (by simp [List.mem_cons.1 hy]))
      (fun y hy => hc y (by rw [initRhs]; simp [hy])) hf2
    refine ⟨nodes', ?_, ev_body ?_⟩
    · rw [g1, skList_append]
      sk_simp [hx, l1, wAssign, List.map_cons, assignSk, List.append_assoc, List.cons_append, List.nil_append]
    · simp only [body, assignLoopBody]
      refine evp_bind (evp_symAt h1) ?_
      simp only [k1, if_true]
      exact evp_bind evp_next (evp_bind ex (evp_parse g2))

/-! ### The expression statements -/

omit [Uni] in
theorem starts_small {k : Kind} {m : Nat} (h : k.starts = some m) :
    k ≠ .PyDel ∧ k ≠ .PyPass ∧ k ∉ [Kind.PyBreak, .PyContinue, .PyReturn, .PyRaise, .PyYield] ∧ k ≠ .PyImport ∧ k ≠ .PyFrom ∧
      k ≠ .PyGlobal ∧ k ≠ .PyNonLocal ∧ k ≠ .PyAssert := by
  revert h; cases k <;> simp [Kind.starts]

theorem exprStmt_small {star : Bool} {l : Exprs} (hw : l.Wf star) {xs} {c c' d t} (hf : Fed c (l.words ++ xs) d) (h : Ev .exprStmt c t c') :
    Ev .smallStmt c t c' := by
  obtain ⟨d', hf, _⟩ := fed_append.1 hf
  obtain ⟨v, m, hv, hs⟩ := exprs_fed_first hw hf
  refine ev_body ?_
  simp only [body, smallStmtBody]
  refine evp_bind evp_here (evp_bind (evp_symAt hv) ?_)
  obtain ⟨n1, n2, n3, n4, n5, n6, n7, n8⟩ := starts_small hs
  simp only [n1, n2, n3, n4, n5, n6, n7, n8, or_self, if_false]
  exact evp_parse h

omit [Uni] in
theorem augOp_word (op : AugOp) : augOp op.word.leaf.kind = some op.tag ∧ op.word.leaf.kind ∈ starListEnd ∧
    op.word.leaf.kind ≠ .PyColon ∧ op.word.leaf.kind ≠ .PyAssign := by
  cases op <;> refine ⟨rfl, by simp [AugOp.word, Lexeme.leaf, Leaf.kind, starListEnd], by simp [AugOp.word, Lexeme.leaf, Leaf.kind],
    by simp [AugOp.word, Lexeme.leaf, Leaf.kind]⟩

omit [Uni] in
theorem lineEnd_plain {k : Kind} (h : k ∈ lineEnd) : k ≠ .PyColon ∧ k ≠ .PyAssign ∧ augOp k = none ∧ k ≠ .PyFrom ∧ k ≠ .PyComa ∧
    k ≠ .PyDot ∧ k ≠ .PyAs := by
  revert h; simp only [lineEnd, List.mem_cons, List.not_mem_nil, or_false]
  rintro (rfl | rfl | rfl) <;> simp [augOp]

theorem small_expr {l : Exprs} (hw : (Small.expr l).Wf) {c c' : PSt} (hf : Fed c (Small.expr l).words c') {u : Token}
    (hu : c'.symbol = .ok u) (hk : u.kind ∈ lineEnd) : ∃ t : Tree, t.sk = (Small.expr l).sk ∧ Ev .smallStmt c t c' := by
  simp only [Small.Wf] at hw
  simp only [Small.words] at hf
  obtain ⟨t, ht, et⟩ := testlistStar_ev hw hf hu (lineEnd_star hk)
  refine ⟨t, ht, exprStmt_small hw (xs := []) (by simpa using hf) (ev_body ?_)⟩
  simp only [body, exprStmtBody]
  refine evp_bind evp_here (evp_bind (evp_parse et) (evp_bind (evp_symAt hu) ?_))
  obtain ⟨n1, n2, n3, _⟩ := lineEnd_plain hk
  simp only [n1, n2, n3, if_false]
  exact evp_pure

theorem small_assign {l : Exprs} {r : Rhs} {rs : List Rhs} (hw : (Small.assign l r rs).Wf) {c c' : PSt}
    (hf : Fed c (Small.assign l r rs).words c') {u : Token}
    (hu : c'.symbol = .ok u) (hk : u.kind ∈ lineEnd) : ∃ t : Tree, t.sk = (Small.assign l r rs).sk ∧ Ev .smallStmt c t c' := by
  simp only [Small.Wf] at hw
  simp only [Small.words] at hf
  have hf0 := hf
  obtain ⟨d, hf1, hf2⟩ := fed_append.1 hf
  obtain ⟨t1, h1, l1, _⟩ := fed_cons hf2
  have k1 : t1.kind = .PyAssign := kind_of_leaf l1
  obtain ⟨t, ht, et⟩ := testlistStar_ev hw.1 hf1 h1 (by rw [k1]; simp [starListEnd])
  obtain ⟨nodes', g1, g2⟩ := assign_loop (s := c.lex.tokStart) (left := t) hu hk rs r [] d hw.2.1 hw.2.2 hf2
  refine ⟨.node .AssignmentStmt c.lex.tokStart c'.lex.tokStart [t, .seq nodes', .none], ?_, exprStmt_small hw.1 hf0 (ev_body ?_)⟩
  rotate_left
  · simp only [body, exprStmtBody]
    refine evp_bind evp_here (evp_bind (evp_parse et) (evp_bind (evp_symAt h1) ?_))
    kd_simp [k1]
    exact evp_parse g2
  · sk_simp [ht, g1, List.nil_append]
    rfl

theorem small_aug {op : AugOp} {l : Exprs} {r : Rhs} (hw : (Small.aug op l r).Wf) {c c' : PSt} (hf : Fed c (Small.aug op l r).words c') {u : Token}
    (hu : c'.symbol = .ok u) (hk : u.kind ∈ lineEnd) : ∃ t : Tree, t.sk = (Small.aug op l r).sk ∧ Ev .smallStmt c t c' := by
  simp only [Small.Wf] at hw
  simp only [Small.words] at hf
  have hf0 := hf
  obtain ⟨d, hf1, hf2⟩ := fed_append.1 hf
  obtain ⟨t1, h1, l1, hf2⟩ := fed_cons hf2
  have k1 : t1.kind = op.word.leaf.kind := kind_of_leaf l1
  obtain ⟨a1, a2, a3, a4⟩ := augOp_word op
  obtain ⟨t, ht, et⟩ := testlistStar_ev hw.1 hf1 h1 (by rw [k1]; exact a2)
  obtain ⟨x, hx, ex⟩ := rhs_ev hw.2 (s := c.lex.tokStart) hf2 hu (.inl hk)
  refine ⟨.node op.tag c.lex.tokStart c'.lex.tokStart [t, .tok t1, x], ?_, exprStmt_small hw.1 hf0 (ev_body ?_)⟩
  · sk_simp [ht, hx, l1, Small.sk]
  · simp only [body, exprStmtBody]
    refine evp_bind evp_here (evp_bind (evp_parse et) (evp_bind (evp_symAt h1) ?_))
    simp only [k1, a1, a3, a4, if_false]
    exact evp_bind evp_next (evp_bind ex evp_mk)

theorem small_ann {l : Exprs} {ty : Ex} {r : Option Rhs} (hw : (Small.ann l ty r).Wf) {c c' : PSt} (hf : Fed c (Small.ann l ty r).words c') {u : Token}
    (hu : c'.symbol = .ok u) (hk : u.kind ∈ lineEnd) : ∃ t : Tree, t.sk = (Small.ann l ty r).sk ∧ Ev .smallStmt c t c' := by
  simp only [Small.Wf] at hw
  cases r with
  | none =>
    simp only [Small.words] at hf
    have hf0 := hf
    obtain ⟨d, hf1, hf2⟩ := fed_append.1 hf
    obtain ⟨t1, h1, l1, hf2⟩ := fed_cons hf2
    have k1 : t1.kind = .PyColon := kind_of_leaf l1
    obtain ⟨t, ht, et⟩ := testlistStar_ev hw.1 hf1 h1 (by rw [k1]; simp [starListEnd])
    obtain ⟨x, hx, ex⟩ := test_ev hw.2.1 hw.2.2.1 hf2 (starListEnd_endsExpr hu (lineEnd_star hk) _)
    refine ⟨.node .AnnAssignStmt c.lex.tokStart c'.lex.tokStart [t, .tok t1, x, .none], ?_, exprStmt_small hw.1 hf0 (ev_body ?_)⟩
    · sk_simp [ht, hx, l1, Small.sk, wColon]
    · simp only [body, exprStmtBody]
      refine evp_bind evp_here (evp_bind (evp_parse et) (evp_bind (evp_symAt h1) ?_))
      kd_simp [k1]
      refine evp_parse (ev_body ?_)
      simp only [body, annAssignBody]
      refine evp_bind (evp_symAt h1) ?_
      kd_simp [k1]
      refine evp_bind evp_next (evp_bind (evp_parse ex) (evp_bind (evp_symAt hu) ?_))
      obtain ⟨_, n2, _⟩ := lineEnd_plain hk
      simp only [n2, if_false]
      exact evp_mk
  | some r =>
    simp only [Small.words] at hf
    have hf0 := hf
    obtain ⟨d, hf1, hf2⟩ := fed_append.1 hf
    obtain ⟨t1, h1, l1, hf2⟩ := fed_cons hf2
    obtain ⟨d2, hf2, hf3⟩ := fed_append.1 hf2
    obtain ⟨t2, h2, l2, hf3⟩ := fed_cons hf3
    have k1 : t1.kind = .PyColon := kind_of_leaf l1
    have k2 : t2.kind = .PyAssign := kind_of_leaf l2
    obtain ⟨t, ht, et⟩ := testlistStar_ev hw.1 hf1 h1 (by rw [k1]; simp [starListEnd])
    obtain ⟨x, hx, ex⟩ := test_ev hw.2.1 hw.2.2.1 hf2 (starListEnd_endsExpr h2 (by rw [k2]; simp [starListEnd]) _)
    obtain ⟨y, hy, ey⟩ := rhs_ev (hw.2.2.2 r rfl) (s := c.lex.tokStart) hf3 hu (.inl hk)
    refine ⟨.node .AnnAssignStmt c.lex.tokStart c'.lex.tokStart [t, .tok t1, x, .seq [.tok t2, y]], ?_, exprStmt_small hw.1 hf0 (ev_body ?_)⟩
    · sk_simp [ht, hx, hy, l1, l2, Small.sk, wColon, wAssign]
    · simp only [body, exprStmtBody]
      refine evp_bind evp_here (evp_bind (evp_parse et) (evp_bind (evp_symAt h1) ?_))
      kd_simp [k1]
      refine evp_parse (ev_body ?_)
      simp only [body, annAssignBody]
      refine evp_bind (evp_symAt h1) ?_
      kd_simp [k1]
      refine evp_bind evp_next (evp_bind (evp_parse ex) (evp_bind (evp_symAt h2) ?_))
      kd_simp [k2]
      exact evp_bind evp_next (evp_bind ey evp_mk)

/-! ### The statements that start with a keyword -/

theorem small_del {es : List Ex} (hw : (Small.del es).Wf) {c c' : PSt} (hf : Fed c (Small.del es).words c') {u : Token}
    (hu : c'.symbol = .ok u) (hk : u.kind ∈ lineEnd) : ∃ t : Tree, t.sk = (Small.del es).sk ∧ Ev .smallStmt c t c' := by
  simp only [Small.Wf] at hw
  simp only [Small.words] at hf
  obtain ⟨t1, h1, l1, hf⟩ := fed_cons hf
  have k1 : t1.kind = .PyDel := kind_of_leaf l1
  obtain ⟨x, hx, ex⟩ := exprlist_ev (b := false) hw.1 hw.2 (by simpa [lastComma] using hf) hu (by simpa using lineEnd_star hk)
  refine ⟨.node .DelStmt c.lex.tokStart c'.lex.tokStart [.tok t1, x], ?_, ev_body ?_⟩
  · sk_simp [hx, l1, Small.sk]
  · simp only [body, smallStmtBody]
    refine evp_bind evp_here (evp_bind (evp_symAt h1) ?_)
    kd_simp [k1]
    refine evp_parse (ev_body ?_)
    simp only [body, delStmtBody]
    refine evp_bind evp_here (evp_bind (evp_symAt h1) ?_)
    kd_simp [k1]
    exact evp_bind evp_next (evp_bind (evp_parse ex) evp_mk)

theorem small_pass {c c' : PSt} (hf : Fed c Small.pass.words c') : ∃ t : Tree, t.sk = Small.pass.sk ∧ Ev .smallStmt c t c' := by
  simp only [Small.words] at hf
  obtain ⟨t1, h1, l1, hf⟩ := fed_cons hf
  cases fed_nil hf
  have k1 : t1.kind = .PyPass := kind_of_leaf l1
  refine ⟨.node .PassStmt c.lex.tokStart c.advance.lex.tokStart [.tok t1], ?_, ev_body ?_⟩
  · sk_simp [l1, Small.sk]
  · simp only [body, smallStmtBody]
    refine evp_bind evp_here (evp_bind (evp_symAt h1) ?_)
    kd_simp [k1]
    refine evp_parse (ev_body ?_)
    simp only [body, passStmtBody]
    refine evp_bind evp_here (evp_bind (evp_symAt h1) ?_)
    kd_simp [k1]
    exact evp_bind evp_next evp_mk

theorem small_brk {c c' : PSt} (hf : Fed c Small.brk.words c') : ∃ t : Tree, t.sk = Small.brk.sk ∧ Ev .smallStmt c t c' := by
  simp only [Small.words] at hf
  obtain ⟨t1, h1, l1, hf⟩ := fed_cons hf
  cases fed_nil hf
  have k1 : t1.kind = .PyBreak := kind_of_leaf l1
  refine ⟨.node .BreakStmt c.lex.tokStart c.advance.lex.tokStart [.tok t1], ?_, ev_body ?_⟩
  · sk_simp [l1, Small.sk]
  · simp only [body, smallStmtBody]
    refine evp_bind evp_here (evp_bind (evp_symAt h1) ?_)
    kd_simp [k1]
    refine evp_parse (ev_body ?_)
    simp only [body, flowStmtBody]
    refine evp_bind evp_here (evp_bind (evp_symAt h1) ?_)
    kd_simp [k1]
    refine evp_parse (ev_body ?_)
    simp only [body, breakStmtBody]
    refine evp_bind evp_here (evp_bind (evp_symAt h1) ?_)
    kd_simp [k1]
    exact evp_bind evp_next evp_mk

theorem small_cont {c c' : PSt} (hf : Fed c Small.cont.words c') : ∃ t : Tree, t.sk = Small.cont.sk ∧ Ev .smallStmt c t c' := by
  simp only [Small.words] at hf
  obtain ⟨t1, h1, l1, hf⟩ := fed_cons hf
  cases fed_nil hf
  have k1 : t1.kind = .PyContinue := kind_of_leaf l1
  refine ⟨.node .ContinueStmt c.lex.tokStart c.advance.lex.tokStart [.tok t1], ?_, ev_body ?_⟩
  · sk_simp [l1, Small.sk]
  · simp only [body, smallStmtBody]
    refine evp_bind evp_here (evp_bind (evp_symAt h1) ?_)
    kd_simp [k1]
    refine evp_parse (ev_body ?_)
    simp only [body, flowStmtBody]
    refine evp_bind evp_here (evp_bind (evp_symAt h1) ?_)
    kd_simp [k1]
    refine evp_parse (ev_body ?_)
    simp only [body, continueStmtBody]
    refine evp_bind evp_here (evp_bind (evp_symAt h1) ?_)
    kd_simp [k1]
    exact evp_bind evp_next evp_mk

/-- `flow_stmt` behind `small_stmt`. -/
theorem flow_small {c c' : PSt} {t1 : Token} {t : Tree} {f : Fn} (h1 : c.symbol = .ok t1)
    (hk : (t1.kind = .PyReturn ∧ f = .returnStmt) ∨ (t1.kind = .PyRaise ∧ f = .raiseStmt) ∨ (t1.kind = .PyYield ∧ f = .yieldStmt))
    (h : Ev f c t c') : Ev .smallStmt c t c' := by
  refine ev_body ?_
  simp only [body, smallStmtBody]
  refine evp_bind evp_here (evp_bind (evp_symAt h1) ?_)
  rcases hk with ⟨k1, rfl⟩ | ⟨k1, rfl⟩ | ⟨k1, rfl⟩ <;> kd_simp [k1] <;> refine evp_parse (ev_body ?_) <;>
    simp only [body, flowStmtBody] <;> refine evp_bind evp_here (evp_bind (evp_symAt h1) ?_) <;> kd_simp [k1] <;> exact evp_parse h

omit [Uni] in
theorem lineEnd_or {k : Kind} (h : k ∈ lineEnd) : k = .PySemiColon ∨ k = .Newline ∨ k = .EOF := by
  revert h; simp only [lineEnd, List.mem_cons, List.not_mem_nil, or_false]
  rintro (rfl | rfl | rfl) <;> simp

theorem small_ret {l : Option Exprs} (hw : (Small.ret l).Wf) {c c' : PSt} (hf : Fed c (Small.ret l).words c') {u : Token}
    (hu : c'.symbol = .ok u) (hk : u.kind ∈ lineEnd) : ∃ t : Tree, t.sk = (Small.ret l).sk ∧ Ev .smallStmt c t c' := by
  simp only [Small.Wf] at hw
  cases l with
  | none =>
    simp only [Small.words] at hf
    obtain ⟨t1, h1, l1, hf⟩ := fed_cons hf
    cases fed_nil hf
    have k1 : t1.kind = .PyReturn := kind_of_leaf l1
    refine ⟨.node .ReturnStmt c.lex.tokStart c.advance.lex.tokStart [.tok t1, .none], ?_, flow_small h1 (.inl ⟨k1, rfl⟩) (ev_body ?_)⟩
    · sk_simp [l1, Small.sk]
    · simp only [body, returnStmtBody]
      refine evp_bind evp_here (evp_bind (evp_symAt h1) ?_)
      kd_simp [k1]
      refine evp_bind evp_next (evp_bind (evp_symAt hu) ?_)
      simp only [lineEnd_or hk, if_true]
      exact evp_mk
  | some l =>
    simp only [Small.words] at hf
    obtain ⟨t1, h1, l1, hf⟩ := fed_cons hf
    have k1 : t1.kind = .PyReturn := kind_of_leaf l1
    obtain ⟨x, hx, ex⟩ := testlistStar_ev (hw l rfl) hf hu (lineEnd_star hk)
    obtain ⟨v, m, hv, hs⟩ := exprs_fed_first (hw l rfl) hf
    obtain ⟨_, _, _, n1, n2, n3⟩ := starts_notEnd hs
    refine ⟨.node .ReturnStmt c.lex.tokStart c'.lex.tokStart [.tok t1, x], ?_, flow_small h1 (.inl ⟨k1, rfl⟩) (ev_body ?_)⟩
    · sk_simp [l1, hx, Small.sk]
    · simp only [body, returnStmtBody]
      refine evp_bind evp_here (evp_bind (evp_symAt h1) ?_)
      kd_simp [k1]
      refine evp_bind evp_next (evp_bind (evp_symAt hv) ?_)
      simp only [n1, n2, n3, or_self, if_false]
      exact evp_bind (evp_parse ex) evp_mk

theorem small_raise {e : Option (Ex × Option Ex)} (hw : (Small.raise e).Wf) {c c' : PSt} (hf : Fed c (Small.raise e).words c') {u : Token}
    (hu : c'.symbol = .ok u) (hk : u.kind ∈ lineEnd) : ∃ t : Tree, t.sk = (Small.raise e).sk ∧ Ev .smallStmt c t c' := by
  simp only [Small.Wf] at hw
  match e, hw, hf with
  | none, hw, hf =>
    simp only [Small.words] at hf
    obtain ⟨t1, h1, l1, hf⟩ := fed_cons hf
    cases fed_nil hf
    have k1 : t1.kind = .PyRaise := kind_of_leaf l1
    refine ⟨.node .RaiseStmt c.lex.tokStart c.advance.lex.tokStart [.tok t1, .none], ?_, flow_small h1 (.inr (.inl ⟨k1, rfl⟩)) (ev_body ?_)⟩
    · sk_simp [l1, Small.sk]
    · simp only [body, raiseStmtBody]
      refine evp_bind evp_here (evp_bind (evp_symAt h1) ?_)
      kd_simp [k1]
      refine evp_bind evp_next (evp_bind (evp_symAt hu) ?_)
      simp only [lineEnd_or hk, if_true]
      exact evp_mk
  | some (e, none), hw, hf =>
    simp only [Small.words] at hf
    obtain ⟨w1, w2, _⟩ := hw (e, none) rfl
    obtain ⟨t1, h1, l1, hf⟩ := fed_cons hf
    have k1 : t1.kind = .PyRaise := kind_of_leaf l1
    obtain ⟨x, hx, ex⟩ := test_ev w1 w2 hf (starListEnd_endsExpr hu (lineEnd_star hk) _)
    obtain ⟨v, m, hv, hs, _⟩ := fed_first w1 hf
    obtain ⟨_, _, _, n1, n2, n3⟩ := starts_notEnd hs
    refine ⟨.node .RaiseStmt c.lex.tokStart c'.lex.tokStart [.tok t1, .seq [x, .none]], ?_, flow_small h1 (.inr (.inl ⟨k1, rfl⟩)) (ev_body ?_)⟩
    · sk_simp [l1, hx, Small.sk]
    · simp only [body, raiseStmtBody]
      refine evp_bind evp_here (evp_bind (evp_symAt h1) ?_)
      kd_simp [k1]
      refine evp_bind evp_next (evp_bind (evp_symAt hv) ?_)
      simp only [n1, n2, n3, or_self, if_false]
      refine evp_bind (evp_parse ex) (evp_bind (evp_symAt hu) ?_)
      simp only [(lineEnd_plain hk).2.2.2.1, if_false]
      exact evp_mk
  | some (e, some e'), hw, hf =>
    simp only [Small.words] at hf
    obtain ⟨w1, w2, w3⟩ := hw (e, some e') rfl
    obtain ⟨w3, w4⟩ := w3 e' rfl
    obtain ⟨t1, h1, l1, hf⟩ := fed_cons hf
    obtain ⟨d, hf, hf2⟩ := fed_append.1 hf
    obtain ⟨t2, h2, l2, hf2⟩ := fed_cons hf2
    have k1 : t1.kind = .PyRaise := kind_of_leaf l1
    have k2 : t2.kind = .PyFrom := kind_of_leaf l2
    obtain ⟨x, hx, ex⟩ := test_ev w1 w2 hf (ends_of_symbol h2 k2 (by intro m h; cases h))
    obtain ⟨y, hy, ey⟩ := test_ev w3 w4 hf2 (starListEnd_endsExpr hu (lineEnd_star hk) _)
    obtain ⟨v, m, hv, hs, _⟩ := fed_first w1 hf
    obtain ⟨_, _, _, n1, n2, n3⟩ := starts_notEnd hs
    refine ⟨.node .RaiseStmt c.lex.tokStart c'.lex.tokStart [.tok t1, .seq [x, .seq [.tok t2, y]]], ?_, flow_small h1 (.inr (.inl ⟨k1, rfl⟩)) (ev_body ?_)⟩
    · sk_simp [l1, l2, hx, hy, Small.sk, wFrom]
    · simp only [body, raiseStmtBody]
      refine evp_bind evp_here (evp_bind (evp_symAt h1) ?_)
      kd_simp [k1]
      refine evp_bind evp_next (evp_bind (evp_symAt hv) ?_)
      simp only [n1, n2, n3, or_self, if_false]
      refine evp_bind (evp_parse ex) (evp_bind (evp_symAt h2) ?_)
      kd_simp [k2]
      exact evp_bind evp_next (evp_bind (evp_parse ey) evp_mk)

theorem small_yield {l : Exprs} (hw : (Small.yield l).Wf) {c c' : PSt} (hf : Fed c (Small.yield l).words c') {u : Token}
    (hu : c'.symbol = .ok u) (hk : u.kind ∈ lineEnd) : ∃ t : Tree, t.sk = (Small.yield l).sk ∧ Ev .smallStmt c t c' := by
  simp only [Small.Wf] at hw
  simp only [Small.words] at hf
  obtain ⟨t1, h1, l1, _⟩ := fed_cons hf
  obtain ⟨t, ht, et⟩ := yield_ev hw hf hu (lineEnd_star hk)
  exact ⟨t, ht, flow_small h1 (.inr (.inr ⟨kind_of_leaf l1, rfl⟩)) (ev_body (evp_parse et))⟩

theorem small_yieldFrom {e : Ex} (hw : (Small.yieldFrom e).Wf) {c c' : PSt} (hf : Fed c (Small.yieldFrom e).words c') {u : Token}
    (hu : c'.symbol = .ok u) (hk : u.kind ∈ lineEnd) : ∃ t : Tree, t.sk = (Small.yieldFrom e).sk ∧ Ev .smallStmt c t c' := by
  simp only [Small.Wf] at hw
  simp only [Small.words] at hf
  obtain ⟨t1, h1, l1, _⟩ := fed_cons hf
  obtain ⟨t, ht, et⟩ := yieldFrom_ev hw.1 hw.2 hf (starListEnd_endsExpr hu (lineEnd_star hk) _)
  exact ⟨t, ht, flow_small h1 (.inr (.inr ⟨kind_of_leaf l1, rfl⟩)) (ev_body (evp_parse et))⟩

theorem small_assert {e : Ex} (hw : (Small.assert e).Wf) {c c' : PSt} (hf : Fed c (Small.assert e).words c') {u : Token}
    (hu : c'.symbol = .ok u) (hk : u.kind ∈ lineEnd) : ∃ t : Tree, t.sk = (Small.assert e).sk ∧ Ev .smallStmt c t c' := by
  simp only [Small.Wf] at hw
  simp only [Small.words] at hf
  obtain ⟨t1, h1, l1, hf⟩ := fed_cons hf
  have k1 : t1.kind = .PyAssert := kind_of_leaf l1
  obtain ⟨x, hx, ex⟩ := test_ev hw.1 hw.2 hf (starListEnd_endsExpr hu (lineEnd_star hk) _)
  refine ⟨.node .AssertStmt c.lex.tokStart c'.lex.tokStart [.tok t1, x, .none], ?_, ev_body ?_⟩
  · sk_simp [l1, hx, Small.sk]
  · simp only [body, smallStmtBody]
    refine evp_bind evp_here (evp_bind (evp_symAt h1) ?_)
    kd_simp [k1]
    refine evp_parse (ev_body ?_)
    simp only [body, assertStmtBody]
    refine evp_bind evp_here (evp_bind (evp_symAt h1) ?_)
    kd_simp [k1]
    refine evp_bind evp_next (evp_bind (evp_parse ex) (evp_bind (evp_symAt hu) ?_))
    simp only [(lineEnd_plain hk).2.2.2.1, if_false]
    exact evp_mk

/-! ### Names -/

/-- A name token. -/
def NameItem (c : PSt) (x : Token) (d : PSt) : Prop := c.symbol = .ok x ∧ x.kind = .AtomName ∧ d = c.advance

theorem name_item {w : List Char} {c c' : PSt} (h : Fed c [.name w] c') : ∃ x : Token, Sk.leaf x.leaf = nm w ∧ NameItem c x c' := by
  obtain ⟨t, h1, l1, h⟩ := fed_cons h
  cases fed_nil h
  exact ⟨t, by rw [l1]; rfl, h1, kind_of_leaf l1, rfl⟩

theorem small_global {w : List Char} {ws : List (List Char)} {c c' : PSt} (hf : Fed c (Small.global w ws).words c') {u : Token}
    (hu : c'.symbol = .ok u) (hk : u.kind ∈ lineEnd) : ∃ t : Tree, t.sk = (Small.global w ws).sk ∧ Ev .smallStmt c t c' := by
  simp only [Small.words] at hf
  obtain ⟨t1, h1, l1, hf⟩ := fed_cons hf
  obtain ⟨t2, h2, l2, hf⟩ := fed_cons hf
  have k1 : t1.kind = .PyGlobal := kind_of_leaf l1
  have k2 : t2.kind = .AtomName := kind_of_leaf l2
  obtain ⟨_, nodes', seps', g1, g2, g3, g4⟩ := after_loop (sep := wComma) (f := fun w => [.name w]) (g := nm) (sk := fun t : Token => .leaf t.leaf)
    (loop := .globalLoop c.lex.tokStart t1) (Item := NameItem) (Ok := fun _ => True)
    (fun nodes seps c t x d r c' h1 h2 ⟨h3, h4, h5⟩ h6 => ev_body (by
      subst h5
      simp only [body, globalLoopBody]
      refine evp_bind (evp_symAt h1) ?_
      kd_simp [show t.kind = .PyComa from kind_of_leaf h2]
      refine evp_bind evp_next (evp_bind (evp_symAt h3) ?_)
      kd_simp [h4]
      exact evp_bind evp_next (evp_parse h6)))
    (fun _ _ _ _ => trivial) (c' := c') trivial ws (fun a _ c c' h _ => name_item h) [t2] [] _ (by simp) hf
  refine ⟨.node .GlobalStmt c.lex.tokStart c'.lex.tokStart [.tok t1, .toks nodes'.reverse, .toks seps'.reverse], ?_, ev_body ?_⟩
  · have : skList (nodes'.map .tok) = nodes'.map fun t => .leaf t.leaf := by rw [skList_map, List.map_map]; rfl
    sk_simp [l1, Small.sk, sk_seps g2, List.map_reverse, skList_reverse, this, g1, g3, wComma, commas, l2, List.map_cons, List.map_nil]
    simp
  · simp only [body, smallStmtBody]
    refine evp_bind evp_here (evp_bind (evp_symAt h1) ?_)
    kd_simp [k1]
    refine evp_parse (ev_body ?_)
    simp only [body, globalStmtBody]
    refine evp_bind evp_here (evp_bind (evp_symAt h1) ?_)
    kd_simp [k1]
    refine evp_bind evp_next (evp_bind (evp_symAt h2) ?_)
    kd_simp [k2]
    refine evp_bind evp_next (evp_parse (g4 _ _ (ev_body ?_)))
    simp only [body, globalLoopBody]
    refine evp_bind (evp_symAt hu) ?_
    simp only [(lineEnd_plain hk).2.2.2.2.1, if_false]
    exact evp_mk

theorem small_nonlocal {w : List Char} {ws : List (List Char)} {c c' : PSt} (hf : Fed c (Small.nonlocal w ws).words c') {u : Token}
    (hu : c'.symbol = .ok u) (hk : u.kind ∈ lineEnd) : ∃ t : Tree, t.sk = (Small.nonlocal w ws).sk ∧ Ev .smallStmt c t c' := by
  simp only [Small.words] at hf
  obtain ⟨t1, h1, l1, hf⟩ := fed_cons hf
  obtain ⟨t2, h2, l2, hf⟩ := fed_cons hf
  have k1 : t1.kind = .PyNonLocal := kind_of_leaf l1
  have k2 : t2.kind = .AtomName := kind_of_leaf l2
  obtain ⟨_, nodes', seps', g1, g2, g3, g4⟩ := after_loop (sep := wComma) (f := fun w => [.name w]) (g := nm) (sk := fun t : Token => .leaf t.leaf)
    (loop := .nonlocalLoop c.lex.tokStart t1) (Item := NameItem) (Ok := fun _ => True)
    (fun nodes seps c t x d r c' h1 h2 ⟨h3, h4, h5⟩ h6 => ev_body (by
      subst h5
      simp only [body, nonlocalLoopBody]
      refine evp_bind (evp_symAt h1) ?_
      kd_simp [show t.kind = .PyComa from kind_of_leaf h2]
      refine evp_bind evp_next (evp_bind (evp_symAt h3) ?_)
      kd_simp [h4]
      exact evp_bind evp_next (evp_parse h6)))
    (fun _ _ _ _ => trivial) (c' := c') trivial ws (fun a _ c c' h _ => name_item h) [t2] [] _ (by simp) hf
  refine ⟨.node .NonLocalStmt c.lex.tokStart c'.lex.tokStart [.tok t1, .toks nodes'.reverse, .toks seps'.reverse], ?_, ev_body ?_⟩
  · have : skList (nodes'.map .tok) = nodes'.map fun t => .leaf t.leaf := by rw [skList_map, List.map_map]; rfl
    sk_simp [l1, Small.sk, sk_seps g2, List.map_reverse, skList_reverse, this, g1, g3, wComma, commas, l2, List.map_cons, List.map_nil]
    simp
  · simp only [body, smallStmtBody]
    refine evp_bind evp_here (evp_bind (evp_symAt h1) ?_)
    kd_simp [k1]
    refine evp_parse (ev_body ?_)
    simp only [body, nonlocalStmtBody]
    refine evp_bind evp_here (evp_bind (evp_symAt h1) ?_)
    kd_simp [k1]
    refine evp_bind evp_next (evp_bind (evp_symAt h2) ?_)
    kd_simp [k2]
    refine evp_bind evp_next (evp_parse (g4 _ _ (ev_body ?_)))
    simp only [body, nonlocalLoopBody]
    refine evp_bind (evp_symAt hu) ?_
    simp only [(lineEnd_plain hk).2.2.2.2.1, if_false]
    exact evp_mk

theorem dotted_ev {w : List Char} {ws : List (List Char)} {c c' : PSt} (hf : Fed c (dottedWords (w :: ws)) c') {u : Token}
    (hu : c'.symbol = .ok u) (hk : u.kind ≠ .PyDot) : ∃ t : Tree, t.sk = dottedSk (w :: ws) ∧ Ev .dottedName c t c' := by
  simp only [dottedWords] at hf
  obtain ⟨t1, h1, l1, hf⟩ := fed_cons hf
  have k1 : t1.kind = .AtomName := kind_of_leaf l1
  obtain ⟨_, nodes', seps', g1, g2, g3, g4⟩ := after_loop (sep := wDot) (f := fun w => [.name w]) (g := nm) (sk := fun t : Token => .leaf t.leaf)
    (loop := .dottedNameLoop c.lex.tokStart) (Item := NameItem) (Ok := fun _ => True)
    (fun nodes seps c t x d r c' h1 h2 ⟨h3, h4, h5⟩ h6 => ev_body (by
      subst h5
      simp only [body, dottedNameLoopBody]
      refine evp_bind (evp_symAt h1) ?_
      kd_simp [show t.kind = .PyDot from kind_of_leaf h2]
      refine evp_bind evp_next (evp_bind (evp_symAt h3) ?_)
      kd_simp [h4]
      exact evp_bind evp_next (evp_parse h6)))
    (fun _ _ _ _ => trivial) (c' := c') trivial ws (fun a _ c c' h _ => name_item h) [t1] [] _ (by simp) hf
  refine ⟨.node .DottedNameStmt c.lex.tokStart c'.lex.tokStart [.toks nodes'.reverse, .toks seps'.reverse], ?_, ev_body ?_⟩
  · have : skList (nodes'.map .tok) = nodes'.map fun t => .leaf t.leaf := by rw [skList_map, List.map_map]; rfl
    sk_simp [dottedSk, sk_seps g2, List.map_reverse, skList_reverse, this, g1, g3, wDot, l1, List.map_cons, List.map_nil]
    simp
  · simp only [body, dottedNameBody]
    refine evp_bind evp_here (evp_bind (evp_symAt h1) ?_)
    kd_simp [k1]
    refine evp_bind evp_next (evp_parse (g4 _ _ (ev_body ?_)))
    simp only [body, dottedNameLoopBody]
    refine evp_bind (evp_symAt hu) ?_
    simp only [hk, if_false]
    exact evp_mk

/-- What follows a name in an import list. -/
def NotAs (c : PSt) : Prop := ∃ u, c.symbol = .ok u ∧ u.kind ≠ .PyAs

theorem asName_ev {x : AsName} {c c' : PSt} (hf : Fed c x.words c') (hn : NotAs c') :
    ∃ t : Tree, t.sk = x.sk ∧ Ev .importAsName c t c' := by
  obtain ⟨n, a⟩ := x
  obtain ⟨u, hu, hk⟩ := hn
  cases a with
  | none =>
    simp only [AsName.words] at hf
    obtain ⟨t1, h1, l1, hf⟩ := fed_cons hf
    cases fed_nil hf
    have k1 : t1.kind = .AtomName := kind_of_leaf l1
    refine ⟨.node .ImportAsName c.lex.tokStart c.advance.lex.tokStart [.tok t1, .none], ?_, ev_body ?_⟩
    · sk_simp [l1, AsName.sk]
    · simp only [body, importAsNameBody]
      refine evp_bind evp_here (evp_bind (evp_symAt h1) ?_)
      kd_simp [k1]
      refine evp_bind evp_next (evp_bind (evp_symAt hu) ?_)
      simp only [hk, if_false]
      exact evp_mk
  | some w =>
    simp only [AsName.words] at hf
    obtain ⟨t1, h1, l1, hf⟩ := fed_cons hf
    obtain ⟨t2, h2, l2, hf⟩ := fed_cons hf
    obtain ⟨t3, h3, l3, hf⟩ := fed_cons hf
    cases fed_nil hf
    have k1 : t1.kind = .AtomName := kind_of_leaf l1
    have k2 : t2.kind = .PyAs := kind_of_leaf l2
    have k3 : t3.kind = .AtomName := kind_of_leaf l3
    refine ⟨.node .ImportAsName c.lex.tokStart c.advance.advance.advance.lex.tokStart [.tok t1, .seq [.tok t2, .tok t3]], ?_, ev_body ?_⟩
    · sk_simp [l1, l2, l3, AsName.sk, wAs]
    · simp only [body, importAsNameBody]
      refine evp_bind evp_here (evp_bind (evp_symAt h1) ?_)
      kd_simp [k1]
      refine evp_bind evp_next (evp_bind (evp_symAt h2) ?_)
      kd_simp [k2]
      refine evp_bind evp_next (evp_bind (evp_symAt h3) ?_)
      kd_simp [k3]
      exact evp_bind evp_next evp_mk

theorem asNames_ev {x : AsName} {xs : List AsName} {c c' : PSt} (hf : Fed c (x.words ++ eachAfter wComma AsName.words xs) c') {u : Token}
    (hu : c'.symbol = .ok u) (n1 : u.kind ≠ .PyComa) (n2 : u.kind ≠ .PyAs) :
    ∃ t : Tree, t.sk = asNamesSk (x :: xs) ∧ Ev .importAsNames c t c' := by
  obtain ⟨d, hf1, hf2⟩ := fed_append.1 hf
  have hloop := fun nodes => after_loop (sep := wComma) (f := AsName.words) (g := AsName.sk) (sk := Tree.sk)
    (loop := .importAsNamesLoop c.lex.tokStart) (Item := fun c x d => Ev .importAsName c x d) (Ok := NotAs)
    (fun nodes seps c t x d r c' h1 h2 h3 h6 => ev_body (by
      simp only [body, importAsNamesLoopBody]
      refine evp_bind (evp_symAt h1) ?_
      kd_simp [show t.kind = .PyComa from kind_of_leaf h2]
      exact evp_bind evp_next (evp_bind (evp_parse h3) (evp_parse h6))))
    (fun c t h1 h2 => ⟨t, h1, by rw [kind_of_leaf h2]; simp [wComma, Lexeme.leaf, Leaf.kind]⟩) (c' := c') ⟨u, hu, n2⟩ xs
    (fun a _ c c' h hn => asName_ev h hn) nodes [] d (by simp) hf2
  obtain ⟨y, hy, ey⟩ := asName_ev hf1 (hloop []).1
  obtain ⟨_, nodes', seps', g1, g2, g3, g4⟩ := hloop [y]
  refine ⟨.node .ImportAsNamesStmt c.lex.tokStart c'.lex.tokStart [.seq nodes'.reverse, .toks seps'.reverse], ?_, ev_body ?_⟩
  · sk_simp [asNamesSk, sk_seps_reverse g2, skList_reverse, skList_map nodes', g1, g3, wComma, commas, hy, List.map_cons, List.map_nil]
    simp
  · simp only [body, importAsNamesBody]
    refine evp_bind evp_here (evp_bind (evp_parse ey) (evp_parse (g4 _ _ (ev_body ?_))))
    simp only [body, importAsNamesLoopBody]
    refine evp_bind (evp_symAt hu) ?_
    simp only [n1, if_false]
    exact evp_mk

omit [Uni] in
theorem dotWord_kind (d : Bool) : (dotWord d).leaf.kind = .PyDot ∨ (dotWord d).leaf.kind = .PyElipsis := by
  cases d <;> simp [dotWord, wDot, Lexeme.leaf, Leaf.kind]

theorem dots_loop {s : Nat} {t : Token} {c' : PSt} {u : Token} (hu : c'.symbol = .ok u) (n1 : u.kind ≠ .PyDot) (n2 : u.kind ≠ .PyElipsis) :
    ∀ (ds : List Bool) (dots : List Token) c, Fed c (ds.map dotWord) c' → ∃ dots' : List Token, dots'.map Token.leaf = dots.map Token.leaf ++ ds.map (fun d => (dotWord d).leaf) ∧
      ∀ r c'', EvP (importFromRest s t dots') c' r c'' → Ev (.importDotLoop s t dots) c r c'' := by
  intro ds
  induction ds with
  | nil =>
    intro dots c h
    cases fed_nil h
    refine ⟨dots, by simp, fun r c'' h => ev_body ?_⟩
    simp only [body, importDotLoopBody]
    refine evp_bind (evp_sym? hu) ?_
    simp only [n1, n2, or_self, if_false]
    exact h
  | cons d ds ih =>
    intro dots c h
    rw [List.map_cons] at h
    obtain ⟨t1, h1, l1, h⟩ := fed_cons h
    obtain ⟨dots', g1, g2⟩ := ih (dots ++ [t1]) _ h
    refine ⟨dots', by rw [g1]; simp [l1], fun r c'' h => ev_body ?_⟩
    simp only [body, importDotLoopBody]
    refine evp_bind (evp_sym? h1) ?_
    have := dotWord_kind d
    rw [← kind_of_leaf l1] at this
    simp only [this, if_true]
    exact evp_bind evp_next (evp_parse (g2 r c'' h))

/-- The last three fields of an import node. -/
def importSk : ImportList → List Sk
  | .all => [kd .PyMul, .none, .none]
  | .plain x xs => [.none, asNamesSk (x :: xs), .none]
  | .paren x xs => [kd .PyLeftParen, asNamesSk (x :: xs), kd .PyRightParen]

theorem small_from {dots : List Bool} {mod : List (List Char)} {l : ImportList} (hw : (Small.from_ dots mod l).Wf) {c c' : PSt}
    (hf : Fed c (Small.from_ dots mod l).words c') {u : Token}
    (hu : c'.symbol = .ok u) (hk : u.kind ∈ lineEnd) : ∃ t : Tree, t.sk = (Small.from_ dots mod l).sk ∧ Ev .smallStmt c t c' := by
  simp only [Small.Wf] at hw
  simp only [Small.words] at hf
  obtain ⟨t1, h1, l1, hf⟩ := fed_cons hf
  obtain ⟨d1, hf1, hf⟩ := fed_append.1 hf
  obtain ⟨d2, hf2, hf⟩ := fed_append.1 hf
  obtain ⟨t4, h4, l4, hf⟩ := fed_cons hf
  have k1 : t1.kind = .PyFrom := kind_of_leaf l1
  have k4 : t4.kind = .PyImport := kind_of_leaf l4
  -- the module
  have hmod : ∃ t3 : Token, d1.symbol = .ok t3 ∧ t3.kind ≠ .PyDot ∧ t3.kind ≠ .PyElipsis ∧
      ((mod = [] ∧ t3.kind = .PyImport ∧ d2 = d1) ∨
        (mod ≠ [] ∧ t3.kind ≠ .PyImport ∧ ∃ x : Tree, x.sk = dottedSk mod ∧ Ev .dottedName d1 x d2)) := by
    cases mod with
    | nil =>
      cases fed_nil hf2
      exact ⟨t4, h4, by rw [k4]; simp, by rw [k4]; simp, .inl ⟨rfl, k4, rfl⟩⟩
    | cons w ws =>
      obtain ⟨x, hx, ex⟩ := dotted_ev hf2 h4 (by rw [k4]; simp)
      rw [dottedWords] at hf2
      obtain ⟨t3, h3, l3, _⟩ := fed_cons hf2
      have k3 : t3.kind = .AtomName := kind_of_leaf l3
      exact ⟨t3, h3, by rw [k3]; simp, by rw [k3]; simp, .inr ⟨by simp, by rw [k3]; simp, x, hx, ex⟩⟩
  obtain ⟨t3, h3, n3, n3', hm⟩ := hmod
  obtain ⟨dots', g1, g2⟩ := dots_loop (s := c.lex.tokStart) (t := t1) h3 n3 n3' dots [] _ hf1
  have hlen : dots'.length = dots.length := by have := congrArg List.length g1; simpa using this
  -- the names
  have hnames : ∃ (tr : List Tree), skList tr = importSk l ∧
      ∀ left : Tree, EvP (do
        let t5 ← Prog.symAt c.lex.tokStart "Expecting symbol in 'from' statement!"
        if t5.kind = .PyMul then do
          Prog.next
          Prog.mk .ImportFromStmt c.lex.tokStart [.tok t1, .toks dots'.reverse, left, .tok t4, .tok t5, .none, .none]
        else if t5.kind = .PyLeftParen then do
          Prog.next
          let right ← Prog.parse .importAsNames
          let t6 ← Prog.symAt c.lex.tokStart "Expecting symbol in 'from' statement!"
          if t6.kind = .PyRightParen then do
            Prog.next
            Prog.mk .ImportFromStmt c.lex.tokStart
              [.tok t1, .toks dots'.reverse, left, .tok t4, .tok t5, right, .tok t6]
          else Prog.fail c.lex.tokStart "Expecting ')' in from import statement!"
        else do
          let right ← Prog.parse .importAsNames
          Prog.mk .ImportFromStmt c.lex.tokStart [.tok t1, .toks dots'.reverse, left, .tok t4, .none, right, .none]) d2.advance
        (.node .ImportFromStmt c.lex.tokStart c'.lex.tokStart ([.tok t1, .toks dots'.reverse, left, .tok t4] ++ tr)) c' := by
    cases l with
    | all =>
      simp only [ImportList.words] at hf
      obtain ⟨t5, h5, l5, hf⟩ := fed_cons hf
      cases fed_nil hf
      have k5 : t5.kind = .PyMul := kind_of_leaf l5
      refine ⟨[.tok t5, .none, .none], by sk_simp [l5, wStar, importSk], fun left => evp_bind (evp_symAt h5) ?_⟩
      kd_simp [k5]
      exact evp_bind evp_next evp_mk
    | plain x xs =>
      simp only [ImportList.words] at hf
      obtain ⟨y, hy, ey⟩ := asNames_ev hf hu (lineEnd_plain hk).2.2.2.2.1 (lineEnd_plain hk).2.2.2.2.2.2
      obtain ⟨t5, h5, k5⟩ : ∃ t5 : Token, d2.advance.symbol = .ok t5 ∧ t5.kind = .AtomName := by
        rw [AsName.words] at hf
        obtain ⟨t5, h5, l5, _⟩ := fed_cons hf
        exact ⟨t5, h5, kind_of_leaf l5⟩
      refine ⟨[.none, y, .none], by sk_simp [hy, importSk], fun left => evp_bind (evp_symAt h5) ?_⟩
      kd_simp [k5]
      exact evp_bind (evp_parse ey) evp_mk
    | paren x xs =>
      simp only [ImportList.words] at hf
      obtain ⟨t5, h5, l5, hf⟩ := fed_cons hf
      rw [← List.append_assoc] at hf
      obtain ⟨d3, hf3, hf6⟩ := fed_append.1 hf
      obtain ⟨t6, h6, l6, hf6⟩ := fed_cons hf6
      cases fed_nil hf6
      have k5 : t5.kind = .PyLeftParen := kind_of_leaf l5
      have k6 : t6.kind = .PyRightParen := kind_of_leaf l6
      obtain ⟨y, hy, ey⟩ := asNames_ev hf3 h6 (by rw [k6]; simp) (by rw [k6]; simp)
      refine ⟨[.tok t5, y, .tok t6], by sk_simp [hy, l5, l6, wLeft, wRight, importSk], fun left => evp_bind (evp_symAt h5) ?_⟩
      kd_simp [k5]
      refine evp_bind evp_next (evp_bind (evp_parse ey) (evp_bind (evp_symAt h6) ?_))
      kd_simp [k6]
      exact evp_bind evp_next evp_mk
  obtain ⟨tr, htr, hrest⟩ := hnames
  have hfrom : ∀ t, Ev (.importDotLoop c.lex.tokStart t1 []) c.advance t c' → Ev .smallStmt c t c' := by
    intro t ht
    refine ev_body ?_
    simp only [body, smallStmtBody]
    refine evp_bind evp_here (evp_bind (evp_symAt h1) ?_)
    kd_simp [k1]
    refine evp_parse (ev_body ?_)
    simp only [body, importStmtBody]
    refine evp_bind evp_here (evp_bind (evp_symAt h1) ?_)
    kd_simp [k1]
    refine evp_parse (ev_body ?_)
    simp only [body, importFromBody]
    refine evp_bind evp_here (evp_bind (evp_symAt h1) ?_)
    kd_simp [k1]
    exact evp_bind evp_next (evp_parse ht)
  have hdots : skList (dots'.reverse.map .tok) = (dots.map fun d => (dotWord d).sk).reverse := by
    rw [skList_map, List.map_map, List.map_reverse]
    have : dots'.map (Tree.sk ∘ Tree.tok) = (dots'.map Token.leaf).map Sk.leaf := by rw [List.map_map]; rfl
    rw [this, g1]
    simp only [List.map_nil, List.nil_append, List.map_map]
    rfl
  rcases hm with ⟨rfl, k3, rfl⟩ | ⟨hne, k3, x, hx, ex⟩
  · refine ⟨.node .ImportFromStmt c.lex.tokStart c'.lex.tokStart ([.tok t1, .toks dots'.reverse, .none, .tok t4] ++ tr), ?_, hfrom _ (g2 _ _ ?_)⟩
    rotate_left
    · unfold importFromRest
      refine evp_bind (evp_symAt h3) ?_
      have : dots'.reverse.length ≠ 0 := by
        rw [List.length_reverse, hlen]
        intro h
        rcases hw with hw | hw
        · exact hw (List.eq_nil_of_length_eq_zero h)
        · exact hw rfl
      simp only [k3, this, if_true, if_false]
      refine evp_bind evp_pure (evp_bind (evp_symAt h4) ?_)
      simp only [k4, if_true]
      exact evp_bind evp_next (hrest .none)
    · simp only [Tree.sk, skList_append, htr, Small.sk, Tree.toks, skList, hdots, l1, l4]
      cases l <;> rfl
  · refine ⟨.node .ImportFromStmt c.lex.tokStart c'.lex.tokStart ([.tok t1, .toks dots'.reverse, x, .tok t4] ++ tr), ?_, hfrom _ (g2 _ _ ?_)⟩
    rotate_left
    · unfold importFromRest
      refine evp_bind (evp_symAt h3) ?_
      simp only [k3, if_false]
      refine evp_bind (evp_parse ex) (evp_bind (evp_symAt h4) ?_)
      simp only [k4, if_true]
      exact evp_bind evp_next (hrest x)
    · simp only [Tree.sk, skList_append, htr, Small.sk, Tree.toks, skList, hdots, l1, l4, hx]
      cases l <;> rfl

/-- All simple statements. -/
theorem small_ev {s : Small} (hw : s.Wf) {c c' : PSt} (hf : Fed c s.words c') {u : Token}
    (hu : c'.symbol = .ok u) (hk : u.kind ∈ lineEnd) : ∃ t : Tree, t.sk = s.sk ∧ Ev .smallStmt c t c' := by
  cases s with
  | expr l => exact small_expr hw hf hu hk
  | assign l r rs => exact small_assign hw hf hu hk
  | aug op l r => exact small_aug hw hf hu hk
  | ann l ty r => exact small_ann hw hf hu hk
  | del es => exact small_del hw hf hu hk
  | pass => exact small_pass hf
  | brk => exact small_brk hf
  | cont => exact small_cont hf
  | ret l => exact small_ret hw hf hu hk
  | raise e => exact small_raise hw hf hu hk
  | yield l => exact small_yield hw hf hu hk
  | yieldFrom e => exact small_yieldFrom hw hf hu hk
  | from_ d m l => exact small_from hw hf hu hk
  | global w ws => exact small_global hf hu hk
  | nonlocal w ws => exact small_nonlocal hf hu hk
  | assert e => exact small_assert hw hf hu hk

end
end Verif
