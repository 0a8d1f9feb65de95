import Verif.Proof.Complete

/-!
# Every well formed expression is accepted: atoms, lists, trailers, and the induction
-/

namespace Verif

/-- The elements of a list after the first one. -/
def tailWords : List Ex → List Lexeme
  | [] => []
  | e :: es => .op (cs! ",") .PyComa :: (e.words ++ tailWords es)

theorem wordsList_cons (e : Ex) (es : List Ex) : wordsList (e :: es) = e.words ++ tailWords es := by
  induction es generalizing e with
  | nil => simp only [wordsList, tailWords, List.append_nil]
  | cons x es ih => simp only [wordsList, tailWords, ih]

theorem sksOf_eq (es : List Ex) : sksOf es = es.map Ex.sk := by
  induction es with
  | nil => rfl
  | cons e es ih => simp only [sksOf, ih, List.map_cons]

theorem subsOf_eq (es : List Ex) : subsOf es = es.map fun e => subSk e e.sk := by
  induction es with
  | nil => rfl
  | cons e es ih => simp only [subsOf, ih, List.map_cons]

theorem wfList_mem {n : Nat} {es : List Ex} (h : WfList n es) : ∀ e ∈ es, e.Wf ∧ e.level ≤ n := by
  induction es with
  | nil => simp
  | cons x es ih =>
    rw [WfList] at h
    intro e he
    rcases List.mem_cons.1 he with rfl | he
    · exact ⟨h.1, h.2.1⟩
    · exact ih h.2.2 e he

theorem wfArgs_mem {es : List Ex} (h : WfArgs es) : ∀ e ∈ es, e.Wf ∧ (e.level ≤ 15 ∨ e.level = 18) := by
  induction es with
  | nil => simp
  | cons x es ih =>
    rw [WfArgs] at h
    intro e he
    rcases List.mem_cons.1 he with rfl | he
    · exact ⟨h.1, h.2.1⟩
    · exact ih h.2.2 e he

theorem skList_commas {seps : List Token} (h : ∀ t ∈ seps, t.leaf = .sym .PyComa) :
    skList (seps.map .tok) = List.replicate seps.length (.leaf (.sym .PyComa)) := by
  induction seps with
  | nil => rfl
  | cons t l ih =>
    simp only [List.map_cons, skList, Tree.sk, List.length_cons, List.replicate_succ]
    rw [h t (by simp), ih (fun u hu => h u (by simp [hu]))]

section
variable [Uni]

/-- The current symbol is a comma or a closing bracket. -/
def Closes (c : PSt) : Prop :=
  ∃ u, c.symbol = .ok u ∧ (u.kind = .PyComa ∨ u.kind = .PyRightParen ∨ u.kind = .PyRightBracket ∨ u.kind = .PyRightCurly ∨
    u.kind = .PyAssign)

omit [Uni] in
theorem Closes.ends {c} (h : Closes c) (n : Nat) : EndsExpr n c := by
  obtain ⟨u, h1, h2⟩ := h
  refine ⟨u, h1, fun m hm => ?_⟩
  rcases h2 with h | h | h | h | h <;> rw [h] at hm <;> cases hm

/-- Where a list ends. -/
def ClosesList (c : PSt) : Prop :=
  ∃ u, c.symbol = .ok u ∧ (u.kind = .PyRightParen ∨ u.kind = .PyRightBracket ∨ u.kind = .PyRightCurly ∨ u.kind = .PyAssign)

omit [Uni] in
theorem ClosesList.closes {c} (h : ClosesList c) : Closes c := by
  obtain ⟨u, h1, h2⟩ := h
  exact ⟨u, h1, .inr h2⟩

theorem tail_closes {es c c'} (h : Fed c (tailWords es) c') (hc : ClosesList c') : Closes c := by
  cases es with
  | nil => cases fed_nil h; exact hc.closes
  | cons e es =>
    rw [tailWords] at h
    obtain ⟨t, h1, h2, _⟩ := fed_cons h
    exact ⟨t, h1, .inl (kind_of_leaf h2)⟩

/-- Comma separated lists. -/
theorem items_loop {loop : Nat → List Tree → List Token → Fn} {tag : Tag} {f : Ex → Sk} {Item : PSt → Tree → PSt → Prop}
    (hstep : ∀ s nodes seps c t x d r c', c.symbol = .ok t → t.kind = .PyComa → Item c.advance x d →
      Ev (loop s (nodes ++ [x]) (seps ++ [t])) d r c' → Ev (loop s nodes seps) c r c')
    (hend : ∀ s nodes seps c t, c.symbol = .ok t → t.kind ≠ .PyComa →
      Ev (loop s nodes seps) c (.node tag s c.lex.tokStart [.seq nodes.reverse, .toks seps.reverse]) c) :
    ∀ es, (∀ e ∈ es, ∀ c c', Fed c e.words c' → Closes c' → ∃ x : Tree, x.sk = f e ∧ Item c x c') →
      ∀ s nodes seps c c', (∀ t ∈ seps, t.leaf = .sym .PyComa) → Fed c (tailWords es) c' → ClosesList c' →
        ∃ r : Tree, r.sk = .node tag [.seq (skList nodes ++ es.map f).reverse,
            .seq (List.replicate (seps.length + es.length) (.leaf (.sym .PyComa)))] ∧
          Ev (loop s nodes seps) c r c' := by
  intro es
  induction es with
  | nil =>
    intro _ s nodes seps c c' hseps h hc
    cases fed_nil h
    obtain ⟨u, h1, h2⟩ := hc
    refine ⟨_, ?_, hend s nodes seps c u h1 (by rcases h2 with h | h | h | h <;> rw [h] <;> simp)⟩
    simp only [Tree.sk, skList, Tree.toks, skList_reverse, List.map_nil, List.append_nil, List.length_nil, Nat.add_zero]
    rw [skList_commas (fun t ht => hseps t (by simpa using ht)), List.length_reverse]
  | cons e es ih =>
    intro hi s nodes seps c c' hseps h hc
    rw [tailWords] at h
    obtain ⟨t, h1, h2, h⟩ := fed_cons h
    obtain ⟨d, h3, h4⟩ := fed_append.1 h
    obtain ⟨x, hx, hix⟩ := hi e (by simp) _ _ h3 (tail_closes h4 hc)
    obtain ⟨r, hr, hev⟩ := ih (fun e' he' => hi e' (by simp [he'])) s (nodes ++ [x]) (seps ++ [t]) d c'
      (by
        intro u hu
        rcases List.mem_append.1 hu with hu | hu
        · exact hseps u hu
        · rw [List.mem_singleton.1 hu]; exact h2) h4 hc
    refine ⟨r, ?_, hstep s nodes seps c t x d r c' h1 (kind_of_leaf h2) hix hev⟩
    rw [hr, skList_append]
    simp only [skList, hx, List.map_cons, List.append_assoc, List.cons_append, List.nil_append, List.length_append,
      List.length_cons, List.length_nil]
    rw [show seps.length + (0 + 1) + es.length = seps.length + (es.length + 1) from by omega]

/-! ### Elements -/

theorem starOrNamed_ev {e : Ex} (hw : e.Wf) (hl : e.level ≤ 17) (g : e.level ≤ 16 → Good' e)
    (gs : ∀ a, e = .star a → Good' a) {c c'} (hf : Fed c e.words c') (he : EndsExpr 16 c') :
    ∃ x : Tree, x.sk = e.sk ∧ EvP starOrNamed c x c' := by
  obtain ⟨u, m, hu, hs, hm⟩ := fed_first hw hf
  by_cases h : e.level ≤ 16
  · obtain ⟨t, ht, hev⟩ := (g h).parses 16 h (by omega) c c' hf he
    refine ⟨t, ht, evp_bind (evp_symHere hu) ?_⟩
    have n1 : u.kind ≠ .PyMul := starts_ne hs hm (by intro m' h'; cases h'; omega)
    simp only [n1, if_false]
    exact evp_parse hev
  · obtain ⟨a, rfl⟩ := level_star (by omega : e.level = 17)
    rw [Ex.Wf] at hw
    rw [Ex.words] at hf
    obtain ⟨t, ht, hleaf, hf⟩ := fed_cons hf
    obtain ⟨ta, hta, ea⟩ := (gs a rfl).parses 10 hw.2 (by omega) _ _ hf (he.mono (by omega))
    have hk : t.kind = .PyMul := kind_of_leaf hleaf
    refine ⟨.node .StarExpr c.lex.tokStart c'.lex.tokStart [.tok t, ta], ?_, evp_bind (evp_symHere ht) ?_⟩
    · simp only [Tree.sk, skList, Ex.sk, hta, hleaf, Lexeme.leaf, kd]
    · simp only [hk, if_true]
      refine evp_parse (ev_body ?_)
      simp only [body, starExprBody]
      refine evp_bind evp_here (evp_bind (evp_symAt ht) ?_)
      simp only [hk, if_true]
      exact evp_bind evp_next (evp_bind (evp_parse ea) evp_mk)

theorem testlistComp_ev {es : List Ex} (hne : es ≠ [])
    (hi : ∀ e ∈ es, ∀ c c', Fed c e.words c' → Closes c' → ∃ x : Tree, x.sk = e.sk ∧ EvP starOrNamed c x c')
    {c c'} (hf : Fed c (wordsList es) c') (hc : ClosesList c') :
    ∃ r : Tree, r.sk = listSk .TestListComp (sksOf es) ∧ Ev .testlistComp c r c' := by
  cases es with
  | nil => exact absurd rfl hne
  | cons e es =>
    rw [wordsList_cons] at hf
    obtain ⟨d, hf1, hf2⟩ := fed_append.1 hf
    obtain ⟨x, hx, ex⟩ := hi e (by simp) c d hf1 (tail_closes hf2 hc)
    obtain ⟨u, hu, hk⟩ := tail_closes hf2 hc
    have n1 : u.kind ≠ .PyFor := by rcases hk with h | h | h | h | h <;> rw [h] <;> simp
    have n2 : u.kind ≠ .PyAsync := by rcases hk with h | h | h | h | h <;> rw [h] <;> simp
    by_cases hcm : u.kind = .PyComa
    · obtain ⟨r, hr, hev⟩ := items_loop (loop := .testlistCompLoop) (tag := .TestListComp) (f := Ex.sk)
        (Item := fun c x d => EvP starOrNamed c x d)
        (fun s nodes seps c t x d r c' h1 h2 h3 h4 => ev_body (by
          simp only [body, testlistCompLoopBody]
          refine evp_bind (evp_symHere h1) ?_
          simp only [h2, if_true]
          exact evp_bind evp_next (evp_bind h3 (evp_parse h4))))
        (fun s nodes seps c t h1 h2 => ev_body (by
          simp only [body, testlistCompLoopBody]
          refine evp_bind (evp_symHere h1) ?_
          simp only [h2, if_false]
          exact evp_mk))
        es (fun e' he' => hi e' (by simp [he'])) c.lex.tokStart [x] [] d c' (by simp) hf2 hc
      refine ⟨r, ?_, ev_body ?_⟩
      · rw [hr, sksOf_eq, List.map_cons, listSk]
        · simp [skList, hx, commas]
        · simp
      · simp only [body, testlistCompBody]
        refine evp_bind evp_here (evp_bind ex (evp_bind (evp_symHere hu) ?_))
        simp only [hcm, reduceCtorEq, or_self, if_true, if_false]
        exact evp_parse hev
    · have : es = [] := by
        cases es with
        | nil => rfl
        | cons e' es =>
          rw [tailWords] at hf2
          obtain ⟨t, h1, h2, _⟩ := fed_cons hf2
          rw [hu] at h1
          cases h1
          exact absurd (kind_of_leaf h2) hcm
      subst this
      cases fed_nil hf2
      refine ⟨.node .TestListComp c.lex.tokStart c'.lex.tokStart [.seq [x].reverse, .toks []], ?_, ev_body ?_⟩
      · simp [Tree.sk, skList, sksOf, listSk, hx, Tree.toks, commas]
      · simp only [body, testlistCompBody]
        refine evp_bind evp_here (evp_bind ex (evp_bind (evp_symHere hu) ?_))
        simp only [n1, n2, hcm, or_self, if_false]
        exact evp_mk

theorem subscript_ev {e : Ex} (hw : e.Wf) (hl : e.level ≤ 15 ∨ e.level = 18) (g : e.level ≤ 15 → Good' e)
    (gs : ∀ a b d, e = .slice a b d → Good' a ∧ Good' b ∧ Good' d) {c c'} (hf : Fed c e.words c') (hc : Closes c') :
    ∃ x : Tree, x.sk = subSk e e.sk ∧ Ev .subscript c x c' := by
  obtain ⟨u, m, hu, hs, hm⟩ := fed_first hw hf
  have n0 : u.kind ≠ .PyColon := by intro h; rw [h] at hs; cases hs
  rcases hl with h | h
  · obtain ⟨t, ht, hev⟩ := (g h).parses 15 h (by omega) c c' hf (hc.ends _)
    obtain ⟨v, hv, hk⟩ := hc
    have n1 : v.kind ≠ .PyColon := by rcases hk with h | h | h | h | h <;> rw [h] <;> simp
    refine ⟨.node .Subscript c.lex.tokStart c'.lex.tokStart [t, .none, .none, .none, .none], ?_, ev_body ?_⟩
    · cases e <;> first | (simp [Ex.level] at h; done) | simp only [Tree.sk, skList, subSk, ht]
    · simp only [body, subscriptBody]
      refine evp_bind evp_here (evp_bind (evp_symHere hu) ?_)
      simp only [n0, if_false]
      refine evp_bind (evp_parse hev) (evp_bind (evp_symHere hv) ?_)
      simp only [n1, if_false]
      exact evp_mk
  · obtain ⟨a, b, d, rfl⟩ := level_slice h
    obtain ⟨ga, gb, gd⟩ := gs a b d rfl
    rw [Ex.Wf] at hw
    rw [Ex.words] at hf
    obtain ⟨wa, wb, wd, la, lb, ld⟩ := hw
    obtain ⟨c1, fa, hf⟩ := fed_append.1 hf
    obtain ⟨t1, h1, l1, hf⟩ := fed_cons hf
    obtain ⟨c2, fb, hf⟩ := fed_append.1 hf
    obtain ⟨t2, h2, l2, fd⟩ := fed_cons hf
    have k1 : t1.kind = .PyColon := kind_of_leaf l1
    have k2 : t2.kind = .PyColon := kind_of_leaf l2
    obtain ⟨ta, hta, ea⟩ := ga.parses 15 la (by omega) _ _ fa (ends_of_symbol h1 k1 (by intro m h; cases h))
    obtain ⟨tb, htb, eb⟩ := gb.parses 15 lb (by omega) _ _ fb (ends_of_symbol h2 k2 (by intro m h; cases h))
    obtain ⟨td, htd, ed⟩ := gd.parses 15 ld (by omega) _ _ fd (hc.ends _)
    obtain ⟨ub, mb, hub, hsb, hmb⟩ := fed_first wb fb
    obtain ⟨ud, md, hud, hsd, hmd⟩ := fed_first wd fd
    have n1 : ub.kind ≠ .PyColon := by intro h; rw [h] at hsb; cases hsb
    have n2 : ub.kind ≠ .PyRightBracket := by intro h; rw [h] at hsb; cases hsb
    have n3 : ud.kind ≠ .PyColon := by intro h; rw [h] at hsd; cases hsd
    have n4 : ud.kind ≠ .PyRightBracket := by intro h; rw [h] at hsd; cases hsd
    refine ⟨.node .Subscript c.lex.tokStart c'.lex.tokStart [ta, .tok t1, tb, .tok t2, td], ?_, ev_body ?_⟩
    · simp only [Tree.sk, skList, subSk, Ex.sk, hta, htb, htd, l1, l2, kd, Lexeme.leaf]
    · simp only [body, subscriptBody]
      refine evp_bind evp_here (evp_bind (evp_symHere hu) ?_)
      simp only [n0, if_false]
      refine evp_bind (evp_parse ea) (evp_bind (evp_symHere h1) ?_)
      simp only [k1, if_true]
      refine evp_bind evp_next (evp_bind (evp_symHere hub) ?_)
      simp only [n1, n2, or_self, if_false]
      refine evp_bind (evp_parse eb) (evp_bind (evp_symHere h2) (evp_bind evp_next (evp_bind (evp_symHere hud) ?_)))
      simp only [n3, n4, or_self, if_false]
      exact evp_bind (evp_parse ed) evp_mk

theorem subscriptList_ev {es : List Ex} (hne : es ≠ [])
    (hi : ∀ e ∈ es, ∀ c c', Fed c e.words c' → Closes c' → ∃ x : Tree, x.sk = subSk e e.sk ∧ Ev .subscript c x c')
    {c c'} (hf : Fed c (wordsList es) c') (hc : ClosesList c') :
    ∃ r : Tree, r.sk = listSk .SubscriptList (subsOf es) ∧ Ev .subscriptList c r c' := by
  cases es with
  | nil => exact absurd rfl hne
  | cons e es =>
    rw [wordsList_cons] at hf
    obtain ⟨d, hf1, hf2⟩ := fed_append.1 hf
    obtain ⟨x, hx, ex⟩ := hi e (by simp) c d hf1 (tail_closes hf2 hc)
    obtain ⟨r, hr, hev⟩ := items_loop (loop := .subscriptListLoop) (tag := .SubscriptList) (f := fun e => subSk e e.sk)
      (Item := fun c x d => Ev .subscript c x d)
      (fun s nodes seps c t x d r c' h1 h2 h3 h4 => ev_body (by
        simp only [body, subscriptListLoopBody]
        refine evp_bind (evp_symHere h1) ?_
        simp only [h2, if_true]
        exact evp_bind evp_next (evp_bind (evp_parse h3) (evp_parse h4))))
      (fun s nodes seps c t h1 h2 => ev_body (by
        simp only [body, subscriptListLoopBody]
        refine evp_bind (evp_symHere h1) ?_
        simp only [h2, if_false]
        exact evp_mk))
      es (fun e' he' => hi e' (by simp [he'])) c.lex.tokStart [x] [] d c' (by simp) hf2 hc
    refine ⟨r, ?_, ev_body ?_⟩
    · rw [hr, subsOf_eq, List.map_cons, listSk]
      · simp [skList, hx, commas]
      · simp
    · simp only [body, subscriptListBody]
      exact evp_bind evp_here (evp_bind (evp_parse ex) (evp_parse hev))

theorem set_ev {es : List Ex} (hne : es ≠ []) (hw : ∀ e ∈ es, e.Wf ∧ e.level ≤ 15)
    (hi : ∀ e ∈ es, ∀ c c', Fed c e.words c' → Closes c' → ∃ x : Tree, x.sk = e.sk ∧ Ev .test c x c')
    {c c'} (hf : Fed c (wordsList es) c') (hc : ClosesList c') :
    ∃ r : Tree, r.sk = listSk .SetContainer (sksOf es) ∧ Ev .dictorsetMaker c r c' := by
  cases es with
  | nil => exact absurd rfl hne
  | cons e es =>
    rw [wordsList_cons] at hf
    obtain ⟨d, hf1, hf2⟩ := fed_append.1 hf
    obtain ⟨x, hx, ex⟩ := hi e (by simp) c d hf1 (tail_closes hf2 hc)
    obtain ⟨v, m, hv, hs, hm⟩ := fed_first (hw e (by simp)).1 hf1
    have hl := (hw e (by simp)).2
    have n1 : v.kind ≠ .PyMul := starts_ne hs hm (by intro m' h'; cases h'; omega)
    have n2 : v.kind ≠ .PyPower := by intro h; rw [h] at hs; cases hs
    obtain ⟨u, hu, hk⟩ := tail_closes hf2 hc
    have n3 : u.kind ≠ .PyColon := by rcases hk with h | h | h | h | h <;> rw [h] <;> simp
    obtain ⟨r, hr, hev⟩ := items_loop (loop := .setLoop) (tag := .SetContainer) (f := Ex.sk)
      (Item := fun c x d => (∃ u, c.symbol = .ok u ∧ u.kind ≠ .PyRightCurly ∧ u.kind ≠ .PyComa ∧ u.kind ≠ .PyMul) ∧
        Ev .test c x d)
      (fun s nodes seps c t x d r c' h1 h2 h3 h4 => ev_body (by
        obtain ⟨⟨u, hu, m1, m2, m3⟩, h3⟩ := h3
        simp only [body, setLoopBody]
        refine evp_bind (evp_symHere h1) ?_
        simp only [h2, if_true]
        refine evp_bind evp_next (evp_bind (evp_symHere hu) ?_)
        simp only [m1, m2, m3, if_false]
        exact evp_bind (evp_parse h3) (evp_parse h4)))
      (fun s nodes seps c t h1 h2 => ev_body (by
        simp only [body, setLoopBody]
        refine evp_bind (evp_symHere h1) ?_
        simp only [h2, if_false]
        exact evp_mk))
      es (fun e' he' c c' hf hc => by
        obtain ⟨x, hx, ex⟩ := hi e' (by simp [he']) c c' hf hc
        obtain ⟨v, m, hv, hs, hm⟩ := fed_first (hw e' (by simp [he'])).1 hf
        have hl := (hw e' (by simp [he'])).2
        exact ⟨x, hx, ⟨v, hv, (by intro h; rw [h] at hs; cases hs), (by intro h; rw [h] at hs; cases hs),
          starts_ne hs hm (by intro m' h'; cases h'; omega)⟩, ex⟩)
      c.lex.tokStart [x] [] d c' (by simp) hf2 hc
    refine ⟨r, ?_, ev_body ?_⟩
    · rw [hr, sksOf_eq, List.map_cons, listSk]
      · simp [skList, hx, commas]
      · simp
    · simp only [body, dictorsetMakerBody]
      refine evp_bind evp_here (evp_bind (evp_symHere hv) ?_)
      simp only [n1, n2, if_false]
      refine evp_bind (evp_parse ex) (evp_bind (evp_symHere hu) ?_)
      simp only [n3, if_false]
      exact evp_parse hev

/-! ### Atoms -/

/-- Adjacent strings. -/
theorem strs_ev : ∀ (l : List (List Char × Char × List Char)) s toks c c',
    Fed c (l.map fun x => Lexeme.str x.1 x.2.1 x.2.2) c' → EndsExpr 0 c' →
    ∃ r : Tree, r.sk = .node .AtomString [.seq (skList (toks.map .tok) ++ l.map fun x => (Lexeme.str x.1 x.2.1 x.2.2).sk)] ∧
      Ev (.atomStrLoop s toks) c r c' := by
  intro l
  induction l with
  | nil =>
    intro s toks c c' hf he
    cases fed_nil hf
    obtain ⟨u, hu, hk⟩ := he
    have n1 : u.kind ≠ .AtomString := continues_ne hk ⟨0, rfl, Nat.le_refl _⟩
    refine ⟨.node .AtomString s c.lex.tokStart [.toks toks], ?_, ev_body ?_⟩
    · simp only [Tree.sk, skList, Tree.toks, List.map_nil, List.append_nil]
    · simp only [body, atomStrLoopBody]
      refine evp_bind (evp_sym? hu) ?_
      simp only [n1, if_false]
      exact evp_mk
  | cons x l ih =>
    intro s toks c c' hf he
    rw [List.map_cons] at hf
    obtain ⟨t, ht, hleaf, hf⟩ := fed_cons hf
    obtain ⟨r, hr, hev⟩ := ih s (toks ++ [t]) _ _ hf he
    refine ⟨r, ?_, ev_body ?_⟩
    · rw [hr]
      simp only [List.map_append, skList_append, List.map_cons, List.map_nil, skList, Tree.sk, hleaf, Lexeme.sk,
        List.append_assoc, List.cons_append, List.nil_append]
    · simp only [body, atomStrLoopBody]
      refine evp_bind (evp_sym? ht) ?_
      have hk : t.kind = .AtomString := kind_of_leaf hleaf
      simp only [hk, if_true]
      exact evp_bind evp_next (evp_parse hev)

/-- What the brackets of an atom contain. -/
theorem bracket_closes {c c' : PSt} {x : Lexeme} (h : Fed c [x] c')
    (hx : x.leaf.kind = .PyRightParen ∨ x.leaf.kind = .PyRightBracket ∨ x.leaf.kind = .PyRightCurly) :
    ∃ u, c.symbol = .ok u ∧ u.leaf = x.leaf ∧ c' = c.advance ∧ ClosesList c := by
  obtain ⟨u, h1, h2, h3⟩ := fed_cons h
  exact ⟨u, h1, h2, fed_nil h3, u, h1, by rw [kind_of_leaf h2]; rcases hx with h | h | h <;> simp [h]⟩

theorem wordsList_first {es : List Ex} (hne : es ≠ []) (hw : ∀ e ∈ es, e.Wf) {c c'}
    (hf : Fed c (wordsList es) c') : ∃ u m, c.symbol = .ok u ∧ u.kind.starts = some m := by
  cases es with
  | nil => exact absurd rfl hne
  | cons e es =>
    rw [wordsList_cons] at hf
    obtain ⟨d, hf1, _⟩ := fed_append.1 hf
    obtain ⟨u, m, hu, hs, _⟩ := fed_first (hw e (by simp)) hf1
    exact ⟨u, m, hu, hs⟩

theorem star_good {e : Ex} {es : List Ex} (he : e ∈ es) {k : Nat} (hk : sizeOf es < k)
    (ih : ∀ e', sizeOf e' < k → e'.Wf → Good' e') (hw : e.Wf) : Good' e ∧ (∀ a, e = .star a → Good' a) ∧
      ∀ a b d, e = .slice a b d → Good' a ∧ Good' b ∧ Good' d := by
  have hs := List.sizeOf_lt_of_mem he
  refine ⟨ih e (by omega) hw, ?_, ?_⟩
  · rintro a rfl
    rw [Ex.Wf] at hw
    exact ih a (by simp only [Ex.star.sizeOf_spec] at hs; omega) hw.1
  · rintro a b d rfl
    rw [Ex.Wf] at hw
    simp only [Ex.slice.sizeOf_spec] at hs
    exact ⟨ih a (by omega) hw.1, ih b (by omega) hw.2.1, ih d (by omega) hw.2.2.1⟩

theorem parses_atom {e : Ex} (hw : e.Wf) (ih : ∀ e', sizeOf e' < sizeOf e → e'.Wf → Good' e') :
    e.level = 0 → Parses 0 e := by
  intro hl c c' hf he
  cases e <;> simp [Ex.level] at hl
  case bin op _ _ => cases op <;> simp [BinOp.level] at hl
  case name w =>
    rw [Ex.words] at hf
    obtain ⟨t, ht, hleaf, hf⟩ := fed_cons hf
    cases fed_nil hf
    have hk : t.kind = .AtomName := kind_of_leaf hleaf
    refine ⟨.node .AtomName c.lex.tokStart c.advance.lex.tokStart [.tok t], ?_, ev_body ?_⟩
    · simp only [Tree.sk, skList, Ex.sk, hleaf, Lexeme.leaf]
    · simp only [levelFn, body, atomBody]
      refine evp_bind evp_here (evp_bind (evp_symAt ht) ?_)
      simp only [hk, reduceCtorEq, if_true, if_false]
      exact evp_bind evp_next evp_mk
  case num w =>
    rw [Ex.words] at hf
    obtain ⟨t, ht, hleaf, hf⟩ := fed_cons hf
    cases fed_nil hf
    have hk : t.kind = .AtomNumber := kind_of_leaf hleaf
    refine ⟨.node .AtomNumber c.lex.tokStart c.advance.lex.tokStart [.tok t], ?_, ev_body ?_⟩
    · simp only [Tree.sk, skList, Ex.sk, hleaf, Lexeme.leaf]
    · simp only [levelFn, body, atomBody]
      refine evp_bind evp_here (evp_bind (evp_symAt ht) ?_)
      simp only [hk, reduceCtorEq, if_true, if_false]
      exact evp_bind evp_next evp_mk
  case strs l =>
    rw [Ex.Wf] at hw
    rw [Ex.words] at hf
    cases l with
    | nil => exact absurd rfl hw
    | cons x l =>
      rw [List.map_cons] at hf
      obtain ⟨t, ht, hleaf, hf⟩ := fed_cons hf
      obtain ⟨r, hr, hev⟩ := strs_ev l c.lex.tokStart [t] _ _ hf he
      have hk : t.kind = .AtomString := kind_of_leaf hleaf
      refine ⟨r, ?_, ev_body ?_⟩
      · rw [hr]
        simp only [List.map_cons, List.map_nil, skList, Tree.sk, hleaf, Lexeme.sk, Ex.sk, List.cons_append, List.nil_append]
      · simp only [levelFn, body, atomBody]
        refine evp_bind evp_here (evp_bind (evp_symAt ht) ?_)
        simp only [hk, reduceCtorEq, if_true, if_false]
        exact evp_bind evp_next (evp_parse hev)
  case const k =>
    rw [Ex.words] at hf
    obtain ⟨t, ht, hleaf, hf⟩ := fed_cons hf
    cases fed_nil hf
    have hk := kind_of_leaf hleaf
    refine ⟨.node k.tag c.lex.tokStart c.advance.lex.tokStart [.tok t], ?_, ev_body ?_⟩
    · simp only [Tree.sk, skList, Ex.sk, hleaf, Lexeme.sk]
    · simp only [levelFn, body, atomBody]
      refine evp_bind evp_here (evp_bind (evp_symAt ht) ?_)
      cases k <;> simp only [Const.word, Lexeme.leaf, Leaf.kind] at hk <;>
        simp only [hk, reduceCtorEq, if_true, if_false] <;>
        exact evp_bind evp_next evp_mk
  case tuple es =>
    rw [Ex.Wf] at hw
    rw [Ex.words] at hf
    obtain ⟨t, ht, hleaf, hf⟩ := fed_cons hf
    obtain ⟨d, hf1, hf3⟩ := fed_append.1 hf
    obtain ⟨u, hu, hleafu, rfl, hcl⟩ := bracket_closes hf3 (.inl rfl)
    have hk : t.kind = .PyLeftParen := kind_of_leaf hleaf
    have hku : u.kind = .PyRightParen := kind_of_leaf hleafu
    have hwm := wfList_mem hw
    by_cases hne : es = []
    · subst hne
      rw [wordsList] at hf1
      cases fed_nil hf1
      refine ⟨.node .AtomTuple c.lex.tokStart c.advance.advance.lex.tokStart [.tok t, .none, .tok u], ?_, ev_body ?_⟩
      · simp only [Tree.sk, skList, Ex.sk, sksOf, listSk, hleaf, hleafu, Lexeme.leaf, kd]
      · simp only [levelFn, body, atomBody]
        refine evp_bind evp_here (evp_bind (evp_symAt ht) ?_)
        simp only [hk, reduceCtorEq, if_true, if_false]
        refine evp_bind evp_next (evp_bind (evp_symAt hu) ?_)
        simp only [hku, reduceCtorEq, if_true, if_false]
        refine evp_bind evp_pure (evp_bind (evp_symAt hu) ?_)
        simp only [hku, if_true]
        exact evp_bind evp_next evp_mk
    · obtain ⟨v, m, hv, hs⟩ := wordsList_first hne (fun e he => (hwm e he).1) hf1
      have n1 : v.kind ≠ .PyYield := by intro h; rw [h] at hs; cases hs
      have n2 : v.kind ≠ .PyRightParen := by intro h; rw [h] at hs; cases hs
      obtain ⟨r, hr, hev⟩ := testlistComp_ev hne (fun e he c c' hf hc => by
        have hg := star_good he (k := sizeOf (Ex.tuple es)) (by simp) ih (hwm e he).1
        exact starOrNamed_ev (hwm e he).1 (hwm e he).2 (fun _ => hg.1) hg.2.1 hf (hc.ends _)) hf1 hcl
      refine ⟨.node .AtomTuple c.lex.tokStart d.advance.lex.tokStart [.tok t, r, .tok u], ?_, ev_body ?_⟩
      · simp only [Tree.sk, skList, Ex.sk, hr, hleaf, hleafu, Lexeme.leaf, kd]
      · simp only [levelFn, body, atomBody]
        refine evp_bind evp_here (evp_bind (evp_symAt ht) ?_)
        simp only [hk, reduceCtorEq, if_true, if_false]
        refine evp_bind evp_next (evp_bind (evp_symAt hv) ?_)
        simp only [n1, n2, if_false]
        refine evp_bind (evp_parse hev) (evp_bind (evp_symAt hu) ?_)
        simp only [hku, if_true]
        exact evp_bind evp_next evp_mk
  case list es =>
    rw [Ex.Wf] at hw
    rw [Ex.words] at hf
    obtain ⟨t, ht, hleaf, hf⟩ := fed_cons hf
    obtain ⟨d, hf1, hf3⟩ := fed_append.1 hf
    obtain ⟨u, hu, hleafu, rfl, hcl⟩ := bracket_closes hf3 (.inr (.inl rfl))
    have hk : t.kind = .PyLeftBracket := kind_of_leaf hleaf
    have hku : u.kind = .PyRightBracket := kind_of_leaf hleafu
    have hwm := wfList_mem hw
    by_cases hne : es = []
    · subst hne
      rw [wordsList] at hf1
      cases fed_nil hf1
      refine ⟨.node .AtomList c.lex.tokStart c.advance.advance.lex.tokStart [.tok t, .none, .tok u], ?_, ev_body ?_⟩
      · simp only [Tree.sk, skList, Ex.sk, sksOf, listSk, hleaf, hleafu, Lexeme.leaf, kd]
      · simp only [levelFn, body, atomBody]
        refine evp_bind evp_here (evp_bind (evp_symAt ht) ?_)
        simp only [hk, reduceCtorEq, if_true, if_false]
        refine evp_bind evp_next (evp_bind (evp_symAt hu) ?_)
        simp only [hku, reduceCtorEq, if_true, if_false]
        refine evp_bind evp_pure (evp_bind (evp_symAt hu) ?_)
        simp only [hku, if_true]
        exact evp_bind evp_next evp_mk
    · obtain ⟨v, m, hv, hs⟩ := wordsList_first hne (fun e he => (hwm e he).1) hf1
      have n2 : v.kind ≠ .PyRightBracket := by intro h; rw [h] at hs; cases hs
      obtain ⟨r, hr, hev⟩ := testlistComp_ev hne (fun e he c c' hf hc => by
        have hg := star_good he (k := sizeOf (Ex.list es)) (by simp) ih (hwm e he).1
        exact starOrNamed_ev (hwm e he).1 (hwm e he).2 (fun _ => hg.1) hg.2.1 hf (hc.ends _)) hf1 hcl
      refine ⟨.node .AtomList c.lex.tokStart d.advance.lex.tokStart [.tok t, r, .tok u], ?_, ev_body ?_⟩
      · simp only [Tree.sk, skList, Ex.sk, hr, hleaf, hleafu, Lexeme.leaf, kd]
      · simp only [levelFn, body, atomBody]
        refine evp_bind evp_here (evp_bind (evp_symAt ht) ?_)
        simp only [hk, reduceCtorEq, if_true, if_false]
        refine evp_bind evp_next (evp_bind (evp_symAt hv) ?_)
        simp only [n2, if_false]
        refine evp_bind (evp_parse hev) (evp_bind (evp_symAt hu) ?_)
        simp only [hku, if_true]
        exact evp_bind evp_next evp_mk
  case set es =>
    rw [Ex.Wf] at hw
    obtain ⟨hne, hw⟩ := hw
    rw [Ex.words] at hf
    obtain ⟨t, ht, hleaf, hf⟩ := fed_cons hf
    obtain ⟨d, hf1, hf3⟩ := fed_append.1 hf
    obtain ⟨u, hu, hleafu, rfl, hcl⟩ := bracket_closes hf3 (.inr (.inr rfl))
    have hk : t.kind = .PyLeftCurly := kind_of_leaf hleaf
    have hku : u.kind = .PyRightCurly := kind_of_leaf hleafu
    have hwm := wfList_mem hw
    obtain ⟨v, m, hv, hs⟩ := wordsList_first hne (fun e he => (hwm e he).1) hf1
    have n2 : v.kind ≠ .PyRightCurly := by intro h; rw [h] at hs; cases hs
    obtain ⟨r, hr, hev⟩ := set_ev hne hwm (fun e he c c' hf hc => by
      have hg := star_good he (k := sizeOf (Ex.set es)) (by simp) ih (hwm e he).1
      exact hg.1.parses 15 (hwm e he).2 (by omega) c c' hf (hc.ends _)) hf1 hcl
    have htag : r.tag? = some .SetContainer := by
      cases es with
      | nil => exact absurd rfl hne
      | cons e es => cases r <;> simp [Tree.sk, sksOf, listSk] at hr; simp [Tree.tag?, hr]
    refine ⟨.node .AtomSet c.lex.tokStart d.advance.lex.tokStart [.tok t, r, .tok u], ?_, ev_body ?_⟩
    · simp only [Tree.sk, skList, Ex.sk, hr, hleaf, hleafu, Lexeme.leaf, kd]
    · simp only [levelFn, body, atomBody]
      refine evp_bind evp_here (evp_bind (evp_symAt ht) ?_)
      simp only [hk, reduceCtorEq, if_true, if_false]
      refine evp_bind evp_next (evp_bind (evp_symAt hv) ?_)
      simp only [n2, if_false]
      refine evp_bind (evp_parse hev) (evp_bind evp_pure (evp_bind (evp_symAt hu) ?_))
      simp only [hku, if_true]
      refine evp_bind evp_next ?_
      simp only [htag, Option.some.injEq, reduceCtorEq, if_true, if_false]
      exact evp_mk
  case dict1 k v =>
    rw [Ex.Wf] at hw
    obtain ⟨wk, wv, lk, lv⟩ := hw
    rw [Ex.words] at hf
    obtain ⟨t, ht, hleaf, hf⟩ := fed_cons hf
    obtain ⟨c1, fk, hf⟩ := fed_append.1 hf
    obtain ⟨t1, h1, l1, hf⟩ := fed_cons hf
    obtain ⟨c2, fv, hf⟩ := fed_append.1 hf
    obtain ⟨u, hu, hleafu, rfl, hcl⟩ := bracket_closes hf (.inr (.inr rfl))
    have hk : t.kind = .PyLeftCurly := kind_of_leaf hleaf
    have k1 : t1.kind = .PyColon := kind_of_leaf l1
    have hku : u.kind = .PyRightCurly := kind_of_leaf hleafu
    obtain ⟨tk, htk, ek⟩ := (ih k (by ex_size) wk).parses 15 lk (by omega) _ _ fk (ends_of_symbol h1 k1 (by intro m h; cases h))
    obtain ⟨tv, htv, ev⟩ := (ih v (by ex_size) wv).parses 15 lv (by omega) _ _ fv (hcl.closes.ends _)
    obtain ⟨w, m, hw, hs, hm⟩ := fed_first wk fk
    have n1 : w.kind ≠ .PyMul := starts_ne hs hm (by intro m' h'; cases h'; omega)
    have n2 : w.kind ≠ .PyPower := by intro h; rw [h] at hs; cases hs
    have n3 : w.kind ≠ .PyRightCurly := by intro h; rw [h] at hs; cases hs
    have hev : Ev .dictorsetMaker c.advance (.node .DictionaryContainer c.advance.lex.tokStart c2.lex.tokStart
        [.seq [.node .DictionaryEntry c.advance.lex.tokStart c2.lex.tokStart [tk, .tok t1, tv]], .toks []]) c2 := by
      refine ev_body ?_
      simp only [body, dictorsetMakerBody]
      refine evp_bind evp_here (evp_bind (evp_symHere hw) ?_)
      simp only [n1, n2, if_false]
      refine evp_bind (evp_parse ek) (evp_bind (evp_symHere h1) ?_)
      simp only [k1, if_true]
      refine evp_bind evp_next (evp_bind (evp_parse ev) (evp_bind evp_mk ?_))
      rw [dictRest]
      refine evp_bind (evp_symHere hu) ?_
      simp only [hku, reduceCtorEq, if_false]
      exact evp_mk
    refine ⟨.node .AtomDictionary c.lex.tokStart c2.advance.lex.tokStart [.tok t, .node .DictionaryContainer c.advance.lex.tokStart c2.lex.tokStart
        [.seq [.node .DictionaryEntry c.advance.lex.tokStart c2.lex.tokStart [tk, .tok t1, tv]], .toks []], .tok u], ?_, ev_body ?_⟩
    · simp [Tree.sk, skList, Ex.sk, htk, htv, l1, hleaf, hleafu, Lexeme.leaf, kd, listSk, Tree.toks, commas]
    · simp only [levelFn, body, atomBody]
      refine evp_bind evp_here (evp_bind (evp_symAt ht) ?_)
      simp only [hk, reduceCtorEq, if_true, if_false]
      refine evp_bind evp_next (evp_bind (evp_symAt hw) ?_)
      simp only [n3, if_false]
      refine evp_bind (evp_parse hev) (evp_bind evp_pure (evp_bind (evp_symAt hu) ?_))
      simp only [hku, if_true]
      refine evp_bind evp_next ?_
      simp only [Tree.tag?, if_true]
      exact evp_mk
  case dict2 k v k' v' =>
    rw [Ex.Wf] at hw
    obtain ⟨wk, wv, wk', wv', lk, lv, lk', lv'⟩ := hw
    rw [Ex.words] at hf
    obtain ⟨t, ht, hleaf, hf⟩ := fed_cons hf
    obtain ⟨c1, fk, hf⟩ := fed_append.1 hf
    obtain ⟨t1, h1, l1, hf⟩ := fed_cons hf
    obtain ⟨c2, fv, hf⟩ := fed_append.1 hf
    obtain ⟨t2, h2, l2, hf⟩ := fed_cons hf
    obtain ⟨c3, fk', hf⟩ := fed_append.1 hf
    obtain ⟨t3, h3, l3, hf⟩ := fed_cons hf
    obtain ⟨c4, fv', hf⟩ := fed_append.1 hf
    obtain ⟨u, hu, hleafu, rfl, hcl⟩ := bracket_closes hf (.inr (.inr rfl))
    have hk : t.kind = .PyLeftCurly := kind_of_leaf hleaf
    have k1 : t1.kind = .PyColon := kind_of_leaf l1
    have k2 : t2.kind = .PyComa := kind_of_leaf l2
    have k3 : t3.kind = .PyColon := kind_of_leaf l3
    have hku : u.kind = .PyRightCurly := kind_of_leaf hleafu
    obtain ⟨tk, htk, ek⟩ := (ih k (by ex_size) wk).parses 15 lk (by omega) _ _ fk (ends_of_symbol h1 k1 (by intro m h; cases h))
    obtain ⟨tv, htv, ev⟩ := (ih v (by ex_size) wv).parses 15 lv (by omega) _ _ fv (ends_of_symbol h2 k2 (by intro m h; cases h))
    obtain ⟨tk', htk', ek'⟩ := (ih k' (by ex_size) wk').parses 15 lk' (by omega) _ _ fk' (ends_of_symbol h3 k3 (by intro m h; cases h))
    obtain ⟨tv', htv', ev'⟩ := (ih v' (by ex_size) wv').parses 15 lv' (by omega) _ _ fv' (hcl.closes.ends _)
    obtain ⟨w, m, hw, hs, hm⟩ := fed_first wk fk
    have n1 : w.kind ≠ .PyMul := starts_ne hs hm (by intro m' h'; cases h'; omega)
    have n2 : w.kind ≠ .PyPower := by intro h; rw [h] at hs; cases hs
    have n3 : w.kind ≠ .PyRightCurly := by intro h; rw [h] at hs; cases hs
    obtain ⟨w', m', hw', hs', hm'⟩ := fed_first wk' fk'
    have n1' : w'.kind ≠ .PyComa := by intro h; rw [h] at hs'; cases hs'
    have n2' : w'.kind ≠ .PyPower := by intro h; rw [h] at hs'; cases hs'
    have n3' : w'.kind ≠ .PyRightCurly := by intro h; rw [h] at hs'; cases hs'
    have hev : Ev .dictorsetMaker c.advance (.node .DictionaryContainer c.advance.lex.tokStart c4.lex.tokStart
        [.seq [.node .DictionaryEntry c.advance.lex.tokStart c4.lex.tokStart [tk', .tok t3, tv'],
          .node .DictionaryEntry c.advance.lex.tokStart c2.lex.tokStart [tk, .tok t1, tv]], .toks [t2]]) c4 := by
      refine ev_body ?_
      simp only [body, dictorsetMakerBody]
      refine evp_bind evp_here (evp_bind (evp_symHere hw) ?_)
      simp only [n1, n2, if_false]
      refine evp_bind (evp_parse ek) (evp_bind (evp_symHere h1) ?_)
      simp only [k1, if_true]
      refine evp_bind evp_next (evp_bind (evp_parse ev) (evp_bind evp_mk ?_))
      rw [dictRest]
      refine evp_bind (evp_symHere h2) ?_
      simp only [k2, if_true]
      refine evp_bind evp_next (evp_bind (evp_symHere hw') ?_)
      simp only [n1', n2', n3', if_false]
      refine evp_bind (evp_parse ek') (evp_bind (evp_symHere h3) ?_)
      simp only [k3, if_true]
      exact evp_bind evp_next (evp_bind (evp_parse ev') (evp_bind evp_mk evp_mk))
    refine ⟨.node .AtomDictionary c.lex.tokStart c4.advance.lex.tokStart [.tok t, .node .DictionaryContainer c.advance.lex.tokStart c4.lex.tokStart
        [.seq [.node .DictionaryEntry c.advance.lex.tokStart c4.lex.tokStart [tk', .tok t3, tv'],
          .node .DictionaryEntry c.advance.lex.tokStart c2.lex.tokStart [tk, .tok t1, tv]], .toks [t2]], .tok u], ?_, ev_body ?_⟩
    · simp [Tree.sk, skList, Ex.sk, htk, htv, htk', htv', l1, l2, l3, hleaf, hleafu, Lexeme.leaf, kd, listSk, Tree.toks, commas]
    · simp only [levelFn, body, atomBody]
      refine evp_bind evp_here (evp_bind (evp_symAt ht) ?_)
      simp only [hk, reduceCtorEq, if_true, if_false]
      refine evp_bind evp_next (evp_bind (evp_symAt hw) ?_)
      simp only [n3, if_false]
      refine evp_bind (evp_parse hev) (evp_bind evp_pure (evp_bind (evp_symAt hu) ?_))
      simp only [hku, if_true]
      refine evp_bind evp_next ?_
      simp only [Tree.tag?, if_true]
      exact evp_mk

/-! ### Trailers -/

theorem trailer_step {s aw b lst c x d r c' t} (ht : c.symbol = .ok t)
    (hk : t.kind = .PyLeftParen ∨ t.kind = .PyLeftBracket ∨ t.kind = .PyDot) (hx : Ev .trailer c x d)
    (h : Ev (.trailerLoop s aw b (lst ++ [x])) d r c') : Ev (.trailerLoop s aw b lst) c r c' := by
  refine ev_body ?_
  simp only [body, trailerLoopBody]
  refine evp_bind (evp_sym? ht) ?_
  simp only [hk, if_true]
  exact evp_bind (evp_parse hx) (evp_parse h)

theorem chain_ok {e : Ex} (hw : e.Wf) (ih : ∀ e', sizeOf e' < sizeOf e → e'.Wf → Good' e') (p0 : e.level = 0 → Parses 0 e) :
    e.level ≤ 1 → Chain e := by
  intro hl c c' hf he
  by_cases h0 : e.level = 0
  · obtain ⟨t, ht, hev⟩ := p0 h0 c c' hf he
    have htr : e.trailers = [] := by
      cases e <;> simp [Ex.level] at h0 <;> first | rfl | (cases ‹BinOp› <;> simp [BinOp.level] at h0) | simp only [Ex.trailers]
    refine ⟨t, [], c', ?_, by rw [htr]; rfl, hev, fun _ _ _ _ h => h⟩
    rw [ht, sk_chain hl, htr, atomWith]
  · cases e <;> simp [Ex.level] at h0 hl
    case bin op _ _ => cases op <;> simp [BinOp.level] at hl
    case attr e w =>
      rw [Ex.Wf] at hw
      rw [Ex.words] at hf
      obtain ⟨d, hfe, hf⟩ := fed_append.1 hf
      obtain ⟨t, ht, hleaf, hf⟩ := fed_cons hf
      obtain ⟨t', ht', hleaf', hf⟩ := fed_cons hf
      cases fed_nil hf
      have hk : t.kind = .PyDot := kind_of_leaf hleaf
      have hk' : t'.kind = .AtomName := kind_of_leaf hleaf'
      obtain ⟨b, lst, d0, hb, hlst, ha, hloop⟩ := (ih e (by ex_size) hw.1).chain hw.2 c d hfe
        (ends_of_symbol ht hk (by intro m h; cases h; omega))
      refine ⟨b, lst ++ [.node .DotNameTrailer d.lex.tokStart d.advance.advance.lex.tokStart [.tok t, .tok t']], d0,
        by rw [hb, Ex.atom], ?_, ha, fun s aw r c'' h => hloop s aw r c'' (trailer_step ht (.inr (.inr hk)) (ev_body ?_) h)⟩
      · simp only [skList_append, hlst, skList, Tree.sk, Ex.trailers, hleaf, hleaf', kd, Lexeme.leaf]
      · simp only [body, trailerBody]
        refine evp_bind evp_here (evp_bind (evp_symHere ht) ?_)
        simp only [hk, reduceCtorEq, if_true, if_false]
        refine evp_bind evp_next (evp_bind (evp_symHere ht') ?_)
        simp only [hk', if_true]
        exact evp_bind evp_next evp_mk
    case call e es =>
      rw [Ex.Wf] at hw
      rw [Ex.words] at hf
      obtain ⟨d, hfe, hf⟩ := fed_append.1 hf
      obtain ⟨t, ht, hleaf, hf⟩ := fed_cons hf
      obtain ⟨d1, hfs, hf⟩ := fed_append.1 hf
      obtain ⟨u, hu, hleafu, rfl, hcl⟩ := bracket_closes hf (.inl rfl)
      have hk : t.kind = .PyLeftParen := kind_of_leaf hleaf
      have hku : u.kind = .PyRightParen := kind_of_leaf hleafu
      have hwm := wfList_mem hw.2.2
      obtain ⟨b, lst, d0, hb, hlst, ha, hloop⟩ := (ih e (by ex_size) hw.1).chain hw.2.1 c d hfe
        (ends_of_symbol ht hk (by intro m h; cases h; omega))
      by_cases hne : es = []
      · subst hne
        rw [wordsList] at hfs
        cases fed_nil hfs
        refine ⟨b, lst ++ [.node .CallTrailer d.lex.tokStart d.advance.advance.lex.tokStart [.tok t, .none, .tok u]], d0,
          by rw [hb, Ex.atom], ?_, ha, fun s aw r c'' h => hloop s aw r c'' (trailer_step ht (.inl hk) (ev_body ?_) h)⟩
        · simp only [skList_append, hlst, skList, Tree.sk, Ex.trailers, hleaf, hleafu, kd, Lexeme.leaf, subsOf, listSk]
        · simp only [body, trailerBody]
          refine evp_bind evp_here (evp_bind (evp_symHere ht) ?_)
          simp only [hk, if_true]
          refine evp_bind evp_next (evp_bind (evp_symHere hu) ?_)
          simp only [hku, if_true]
          refine evp_bind evp_pure (evp_bind (evp_symHere hu) ?_)
          simp only [hku, if_true]
          exact evp_bind evp_next evp_mk
      · obtain ⟨x, hx, hev⟩ := subscriptList_ev hne (fun e' he' c c' hf hc => by
          have hg := star_good he' (k := sizeOf (Ex.call e es)) (by ex_size) ih (hwm e' he').1
          exact subscript_ev (hwm e' he').1 (.inl (hwm e' he').2) (fun _ => hg.1) hg.2.2 hf hc) hfs hcl
        obtain ⟨v, m, hv, hs⟩ := wordsList_first hne (fun e he => (hwm e he).1) hfs
        have n2 : v.kind ≠ .PyRightParen := by intro h; rw [h] at hs; cases hs
        refine ⟨b, lst ++ [.node .CallTrailer d.lex.tokStart d1.advance.lex.tokStart [.tok t, x, .tok u]], d0,
          by rw [hb, Ex.atom], ?_, ha, fun s aw r c'' h => hloop s aw r c'' (trailer_step ht (.inl hk) (ev_body ?_) h)⟩
        · simp only [skList_append, hlst, skList, Tree.sk, Ex.trailers, hleaf, hleafu, kd, Lexeme.leaf, hx]
        · simp only [body, trailerBody]
          refine evp_bind evp_here (evp_bind (evp_symHere ht) ?_)
          simp only [hk, if_true]
          refine evp_bind evp_next (evp_bind (evp_symHere hv) ?_)
          simp only [n2, if_false]
          refine evp_bind (evp_parse hev) (evp_bind (evp_symHere hu) ?_)
          simp only [hku, if_true]
          exact evp_bind evp_next evp_mk
    case index e es =>
      rw [Ex.Wf] at hw
      rw [Ex.words] at hf
      obtain ⟨d, hfe, hf⟩ := fed_append.1 hf
      obtain ⟨t, ht, hleaf, hf⟩ := fed_cons hf
      obtain ⟨d1, hfs, hf⟩ := fed_append.1 hf
      obtain ⟨u, hu, hleafu, rfl, hcl⟩ := bracket_closes hf (.inr (.inl rfl))
      have hk : t.kind = .PyLeftBracket := kind_of_leaf hleaf
      have hku : u.kind = .PyRightBracket := kind_of_leaf hleafu
      have hwm := wfArgs_mem hw.2.2.2
      obtain ⟨b, lst, d0, hb, hlst, ha, hloop⟩ := (ih e (by ex_size) hw.1).chain hw.2.1 c d hfe
        (ends_of_symbol ht hk (by intro m h; cases h; omega))
      obtain ⟨x, hx, hev⟩ := subscriptList_ev hw.2.2.1 (fun e' he' c c' hf hc => by
        have hg := star_good he' (k := sizeOf (Ex.index e es)) (by ex_size) ih (hwm e' he').1
        exact subscript_ev (hwm e' he').1 (hwm e' he').2 (fun _ => hg.1) hg.2.2 hf hc) hfs hcl
      refine ⟨b, lst ++ [.node .IndexTrailer d.lex.tokStart d1.advance.lex.tokStart [.tok t, x, .tok u]], d0,
        by rw [hb, Ex.atom], ?_, ha, fun s aw r c'' h => hloop s aw r c'' (trailer_step ht (.inr (.inl hk)) (ev_body ?_) h)⟩
      · simp only [skList_append, hlst, skList, Tree.sk, Ex.trailers, hleaf, hleafu, kd, Lexeme.leaf, hx]
      · simp only [body, trailerBody]
        refine evp_bind evp_here (evp_bind (evp_symHere ht) ?_)
        simp only [hk, reduceCtorEq, if_true, if_false]
        refine evp_bind evp_next (evp_bind (evp_parse hev) (evp_bind (evp_symHere hu) ?_))
        simp only [hku, if_true]
        exact evp_bind evp_next evp_mk

/-! ### The induction -/

theorem good_ex : ∀ (k : Nat) (e : Ex), sizeOf e < k → e.Wf → Good' e := by
  intro k
  induction k with
  | zero => intro e h; omega
  | succ k ihk =>
    intro e hk hw
    have ih : ∀ e', sizeOf e' < sizeOf e → e'.Wf → Good' e' := fun e' h => ihk e' (by omega)
    have p0 := parses_atom hw ih
    have hch := chain_ok hw ih p0
    have p12 := parses_atomExpr hw hch ih
    have p3 := parses_power hw (fun h => p12 h 2 (by omega) (by omega) h) ih
    have p4 := parses_factor hw p3 ih
    have q : ∀ l ∈ [5, 6, 7, 8, 9, 10, 13, 14], (e.level ≤ l - 1 → Parses (l - 1) e) → e.level ≤ l → LeftQ l e := by
      intro l hl p h
      by_cases h' : e.level ≤ l - 1
      · exact leftQ_low (by simp at hl ⊢; omega) (p h')
      · have : e.level = l := by omega
        subst this
        obtain ⟨op, a, b, rfl⟩ := level_bin hl
        have hw' := hw
        rw [Ex.Wf] at hw'
        exact leftQ_bin hw (ih a (by ex_size) hw'.1) (ih b (by ex_size) hw'.2.1)
    have q5 := q 5 (by simp) p4
    have p5 := fun h => parses_left (by simp) (q5 h)
    have q6 := q 6 (by simp) p5
    have p6 := fun h => parses_left (by simp) (q6 h)
    have q7 := q 7 (by simp) p6
    have p7 := fun h => parses_left (by simp) (q7 h)
    have q8 := q 8 (by simp) p7
    have p8 := fun h => parses_left (by simp) (q8 h)
    have q9 := q 9 (by simp) p8
    have p9 := fun h => parses_left (by simp) (q9 h)
    have q10 := q 10 (by simp) p9
    have p10 := fun h => parses_left (by simp) (q10 h)
    have q11 : e.level ≤ 11 → LeftQ 11 e := by
      intro h
      by_cases h' : e.level ≤ 10
      · exact leftQ_low (by simp) (p10 h')
      · obtain ⟨op, a, b, rfl⟩ := level_cmp (by omega : e.level = 11)
        have hw' := hw
        rw [Ex.Wf] at hw'
        exact leftQ_cmp hw (ih a (by ex_size) hw'.1) (ih b (by ex_size) hw'.2.1)
    have p11 := fun h => parses_cmp (q11 h)
    have p12' := parses_notTest hw p11 ih
    have q13 := q 13 (by simp) p12'
    have p13 := fun h => parses_left (by simp) (q13 h)
    have q14 := q 14 (by simp) p13
    have p14 := fun h => parses_left (by simp) (q14 h)
    have p15 := parses_test hw p14 ih
    have p16 := parses_named hw p15 ih
    refine ⟨fun n hn hn' => ?_, hch, fun l hl => ?_⟩
    · have : n = 0 ∨ n = 1 ∨ n = 2 ∨ n = 3 ∨ n = 4 ∨ n = 5 ∨ n = 6 ∨ n = 7 ∨ n = 8 ∨ n = 9 ∨ n = 10 ∨ n = 11 ∨ n = 12 ∨
        n = 13 ∨ n = 14 ∨ n = 15 ∨ n = 16 := by omega
      rcases this with rfl | rfl | rfl | rfl | rfl | rfl | rfl | rfl | rfl | rfl | rfl | rfl | rfl | rfl | rfl | rfl | rfl
      · exact p0 (by omega)
      · exact p12 (by omega) 1 (by omega) (by omega) hn
      · exact p12 hn 2 (by omega) (by omega) hn
      · exact p3 hn
      · exact p4 hn
      · exact p5 hn
      · exact p6 hn
      · exact p7 hn
      · exact p8 hn
      · exact p9 hn
      · exact p10 hn
      · exact p11 hn
      · exact p12' hn
      · exact p13 hn
      · exact p14 hn
      · exact p15 hn
      · exact p16 hn
    · simp only [List.mem_cons, List.not_mem_nil, or_false] at hl
      rcases hl with rfl | rfl | rfl | rfl | rfl | rfl | rfl | rfl | rfl
      · exact q5
      · exact q6
      · exact q7
      · exact q8
      · exact q9
      · exact q10
      · exact q11
      · exact q13
      · exact q14

theorem ex_good {e : Ex} (hw : e.Wf) : Good' e := good_ex _ e (Nat.lt_succ_self _) hw

end
end Verif
