import Verif.Proof.Limits

/-!
# C33-C37, C45: constructs that are accepted only in part, or not at all

Each property is refuted for the code as it is: the theorems without the suffix `_partial` say exactly which inputs are
rejected, for all of them; the `_partial` theorems say what is accepted.
-/

namespace Verif
section
variable [Uni]

/-! ### C33: `for` -/

/-- C33: the target of an accepted `for` statement is starred, or ends in a comma or in a starred element; so no
`for` statement with a plain target such as `x` or `x, y` is ever accepted, whatever the source. -/
theorem C33_for_target {n c t c'} (h : run n .forStmt c = .ok t c') : t.tag? = some .ForStmt ∧ OpenTarget (t.field 1) := by
  have key : ∀ left c1, Ev .exprlist c.advance left c1 → ∀ t2, c1.symbol = .ok t2 → t2.kind = .PyIn → OpenTarget left :=
    fun left c1 hl t2 ht2 hk => exprlist_open hl ⟨t2, ht2, hk⟩
  refine ev_inv (Q := fun t _ => t.tag? = some .ForStmt ∧ OpenTarget (t.field 1)) ⟨n, h⟩ ?_
  simp only [body, forStmtBody, wp_bind, wp_here, wp_symAt, wp_ite, wp_next, wp_parse, wp_mk, wp_fail, wp_pure]
  intro t ht
  refine ⟨fun _ left c1 hl t2 ht2 => ⟨fun hk r c2 _ t3 _ => ⟨fun _ t4 _ => ?_, fun _ => trivial⟩, fun _ => trivial⟩, fun _ => trivial⟩
  have ho := key left c1 hl t2 ht2 hk
  exact ⟨fun _ _ _ _ _ _ => ⟨fun _ _ _ _ => ⟨rfl, ho⟩, fun _ => ⟨rfl, ho⟩⟩, fun _ _ _ _ _ _ => ⟨fun _ _ _ _ => ⟨rfl, ho⟩, fun _ => ⟨rfl, ho⟩⟩⟩

/-- C33: the same for the `for` clause of a comprehension. -/
theorem C33_clause_target {n c t c'} (h : run n .syncCompFor c = .ok t c') :
    t.tag? = some .SyncCompForComprehension ∧ OpenTarget (t.field 1) := by
  refine ev_inv (Q := fun t _ => t.tag? = some .SyncCompForComprehension ∧ OpenTarget (t.field 1)) ⟨n, h⟩ ?_
  simp only [body, syncCompForBody, wp_bind, wp_here, wp_symHere, wp_ite, wp_next, wp_parse, wp_mk, wp_failHere]
  intro t ht
  refine ⟨fun _ left c1 hl t2 ht2 => ⟨fun hk r c2 _ t3 _ => ?_, fun _ => trivial⟩, fun _ => trivial⟩
  have ho := exprlist_open hl ⟨t2, ht2, hk⟩
  exact ⟨fun _ _ _ _ => ⟨rfl, ho⟩, fun _ => ⟨rfl, ho⟩⟩

/-- C33: the words `for x in y`, for any expressions `x` (binding tighter than a comparison: a name, attribute, index,
tuple or list) and `y`, followed by anything that neither continues `y` nor is a comma, for example `:` or `]`, are
rejected both as statement and as clause of a comprehension: `x in y` is read as a comparison. -/
theorem C33_plain_for_rejected {x y : Ex} (hx : x.Wf) (hxl : x.level ≤ 10) (hy : y.Wf) (hyl : y.level ≤ 15) {c d : PSt}
    (hf : Fed c (.kw (cs! "for") .PyFor :: (x.words ++ .kw (cs! "in") .PyIn :: y.words)) d) (he : EndsExpr 16 d)
    (hc : ∀ u, d.symbol = .ok u → u.kind ≠ .PyComa) :
    ∀ f ∈ [Fn.forStmt, .syncCompFor], ∀ n t c', run n f c ≠ .ok t c' := by
  obtain ⟨u, hu, lu, hf1⟩ := fed_cons hf
  have ku : u.kind = .PyFor := kind_of_leaf lu
  obtain ⟨v, hv, hk⟩ := he
  have n1 : v.kind ≠ .PyIn := continues_ne hk ⟨11, rfl, by omega⟩
  intro f hm
  simp only [List.mem_cons, List.not_mem_nil, or_false] at hm
  rcases hm with rfl | rfl
  · refine never_body ?_
    simp only [body, forStmtBody]
    refine neverp_bind evp_here (neverp_bind (evp_symAt hu) ?_)
    simp only [ku, if_true]
    refine neverp_bind evp_next (neverp_any fun left c1 h1 => ?_)
    cases exprlist_in hx hxl hy hyl hf1 ⟨v, hv, hk⟩ hc (evp_of_parse h1)
    refine neverp_bind (evp_symAt hv) ?_
    simp only [n1, if_false]
    exact neverp_fail
  · refine never_body ?_
    simp only [body, syncCompForBody]
    refine neverp_bind evp_here (neverp_bind (evp_symHere hu) ?_)
    simp only [ku, if_true]
    refine neverp_bind evp_next (neverp_any fun left c1 h1 => ?_)
    cases exprlist_in hx hxl hy hyl hf1 ⟨v, hv, hk⟩ hc (evp_of_parse h1)
    refine neverp_bind (evp_symHere hv) ?_
    simp only [n1, if_false]
    exact neverp_failHere

/-! ### C34: dictionaries and sets -/

/-- C34: `{}` is rejected, as an atom and by every expression rule. -/
theorem C34_empty_dict_rejected {c d : PSt} (hf : Fed c [.op (cs! "{") .PyLeftCurly, .op (cs! "}") .PyRightCurly] d) :
    ∀ f ∈ exprFns, ∀ n t c', run n f c ≠ .ok t c' := by
  obtain ⟨u, hu, lu, hf⟩ := fed_cons hf
  obtain ⟨v, hv, lv, hf⟩ := fed_cons hf
  have ku : u.kind = .PyLeftCurly := kind_of_leaf lu
  have kv : v.kind = .PyRightCurly := kind_of_leaf lv
  refine never_levels hu (by rw [ku]; rfl) (never_body ?_)
  simp only [body, atomBody]
  refine neverp_bind evp_here (neverp_bind (evp_symAt hu) ?_)
  simp only [ku, reduceCtorEq, if_true, if_false]
  refine neverp_bind evp_next (neverp_bind (evp_symAt hv) ?_)
  simp only [kv, if_true]
  refine neverp_bind evp_pure (neverp_bind (evp_symAt hv) ?_)
  simp only [kv, if_true]
  exact neverp_bind evp_next neverp_fail

/-- C34: a dictionary with more than two entries is rejected: after two entries a comma is not accepted. -/
theorem C34_third_entry_rejected {k v k' v' : Ex} (hw : (Ex.dict2 k v k' v').Wf) {c d : PSt}
    (hf : Fed c (.op (cs! "{") .PyLeftCurly :: (k.words ++ .op (cs! ":") .PyColon :: (v.words ++ .op (cs! ",") .PyComa ::
      (k'.words ++ .op (cs! ":") .PyColon :: (v'.words ++ [.op (cs! ",") .PyComa]))))) d) :
    ∀ f ∈ exprFns, ∀ n t c', run n f c ≠ .ok t c' := by
  rw [Ex.Wf] at hw
  obtain ⟨w1, w2, w3, w4, l1, l2, l3, l4⟩ := hw
  obtain ⟨u, hu, lu, hf⟩ := fed_cons hf
  have ku : u.kind = .PyLeftCurly := kind_of_leaf lu
  obtain ⟨c1, f1, hf⟩ := fed_append.1 hf
  obtain ⟨u1, hu1, lu1, hf⟩ := fed_cons hf
  have k1 : u1.kind = .PyColon := kind_of_leaf lu1
  obtain ⟨c2, f2, hf⟩ := fed_append.1 hf
  obtain ⟨u2, hu2, lu2, hf⟩ := fed_cons hf
  have k2 : u2.kind = .PyComa := kind_of_leaf lu2
  obtain ⟨c3, f3, hf⟩ := fed_append.1 hf
  obtain ⟨u3, hu3, lu3, hf⟩ := fed_cons hf
  have k3 : u3.kind = .PyColon := kind_of_leaf lu3
  obtain ⟨c4, f4, hf⟩ := fed_append.1 hf
  obtain ⟨u4, hu4, lu4, hf⟩ := fed_cons hf
  have k4 : u4.kind = .PyComa := kind_of_leaf lu4
  obtain ⟨t1, _, e1⟩ := (ex_good w1).parses 15 l1 (by omega) _ _ f1 (ends_of_symbol hu1 k1 (by intro m h; cases h))
  obtain ⟨t2, _, e2⟩ := (ex_good w2).parses 15 l2 (by omega) _ _ f2 (ends_of_symbol hu2 k2 (by intro m h; cases h))
  obtain ⟨t3, _, e3⟩ := (ex_good w3).parses 15 l3 (by omega) _ _ f3 (ends_of_symbol hu3 k3 (by intro m h; cases h))
  obtain ⟨t4, _, e4⟩ := (ex_good w4).parses 15 l4 (by omega) _ _ f4 (ends_of_symbol hu4 k4 (by intro m h; cases h))
  obtain ⟨v1, m1, hv1, hs1, hm1⟩ := fed_first w1 f1
  obtain ⟨v3, m3, hv3, hs3, hm3⟩ := fed_first w3 f3
  have a1 : v1.kind ≠ .PyRightCurly := by intro h; rw [h] at hs1; cases hs1
  have a2 : v1.kind ≠ .PyMul := starts_ne hs1 hm1 (by intro m' h'; cases h'; omega)
  have a3 : v1.kind ≠ .PyPower := by intro h; rw [h] at hs1; cases hs1
  have b1 : v3.kind ≠ .PyRightCurly := by intro h; rw [h] at hs3; cases hs3
  have b2 : v3.kind ≠ .PyComa := by intro h; rw [h] at hs3; cases hs3
  have b3 : v3.kind ≠ .PyPower := by intro h; rw [h] at hs3; cases hs3
  have hd : ∃ r : Tree, Ev .dictorsetMaker c.advance r c4 := by
    refine ⟨.node .DictionaryContainer c.advance.lex.tokStart c4.lex.tokStart [.seq [.node .DictionaryEntry c.advance.lex.tokStart c4.lex.tokStart
      [t3, .tok u3, t4], .node .DictionaryEntry c.advance.lex.tokStart c2.lex.tokStart [t1, .tok u1, t2]], .toks [u2]], ev_body ?_⟩
    simp only [body, dictorsetMakerBody]
    refine evp_bind evp_here (evp_bind (evp_symHere hv1) ?_)
    simp only [a2, a3, if_false]
    refine evp_bind (evp_parse e1) (evp_bind (evp_symHere hu1) ?_)
    simp only [k1, if_true]
    refine evp_bind evp_next (evp_bind (evp_parse e2) (evp_bind evp_mk ?_))
    unfold dictRest
    refine evp_bind (evp_symHere hu2) ?_
    simp only [k2, if_true]
    refine evp_bind evp_next (evp_bind (evp_symHere hv3) ?_)
    simp only [b1, b2, b3, if_false]
    refine evp_bind (evp_parse e3) (evp_bind (evp_symHere hu3) ?_)
    simp only [k3, if_true]
    exact evp_bind evp_next (evp_bind (evp_parse e4) (evp_bind evp_mk evp_mk))
  obtain ⟨r, hd⟩ := hd
  refine never_levels hu (by rw [ku]; rfl) (never_body ?_)
  simp only [body, atomBody]
  refine neverp_bind evp_here (neverp_bind (evp_symAt hu) ?_)
  simp only [ku, reduceCtorEq, if_true, if_false]
  refine neverp_bind evp_next (neverp_bind (evp_symAt hv1) ?_)
  simp only [a1, if_false]
  refine neverp_bind (evp_parse hd) (neverp_bind evp_pure (neverp_bind (evp_symAt hu4) ?_))
  simp only [k4, reduceCtorEq, if_false]
  exact neverp_fail

/-- C34: an accepted dictionary has at most two entries. -/
theorem C34_dict_size {n c t c'} (h : run n .dictorsetMaker c = .ok t c') (ht : t.tag? = some .DictionaryContainer) :
    ∃ s e ns ss, t = .node .DictionaryContainer s e [.seq ns, ss] ∧ 1 ≤ ns.length ∧ ns.length ≤ 2 := by
  have hset : ∀ s ns ss c t c', Ev (.setLoop s ns ss) c t c' → t.tag? = some .SetContainer := by
    intro s ns ss c t c' h
    refine ev_sound (Ψ := fun f _ t _ => ∀ s ns ss, f = .setLoop s ns ss → t.tag? = some .SetContainer) ?_ h s ns ss rfl
    intro f c
    cases f
    case setLoop =>
      simp only [body, setLoopBody, wp_bind, wp_symHere, wp_ite, wp_next, wp_parse, wp_mk, wp_failHere]
      refine fun t _ => ⟨fun _ t2 _ => ⟨fun _ y c' hy _ _ _ _ => hy.2 _ _ _ rfl, fun _ => ⟨fun _ => trivial, fun _ => ⟨fun _ x c1 _ y c' hy _ _ _ _ => hy.2 _ _ _ rfl,
        fun _ x c1 _ y c' hy _ _ _ _ => hy.2 _ _ _ rfl⟩⟩⟩, fun _ _ _ _ _ => rfl⟩
    all_goals exact wp_any _ (fun _ _ _ _ _ h => by cases h)
  have hrest : ∀ s x c, WP Ev (dictRest s [x]) c (fun t _ => ∃ s e ns ss, t = .node .DictionaryContainer s e [.seq ns, ss] ∧ 1 ≤ ns.length ∧ ns.length ≤ 2) := by
    intro s x c
    simp only [dictRest, dictRest.fin, wp_bind, wp_symHere, wp_ite, wp_next, wp_parse, wp_mk, wp_failHere]
    exact fun t _ => ⟨fun _ t2 _ => ⟨fun _ => ⟨_, _, _, _, rfl, by simp⟩, fun _ => ⟨fun _ => trivial, fun _ => ⟨fun _ _ _ _ => ⟨_, _, _, _, rfl, by simp⟩,
      fun _ _ _ _ t3 _ => ⟨fun _ _ _ _ => ⟨_, _, _, _, rfl, by simp⟩, fun _ => trivial⟩⟩⟩⟩, fun _ => ⟨_, _, _, _, rfl, by simp⟩⟩
  revert ht
  refine ev_inv (Q := fun t _ => t.tag? = some .DictionaryContainer →
    ∃ s e ns ss, t = .node .DictionaryContainer s e [.seq ns, ss] ∧ 1 ≤ ns.length ∧ ns.length ≤ 2) ⟨n, h⟩ ?_
  simp only [body, dictorsetMakerBody, wp_bind, wp_here, wp_symHere, wp_ite, wp_next, wp_parse, wp_mk]
  refine fun t _ => ⟨fun _ _ _ _ y c1 hy ht => ?_, fun _ => ⟨fun _ _ _ _ => wp_mono _ (fun _ _ h _ => h) (hrest _ _ _), fun _ _ _ _ t2 _ =>
    ⟨fun _ _ _ _ => wp_mono _ (fun _ _ h _ => h) (hrest _ _ _), fun _ y c1 hy ht => ?_⟩⟩⟩
  · rw [hset _ _ _ _ _ _ hy] at ht; cases ht
  · rw [hset _ _ _ _ _ _ hy] at ht; cases ht

/-- C34, what holds: set displays of any number of elements and dictionary displays of one or two entries are accepted, with the
tree of that display.  Missing: the empty dictionary, three or more entries, comprehensions (see above). -/
theorem C34_displays_partial {e : Ex} (hw : e.Wf)
    (he : (∃ es, e = .set es) ∨ (∃ k v, e = .dict1 k v) ∨ (∃ k v k' v', e = .dict2 k v k' v')) {c c' : PSt}
    (hf : Fed c e.words c') (hc : EndsExpr 15 c') : ∃ n t, run n .test c = .ok t c' ∧ t.sk = e.sk := by
  have hl : e.level ≤ 15 := by
    rcases he with ⟨_, rfl⟩ | ⟨_, _, rfl⟩ | ⟨_, _, _, _, rfl⟩ <;> simp [Ex.level]
  obtain ⟨t, ht, n, h⟩ := (ex_good hw).parses 15 hl (by omega) c c' hf hc
  exact ⟨n, t, h, ht⟩

/-! ### C35: slices -/

/-- An optional expression of a slice in front of a token that ends it. -/
theorem opt_test {o : Option Ex} (ho : OptWf o) {c c' : PSt} (hf : Fed c (optWords o) c') (he : EndsExpr 15 c') :
    (o = none ∧ c' = c) ∨ ∃ t u m, c.symbol = .ok u ∧ u.kind.starts = some m ∧ t.sk = optSk o ∧ Ev .test c t c' := by
  cases o with
  | none => exact .inl ⟨rfl, fed_nil hf⟩
  | some e =>
    obtain ⟨t, ht, hev⟩ := (ex_good ho.1).parses 15 ho.2 (by omega) c c' hf he
    obtain ⟨u, m, hu, hs, _⟩ := fed_first ho.1 hf
    exact .inr ⟨t, u, m, hu, hs, ht, hev⟩

/-- The first two parts of a slice: what follows is run in the state in front of the token after them. -/
theorem slice_head {a b : Option Ex} (ha : OptWf a) (hb : OptWf b) {c c2 : PSt} {v : Token}
    (hf : Fed c (optWords a ++ .op (cs! ":") .PyColon :: optWords b) c2) (he : EndsExpr 15 c2) (hv : c2.symbol = .ok v)
    (hb' : b = none → v.kind = .PyRightBracket ∨ v.kind = .PyColon) :
    ∃ (ta tb : Tree) (t1 : Token), ta.sk = optSk a ∧ tb.sk = optSk b ∧ t1.leaf = .sym .PyColon ∧
      (∀ t5 td c', c2.advance.symbol = .ok t5 →
        (((t5.kind = .PyRightBracket ∨ t5.kind = .PyColon) ∧ td = .none ∧ c' = c2.advance) ∨
          (¬ (t5.kind = .PyRightBracket ∨ t5.kind = .PyColon) ∧ Ev .test c2.advance td c')) →
        Ev .subscript c (.node .Subscript c.lex.tokStart c'.lex.tokStart [ta, .tok t1, tb, .tok v, td]) c') ∧
      (∀ t5, c2.advance.symbol = .ok t5 → ¬ (t5.kind = .PyRightBracket ∨ t5.kind = .PyColon) → Never .test c2.advance →
        Never .subscript c) := by
  obtain ⟨c1, fa, hf⟩ := fed_append.1 hf
  obtain ⟨t1, h1, l1, fb⟩ := fed_cons hf
  have k1 : t1.kind = .PyColon := kind_of_leaf l1
  have A := opt_test ha fa (ends_of_symbol h1 k1 (by intro m h; cases h))
  have B := opt_test hb fb he
  -- the first part
  have hfirst : ∃ (ta : Tree) (u : Token), ta.sk = optSk a ∧ c.symbol = .ok u ∧
      EvP (if u.kind = .PyColon then pure Tree.none else Prog.parse .test) c ta c1 := by
    rcases A with ⟨rfl, rfl⟩ | ⟨t, u, m, hu, hs, ht, hev⟩
    · exact ⟨.none, t1, rfl, h1, by rw [if_pos k1]; exact evp_pure⟩
    · refine ⟨t, u, ht, hu, ?_⟩
      rw [if_neg (by intro h; rw [h] at hs; cases hs)]
      exact evp_parse hev
  have hsecond : ∃ (tb : Tree) (u : Token), tb.sk = optSk b ∧ c1.advance.symbol = .ok u ∧
      EvP (if u.kind = .PyRightBracket ∨ u.kind = .PyColon then pure Tree.none else Prog.parse .test) c1.advance tb c2 := by
    rcases B with ⟨rfl, rfl⟩ | ⟨t, u, m, hu, hs, ht, hev⟩
    · exact ⟨.none, v, rfl, hv, by rw [if_pos (hb' rfl)]; exact evp_pure⟩
    · refine ⟨t, u, ht, hu, ?_⟩
      rw [if_neg (by rintro (h | h) <;> rw [h] at hs <;> cases hs)]
      exact evp_parse hev
  obtain ⟨ta, u, hta, hu, e1⟩ := hfirst
  obtain ⟨tb, w, htb, hw, e2⟩ := hsecond
  refine ⟨ta, tb, t1, hta, htb, l1, ?_, ?_⟩
  · intro t5 td c' h5 h
    refine ev_body ?_
    simp only [body, subscriptBody]
    refine evp_bind evp_here (evp_bind (evp_symHere hu) (evp_ite_bind e1 (evp_bind (evp_symHere h1) ?_)))
    simp only [k1, if_true]
    refine evp_bind evp_next (evp_bind (evp_symHere hw) (evp_ite_bind e2 (evp_bind (evp_symHere hv) (evp_bind evp_next
      (evp_bind (evp_symHere h5) ?_)))))
    rcases h with ⟨h, rfl, rfl⟩ | ⟨h, hev⟩
    · simp only [h, if_true]
      exact evp_bind evp_pure evp_mk
    · simp only [h, if_false]
      exact evp_bind (evp_parse hev) evp_mk
  · intro t5 h5 h hn
    refine never_body ?_
    simp only [body, subscriptBody]
    refine neverp_bind evp_here (neverp_bind (evp_symHere hu) (neverp_ite_bind e1 (neverp_bind (evp_symHere h1) ?_)))
    simp only [k1, if_true]
    refine neverp_bind evp_next (neverp_bind (evp_symHere hw) (neverp_ite_bind e2 (neverp_bind (evp_symHere hv) (neverp_bind evp_next
      (neverp_bind (evp_symHere h5) ?_)))))
    simp only [h, if_false]
    exact neverp_left (neverp_parse hn)

/-- C35, what holds: a slice with both colons, each of its three parts present or not, followed by `]`, is accepted and gives a
`Subscript` node with these parts. -/
theorem C35_full_slice_partial {i j k : Option Ex} (hi : OptWf i) (hj : OptWf j) (hk : OptWf k) {c c' : PSt}
    (hf : Fed c (optWords i ++ .op (cs! ":") .PyColon :: (optWords j ++ .op (cs! ":") .PyColon :: optWords k)) c') {u : Token}
    (hu : c'.symbol = .ok u) (ku : u.kind = .PyRightBracket) :
    ∃ n t, run n .subscript c = .ok t c' ∧ t.sk = .node .Subscript [optSk i, kd .PyColon, optSk j, kd .PyColon, optSk k] := by
  obtain ⟨c1, f1, hf⟩ := fed_append.1 hf
  obtain ⟨t1, h1, l1, hf⟩ := fed_cons hf
  obtain ⟨c2, f2, hf⟩ := fed_append.1 hf
  obtain ⟨t2, h2, l2, f3⟩ := fed_cons hf
  have k2 : t2.kind = .PyColon := kind_of_leaf l2
  obtain ⟨ta, tb, t1', hta, htb, l1', hacc, _⟩ := slice_head hi hj (fed_append.2 ⟨c1, f1, .cons h1 l1 f2⟩)
    (ends_of_symbol h2 k2 (by intro m h; cases h)) h2 (fun _ => .inr k2)
  rcases opt_test hk f3 (ends_of_symbol hu ku (by intro m h; cases h)) with ⟨rfl, rfl⟩ | ⟨t, v, m, hv, hs, ht, hev⟩
  · obtain ⟨n, hr⟩ := hacc u .none _ hu (.inl ⟨.inl ku, rfl, rfl⟩)
    exact ⟨n, _, hr, by simp only [Tree.sk, skList, hta, htb, l1', l2, kd, optSk, Lexeme.leaf]⟩
  · obtain ⟨n, hr⟩ := hacc v t _ hv (.inr ⟨(by rintro (h | h) <;> rw [h] at hs <;> cases hs), hev⟩)
    exact ⟨n, _, hr, by simp only [Tree.sk, skList, hta, htb, l1', l2, kd, ht, Lexeme.leaf]⟩

/-- C35: a slice with one colon, `i:j`, `i:`, `:j` or `:`, followed by `]` and by a token that is neither `]` nor `:` and
cannot start an expression (for example a line end, `)`, `,`, `=`), is never accepted. -/
theorem C35_short_slice_rejected {i j : Option Ex} (hi : OptWf i) (hj : OptWf j) {c d : PSt}
    (hf : Fed c (optWords i ++ .op (cs! ":") .PyColon :: (optWords j ++ [.op (cs! "]") .PyRightBracket])) d) {u : Token}
    (hu : d.symbol = .ok u) (k1 : u.kind ≠ .PyRightBracket) (k2 : u.kind ≠ .PyColon)
    (k3 : ∀ m, u.kind.starts = some m → 15 < m) : ∀ n t c', run n .subscript c ≠ .ok t c' := by
  obtain ⟨c1, f1, hf⟩ := fed_append.1 hf
  obtain ⟨t1, h1, l1, hf⟩ := fed_cons hf
  obtain ⟨c2, f2, hf⟩ := fed_append.1 hf
  obtain ⟨t2, h2, l2, f3⟩ := fed_cons hf
  cases fed_nil f3
  have kk : t2.kind = .PyRightBracket := kind_of_leaf l2
  obtain ⟨ta, tb, t1', hta, htb, l1', _, hnever⟩ := slice_head hi hj (fed_append.2 ⟨c1, f1, .cons h1 l1 f2⟩)
    (ends_of_symbol h2 kk (by intro m h; cases h)) h2 (fun _ => .inl kk)
  exact hnever u hu (by simp [k1, k2]) (never_test_first hu k3)

/-- C35: the second colon is not checked: any token `u` that does not continue the second part is accepted in its place
(and stored where the colon belongs). -/
theorem C35_any_token_as_colon {i : Option Ex} {j k : Ex} (hi : OptWf i) (hj : OptWf (some j)) (hk : OptWf (some k)) {c c2 c' : PSt} {u : Token}
    (hf : Fed c (optWords i ++ .op (cs! ":") .PyColon :: j.words) c2) (he : EndsExpr 15 c2) (hu : c2.symbol = .ok u)
    (hf' : Fed c2.advance k.words c') (he' : EndsExpr 15 c') :
    ∃ n t, run n .subscript c = .ok t c' ∧ t.sk = .node .Subscript [optSk i, kd .PyColon, j.sk, .leaf u.leaf, k.sk] := by
  obtain ⟨ta, tb, t1', hta, htb, l1', hacc, _⟩ := slice_head (b := some j) hi hj hf he hu (fun h => by cases h)
  rcases opt_test (o := some k) hk hf' he' with ⟨h, _⟩ | ⟨t, v, m, hv, hs, ht, hev⟩
  · cases h
  · obtain ⟨n, hr⟩ := hacc v t _ hv (.inr ⟨(by rintro (h | h) <;> rw [h] at hs <;> cases hs), hev⟩)
    exact ⟨n, _, hr, by simp only [Tree.sk, skList, hta, htb, l1', kd, ht, optSk]⟩

/-! ### C36: parameters -/

/-- C36: a parameter list that is not empty is never accepted: `def`, a name, `(` and anything but `)`. -/
theorem C36_params_rejected {c c3 : PSt} {w : List Char} {u : Token}
    (hf : Fed c [.kw (cs! "def") .PyDef, .name w, .op (cs! "(") .PyLeftParen] c3) (hu : c3.symbol = .ok u)
    (ku : u.kind ≠ .PyRightParen) : ∀ n t c', run n .funcDef c ≠ .ok t c' := by
  obtain ⟨t1, h1, l1, hf⟩ := fed_cons hf
  obtain ⟨t2, h2, l2, hf⟩ := fed_cons hf
  obtain ⟨t3, h3, l3, hf⟩ := fed_cons hf
  cases fed_nil hf
  have k1 : t1.kind = .PyDef := kind_of_leaf l1
  have k2 : t2.kind = .AtomName := kind_of_leaf l2
  have k3 : t3.kind = .PyLeftParen := kind_of_leaf l3
  refine never_body ?_
  simp only [body, funcDefBody]
  refine neverp_bind evp_here (neverp_bind (evp_symAt h1) ?_)
  simp only [k1, if_true]
  refine neverp_bind evp_next (neverp_bind (evp_symAt h2) ?_)
  simp only [k2, if_true]
  refine neverp_bind evp_next (neverp_bind (evp_symAt h3) ?_)
  simp only [k3, if_true]
  refine neverp_left (neverp_parse (never_body ?_))
  simp only [body, parametersBody]
  refine neverp_bind evp_here (neverp_bind (evp_symAt h3) ?_)
  simp only [k3, if_true]
  refine neverp_bind evp_next (neverp_bind (evp_symAt hu) ?_)
  simp only [ku, if_false]
  refine neverp_bind (evp_parse (c' := c.advance.advance.advance) (t := .node .TypedArgsList c.advance.advance.advance.lex.tokStart c.advance.advance.advance.lex.tokStart
    [.seq [], .seq [], .seq [], .none, .none]) (ev_body ?_)) ?_
  · simp only [body, typedArgsListBody]
    exact evp_bind evp_here evp_mk
  · refine neverp_bind (evp_symAt hu) ?_
    simp only [ku, if_false]
    exact neverp_fail

/-- C36: every accepted function definition has no parameters: its parameter field is absent or `()`. -/
theorem C36_no_params {n c t c'} (h : run n .funcDef c = .ok t c') :
    t.tag? = some .FuncDef ∧ (t.field 2 = .none ∨ ∃ s e a b, t.field 2 = .node .Parameter s e [.tok a, .none, .tok b]) := by
  have hp : ∀ c t c', Ev .parameters c t c' → ∃ s e a b, t = .node .Parameter s e [.tok a, .none, .tok b] := by
    intro c t c' h
    refine ev_inv (Q := fun t _ => ∃ s e a b, t = .node .Parameter s e [.tok a, .none, .tok b]) h ?_
    simp only [body, parametersBody, wp_bind, wp_here, wp_symAt, wp_ite, wp_next, wp_parse, wp_mk, wp_fail, wp_pure]
    refine fun t ht => ⟨fun _ t2 ht2 => ⟨fun _ t3 _ => ⟨fun _ => ⟨_, _, _, _, rfl⟩, fun _ => trivial⟩, fun hk y c1 hy t3 ht3 => ⟨fun hk3 => ?_, fun _ => trivial⟩⟩,
      fun _ => trivial⟩
    have : c1 = c.advance := by
      refine ev_inv (Q := fun _ c1 => c1 = c.advance) hy ?_
      simp only [body, typedArgsListBody, wp_bind, wp_here, wp_mk]
    subst this
    rw [ht2] at ht3
    cases ht3
    exact absurd hk3 hk
  refine ev_inv (Q := fun t _ => t.tag? = some .FuncDef ∧ (t.field 2 = .none ∨ ∃ s e a b, t.field 2 = .node .Parameter s e [.tok a, .none, .tok b])) ⟨n, h⟩ ?_
  simp only [body, funcDefBody, wp_bind, wp_here, wp_symAt, wp_ite, wp_next, wp_parse, wp_mk, wp_fail, wp_pure]
  intro t _
  refine ⟨fun _ t2 _ => ⟨fun _ t3 _ => ⟨fun _ left c1 hl => ?_, fun _ => ?_⟩, fun _ => trivial⟩, fun _ => trivial⟩
  · intro t4 _
    exact ⟨fun _ _ _ _ t5 _ => ⟨fun _ t6 _ => ⟨fun _ _ _ _ => ⟨rfl, .inr (hp _ _ _ hl)⟩, fun _ _ _ _ => ⟨rfl, .inr (hp _ _ _ hl)⟩⟩, fun _ => trivial⟩,
      fun _ t5 _ => ⟨fun _ t6 _ => ⟨fun _ _ _ _ => ⟨rfl, .inr (hp _ _ _ hl)⟩, fun _ _ _ _ => ⟨rfl, .inr (hp _ _ _ hl)⟩⟩, fun _ => trivial⟩⟩
  · intro t4 _
    exact ⟨fun _ _ _ _ t5 _ => ⟨fun _ t6 _ => ⟨fun _ _ _ _ => ⟨rfl, .inl rfl⟩, fun _ _ _ _ => ⟨rfl, .inl rfl⟩⟩, fun _ => trivial⟩,
      fun _ t5 _ => ⟨fun _ t6 _ => ⟨fun _ _ _ _ => ⟨rfl, .inl rfl⟩, fun _ _ _ _ => ⟨rfl, .inl rfl⟩⟩, fun _ => trivial⟩⟩

/-! ### C37: decorators and `async def` -/

/-- C37: nothing decorated is ever accepted. -/
theorem C37_decorated_rejected (n : Nat) (c : PSt) (t : Tree) (c' : PSt) : run n .decorated c ≠ .ok t c' := by
  -- a decorator stops in front of its `Newline`
  have hd : ∀ {c t c'}, Ev .decorator c t c' → ∃ u, c'.symbol = .ok u ∧ u.kind = .Newline := by
    intro c t c' h
    refine ev_inv (Q := fun _ c' => ∃ u, c'.symbol = .ok u ∧ u.kind = .Newline) h ?_
    simp only [body, decoratorBody, decoratorEnd, wp_bind, wp_here, wp_symAt, wp_ite, wp_next, wp_parse, wp_mk, wp_fail, wp_pure]
    exact fun t _ => ⟨fun _ _ _ _ t2 _ => ⟨fun _ t3 _ => ⟨fun _ t4 _ => ⟨fun _ t5 h5 => ⟨fun k => ⟨t5, h5, k⟩, fun _ => trivial⟩, fun _ => trivial⟩,
      fun _ _ _ _ t4 _ => ⟨fun _ t5 h5 => ⟨fun k => ⟨t5, h5, k⟩, fun _ => trivial⟩, fun _ => trivial⟩⟩,
      fun _ t5 h5 => ⟨fun k => ⟨t5, h5, k⟩, fun _ => trivial⟩⟩, fun _ => trivial⟩
  have hds : ∀ {c t c'}, Ev .decorators c t c' → ∃ u, c'.symbol = .ok u ∧ u.kind = .Newline := by
    intro c t c' h
    refine ev_inv (Q := fun _ c' => ∃ u, c'.symbol = .ok u ∧ u.kind = .Newline) h ?_
    simp only [body, decoratorsBody, wp_bind, wp_here, wp_parse]
    intro x c1 hx y c2 hy
    obtain ⟨u, hu, ku⟩ := hd hx
    refine ev_inv (Q := fun _ c' => ∃ u, c'.symbol = .ok u ∧ u.kind = .Newline) hy ?_
    simp only [body, decoratorsLoopBody, wp_bind, wp_symAt, wp_ite, wp_parse, wp_mk]
    intro v hv
    rw [hu] at hv
    cases hv
    exact ⟨fun k => (by rw [ku] at k; cases k), fun _ => ⟨u, hu, ku⟩⟩
  intro h
  refine ev_inv (Q := fun _ _ => False) ⟨n, h⟩ ?_
  simp only [body, decoratedBody, wp_bind, wp_here, wp_symAt, wp_ite, wp_parse, wp_mk, wp_fail]
  refine fun t _ => ⟨fun _ x c1 hx t2 ht2 => ?_, fun _ => trivial⟩
  obtain ⟨u, hu, ku⟩ := hds hx
  rw [hu] at ht2
  cases ht2
  simp [ku]

/-- C37: `async def` is never accepted. -/
theorem C37_async_def_rejected {c d : PSt} (hf : Fed c [.kw (cs! "async") .PyAsync, .kw (cs! "def") .PyDef] d) :
    ∀ f ∈ [Fn.asyncStmt, .compoundStmt, .stmt], ∀ n t c', run n f c ≠ .ok t c' := by
  obtain ⟨t1, h1, l1, hf⟩ := fed_cons hf
  obtain ⟨t2, h2, l2, hf⟩ := fed_cons hf
  have k1 : t1.kind = .PyAsync := kind_of_leaf l1
  have k2 : t2.kind = .PyDef := kind_of_leaf l2
  have ha : Never .asyncStmt c := by
    refine never_body ?_
    simp only [body, asyncStmtBody]
    refine neverp_bind evp_here (neverp_bind (evp_symAt h1) ?_)
    simp only [k1, if_true]
    refine neverp_bind evp_next (neverp_bind (evp_symAt h2) ?_)
    simp only [k2, if_true]
    refine neverp_left (neverp_parse (never_body ?_))
    simp only [body, classDefBody]
    refine neverp_bind evp_here (neverp_bind (evp_symAt h2) ?_)
    simp only [k2, reduceCtorEq, if_false]
    exact neverp_fail
  have hc : Never .compoundStmt c := by
    refine never_body ?_
    simp only [body, compoundStmtBody]
    refine neverp_bind evp_here (neverp_bind (evp_symAt h1) ?_)
    simp only [k1, reduceCtorEq, if_false, if_true]
    exact neverp_parse ha
  have hs : Never .stmt c := by
    refine never_body ?_
    simp only [body, stmtBody]
    refine neverp_bind evp_here (neverp_bind (evp_symAt h1) ?_)
    simp only [k1, compoundStart, List.mem_cons, reduceCtorEq, false_or, true_or, if_true]
    exact neverp_parse hc
  intro f hm
  simp only [List.mem_cons, List.not_mem_nil, or_false] at hm
  rcases hm with rfl | rfl | rfl <;> assumption

/-- C37, what holds: `async with` and `async for` are accepted whenever the statement after `async` is (see C33 for the
latter). -/
theorem C37_async_partial {c c' : PSt} {u v : Token} {t : Tree} {f : Fn} {n : Nat} (hu : c.symbol = .ok u) (ku : u.kind = .PyAsync)
    (hv : c.advance.symbol = .ok v) (hk : (v.kind = .PyWith ∧ f = .withStmt) ∨ (v.kind = .PyFor ∧ f = .forStmt))
    (h : run n f c.advance = .ok t c') :
    ∃ m, run m .asyncStmt c = .ok (.node .AsyncStmt c.lex.tokStart c'.lex.tokStart [.tok u, t]) c' := by
  refine ev_body ?_
  simp only [body, asyncStmtBody]
  refine evp_bind evp_here (evp_bind (evp_symAt hu) ?_)
  simp only [ku, if_true]
  refine evp_bind evp_next (evp_bind (evp_symAt hv) ?_)
  rcases hk with ⟨kv, rfl⟩ | ⟨kv, rfl⟩
  · simp only [kv, reduceCtorEq, if_true, if_false]
    exact evp_bind (evp_parse ⟨n, h⟩) evp_mk
  · simp only [kv, reduceCtorEq, if_true, if_false]
    exact evp_bind (evp_parse ⟨n, h⟩) evp_mk

/-! ### C45: arguments of calls -/

/-- C45: a keyword argument `w = ...`, after any positional arguments, is never accepted in a call. -/
theorem C45_keyword_argument_rejected {args : List Ex} {w : List Char} (ha : WfList 15 args) {c c' : PSt}
    (hf : Fed c (.op (cs! "(") .PyLeftParen :: (wordsList (args ++ [.name w]) ++ [.op (cs! "=") .PyAssign])) c') :
    ∀ n t d, run n .trailer c ≠ .ok t d := by
  obtain ⟨t1, h1, l1, hf⟩ := fed_cons hf
  have k1 : t1.kind = .PyLeftParen := kind_of_leaf l1
  obtain ⟨d, hf, hf2⟩ := fed_append.1 hf
  obtain ⟨t2, h2, l2, _⟩ := fed_cons hf2
  have k2 : t2.kind = .PyAssign := kind_of_leaf l2
  have hall : ∀ e ∈ args ++ [Ex.name w], e.Wf ∧ e.level ≤ 15 := by
    intro e he
    rw [List.mem_append] at he
    rcases he with he | he
    · exact wfList_mem ha e he
    · simp only [List.mem_cons, List.not_mem_nil, or_false] at he
      subst he
      exact ⟨by simp [Ex.Wf], by simp [Ex.level]⟩
  obtain ⟨r, _, hev⟩ := subscriptList_ev (es := args ++ [.name w]) (by simp) (fun e he c c' hf hc =>
    subscript_ev (hall e he).1 (.inl (hall e he).2) (fun _ => ex_good (hall e he).1)
      (fun a b d h => by have := (hall e he).2; rw [h] at this; simp [Ex.level] at this) hf hc) hf ⟨t2, h2, .inr (.inr (.inr k2))⟩
  obtain ⟨v, m, hv, hs⟩ := wordsList_first (by simp) (fun e he => (hall e he).1) hf
  have n1 : v.kind ≠ .PyRightParen := by intro h; rw [h] at hs; cases hs
  refine never_body ?_
  simp only [body, trailerBody]
  refine neverp_bind evp_here (neverp_bind (evp_symHere h1) ?_)
  simp only [k1, if_true]
  refine neverp_bind evp_next (neverp_bind (evp_symHere hv) ?_)
  simp only [n1, if_false]
  refine neverp_bind (evp_parse hev) (neverp_bind (evp_symHere h2) ?_)
  simp only [k2, reduceCtorEq, if_false]
  exact neverp_failHere

/-- C45: a call whose first argument starts with `*` or `**` is never accepted. -/
theorem C45_starred_argument_rejected {c c' : PSt} {u : Token} (hf : Fed c [.op (cs! "(") .PyLeftParen] c') (hu : c'.symbol = .ok u)
    (ku : u.kind = .PyMul ∨ u.kind = .PyPower) : ∀ n t d, run n .trailer c ≠ .ok t d := by
  obtain ⟨t1, h1, l1, hf⟩ := fed_cons hf
  cases fed_nil hf
  have k1 : t1.kind = .PyLeftParen := kind_of_leaf l1
  have n1 : u.kind ≠ .PyRightParen := by rcases ku with h | h <;> rw [h] <;> simp
  have n2 : u.kind ≠ .PyColon := by rcases ku with h | h <;> rw [h] <;> simp
  refine never_body ?_
  simp only [body, trailerBody]
  refine neverp_bind evp_here (neverp_bind (evp_symHere h1) ?_)
  simp only [k1, if_true]
  refine neverp_bind evp_next (neverp_bind (evp_symHere hu) ?_)
  simp only [n1, if_false]
  refine neverp_left (neverp_parse (never_body ?_))
  simp only [body, subscriptListBody]
  refine neverp_bind evp_here (neverp_left (neverp_parse (never_body ?_)))
  simp only [body, subscriptBody]
  refine neverp_bind evp_here (neverp_bind (evp_symHere hu) ?_)
  simp only [n2, if_false]
  refine neverp_left (neverp_parse (never_test_first hu ?_))
  rcases ku with h | h <;> rw [h] <;> intro m hm <;> cases hm
  omega

/-- C45, what holds: positional arguments, any number of them, are accepted. -/
theorem C45_positional_partial {f : Ex} {args : List Ex} (hw : (Ex.call f args).Wf) {c c' : PSt} (hf : Fed c (Ex.call f args).words c')
    (he : EndsExpr 15 c') : ∃ n t, run n .test c = .ok t c' ∧ t.sk = (Ex.call f args).sk := by
  obtain ⟨t, ht, n, h⟩ := (ex_good hw).parses 15 (by simp [Ex.level]) (by omega) c c' hf he
  exact ⟨n, t, h, ht⟩

end
/-! ### Concrete cases of the hypotheses -/

/-- `for x in f(y):` -/
example : let _ := asciiUni
    let x : Ex := .name (cs! "x")
    let y : Ex := .call (.name (cs! "f")) [.name (cs! "y")]
    x.Wf ∧ x.level ≤ 10 ∧ y.Wf ∧ y.level ≤ 15 ∧
    ∃ d, Fed (started (cs! "for x in f(y):\n pass\n")) (.kw (cs! "for") .PyFor :: (x.words ++ .kw (cs! "in") .PyIn :: y.words)) d ∧
      EndsExpr 16 d ∧ ∀ u, d.symbol = .ok u → u.kind ≠ .PyComa := by
  refine ⟨by simp [Ex.Wf], by simp [Ex.level], by simp [Ex.Wf, Ex.level, WfList], by simp [Ex.level], ?_⟩
  simp only [Ex.words, wordsList]
  let _ := asciiUni
  obtain ⟨d, u, h1, h2, h3⟩ := fed_shows (k := .PyColon) (c := started (cs! "for x in f(y):\n pass\n")) (xs := .kw (cs! "for") .PyFor :: ([.name (cs! "x")] ++
    .kw (cs! "in") .PyIn :: ([.name (cs! "f")] ++ .op (cs! "(") .PyLeftParen :: ([.name (cs! "y")] ++ [.op (cs! ")") .PyRightParen])))) (by decide +kernel)
  exact ⟨d, h1, ends_of_symbol h2 h3 (by intro m h; cases h), fun v hv => by rw [h2] at hv; cases hv; rw [h3]; simp⟩

/-- The three accepted forms of targets exist: `for *x in y`, `for x, in y` and `for x, *y in z`. -/
example : let _ := asciiUni
    (∃ t c', run 60 .forStmt (started (cs! "for *x in y:\n pass\n")) = .ok t c' ∧ (t.field 1).tag? = some .StarExpr) ∧
    (∃ t c', run 60 .forStmt (started (cs! "for x, in y:\n pass\n")) = .ok t c' ∧ (t.field 1).tag? = some .ExprList) ∧
    (∃ t c', run 60 .forStmt (started (cs! "for x, *y in z:\n pass\n")) = .ok t c' ∧ (t.field 1).tag? = some .ExprList) ∧
    (∃ t c', run 60 .syncCompFor (started (cs! "[a for x, in y]\n")).advance.advance = .ok t c' ∧ (t.field 1).tag? = some .ExprList) :=
  ⟨Res.shows (by decide +kernel), Res.shows (by decide +kernel), Res.shows (by decide +kernel), Res.shows (by decide +kernel)⟩

/-- `for x in y: pass` and `[a for x in y]` from the source: reported as errors. -/
example : let _ := asciiUni
    (run 60 .fileInput (PSt.new (Lexer.new (cs! "for x in y: pass\n")))).isErr = true ∧
    (run 60 .evalInput (PSt.new (Lexer.new (cs! "[a for x in y]\n")))).isErr = true := by
  decide +kernel

/-- `{}` -/
example : let _ := asciiUni
    ∃ d u, Fed (started (cs! "{}\n")) [.op (cs! "{") .PyLeftCurly, .op (cs! "}") .PyRightCurly] d ∧ d.symbol = .ok u ∧ u.kind = .Newline :=
  @fed_shows asciiUni _ _ _ (by decide +kernel)

/-- `{a: 1, b: 2, c: 3}` -/
example : let _ := asciiUni
    (Ex.dict2 (.name (cs! "a")) (.num (cs! "1")) (.name (cs! "b")) (.num (cs! "2"))).Wf ∧
    ∃ d u, Fed (started (cs! "{a: 1, b: 2, c: 3}\n")) (.op (cs! "{") .PyLeftCurly :: ([.name (cs! "a")] ++ .op (cs! ":") .PyColon :: ([.num (cs! "1")] ++
      .op (cs! ",") .PyComa :: ([.name (cs! "b")] ++ .op (cs! ":") .PyColon :: ([.num (cs! "2")] ++ [.op (cs! ",") .PyComa]))))) d ∧
      d.symbol = .ok u ∧ u.kind = .AtomName :=
  ⟨by simp [Ex.Wf, Ex.level], @fed_shows asciiUni _ _ _ (by decide +kernel)⟩

/-- `{a: 1, b: 2}` is accepted by the rule the theorem on sizes speaks of. -/
example : let _ := asciiUni
    ∃ t c', run 60 .dictorsetMaker (started (cs! "{a: 1, b: 2}\n")).advance = .ok t c' ∧ t.tag? = some .DictionaryContainer :=
  Res.shows (by decide +kernel)

/-- `a[1:2]` at the end of a line, after the bracket. -/
example : let _ := asciiUni
    OptWf (some (.num (cs! "1"))) ∧ OptWf (some (.num (cs! "2"))) ∧
    ∃ d u, Fed (started (cs! "a[1:2]\n")).advance.advance ([.num (cs! "1")] ++ .op (cs! ":") .PyColon :: ([.num (cs! "2")] ++ [.op (cs! "]") .PyRightBracket])) d ∧
      d.symbol = .ok u ∧ u.kind = .Newline :=
  ⟨by simp [OptWf, Ex.Wf, Ex.level], by simp [OptWf, Ex.Wf, Ex.level], @fed_shows asciiUni _ _ _ (by decide +kernel)⟩

/-- `a[1:2]` from the source: reported as an error.  `a[1:2 x 3]` is accepted. -/
example : let _ := asciiUni
    (run 60 .evalInput (PSt.new (Lexer.new (cs! "a[1:2]\n")))).isErr = true ∧
    ∃ t c', run 60 .evalInput (PSt.new (Lexer.new (cs! "a[1:2 x 3]\n"))) = .ok t c' ∧ t.tag? = some .EvalInput :=
  ⟨by decide +kernel, Res.shows (by decide +kernel)⟩

/-- `[1::3]`, after the bracket -/
example : let _ := asciiUni
    ∃ d u, Fed (started (cs! "a[1::3]\n")).advance.advance (optWords (some (.num (cs! "1"))) ++ .op (cs! ":") .PyColon :: (optWords none ++
      .op (cs! ":") .PyColon :: optWords (some (.num (cs! "3"))))) d ∧ d.symbol = .ok u ∧ u.kind = .PyRightBracket := by
  simp only [optWords, Ex.words]
  exact @fed_shows asciiUni _ _ _ (by decide +kernel)

/-- `def f(a): pass` -/
example : let _ := asciiUni
    ∃ d u, Fed (started (cs! "def f(a): pass\n")) [.kw (cs! "def") .PyDef, .name (cs! "f"), .op (cs! "(") .PyLeftParen] d ∧
      d.symbol = .ok u ∧ u.kind = .AtomName :=
  @fed_shows asciiUni _ _ _ (by decide +kernel)

/-- `def f(): pass` is accepted. -/
example : let _ := asciiUni
    ∃ t c', run 60 .funcDef (started (cs! "def f(): pass\n")) = .ok t c' ∧ (t.field 2).tag? = some .Parameter :=
  Res.shows (by decide +kernel)

/-- `@d` and a class, from the source: reported as an error.  `async def f(): pass` meets the hypothesis. -/
example : let _ := asciiUni
    (run 60 .fileInput (PSt.new (Lexer.new (cs! "@d\nclass A: pass\n")))).isErr = true ∧
    ∃ d u, Fed (started (cs! "async def f(): pass\n")) [.kw (cs! "async") .PyAsync, .kw (cs! "def") .PyDef] d ∧ d.symbol = .ok u ∧
      u.kind = .AtomName :=
  ⟨by decide +kernel, @fed_shows asciiUni _ _ _ (by decide +kernel)⟩

/-- `async with a: pass` is accepted. -/
example : let _ := asciiUni
    ∃ t c', run 60 .asyncStmt (started (cs! "async with a: pass\n")) = .ok t c' ∧ t.tag? = some .AsyncStmt :=
  Res.shows (by decide +kernel)

/-- `f(x, y=1)`, after the name -/
example : let _ := asciiUni
    WfList 15 [.name (cs! "x")] ∧
    ∃ d u, Fed (started (cs! "(x, y=1)\n")) (.op (cs! "(") .PyLeftParen :: ([.name (cs! "x"), .op (cs! ",") .PyComa, .name (cs! "y")] ++
      [.op (cs! "=") .PyAssign])) d ∧ d.symbol = .ok u ∧ u.kind = .AtomNumber :=
  ⟨by simp [WfList, Ex.Wf, Ex.level], @fed_shows asciiUni _ _ _ (by decide +kernel)⟩

/-- `f(*a)` and `f(x=1)` from the source: reported as errors. -/
example : let _ := asciiUni
    (run 60 .evalInput (PSt.new (Lexer.new (cs! "f(*a)\n")))).isErr = true ∧
    (run 60 .evalInput (PSt.new (Lexer.new (cs! "f(x=1)\n")))).isErr = true := by
  decide +kernel

end Verif
