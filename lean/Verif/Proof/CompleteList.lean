import Verif.Spec.StmtAst
import Verif.Proof.CompleteAtom

/-!
# Lists of expressions in statements
-/

namespace Verif
section
variable [Uni]

/-- A possibly starred element. -/
def StarItem (f : Fn) (c : PSt) (x : Tree) (d : PSt) : Prop :=
  ∃ u m, c.symbol = .ok u ∧ u.kind.starts = some m ∧
    ((u.kind = .PyMul ∧ Ev .starExpr c x d) ∨ (u.kind ≠ .PyMul ∧ Ev f c x d))

theorem starItem {e : Ex} {n : Nat} (hn : n = 15 ∨ n = 16) (hw : e.Wf) (hl : e.level ≤ n ∨ e.level = 17) {c c'}
    (hf : Fed c e.words c') (he : EndsExpr n c') : ∃ x : Tree, x.sk = e.sk ∧ StarItem (levelFn n) c x c' := by
  obtain ⟨u, m, hu, hs, hm⟩ := fed_first hw hf
  rcases hl with h | h
  · obtain ⟨t, ht, hev⟩ := (ex_good hw).parses n h (by omega) c c' hf he
    exact ⟨t, ht, u, m, hu, hs, .inr ⟨starts_ne hs hm (by intro m' h'; cases h'; omega), hev⟩⟩
  · obtain ⟨a, rfl⟩ := level_star h
    rw [Ex.Wf] at hw
    rw [Ex.words] at hf
    obtain ⟨t, ht, hleaf, hf⟩ := fed_cons hf
    obtain ⟨ta, hta, ea⟩ := (ex_good hw.1).parses 10 hw.2 (by omega) _ _ hf (he.mono (by omega))
    have hk : t.kind = .PyMul := kind_of_leaf hleaf
    rw [ht] at hu; cases hu
    refine ⟨.node .StarExpr c.lex.tokStart c'.lex.tokStart [.tok u, ta], ?_, u, m, ht, hs, .inl ⟨hk, ev_body ?_⟩⟩
    · simp only [Tree.sk, skList, Ex.sk, hta, hleaf, Lexeme.leaf, kd]
    · simp only [body, starExprBody]
      refine evp_bind evp_here (evp_bind (evp_symAt ht) ?_)
      simp only [hk, if_true]
      exact evp_bind evp_next (evp_bind (evp_parse ea) evp_mk)

omit [Uni] in
theorem commaEnds {c : PSt} {t : Token} (h : c.symbol = .ok t) (hk : t.kind = .PyComa) (n : Nat) : EndsExpr n c :=
  ends_of_symbol h hk (by intro m h; cases h)

/-- The comma after the last element. -/
def lastComma (b : Bool) : List Lexeme := if b then [wComma] else []

/-- The loops over comma separated elements. -/
theorem list_loop {n : Nat} {loop : List Tree → List Token → Fn} {Item : PSt → Tree → PSt → Prop} {E : Kind → Prop} {comma : Bool}
    (hstep : ∀ nodes seps c t x d r c', c.symbol = .ok t → t.kind = .PyComa → Item c.advance x d →
      Ev (loop (nodes ++ [x]) (seps ++ [t])) d r c' → Ev (loop nodes seps) c r c')
    (hcomma : ∀ nodes seps c t u r c', c.symbol = .ok t → t.kind = .PyComa → c.advance.symbol = .ok u → E u.kind →
      Ev (loop nodes (seps ++ [t])) c.advance r c' → Ev (loop nodes seps) c r c')
    {c' : PSt} {u : Token} (hu : c'.symbol = .ok u) (hcm : comma = true → E u.kind) (hend : comma = false → EndsExpr n c') :
    ∀ es, (∀ e ∈ es, ∀ c c', Fed c e.words c' → EndsExpr n c' → ∃ x : Tree, x.sk = e.sk ∧ Item c x c') →
      ∀ nodes seps c, (∀ t ∈ seps, t.leaf = .sym .PyComa) → Fed c (tailWords es ++ lastComma comma) c' →
        EndsExpr n c ∧
        ∃ (nodes' : List Tree) (seps' : List Token), skList nodes' = skList nodes ++ es.map Ex.sk ∧ (∀ t ∈ seps', t.leaf = .sym .PyComa) ∧
          seps'.length = seps.length + es.length + (if comma then 1 else 0) ∧
          ∀ r c'', Ev (loop nodes' seps') c' r c'' → Ev (loop nodes seps) c r c'' := by
  intro es
  induction es with
  | nil =>
    intro _ nodes seps c hseps h
    rw [tailWords, List.nil_append] at h
    cases comma with
    | false =>
      cases fed_nil h
      exact ⟨hend rfl, nodes, seps, by simp, hseps, by simp, fun _ _ h => h⟩
    | true =>
      obtain ⟨t, h1, h2, h⟩ := fed_cons h
      cases fed_nil h
      refine ⟨commaEnds h1 (kind_of_leaf h2) n, nodes, seps ++ [t], by simp, ?_, by simp,
        fun r c'' he => hcomma nodes seps c t u r c'' h1 (kind_of_leaf h2) hu (hcm rfl) he⟩
      intro v hv
      rcases List.mem_append.1 hv with hv | hv
      · exact hseps v hv
      · rw [List.mem_singleton.1 hv]; exact h2
  | cons e es ih =>
    intro hi nodes seps c hseps h
    rw [tailWords, List.cons_append, List.append_assoc] at h
    obtain ⟨t, h1, h2, h⟩ := fed_cons h
    obtain ⟨d, h3, h4⟩ := fed_append.1 h
    have hends := (ih (fun e' he' => hi e' (by simp [he'])) nodes seps d hseps h4).1
    obtain ⟨x, hx, hix⟩ := hi e (by simp) _ _ h3 hends
    obtain ⟨_, nodes', seps', g1, g2, g3, g4⟩ := ih (fun e' he' => hi e' (by simp [he'])) (nodes ++ [x]) (seps ++ [t]) d
      (by
        intro u hu
        rcases List.mem_append.1 hu with hu | hu
        · exact hseps u hu
        · rw [List.mem_singleton.1 hu]; exact h2) h4
    refine ⟨commaEnds h1 (kind_of_leaf h2) n, nodes', seps', ?_, g2, ?_,
      fun r c'' he => hstep nodes seps c t x d r c'' h1 (kind_of_leaf h2) hix (g4 r c'' he)⟩
    · rw [g1, skList_append]
      simp only [skList, hx, List.map_cons, List.append_assoc, List.cons_append, List.nil_append]
    · rw [g3]; simp only [List.length_append, List.length_cons, List.length_nil]; omega

omit [Uni] in
theorem exprs_words (e : Ex) (es : List Ex) (b : Bool) :
    Exprs.words ⟨e :: es, b⟩ = e.words ++ (tailWords es ++ lastComma b) := by
  show wordsList (e :: es) ++ lastComma b = _
  rw [wordsList_cons, List.append_assoc]

omit [Uni] in
theorem starts_notEnd {k : Kind} {m : Nat} (h : k.starts = some m) : k ∉ starListEnd ∧ k ≠ .PyComa ∧ k ≠ .PyIn ∧ k ≠ .Newline ∧
    k ≠ .PySemiColon ∧ k ≠ .EOF := by
  revert h; cases k <;> simp [Kind.starts, starListEnd]

omit [Uni] in
theorem starListEnd_ends {k : Kind} (h : k ∈ starListEnd) : k.continues = none ∧ k ≠ .PyComa := by
  revert h; cases k <;> simp [Kind.continues, starListEnd]

omit [Uni] in
/-- The tree of a list: one element without a comma stands for itself. -/
theorem list_sk {tag : Tag} {rev : Bool} {e : Ex} {es : List Ex} {b : Bool} {nodes : List Tree} {seps : List Token} {s e' : Nat}
    (h1 : skList nodes = (e :: es).map Ex.sk) (h2 : ∀ t ∈ seps, t.leaf = .sym .PyComa)
    (h3 : seps.length = es.length + (if b then 1 else 0)) :
    (∃ x, nodes = [x] ∧ seps = [] ∧ x.sk = exprsSk tag rev ⟨e :: es, b⟩) ∨
    ((∀ x, nodes = [x] → seps ≠ []) ∧
      (Tree.node tag s e' [.seq (if rev then nodes.reverse else nodes), .toks (if rev then seps.reverse else seps)]).sk =
        exprsSk tag rev ⟨e :: es, b⟩) := by
  have hlen : nodes.length = es.length + 1 := by rw [← skList_length, h1]; simp
  by_cases h : es = [] ∧ b = false
  · obtain ⟨rfl, rfl⟩ := h
    simp only [List.length_nil, Nat.zero_add] at hlen h3
    obtain ⟨x, rfl⟩ := List.length_eq_one_iff.1 hlen
    simp only [Bool.false_eq_true, if_false] at h3
    refine .inl ⟨x, rfl, List.eq_nil_of_length_eq_zero h3, ?_⟩
    simpa [skList, exprsSk] using h1
  · refine .inr ⟨?_, ?_⟩
    · rintro x rfl hs
      subst hs
      simp only [List.length_cons, List.length_nil] at hlen h3
      exact h ⟨List.eq_nil_of_length_eq_zero (by omega), by cases b; rfl; simp at h3⟩
    · have hseps : skList ((if rev then seps.reverse else seps).map Tree.tok) = List.replicate ((e :: es).length - 1 + if b then 1 else 0) (kd .PyComa) := by
        have := skList_commas (seps := if rev then seps.reverse else seps) (by intro t ht; exact h2 t (by cases rev <;> simpa using ht))
        rw [this]
        cases rev <;> simp [h3, kd]
      have hn : skList (if rev then nodes.reverse else nodes) = if rev then ((e :: es).map Ex.sk).reverse else (e :: es).map Ex.sk := by
        cases rev <;> simp [skList_reverse, h1]
      simp only [Tree.sk, skList, Tree.toks, hseps, hn]
      cases es with
      | nil => cases b; exact absurd ⟨rfl, rfl⟩ h; rfl
      | cons e2 es => cases b <;> rfl

/-- The `testlist_star_expr` rule. -/
theorem testlistStar_ev {l : Exprs} (hw : l.Wf true) {c c' : PSt} (hf : Fed c l.words c') {u : Token} (hu : c'.symbol = .ok u)
    (hk : u.kind ∈ starListEnd) : ∃ t : Tree, t.sk = l.starSk ∧ Ev .testlistStarExpr c t c' := by
  obtain ⟨es, b⟩ := l
  obtain ⟨hne, hw⟩ := hw
  cases es with
  | nil => exact absurd rfl hne
  | cons e es =>
    rw [exprs_words] at hf
    obtain ⟨d, hf1, hf2⟩ := fed_append.1 hf
    have hends : EndsExpr 15 c' := ⟨u, hu, fun m hm => by rw [(starListEnd_ends hk).1] at hm; cases hm⟩
    have hitem : ∀ e' ∈ e :: es, ∀ c c', Fed c e'.words c' → EndsExpr 15 c' → ∃ x : Tree, x.sk = e'.sk ∧ StarItem .test c x c' := by
      intro e' he' c c' h1 h2
      have := hw e' he'
      exact starItem (n := 15) (.inl rfl) this.1 (by rcases this.2 with h | h; exact .inl h; exact .inr h.2) h1 h2
    have hloop := fun nodes => list_loop (n := 15) (loop := .testlistStarExprLoop c.lex.tokStart) (Item := StarItem .test)
        (E := (· ∈ starListEnd)) (comma := b)
        (fun nodes seps c t x d r c' h1 h2 ⟨u, m, h3, h4, h5⟩ h6 => ev_body (by
          simp only [body, testlistStarExprLoopBody]
          refine evp_bind (evp_symHere h1) ?_
          simp only [h2, if_true]
          refine evp_bind evp_next (evp_bind (evp_symHere h3) ?_)
          obtain ⟨n1, n2, _⟩ := starts_notEnd h4
          simp only [n1, n2, if_false]
          rcases h5 with ⟨h5, hx⟩ | ⟨h5, hx⟩
          · simp only [h5, if_true]; exact evp_bind (evp_parse hx) (evp_parse h6)
          · simp only [h5, if_false]; exact evp_bind (evp_parse hx) (evp_parse h6)))
        (fun nodes seps c t u r c' h1 h2 h3 h4 h5 => ev_body (by
          simp only [body, testlistStarExprLoopBody]
          refine evp_bind (evp_symHere h1) ?_
          simp only [h2, if_true]
          refine evp_bind evp_next (evp_bind (evp_symHere h3) ?_)
          simp only [h4, if_true]
          exact evp_parse h5))
        hu (fun _ => hk) (fun _ => hends) es (fun e' he' => hitem e' (by simp [he'])) nodes [] d (by simp) hf2
    obtain ⟨x, hx, w, m, hw1, hw2, hw3⟩ := hitem e (by simp) c d hf1 (hloop []).1
    obtain ⟨_, nodes', seps', g1, g2, g3, g4⟩ := hloop [x]
    have key : ∃ t : Tree, t.sk = exprsSk .TestListStarExpr true ⟨e :: es, b⟩ ∧ EvP (testlistStarExprResult c.lex.tokStart nodes' seps') c' t c' := by
      rcases list_sk (tag := .TestListStarExpr) (rev := true) (s := c.lex.tokStart) (e' := c'.lex.tokStart) (e := e) (es := es) (b := b)
        (by rw [g1]; simp [skList, hx]) g2 (by simpa using g3) with ⟨y, rfl, rfl, hy⟩ | ⟨hy, ht⟩
      · exact ⟨y, hy, evp_pure⟩
      · refine ⟨_, ht, ?_⟩
        unfold testlistStarExprResult
        split
        · rename_i y h1 h2
          exact absurd (by simpa using h2) (hy y (by simpa using h1))
        · exact evp_mk
    obtain ⟨t, ht, hev⟩ := key
    refine ⟨t, ht, ev_body ?_⟩
    have hE := g4 t c' (ev_body (by
      simp only [body, testlistStarExprLoopBody]
      refine evp_bind (evp_symHere hu) ?_
      simp only [(starListEnd_ends hk).2, if_false]
      exact hev))
    simp only [body, testlistStarExprBody]
    refine evp_bind evp_here (evp_bind (evp_symHere hw1) ?_)
    rcases hw3 with ⟨h5, hx⟩ | ⟨h5, hx⟩
    · simp only [h5, if_true]; exact evp_bind (evp_parse hx) (evp_parse hE)
    · simp only [h5, if_false]; exact evp_bind (evp_parse hx) (evp_parse hE)

/-- The `testlist` rule. -/
theorem testlist_ev {l : Exprs} (hw : l.Wf false) {c c' : PSt} (hf : Fed c l.words c') {u : Token} (hu : c'.symbol = .ok u)
    (hk : u.kind ∈ starListEnd) (hcm : l.comma = true → u.kind = .Newline ∨ u.kind = .PySemiColon ∨ u.kind = .EOF) :
    ∃ t : Tree, t.sk = exprsSk .TestList false l ∧ Ev .testlist c t c' := by
  obtain ⟨es, b⟩ := l
  obtain ⟨hne, hw⟩ := hw
  cases es with
  | nil => exact absurd rfl hne
  | cons e es =>
    rw [exprs_words] at hf
    obtain ⟨d, hf1, hf2⟩ := fed_append.1 hf
    have hends : EndsExpr 15 c' := ⟨u, hu, fun m hm => by rw [(starListEnd_ends hk).1] at hm; cases hm⟩
    have hitem : ∀ e' ∈ e :: es, ∀ c c', Fed c e'.words c' → EndsExpr 15 c' → ∃ x : Tree, x.sk = e'.sk ∧
        ((∃ u m, c.symbol = .ok u ∧ u.kind.starts = some m) ∧ Ev .test c x c') := by
      intro e' he' c c' h1 h2
      obtain ⟨h3, h4⟩ := hw e' he'
      have h4 : e'.level ≤ 15 := by rcases h4 with h | h; exact h; exact absurd h.1 (by simp)
      obtain ⟨x, hx, hev⟩ := (ex_good h3).parses 15 h4 (by omega) c c' h1 h2
      obtain ⟨u, m, hu, hs, _⟩ := fed_first h3 h1
      exact ⟨x, hx, ⟨u, m, hu, hs⟩, hev⟩
    have hloop := fun nodes => list_loop (n := 15) (loop := .testlistLoop c.lex.tokStart)
        (Item := fun c x d => (∃ u m, c.symbol = .ok u ∧ u.kind.starts = some m) ∧ Ev .test c x d)
        (E := fun k => k = .Newline ∨ k = .PySemiColon ∨ k = .EOF) (comma := b)
        (fun nodes seps c t x d r c' h1 h2 ⟨⟨u, m, h3, h4⟩, h5⟩ h6 => ev_body (by
          simp only [body, testlistLoopBody]
          refine evp_bind (evp_symHere h1) ?_
          simp only [h2, if_true]
          refine evp_bind evp_next (evp_bind (evp_symHere h3) ?_)
          obtain ⟨n1, n2, _, n3, n4, n5⟩ := starts_notEnd h4
          simp only [n2, n3, n4, n5, or_self, if_false]
          exact evp_bind (evp_parse h5) (evp_parse h6)))
        (fun nodes seps c t u r c' h1 h2 h3 h4 h5 => ev_body (by
          simp only [body, testlistLoopBody]
          refine evp_bind (evp_symHere h1) ?_
          simp only [h2, if_true]
          refine evp_bind evp_next (evp_bind (evp_symHere h3) ?_)
          simp only [h4, if_true]
          exact evp_parse h5))
        hu hcm (fun _ => hends) es (fun e' he' => hitem e' (by simp [he'])) nodes [] d (by simp) hf2
    obtain ⟨x, hx, _, hev1⟩ := hitem e (by simp) c d hf1 (hloop []).1
    obtain ⟨_, nodes', seps', g1, g2, g3, g4⟩ := hloop [x]
    have key : ∃ t : Tree, t.sk = exprsSk .TestList false ⟨e :: es, b⟩ ∧ EvP (listResult .TestList c.lex.tokStart nodes' seps') c' t c' := by
      rcases list_sk (tag := .TestList) (rev := false) (s := c.lex.tokStart) (e' := c'.lex.tokStart) (e := e) (es := es) (b := b)
        (by rw [g1]; simp [skList, hx]) g2 (by simpa using g3) with ⟨y, rfl, rfl, hy⟩ | ⟨hy, ht⟩
      · exact ⟨y, hy, evp_pure⟩
      · refine ⟨_, ht, ?_⟩
        unfold listResult
        split
        · rename_i y
          exact absurd rfl (hy y rfl)
        · exact evp_mk
    obtain ⟨t, ht, hev⟩ := key
    refine ⟨t, ht, ev_body ?_⟩
    have hE := g4 t c' (ev_body (by
      simp only [body, testlistLoopBody]
      refine evp_bind (evp_symHere hu) ?_
      simp only [(starListEnd_ends hk).2, if_false]
      exact hev))
    simp only [body, testlistBody]
    exact evp_bind evp_here (evp_bind (evp_parse hev1) (evp_parse hE))

/-- The `exprlist` rule. -/
theorem exprlist_ev {es : List Ex} {b : Bool} (hne : es ≠ []) (hw : ∀ e ∈ es, e.Wf ∧ e.level ≤ 17) {c c' : PSt}
    (hf : Fed c (wordsList es ++ lastComma b) c') {u : Token} (hu : c'.symbol = .ok u)
    (hk : if b then u.kind = .PyIn else u.kind ∈ starListEnd) :
    ∃ t : Tree, t.sk = exprsSk .ExprList false ⟨es, b⟩ ∧ Ev .exprlist c t c' := by
  cases es with
  | nil => exact absurd rfl hne
  | cons e es =>
    rw [show wordsList (e :: es) ++ lastComma b = _ from exprs_words e es b] at hf
    obtain ⟨d, hf1, hf2⟩ := fed_append.1 hf
    have hitem : ∀ e' ∈ e :: es, ∀ c c', Fed c e'.words c' → EndsExpr 16 c' → ∃ x : Tree, x.sk = e'.sk ∧ StarItem .namedExpression c x c' := by
      intro e' he' c c' h1 h2
      have := hw e' he'
      exact starItem (n := 16) (.inr rfl) this.1 (by omega) h1 h2
    have ncm : u.kind ≠ .PyComa := by
      cases b with
      | true => simp only [if_true] at hk; rw [hk]; simp
      | false => simp only [Bool.false_eq_true, if_false] at hk; exact (starListEnd_ends hk).2
    have hloop := fun nodes => list_loop (n := 16) (loop := .exprlistLoop c.lex.tokStart) (Item := StarItem .namedExpression)
        (E := (· = .PyIn)) (comma := b)
        (fun nodes seps c t x d r c' h1 h2 ⟨u, m, h3, h4, h5⟩ h6 => ev_body (by
          simp only [body, exprlistLoopBody]
          refine evp_bind (evp_symHere h1) ?_
          simp only [h2, if_true]
          refine evp_bind evp_next (evp_bind (evp_symHere h3) ?_)
          obtain ⟨_, n2, n1, _⟩ := starts_notEnd h4
          simp only [n1, n2, if_false]
          rcases h5 with ⟨h5, hx⟩ | ⟨h5, hx⟩
          · simp only [h5, if_true]; exact evp_bind (evp_parse hx) (evp_parse h6)
          · simp only [h5, if_false]; exact evp_bind (evp_parse hx) (evp_parse h6)))
        (fun nodes seps c t u r c' h1 h2 h3 h4 h5 => ev_body (by
          simp only [body, exprlistLoopBody]
          refine evp_bind (evp_symHere h1) ?_
          simp only [h2, if_true]
          refine evp_bind evp_next (evp_bind (evp_symHere h3) ?_)
          simp only [h4, if_true]
          exact evp_parse h5))
        hu (fun hb => by rw [hb] at hk; simpa using hk)
        (fun hb => by
          rw [hb] at hk
          exact ⟨u, hu, fun m hm => by rw [(starListEnd_ends (by simpa using hk)).1] at hm; cases hm⟩)
        es (fun e' he' => hitem e' (by simp [he'])) nodes [] d (by simp) hf2
    obtain ⟨x, hx, w, m, hw1, hw2, hw3⟩ := hitem e (by simp) c d hf1 (hloop []).1
    obtain ⟨_, nodes', seps', g1, g2, g3, g4⟩ := hloop [x]
    have key : ∃ t : Tree, t.sk = exprsSk .ExprList false ⟨e :: es, b⟩ ∧ EvP (listResult .ExprList c.lex.tokStart nodes' seps') c' t c' := by
      rcases list_sk (tag := .ExprList) (rev := false) (s := c.lex.tokStart) (e' := c'.lex.tokStart) (e := e) (es := es) (b := b)
        (by rw [g1]; simp [skList, hx]) g2 (by simpa using g3) with ⟨y, rfl, rfl, hy⟩ | ⟨hy, ht⟩
      · exact ⟨y, hy, evp_pure⟩
      · refine ⟨_, ht, ?_⟩
        unfold listResult
        split
        · rename_i y
          exact absurd rfl (hy y rfl)
        · exact evp_mk
    obtain ⟨t, ht, hev⟩ := key
    refine ⟨t, ht, ev_body ?_⟩
    have hE := g4 t c' (ev_body (by
      simp only [body, exprlistLoopBody]
      refine evp_bind (evp_symHere hu) ?_
      simp only [ncm, if_false]
      exact hev))
    simp only [body, exprlistBody, starOrNamed]
    refine evp_bind evp_here (evp_bind (p := (Prog.symHere _ >>= _ : Prog Tree)) (evp_bind (evp_symHere hw1) (?_ : EvP _ c x d)) (evp_parse hE))
    rcases hw3 with ⟨h5, hx⟩ | ⟨h5, hx⟩
    · simp only [h5, if_true]; exact evp_parse hx
    · simp only [h5, if_false]; exact evp_parse hx

end
end Verif
