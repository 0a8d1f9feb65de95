import Verif.Proof.CompleteStmt

/-!
# Every well formed program is accepted
-/

namespace Verif

/-- The rule for a statement with this first header, and the token it starts with. -/
def headFn : Head → Fn × Kind
  | .if_ _ => (.ifStmt, .PyIf)
  | .while_ _ => (.whileStmt, .PyWhile)
  | .for_ .. => (.forStmt, .PyFor)
  | .try_ => (.tryStmt, .PyTry)
  | .with_ .. => (.withStmt, .PyWith)
  | .def_ .. => (.funcDef, .PyDef)
  | .class_ .. => (.classDef, .PyClass)
  | _ => (.stmt, .EOF)

theorem heads_cons {cs : List Clause} {h : Head} {hs : List Head} (e : cs.map Clause.head = h :: hs) :
    ∃ b cs', cs = .mk h b :: cs' ∧ cs'.map Clause.head = hs := by
  match cs, e with
  | .mk h' b :: cs', e =>
    simp only [List.map_cons, List.cons.injEq, Clause.head] at e
    obtain ⟨rfl, e2⟩ := e
    exact ⟨b, cs', rfl, e2⟩

theorem heads_nil {cs : List Clause} (e : cs.map Clause.head = []) : cs = [] := by simpa using e

theorem heads_append {cs : List Clause} {hs hs' : List Head} (e : cs.map Clause.head = hs ++ hs') :
    ∃ cs1 cs2, cs = cs1 ++ cs2 ∧ cs1.map Clause.head = hs ∧ cs2.map Clause.head = hs' := by
  induction hs generalizing cs with
  | nil => exact ⟨[], cs, rfl, rfl, e⟩
  | cons h hs ih =>
    obtain ⟨b, cs', rfl, e3⟩ := heads_cons e
    obtain ⟨cs1, cs2, rfl, e1, e2⟩ := ih e3
    exact ⟨.mk h b :: cs1, cs2, rfl, by simp [Clause.head, e1], e2⟩

theorem heads_one {cs : List Clause} {h : Head} (e : cs.map Clause.head = [h]) : ∃ b, cs = [.mk h b] := by
  obtain ⟨b, cs', rfl, e2⟩ := heads_cons e
  cases heads_nil e2
  exact ⟨b, rfl⟩

theorem excOf_elif (es : List Ex) (tl : List Head) (h : excOf tl = none) : excOf (es.map .elif ++ tl) = none := by
  induction es with
  | nil => exact h
  | cons e es ih => simpa [excOf] using ih

section
variable [Uni]

omit [Uni] in
theorem headFn_words (h : Head) (hs : (headFn h).2 ≠ .EOF) : ∃ x r, h.words = x :: r ∧ x.leaf.kind = (headFn h).2 := by
  cases h with
  | if_ e => exact ⟨_, _, rfl, rfl⟩
  | while_ e => exact ⟨_, _, rfl, rfl⟩
  | for_ => exact ⟨_, _, rfl, rfl⟩
  | try_ => exact ⟨_, _, rfl, rfl⟩
  | with_ p x xs => cases p <;> exact ⟨_, _, rfl, rfl⟩
  | def_ f r => cases r <;> exact ⟨_, _, rfl, rfl⟩
  | class_ => exact ⟨_, _, rfl, rfl⟩
  | _ => exact absurd rfl hs

theorem comp_good {k : Option Bool} {cs : List Clause} (hh : HeadsOk (cs.map Clause.head))
    (hk : ∀ x ∈ k, ∀ y ∈ excOf (cs.map Clause.head), x = y)
    (hg : ∀ cl ∈ cs, ClauseGood ((excOf (cs.map Clause.head)).or k) cl) {c c' : PSt} (hf : FedL c (clauseLeaves cs) c')
    (hend : EndsStm c') (hx : ExcOk k c.exc) :
    ∃ h b cs', cs = .mk h b :: cs' ∧ (headFn h).2 ≠ .EOF ∧
      ∃ (t : Tree) (y : ExcStatus), ExcOk k y ∧ t.sk = compSk (clauseSks cs) ∧ Ev (headFn h).1 c t (c'.ex y) := by
  generalize hl : cs.map Clause.head = hs at hh hk hg
  have htry : ∀ star, excOf hs = some star → ∀ y, ExcOk (some star) y → ExcOk k y := by
    intro star he y hy
    cases k with
    | none => trivial
    | some x => rw [hk x rfl star (by rw [he]; rfl)]; exact hy
  cases hh with
  | @if_ e es =>
    obtain ⟨b, cs, rfl, hl_1⟩ := heads_cons hl
    have he : excOf (.if_ e :: es.map .elif) = none := by simpa [excOf] using excOf_elif es [] rfl
    rw [he, Option.none_or] at hg
    exact ⟨_, b, cs, rfl, by simp [headFn], if_good hend (.inl hl_1) hg hf hx⟩
  | @ifElse e es =>
    obtain ⟨b, cs, rfl, hl_1⟩ := heads_cons hl
    have he : excOf (.if_ e :: (es.map .elif ++ [.else_])) = none := by simpa [excOf] using excOf_elif es [.else_] rfl
    rw [he, Option.none_or] at hg
    exact ⟨_, b, cs, rfl, by simp [headFn], if_good hend (.inr hl_1) hg hf hx⟩
  | while_ =>
    obtain ⟨b, rfl⟩ := heads_one hl
    exact ⟨_, b, [], rfl, by simp [headFn], while_good hend (.inl rfl) hg hf hx⟩
  | whileElse =>
    obtain ⟨b, cs, rfl, hl_1⟩ := heads_cons hl
    exact ⟨_, b, cs, rfl, by simp [headFn], while_good hend (.inr (heads_one hl_1)) hg hf hx⟩
  | for_ =>
    obtain ⟨b, rfl⟩ := heads_one hl
    exact ⟨_, b, [], rfl, by simp [headFn], for_good hend (.inl rfl) hg hf hx⟩
  | forElse =>
    obtain ⟨b, cs, rfl, hl_1⟩ := heads_cons hl
    exact ⟨_, b, cs, rfl, by simp [headFn], for_good hend (.inr (heads_one hl_1)) hg hf hx⟩
  | tryFinally =>
    obtain ⟨b, cs, rfl, hl_1⟩ := heads_cons hl
    obtain ⟨b2, rfl⟩ := heads_one hl_1
    exact ⟨_, b, _, rfl, by simp [headFn], tryFinally_good hend hg hf⟩
  | @tryExcept star e es =>
    obtain ⟨b, cs, rfl, hl_1⟩ := heads_cons hl
    rw [List.map_cons] at hl_1
    obtain ⟨b2, cs, rfl, hl_2⟩ := heads_cons hl_1
    refine ⟨_, b, _, rfl, by simp [headFn], ?_⟩
    obtain ⟨t, y, h1, h2⟩ := tryExcept_good (cs := cs) (cs1 := []) (cs2 := []) (.inl rfl) (.inl rfl) hl_2 hend
      (by rw [List.append_nil, List.append_nil]; exact hg) (by rw [List.append_nil, List.append_nil]; exact hf)
    exact ⟨t, y, htry star rfl y h1, by rw [List.append_nil, List.append_nil] at h2; exact h2⟩
  | @tryElse star e es =>
    obtain ⟨b, cs, rfl, hl_1⟩ := heads_cons hl
    rw [List.map_cons, List.cons_append] at hl_1
    obtain ⟨b2, cs, rfl, hl_2⟩ := heads_cons hl_1
    obtain ⟨cs, cs1, rfl, hl_3, hl1⟩ := heads_append hl_2
    refine ⟨_, b, _, rfl, by simp [headFn], ?_⟩
    obtain ⟨t, y, h1, h2⟩ := tryExcept_good (cs := cs) (cs1 := cs1) (cs2 := []) (.inr (heads_one hl1)) (.inl rfl) hl_3 hend
      (by rw [List.append_nil]; exact hg) (by rw [List.append_nil]; exact hf)
    exact ⟨t, y, htry star rfl y h1, by rw [List.append_nil] at h2; exact h2⟩
  | @tryExceptFinally star e es =>
    obtain ⟨b, cs, rfl, hl_1⟩ := heads_cons hl
    rw [List.map_cons, List.cons_append] at hl_1
    obtain ⟨b2, cs, rfl, hl_2⟩ := heads_cons hl_1
    obtain ⟨cs, cs1, rfl, hl_3, hl1⟩ := heads_append hl_2
    refine ⟨_, b, _, rfl, by simp [headFn], ?_⟩
    obtain ⟨t, y, h1, h2⟩ := tryExcept_good (cs := cs) (cs1 := []) (cs2 := cs1) (.inl rfl) (.inr (heads_one hl1)) hl_3 hend
      (by rw [List.nil_append]; exact hg) (by rw [List.nil_append]; exact hf)
    exact ⟨t, y, htry star rfl y h1, by rw [List.nil_append] at h2; exact h2⟩
  | @tryElseFinally star e es =>
    obtain ⟨b, cs, rfl, hl_1⟩ := heads_cons hl
    rw [List.map_cons, List.cons_append] at hl_1
    obtain ⟨b2, cs, rfl, hl_2⟩ := heads_cons hl_1
    obtain ⟨cs, cs1, rfl, hl_3, hl1⟩ := heads_append hl_2
    obtain ⟨b3, cs2, rfl, hl2⟩ := heads_cons hl1
    refine ⟨_, b, _, rfl, by simp [headFn], ?_⟩
    obtain ⟨t, y, h1, h2⟩ := tryExcept_good (cs := cs) (cs1 := [.mk .else_ b3]) (cs2 := cs2) (.inr ⟨b3, rfl⟩) (.inr (heads_one hl2)) hl_3 hend
      hg hf
    exact ⟨t, y, htry star rfl y h1, h2⟩
  | with_ =>
    obtain ⟨b, rfl⟩ := heads_one hl
    exact ⟨_, b, [], rfl, by simp [headFn], with_good (hg _ (by simp)) hf hx⟩
  | def_ =>
    obtain ⟨b, rfl⟩ := heads_one hl
    exact ⟨_, b, [], rfl, by simp [headFn], def_good (hg _ (by simp)) hf hx⟩
  | class_ =>
    obtain ⟨b, rfl⟩ := heads_one hl
    exact ⟨_, b, [], rfl, by simp [headFn], class_good (hg _ (by simp)) hf hx⟩

/-- A compound statement behind the rule for all statements. -/
theorem comp_stmt {c c' : PSt} {v : Token} {t : Tree} {h : Head} (hv : c.symbol = .ok v) (hk : v.kind = (headFn h).2) (hs : (headFn h).2 ≠ .EOF)
    (ht : Ev (headFn h).1 c t c') : Ev .stmt c t c' := by
  refine ev_body ?_
  simp only [body, stmtBody]
  refine evp_bind evp_here (evp_bind (evp_symAt hv) ?_)
  cases h <;> first
    | exact absurd rfl hs
    | (simp only [headFn] at hk ht
       kd_simp [hk, compoundStart]
       refine evp_parse (ev_body ?_)
       simp only [body, compoundStmtBody]
       refine evp_bind evp_here (evp_bind (evp_symAt hv) ?_)
       kd_simp [hk]
       exact evp_parse ht)

theorem async_stmt {c c' : PSt} {w v : Token} {t : Tree} {h : Head} (hw : c.symbol = .ok w) (lw : w.leaf = .sym .PyAsync)
    (hv : c.advance.symbol = .ok v) (hk : v.kind = (headFn h).2)
    (ha : h.asyncOk) (hs : (headFn h).2 ≠ .EOF) (ht : Ev (headFn h).1 c.advance t c') :
    ∃ t' : Tree, t'.sk = .node .AsyncStmt [kd .PyAsync, t.sk] ∧ Ev .stmt c t' c' := by
  have kw : w.kind = .PyAsync := kind_of lw
  refine ⟨.node .AsyncStmt c.lex.tokStart c'.lex.tokStart [.tok w, t], by sk_simp [lw], ev_body ?_⟩
  simp only [body, stmtBody]
  refine evp_bind evp_here (evp_bind (evp_symAt hw) ?_)
  kd_simp [kw, compoundStart]
  refine evp_parse (ev_body ?_)
  simp only [body, compoundStmtBody]
  refine evp_bind evp_here (evp_bind (evp_symAt hw) ?_)
  kd_simp [kw]
  refine evp_parse (ev_body ?_)
  simp only [body, asyncStmtBody]
  refine evp_bind evp_here (evp_bind (evp_symAt hw) ?_)
  kd_simp [kw]
  refine evp_bind evp_next (evp_bind (evp_symAt hv) ?_)
  cases h <;> first
    | exact absurd rfl hs
    | exact ha.elim
    | (simp only [headFn] at hk ht
       kd_simp [hk]
       exact evp_bind (evp_parse ht) evp_mk)

/-! ### The induction -/

/-- What the first token of a statement is not. -/
def notStm : List Kind := [.Newline, .EOF, .Indent, .Dedent, .PyElif, .PyElse, .PyExcept, .PyFinally]

omit [Uni] in
theorem heads_first {cs : List Clause} (hh : HeadsOk (cs.map Clause.head)) :
    ∃ h b cs', cs = .mk h b :: cs' ∧ (headFn h).2 ≠ .EOF := by
  generalize hl : cs.map Clause.head = hs at hh
  cases hh <;> obtain ⟨b, cs', rfl, _⟩ := heads_cons hl <;> exact ⟨_, b, cs', rfl, by simp [headFn]⟩

omit [Uni] in
theorem stm_first {k : Option Bool} {s : Stm} (hw : s.Wf k) : ∃ x r, s.leaves = x :: r ∧ x.kind ∉ notStm := by
  cases s with
  | simple l =>
    rw [Stm.Wf] at hw
    obtain ⟨x, r, h1, h2⟩ := sline_first hw.1
    refine ⟨x.leaf, r.map Lexeme.leaf ++ [.sym .Newline], by rw [Stm.leaves, h1]; rfl, ?_⟩
    intro h; apply h2
    revert h; cases x.leaf.kind <;> simp [notStm, notSmall]
  | comp async cs =>
    rw [Stm.Wf] at hw
    cases async with
    | true => exact ⟨.sym .PyAsync, clauseLeaves cs, by simp [Stm.leaves], by simp [Leaf.kind, notStm]⟩
    | false =>
      obtain ⟨h, b, cs', rfl, hs⟩ := heads_first hw.1
      obtain ⟨x, r, h1, h2⟩ := headFn_words h hs
      refine ⟨x.leaf, r.map Lexeme.leaf ++ (b.leaves ++ clauseLeaves cs'), by simp [Stm.leaves, clauseLeaves, h1], ?_⟩
      rw [h2]
      cases h <;> first
        | exact absurd rfl hs
        | simp [headFn, notStm]

omit [Uni] in
theorem notStm_ne {k : Kind} (h : k ∉ notStm) : k ≠ .Newline ∧ k ≠ .EOF ∧ k ≠ .Dedent ∧ k ∉ [Kind.PyElif, .PyElse, .PyExcept, .PyFinally] := by
  revert h; cases k <;> simp [notStm]

theorem simple_good {k : Option Bool} {l : SLine} (hw : (Stm.simple l).Wf k) : StmGood k (.simple l) := by
  intro c c' hf hend hx
  rw [Stm.Wf] at hw
  rw [Stm.leaves] at hf
  obtain ⟨d, hf1, hf2⟩ := fedL_append.1 hf
  obtain ⟨u, hu, lu, hf2⟩ := fedL_cons hf2
  cases fedL_nil hf2
  have hf1 := fed_of_fedL hf1
  obtain ⟨t, ht, et⟩ := simpleStmt_ev hw.1 hf1 hu lu
  refine ⟨t, c.exc, hx, by rw [ht, Stm.sk], ev_body ?_⟩
  have he : d.advance.ex c.exc = d.advance := by rw [← fed_exc hf1, ← adv_exc, ex_self]
  rw [he]
  obtain ⟨x, r, h1, h2⟩ := sline_first hw.1
  rw [h1] at hf1
  obtain ⟨v, hv, lv, _⟩ := fed_cons hf1
  have n1 : v.kind ∉ compoundStart := by
    rw [kind_of_leaf lv]
    intro h; apply h2
    revert h; cases x.leaf.kind <;> simp [compoundStart, notSmall]
  have n2 : v.isMatchName = false := by
    cases hm : v.isMatchName with
    | false => rfl
    | true =>
      refine absurd ?_ hw.2
      rw [h1, List.head?_cons, Option.map_some, ← lv]
      cases v <;> simp [Token.isMatchName] at hm
      simp [Token.leaf, hm]
  simp only [body, stmtBody]
  refine evp_bind evp_here (evp_bind (evp_symAt hv) ?_)
  simp only [n1, n2, if_false, Bool.false_eq_true]
  exact evp_parse et

/-- Loops over statements. -/
theorem stms_loop {k : Option Bool} {loop : List Tree → Fn}
    (hstep : ∀ nodes c v x d r c', c.symbol = .ok v → v.kind ∉ notStm → Ev .stmt c x d →
      Ev (loop (nodes ++ [x])) d r c' → Ev (loop nodes) c r c') :
    ∀ (ss : List Stm) (nodes : List Tree) (c c' : PSt), (∀ s ∈ ss, s.Wf k ∧ StmGood k s) → FedL c (stmLeaves ss) c' → EndsStm c' → ExcOk k c.exc →
      EndsStm c ∧ ∃ (nodes' : List Tree) (y : ExcStatus), ExcOk k y ∧ skList nodes' = skList nodes ++ stmSks ss ∧
        ∀ r c'', Ev (loop nodes') (c'.ex y) r c'' → Ev (loop nodes) c r c'' := by
  intro ss
  induction ss with
  | nil =>
    intro nodes c c' _ hf hend hx
    rw [stmLeaves] at hf
    cases fedL_nil hf
    exact ⟨hend, nodes, c.exc, hx, by simp [stmSks], fun r c'' h => h⟩
  | cons s ss ih =>
    intro nodes c c' hg hf hend hx
    rw [stmLeaves] at hf
    obtain ⟨d, hf1, hf2⟩ := fedL_append.1 hf
    obtain ⟨hw, hs⟩ := hg s (by simp)
    have hd := (ih nodes d c' (fun s h => hg s (by simp [h])) hf2 hend (by rw [fedL_exc hf1]; exact hx)).1
    obtain ⟨t, y, h1, h2, h3⟩ := hs c d hf1 hd hx
    obtain ⟨_, nodes', y', i1, i2, i3⟩ := ih (nodes ++ [t]) (d.ex y) (c'.ex y) (fun s h => hg s (by simp [h])) (fedL_ex hf2 y) hend h1
    obtain ⟨x, r, j1, j2⟩ := stm_first hw
    rw [j1] at hf1
    obtain ⟨v, hv, lv, _⟩ := fedL_cons hf1
    have kv : v.kind ∉ notStm := by rw [kind_of lv]; exact j2
    refine ⟨⟨v, hv, (notStm_ne kv).2.2.2⟩, nodes', y', i1, ?_, fun r c'' h => hstep nodes c v t _ r c'' hv kv h3 (i3 r c'' h)⟩
    rw [i2, skList_append]
    simp only [skList, h2, stmSks, List.append_assoc, List.cons_append, List.nil_append]

theorem block_good {k : Option Bool} {s : Stm} {ss : List Stm} (hs : s.Wf k ∧ StmGood k s) (hss : ∀ s ∈ ss, s.Wf k ∧ StmGood k s) :
    SuiteGood k (.block s ss) := by
  intro isDef c c' hf hx
  rw [Suite.leaves] at hf
  obtain ⟨t1, h1, l1, hf⟩ := fedL_cons hf
  obtain ⟨t2, h2, l2, hf⟩ := fedL_cons hf
  obtain ⟨d, hf1, hf⟩ := fedL_append.1 hf
  obtain ⟨d2, hf2, hf⟩ := fedL_append.1 hf
  obtain ⟨t3, h3, l3, hf⟩ := fedL_cons hf
  cases fedL_nil hf
  have k1 : t1.kind = .Newline := kind_of l1
  have k2 : t2.kind = .Indent := kind_of l2
  have k3 : t3.kind = .Dedent := kind_of l3
  have hd2 : EndsStm d2 := ⟨t3, h3, by rw [k3]; simp⟩
  have hx1 : ExcOk k c.advance.advance.exc := by rw [adv_exc, adv_exc]; exact hx
  have hxd : ExcOk k d.exc := by rw [fedL_exc hf1]; exact hx1
  cases isDef with
  | false =>
    have hloop := fun nodes => stms_loop (k := k) (loop := .suiteLoop c.lex.tokStart t1 t2) (fun nodes c v x d r c' hv kv e1 e2 => ev_body (by
      simp only [body, suiteLoopBody]
      refine evp_bind (evp_symAt hv) ?_
      simp only [(notStm_ne kv).2.2.1, if_false]
      exact evp_bind (evp_parse e1) (evp_parse e2))) ss nodes
    have hd := (hloop [] d d2 hss hf2 hd2 hxd).1
    obtain ⟨t, y, i1, i2, i3⟩ := hs.2 _ _ hf1 hd hx1
    obtain ⟨_, nodes', y', j1, j2, j3⟩ := hloop [t] (d.ex y) (d2.ex y) hss (fedL_ex hf2 y) hd2 i1
    refine ⟨.node .SuiteStmt c.lex.tokStart d2.advance.lex.tokStart [.tok t1, .tok t2, .seq nodes'.reverse, .tok t3], y', j1, ?_, ev_body ?_⟩
    · sk_simp [Suite.sk, skList_reverse, j2, i2, l1, l2, l3]
      rfl
    · simp only [body, suiteBody]
      refine evp_bind evp_here (evp_bind (evp_symAt h1) ?_)
      kd_simp [k1]
      refine evp_bind evp_next (evp_bind (evp_symAt h2) ?_)
      kd_simp [k2]
      refine evp_bind evp_next (evp_bind (evp_parse i3) (evp_parse (j3 _ _ (ev_body ?_))))
      simp only [body, suiteLoopBody]
      refine evp_bind (evp_symAt (t := t3) h3) ?_
      kd_simp [k3]
      refine evp_bind evp_next ?_
      rw [ex_advance, ex_advance, ex_ex]
      exact evp_mk
  | true =>
    have hloop := fun nodes => stms_loop (k := k) (loop := .funcBodyLoop c.lex.tokStart t1 .none .none t2) (fun nodes c v x d r c' hv kv e1 e2 => ev_body (by
      simp only [body, funcBodyLoopBody]
      refine evp_bind (evp_symAt hv) ?_
      simp only [(notStm_ne kv).2.2.1, if_false]
      exact evp_bind (evp_parse e1) (evp_parse e2))) ss nodes
    have hd := (hloop [] d d2 hss hf2 hd2 hxd).1
    obtain ⟨t, y, i1, i2, i3⟩ := hs.2 _ _ hf1 hd hx1
    obtain ⟨_, nodes', y', j1, j2, j3⟩ := hloop [t] (d.ex y) (d2.ex y) hss (fedL_ex hf2 y) hd2 i1
    refine ⟨.node .FuncBodySuite c.lex.tokStart d2.advance.lex.tokStart [.tok t1, .none, .none, .tok t2, .seq nodes'.reverse, .tok t3], y', j1, ?_, ev_body ?_⟩
    · sk_simp [Suite.sk, skList_reverse, j2, i2, l1, l2, l3]
      rfl
    · simp only [body, funcBodySuiteBody]
      refine evp_bind evp_here (evp_bind (evp_symAt h1) ?_)
      kd_simp [k1]
      refine evp_bind evp_next (evp_bind (evp_symAt h2) ?_)
      kd_simp [k2]
      unfold funcBodyIndent
      refine evp_bind (evp_symAt h2) ?_
      kd_simp [k2]
      refine evp_bind evp_next (evp_bind (evp_parse i3) (evp_parse (j3 _ _ (ev_body ?_))))
      simp only [body, funcBodyLoopBody]
      refine evp_bind (evp_symAt (t := t3) h3) ?_
      kd_simp [k3]
      refine evp_bind evp_next ?_
      rw [ex_advance, ex_advance, ex_ex]
      exact evp_mk

theorem inline_good {k : Option Bool} {l : SLine} (hw : l.Wf) : SuiteGood k (.inline l) := by
  intro isDef c c' hf hx
  rw [Suite.leaves] at hf
  obtain ⟨d, hf1, hf2⟩ := fedL_append.1 hf
  obtain ⟨u, hu, lu, hf2⟩ := fedL_cons hf2
  cases fedL_nil hf2
  have hf1 := fed_of_fedL hf1
  obtain ⟨t, ht, et⟩ := simpleStmt_ev hw hf1 hu lu
  refine ⟨t, c.exc, hx, by rw [ht, Suite.sk], ?_⟩
  have he : d.advance.ex c.exc = d.advance := by rw [← fed_exc hf1, ← adv_exc, ex_self]
  rw [he]
  obtain ⟨x, r, h1, h2⟩ := sline_first hw
  rw [h1] at hf1
  obtain ⟨v, hv, lv, _⟩ := fed_cons hf1
  have n1 : v.kind ≠ .Newline := by
    rw [kind_of_leaf lv]
    intro h; apply h2; rw [h]; simp [notSmall]
  cases isDef with
  | false =>
    refine ev_body ?_
    simp only [body, suiteBody]
    refine evp_bind evp_here (evp_bind (evp_symAt hv) ?_)
    simp only [n1, if_false]
    exact evp_parse et
  | true =>
    refine ev_body ?_
    simp only [body, funcBodySuiteBody]
    refine evp_bind evp_here (evp_bind (evp_symAt hv) ?_)
    simp only [n1, if_false]
    exact evp_parse et

theorem comp_stm_good {k : Option Bool} {async : Bool} {cs : List Clause} (hw : (Stm.comp async cs).Wf k)
    (hg : ∀ cl ∈ cs, ClauseGood ((excOf (cs.map Clause.head)).or k) cl) : StmGood k (.comp async cs) := by
  intro c c' hf hend hx
  rw [Stm.Wf] at hw
  obtain ⟨w1, w2, w3, _⟩ := hw
  rw [Stm.leaves] at hf
  cases async with
  | false =>
    obtain ⟨h, b, cs', rfl, hs, t, y, g1, g2, g3⟩ := comp_good w1 w3 hg hf hend hx
    obtain ⟨x, r, h1, h2⟩ := headFn_words h hs
    simp only [Bool.false_eq_true, if_false, List.nil_append] at hf
    rw [clauseLeaves, h1] at hf
    obtain ⟨v, hv, lv, _⟩ := fedL_cons hf
    exact ⟨t, y, g1, by rw [g2, Stm.sk], comp_stmt hv (by rw [kind_of lv]; exact h2) hs g3⟩
  | true =>
    obtain ⟨w, hw, lw, hf⟩ := fedL_cons (x := .sym .PyAsync) (xs := clauseLeaves cs) (by simpa using hf)
    obtain ⟨h, b, cs', rfl, hs, t, y, g1, g2, g3⟩ := comp_good w1 w3 hg hf hend (by rw [adv_exc]; exact hx)
    obtain ⟨x, r, h1, h2⟩ := headFn_words h hs
    rw [clauseLeaves, h1] at hf
    obtain ⟨v, hv, lv, _⟩ := fedL_cons hf
    obtain ⟨t', ht', et'⟩ := async_stmt hw lw hv (by rw [kind_of lv]; exact h2) (w2 rfl _ (List.mem_cons_self ..)) hs g3
    exact ⟨t', y, g1, by rw [ht', g2, Stm.sk], et'⟩

omit [Uni] in
theorem suite_first {k : Option Bool} {b : Suite} (hw : b.Wf k) : ∃ x r, b.leaves = x :: r ∧ x.kind ≠ .TypeComment := by
  cases b with
  | inline l =>
    rw [Suite.Wf] at hw
    obtain ⟨x, r, h1, h2⟩ := sline_first hw
    refine ⟨x.leaf, r.map Lexeme.leaf ++ [.sym .Newline], by rw [Suite.leaves, h1]; rfl, ?_⟩
    intro h; apply h2; rw [h]; simp [notSmall]
  | block s ss => exact ⟨.sym .Newline, _, by rw [Suite.leaves], by simp [Leaf.kind]⟩

mutual
theorem stm_good : ∀ (s : Stm) (k : Option Bool), s.Wf k → StmGood k s
  | .simple _, _, hw => simple_good hw
  | .comp _ cs, k, hw => comp_stm_good hw (clauses_good cs _ (by rw [Stm.Wf] at hw; exact hw.2.2.2))
theorem clauses_good : ∀ (cs : List Clause) (k : Option Bool), wfClauses k cs → ∀ cl ∈ cs, ClauseGood k cl
  | [], _, _ => fun _ h => nomatch h
  | .mk h b :: cs, k, hw => fun cl hc => by
    rw [wfClauses] at hw
    rcases List.mem_cons.1 hc with h' | hc
    · rw [h']; exact ⟨hw.1, suite_good b k hw.2.1, suite_first hw.2.1⟩
    · exact clauses_good cs k hw.2.2 cl hc
theorem suite_good : ∀ (b : Suite) (k : Option Bool), b.Wf k → SuiteGood k b
  | .inline _, _, hw => inline_good (by rw [Suite.Wf] at hw; exact hw)
  | .block s ss, k, hw => block_good ⟨by rw [Suite.Wf] at hw; exact hw.1, stm_good s k (by rw [Suite.Wf] at hw; exact hw.1)⟩
      (stms_good ss k (by rw [Suite.Wf] at hw; exact hw.2))
theorem stms_good : ∀ (ss : List Stm) (k : Option Bool), wfStms k ss → ∀ s ∈ ss, s.Wf k ∧ StmGood k s
  | [], _, _ => fun _ h => nomatch h
  | s :: ss, k, hw => fun s' hs => by
    rw [wfStms] at hw
    rcases List.mem_cons.1 hs with h | h
    · rw [h]; exact ⟨hw.1, stm_good s k hw.1⟩
    · exact stms_good ss k hw.2 s' h
end

end
end Verif
