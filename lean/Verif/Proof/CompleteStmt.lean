import Verif.Proof.CompleteSmall

/-!
# Every well formed statement is accepted
-/

namespace Verif
section
variable [Uni]

/-! ### The memory for the kind of `except` clauses -/

/-- The state with another memory. -/
def PSt.ex (c : PSt) (x : ExcStatus) : PSt := { c with exc := x }

omit [Uni] in
@[simp] theorem ex_symbol {c : PSt} {x} : (c.ex x).symbol = c.symbol := rfl
omit [Uni] in
@[simp] theorem ex_exc {c : PSt} {x} : (c.ex x).exc = x := rfl
omit [Uni] in
@[simp] theorem ex_ex {c : PSt} {x y} : (c.ex x).ex y = c.ex y := rfl
omit [Uni] in
@[simp] theorem ex_self {c : PSt} : c.ex c.exc = c := rfl

theorem ex_advance {c : PSt} {x} : (c.ex x).advance = c.advance.ex x := by
  simp only [PSt.advance, PSt.ex]
  cases getSymbol c.lex <;> rfl

theorem adv_exc {c : PSt} : c.advance.exc = c.exc := by
  simp only [PSt.advance]
  cases getSymbol c.lex <;> rfl

theorem fedL_ex {c ls c'} (h : FedL c ls c') (x) : FedL (c.ex x) ls (c'.ex x) := by
  induction h with
  | nil => exact .nil
  | cons h1 h2 _ ih => exact .cons h1 h2 (by rw [ex_advance]; exact ih)

theorem fed_ex {c ls c'} (h : Fed c ls c') (x) : Fed (c.ex x) ls (c'.ex x) := by
  induction h with
  | nil => exact .nil
  | cons h1 h2 _ ih => exact .cons h1 h2 (by rw [ex_advance]; exact ih)

theorem fed_exc {c ls c'} (h : Fed c ls c') : c'.exc = c.exc := by
  induction h with
  | nil => rfl
  | cons h1 h2 _ ih => rw [ih, adv_exc]

theorem fedL_exc {c ls c'} (h : FedL c ls c') : c'.exc = c.exc := by
  induction h with
  | nil => rfl
  | cons h1 h2 _ ih => rw [ih, adv_exc]

theorem fedL_cons {c x xs c'} (h : FedL c (x :: xs) c') :
    ∃ t, c.symbol = .ok t ∧ t.leaf = x ∧ FedL c.advance xs c' := by
  cases h with
  | cons h1 h2 h3 => exact ⟨_, h1, h2, h3⟩

theorem fedL_nil {c c'} (h : FedL c [] c') : c' = c := by cases h; rfl

theorem fedL_append {c xs ys c'} : FedL c (xs ++ ys) c' ↔ ∃ d, FedL c xs d ∧ FedL d ys c' := by
  induction xs generalizing c with
  | nil =>
    refine ⟨fun h => ⟨c, .nil, h⟩, fun ⟨d, h1, h2⟩ => ?_⟩
    cases fedL_nil h1; exact h2
  | cons x xs ih =>
    refine ⟨fun h => ?_, fun ⟨d, h1, h2⟩ => ?_⟩
    · obtain ⟨t, h1, h2, h3⟩ := fedL_cons h
      obtain ⟨d, h4, h5⟩ := ih.1 h3
      exact ⟨d, .cons h1 h2 h4, h5⟩
    · obtain ⟨t, h3, h4, h5⟩ := fedL_cons h1
      exact .cons h3 h4 (ih.2 ⟨d, h5, h2⟩)

theorem fed_of_fedL {xs : List Lexeme} {c c'} (h : FedL c (xs.map Lexeme.leaf) c') : Fed c xs c' := by
  induction xs generalizing c with
  | nil => cases fedL_nil h; exact .nil
  | cons x xs ih =>
    obtain ⟨t, h1, h2, h3⟩ := fedL_cons h
    exact .cons h1 h2 (ih h3)

theorem fedL_of_fed {xs : List Lexeme} {c c'} (h : Fed c xs c') : FedL c (xs.map Lexeme.leaf) c' := by
  induction h with
  | nil => exact .nil
  | cons h1 h2 _ ih => exact .cons h1 h2 ih

omit [Uni] in
theorem kind_of {t : Token} {x : Leaf} (h : t.leaf = x) : t.kind = x.kind := by rw [← h, t.leaf_kind]

/-! ### Lines of simple statements -/

/-- Tokens a simple statement does not start with. -/
def notSmall : List Kind := [.Newline, .EOF, .Indent, .Dedent, .PyElif, .PyElse, .PyExcept, .PyFinally,
  .PyIf, .PyFor, .PyWhile, .PyWith, .PyTry, .PyAsync, .PyMatrice, .PyDef, .PyClass, .PySemiColon, .TypeComment]

omit [Uni] in
theorem starts_notSmall {k : Kind} {m} (h : k.starts = some m) : k ∉ notSmall := by
  revert h; cases k <;> simp [Kind.starts, notSmall]

omit [Uni] in
theorem small_first {s : Small} (hw : s.Wf) : ∃ x r, s.words = x :: r ∧ x.leaf.kind ∉ notSmall := by
  have hex : ∀ {star : Bool} {l : Exprs} (_ : l.Wf star) (xs : List Lexeme), ∃ x r, l.words ++ xs = x :: r ∧ x.leaf.kind ∉ notSmall := by
    intro star l h xs
    obtain ⟨x, r, m, h1, h2⟩ := exprs_first h
    exact ⟨x, r ++ xs, by rw [h1, List.cons_append], starts_notSmall h2⟩
  cases s with
  | expr l => simpa [Small.words] using hex (show l.Wf true from hw) []
  | assign l r rs => exact hex (show l.Wf true from hw.1) _
  | aug op l r => exact hex (show l.Wf true from hw.1) _
  | ann l ty r => cases r <;> exact hex (show l.Wf true from hw.1) _
  | ret l => cases l <;> exact ⟨_, _, rfl, by simp [Lexeme.leaf, Leaf.kind, notSmall]⟩
  | raise e =>
    match e with
    | none => exact ⟨_, _, rfl, by simp [Lexeme.leaf, Leaf.kind, notSmall]⟩
    | some (e, none) => exact ⟨_, _, rfl, by simp [Lexeme.leaf, Leaf.kind, notSmall]⟩
    | some (e, some e') => exact ⟨_, _, rfl, by simp [Lexeme.leaf, Leaf.kind, notSmall]⟩
  | _ => exact ⟨_, _, rfl, by simp [wYield, wFrom, Lexeme.leaf, Leaf.kind, notSmall]⟩

omit [Uni] in
theorem sline_first {l : SLine} (hw : l.Wf) : ∃ x r, l.words = x :: r ∧ x.leaf.kind ∉ notSmall := by
  obtain ⟨x, r, h1, h2⟩ := small_first hw.1
  exact ⟨x, r ++ (eachAfter wSemi Small.words l.ss ++ (if l.semi then [wSemi] else [])), by rw [SLine.words, h1, List.cons_append], h2⟩

theorem small_fed_first {s : Small} (hw : s.Wf) {c c'} (h : Fed c s.words c') : ∃ v, c.symbol = .ok v ∧ v.kind ∉ notSmall := by
  obtain ⟨x, r, h1, h2⟩ := small_first hw
  rw [h1] at h
  obtain ⟨t, h3, h4, _⟩ := fed_cons h
  exact ⟨t, h3, by rw [kind_of_leaf h4]; exact h2⟩

theorem simpleStmt_ev {l : SLine} (hw : l.Wf) {c d : PSt} (hf : Fed c l.words d) {u : Token} (hu : d.symbol = .ok u) (hk : u.leaf = .sym .Newline) :
    ∃ t : Tree, t.sk = l.sk ∧ Ev .simpleStmt c t d.advance := by
  obtain ⟨s, ss, semi⟩ := l
  simp only [SLine.words] at hf
  obtain ⟨d1, hf1, hf⟩ := fed_append.1 hf
  obtain ⟨d2, hf2, hf3⟩ := fed_append.1 hf
  have ku : u.kind = .Newline := kind_of hk
  have hd2 : ∃ v, d2.symbol = .ok v ∧ v.kind ∈ lineEnd := by
    cases semi with
    | false =>
      cases fed_nil hf3
      exact ⟨u, hu, by rw [ku]; simp [lineEnd]⟩
    | true =>
      obtain ⟨v, h1, h2, _⟩ := fed_cons hf3
      exact ⟨v, h1, by rw [kind_of_leaf h2]; simp [lineEnd, wSemi, Lexeme.leaf, Leaf.kind]⟩
  have hloop := fun nodes => after_loop (sep := wSemi) (f := Small.words) (g := Small.sk) (sk := Tree.sk)
    (loop := .simpleStmtLoop c.lex.tokStart)
    (Item := fun c x d => Ev .smallStmt c x d ∧ ∃ v, c.symbol = .ok v ∧ v.kind ∉ notSmall)
    (Ok := fun c => ∃ v, c.symbol = .ok v ∧ v.kind ∈ lineEnd)
    (fun nodes seps c t x d r c' h1 h2 ⟨h3, v, h4, h5⟩ h6 => ev_body (by
      simp only [body, simpleStmtLoopBody]
      refine evp_bind (evp_symAt h1) ?_
      kd_simp [show t.kind = .PySemiColon from kind_of_leaf h2]
      refine evp_bind evp_next (evp_bind (evp_symAt h4) ?_)
      have n1 : v.kind ≠ .Newline := by intro h; rw [h] at h5; exact h5 (by simp [notSmall])
      have n2 : v.kind ≠ .EOF := by intro h; rw [h] at h5; exact h5 (by simp [notSmall])
      simp only [n1, n2, or_self, if_false]
      exact evp_bind (evp_parse h3) (evp_parse h6)))
    (fun c t h1 h2 => ⟨t, h1, by rw [kind_of_leaf h2]; simp [lineEnd, wSemi, Lexeme.leaf, Leaf.kind]⟩) (c' := d2) hd2 ss
    (fun a ha c c' h ⟨v, h1, h2⟩ => by
      obtain ⟨t, ht, et⟩ := small_ev (hw.2 a ha) h h1 h2
      exact ⟨t, ht, et, small_fed_first (hw.2 a ha) h⟩) nodes [] d1 (by simp) hf2
  obtain ⟨v, hv, kv⟩ := (hloop []).1
  obtain ⟨y, hy, ey⟩ := small_ev hw.1 hf1 hv kv
  obtain ⟨_, nodes', seps', g1, g2, g3, g4⟩ := hloop [y]
  cases semi with
  | false =>
    cases fed_nil hf3
    refine ⟨.node .SimpleStmtList c.lex.tokStart d.advance.lex.tokStart [.seq nodes'.reverse, .toks seps'.reverse, .tok u], ?_, ev_body ?_⟩
    · sk_simp [SLine.sk, sk_seps_reverse g2, skList_reverse, skList_map nodes', g1, g3, wSemi, hy, hk, List.map_cons, List.map_nil]
      simp
    · simp only [body, simpleStmtBody]
      refine evp_bind evp_here (evp_bind (evp_parse ey) (evp_parse (g4 _ _ (ev_body ?_))))
      simp only [body, simpleStmtLoopBody]
      refine evp_bind (evp_symAt hu) ?_
      kd_simp [ku, simpleStmtLoopBody.fin]
      refine evp_bind (evp_symAt hu) ?_
      kd_simp [ku]
      exact evp_bind evp_next evp_mk
  | true =>
    obtain ⟨w, h1, h2, hf3⟩ := fed_cons hf3
    cases fed_nil hf3
    have kw : w.kind = .PySemiColon := kind_of_leaf h2
    have g2' : ∀ t ∈ seps' ++ [w], t.leaf = wSemi.leaf := by
      intro t ht
      rcases List.mem_append.1 ht with ht | ht
      · exact g2 t ht
      · rw [List.mem_singleton.1 ht]; exact h2
    refine ⟨.node .SimpleStmtList c.lex.tokStart d2.advance.advance.lex.tokStart [.seq nodes'.reverse, .toks (seps' ++ [w]).reverse, .tok u], ?_, ev_body ?_⟩
    · sk_simp [SLine.sk, sk_seps_reverse g2', skList_reverse, skList_map nodes', g1, g3, wSemi, hy, hk, List.map_cons, List.map_nil, List.length_append]
      simp
    · simp only [body, simpleStmtBody]
      refine evp_bind evp_here (evp_bind (evp_parse ey) (evp_parse (g4 _ _ (ev_body ?_))))
      simp only [body, simpleStmtLoopBody]
      refine evp_bind (evp_symAt h1) ?_
      kd_simp [kw]
      refine evp_bind evp_next (evp_bind (evp_symAt hu) ?_)
      kd_simp [ku, simpleStmtLoopBody.fin]
      refine evp_bind (evp_symAt hu) ?_
      kd_simp [ku]
      exact evp_bind evp_next evp_mk

/-! ### What is proved about statements and suites -/

/-- The memory does not forbid the clauses allowed by `k`. -/
def ExcOk : Option Bool → ExcStatus → Prop
  | none, _ => True
  | some true, x => x = .exceptNone ∨ x = .exceptMul
  | some false, x => x = .exceptNone ∨ x = .except

omit [Uni] in
theorem excOk_none (k : Option Bool) : ExcOk k .exceptNone := by
  match k with
  | none => trivial
  | some true => exact .inl rfl
  | some false => exact .inl rfl

def StmGood (k : Option Bool) (s : Stm) : Prop :=
  ∀ c c', FedL c s.leaves c' → EndsStm c' → ExcOk k c.exc → ∃ (t : Tree) (y : ExcStatus), ExcOk k y ∧ t.sk = s.sk ∧ Ev .stmt c t (c'.ex y)

def suiteFn : Bool → Fn
  | true => .funcBodySuite
  | false => .suite

def SuiteGood (k : Option Bool) (b : Suite) : Prop :=
  ∀ isDef c c', FedL c b.leaves c' → ExcOk k c.exc → ∃ (t : Tree) (y : ExcStatus), ExcOk k y ∧ t.sk = b.sk isDef ∧ Ev (suiteFn isDef) c t (c'.ex y)

def ClauseGood (k : Option Bool) : Clause → Prop
  | .mk h b => h.Wf ∧ SuiteGood k b ∧ ∃ x r, b.leaves = x :: r ∧ x.kind ≠ .TypeComment

/-! ### The clauses -/

theorem colon_ends {c : PSt} {u : Token} (hu : c.symbol = .ok u) (hk : u.kind = .PyColon) (n : Nat) : EndsExpr n c :=
  starListEnd_endsExpr hu (by rw [hk]; simp [starListEnd]) n

theorem elif_ev {e : Ex} (hw : e.Wf ∧ e.level ≤ 15) {c d c' : PSt} {b : Tree} (hf : Fed c (Head.elif e).words d) (hs : Ev .suite d b c') :
    ∃ t : Tree, t.sk = .node .ElifStmt [kd .PyElif, e.sk, kd .PyColon, b.sk] ∧ Ev .elifStmt c t c' := by
  simp only [Head.words] at hf
  obtain ⟨t1, h1, l1, hf⟩ := fed_cons hf
  obtain ⟨d1, hf1, hf2⟩ := fed_append.1 hf
  obtain ⟨t2, h2, l2, hf2⟩ := fed_cons hf2
  cases fed_nil hf2
  have k1 : t1.kind = .PyElif := kind_of_leaf l1
  have k2 : t2.kind = .PyColon := kind_of_leaf l2
  obtain ⟨x, hx, ex⟩ := test_ev hw.1 hw.2 hf1 (colon_ends h2 k2 _)
  refine ⟨.node .ElifStmt c.lex.tokStart c'.lex.tokStart [.tok t1, x, .tok t2, b], ?_, ev_body ?_⟩
  · sk_simp [l1, l2, hx, wColon]
  · simp only [body, elifStmtBody]
    refine evp_bind evp_here (evp_bind (evp_symAt h1) ?_)
    kd_simp [k1]
    refine evp_bind evp_next (evp_bind (evp_parse ex) (evp_bind (evp_symAt h2) ?_))
    kd_simp [k2]
    exact evp_bind evp_next (evp_bind (evp_parse hs) evp_mk)

theorem else_ev {c d c' : PSt} {b : Tree} (hf : Fed c Head.else_.words d) (hs : Ev .suite d b c') :
    ∃ t : Tree, t.sk = .node .ElseStmt [kd .PyElse, kd .PyColon, b.sk] ∧ Ev .elseStmt c t c' := by
  simp only [Head.words] at hf
  obtain ⟨t1, h1, l1, hf⟩ := fed_cons hf
  obtain ⟨t2, h2, l2, hf2⟩ := fed_cons hf
  cases fed_nil hf2
  have k1 : t1.kind = .PyElse := kind_of_leaf l1
  have k2 : t2.kind = .PyColon := kind_of_leaf l2
  refine ⟨.node .ElseStmt c.lex.tokStart c'.lex.tokStart [.tok t1, .tok t2, b], ?_, ev_body ?_⟩
  · sk_simp [l1, l2, wColon]
  · simp only [body, elseStmtBody]
    refine evp_bind evp_here (evp_bind (evp_symAt h1) ?_)
    kd_simp [k1]
    refine evp_bind evp_next (evp_bind (evp_symAt h2) ?_)
    kd_simp [k2]
    exact evp_bind evp_next (evp_bind (evp_parse hs) evp_mk)

theorem finally_ev {c d c' : PSt} {b : Tree} (hf : Fed c Head.finally_.words d) (hs : Ev .suite d b c') :
    ∃ t : Tree, t.sk = .node .FinallyStmt [kd .PyFinally, kd .PyColon, b.sk] ∧ Ev .finallyStmt c t c' := by
  simp only [Head.words] at hf
  obtain ⟨t1, h1, l1, hf⟩ := fed_cons hf
  obtain ⟨t2, h2, l2, hf2⟩ := fed_cons hf
  cases fed_nil hf2
  have k1 : t1.kind = .PyFinally := kind_of_leaf l1
  have k2 : t2.kind = .PyColon := kind_of_leaf l2
  refine ⟨.node .FinallyStmt c.lex.tokStart c'.lex.tokStart [.tok t1, .tok t2, b], ?_, ev_body ?_⟩
  · sk_simp [l1, l2, wColon]
  · simp only [body, finallyStmtBody]
    refine evp_bind evp_here (evp_bind (evp_symAt h1) ?_)
    kd_simp [k1]
    refine evp_bind evp_next (evp_bind (evp_symAt h2) ?_)
    kd_simp [k2]
    exact evp_bind evp_next (evp_bind (evp_parse hs) evp_mk)

/-- The memory after a clause. -/
def starExc : Bool → ExcStatus
  | true => .exceptMul
  | false => .except

def starTree : Bool → Token → Tree
  | true, t => .tok t
  | false, _ => .none

theorem exceptStar_ev {star : Bool} {s : Nat} {c d : PSt} {v : Token} (hf : Fed c (if star then [wStar] else []) d) (hv : d.symbol = .ok v)
    (hn : v.kind ≠ .PyMul) (hx : ExcOk (some star) c.exc) :
    ∃ t : Tree, t.sk = (if star then kd .PyMul else .none) ∧ EvP (exceptStar s) c t (d.ex (starExc star)) := by
  cases star with
  | true =>
    obtain ⟨t1, h1, l1, hf⟩ := fed_cons hf
    cases fed_nil hf
    refine ⟨.tok t1, by sk_simp [l1, wStar]; rfl, ?_⟩
    unfold exceptStar
    refine evp_bind (evp_symAt h1) ?_
    kd_simp [show t1.kind = .PyMul from kind_of_leaf l1]
    refine evp_bind evp_next ?_
    refine ⟨0, ?_⟩
    simp only [Prog.exec, adv_exc]
    rcases hx with h | h
    · rw [h]; rfl
    · rw [h]
      show Res.ok _ _ = _
      rw [show (starExc true) = c.advance.exc by rw [adv_exc, h]; rfl, ex_self]
  | false =>
    cases fed_nil hf
    refine ⟨.none, rfl, ?_⟩
    unfold exceptStar
    refine evp_bind (evp_symAt hv) ?_
    simp only [hn, if_false]
    refine ⟨0, ?_⟩
    simp only [Prog.exec]
    rcases hx with h | h
    · rw [h]; rfl
    · rw [h]
      show Res.ok _ _ = _
      rw [show (starExc false) = c.exc by rw [h]; rfl, ex_self]

/-- What an `except` clause catches. -/
def exceptArg : Option (Ex × Option (List Char)) → Sk
  | none => .none
  | some (e, none) => .seq [e.sk, .none]
  | some (e, some w) => .seq [e.sk, .seq [kd .PyAs, nm w]]

theorem except_ev {star : Bool} {e : Option (Ex × Option (List Char))} (hw : (Head.except star e).Wf) {c d c' : PSt} {b : Tree}
    (hf : Fed c (Head.except star e).words d) (hx : ExcOk (some star) c.exc) (hs : Ev .suite (d.ex (starExc star)) b c') :
    ∃ t : Tree, t.sk = exceptSk star e b.sk ∧ Ev .exceptStmt c t c' := by
  simp only [Head.words] at hf
  obtain ⟨t1, h1, l1, hf⟩ := fed_cons hf
  rw [List.append_assoc] at hf
  obtain ⟨d1, hf1, hf⟩ := fed_append.1 hf
  obtain ⟨d2, hf2, hf⟩ := fed_append.1 hf
  obtain ⟨t2, h2, l2, hf⟩ := fed_cons hf
  cases fed_nil hf
  have k1 : t1.kind = .PyExcept := kind_of_leaf l1
  have k2 : t2.kind = .PyColon := kind_of_leaf l2
  rw [← adv_exc] at hx
  have hx1 : d1.exc = c.advance.exc := fed_exc hf1
  -- the clause
  have hcl : ∃ (t : Tree), t.sk = .node .ExceptClauseStmt [kd .PyExcept, if star then kd .PyMul else .none, exceptArg e] ∧ Ev .exceptClause c t (d2.ex (starExc star)) := by
    match e, hw, hf2 with
    | none, hw, hf2 =>
      cases fed_nil hf2
      obtain ⟨mul, hm, em⟩ := exceptStar_ev (s := c.lex.tokStart) hf1 h2 (by rw [k2]; simp) hx
      refine ⟨.node .ExceptClauseStmt c.lex.tokStart d1.lex.tokStart [.tok t1, mul, .none], ?_, ev_body ?_⟩
      · sk_simp [hm, l1, exceptArg]
      · simp only [body, exceptClauseBody]
        refine evp_bind evp_here (evp_bind (evp_symAt h1) ?_)
        kd_simp [k1]
        refine evp_bind evp_next (evp_bind em (evp_bind (evp_symAt (t := t2) h2) ?_))
        kd_simp [k2]
        exact evp_mk
    | some (e, none), hw, hf2 =>
      obtain ⟨w1, w2⟩ := hw (e, none) rfl
      obtain ⟨v, m, hv, hs', hm'⟩ := fed_first w1 hf2
      obtain ⟨mul, hm, em⟩ := exceptStar_ev (s := c.lex.tokStart) hf1 hv (by intro h; rw [h] at hs'; cases hs'; omega) hx
      obtain ⟨x, hx', ex⟩ := test_ev w1 w2 (fed_ex hf2 (starExc star)) (colon_ends (c := d2.ex (starExc star)) h2 k2 _)
      have n1 : v.kind ≠ .PyColon := by intro h; rw [h] at hs'; cases hs'
      refine ⟨.node .ExceptClauseStmt c.lex.tokStart d2.lex.tokStart [.tok t1, mul, .seq [x, .none]], ?_, ev_body ?_⟩
      · sk_simp [hm, l1, hx', exceptArg]
      · simp only [body, exceptClauseBody]
        refine evp_bind evp_here (evp_bind (evp_symAt h1) ?_)
        kd_simp [k1]
        refine evp_bind evp_next (evp_bind em (evp_bind (evp_symAt (t := v) hv) ?_))
        simp only [n1, if_false]
        refine evp_bind (evp_parse ex) (evp_bind (evp_symAt (t := t2) h2) ?_)
        kd_simp [k2]
        exact evp_mk
    | some (e, some w), hw, hf2 =>
      obtain ⟨w1, w2⟩ := hw (e, some w) rfl
      obtain ⟨d3, hf3, hf4⟩ := fed_append.1 hf2
      obtain ⟨t3, h3, l3, hf4⟩ := fed_cons hf4
      obtain ⟨t4, h4, l4, hf4⟩ := fed_cons hf4
      cases fed_nil hf4
      have k3 : t3.kind = .PyAs := kind_of_leaf l3
      have k4 : t4.kind = .AtomName := kind_of_leaf l4
      obtain ⟨v, m, hv, hs', hm'⟩ := fed_first w1 hf3
      obtain ⟨mul, hm, em⟩ := exceptStar_ev (s := c.lex.tokStart) hf1 hv (by intro h; rw [h] at hs'; cases hs'; omega) hx
      obtain ⟨x, hx', ex⟩ := test_ev w1 w2 (fed_ex hf3 (starExc star))
        (ends_of_symbol (c := d3.ex (starExc star)) h3 k3 (by intro m h; cases h))
      have n1 : v.kind ≠ .PyColon := by intro h; rw [h] at hs'; cases hs'
      refine ⟨.node .ExceptClauseStmt c.lex.tokStart d3.advance.advance.lex.tokStart [.tok t1, mul, .seq [x, .seq [.tok t3, .tok t4]]], ?_, ev_body ?_⟩
      · sk_simp [hm, l1, l3, l4, hx', wAs, exceptArg]
      · simp only [body, exceptClauseBody]
        refine evp_bind evp_here (evp_bind (evp_symAt h1) ?_)
        kd_simp [k1]
        refine evp_bind evp_next (evp_bind em (evp_bind (evp_symAt (t := v) hv) ?_))
        simp only [n1, if_false]
        refine evp_bind (evp_parse ex) (evp_bind (evp_symAt (t := t3) h3) ?_)
        kd_simp [k3]
        refine evp_bind evp_next ?_
        rw [ex_advance]
        refine evp_bind (evp_symAt (t := t4) h4) ?_
        kd_simp [k4]
        refine evp_bind evp_next ?_
        rw [ex_advance]
        exact evp_mk
  obtain ⟨cl, hcl, ecl⟩ := hcl
  refine ⟨.node .ExceptStmt c.lex.tokStart c'.lex.tokStart [cl, .tok t2, b], ?_, ev_body ?_⟩
  · sk_simp [hcl, l2, wColon, exceptSk]
    match e with
    | none => rfl
    | some (e, none) => rfl
    | some (e, some w) => rfl
  · simp only [body, exceptStmtBody]
    refine evp_bind evp_here (evp_bind (evp_parse ecl) (evp_bind (evp_symAt (t := t2) h2) ?_))
    kd_simp [k2]
    refine evp_bind evp_next ?_
    rw [ex_advance]
    exact evp_bind (evp_parse hs) evp_mk

/-! ### Headers -/

/-- The start of an `if` statement. -/
theorem ifHead_ev {e : Ex} (hw : e.Wf ∧ e.level ≤ 15) {c d d' : PSt} {b : Tree} (hf : Fed c (Head.if_ e).words d) (hs : Ev .suite d b d') :
    ∃ t x t2, t.leaf = .sym .PyIf ∧ x.sk = e.sk ∧ t2.leaf = .sym .PyColon ∧
      ∀ r c', Ev (.ifLoop c.lex.tokStart t x t2 b []) d' r c' → Ev .ifStmt c r c' := by
  simp only [Head.words] at hf
  obtain ⟨t1, h1, l1, hf⟩ := fed_cons hf
  obtain ⟨d1, hf1, hf2⟩ := fed_append.1 hf
  obtain ⟨t2, h2, l2, hf2⟩ := fed_cons hf2
  cases fed_nil hf2
  have k1 : t1.kind = .PyIf := kind_of_leaf l1
  have k2 : t2.kind = .PyColon := kind_of_leaf l2
  obtain ⟨x, hx, ex⟩ := test_ev hw.1 hw.2 hf1 (colon_ends h2 k2 _)
  refine ⟨t1, x, t2, l1, hx, l2, fun r c' hr => ev_body ?_⟩
  simp only [body, ifStmtBody]
  refine evp_bind evp_here (evp_bind (evp_symAt h1) ?_)
  kd_simp [k1]
  refine evp_bind evp_next (evp_bind (evp_parse ex) (evp_bind (evp_symAt h2) ?_))
  kd_simp [k2]
  exact evp_bind evp_next (evp_bind (evp_parse hs) (evp_parse hr))

/-- One clause of a list. -/
theorem clause_splitx {k : Option Bool} {h : Head} {b : Suite} {cs : List Clause} {c c' : PSt} (hf : FedL c (clauseLeaves (.mk h b :: cs)) c')
    (hg : ClauseGood k (.mk h b)) {x : ExcStatus} (hx : ExcOk k x) :
    h.Wf ∧ ∃ (d d' : PSt) (t : Tree) (y : ExcStatus), Fed c h.words d ∧ (∃ v, d.symbol = .ok v ∧ v.kind ≠ .TypeComment) ∧ ExcOk k y ∧ t.sk = b.sk h.isDef ∧ Ev (suiteFn h.isDef) (d.ex x) t (d'.ex y) ∧
      FedL (d'.ex y) (clauseLeaves cs) (c'.ex y) := by
  rw [clauseLeaves] at hf
  obtain ⟨d, h1, hf⟩ := fedL_append.1 hf
  obtain ⟨d', h2, hf⟩ := fedL_append.1 hf
  have hd := fed_of_fedL h1
  obtain ⟨t, y, g1, g2, g3⟩ := hg.2.1 h.isDef (d.ex x) (d'.ex x) (fedL_ex h2 x) hx
  obtain ⟨z, r, hz, kz⟩ := hg.2.2
  rw [hz] at h2
  obtain ⟨v, h3, l3, _⟩ := fedL_cons h2
  exact ⟨hg.1, d, d', t, y, hd, ⟨v, h3, by rw [kind_of l3]; exact kz⟩, g1, g2, g3, fedL_ex hf y⟩

theorem clause_split {k : Option Bool} {h : Head} {b : Suite} {cs : List Clause} {c c' : PSt} (hf : FedL c (clauseLeaves (.mk h b :: cs)) c')
    (hg : ClauseGood k (.mk h b)) (hx : ExcOk k c.exc) :
    h.Wf ∧ ∃ (d d' : PSt) (t : Tree) (y : ExcStatus), Fed c h.words d ∧ (∃ v, d.symbol = .ok v ∧ v.kind ≠ .TypeComment) ∧ ExcOk k y ∧ t.sk = b.sk h.isDef ∧ Ev (suiteFn h.isDef) d t (d'.ex y) ∧ FedL (d'.ex y) (clauseLeaves cs) (c'.ex y) := by
  obtain ⟨g0, d, d', t, y, g1, g6, g2, g3, g4, g5⟩ := clause_splitx hf hg hx
  refine ⟨g0, d, d', t, y, g1, g6, g2, g3, ?_, g5⟩
  rw [← fed_exc g1, ex_self] at g4
  exact g4

omit [Uni] in
theorem endsStm_ne {u : Token} (h : u.kind ∉ [Kind.PyElif, .PyElse, .PyExcept, .PyFinally]) :
    u.kind ≠ .PyElif ∧ u.kind ≠ .PyElse ∧ u.kind ≠ .PyExcept ∧ u.kind ≠ .PyFinally := by
  simpa [List.mem_cons, not_or] using h

/-- Nothing or an `else` clause. -/
theorem else_opt {k : Option Bool} {cs : List Clause} {c c' : PSt} (hcs : cs = [] ∨ ∃ b, cs = [.mk .else_ b])
    (hg : ∀ cl ∈ cs, ClauseGood k cl) (hf : FedL c (clauseLeaves cs) c') (hx : ExcOk k c.exc) (hu : ∃ u, c'.symbol = .ok u ∧ u.kind ≠ .PyElse) :
    ∃ (t : Tree) (y : ExcStatus) (v : Token), ExcOk k y ∧ t.sk = elseSk (clauseSks cs) ∧ c.symbol = .ok v ∧
      ((v.kind = .PyElse ∧ Ev .elseStmt c t (c'.ex y)) ∨ (v.kind ≠ .PyElse ∧ t = .none ∧ c' = c ∧ y = c.exc)) := by
  rcases hcs with rfl | ⟨b, rfl⟩
  · obtain ⟨u, hu, hk⟩ := hu
    rw [clauseLeaves] at hf
    cases fedL_nil hf
    exact ⟨.none, _, u, hx, rfl, hu, .inr ⟨hk, rfl, rfl, rfl⟩⟩
  · obtain ⟨_, d, d', t, y, g1, _, g2, g3, g4, g5⟩ := clause_split hf (hg _ (by simp)) hx
    rw [clauseLeaves] at g5
    have := fedL_nil g5
    obtain ⟨r, hr, er⟩ := else_ev g1 g4
    obtain ⟨t1, h1, l1, _⟩ := fed_cons g1
    refine ⟨r, y, t1, g2, ?_, h1, .inl ⟨kind_of_leaf l1, ?_⟩⟩
    · rw [hr, g3]; simp only [clauseSks, elseSk, Head.isDef]
    · rw [this]; exact er

/-- Nothing or a `finally` clause. -/
theorem finally_opt {k : Option Bool} {cs : List Clause} {c c' : PSt} (hcs : cs = [] ∨ ∃ b, cs = [.mk .finally_ b])
    (hg : ∀ cl ∈ cs, ClauseGood k cl) (hf : FedL c (clauseLeaves cs) c') (hx : ExcOk k c.exc) (hu : ∃ u, c'.symbol = .ok u ∧ u.kind ≠ .PyFinally) :
    ∃ (t : Tree) (y : ExcStatus) (v : Token), ExcOk k y ∧ t.sk = finallySk (clauseSks cs) ∧ c.symbol = .ok v ∧
      ((v.kind = .PyFinally ∧ Ev .finallyStmt c t (c'.ex y)) ∨ (v.kind ≠ .PyFinally ∧ t = .none ∧ c' = c ∧ y = c.exc)) := by
  rcases hcs with rfl | ⟨b, rfl⟩
  · obtain ⟨u, hu, hk⟩ := hu
    rw [clauseLeaves] at hf
    cases fedL_nil hf
    exact ⟨.none, _, u, hx, rfl, hu, .inr ⟨hk, rfl, rfl, rfl⟩⟩
  · obtain ⟨_, d, d', t, y, g1, _, g2, g3, g4, g5⟩ := clause_split hf (hg _ (by simp)) hx
    rw [clauseLeaves] at g5
    have := fedL_nil g5
    obtain ⟨r, hr, er⟩ := finally_ev g1 g4
    obtain ⟨t1, h1, l1, _⟩ := fed_cons g1
    refine ⟨r, y, t1, g2, ?_, h1, .inl ⟨kind_of_leaf l1, ?_⟩⟩
    · rw [hr, g3]; simp only [clauseSks, finallySk, Head.isDef]
    · rw [this]; exact er

/-- The `elif` and `else` clauses of an `if` statement. -/
theorem if_loop {k : Option Bool} {s : Nat} {t : Token} {left : Tree} {t2 : Token} {right : Tree} :
    ∀ (es : List Ex) (cs : List Clause) (nodes : List Tree) (c c' : PSt), EndsStm c' →
      (cs.map Clause.head = es.map .elif ∨ cs.map Clause.head = es.map .elif ++ [.else_]) →
      (∀ cl ∈ cs, ClauseGood k cl) → FedL c (clauseLeaves cs) c' → ExcOk k c.exc →
      ∃ (nodes' : List Tree) (els : Tree) (y : ExcStatus), ExcOk k y ∧ skList nodes' = skList nodes ++ elifSks (clauseSks cs) ∧
        els.sk = elseSk (afterMid (clauseSks cs)) ∧
        Ev (.ifLoop s t left t2 right nodes) c (.node .IfStmt s c'.lex.tokStart [.tok t, left, .tok t2, right, .seq nodes'.reverse, els]) (c'.ex y) := by
  intro es
  induction es with
  | nil =>
    intro cs nodes c c' hend hcs hg hf hx
    have hcs : cs = [] ∨ ∃ b, cs = [.mk .else_ b] := by
      match cs, hcs with
      | [], _ => exact .inl rfl
      | [.mk h b], hcs => simp [Clause.head] at hcs; subst hcs; exact .inr ⟨b, rfl⟩
      | .mk h b :: _ :: _, hcs => simp at hcs
    obtain ⟨u, hu, hk⟩ := hend
    obtain ⟨e1, e2, e3, e4⟩ := endsStm_ne hk
    obtain ⟨r, y, v, g1, g2, g3, g4⟩ := else_opt hcs hg hf hx ⟨u, hu, e2⟩
    refine ⟨nodes, r, y, g1, ?_, ?_, ev_body ?_⟩
    · rcases hcs with rfl | ⟨b, rfl⟩ <;> simp [clauseSks, elifSks]
    · rw [g2]; rcases hcs with rfl | ⟨b, rfl⟩ <;> simp [clauseSks, afterMid]
    · simp only [body, ifLoopBody]
      refine evp_bind (evp_symAt g3) ?_
      rcases g4 with ⟨k1, er⟩ | ⟨k1, rfl, rfl, rfl⟩
      · kd_simp [k1]
        exact evp_bind (evp_parse er) evp_mk
      · rw [hu] at g3; cases g3
        simp only [e1, e2, if_false]
        exact evp_mk
  | cons e es ih =>
    intro cs nodes c c' hend hcs hg hf hx
    obtain ⟨b, cs, rfl, hcs2⟩ : ∃ b cs', cs = .mk (.elif e) b :: cs' ∧ (cs'.map Clause.head = es.map .elif ∨ cs'.map Clause.head = es.map .elif ++ [.else_]) := by
      match cs, hcs with
      | [], hcs => simp at hcs
      | .mk h b :: cs', hcs =>
        simp only [List.map_cons, List.cons_append, List.cons.injEq, Clause.head] at hcs
        rcases hcs with ⟨rfl, h⟩ | ⟨rfl, h⟩
        · exact ⟨b, cs', rfl, .inl h⟩
        · exact ⟨b, cs', rfl, .inr h⟩
    obtain ⟨hw, d, d', tb, y, g1, _, g2, g3, g4, g5⟩ := clause_split hf (hg _ (by simp)) hx
    obtain ⟨r, hr, er⟩ := elif_ev hw g1 g4
    obtain ⟨nodes', els, y', i1, i2, i3, i4⟩ := ih cs (nodes ++ [r]) (d'.ex y) (c'.ex y) hend hcs2 (fun cl h => hg cl (by simp [h])) g5 g2
    obtain ⟨t1, h1, l1, _⟩ := fed_cons g1
    have k1 : t1.kind = .PyElif := kind_of_leaf l1
    refine ⟨nodes', els, y', i1, ?_, ?_, ev_body ?_⟩
    · rw [i2, skList_append]
      simp only [skList, hr, clauseSks, elifSks, g3, List.append_assoc, List.cons_append, List.nil_append, Head.isDef]
    · rw [i3]; simp [clauseSks, afterMid]
    · simp only [body, ifLoopBody]
      refine evp_bind (evp_symAt h1) ?_
      kd_simp [k1]
      exact evp_bind (evp_parse er) (evp_parse i4)

theorem if_good {k : Option Bool} {e : Ex} {b : Suite} {es : List Ex} {cs : List Clause} {c c' : PSt} (hend : EndsStm c')
    (hcs : cs.map Clause.head = es.map .elif ∨ cs.map Clause.head = es.map .elif ++ [.else_])
    (hg : ∀ cl ∈ .mk (.if_ e) b :: cs, ClauseGood k cl) (hf : FedL c (clauseLeaves (.mk (.if_ e) b :: cs)) c') (hx : ExcOk k c.exc) :
    ∃ (t : Tree) (y : ExcStatus), ExcOk k y ∧ t.sk = compSk (clauseSks (.mk (.if_ e) b :: cs)) ∧ Ev .ifStmt c t (c'.ex y) := by
  obtain ⟨hw, d, d', tb, y, g1, _, g2, g3, g4, g5⟩ := clause_split hf (hg _ (by simp)) hx
  obtain ⟨t, x, t2, i1, i2, i3, i4⟩ := ifHead_ev hw g1 g4
  obtain ⟨nodes', els, y', j1, j2, j3, j4⟩ := if_loop (s := c.lex.tokStart) (t := t) (left := x) (t2 := t2) (right := tb) es cs [] (d'.ex y) (c'.ex y) hend hcs
    (fun cl h => hg cl (by simp [h])) g5 g2
  refine ⟨_, y', j1, ?_, i4 _ _ j4⟩
  simp only [Tree.sk, skList, skList_reverse, j2, j3, i1, i2, i3, g3, List.nil_append, clauseSks, compSk]
  rfl

theorem while_good {k : Option Bool} {e : Ex} {b : Suite} {cs : List Clause} {c c' : PSt} (hend : EndsStm c')
    (hcs : cs = [] ∨ ∃ b, cs = [.mk .else_ b])
    (hg : ∀ cl ∈ .mk (.while_ e) b :: cs, ClauseGood k cl) (hf : FedL c (clauseLeaves (.mk (.while_ e) b :: cs)) c') (hx : ExcOk k c.exc) :
    ∃ (t : Tree) (y : ExcStatus), ExcOk k y ∧ t.sk = compSk (clauseSks (.mk (.while_ e) b :: cs)) ∧ Ev .whileStmt c t (c'.ex y) := by
  obtain ⟨hw, d, d', tb, y, g1, _, g2, g3, g4, g5⟩ := clause_split hf (hg _ (by simp)) hx
  obtain ⟨u, hu, hk⟩ := hend
  obtain ⟨e1, e2, e3, e4⟩ := endsStm_ne hk
  obtain ⟨r, y', v, i1, i2, i3, i4⟩ := else_opt hcs (fun cl h => hg cl (by simp [h])) g5 g2 ⟨u, hu, e2⟩
  simp only [Head.words] at g1
  obtain ⟨t1, h1, l1, hf⟩ := fed_cons g1
  obtain ⟨d1, hf1, hf2⟩ := fed_append.1 hf
  obtain ⟨t2, h2, l2, hf2⟩ := fed_cons hf2
  cases fed_nil hf2
  have k1 : t1.kind = .PyWhile := kind_of_leaf l1
  have k2 : t2.kind = .PyColon := kind_of_leaf l2
  obtain ⟨x, hx', ex⟩ := test_ev hw.1 hw.2 hf1 (colon_ends h2 k2 _)
  refine ⟨.node .WhileStmt c.lex.tokStart c'.lex.tokStart [.tok t1, x, .tok t2, tb, r], y', i1, ?_, ev_body ?_⟩
  · simp only [Tree.sk, skList, i2, hx', l1, l2, g3, clauseSks, compSk]
    rfl
  · simp only [body, whileStmtBody]
    refine evp_bind evp_here (evp_bind (evp_symAt h1) ?_)
    kd_simp [k1]
    refine evp_bind evp_next (evp_bind (evp_parse ex) (evp_bind (evp_symAt h2) ?_))
    kd_simp [k2]
    refine evp_bind evp_next (evp_bind (evp_parse g4) (evp_bind (evp_symAt i3) ?_))
    rcases i4 with ⟨k1, er⟩ | ⟨k1, rfl, hc, hy⟩
    · kd_simp [k1]
      exact evp_bind (evp_parse er) evp_mk
    · simp only [k1, if_false]
      have hc : c'.ex y = d'.ex y := hc
      rw [show y' = y from hy, hc, show c'.lex = (d'.ex y).lex from (congrArg PSt.lex hc : (c'.ex y).lex = (d'.ex y).lex)]
      exact evp_mk

theorem for_good {k : Option Bool} {es it : List Ex} {b : Suite} {cs : List Clause} {c c' : PSt} (hend : EndsStm c')
    (hcs : cs = [] ∨ ∃ b, cs = [.mk .else_ b])
    (hg : ∀ cl ∈ .mk (.for_ es it) b :: cs, ClauseGood k cl) (hf : FedL c (clauseLeaves (.mk (.for_ es it) b :: cs)) c') (hx : ExcOk k c.exc) :
    ∃ (t : Tree) (y : ExcStatus), ExcOk k y ∧ t.sk = compSk (clauseSks (.mk (.for_ es it) b :: cs)) ∧ Ev .forStmt c t (c'.ex y) := by
  obtain ⟨hw, d, d', tb, y, g1, ⟨vs, hvs, kvs⟩, g2, g3, g4, g5⟩ := clause_split hf (hg _ (by simp)) hx
  obtain ⟨u, hu, hk⟩ := hend
  obtain ⟨e1, e2, e3, e4⟩ := endsStm_ne hk
  obtain ⟨r, y', v, i1, i2, i3, i4⟩ := else_opt hcs (fun cl h => hg cl (by simp [h])) g5 g2 ⟨u, hu, e2⟩
  obtain ⟨w1, w2, w3, w4⟩ := hw
  simp only [Head.words] at g1
  obtain ⟨t1, h1, l1, hf⟩ := fed_cons g1
  rw [show wordsList es ++ wComma :: Lexeme.kw (cs! "in") .PyIn :: (wordsList it ++ [wColon]) =
    (wordsList es ++ lastComma true) ++ (Lexeme.kw (cs! "in") .PyIn :: (wordsList it ++ [wColon])) by simp [lastComma]] at hf
  obtain ⟨d1, hf1, hf2⟩ := fed_append.1 hf
  obtain ⟨t2, h2, l2, hf2⟩ := fed_cons hf2
  obtain ⟨d3, hf3, hf4⟩ := fed_append.1 hf2
  obtain ⟨t3, h3, l3, hf4⟩ := fed_cons hf4
  cases fed_nil hf4
  have k1 : t1.kind = .PyFor := kind_of_leaf l1
  have k2 : t2.kind = .PyIn := kind_of_leaf l2
  have k3 : t3.kind = .PyColon := kind_of_leaf l3
  obtain ⟨x, hx', ex⟩ := exprlist_ev (b := true) w1 w3 hf1 h2 (by simpa using k2)
  obtain ⟨z, hz, ez⟩ := testlist_ev (l := ⟨it, false⟩) ⟨w2, fun e he => ⟨(w4 e he).1, .inl (w4 e he).2⟩⟩ (by simpa [Exprs.words] using hf3) h3
    (by rw [k3]; simp [starListEnd]) (by simp)
  refine ⟨.node .ForStmt c.lex.tokStart c'.lex.tokStart [.tok t1, x, .tok t2, z, .tok t3, .none, tb, r], y', i1, ?_, ev_body ?_⟩
  · simp only [Tree.sk, skList, i2, hx', hz, l1, l2, l3, g3, clauseSks, compSk]
    rfl
  · simp only [body, forStmtBody]
    refine evp_bind evp_here (evp_bind (evp_symAt h1) ?_)
    kd_simp [k1]
    refine evp_bind evp_next (evp_bind (evp_parse ex) (evp_bind (evp_symAt h2) ?_))
    kd_simp [k2]
    refine evp_bind evp_next (evp_bind (evp_parse ez) (evp_bind (evp_symAt h3) ?_))
    kd_simp [k3]
    refine evp_bind evp_next (evp_bind (evp_symAt hvs) ?_)
    simp only [kvs, if_false]
    refine evp_bind evp_pure (evp_bind (evp_parse g4) (evp_bind (evp_symAt i3) ?_))
    rcases i4 with ⟨k1, er⟩ | ⟨k1, rfl, hc, hy⟩
    · kd_simp [k1]
      exact evp_bind (evp_parse er) evp_mk
    · simp only [k1, if_false]
      have hc : c'.ex y = d'.ex y := hc
      rw [show y' = y from hy, hc, show c'.lex = (d'.ex y).lex from (congrArg PSt.lex hc : (c'.ex y).lex = (d'.ex y).lex)]
      exact evp_mk

/-! ### `try` -/

omit [Uni] in
theorem clauseLeaves_append (cs ds : List Clause) : clauseLeaves (cs ++ ds) = clauseLeaves cs ++ clauseLeaves ds := by
  induction cs with
  | nil => rfl
  | cons cl cs ih => cases cl; simp only [List.cons_append, clauseLeaves, ih, List.append_assoc]

omit [Uni] in
theorem clauseSks_append (cs ds : List Clause) : clauseSks (cs ++ ds) = clauseSks cs ++ clauseSks ds := by
  induction cs with
  | nil => rfl
  | cons cl cs ih => cases cl; simp only [List.cons_append, clauseSks, ih]

/-- The `except`, `else` and `finally` clauses of a `try` statement. -/
theorem try_loop {star : Bool} {s : Nat} {t t2 : Token} {left : Tree} {cs1 cs2 : List Clause}
    (hc1 : cs1 = [] ∨ ∃ b, cs1 = [.mk .else_ b]) (hc2 : cs2 = [] ∨ ∃ b, cs2 = [.mk .finally_ b])
    (hg1 : ∀ cl ∈ cs1, ClauseGood (some star) cl) (hg2 : ∀ cl ∈ cs2, ClauseGood (some star) cl) :
    ∀ (es : List (Option (Ex × Option (List Char)))) (cs : List Clause) (nodes : List Tree) (c c' : PSt), EndsStm c' →
      cs.map Clause.head = es.map (.except star) → (∀ cl ∈ cs, ClauseGood (some star) cl) →
      FedL c (clauseLeaves (cs ++ (cs1 ++ cs2))) c' → ExcOk (some star) c.exc →
      ∃ (nodes' : List Tree) (els right : Tree) (y : ExcStatus), ExcOk (some star) y ∧ skList nodes' = skList nodes ++ exceptSks (clauseSks cs) ∧
        els.sk = elseSk (clauseSks cs1) ∧ right.sk = finallySk (clauseSks cs2) ∧
        Ev (.tryLoop s t t2 left nodes) c (.node .TryStmt s c'.lex.tokStart [.tok t, .tok t2, left, .seq nodes'.reverse, els, right]) (c'.ex y) := by
  intro es
  induction es with
  | nil =>
    intro cs nodes c c' hend hcs hg hf hx
    have : cs = [] := by simpa using hcs
    subst this
    obtain ⟨u, hu, hk⟩ := hend
    obtain ⟨e1, e2, e3, e4⟩ := endsStm_ne hk
    rw [List.nil_append, clauseLeaves_append] at hf
    obtain ⟨d, hf1, hf2⟩ := fedL_append.1 hf
    have hd : ∃ v, d.symbol = .ok v ∧ v.kind ≠ .PyElse ∧ v.kind ≠ .PyExcept := by
      rcases hc2 with rfl | ⟨b, rfl⟩
      · rw [clauseLeaves] at hf2
        cases fedL_nil hf2
        exact ⟨u, hu, e2, e3⟩
      · rw [clauseLeaves] at hf2
        obtain ⟨v, h1, h2, _⟩ := fedL_cons (by simpa [Head.words] using hf2)
        exact ⟨v, h1, by rw [kind_of h2]; simp [Lexeme.leaf, Leaf.kind], by rw [kind_of h2]; simp [Lexeme.leaf, Leaf.kind]⟩
    obtain ⟨vd, hvd, nd1, nd2⟩ := hd
    obtain ⟨r1, y1, v1, i1, i2, i3, i4⟩ := else_opt hc1 hg1 hf1 hx ⟨vd, hvd, nd1⟩
    have hcd : (d.ex y1).exc = y1 := rfl
    obtain ⟨r2, y2, v2, j1, j2, j3, j4⟩ := finally_opt hc2 hg2 (fedL_ex hf2 y1) i1 ⟨u, hu, e4⟩
    have n1 : v1.kind ≠ .PyExcept := by
      rcases i4 with ⟨h, _⟩ | ⟨h, _, h', _⟩
      · rw [h]; simp
      · rw [h', i3] at hvd; cases hvd; exact nd2
    refine ⟨nodes, r1, r2, y2, j1, by simp [clauseSks, exceptSks], i2, j2, ev_body ?_⟩
    simp only [body, tryLoopBody]
    refine evp_bind (evp_symAt i3) ?_
    simp only [n1, if_false]
    refine evp_bind (evp_symAt i3) ?_
    rcases i4 with ⟨h, er⟩ | ⟨h, rfl, h', h2⟩
    · simp only [h, if_true]
      refine evp_bind (evp_parse er) (evp_bind (evp_symAt j3) ?_)
      rcases j4 with ⟨h, er⟩ | ⟨h, rfl, h', h''⟩
      · simp only [h, if_true]; exact evp_bind (evp_parse er) evp_mk
      · simp only [h, if_false]
        have hc : c'.ex y2 = d.ex y1 := by rw [h'', ← h']; rfl
        rw [show c'.lex = d.lex from (congrArg PSt.lex hc : (c'.ex y2).lex = (d.ex y1).lex), hc]
        exact evp_bind evp_pure evp_mk
    · simp only [h, if_false]
      have hc : c = d.ex y1 := by rw [h2, h', ex_self]
      refine evp_bind evp_pure ?_
      rw [hc]
      refine evp_bind (evp_symAt j3) ?_
      rcases j4 with ⟨h, er⟩ | ⟨h, rfl, h', h''⟩
      · simp only [h, if_true]; exact evp_bind (evp_parse er) evp_mk
      · simp only [h, if_false]
        have hc : c'.ex y2 = d.ex y1 := by rw [h'', ← h']; rfl
        rw [show c'.lex = d.lex from (congrArg PSt.lex hc : (c'.ex y2).lex = (d.ex y1).lex), hc]
        exact evp_bind evp_pure evp_mk
  | cons e es ih =>
    intro cs nodes c c' hend hcs hg hf hx
    obtain ⟨b, cs, rfl, hcs2⟩ : ∃ b cs', cs = .mk (.except star e) b :: cs' ∧ cs'.map Clause.head = es.map (.except star) := by
      match cs, hcs with
      | [], hcs => simp at hcs
      | .mk h b :: cs', hcs =>
        simp only [List.map_cons, List.cons.injEq, Clause.head] at hcs
        obtain ⟨rfl, h⟩ := hcs
        exact ⟨b, cs', rfl, h⟩
    obtain ⟨hw, d, d', tb, y, g1, _, g2, g3, g4, g5⟩ := clause_splitx (x := starExc star) hf (hg _ (by simp)) (by cases star <;> exact .inr rfl)
    obtain ⟨r, hr, er⟩ := except_ev hw g1 hx g4
    obtain ⟨nodes', els, right, y', i1, i2, i3, i3', i4⟩ := ih cs (nodes ++ [r]) (d'.ex y) (c'.ex y) hend hcs2 (fun cl h => hg cl (by simp [h])) g5 g2
    simp only [Head.words] at g1
    obtain ⟨t1, h1, l1, _⟩ := fed_cons g1
    have k1 : t1.kind = .PyExcept := kind_of_leaf l1
    refine ⟨nodes', els, right, y', i1, ?_, i3, i3', ev_body ?_⟩
    · rw [i2, skList_append]
      simp only [skList, hr, clauseSks, exceptSks, g3, List.append_assoc, List.cons_append, List.nil_append, Head.isDef]
    · simp only [body, tryLoopBody]
      refine evp_bind (evp_symAt h1) ?_
      kd_simp [k1]
      exact evp_bind (evp_parse er) (evp_parse i4)

/-- The start of a `try` statement. -/
theorem tryHead_ev {c d d' : PSt} {b : Tree} (hf : Fed c Head.try_.words d) (hs : Ev .suite (d.ex .exceptNone) b d') {v : Token}
    (hv : d'.symbol = .ok v) :
    ∃ t t2 : Token, t.leaf = .sym .PyTry ∧ t2.leaf = .sym .PyColon ∧
      (v.kind = .PyFinally → ∀ r c', Ev .finallyStmt d' r c' →
        Ev .tryStmt c (.node .TryStmt c.lex.tokStart c'.lex.tokStart [.tok t, .tok t2, b, .none, .none, r]) c') ∧
      (v.kind ≠ .PyFinally → ∀ x d'' r c', Ev .exceptStmt d' x d'' → Ev (.tryLoop c.lex.tokStart t t2 b [x]) d'' r c' → Ev .tryStmt c r c') := by
  simp only [Head.words] at hf
  obtain ⟨t1, h1, l1, hf⟩ := fed_cons hf
  obtain ⟨t2, h2, l2, hf2⟩ := fed_cons hf
  cases fed_nil hf2
  have k1 : t1.kind = .PyTry := kind_of_leaf l1
  have k2 : t2.kind = .PyColon := kind_of_leaf l2
  have hset : EvP (Prog.setExc .exceptNone (pure ())) c.advance () (c.advance.ex .exceptNone) := ⟨0, rfl⟩
  refine ⟨t1, t2, l1, l2, fun kv r c' hr => ev_body ?_, fun kv x d'' r c' hx hr => ev_body ?_⟩
  all_goals
    simp only [body, tryStmtBody]
    refine evp_bind evp_here (evp_bind (evp_symAt h1) ?_)
    kd_simp [k1]
    refine evp_bind evp_next (evp_bind hset (evp_bind (evp_symAt (t := t2) h2) ?_))
    kd_simp [k2]
    refine evp_bind evp_next ?_
    rw [ex_advance]
    refine evp_bind (evp_parse hs) (evp_bind (evp_symAt hv) ?_)
    simp only [kv, if_true, if_false]
  · exact evp_bind (evp_parse hr) evp_mk
  · exact evp_bind (evp_parse hx) (evp_parse hr)

theorem tryFinally_good {k : Option Bool} {b b2 : Suite} {c c' : PSt} (hend : EndsStm c')
    (hg : ∀ cl ∈ [Clause.mk .try_ b, .mk .finally_ b2], ClauseGood k cl) (hf : FedL c (clauseLeaves [.mk .try_ b, .mk .finally_ b2]) c') :
    ∃ (t : Tree) (y : ExcStatus), ExcOk k y ∧ t.sk = compSk (clauseSks [.mk .try_ b, .mk .finally_ b2]) ∧ Ev .tryStmt c t (c'.ex y) := by
  obtain ⟨hw, d, d', tb, y, g1, _, g2, g3, g4, g5⟩ := clause_splitx (x := .exceptNone) hf (hg _ (by simp)) (excOk_none k)
  obtain ⟨u, hu, hk⟩ := hend
  obtain ⟨e1, e2, e3, e4⟩ := endsStm_ne hk
  obtain ⟨r, y', v, i1, i2, i3, i4⟩ := finally_opt (.inr ⟨b2, rfl⟩) (fun cl h => hg cl (by simp [List.mem_singleton.1 h])) g5 g2 ⟨u, hu, e4⟩
  obtain ⟨t, t2, j1, j2, j3, _⟩ := tryHead_ev g1 g4 i3
  have kv : v.kind = .PyFinally := by
    rw [clauseLeaves] at g5
    obtain ⟨v', h1, h2, _⟩ := fedL_cons (by simpa [Head.words] using g5)
    rw [i3] at h1; cases h1
    exact kind_of h2
  rcases i4 with ⟨_, er⟩ | ⟨h, _⟩
  · refine ⟨_, y', i1, ?_, j3 kv _ _ er⟩
    simp only [Tree.sk, skList, i2, j1, j2, g3, clauseSks, compSk]
    rfl
  · exact absurd kv h

theorem tryExcept_good {star : Bool} {b b2 : Suite} {e : Option (Ex × Option (List Char))} {es : List (Option (Ex × Option (List Char)))}
    {cs cs1 cs2 : List Clause} (hc1 : cs1 = [] ∨ ∃ b, cs1 = [.mk .else_ b]) (hc2 : cs2 = [] ∨ ∃ b, cs2 = [.mk .finally_ b])
    (hcs : cs.map Clause.head = es.map (.except star)) {c c' : PSt} (hend : EndsStm c')
    (hg : ∀ cl ∈ .mk .try_ b :: .mk (.except star e) b2 :: (cs ++ (cs1 ++ cs2)), ClauseGood (some star) cl)
    (hf : FedL c (clauseLeaves (.mk .try_ b :: .mk (.except star e) b2 :: (cs ++ (cs1 ++ cs2)))) c') :
    ∃ (t : Tree) (y : ExcStatus), ExcOk (some star) y ∧ t.sk = compSk (clauseSks (.mk .try_ b :: .mk (.except star e) b2 :: (cs ++ (cs1 ++ cs2)))) ∧
      Ev .tryStmt c t (c'.ex y) := by
  obtain ⟨hw, d, d', tb, y, g1, _, g2, g3, g4, g5⟩ := clause_splitx (x := .exceptNone) hf (hg _ (by simp)) (excOk_none _)
  obtain ⟨hw2, d2, d2', tb2, y2, i1, _, i2, i3, i4, i5⟩ := clause_splitx (x := starExc star) g5 (hg _ (by simp)) (by cases star <;> exact .inr rfl)
  obtain ⟨r, hr, er⟩ := except_ev hw2 i1 g2 i4
  simp only [Head.words] at i1
  obtain ⟨t1, h1, l1, _⟩ := fed_cons i1
  have k1 : t1.kind = .PyExcept := kind_of_leaf l1
  obtain ⟨t, t2, j1, j2, _, j3⟩ := tryHead_ev g1 g4 h1
  obtain ⟨nodes', els, right, y', m1, m2, m3, m4, m5⟩ := try_loop (s := c.lex.tokStart) (t := t) (t2 := t2) (left := tb) hc1 hc2
    (fun cl h => hg cl (by simp [h])) (fun cl h => hg cl (by simp [h])) es cs [r] (d2'.ex y2) ((c'.ex y).ex y2) hend hcs (fun cl h => hg cl (by simp [h])) i5 i2
  refine ⟨_, y', m1, ?_, j3 (by rw [k1]; simp) _ _ _ _ er m5⟩
  have hex : ∀ (cs : List Clause) (es : List (Option (Ex × Option (List Char)))), cs.map Clause.head = es.map (.except star) →
      exceptSks (clauseSks (cs ++ (cs1 ++ cs2))) = exceptSks (clauseSks cs) ∧
      elseSk (afterMid (clauseSks (cs ++ (cs1 ++ cs2)))) = elseSk (clauseSks cs1) ∧
      finallySk (clauseSks (cs ++ (cs1 ++ cs2))) = finallySk (clauseSks cs2) := by
    intro cs
    induction cs with
    | nil =>
      intro es _
      rcases hc1 with rfl | ⟨b, rfl⟩ <;> rcases hc2 with rfl | ⟨b', rfl⟩ <;>
        simp [clauseSks, exceptSks, afterMid, elseSk, finallySk]
    | cons cl cs ih =>
      intro es hcs
      match es, cl, hcs with
      | [], _, hcs => simp at hcs
      | e :: es, .mk h b, hcs =>
        simp only [List.map_cons, List.cons.injEq, Clause.head] at hcs
        obtain ⟨rfl, hcs⟩ := hcs
        obtain ⟨q1, q2, q3⟩ := ih es hcs
        simp only [List.cons_append, clauseSks, exceptSks, afterMid, finallySk, q1, q2, q3, and_self]
  obtain ⟨q1, q2, q3⟩ := hex cs es hcs
  simp only [Tree.sk, skList, skList_reverse, m2, m3, m4, j1, j2, g3, hr, i3, clauseSks, compSk, exceptSks, afterMid, finallySk, q1, q2, q3,
    List.cons_append, List.nil_append]
  rfl

/-! ### `with`, `def` and `class` -/

def itemEnd : List Kind := [.PyComa, .PyColon, .PyRightParen]

theorem withItem_ev {x : WithItem} (hw : x.Wf) {c c' : PSt} (hf : Fed c x.words c') {u : Token} (hu : c'.symbol = .ok u) (hk : u.kind ∈ itemEnd) :
    ∃ t : Tree, t.sk = x.sk ∧ Ev .withItem c t c' := by
  obtain ⟨e, a⟩ := x
  obtain ⟨w1, w2, w3⟩ := hw
  have hend : ∀ n, EndsExpr n c' := fun n => ⟨u, hu, fun m hm => by
    revert hm hk; cases u.kind <;> simp [itemEnd, Kind.continues]⟩
  cases a with
  | none =>
    simp only [WithItem.words, List.append_nil] at hf
    obtain ⟨t, ht, et⟩ := test_ev w1 w2 hf (hend _)
    have n1 : u.kind ≠ .PyAs := by intro h; rw [h] at hk; simp [itemEnd] at hk
    refine ⟨.node .WithItem c.lex.tokStart c'.lex.tokStart [t, .none], ?_, ev_body ?_⟩
    · sk_simp [ht, WithItem.sk]
    · simp only [body, withItemBody]
      refine evp_bind evp_here (evp_bind (evp_parse et) (evp_bind (evp_symAt hu) ?_))
      simp only [n1, if_false]
      exact evp_mk
  | some e' =>
    simp only [WithItem.words] at hf
    obtain ⟨d, hf1, hf2⟩ := fed_append.1 hf
    obtain ⟨t1, h1, l1, hf2⟩ := fed_cons hf2
    have k1 : t1.kind = .PyAs := kind_of_leaf l1
    obtain ⟨w3, w4⟩ := w3 e' rfl
    obtain ⟨t, ht, et⟩ := test_ev w1 w2 hf1 (ends_of_symbol h1 k1 (by intro m h; cases h))
    obtain ⟨t', ht', et'⟩ := (ex_good w3).parses 10 w4 (by omega) _ _ hf2 (hend _)
    refine ⟨.node .ExceptStmt c.lex.tokStart c'.lex.tokStart [t, .tok t1, t'], ?_, ev_body ?_⟩
    · sk_simp [ht, ht', l1, wAs, WithItem.sk]
    · simp only [body, withItemBody]
      refine evp_bind evp_here (evp_bind (evp_parse et) (evp_bind (evp_symAt h1) ?_))
      kd_simp [k1]
      exact evp_bind evp_next (evp_bind (evp_parse et') evp_mk)

omit [Uni] in
theorem comma_itemEnd {t : Token} (h : t.leaf = wComma.leaf) : t.kind ∈ itemEnd := by
  rw [kind_of_leaf h]; simp [wComma, itemEnd, Lexeme.leaf, Leaf.kind]

theorem withItem_first {x : WithItem} (hw : x.Wf) {c c' : PSt} (hf : Fed c x.words c') :
    ∃ v m, c.symbol = .ok v ∧ v.kind.starts = some m := by
  rw [WithItem.words] at hf
  obtain ⟨d, hf1, _⟩ := fed_append.1 hf
  obtain ⟨v, m, h1, h2, _⟩ := fed_first hw.1 hf1
  exact ⟨v, m, h1, h2⟩

theorem with_good {k : Option Bool} {p : Bool} {x : WithItem} {xs : List WithItem} {b : Suite} {c c' : PSt}
    (hg : ClauseGood k (.mk (.with_ p x xs) b)) (hf : FedL c (clauseLeaves [.mk (.with_ p x xs) b]) c') (hx : ExcOk k c.exc) :
    ∃ (t : Tree) (y : ExcStatus), ExcOk k y ∧ t.sk = compSk (clauseSks [.mk (.with_ p x xs) b]) ∧ Ev .withStmt c t (c'.ex y) := by
  obtain ⟨hw, d, d', tb, y, g1, _, g2, g3, g4, g5⟩ := clause_split hf hg hx
  rw [clauseLeaves] at g5
  rw [← fedL_nil g5] at g4
  obtain ⟨w1, w2⟩ := hw
  cases p with
  | false =>
    simp only [Head.words] at g1
    obtain ⟨t1, h1, l1, g1⟩ := fed_cons g1
    obtain ⟨d1, f1, g1⟩ := fed_append.1 g1
    obtain ⟨d2, f2, f3⟩ := fed_append.1 g1
    obtain ⟨t2, h2, l2, f3⟩ := fed_cons f3
    cases fed_nil f3
    have k1 : t1.kind = .PyWith := kind_of_leaf l1
    have k2 : t2.kind = .PyColon := kind_of_leaf l2
    have hloop := fun nodes => after_loop (sep := wComma) (f := WithItem.words) (g := WithItem.sk) (sk := Tree.sk)
      (loop := .withLoop c.lex.tokStart t1) (Item := fun c x d => Ev .withItem c x d)
      (Ok := fun c => ∃ v, c.symbol = .ok v ∧ v.kind ∈ itemEnd)
      (fun nodes seps c t x d r c' h1 h2 h3 h6 => ev_body (by
        simp only [body, withLoopBody]
        refine evp_bind (evp_symAt h1) ?_
        kd_simp [show t.kind = .PyComa from kind_of_leaf h2]
        exact evp_bind evp_next (evp_bind (evp_parse h3) (evp_parse h6))))
      (fun c t h1 h2 => ⟨t, h1, comma_itemEnd h2⟩) (c' := d2) ⟨t2, h2, by rw [k2]; simp [itemEnd]⟩ xs
      (fun a ha c c' h ⟨v, h1, h2⟩ => withItem_ev (w1 a (by simp [ha])) h h1 h2) nodes [] d1 (by simp) f2
    obtain ⟨v, hv, kv⟩ := (hloop []).1
    obtain ⟨z, hz, ez⟩ := withItem_ev (w1 x (by simp)) f1 hv kv
    obtain ⟨_, nodes', seps', i1, i2, i3, i4⟩ := hloop [z]
    obtain ⟨v1, hv1, n1⟩ : ∃ v1 : Token, c.advance.symbol = .ok v1 ∧ v1.kind ≠ .PyLeftParen := by
      obtain ⟨xw, r, m, q1, q2, _⟩ := first_word x.e (w1 x (by simp)).1
      rw [WithItem.words, q1] at f1
      obtain ⟨v1, h1, l1, _⟩ := fed_cons f1
      refine ⟨v1, h1, fun h => w2 rfl ?_⟩
      rw [q1, List.head?_cons, Option.map_some, ← l1]
      cases v1 <;> simp_all [Token.kind, Token.leaf]
    refine ⟨.node .WithStmt c.lex.tokStart c'.lex.tokStart [.tok t1, .none, .seq nodes'.reverse, .toks seps'.reverse, .none, .tok t2, tb], y, g2, ?_, ev_body ?_⟩
    · sk_simp [clauseSks, compSk, sk_seps_reverse i2, skList_reverse, skList_map nodes', i1, i3, hz, l1, l2, g3, wComma, wColon, List.map_cons, List.map_nil]
      simp [commas, Head.isDef]
    · simp only [body, withStmtBody]
      refine evp_bind evp_here (evp_bind (evp_symAt h1) ?_)
      kd_simp [k1]
      refine evp_bind evp_next (evp_bind (evp_symAt hv1) ?_)
      simp only [n1, if_false]
      refine evp_bind (evp_parse ez) (evp_parse (i4 _ _ (ev_body ?_)))
      simp only [body, withLoopBody]
      refine evp_bind (evp_symAt h2) ?_
      kd_simp [k2]
      unfold withRest
      refine evp_bind (evp_symAt h2) ?_
      kd_simp [k2]
      exact evp_bind evp_next (evp_bind (evp_parse g4) evp_mk)
  | true =>
    simp only [Head.words] at g1
    obtain ⟨t1, h1, l1, g1⟩ := fed_cons g1
    obtain ⟨t3, h3, l3, g1⟩ := fed_cons g1
    obtain ⟨d1, f1, g1⟩ := fed_append.1 g1
    obtain ⟨d2, f2, f3⟩ := fed_append.1 g1
    obtain ⟨t4, h4, l4, f3⟩ := fed_cons f3
    obtain ⟨t2, h2, l2, f3⟩ := fed_cons f3
    cases fed_nil f3
    have k1 : t1.kind = .PyWith := kind_of_leaf l1
    have k2 : t2.kind = .PyColon := kind_of_leaf l2
    have k3 : t3.kind = .PyLeftParen := kind_of_leaf l3
    have k4 : t4.kind = .PyRightParen := kind_of_leaf l4
    have hloop := fun nodes => after_loop (sep := wComma) (f := WithItem.words) (g := WithItem.sk) (sk := Tree.sk)
      (loop := .withParenLoop c.lex.tokStart t1 t3) (Item := fun c x d => Ev .withItem c x d ∧ ∃ v m, c.symbol = .ok v ∧ v.kind.starts = some m)
      (Ok := fun c => ∃ v, c.symbol = .ok v ∧ v.kind ∈ itemEnd)
      (fun nodes seps c t x d r c' h1 h2 ⟨h3, v, m, h4, h5⟩ h6 => ev_body (by
        simp only [body, withParenLoopBody]
        refine evp_bind (evp_symAt h1) ?_
        kd_simp [show t.kind = .PyComa from kind_of_leaf h2]
        refine evp_bind evp_next (evp_bind (evp_symAt h4) ?_)
        have n1 : v.kind ≠ .PyRightParen := by intro h; rw [h] at h5; cases h5
        simp only [n1, if_false]
        exact evp_bind (evp_parse h3) (evp_parse h6)))
      (fun c t h1 h2 => ⟨t, h1, comma_itemEnd h2⟩) (c' := d2) ⟨t4, h4, by rw [k4]; simp [itemEnd]⟩ xs
      (fun a ha c c' h ⟨v, h1, h2⟩ => by
        obtain ⟨t, ht, et⟩ := withItem_ev (w1 a (by simp [ha])) h h1 h2
        exact ⟨t, ht, et, withItem_first (w1 a (by simp [ha])) h⟩) nodes [] d1 (by simp) f2
    obtain ⟨v, hv, kv⟩ := (hloop []).1
    obtain ⟨z, hz, ez⟩ := withItem_ev (w1 x (by simp)) f1 hv kv
    obtain ⟨_, nodes', seps', i1, i2, i3, i4⟩ := hloop [z]
    refine ⟨.node .WithStmt c.lex.tokStart c'.lex.tokStart [.tok t1, .tok t3, .seq nodes'.reverse, .toks seps'.reverse, .tok t4, .tok t2, tb], y, g2, ?_, ev_body ?_⟩
    · sk_simp [clauseSks, compSk, sk_seps_reverse i2, skList_reverse, skList_map nodes', i1, i3, hz, l1, l2, l3, l4, g3, wComma, wColon, wLeft, wRight, List.map_cons, List.map_nil]
      simp [commas, Head.isDef]
    · simp only [body, withStmtBody]
      refine evp_bind evp_here (evp_bind (evp_symAt h1) ?_)
      kd_simp [k1]
      refine evp_bind evp_next (evp_bind (evp_symAt h3) ?_)
      kd_simp [k3]
      refine evp_bind evp_next (evp_bind (evp_parse ez) (evp_parse (i4 _ _ (ev_body ?_))))
      simp only [body, withParenLoopBody]
      refine evp_bind (evp_symAt h4) ?_
      kd_simp [k4]
      unfold withParenEnd
      refine evp_bind (evp_symAt h4) ?_
      kd_simp [k4]
      unfold withRest
      refine evp_bind evp_next (evp_bind (evp_symAt h2) ?_)
      kd_simp [k2]
      exact evp_bind evp_next (evp_bind (evp_parse g4) evp_mk)

theorem def_good {k : Option Bool} {f : List Char} {ret : Option Ex} {b : Suite} {c c' : PSt}
    (hg : ClauseGood k (.mk (.def_ f ret) b)) (hf : FedL c (clauseLeaves [.mk (.def_ f ret) b]) c') (hx : ExcOk k c.exc) :
    ∃ (t : Tree) (y : ExcStatus), ExcOk k y ∧ t.sk = compSk (clauseSks [.mk (.def_ f ret) b]) ∧ Ev .funcDef c t (c'.ex y) := by
  obtain ⟨hw, d, d', tb, y, g1, ⟨vs, hvs, kvs⟩, g2, g3, g4, g5⟩ := clause_split hf hg hx
  rw [clauseLeaves] at g5
  rw [← fedL_nil g5] at g4
  -- name and parameters
  have hpar : ∀ {xs : List Lexeme}, Fed c (.kw (cs! "def") .PyDef :: .name f :: wLeft :: wRight :: xs) d →
      ∃ (t1 t2 t3 : Token) (p : Tree) (d1 : PSt), c.symbol = .ok t1 ∧ t1.leaf = .sym .PyDef ∧ c.advance.symbol = .ok t2 ∧ t2.leaf = .name f ∧
        c.advance.advance.symbol = .ok t3 ∧ t3.kind = .PyLeftParen ∧ p.sk = .node .Parameter [kd .PyLeftParen, .none, kd .PyRightParen] ∧
        Ev .parameters c.advance.advance p d1 ∧ Fed d1 xs d := by
    intro xs g1
    obtain ⟨t1, h1, l1, g1⟩ := fed_cons g1
    obtain ⟨t2, h2, l2, g1⟩ := fed_cons g1
    obtain ⟨t3, h3, l3, g1⟩ := fed_cons g1
    obtain ⟨t4, h4, l4, g1⟩ := fed_cons g1
    have k3 : t3.kind = .PyLeftParen := kind_of_leaf l3
    have k4 : t4.kind = .PyRightParen := kind_of_leaf l4
    refine ⟨t1, t2, t3, .node .Parameter c.advance.advance.lex.tokStart c.advance.advance.advance.advance.lex.tokStart [.tok t3, .none, .tok t4],
      _, h1, l1, h2, l2, h3, k3, ?_, ev_body ?_, g1⟩
    · sk_simp [l3, l4, wLeft, wRight]
    · simp only [body, parametersBody]
      refine evp_bind evp_here (evp_bind (evp_symAt h3) ?_)
      kd_simp [k3]
      refine evp_bind evp_next (evp_bind (evp_symAt h4) ?_)
      kd_simp [k4]
      refine evp_bind evp_pure (evp_bind (evp_symAt h4) ?_)
      kd_simp [k4]
      exact evp_bind evp_next evp_mk
  cases ret with
  | none =>
    simp only [Head.words] at g1
    obtain ⟨t1, t2, t3, p, d1, h1, l1, h2, l2, h3, k3, hp, ep, g1⟩ := hpar g1
    obtain ⟨t5, h5, l5, g1⟩ := fed_cons g1
    cases fed_nil g1
    have k1 : t1.kind = .PyDef := kind_of l1
    have k2 : t2.kind = .AtomName := kind_of l2
    have k5 : t5.kind = .PyColon := kind_of_leaf l5
    refine ⟨.node .FuncDef c.lex.tokStart c'.lex.tokStart [.tok t1, .tok t2, p, .none, .tok t5, .none, tb], y, g2, ?_, ev_body ?_⟩
    · sk_simp [clauseSks, compSk, hp, l1, l2, l5, g3, wColon]
    · simp only [body, funcDefBody]
      refine evp_bind evp_here (evp_bind (evp_symAt h1) ?_)
      kd_simp [k1]
      refine evp_bind evp_next (evp_bind (evp_symAt h2) ?_)
      kd_simp [k2]
      refine evp_bind evp_next (evp_bind (evp_symAt h3) ?_)
      kd_simp [k3]
      refine evp_bind (evp_parse ep) (evp_bind (evp_symAt h5) ?_)
      kd_simp [k5]
      refine evp_bind evp_pure (evp_bind (evp_symAt h5) ?_)
      kd_simp [k5]
      refine evp_bind evp_next (evp_bind (evp_symAt hvs) ?_)
      simp only [kvs, if_false]
      exact evp_bind evp_pure (evp_bind (evp_parse g4) evp_mk)
  | some e =>
    simp only [Head.words] at g1
    obtain ⟨w1, w2⟩ := hw e rfl
    obtain ⟨t1, t2, t3, p, d1, h1, l1, h2, l2, h3, k3, hp, ep, g1⟩ := hpar g1
    obtain ⟨t4, h4, l4, g1⟩ := fed_cons g1
    obtain ⟨d2, f1, f2⟩ := fed_append.1 g1
    obtain ⟨t5, h5, l5, f2⟩ := fed_cons f2
    cases fed_nil f2
    have k1 : t1.kind = .PyDef := kind_of l1
    have k2 : t2.kind = .AtomName := kind_of l2
    have k4 : t4.kind = .PyArrow := kind_of_leaf l4
    have k5 : t5.kind = .PyColon := kind_of_leaf l5
    obtain ⟨z, hz, ez⟩ := test_ev w1 w2 f1 (colon_ends h5 k5 _)
    refine ⟨.node .FuncDef c.lex.tokStart c'.lex.tokStart [.tok t1, .tok t2, p, .seq [.tok t4, z], .tok t5, .none, tb], y, g2, ?_, ev_body ?_⟩
    · sk_simp [clauseSks, compSk, hp, hz, l1, l2, l4, l5, g3, wColon]
    · simp only [body, funcDefBody]
      refine evp_bind evp_here (evp_bind (evp_symAt h1) ?_)
      kd_simp [k1]
      refine evp_bind evp_next (evp_bind (evp_symAt h2) ?_)
      kd_simp [k2]
      refine evp_bind evp_next (evp_bind (evp_symAt h3) ?_)
      kd_simp [k3]
      refine evp_bind (evp_parse ep) (evp_bind (evp_symAt h4) ?_)
      kd_simp [k4]
      refine evp_bind evp_next (evp_bind (evp_parse ez) (evp_bind evp_pure (evp_bind (evp_symAt h5) ?_)))
      kd_simp [k5]
      refine evp_bind evp_next (evp_bind (evp_symAt hvs) ?_)
      simp only [kvs, if_false]
      exact evp_bind evp_pure (evp_bind (evp_parse g4) evp_mk)

theorem class_good {k : Option Bool} {w : List Char} {p : Bool} {b : Suite} {c c' : PSt}
    (hg : ClauseGood k (.mk (.class_ w p) b)) (hf : FedL c (clauseLeaves [.mk (.class_ w p) b]) c') (hx : ExcOk k c.exc) :
    ∃ (t : Tree) (y : ExcStatus), ExcOk k y ∧ t.sk = compSk (clauseSks [.mk (.class_ w p) b]) ∧ Ev .classDef c t (c'.ex y) := by
  obtain ⟨hw, d, d', tb, y, g1, _, g2, g3, g4, g5⟩ := clause_split hf hg hx
  rw [clauseLeaves] at g5
  rw [← fedL_nil g5] at g4
  simp only [Head.words] at g1
  obtain ⟨t1, h1, l1, g1⟩ := fed_cons g1
  obtain ⟨t2, h2, l2, g1⟩ := fed_cons g1
  have k1 : t1.kind = .PyClass := kind_of_leaf l1
  have k2 : t2.kind = .AtomName := kind_of_leaf l2
  cases p with
  | false =>
    obtain ⟨t5, h5, l5, g1⟩ := fed_cons (x := wColon) (xs := []) (by simpa using g1)
    cases fed_nil g1
    have k5 : t5.kind = .PyColon := kind_of_leaf l5
    refine ⟨.node .ClassDef c.lex.tokStart c'.lex.tokStart [.tok t1, .tok t2, .none, .none, .none, .tok t5, tb], y, g2, ?_, ev_body ?_⟩
    · sk_simp [clauseSks, compSk, l1, l2, l5, g3, wColon]
      rfl
    · simp only [body, classDefBody]
      refine evp_bind evp_here (evp_bind (evp_symAt h1) ?_)
      kd_simp [k1]
      refine evp_bind evp_next (evp_bind (evp_symAt h2) ?_)
      kd_simp [k2]
      refine evp_bind evp_next (evp_bind (evp_symAt h5) ?_)
      kd_simp [k5]
      unfold classRest
      refine evp_bind (evp_symAt h5) ?_
      kd_simp [k5]
      exact evp_bind evp_next (evp_bind (evp_parse g4) evp_mk)
  | true =>
    obtain ⟨t3, h3, l3, g1⟩ := fed_cons (x := wLeft) (xs := [wRight, wColon]) (by simpa using g1)
    obtain ⟨t4, h4, l4, g1⟩ := fed_cons g1
    obtain ⟨t5, h5, l5, g1⟩ := fed_cons g1
    cases fed_nil g1
    have k3 : t3.kind = .PyLeftParen := kind_of_leaf l3
    have k4 : t4.kind = .PyRightParen := kind_of_leaf l4
    have k5 : t5.kind = .PyColon := kind_of_leaf l5
    refine ⟨.node .ClassDef c.lex.tokStart c'.lex.tokStart [.tok t1, .tok t2, .tok t3, .none, .tok t4, .tok t5, tb], y, g2, ?_, ev_body ?_⟩
    · sk_simp [clauseSks, compSk, l1, l2, l3, l4, l5, g3, wColon, wLeft, wRight]
      rfl
    · simp only [body, classDefBody]
      refine evp_bind evp_here (evp_bind (evp_symAt h1) ?_)
      kd_simp [k1]
      refine evp_bind evp_next (evp_bind (evp_symAt h2) ?_)
      kd_simp [k2]
      refine evp_bind evp_next (evp_bind (evp_symAt h3) ?_)
      kd_simp [k3]
      refine evp_bind evp_next (evp_bind (evp_symAt h4) ?_)
      kd_simp [k4]
      refine evp_bind evp_pure (evp_bind (evp_symAt h4) ?_)
      kd_simp [k4]
      unfold classRest
      refine evp_bind evp_next (evp_bind (evp_symAt h5) ?_)
      kd_simp [k5]
      exact evp_bind evp_next (evp_bind (evp_parse g4) evp_mk)

end
end Verif
