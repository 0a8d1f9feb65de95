import Verif.Spec.Modes
import Verif.Spec.FileTree
import Verif.Proof.Ev
import Verif.Proof.ExactSoundStmt3
import Verif.Props.Single
import Verif.Props.Exact
import Verif.Props.Term
import Verif.Props.JoinTrees

/-!
# C73 The same text in different entry points
-/

namespace Verif
open Prog
set_option linter.unusedVariables false
section
variable [Uni]

/-- `f`, started in `c`, has the outcome `r` (if it gets enough steps). -/
def Out (f : Fn) (c : PSt) (r : Res Tree) : Prop := ∃ n, run n f c = r
def OutP {α : Type} (p : Prog α) (c : PSt) (r : Res α) : Prop := ∃ n, p.exec (run n) c = r

theorem out_body {f c r} (h : OutP (body f) c r) : Out f c r := by
  obtain ⟨n, h⟩ := h; exact ⟨n + 1, h⟩

theorem exec_any_mono {α : Type} {p : Prog α} {n m c r} (h : p.exec (run n) c = r) (hr : r ≠ .diverge) (hm : n ≤ m) :
    p.exec (run m) c = r := by
  rw [← h]
  exact exec_mono (fun f c hd => run_mono hd m hm) p c (by rw [h]; exact hr)

theorem out_bind {α β : Type} {p : Prog α} {f : α → Prog β} {c a d r} (h1 : EvP p c a d) (h2 : OutP (f a) d r) (hr : r ≠ .diverge) :
    OutP (p >>= f) c r := by
  obtain ⟨n, h1⟩ := h1
  obtain ⟨m, h2⟩ := h2
  refine ⟨max n m, ?_⟩
  rw [exec_bind _ _ _ _ (exec_ok_mono h1 (Nat.le_max_left _ _))]
  exact exec_any_mono h2 hr (Nat.le_max_right _ _)

theorem out_err {f c p m} {k : Tree → Prog Tree} (h : Out f c (.err p m)) : OutP (parse f >>= k) c (.err p m) := by
  obtain ⟨n, h⟩ := h
  refine ⟨n, ?_⟩
  show (Prog.call f _).exec (run n) c = _
  simp only [Prog.exec, h]
theorem out_panic {f c} {k : Tree → Prog Tree} (h : Out f c .panic) : OutP (parse f >>= k) c .panic := by
  obtain ⟨n, h⟩ := h
  refine ⟨n, ?_⟩
  show (Prog.call f _).exec (run n) c = _
  simp only [Prog.exec, h]
theorem out_errTail {f c p m} (h : Out f c (.err p m)) : OutP (parse f) c (.err p m) := by
  obtain ⟨n, h⟩ := h
  refine ⟨n, ?_⟩
  show (Prog.call f _).exec (run n) c = _
  simp only [Prog.exec, h]
theorem out_panicTail {f c} (h : Out f c .panic) : OutP (parse f) c .panic := by
  obtain ⟨n, h⟩ := h
  refine ⟨n, ?_⟩
  show (Prog.call f _).exec (run n) c = _
  simp only [Prog.exec, h]

theorem evp_bodyOf {f c t c'} (h : Ev f c t c') : EvP (body f) c t c' := by
  obtain ⟨n, h⟩ := h
  cases n with
  | zero => cases h
  | succ n => exact ⟨n, h⟩

/-- An expression starts with one of the symbols with which an expression can start. -/
theorem test_first {n c t c'} (h : run n .test c = .ok t c') : ∃ u, c.symbol = .ok u ∧ firstTest.contains u.kind = true := by
  have := run_exact h
  simp only [ΦEx] at this
  obtain ⟨ts, h1, h2, -⟩ := this
  obtain ⟨j, d⟩ := XN.of h2
  obtain ⟨u, us, rfl, hu⟩ := d.head
  cases h1 with
  | step hs _ => exact ⟨u, hs, hu⟩

/-- The tree of a list of expressions. -/
def listTree (s e : Nat) (nodes : List Tree) (seps : List Token) : Tree :=
  match nodes, seps with
  | [x], [] => x
  | _, _ => .node .TestList s e [.seq nodes, .toks seps]

/-- The end of a list of expressions. -/
theorem list_results {s nodes seps c x} (hx : x = listTree s c.lex.tokStart nodes seps) :
    ∃ x', AsStatement x x' ∧ EvP (testlistStarExprResult s nodes seps) c x' c := by
  subst hx
  unfold testlistStarExprResult listTree
  split
  · exact ⟨_, .same _, evp_pure⟩
  · rename_i h
    refine ⟨_, .list _ _ _ _, ?_⟩
    split
    · rename_i h1 h2
      have e1 := congrArg List.reverse h1
      have e2 := congrArg List.reverse h2
      simp only [List.reverse_reverse, List.reverse_cons, List.reverse_nil, List.nil_append] at e1 e2
      exact absurd e2 (h _ e1)
    · exact evp_mk

theorem testlistLoop_star (n : Nat) : ∀ c s nodes seps x c1, run n (.testlistLoop s nodes seps) c = .ok x c1 →
    ∃ x', AsStatement x x' ∧ Ev (.testlistStarExprLoop s nodes seps) c x' c1 := by
  induction n with
  | zero => intro c s nodes seps x c1 h; cases h
  | succ n ih =>
    intro c s nodes seps x c1 h
    refine wp_sound (Φ := fun f c t c1 => run n f c = .ok t c1) (fun _ _ _ _ h => h) (testlistLoopBody s nodes seps) c
      (fun x c1 => ∃ x', AsStatement x x' ∧ Ev (.testlistStarExprLoop s nodes seps) c x' c1) ?_ x c1 h
    unfold testlistLoopBody
    simp only [wp_bind, wp_symHere, wp_ite, wp_next, wp_parse, wp_failHere]
    intro t ht
    refine ⟨fun hk t2 ht2 => ⟨fun hk2 => ?_, fun hk2 => ⟨fun _ => trivial, fun hk3 => ?_⟩⟩, fun hk => ?_⟩
    · intro y c2 hy
      obtain ⟨x', h1, h2⟩ := ih _ _ _ _ _ _ hy
      refine ⟨x', h1, ev_body (evp_bind (evp_symHere ht) ?_)⟩
      rw [if_pos hk]
      refine evp_bind evp_next (evp_bind (evp_symHere ht2) ?_)
      rw [if_pos (by rcases hk2 with h | h | h <;> rw [h] <;> decide)]
      exact evp_parse h2
    · intro y c2 hy z c3 hz
      obtain ⟨u, hu, hf⟩ := test_first hy
      rw [ht2] at hu
      cases hu
      obtain ⟨x', h1, h2⟩ := ih _ _ _ _ _ _ hz
      refine ⟨x', h1, ev_body (evp_bind (evp_symHere ht) ?_)⟩
      rw [if_pos hk]
      refine evp_bind evp_next (evp_bind (evp_symHere ht2) ?_)
      have hn : ∀ K : Kind, firstTest.contains K = true → K ∉ starListEnd ∧ K ≠ .PyMul := by
        intro K; cases K <;> decide
      rw [if_neg (hn _ hf).1, if_neg hk3, if_neg (hn _ hf).2]
      exact evp_bind (evp_parse ⟨_, hy⟩) (evp_parse h2)
    · have key : ∀ x, x = listTree s c.lex.tokStart nodes seps →
          ∃ x', AsStatement x x' ∧ Ev (.testlistStarExprLoop s nodes seps) c x' c := by
        intro x hx
        obtain ⟨x', h1, h2⟩ := list_results hx
        refine ⟨x', h1, ev_body (evp_bind (evp_symHere ht) ?_)⟩
        rw [if_neg hk]
        exact h2
      unfold listResult
      split
      · exact key _ rfl
      · rename_i hh
        simp only [wp_mk]
        refine key _ ?_
        unfold listTree
        split
        · exact absurd rfl (hh _ rfl)
        · rfl

theorem testlist_star {n c x c1} (h : run n .testlist c = .ok x c1) :
    (∃ u, c.symbol = .ok u ∧ firstTest.contains u.kind = true) ∧ ∃ x', AsStatement x x' ∧ Ev .testlistStarExpr c x' c1 := by
  cases n with
  | zero => cases h
  | succ n =>
    refine wp_sound (Φ := fun f c t c1 => run n f c = .ok t c1) (fun _ _ _ _ h => h) testlistBody c
      (fun x c1 => (∃ u, c.symbol = .ok u ∧ firstTest.contains u.kind = true) ∧
        ∃ x', AsStatement x x' ∧ Ev .testlistStarExpr c x' c1) ?_ x c1 h
    unfold testlistBody
    simp only [wp_bind, wp_here, wp_parse]
    intro y c2 hy z c3 hz
    obtain ⟨u, hu, hf⟩ := test_first hy
    obtain ⟨x', h1, h2⟩ := testlistLoop_star n _ _ _ _ _ _ hz
    refine ⟨⟨u, hu, hf⟩, x', h1, ev_body (evp_bind evp_here (evp_bind (evp_symHere hu) ?_))⟩
    have hn : ∀ K : Kind, firstTest.contains K = true → K ≠ .PyMul := by intro K; cases K <;> decide
    rw [if_neg (hn _ hf)]
    exact evp_bind (evp_parse ⟨_, hy⟩) (evp_parse h2)

/-- After a line end no second one follows. -/
theorem PReach.no_two {src c nl u} (h : PReach src c) (h1 : c.symbol = .ok nl) (hk : nl.kind = .Newline)
    (h2 : c.advance.symbol = .ok u) : u.kind ≠ .Newline := by
  induction h with
  | new => cases h1
  | exc x _ ih => exact ih h1 (by rw [advance_withExc] at h2; exact h2)
  | @adv d hd ih =>
    have e1 := advance_ok h1
    have e2 := advance_ok h2
    exact C46_no_two_newlines src _ _ _ _ _ hd.reach.1 e1 hk e2

theorem evalLoop_inv {src n c s x t c'} (hc : PReach src c) (h : run n (.evalLoop s x []) c = .ok t c') :
    ∃ u, u.kind = .EOF ∧
      ((c.symbol = .ok u ∧ c' = c ∧ t = .node .EvalInput s c.lex.tokStart [x, .toks [], .tok u]) ∨
        ∃ nl, c.symbol = .ok nl ∧ nl.kind = .Newline ∧ c.advance.symbol = .ok u ∧ c' = c.advance ∧
          t = .node .EvalInput s c'.lex.tokStart [x, .toks [nl], .tok u]) := by
  cases n with
  | zero => cases h
  | succ n =>
    cases hs : c.symbol with
    | error e =>
      change (Prog.sym _ (.fail s _)).exec (run n) c = _ at h
      simp only [Prog.exec, hs] at h
      cases h
    | ok t0 =>
      change (Prog.sym _ (.fail s _)).exec (run n) c = _ at h
      simp only [Prog.exec, hs] at h
      change (if t0.kind = .Newline then next >>= fun _ => parse (.evalLoop s x [t0]) else if t0.kind = .EOF then _ else _ : Prog Tree).exec
        (run n) c = _ at h
      split at h
      · rename_i hk
        have h' : run n (.evalLoop s x [t0]) c.advance = .ok t c' := by
          change (Prog.call _ _).exec (run n) c.advance = _ at h
          simp only [Prog.exec] at h
          split at h
          · rename_i a b hr; cases h; exact hr
          all_goals cases h
        clear h
        cases n with
        | zero => cases h'
        | succ n =>
          cases hs2 : c.advance.symbol with
          | error e =>
            change (Prog.sym _ (.fail s _)).exec (run n) c.advance = _ at h'
            simp only [Prog.exec, hs2] at h'
            cases h'
          | ok t1 =>
            change (Prog.sym _ (.fail s _)).exec (run n) c.advance = _ at h'
            simp only [Prog.exec, hs2] at h'
            have hn := hc.no_two hs hk hs2
            change (if t1.kind = .Newline then _ else if t1.kind = .EOF then _ else _ : Prog Tree).exec (run n) c.advance = _ at h'
            rw [if_neg hn] at h'
            split at h'
            · rename_i hE
              cases h'
              exact ⟨t1, hE, .inr ⟨t0, rfl, hk, rfl, rfl, rfl⟩⟩
            · cases h'
      · split at h
        · rename_i hE
          cases h
          exact ⟨t0, hE, .inl ⟨rfl, rfl, rfl⟩⟩
        · cases h

/-- What a successful call for an expression has done. -/
theorem evalInput_inv {src n t c'} (h : run n .evalInput (PSt.new (Lexer.new src)) = .ok t c') :
    ∃ m x c1 u, run m .testlist (PSt.new (Lexer.new src)).advance = .ok x c1 ∧ u.kind = .EOF ∧
      ((c1.symbol = .ok u ∧ c' = c1 ∧
          t = .node .EvalInput (PSt.new (Lexer.new src)).advance.lex.tokStart c'.lex.tokStart [x, .toks [], .tok u]) ∨
        ∃ nl, c1.symbol = .ok nl ∧ nl.kind = .Newline ∧ c1.advance.symbol = .ok u ∧ c' = c1.advance ∧
          t = .node .EvalInput (PSt.new (Lexer.new src)).advance.lex.tokStart c'.lex.tokStart [x, .toks [nl], .tok u]) := by
  cases n with
  | zero => cases h
  | succ n =>
    refine wp_sound (Φ := fun f c t c1 => run n f c = .ok t c1) (fun _ _ _ _ h => h) evalInputBody (PSt.new (Lexer.new src))
      (fun t c' => ∃ m x c1 u, run m .testlist (PSt.new (Lexer.new src)).advance = .ok x c1 ∧ u.kind = .EOF ∧
      ((c1.symbol = .ok u ∧ c' = c1 ∧
          t = .node .EvalInput (PSt.new (Lexer.new src)).advance.lex.tokStart c'.lex.tokStart [x, .toks [], .tok u]) ∨
        ∃ nl, c1.symbol = .ok nl ∧ nl.kind = .Newline ∧ c1.advance.symbol = .ok u ∧ c' = c1.advance ∧
          t = .node .EvalInput (PSt.new (Lexer.new src)).advance.lex.tokStart c'.lex.tokStart [x, .toks [nl], .tok u])) ?_ t c' h
    unfold evalInputBody
    simp only [wp_bind, wp_here, wp_next, wp_parse]
    intro x c1 hx y c2 hy
    obtain ⟨u, hu, hh⟩ := evalLoop_inv (PReach.run (.adv .new) hx) hy
    refine ⟨n, x, c1, u, hx, hu, ?_⟩
    rcases hh with ⟨a, rfl, rfl⟩ | ⟨nl, a, b, d, rfl, rfl⟩
    · exact .inl ⟨a, rfl, rfl⟩
    · exact .inr ⟨nl, a, b, d, rfl, rfl⟩

omit [Uni] in
theorem test_kinds : ∀ K : Kind, firstTest.contains K = true → K ∉ compoundStart ∧ K ≠ .EOF ∧ K ≠ .Newline ∧ K ≠ .PyDel ∧ K ≠ .PyPass ∧
    K ∉ [Kind.PyBreak, .PyContinue, .PyReturn, .PyRaise, .PyYield] ∧ ¬ (K = .PyImport ∨ K = .PyFrom) ∧ K ≠ .PyGlobal ∧
    K ≠ .PyNonLocal ∧ K ≠ .PyAssert := by
  intro K; cases K <;> decide

omit [Uni] in
theorem kind_end {K : Kind} (h : K = .Newline ∨ K = .EOF) : K ≠ .PyColon ∧ K ≠ .PyAssign ∧ augOp K = none ∧ K ≠ .PySemiColon := by
  rcases h with rfl | rfl <;> decide

/-- The expression as a statement. -/
theorem small_of_testlist {n c x c1 w} (h : run n .testlist c = .ok x c1) (hw : c1.symbol = .ok w)
    (hk : w.kind = .Newline ∨ w.kind = .EOF) : ∃ x', AsStatement x x' ∧ Ev .smallStmt c x' c1 := by
  obtain ⟨⟨u, hu, hf⟩, x', h1, h2⟩ := testlist_star h
  obtain ⟨k1, k2, k3, k4⟩ := kind_end hk
  have he : Ev .exprStmt c x' c1 := by
    refine ev_body (evp_bind evp_here (evp_bind (evp_parse h2) (evp_bind (evp_symAt hw) ?_)))
    rw [if_neg k1, if_neg k2, k3]
    exact evp_pure
  obtain ⟨f1, f2, f3, f4, f5, f6, f7, f8, f9, f10⟩ := test_kinds _ hf
  refine ⟨x', h1, ev_body (evp_bind evp_here (evp_bind (evp_symAt hu) ?_))⟩
  rw [if_neg f4, if_neg f5, if_neg f6, if_neg f7, if_neg f8, if_neg f9, if_neg f10]
  exact evp_parse he

theorem simple_of_small {c x c1 nl} (h : Ev .smallStmt c x c1) (hw : c1.symbol = .ok nl) (hk : nl.kind = .Newline) :
    Ev .simpleStmt c (.node .SimpleStmtList c.lex.tokStart c1.advance.lex.tokStart [.seq [x], .toks [], .tok nl]) c1.advance := by
  refine ev_body (evp_bind evp_here (evp_bind (evp_parse h) (evp_parse (ev_body (evp_bind (evp_symAt hw) ?_)))))
  rw [if_neg (by rw [hk]; decide)]
  refine evp_bind (evp_symAt hw) ?_
  rw [if_pos hk]
  exact evp_bind evp_next evp_mk

theorem simple_err {c x c1 u} (h : Ev .smallStmt c x c1) (hw : c1.symbol = .ok u) (hk : u.kind = .EOF) :
    Out .simpleStmt c (.err c.lex.tokStart "Expecting Newline at end of statement list!") := by
  refine out_body (out_bind evp_here (out_bind (evp_parse h) (out_errTail (out_body (out_bind (evp_symAt hw) ?_ (by simp)))) (by simp)) (by simp))
  rw [if_neg (by rw [hk]; decide)]
  refine out_bind (evp_symAt hw) ?_ (by simp)
  rw [if_neg (by rw [hk]; decide)]
  exact ⟨0, rfl⟩

end

/-- C73, the tree of an expression: it holds the expression, at most one line end, and the end of the text. -/
theorem C73_expression_tree [Uni] (src : List Char) (n : Nat) (t : Tree) (c' : PSt)
    (h : run n .evalInput (PSt.new (Lexer.new src)) = .ok t c') :
    ∃ s e x u, u.kind = .EOF ∧ (t = .node .EvalInput s e [x, .toks [], .tok u] ∨
      ∃ nl, nl.kind = .Newline ∧ t = .node .EvalInput s e [x, .toks [nl], .tok u]) := by
  obtain ⟨m, x, c1, u, h1, hu, hh⟩ := evalInput_inv h
  rcases hh with ⟨-, -, rfl⟩ | ⟨nl, -, hk, -, -, rfl⟩
  · exact ⟨_, _, x, u, hu, .inl rfl⟩
  · exact ⟨_, _, x, u, hu, .inr ⟨nl, hk, rfl⟩⟩

/-- C73: an expression with the end of its line is also a file, and an interactive input.  Both have one statement, which is
the expression: the same tree, except that a list without brackets is stored as a `TestListStarExpr`, last element first. -/
theorem C73_expression_is_program [Uni] (src : List Char) (n s e : Nat) (x : Tree) (nl u : Token) (c' : PSt)
    (h : run n .evalInput (PSt.new (Lexer.new src)) = .ok (.node .EvalInput s e [x, .toks [nl], .tok u]) c')
    (hm : ∀ t, (PSt.new (Lexer.new src)).advance.symbol = .ok t → t.isMatchName = false) :
    ∃ x', AsStatement x x' ∧
      (∃ m, run m .fileInput (PSt.new (Lexer.new src)) =
        .ok (.node .FileInput s e [.seq [.node .SimpleStmtList s e [.seq [x'], .toks [], .tok nl]], .toks [], .tok u]) c') ∧
      ∃ m, run m .singleInput (PSt.new (Lexer.new src)) =
        .ok (.node .SingleInput s e [.node .SimpleStmtList s e [.seq [x'], .toks [], .tok nl], .none]) c' := by
  obtain ⟨m, y, c1, v, h1, hu, hh⟩ := evalInput_inv h
  rcases hh with ⟨-, -, ht⟩ | ⟨nl', h2, hk, h3, rfl, ht⟩
  · simp [Tree.toks] at ht
  · simp only [Tree.node.injEq, List.cons.injEq, Tree.toks, Tree.seq.injEq, List.map_cons, List.map_nil, Tree.tok.injEq, and_true,
      true_and] at ht
    obtain ⟨rfl, rfl, rfl, rfl, rfl⟩ := ht
    obtain ⟨x', g1, g2⟩ := small_of_testlist h1 h2 (.inl hk)
    obtain ⟨⟨w, hw, hf⟩, -⟩ := testlist_star h1
    have g3 := simple_of_small g2 h2 hk
    obtain ⟨f1, f2, f3, -⟩ := test_kinds _ hf
    have hm := hm w hw
    have g4 : Ev .stmt (PSt.new (Lexer.new src)).advance (.node .SimpleStmtList (PSt.new (Lexer.new src)).advance.lex.tokStart
        c1.advance.lex.tokStart [.seq [x'], .toks [], .tok nl]) c1.advance := by
      refine ev_body (evp_bind evp_here (evp_bind (evp_symAt hw) ?_))
      rw [if_neg f1, hm]
      exact evp_parse g3
    refine ⟨x', g1, ?_, ?_⟩
    · refine ev_body (evp_bind evp_next (evp_bind evp_here (evp_parse (ev_body (evp_bind (evp_symAt hw) ?_)))))
      rw [if_neg f2, if_neg f3]
      refine evp_bind (evp_parse g4) (evp_parse (ev_body (evp_bind (evp_symAt h3) ?_)))
      rw [if_pos hu]
      exact evp_mk
    · refine ev_body (evp_bind evp_next (evp_bind evp_here (evp_bind (evp_symAt hw) ?_)))
      rw [if_neg f3, if_neg f1, hm]
      exact evp_bind (evp_parse g3) evp_mk

/-- C73, the other two cases.  Without the end of the line, the expression is neither a file nor an interactive input; the
error points at the start of the text.  If it starts with the name `match`, the parser panics. -/
theorem C73_expression_is_no_program [Uni] (src : List Char) (n : Nat) (t : Tree) (c' : PSt) (f : Fn)
    (hf : f = .fileInput ∨ f = .singleInput)
    (h : run n .evalInput (PSt.new (Lexer.new src)) = .ok t c') :
    (∀ w, (PSt.new (Lexer.new src)).advance.symbol = .ok w → w.isMatchName = true →
      ∃ m, run m f (PSt.new (Lexer.new src)) = .panic) ∧
    (∀ w s e x u, (PSt.new (Lexer.new src)).advance.symbol = .ok w → w.isMatchName = false →
      t = .node .EvalInput s e [x, .toks [], .tok u] →
      ∃ m, run m f (PSt.new (Lexer.new src)) = .err s "Expecting Newline at end of statement list!") := by
  obtain ⟨m, y, c1, v, h1, hu, hh⟩ := evalInput_inv h
  obtain ⟨⟨w, hw, hF⟩, -⟩ := testlist_star h1
  obtain ⟨f1, f2, f3, -⟩ := test_kinds _ hF
  constructor
  · intro w' hw' hm
    rw [hw] at hw'
    cases hw'
    have hp : Out .patternsMatch (PSt.new (Lexer.new src)).advance .panic := ⟨1, rfl⟩
    have hst : Out .stmt (PSt.new (Lexer.new src)).advance .panic := by
      refine out_body (out_bind evp_here (out_bind (evp_symAt hw) ?_ (by simp)) (by simp))
      rw [if_neg f1, if_pos hm]
      exact out_panicTail hp
    rcases hf with rfl | rfl
    · refine out_body (out_bind evp_next (out_bind evp_here (out_panicTail (out_body (out_bind (evp_symAt hw) ?_ (by simp)))) (by simp)) (by simp))
      rw [if_neg f2, if_neg f3]
      exact out_panic hst
    · refine out_body (out_bind evp_next (out_bind evp_here (out_bind (evp_symAt hw) ?_ (by simp)) (by simp)) (by simp))
      rw [if_neg f3, if_neg f1, if_pos hm]
      exact out_panic hp
  · intro w' s e x u hw' hm ht0
    rw [hw] at hw'
    cases hw'
    rcases hh with ⟨h2, rfl, ht⟩ | ⟨nl', h2, hk, h3, rfl, ht⟩
    · rw [ht] at ht0
      simp only [Tree.node.injEq, List.cons.injEq, Tree.tok.injEq, and_true, true_and] at ht0
      obtain ⟨rfl, rfl, rfl, rfl⟩ := ht0
      obtain ⟨x', g1, g2⟩ := small_of_testlist h1 h2 (.inr hu)
      have g3 := simple_err g2 h2 hu
      have hst : Out .stmt (PSt.new (Lexer.new src)).advance
          (.err (PSt.new (Lexer.new src)).advance.lex.tokStart "Expecting Newline at end of statement list!") := by
        refine out_body (out_bind evp_here (out_bind (evp_symAt hw) ?_ (by simp)) (by simp))
        rw [if_neg f1, hm]
        exact out_errTail g3
      rcases hf with rfl | rfl
      · refine out_body (out_bind evp_next (out_bind evp_here (out_errTail (out_body (out_bind (evp_symAt hw) ?_ (by simp)))) (by simp)) (by simp))
        rw [if_neg f2, if_neg f3]
        exact out_err hst
      · refine out_body (out_bind evp_next (out_bind evp_here (out_bind (evp_symAt hw) ?_ (by simp)) (by simp)) (by simp))
        rw [if_neg f3, if_neg f1, hm]
        exact out_err g3
    · rw [ht] at ht0
      simp [Tree.toks] at ht0

/-- C73 in the form of a decision: a text that is an expression is a file (or an interactive input) if and only if its line
has an end and the first symbol is not the name `match`. -/
theorem C73_expression_is_program_iff [Uni] (src : List Char) (n s e : Nat) (x : Tree) (nls : List Token) (u w : Token) (c' : PSt)
    (f : Fn) (hf : f = .fileInput ∨ f = .singleInput)
    (h : run n .evalInput (PSt.new (Lexer.new src)) = .ok (.node .EvalInput s e [x, .toks nls, .tok u]) c')
    (hw : (PSt.new (Lexer.new src)).advance.symbol = .ok w) :
    Accepts f src ↔ nls ≠ [] ∧ w.isMatchName = false := by
  have clash : ∀ r, (∃ m, run m f (PSt.new (Lexer.new src)) = r) → r ≠ .diverge → Accepts f src → ∃ t c, r = .ok t c := by
    rintro r ⟨m, h1⟩ hr ⟨k, t, c, h2⟩
    have e1 := run_mono (n := m) (by rw [h1]; exact hr) (max m k) (Nat.le_max_left _ _)
    have e2 := run_mono (n := k) (by rw [h2]; simp) (max m k) (Nat.le_max_right _ _)
    rw [h1] at e1; rw [h2] at e2; rw [e1] at e2
    exact ⟨t, c, e2⟩
  obtain ⟨g1, g2⟩ := C73_expression_is_no_program src n _ c' f hf h
  constructor
  · intro ha
    cases hm : w.isMatchName with
    | true => obtain ⟨t, c, e⟩ := clash _ (g1 w hw hm) (by simp) ha; cases e
    | false =>
      refine ⟨?_, rfl⟩
      rintro rfl
      obtain ⟨t, c, e⟩ := clash _ (g2 w _ _ _ _ hw hm rfl) (by simp) ha; cases e
  · rintro ⟨h1, h2⟩
    obtain ⟨s', e', x', u', hu, ht | ⟨nl, hk, ht⟩⟩ := C73_expression_tree src n _ c' h
    · cases nls <;> simp [Tree.toks] at h1 ht
    · have : nls = [nl] := by
        cases nls with
        | nil => simp [Tree.toks] at ht
        | cons a l => cases l <;> simp_all [Tree.toks]
      subst this
      obtain ⟨x2, -, ⟨m, hm⟩, ⟨m', hm'⟩⟩ := C73_expression_is_program src n s e x nl u c' h
        (fun t ht => by rw [hw] at ht; cases ht; exact h2)
      rcases hf with rfl | rfl
      · exact ⟨m, _, _, hm⟩
      · exact ⟨m', _, _, hm'⟩

/-! ### Cases -/

/-- `a, b.c⏎`: the hypotheses of `C73_expression_is_program` hold, and the statement is a list stored last element first. -/
def modesWitness : Bool :=
  let _ := asciiUni
  match run 100 .evalInput (PSt.new (Lexer.new (cs! "a, (b)\n"))), run 100 .fileInput (PSt.new (Lexer.new (cs! "a, (b)\n"))) with
  | .ok (.node .EvalInput _ _ [.node .TestList _ _ [.seq [x, y], .seq [_]], .seq [.tok _], .tok _]) _,
    .ok (.node .FileInput _ _ [.seq [.node .SimpleStmtList _ _ [.seq [.node .TestListStarExpr _ _ [.seq [y', x'], .seq [_]]], _, _]], _, _]) _ =>
      x.tokens.length == 1 && y.tokens.length == 3 && x'.tokens.length == 1 && y'.tokens.length == 3
  | _, _ => false
example : modesWitness = true := by decide +kernel

/-- Each case occurs: `a⏎` is an expression and a file, `a` and `match` are expressions but not files. -/
theorem C73_each_case :
    (@Accepts asciiUni .evalInput (cs! "a\n") ∧ @Accepts asciiUni .fileInput (cs! "a\n")) ∧
    (@Accepts asciiUni .evalInput (cs! "a") ∧ (@run asciiUni 100 .fileInput (PSt.new (Lexer.new (cs! "a")))).isErr = true) ∧
    (@Accepts asciiUni .evalInput (cs! "match\n") ∧
      (match @run asciiUni 100 .fileInput (PSt.new (Lexer.new (cs! "match\n"))) with | .panic => true | _ => false) = true) := by
  let _ := asciiUni
  refine ⟨⟨Res.accepts (m := 100) ?_, Res.accepts (m := 100) ?_⟩, ⟨Res.accepts (m := 100) ?_, ?_⟩, Res.accepts (m := 100) ?_, ?_⟩ <;>
    decide +kernel

/-- C73, from a file to interactive input: if the first statement of a file is a simple statement line, then the text is
accepted as interactive input, and gives that statement, with the same tree.  (If it is a compound statement, the text is
rejected: `C43_compound_rejected`.) -/
theorem C73_first_statement [Uni] (src : List Char) (n : Nat) (y x : Tree) (xs : List Tree) (c' : PSt)
    (h : run n .fileInput (PSt.new (Lexer.new src)) = .ok y c') (hx : fileStatements y = x :: xs)
    (t : Token) (ht : (PSt.new (Lexer.new src)).advance.symbol = .ok t) (hk : t.kind.opensCompound = false) :
    ∃ m s e c1, run m .singleInput (PSt.new (Lexer.new src)) = .ok (.node .SingleInput s e [x, .none]) c1 := by
  have hnl : t.kind ≠ .Newline := by
    have h0 := advance_ok ht
    rw [show (PSt.new (Lexer.new src)).lex = Lexer.new src from rfl] at h0
    exact C46_not_first src _ t h0
  have hk' : t.kind ∉ compoundStart := by
    cases ht : t.kind <;> simp_all [compoundStart, Kind.opensCompound]
  generalize hc : PSt.new (Lexer.new src) = c at *
  cases n with
  | zero => cases h
  | succ n =>
    have h : run n (.fileLoop c.advance.lex.tokStart [] []) c.advance = .ok y c' := by
      change (Prog.call _ _).exec (run n) c.advance = _ at h
      simp only [Prog.exec] at h
      split at h
      · rename_i a b hr; cases h; exact hr
      all_goals cases h
    cases n with
    | zero => cases h
    | succ n =>
      change (Prog.sym _ (.fail _ _)).exec (run n) c.advance = _ at h
      simp only [Prog.exec, ht] at h
      change (if t.kind = .EOF then _ else if t.kind = .Newline then _ else (parse .stmt >>= fun x => _) : Prog Tree).exec
        (run n) c.advance = _ at h
      split at h
      · cases h
        simp [fileStatements] at hx
      · try rw [if_neg hnl] at h
        change (Prog.call .stmt _).exec (run n) c.advance = _ at h
        simp only [Prog.exec] at h
        cases hs : run n .stmt c.advance with
        | ok x1 c1 =>
          rw [hs] at h
          have h : run n (.fileLoop c.advance.lex.tokStart [x1] []) c1 = .ok y c' := by
            change (Prog.call _ _).exec (run n) c1 = _ at h
            simp only [Prog.exec] at h
            split at h
            · rename_i a b hr; cases h; exact hr
            all_goals cases h
          obtain ⟨ys, ss, u, p, rfl, -⟩ := fileLoop_acc n _ _ _ _ _ _ h
          simp only [fileStatements, List.reverse_reverse, List.singleton_append, List.cons.injEq] at hx
          obtain ⟨rfl, rfl⟩ := hx
          cases n with
          | zero => cases hs
          | succ n =>
            change (Prog.sym _ (.fail _ _)).exec (run n) c.advance = _ at hs
            simp only [Prog.exec, ht] at hs
            change (if t.kind ∈ compoundStart then _ else if t.isMatchName then _ else _ : Prog Tree).exec
              (run n) c.advance = _ at hs
            rw [if_neg hk'] at hs
            cases hm : t.isMatchName with
            | true =>
              rw [hm, if_pos rfl] at hs
              change (Prog.call .patternsMatch _).exec (run n) c.advance = _ at hs
              simp only [Prog.exec] at hs
              cases n <;> cases hs
            | false =>
              rw [hm, if_neg (by simp)] at hs
              change (Prog.call .simpleStmt _).exec (run n) c.advance = _ at hs
              simp only [Prog.exec] at hs
              cases hr : run n .simpleStmt c.advance with
              | ok x2 c2 =>
                rw [hr] at hs
                cases hs
                obtain ⟨s, e, h'⟩ := C43_simple_accepted_partial n c _ t _ ht hnl hk hm hr
                exact ⟨_, s, e, _, h'⟩
              | _ => rw [hr] at hs; cases hs
        | _ => rw [hs] at h; cases h

/-- A file whose first statement is a simple one, and whose second one is not. -/
example : (let _ := asciiUni
    match run 200 .fileInput (PSt.new (Lexer.new (cs! "a = 1; b\nif a:\n pass\n"))),
      (PSt.new (Lexer.new (cs! "a = 1; b\nif a:\n pass\n"))).advance.symbol with
    | .ok y _, .ok t => (fileStatements y).length == 2 && !t.kind.opensCompound
    | _, _ => false) = true := by decide +kernel

end Verif
