import Verif.Spec.Calls
import Verif.Props.LexRun
import Verif.Proof.Wp

/-!
# Fuel monotonicity, and a logic for termination of parse functions
-/

namespace Verif
section
variable [Uni]

/-! ### Fuel -/

theorem exec_mono {α : Type} {r r' : Fn → PSt → Res Tree} (h : ∀ f c, r f c ≠ .diverge → r' f c = r f c)
    (p : Prog α) (c : PSt) (hd : p.exec r c ≠ .diverge) : p.exec r' c = p.exec r c := by
  induction p generalizing c with
  | ret | fail | panic => rfl
  | getPos k ih | getExc k ih => exact ih _ _ hd
  | adv k ih | setExc x k ih => exact ih _ hd
  | sym k e ih1 ih2 =>
    simp only [Prog.exec] at hd ⊢
    cases hs : c.symbol with
    | ok t => rw [hs] at hd; exact ih1 _ _ hd
    | error x => rw [hs] at hd; exact ih2 _ hd
  | call f k ih =>
    simp only [Prog.exec] at hd ⊢
    have hf : r f c ≠ .diverge := by intro e; rw [e] at hd; exact hd rfl
    rw [h f c hf]
    cases hr : r f c with
    | ok t c1 => rw [hr] at hd; exact ih _ _ hd
    | err | panic => rfl
    | diverge => exact absurd hr hf

theorem run_mono {n f c} (h : run n f c ≠ .diverge) : ∀ m, n ≤ m → run m f c = run n f c := by
  induction n generalizing f c with
  | zero => exact absurd rfl h
  | succ n ih =>
    intro m hm
    obtain ⟨m, rfl⟩ : ∃ m', m = m' + 1 := ⟨m - 1, by omega⟩
    exact exec_mono (fun f c hd => ih hd m (by omega)) (body f) c h

theorem run_ok_mono {n m f c t c'} (h : run n f c = .ok t c') (hm : n ≤ m) : run m f c = .ok t c' := by
  rw [run_mono (by rw [h]; simp) m hm, h]

/-- The outcome of a function does not depend on the fuel. -/
theorem run_det {n m f c} (h1 : run n f c ≠ .diverge) (h2 : run m f c ≠ .diverge) : run n f c = run m f c := by
  rcases Nat.le_total n m with h | h
  · exact (run_mono h1 m h).symm
  · exact run_mono h2 n h

/-! ### Invariants of all states of a run -/

/-- What `advance` and changes of the `except` status preserve, every run preserves. -/
theorem run_keeps {P : PSt → Prop} (ha : ∀ c, P c → P c.advance) (he : ∀ c x, P c → P { c with exc := x })
    {n f c t c'} (h : run n f c = .ok t c') : P c → P c' := by
  refine run_sound (Φ := fun _ c _ c' => P c → P c') (fun f c => ?_) n f c t c' h
  suffices hw : ∀ (p : Prog Tree) d, P d → WP (fun _ c _ c' => P c → P c') p d (fun _ c' => P c') from by
    by_cases hc : P c
    · exact wp_mono _ (fun _ _ h _ => h) (hw _ _ hc)
    · exact wp_any _ (fun _ _ h => absurd h hc)
  intro p
  induction p with
  | ret a => exact fun d h => h
  | fail | panic => exact fun _ _ => trivial
  | getPos k ih | getExc k ih => exact fun d h => ih _ d h
  | adv k ih => exact fun d h => ih _ (ha _ h)
  | setExc x k ih => exact fun d h => ih _ (he _ _ h)
  | sym k e ih1 ih2 => exact fun d h => ⟨fun t _ => ih1 t d h, fun _ _ => ih2 d h⟩
  | call f k ih => exact fun d h t c1 hc => ih t c1 (hc h)

theorem makes_keeps {P : PSt → Prop} (ha : ∀ c, P c → P c.advance) (he : ∀ c x, P c → P { c with exc := x })
    {α : Type} {p : Prog α} {c g d} (h : Makes p c g d) : P c → P d := by
  induction h with
  | here => exact id
  | later hr _ ih => exact fun hc => ih (run_keeps ha he hr hc)
  | getPos _ ih | getExc _ ih | sym _ _ ih | noSym _ _ ih => exact ih
  | adv _ ih => exact fun hc => ih (ha _ hc)
  | setExc _ ih => exact fun hc => ih (he _ _ hc)

theorem calls_keeps {P : PSt → Prop} (ha : ∀ c, P c → P c.advance) (he : ∀ c x, P c → P { c with exc := x })
    {f c g d} (h : Calls f c g d) : P c → P d := by
  induction h with
  | self => exact id
  | step hm _ ih => exact fun hc => ih (makes_keeps ha he hm hc)

theorem PReach.run {src n f c t c'} (hc : PReach src c) (h : Verif.run n f c = .ok t c') : PReach src c' :=
  run_keeps (fun _ h => h.adv) (fun _ x h => h.exc x) h hc

theorem PReach.calls {src f c g d} (hc : PReach src c) (h : Calls f c g d) : PReach src d :=
  calls_keeps (fun _ h => h.adv) (fun _ x h => h.exc x) h hc

/-! ### The measure -/

/-- Tokens left, an upper bound; 0 if the current symbol is `EOF` or an error. -/
def PSt.left (c : PSt) : Nat :=
  match c.symbol with
  | .ok t => if t.kind = .EOF then 0 else c.lex.todo + 1
  | .error _ => 0

/-- What is needed of a parser state. -/
structure Good (src : List Char) (c : PSt) : Prop where
  inv : Inv src c.lex
  eof : ∀ t, c.symbol = .ok t → t.kind = .EOF → c.advance.left = 0

theorem advance_left {src} {c : PSt} (h : Inv src c.lex) (t) (hs : c.symbol = .ok t) (hk : t.kind ≠ .EOF) :
    c.advance.left < c.left := by
  have hc : c.left = c.lex.todo + 1 := by simp [PSt.left, hs, hk]
  rw [hc]
  unfold PSt.advance PSt.left
  cases hr : getSymbol c.lex with
  | err e l => simp
  | ok t' l =>
    by_cases hk' : t'.kind = .EOF
    · simp [hk']
    · have := (ok_facts h hr).less hk'
      simp [hk']; omega

theorem advance_inv {src} {c : PSt} (h : Inv src c.lex) : Inv src c.advance.lex := by
  unfold PSt.advance
  cases hr : getSymbol c.lex with
  | err e l => exact (err_facts h hr).inv
  | ok t' l => exact (ok_facts h hr).inv

theorem Good.advance {src c} (h : Good src c) : Good src c.advance := by
  refine ⟨advance_inv h.inv, ?_⟩
  intro t ht hk
  unfold PSt.advance at ht ⊢
  cases hr : getSymbol c.lex with
  | err e l => rw [hr] at ht; simp at ht
  | ok t' l =>
    rw [hr] at ht
    simp only [Except.ok.injEq] at ht
    subst ht
    have f := ok_facts h.inv hr
    obtain ⟨h1, h2, h3, h4⟩ := f.atEof hk
    simp [getSymbol_atEof f.inv h1 h2 h3 h4, PSt.left, Token.kind]

theorem Good.exc {src c} (h : Good src c) (x) : Good src { c with exc := x } :=
  ⟨h.inv, fun t ht hk => by
    have := h.eof t ht hk
    unfold PSt.advance PSt.left at this ⊢
    cases hr : getSymbol c.lex <;> simpa [hr] using this⟩

theorem PReach.good {src c} (h : PReach src c) : Good src c := by
  induction h with
  | new => exact ⟨Inv.new src, fun t ht => by simp [PSt.new] at ht⟩
  | adv _ ih => exact ih.advance
  | exc x _ ih => exact ih.exc x

theorem Good.advance_le {src c} (h : Good src c) {t} (hs : c.symbol = .ok t) : c.advance.left ≤ c.left := by
  by_cases hk : t.kind = .EOF
  · rw [h.eof t hs hk]; omega
  · exact Nat.le_of_lt (advance_left h.inv t hs hk)

/-! ### The logic -/

/-- Does the function, when it succeeds, always move on? -/
def Fn.moves : Fn → Bool
  | .atom => true
  | .atomStrLoop _ _ => false
  | .atomExpr => true
  | .trailerLoop _ _ _ _ => false
  | .power => true
  | .factor => true
  | .term => true
  | .termLoop _ _ => false
  | .arith => true
  | .arithLoop _ _ => false
  | .shift => true
  | .shiftLoop _ _ => false
  | .andExpr => true
  | .andExprLoop _ _ => false
  | .xorExpr => true
  | .xorExprLoop _ _ => false
  | .expr => true
  | .exprLoop _ _ => false
  | .starExpr => true
  | .comparison => true
  | .comparisonLoop _ _ => false
  | .notTest => true
  | .andTest => true
  | .andTestLoop _ _ => false
  | .orTest => true
  | .orTestLoop _ _ => false
  | .lambdaDef _ => true
  | .noCondTest => true
  | .test => true
  | .namedExpression => true
  | .testlistComp => true
  | .testlistCompLoop _ _ _ => false
  | .trailer => true
  | .subscriptList => true
  | .subscriptListLoop _ _ _ => false
  | .subscript => true
  | .exprlist => true
  | .exprlistLoop _ _ _ => false
  | .testlist => true
  | .testlistLoop _ _ _ => false
  | .dictorsetMaker => true
  | .setLoop _ _ _ => false
  | .arglist => true
  | .arglistLoop _ _ _ => false
  | .argument => true
  | .compIter => true
  | .syncCompFor => true
  | .compFor => true
  | .compIf => true
  | .yieldExpr => true
  | .testlistStarExpr => true
  | .testlistStarExprLoop _ _ _ => false
  | .varArgsList => true
  | .varArgsMainLoop _ _ => false
  | .varArgsStarLoop _ _ => false
  | .varArgsDivLoop _ _ => false
  | .varArgsAssignments => true
  | .vfpDef => true
  | .stmt => true
  | .simpleStmt => true
  | .simpleStmtLoop _ _ _ => false
  | .smallStmt => true
  | .exprStmt => true
  | .assignLoop _ _ _ => false
  | .annAssign _ _ => true
  | .delStmt => true
  | .passStmt => true
  | .flowStmt => true
  | .breakStmt => true
  | .continueStmt => true
  | .returnStmt => true
  | .yieldStmt => true
  | .raiseStmt => true
  | .importStmt => true
  | .importName => true
  | .importFrom => true
  | .importDotLoop _ _ _ => false
  | .importAsName => true
  | .dottedAsName => true
  | .importAsNames => true
  | .importAsNamesLoop _ _ _ => false
  | .dottedAsNames => true
  | .dottedAsNamesLoop _ _ _ => false
  | .dottedName => true
  | .dottedNameLoop _ _ _ => false
  | .globalStmt => true
  | .globalLoop _ _ _ _ => false
  | .nonlocalStmt => true
  | .nonlocalLoop _ _ _ _ => false
  | .assertStmt => true
  | .compoundStmt => true
  | .asyncStmt => true
  | .ifStmt => true
  | .ifLoop _ _ _ _ _ _ => false
  | .elifStmt => true
  | .elseStmt => true
  | .whileStmt => true
  | .forStmt => true
  | .tryStmt => true
  | .tryLoop _ _ _ _ _ => false
  | .finallyStmt => true
  | .withStmt => true
  | .withParenLoop _ _ _ _ _ => false
  | .withLoop _ _ _ _ => false
  | .withItem => true
  | .exceptStmt => true
  | .exceptClause => true
  | .suite => true
  | .suiteLoop _ _ _ _ => false
  | .evalInput => false
  | .evalLoop _ _ _ => false
  | .fileInput => false
  | .fileLoop _ _ _ => false
  | .singleInput => false
  | .funcTypeInput => false
  | .funcTypeLoop _ _ _ => false
  | .decorator => true
  | .decorators => true
  | .decoratorsLoop _ _ => false
  | .decorated => true
  | .asyncFuncDef => true
  | .funcDef => true
  | .parameters => true
  | .typedArgsList => false
  | .tfpDefAssign => true
  | .tfpDef => true
  | .funcBodySuite => true
  | .funcBodyLoop _ _ _ _ _ _ => false
  | .classDef => true
  | .funcType => true
  | .typeList => true
  | .typeListMainLoop _ _ => false
  | .typeListStarLoop _ _ => false
  | .patternsMatch => true

def Fn.step (f : Fn) : Nat := if f.moves then 1 else 0

def Fn.input : Fn → Bool
  | .atom => false
  | .atomStrLoop _ _ => false
  | .atomExpr => false
  | .trailerLoop _ _ _ _ => false
  | .power => false
  | .factor => false
  | .term => false
  | .termLoop _ _ => false
  | .arith => false
  | .arithLoop _ _ => false
  | .shift => false
  | .shiftLoop _ _ => false
  | .andExpr => false
  | .andExprLoop _ _ => false
  | .xorExpr => false
  | .xorExprLoop _ _ => false
  | .expr => false
  | .exprLoop _ _ => false
  | .starExpr => false
  | .comparison => false
  | .comparisonLoop _ _ => false
  | .notTest => false
  | .andTest => false
  | .andTestLoop _ _ => false
  | .orTest => false
  | .orTestLoop _ _ => false
  | .lambdaDef _ => false
  | .noCondTest => false
  | .test => false
  | .namedExpression => false
  | .testlistComp => false
  | .testlistCompLoop _ _ _ => false
  | .trailer => false
  | .subscriptList => false
  | .subscriptListLoop _ _ _ => false
  | .subscript => false
  | .exprlist => false
  | .exprlistLoop _ _ _ => false
  | .testlist => false
  | .testlistLoop _ _ _ => false
  | .dictorsetMaker => false
  | .setLoop _ _ _ => false
  | .arglist => false
  | .arglistLoop _ _ _ => false
  | .argument => false
  | .compIter => false
  | .syncCompFor => false
  | .compFor => false
  | .compIf => false
  | .yieldExpr => false
  | .testlistStarExpr => false
  | .testlistStarExprLoop _ _ _ => false
  | .varArgsList => false
  | .varArgsMainLoop _ _ => false
  | .varArgsStarLoop _ _ => false
  | .varArgsDivLoop _ _ => false
  | .varArgsAssignments => false
  | .vfpDef => false
  | .stmt => false
  | .simpleStmt => false
  | .simpleStmtLoop _ _ _ => false
  | .smallStmt => false
  | .exprStmt => false
  | .assignLoop _ _ _ => false
  | .annAssign _ _ => false
  | .delStmt => false
  | .passStmt => false
  | .flowStmt => false
  | .breakStmt => false
  | .continueStmt => false
  | .returnStmt => false
  | .yieldStmt => false
  | .raiseStmt => false
  | .importStmt => false
  | .importName => false
  | .importFrom => false
  | .importDotLoop _ _ _ => false
  | .importAsName => false
  | .dottedAsName => false
  | .importAsNames => false
  | .importAsNamesLoop _ _ _ => false
  | .dottedAsNames => false
  | .dottedAsNamesLoop _ _ _ => false
  | .dottedName => false
  | .dottedNameLoop _ _ _ => false
  | .globalStmt => false
  | .globalLoop _ _ _ _ => false
  | .nonlocalStmt => false
  | .nonlocalLoop _ _ _ _ => false
  | .assertStmt => false
  | .compoundStmt => false
  | .asyncStmt => false
  | .ifStmt => false
  | .ifLoop _ _ _ _ _ _ => false
  | .elifStmt => false
  | .elseStmt => false
  | .whileStmt => false
  | .forStmt => false
  | .tryStmt => false
  | .tryLoop _ _ _ _ _ => false
  | .finallyStmt => false
  | .withStmt => false
  | .withParenLoop _ _ _ _ _ => false
  | .withLoop _ _ _ _ => false
  | .withItem => false
  | .exceptStmt => false
  | .exceptClause => false
  | .suite => false
  | .suiteLoop _ _ _ _ => false
  | .evalInput => true
  | .evalLoop _ _ _ => false
  | .fileInput => true
  | .fileLoop _ _ _ => false
  | .singleInput => true
  | .funcTypeInput => true
  | .funcTypeLoop _ _ _ => false
  | .decorator => false
  | .decorators => false
  | .decoratorsLoop _ _ => false
  | .decorated => false
  | .asyncFuncDef => false
  | .funcDef => false
  | .parameters => false
  | .typedArgsList => false
  | .tfpDefAssign => false
  | .tfpDef => false
  | .funcBodySuite => false
  | .funcBodyLoop _ _ _ _ _ _ => false
  | .classDef => false
  | .funcType => false
  | .typeList => false
  | .typeListMainLoop _ _ => false
  | .typeListStarLoop _ _ => false
  | .patternsMatch => false

/-- Position of a function in the order of calls that do not move on. -/
def Fn.rank : Fn → Nat
  | .atom => 2
  | .atomStrLoop _ _ => 0
  | .atomExpr => 3
  | .trailerLoop _ _ _ _ => 2
  | .power => 4
  | .factor => 5
  | .term => 6
  | .termLoop _ _ => 0
  | .arith => 7
  | .arithLoop _ _ => 0
  | .shift => 8
  | .shiftLoop _ _ => 0
  | .andExpr => 9
  | .andExprLoop _ _ => 0
  | .xorExpr => 10
  | .xorExprLoop _ _ => 0
  | .expr => 11
  | .exprLoop _ _ => 0
  | .starExpr => 12
  | .comparison => 12
  | .comparisonLoop _ _ => 0
  | .notTest => 13
  | .andTest => 14
  | .andTestLoop _ _ => 0
  | .orTest => 15
  | .orTestLoop _ _ => 0
  | .lambdaDef _ => 16
  | .noCondTest => 17
  | .test => 17
  | .namedExpression => 18
  | .testlistComp => 19
  | .testlistCompLoop _ _ _ => 0
  | .trailer => 1
  | .subscriptList => 19
  | .subscriptListLoop _ _ _ => 0
  | .subscript => 18
  | .exprlist => 19
  | .exprlistLoop _ _ _ => 0
  | .testlist => 18
  | .testlistLoop _ _ _ => 0
  | .dictorsetMaker => 18
  | .setLoop _ _ _ => 0
  | .arglist => 19
  | .arglistLoop _ _ _ => 0
  | .argument => 18
  | .compIter => 22
  | .syncCompFor => 20
  | .compFor => 21
  | .compIf => 20
  | .yieldExpr => 20
  | .testlistStarExpr => 18
  | .testlistStarExprLoop _ _ _ => 0
  | .varArgsList => 3
  | .varArgsMainLoop _ _ => 0
  | .varArgsStarLoop _ _ => 0
  | .varArgsDivLoop _ _ => 0
  | .varArgsAssignments => 2
  | .vfpDef => 1
  | .stmt => 30
  | .simpleStmt => 24
  | .simpleStmtLoop _ _ _ => 0
  | .smallStmt => 23
  | .exprStmt => 21
  | .assignLoop _ _ _ => 0
  | .annAssign _ _ => 0
  | .delStmt => 0
  | .passStmt => 0
  | .flowStmt => 22
  | .breakStmt => 0
  | .continueStmt => 0
  | .returnStmt => 0
  | .yieldStmt => 21
  | .raiseStmt => 0
  | .importStmt => 22
  | .importName => 0
  | .importFrom => 0
  | .importDotLoop _ _ _ => 2
  | .importAsName => 1
  | .dottedAsName => 2
  | .importAsNames => 2
  | .importAsNamesLoop _ _ _ => 0
  | .dottedAsNames => 3
  | .dottedAsNamesLoop _ _ _ => 0
  | .dottedName => 1
  | .dottedNameLoop _ _ _ => 0
  | .globalStmt => 0
  | .globalLoop _ _ _ _ => 0
  | .nonlocalStmt => 0
  | .nonlocalLoop _ _ _ _ => 0
  | .assertStmt => 0
  | .compoundStmt => 5
  | .asyncStmt => 0
  | .ifStmt => 0
  | .ifLoop _ _ _ _ _ _ => 3
  | .elifStmt => 0
  | .elseStmt => 0
  | .whileStmt => 0
  | .forStmt => 0
  | .tryStmt => 3
  | .tryLoop _ _ _ _ _ => 3
  | .finallyStmt => 0
  | .withStmt => 0
  | .withParenLoop _ _ _ _ _ => 0
  | .withLoop _ _ _ _ => 0
  | .withItem => 18
  | .exceptStmt => 2
  | .exceptClause => 1
  | .suite => 25
  | .suiteLoop _ _ _ _ => 31
  | .evalInput => 0
  | .evalLoop _ _ _ => 0
  | .fileInput => 0
  | .fileLoop _ _ _ => 31
  | .singleInput => 0
  | .funcTypeInput => 0
  | .funcTypeLoop _ _ _ => 0
  | .decorator => 1
  | .decorators => 2
  | .decoratorsLoop _ _ => 3
  | .decorated => 3
  | .asyncFuncDef => 0
  | .funcDef => 0
  | .parameters => 0
  | .typedArgsList => 0
  | .tfpDefAssign => 2
  | .tfpDef => 1
  | .funcBodySuite => 25
  | .funcBodyLoop _ _ _ _ _ _ => 31
  | .classDef => 0
  | .funcType => 0
  | .typeList => 18
  | .typeListMainLoop _ _ => 0
  | .typeListStarLoop _ _ => 0
  | .patternsMatch => 0

def Fn.weight (f : Fn) (c : PSt) : Nat := 100 * c.left + f.rank

/-- The one call that does not get closer to the end: `import_stmt` at `import`. -/
def Stuck (f : Fn) (c : PSt) : Prop := f = .importStmt ∧ ∃ u, c.symbol = .ok u ∧ u.kind = .PyImport

/-- `TWP src B p c Q`: every call in the body `p`, started in the state `c`, weighs less than `B` or is `Stuck`, and if the body succeeds,
`Q` holds. -/
def TWP {α : Type} (src : List Char) (B : Nat) : Prog α → PSt → (α → PSt → Prop) → Prop
  | .ret a, c, Q => Q a c
  | .fail .., _, _ => True
  | .panic, _, _ => True
  | .getPos k, c, Q => ∀ p, TWP src B (k p) c Q
  | .sym k e, c, Q => (∀ t, c.symbol = .ok t → TWP src B (k t) c Q) ∧ (∀ x, c.symbol = .error x → TWP src B e c Q)
  | .adv k, c, Q => ∃ t, c.symbol = .ok t ∧ ∀ d, Good src d → d.left ≤ c.left → (t.kind ≠ .EOF → d.left < c.left) →
      TWP src B k d Q
  | .call f k, c, Q => ((f.input = false ∧ f.weight c < B) ∨ Stuck f c) ∧ ∀ t d, Good src d → d.left + f.step ≤ c.left → TWP src B (k t) d Q
  | .getExc k, c, Q => ∀ x, TWP src B (k x) c Q
  | .setExc _ k, c, Q => ∀ d, Good src d → d.left = c.left → d.symbol = c.symbol → TWP src B k d Q

variable {α β : Type} {src : List Char} {B : Nat}

theorem twp_bind (p : Prog α) (k : α → Prog β) (c Q) :
    TWP src B (p >>= k) c Q = TWP src B p c (fun a c' => TWP src B (k a) c' Q) := by
  show TWP src B (p.bind k) c Q = _
  induction p generalizing c with
  | ret | fail | panic => rfl
  | getPos k ih | adv k ih | getExc k ih | setExc x k ih => simp only [Prog.bind, TWP, ih]
  | sym k e ih1 ih2 => simp only [Prog.bind, TWP, ih1, ih2]
  | call f k ih => simp only [Prog.bind, TWP, ih]

theorem twp_pure (a : α) (c Q) : TWP src B (pure a : Prog α) c Q = Q a c := rfl
theorem twp_ret (a : α) (c Q) : TWP src B (.ret a) c Q = Q a c := rfl
theorem twp_fail (p m c Q) : TWP src B (.fail p m : Prog α) c Q = True := rfl
theorem twp_panic (c Q) : TWP src B (.panic : Prog α) c Q = True := rfl
theorem twp_failHere (m c Q) : TWP src B (Prog.failHere m : Prog α) c Q = True := by
  simp [Prog.failHere, TWP]
theorem twp_here (c Q) : TWP src B Prog.here c Q = ∀ p, Q p c := rfl
theorem twp_next (c Q) : TWP src B Prog.next c Q =
    ∃ t, c.symbol = .ok t ∧ ∀ d, Good src d → d.left ≤ c.left → (t.kind ≠ .EOF → d.left < c.left) → Q () d := rfl
theorem twp_parse (f c Q) : TWP src B (Prog.parse f) c Q =
    (((f.input = false ∧ f.weight c < B) ∨ Stuck f c) ∧ ∀ t d, Good src d → d.left + f.step ≤ c.left → Q t d) := rfl
theorem twp_symAt (p m c Q) : TWP src B (Prog.symAt p m) c Q = ∀ t, c.symbol = .ok t → Q t c := by
  simp [Prog.symAt, TWP]
theorem twp_symHere (m c Q) : TWP src B (Prog.symHere m) c Q = ∀ t, c.symbol = .ok t → Q t c := by
  simp [Prog.symHere, Prog.failHere, TWP]
theorem twp_sym? (c Q) : TWP src B Prog.sym? c Q =
    ((∀ t, c.symbol = .ok t → Q (some t) c) ∧ ∀ x, c.symbol = .error x → Q none c) := by
  simp [Prog.sym?, TWP]
theorem twp_mk (tag s l c Q) : TWP src B (Prog.mk tag s l) c Q = ∀ p, Q (.node tag s p l) c := rfl
theorem twp_getExc (k : ExcStatus → Prog α) (c Q) : TWP src B (.getExc k) c Q = ∀ x, TWP src B (k x) c Q := rfl
theorem twp_setExc (x) (k : Prog α) (c Q) : TWP src B (.setExc x k) c Q =
    ∀ d, Good src d → d.left = c.left → d.symbol = c.symbol → TWP src B k d Q := rfl
theorem twp_ite (b : Prop) [Decidable b] (p q : Prog α) (c Q) :
    TWP src B (if b then p else q) c Q = ((b → TWP src B p c Q) ∧ (¬ b → TWP src B q c Q)) := by
  by_cases h : b <;> simp [h]

/-- The facts that the logic gives about states. -/
theorem left_setExc (c : PSt) (x) : ({ c with exc := x } : PSt).left = c.left := rfl

/-- What a successful run of a body does, if the calls in it do what the logic says. -/
theorem twp_sound {rec : Fn → PSt → Res Tree}
    (hrec : ∀ f c t d, f.input = false → Good src c → rec f c = .ok t d → Good src d ∧ d.left + f.step ≤ c.left)
    (p : Prog α) (c : PSt) (hc : Good src c) (Q : α → PSt → Prop) (h : TWP src B p c Q) (a : α) (c' : PSt)
    (hr : p.exec rec c = .ok a c') : Good src c' ∧ Q a c' := by
  induction p generalizing c with
  | ret a => simp only [Prog.exec, Res.ok.injEq] at hr; obtain ⟨rfl, rfl⟩ := hr; exact ⟨hc, h⟩
  | fail => simp [Prog.exec] at hr
  | panic => simp [Prog.exec] at hr
  | getPos k ih => exact ih _ _ hc (h _) hr
  | sym k e ih1 ih2 =>
    simp only [Prog.exec] at hr
    cases hs : c.symbol with
    | ok t => rw [hs] at hr; exact ih1 _ _ hc (h.1 t hs) hr
    | error x => rw [hs] at hr; exact ih2 _ hc (h.2 x hs) hr
  | adv k ih =>
    obtain ⟨t, ht, h⟩ := h
    exact ih _ hc.advance (h _ hc.advance (hc.advance_le ht) (advance_left hc.inv t ht)) hr
  | call f k ih =>
    simp only [Prog.exec] at hr
    cases hf : rec f c with
    | ok t c1 =>
      rw [hf] at hr
      have hi : f.input = false := by
        rcases h.1 with h | ⟨rfl, -⟩
        · exact h.1
        · rfl
      obtain ⟨h1, h2⟩ := hrec _ _ _ _ hi hc hf
      exact ih _ _ h1 (h.2 t c1 h1 h2) hr
    | err => rw [hf] at hr; simp at hr
    | panic => rw [hf] at hr; simp at hr
    | diverge => rw [hf] at hr; simp at hr
  | getExc k ih => exact ih _ _ hc (h _) hr
  | setExc x k ih => exact ih _ (hc.exc x) (h _ (hc.exc x) rfl rfl) hr

/-- A body whose calls all terminate terminates; otherwise there is a call that does not. -/
theorem twp_ends
    (hrun : ∀ n f c t d, f.input = false → Good src c → run n f c = .ok t d → Good src d ∧ d.left + f.step ≤ c.left)
    (hend : ∀ f c, f.input = false → Good src c → f.weight c < B → (∃ n, run n f c ≠ .diverge) ∨ ∃ d, Calls f c .importStmt d ∧ Stuck .importStmt d)
    (p : Prog α) (c : PSt) (hc : Good src c) (Q : α → PSt → Prop) (h : TWP src B p c Q) :
    (∃ n, p.exec (run n) c ≠ .diverge) ∨ ∃ g d e, Makes p c g d ∧ Calls g d .importStmt e ∧ Stuck .importStmt e := by
  induction p generalizing c with
  | ret a => exact .inl ⟨0, by simp [Prog.exec]⟩
  | fail | panic => exact .inl ⟨0, by simp [Prog.exec]⟩
  | getPos k ih =>
    rcases ih _ _ hc (h _) with ⟨n, h⟩ | ⟨g, d, e, h, h'⟩
    · exact .inl ⟨n, h⟩
    · exact .inr ⟨g, d, e, .getPos h, h'⟩
  | sym k e ih1 ih2 =>
    cases hs : c.symbol with
    | ok t =>
      rcases ih1 _ _ hc (h.1 t hs) with ⟨n, h⟩ | ⟨g, d, e, h, h'⟩
      · exact .inl ⟨n, by simpa only [Prog.exec, hs] using h⟩
      · exact .inr ⟨g, d, e, .sym hs h, h'⟩
    | error x =>
      rcases ih2 _ hc (h.2 x hs) with ⟨n, h⟩ | ⟨g, d, e, h, h'⟩
      · exact .inl ⟨n, by simpa only [Prog.exec, hs] using h⟩
      · exact .inr ⟨g, d, e, .noSym hs h, h'⟩
  | adv k ih =>
    obtain ⟨t, ht, h⟩ := h
    rcases ih _ hc.advance (h _ hc.advance (hc.advance_le ht) (advance_left hc.inv t ht)) with ⟨n, h⟩ | ⟨g, d, e, h, h'⟩
    · exact .inl ⟨n, h⟩
    · exact .inr ⟨g, d, e, .adv h, h'⟩
  | call f k ih =>
    rcases h.1 with hw | hw
    · rcases hend f c hw.1 hc hw.2 with ⟨n, hn⟩ | ⟨d, h1, h2⟩
      · cases hf : run n f c with
        | ok t c1 =>
          obtain ⟨h1, h2⟩ := hrun _ _ _ _ _ hw.1 hc hf
          rcases ih _ _ h1 (h.2 t c1 h1 h2) with ⟨m, hm⟩ | ⟨g, d, e, h, h'⟩
          · refine .inl ⟨max n m, ?_⟩
            have e1 : run (max n m) f c = .ok t c1 := run_ok_mono hf (Nat.le_max_left _ _)
            simp only [Prog.exec, e1]
            rw [exec_mono (r := run m) (fun f c hd => run_mono hd _ (Nat.le_max_right _ _)) _ _ hm]
            exact hm
          · exact .inr ⟨g, d, e, .later hf h, h'⟩
        | err => exact .inl ⟨n, by simp [Prog.exec, hf]⟩
        | panic => exact .inl ⟨n, by simp [Prog.exec, hf]⟩
        | diverge => exact absurd hf hn
      · exact .inr ⟨f, c, d, .here, h1, h2⟩
    · exact .inr ⟨f, c, c, .here, by rw [hw.1]; exact .self, rfl, hw.2⟩
  | getExc k ih =>
    rcases ih _ _ hc (h _) with ⟨n, h⟩ | ⟨g, d, e, h, h'⟩
    · exact .inl ⟨n, h⟩
    · exact .inr ⟨g, d, e, .getExc h, h'⟩
  | setExc x k ih =>
    rcases ih _ (hc.exc x) (h _ (hc.exc x) rfl rfl) with ⟨n, h⟩ | ⟨g, d, e, h, h'⟩
    · exact .inl ⟨n, h⟩
    · exact .inr ⟨g, d, e, .setExc h, h'⟩

/-- A function at a time: the body of `f` obeys the logic. -/
def TOk (src : List Char) (f : Fn) : Prop :=
  ∀ c, Good src c → TWP src (f.weight c) (body f) c (fun _ d => d.left + f.step ≤ c.left)

theorem tok_run (h : ∀ f, f.input = false → TOk src f) (n f c t d) (hf : f.input = false) (hc : Good src c)
    (hr : run n f c = .ok t d) : Good src d ∧ d.left + f.step ≤ c.left := by
  induction n generalizing f c t d with
  | zero => simp [run] at hr
  | succ n ih => exact twp_sound (fun f c t d hf hc hr => ih f c t d hf hc hr) (body f) c hc _ (h f hf c hc) t d hr

theorem tok_ends (h : ∀ f, f.input = false → TOk src f) (f c) (hf : f.input = false) (hc : Good src c) :
    (∃ n, run n f c ≠ .diverge) ∨ ∃ d, Calls f c .importStmt d ∧ Stuck .importStmt d := by
  suffices hN : ∀ N f c, f.input = false → Good src c → f.weight c < N →
      (∃ n, run n f c ≠ .diverge) ∨ ∃ d, Calls f c .importStmt d ∧ Stuck .importStmt d from
    hN _ f c hf hc (Nat.lt_succ_self _)
  intro N
  induction N with
  | zero => intro f c _ _ hw; omega
  | succ N ih =>
    intro f c hf hc hw
    rcases twp_ends (tok_run h) (fun g d hg hd hw' => ih g d hg hd (by omega)) (body f) c hc _ (h f hf c hc) with
      ⟨n, hn⟩ | ⟨g, d, e, h1, h2, h3⟩
    · exact .inl ⟨n + 1, hn⟩
    · exact .inr ⟨e, .step h1 h2, h3⟩

end
end Verif
