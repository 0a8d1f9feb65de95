import Verif.Proof.ExactSoundStmt2

/-!
# What the parse functions consume is in the exact grammar: `try`, `with`, definitions, entry points
-/

namespace Verif
open Prog XR
set_option linter.unusedVariables false
set_option linter.unusedSectionVars false
set_option linter.unusedSimpArgs false

section
variable [Uni]

attribute [local irreducible] XG XPeek XE XL XT StrOk NoCont SymIn WP PSt.advance LoopX ExprEnd ExprItem SubEnd SubItem Halts

theorem xs_exceptStar (s c) : WP ΦEx (exceptStar s) c (fun _ c' =>
    ∃ ts, Consumed c ts c' ∧ XDer pRule (mark .plain ∥ k .PyMul ⬝ mark .starred) c.exc ts c'.exc) := by
  unfold exceptStar
  xe_simp
  intro t ht
  refine ⟨fun hk => ?_, fun _ => ?_⟩
  · cases he : c.exc <;> xe_simp [he]
    · exact ⟨[t], .step ht (Consumed.done rfl rfl), .right (.seq (ts := [t]) (.k hk) (.mark rfl))⟩
    · exact ⟨[t], .step ht (Consumed.done rfl rfl), .right (.seq (ts := [t]) (.k hk) (.mark rfl))⟩
  · cases he : c.exc <;> xe_simp [he]
    · exact ⟨[], Consumed.done rfl rfl, .left (.mark rfl)⟩
    · exact ⟨[], Consumed.done rfl rfl, .left (.mark rfl)⟩

theorem xs_exceptClause (c) : WP ΦEx exceptClauseBody c (ΦEx .exceptClause c) := by
  unfold exceptClauseBody
  xe_simp
  intro t ht hk
  refine wp_mono _ (fun mul c1 ⟨ts, u, v⟩ => ?_) (xs_exceptStar _ _)
  rw [advance_exc_eq] at v
  xe_auto

theorem xs_tryStmt (c) : WP ΦEx tryStmtBody c (ΦEx .tryStmt c) := by
  unfold tryStmtBody
  xe_simp
  intro t ht hk t2 ht2 hk2 x c1 ts u v t3 ht3
  have hm : Mark.act .newTry c.exc = some .exceptNone := rfl
  have key : ∀ {us : List Token} {y}, XDer pRule (plus (n .except_part) ⬝ opt (n .else_part) ⬝ opt (n .finally_part) ∥ n .finally_part) c1.exc us y →
      XDer pRule (n .try_stmt) c.exc ([t] ++ ([] ++ ([t2] ++ (ts ++ us)))) y := fun h =>
    .n (.seq (.k hk) (.seq (.mark hm) (.seq (.k hk2) (.seq v h))))
  refine ⟨fun _ y c2 us w z => ?_, fun _ y c2 us w z y' c3 vs w' z' => ?_⟩
  · exact XG.mk (.step ht (.step ht2 (u.trans w))) (XDK.of1 (key (.right z)))
  · exact XG.mk (.step ht (.step ht2 (u.trans (w.trans w')))) (XDK.of1 (key (.left (XDer.loopDedent z z'))))

/-! ### `with` -/

theorem xs_withParenLoop (s t lp ns ss c) :
    WP ΦEx (withParenLoopBody s t lp ns ss) c (ΦEx (.withParenLoop s t lp ns ss) c) := by
  unfold withParenLoopBody withParenEnd withRest
  xe_simp
  intro t5 ht5
  refine ⟨fun hk t6 ht6 => ⟨fun _ => ?_, fun _ x c1 ts u v y c2 us w z => ?_⟩, fun _ => ?_⟩
  · xe_auto
  · cases z with
    | seq z1 z2 =>
      have := XDer.seq (XDer.round (.seq (ts := [t5]) (.k hk) v) z1) z2
      rw [List.append_assoc] at this
      exact XG.mk (.step ht5 (u.trans w)) (XDK.of1 this)
  · xe_auto

theorem xs_withLoop (s t ns ss c) : WP ΦEx (withLoopBody s t ns ss) c (ΦEx (.withLoop s t ns ss) c) := by
  unfold withLoopBody withRest
  xe_simp
  intro t5 ht5
  refine ⟨fun hk x c1 ts u v y c2 us w z => ?_, ?_⟩
  · exact XG.mk (.step ht5 (u.trans w)) (XDK.of1 (XDer.round (.seq (ts := [t5]) (.k hk) v) z))
  · xe_auto

theorem xs_withStmt (c) : WP ΦEx withStmtBody c (ΦEx .withStmt c) := by
  unfold withStmtBody
  xe_simp
  intro t ht hk t3 ht3
  refine ⟨fun hk3 x c1 ts u v y c2 us w z => ?_, fun hk3 x c1 ts u v y c2 us w z => ?_⟩
  · cases z with
    | @seq _ _ _ as _ bs _ z1 z2 =>
      cases z2 with
      | @seq _ _ _ ds _ es _ z2 z3 =>
        have h : XDer pRule (X.listTr (n .with_item)) c.exc (ts ++ as) _ := .seq v z1
        have := XDK.of1 (XDer.n (rule := pRule) (p := .with_stmt) (.seq (.k hk) (.seq (.left (.seq (.k hk3) (.seq h z2))) z3)))
        exact XG.mk (.step ht (.step ht3 (u.trans w))) (by simpa using this)
  · cases z with
    | @seq _ _ _ as _ bs _ z1 z2 =>
      have h : XDer pRule (X.list (n .with_item)) c.exc (ts ++ as) _ := .seq v z1
      have hp : X.notParen (ts ++ as) = true := by
        have hw := u.trans w
        rw [← List.append_assoc] at hw
        cases he : ts ++ as with
        | nil => rfl
        | cons a l =>
          rw [he] at hw
          have := hw.head
          rw [ht3] at this; cases this
          simpa [X.notParen] using hk3
      have := XDK.of1 (XDer.n (rule := pRule) (p := .with_stmt) (.seq (.k hk) (.seq (.right (.only h hp)) z2)))
      exact XG.mk (.step ht (u.trans w)) (by simpa using this)

/-! ### Function types -/

theorem xs_typeListPower (s v t c) (ht : c.symbol = .ok t) (hk : t.kind = .PyPower) :
    WP ΦEx (typeListPower s v t) c (fun _ c' => XG (k .PyPower ⬝ n .test) c c') := by
  unfold typeListPower typeListResult; xe_simp; xe_auto

theorem xs_typeListMul (s v t c) (ht : c.symbol = .ok t) (hk : t.kind = .PyMul) :
    WP ΦEx (typeListMul s v t) c (fun _ c' => XG (k .PyMul ⬝ n .test ⬝ star (X.comma ⬝ n .test) ⬝ opt (X.comma ⬝ X.typeKw)) c c') := by
  unfold typeListMul; xe_simp; xe_auto

theorem xs_typeListStarLoop (s v c) : WP ΦEx (typeListStarLoopBody s v) c (ΦEx (.typeListStarLoop s v) c) := by
  unfold typeListStarLoopBody typeListResult
  xe_simp
  intro t ht
  refine ⟨fun hk t2 ht2 => ⟨fun hk2 => ?_, fun _ x c1 ts u w _ _ y c2 us u' w' => ?_⟩, fun _ => ?_⟩
  · refine wp_mono _ (fun y c2 hy => ?_) (xs_typeListPower _ _ _ _ ht2 hk2)
    obtain ⟨us, u', w'⟩ := hy.elim
    try rw [advance_exc_eq] at w'
    xe_close
  · exact XG.mk (.step ht (u.trans u')) (XDK.of1 (XDer.round (.seq (ts := [t]) (.k hk) w) w'))
  · xe_close

theorem xs_typeListMainLoop (s v c) : WP ΦEx (typeListMainLoopBody s v) c (ΦEx (.typeListMainLoop s v) c) := by
  unfold typeListMainLoopBody typeListResult
  xe_simp
  intro t ht
  refine ⟨fun hk t2 ht2 => ⟨fun hk2 => ?_, fun _ => ⟨fun hk2 => ?_, fun _ x c1 ts u w _ _ y c2 us u' w' => ?_⟩⟩, fun _ => ?_⟩
  · refine wp_mono _ (fun y c2 hy => ?_) (xs_typeListMul _ _ _ _ ht2 hk2)
    obtain ⟨us, u', w'⟩ := hy.elim
    try rw [advance_exc_eq] at w'
    exact XG.mk (.step ht u') (XDK.of1 (.seq (ts := []) .stop (.present (.seq (ts := [t]) (.k hk) (.left w')))))
  · refine wp_mono _ (fun y c2 hy => ?_) (xs_typeListPower _ _ _ _ ht2 hk2)
    obtain ⟨us, u', w'⟩ := hy.elim
    try rw [advance_exc_eq] at w'
    exact XG.mk (.step ht u') (XDK.of1 (.seq (ts := []) .stop (.present (.seq (ts := [t]) (.k hk) (.right w')))))
  · exact XG.mk (.step ht (u.trans u')) (XDK.of1 (XDer.round (.seq (ts := [t]) (.k hk) w) w'))
  · xe_close

theorem xs_typeList (c) : WP ΦEx typeListBody c (ΦEx .typeList c) := by
  unfold typeListBody
  xe_simp
  intro t ht
  refine ⟨fun hk => ?_, fun _ => ⟨fun hk => ?_, fun _ x c1 ts u w _ _ y c2 us u' w' => ?_⟩⟩
  · refine wp_mono _ (fun y c2 hy => ?_) (xs_typeListMul _ _ _ _ ht hk)
    obtain ⟨us, u', w'⟩ := hy.elim
    try rw [advance_exc_eq] at w'
    exact XG.mk u' (XDK.of1 (.n (.right (.left w'))))
  · refine wp_mono _ (fun y c2 hy => ?_) (xs_typeListPower _ _ _ _ ht hk)
    obtain ⟨us, u', w'⟩ := hy.elim
    try rw [advance_exc_eq] at w'
    exact XG.mk u' (XDK.of1 (.n (.right (.right w'))))
  · exact XG.mk (u.trans u') (XDK.of1 (.n (.left (.seq w w'))))

/-! ### Entry points -/

theorem XPeek.intro {r c c' ts u} (h1 : Consumed c ts c') (h2 : c'.symbol = .ok u) (h3 : XDer pRule r c.exc (ts ++ [u]) c'.exc) :
    XPeek r c c' := by
  with_unfolding_all exact ⟨ts, u, h1, h2, h3⟩
theorem XPeek.elim {r c c'} (h : XPeek r c c') :
    ∃ ts u, Consumed c ts c' ∧ c'.symbol = .ok u ∧ XDer pRule r c.exc (ts ++ [u]) c'.exc := by
  with_unfolding_all exact h

theorem xs_peekStep {x y : XR} {c c1 c' : PSt} {ts} (h1 : Consumed c ts c1) (h2 : XDer pRule x c.exc ts c1.exc)
    (h3 : XPeek (star x ⬝ y) c1 c') : XPeek (star x ⬝ y) c c' := by
  obtain ⟨us, u, a, b, d⟩ := h3.elim
  exact .intro (h1.trans a) b (by rw [List.append_assoc]; exact XDer.round h2 d)
theorem xs_peekOf {x y : XR} {N : PN} {c c1 c' : PSt} {ts} (h1 : Consumed c ts c1) (h2 : XDer pRule x c.exc ts c1.exc)
    (h3 : XPeek y c1 c') (hN : pRule N = (x ⬝ y)) : XPeek (n N) c c' := by
  obtain ⟨us, u, a, b, d⟩ := h3.elim
  exact .intro (h1.trans a) b (.n (by rw [hN, List.append_assoc]; exact .seq h2 d))
theorem xs_peekEnd {x y : XR} {c : PSt} {t} (h1 : c.symbol = .ok t) (h2 : XDer pRule y c.exc [t] c.exc) : XPeek (star x ⬝ y) c c :=
  .intro (.refl _) h1 (.seq (ts := []) .stop h2)

theorem xs_k {t : Token} {K} {c : PSt} (hk : t.kind = K) : XDer pRule (k K) c.exc [t] c.advance.exc := by
  rw [advance_exc_eq]; exact .k hk

theorem xs_evalLoop (s r ss c) : WP ΦEx (evalLoopBody s r ss) c (ΦEx (.evalLoop s r ss) c) := by
  unfold evalLoopBody
  xe_simp
  intro t ht
  refine ⟨fun hk y c2 hy => ?_, fun _ hk => ?_⟩
  · exact xs_peekStep (.step ht (.refl _)) (xs_k hk) hy
  · exact xs_peekEnd ht (.k hk)
theorem xs_funcTypeLoop (s r ss c) : WP ΦEx (funcTypeLoopBody s r ss) c (ΦEx (.funcTypeLoop s r ss) c) := by
  unfold funcTypeLoopBody
  xe_simp
  intro t ht
  refine ⟨fun hk y c2 hy => ?_, fun _ hk => ?_⟩
  · exact xs_peekStep (.step ht (.refl _)) (xs_k hk) hy
  · exact xs_peekEnd ht (.k hk)
theorem xs_fileLoop (s ns ss c) : WP ΦEx (fileLoopBody s ns ss) c (ΦEx (.fileLoop s ns ss) c) := by
  unfold fileLoopBody
  xe_simp
  intro t ht
  refine ⟨fun hk => ?_, fun _ => ⟨fun hk y c2 hy => ?_, fun _ x c1 ts u v y c2 hy => ?_⟩⟩
  · exact xs_peekEnd ht (.k hk)
  · exact xs_peekStep (.step ht (.refl _)) (.left (xs_k hk)) hy
  · exact xs_peekStep u (.right v) hy
theorem xs_evalInput (c) : WP ΦEx evalInputBody c (ΦEx .evalInput c) := by
  unfold evalInputBody
  xe_simp
  refine fun x c1 => ⟨fun ts u v y c2 hy => ?_, fun ts u v _ y c2 hy => ?_⟩
  · exact xs_peekOf u (by rw [advance_exc_eq]; exact v.testlist_tr) hy rfl
  · exact xs_peekOf u (by rw [advance_exc_eq]; exact v) hy rfl
theorem xs_funcTypeInput (c) : WP ΦEx funcTypeInputBody c (ΦEx .funcTypeInput c) := by
  unfold funcTypeInputBody
  xe_simp
  intro x c1 ts u v y c2 hy
  exact xs_peekOf u (by rw [advance_exc_eq]; exact v) hy rfl
theorem xs_fileInput (c) : WP ΦEx fileInputBody c (ΦEx .fileInput c) := by
  unfold fileInputBody
  xe_simp
  intro y c2 hy
  obtain ⟨us, u, a, b, d⟩ := hy.elim
  exact .intro a b (.n d)
theorem xs_notMatch {c : PSt} {ts c' t} (h : Consumed c ts c') (ht : c.symbol = .ok t) (hm : t.isMatchName = false) :
    X.notMatch ts = true := by
  cases ts with
  | nil => rfl
  | cons a l =>
    have := h.head
    rw [ht] at this; cases this
    cases t <;> first
      | rfl
      | simpa [X.notMatch, Token.isMatchName] using hm

theorem xs_singleInput (c) : WP ΦEx singleInputBody c (ΦEx .singleInput c) := by
  unfold singleInputBody singleNewline
  xe_simp
  intro t ht
  refine ⟨fun hk => .inl ?_, fun _ => ⟨fun hk x c1 ts u v t2 ht2 hk2 => .inr ?_, fun _ hm x c1 ts u v => .inl ?_⟩⟩
  · exact XG.mk (.step ht (.refl _)) (XDK.of1 (.n (.left (xs_k hk))))
  · exact .intro u ht2 (.n (.right (.right (.seq (by rw [advance_exc_eq]; exact v) (.k hk2)))))
  · refine XG.mk u (XDK.of1 (.n (.right (.left (.only ?_ (xs_notMatch u ht (by simpa using hm)))))))
    rw [advance_exc_eq]; exact v

theorem xs_stmt (c) : WP ΦEx stmtBody c (ΦEx .stmt c) := by
  unfold stmtBody; xe_simp
  intro t ht
  refine ⟨fun hk x c1 ts u v => ?_, fun _ hm x c1 ts u v => ?_⟩
  · exact XG.mk u (XDK.of1 (.n (.right v)))
  · exact XG.mk u (XDK.of1 (.n (.left (.only v (xs_notMatch u ht (by simpa using hm))))))

theorem xs_decorator (c) : WP ΦEx decoratorBody c (ΦEx .decorator c) := by
  unfold decoratorBody decoratorEnd
  xe_simp
  wp_paths <;> exact SymIn.of (by assumption) (by assumption) (by decide)

theorem xs_decoratorsLoop (s ns c) : WP ΦEx (decoratorsLoopBody s ns) c (ΦEx (.decoratorsLoop s ns) c) := by
  unfold decoratorsLoopBody
  xe_simp
  intro t ht hk x c1 hx y c2 hy hn
  exact (hn.no ht hk (by decide)).elim

theorem xs_decorators (c) : WP ΦEx decoratorsBody c (ΦEx .decorators c) := by
  unfold decoratorsBody
  xe_simp
  intro x c1 hn y c2 hy
  rw [hy hn]; exact hn

theorem xs_decorated (c) : WP ΦEx decoratedBody c (ΦEx .decorated c) := by
  unfold decoratedBody
  xe_simp
  intro t ht hk x c1 hx t2 ht2
  refine ⟨fun h => ?_, fun _ => ⟨fun h => ?_, fun _ h => ?_⟩⟩ <;> exact (hx.no ht2 h (by decide)).elim

theorem xs_asyncStmt (c) : WP ΦEx asyncStmtBody c (ΦEx .asyncStmt c) := by
  unfold asyncStmtBody
  xe_simp
  intro t ht hk t2 ht2
  refine ⟨fun hk2 x c1 ts u v w => ?_, fun _ => ?_⟩
  · exact (w.no ht2 hk2 (by decide)).elim
  · xe_auto

theorem xs_compoundStmt (c) : WP ΦEx compoundStmtBody c (ΦEx .compoundStmt c) := by
  unfold compoundStmtBody
  xe_simp
  xe_auto

theorem xs_classDef (c) : WP ΦEx classDefBody c (ΦEx .classDef c) := by
  unfold classDefBody classRest
  xe_simp
  intro t ht hk
  wp_paths
  all_goals first
    | exact SymIn.of ht hk (by decide)
    | xe_close

theorem xs_parameters (c) : WP ΦEx parametersBody c (ΦEx .parameters c) := by
  unfold parametersBody
  xe_simp
  intro t ht hk t2 ht2
  refine ⟨fun hk2 t3 ht3 hk3 => ?_, fun hk2 x c1 h t3 ht3 hk3 => ?_⟩
  · xe_close
  · subst h; rw [ht2] at ht3; cases ht3; exact absurd hk3 hk2

theorem xs_patternsMatch (c) : WP ΦEx patternsMatchBody c (ΦEx .patternsMatch c) := by
  unfold patternsMatchBody; xe_simp
theorem xs_typedArgsList (c) : WP ΦEx typedArgsListBody c (ΦEx .typedArgsList c) := by
  unfold typedArgsListBody; xe_simp

theorem xs_body (f c) : WP ΦEx (body f) c (ΦEx f c) := by
  cases f with
  | atom => exact xs_atom c
  | atomStrLoop a0 a1 => exact xs_atomStrLoop a0 a1 c
  | atomExpr => exact xs_atomExpr c
  | trailerLoop a0 a1 a2 a3 => exact xs_trailerLoop a0 a1 a2 a3 c
  | power => exact xs_power c
  | factor => exact xs_factor c
  | term => exact xs_term c
  | termLoop a0 a1 => exact xs_termLoop a0 a1 c
  | arith => exact xs_arith c
  | arithLoop a0 a1 => exact xs_arithLoop a0 a1 c
  | shift => exact xs_shift c
  | shiftLoop a0 a1 => exact xs_shiftLoop a0 a1 c
  | andExpr => exact xs_andExpr c
  | andExprLoop a0 a1 => exact xs_andExprLoop a0 a1 c
  | xorExpr => exact xs_xorExpr c
  | xorExprLoop a0 a1 => exact xs_xorExprLoop a0 a1 c
  | expr => exact xs_expr c
  | exprLoop a0 a1 => exact xs_exprLoop a0 a1 c
  | starExpr => exact xs_starExpr c
  | comparison => exact xs_comparison c
  | comparisonLoop a0 a1 => exact xs_comparisonLoop a0 a1 c
  | notTest => exact xs_notTest c
  | andTest => exact xs_andTest c
  | andTestLoop a0 a1 => exact xs_andTestLoop a0 a1 c
  | orTest => exact xs_orTest c
  | orTestLoop a0 a1 => exact xs_orTestLoop a0 a1 c
  | lambdaDef a0 => exact xs_lambdaDef a0 c
  | noCondTest => exact xs_noCondTest c
  | test => exact xs_test c
  | namedExpression => exact xs_namedExpression c
  | testlistComp => exact xs_testlistComp c
  | testlistCompLoop a0 a1 a2 => exact xs_testlistCompLoop a0 a1 a2 c
  | trailer => exact xs_trailer c
  | subscriptList => exact xs_subscriptList c
  | subscriptListLoop a0 a1 a2 => exact xs_subscriptListLoop a0 a1 a2 c
  | subscript => exact xs_subscript c
  | exprlist => exact xs_exprlist c
  | exprlistLoop a0 a1 a2 => exact xs_exprlistLoop a0 a1 a2 c
  | testlist => exact xs_testlist c
  | testlistLoop a0 a1 a2 => exact xs_testlistLoop a0 a1 a2 c
  | dictorsetMaker => exact xs_dictorsetMaker c
  | setLoop a0 a1 a2 => exact xs_setLoop a0 a1 a2 c
  | arglist => exact wp_any _ fun _ _ => trivial
  | arglistLoop a0 a1 a2 => exact wp_any _ fun _ _ => trivial
  | argument => exact wp_any _ fun _ _ => trivial
  | compIter => exact xs_compIter c
  | syncCompFor => exact xs_syncCompFor c
  | compFor => exact xs_compFor c
  | compIf => exact xs_compIf c
  | yieldExpr => exact xs_yieldExpr c
  | testlistStarExpr => exact xs_testlistStarExpr c
  | testlistStarExprLoop a0 a1 a2 => exact xs_testlistStarExprLoop a0 a1 a2 c
  | varArgsList => exact xs_varArgsList c
  | varArgsMainLoop a0 a1 => exact xs_varArgsMainLoop a0 a1 c
  | varArgsStarLoop a0 a1 => exact xs_varArgsStarLoop a0 a1 c
  | varArgsDivLoop a0 a1 => exact xs_varArgsDivLoop a0 a1 c
  | varArgsAssignments => exact xs_varArgsAssignments c
  | vfpDef => exact xs_vfpDef c
  | stmt => exact xs_stmt c
  | simpleStmt => exact xs_simpleStmt c
  | simpleStmtLoop a0 a1 a2 => exact xs_simpleStmtLoop a0 a1 a2 c
  | smallStmt => exact xs_smallStmt c
  | exprStmt => exact xs_exprStmt c
  | assignLoop a0 a1 a2 => exact xs_assignLoop a0 a1 a2 c
  | annAssign a0 a1 => exact xs_annAssign a0 a1 c
  | delStmt => exact xs_delStmt c
  | passStmt => exact xs_passStmt c
  | flowStmt => exact xs_flowStmt c
  | breakStmt => exact xs_breakStmt c
  | continueStmt => exact xs_continueStmt c
  | returnStmt => exact xs_returnStmt c
  | yieldStmt => exact xs_yieldStmt c
  | raiseStmt => exact xs_raiseStmt c
  | importStmt => exact xs_importStmt c
  | importName => exact wp_any _ fun _ _ => trivial
  | importFrom => exact xs_importFrom c
  | importDotLoop a0 a1 a2 => exact xs_importDotLoop a0 a1 a2 c
  | importAsName => exact xs_importAsName c
  | dottedAsName => exact wp_any _ fun _ _ => trivial
  | importAsNames => exact xs_importAsNames c
  | importAsNamesLoop a0 a1 a2 => exact xs_importAsNamesLoop a0 a1 a2 c
  | dottedAsNames => exact wp_any _ fun _ _ => trivial
  | dottedAsNamesLoop a0 a1 a2 => exact wp_any _ fun _ _ => trivial
  | dottedName => exact xs_dottedName c
  | dottedNameLoop a0 a1 a2 => exact xs_dottedNameLoop a0 a1 a2 c
  | globalStmt => exact xs_globalStmt c
  | globalLoop a0 a1 a2 a3 => exact xs_globalLoop a0 a1 a2 a3 c
  | nonlocalStmt => exact xs_nonlocalStmt c
  | nonlocalLoop a0 a1 a2 a3 => exact xs_nonlocalLoop a0 a1 a2 a3 c
  | assertStmt => exact xs_assertStmt c
  | compoundStmt => exact xs_compoundStmt c
  | asyncStmt => exact xs_asyncStmt c
  | ifStmt => exact xs_ifStmt c
  | ifLoop a0 a1 a2 a3 a4 a5 => exact xs_ifLoop a0 a1 a2 a3 a4 a5 c
  | elifStmt => exact xs_elifStmt c
  | elseStmt => exact xs_elseStmt c
  | whileStmt => exact xs_whileStmt c
  | forStmt => exact xs_forStmt c
  | tryStmt => exact xs_tryStmt c
  | tryLoop a0 a1 a2 a3 a4 => exact xs_tryLoop a0 a1 a2 a3 a4 c
  | finallyStmt => exact xs_finallyStmt c
  | withStmt => exact xs_withStmt c
  | withParenLoop a0 a1 a2 a3 a4 => exact xs_withParenLoop a0 a1 a2 a3 a4 c
  | withLoop a0 a1 a2 a3 => exact xs_withLoop a0 a1 a2 a3 c
  | withItem => exact xs_withItem c
  | exceptStmt => exact xs_exceptStmt c
  | exceptClause => exact xs_exceptClause c
  | suite => exact xs_suite c
  | suiteLoop a0 a1 a2 a3 => exact xs_suiteLoop a0 a1 a2 a3 c
  | evalInput => exact xs_evalInput c
  | evalLoop a0 a1 a2 => exact xs_evalLoop a0 a1 a2 c
  | fileInput => exact xs_fileInput c
  | fileLoop a0 a1 a2 => exact xs_fileLoop a0 a1 a2 c
  | singleInput => exact xs_singleInput c
  | funcTypeInput => exact xs_funcTypeInput c
  | funcTypeLoop a0 a1 a2 => exact xs_funcTypeLoop a0 a1 a2 c
  | decorator => exact xs_decorator c
  | decorators => exact xs_decorators c
  | decoratorsLoop a0 a1 => exact xs_decoratorsLoop a0 a1 c
  | decorated => exact xs_decorated c
  | asyncFuncDef => exact wp_any _ fun _ _ => trivial
  | funcDef => exact xs_funcDef c
  | parameters => exact xs_parameters c
  | typedArgsList => exact xs_typedArgsList c
  | tfpDefAssign => exact wp_any _ fun _ _ => trivial
  | tfpDef => exact wp_any _ fun _ _ => trivial
  | funcBodySuite => exact xs_funcBodySuite c
  | funcBodyLoop a0 a1 a2 a3 a4 a5 => exact xs_funcBodyLoop a0 a1 a2 a3 a4 a5 c
  | classDef => exact xs_classDef c
  | funcType => exact xs_funcType c
  | typeList => exact xs_typeList c
  | typeListMainLoop a0 a1 => exact xs_typeListMainLoop a0 a1 c
  | typeListStarLoop a0 a1 => exact xs_typeListStarLoop a0 a1 c
  | patternsMatch => exact xs_patternsMatch c

/-- What a successful run consumes is in the exact grammar. -/
theorem run_exact {n f c t c'} (h : run n f c = .ok t c') : ΦEx f c t c' := run_sound xs_body n f c t c' h

end

end Verif
