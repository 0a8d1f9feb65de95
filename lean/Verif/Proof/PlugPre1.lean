import Verif.Proof.PlugStep

/-!
# Functions that start before the number, first part
-/
set_option linter.unusedSimpArgs false
set_option linter.unusedVariables false
namespace Verif
open Prog Plug
theorem q_atom [Plug] {o}  : RelQ (.pre o) (atomBody) (atomBody) := by
  unfold atomBody; q_auto
theorem q_atomStrLoop [Plug] {o} (s s' : Nat) (toks toks' : List Token) (h0 : toks.map Token.bare = toks'.map Token.bare) : RelQ (.pre o) (atomStrLoopBody s toks) (atomStrLoopBody s' toks') := by
  unfold atomStrLoopBody; q_auto
theorem q_atomExpr [Plug] {o}  : RelQ (.pre o) (atomExprBody) (atomExprBody) := by
  unfold atomExprBody; q_auto
theorem q_trailerLoop [Plug] {o} (s s' : Nat) (await await' : Tree) (right right' : Tree) (lst lst' : List Tree) (h0 : PT await await') (h1 : PT right right') (h2 : PL lst lst') : RelQ (.pre o) (trailerLoopBody s await right lst) (trailerLoopBody s' await' right' lst') := by
  unfold trailerLoopBody; q_auto
theorem q_power [Plug] {o}  : RelQ (.pre o) (powerBody) (powerBody) := by
  unfold powerBody; q_auto
theorem q_factor [Plug] {o}  : RelQ (.pre o) (factorBody) (factorBody) := by
  unfold factorBody; q_auto
theorem q_term [Plug] {o}  : RelQ (.pre o) (termBody) (termBody) := by
  unfold termBody; q_auto
theorem q_termLoop [Plug] {o} (s s' : Nat) (left left' : Tree) (h0 : PT left left') : RelQ (.pre o) (termLoopBody s left) (termLoopBody s' left') := by
  unfold termLoopBody; exact q_left _ _ _ _ _ _ _ _ (by intro k; cases k <;> simp [termOp, arithOp, shiftOp, andExprOp, xorExprOp, exprOp, andTestOp, orTestOp]) rfl rfl (by constructor) (by intros; constructor; assumption) h0
theorem q_arith [Plug] {o}  : RelQ (.pre o) (arithBody) (arithBody) := by
  unfold arithBody; q_auto
theorem q_arithLoop [Plug] {o} (s s' : Nat) (left left' : Tree) (h0 : PT left left') : RelQ (.pre o) (arithLoopBody s left) (arithLoopBody s' left') := by
  unfold arithLoopBody; exact q_left _ _ _ _ _ _ _ _ (by intro k; cases k <;> simp [termOp, arithOp, shiftOp, andExprOp, xorExprOp, exprOp, andTestOp, orTestOp]) rfl rfl (by constructor) (by intros; constructor; assumption) h0
theorem q_shift [Plug] {o}  : RelQ (.pre o) (shiftBody) (shiftBody) := by
  unfold shiftBody; q_auto
theorem q_shiftLoop [Plug] {o} (s s' : Nat) (left left' : Tree) (h0 : PT left left') : RelQ (.pre o) (shiftLoopBody s left) (shiftLoopBody s' left') := by
  unfold shiftLoopBody; exact q_left _ _ _ _ _ _ _ _ (by intro k; cases k <;> simp [termOp, arithOp, shiftOp, andExprOp, xorExprOp, exprOp, andTestOp, orTestOp]) rfl rfl (by constructor) (by intros; constructor; assumption) h0
theorem q_andExpr [Plug] {o}  : RelQ (.pre o) (andExprBody) (andExprBody) := by
  unfold andExprBody; q_auto
theorem q_andExprLoop [Plug] {o} (s s' : Nat) (left left' : Tree) (h0 : PT left left') : RelQ (.pre o) (andExprLoopBody s left) (andExprLoopBody s' left') := by
  unfold andExprLoopBody; exact q_left _ _ _ _ _ _ _ _ (by intro k; cases k <;> simp [termOp, arithOp, shiftOp, andExprOp, xorExprOp, exprOp, andTestOp, orTestOp]) rfl rfl (by constructor) (by intros; constructor; assumption) h0
theorem q_xorExpr [Plug] {o}  : RelQ (.pre o) (xorExprBody) (xorExprBody) := by
  unfold xorExprBody; q_auto
theorem q_xorExprLoop [Plug] {o} (s s' : Nat) (left left' : Tree) (h0 : PT left left') : RelQ (.pre o) (xorExprLoopBody s left) (xorExprLoopBody s' left') := by
  unfold xorExprLoopBody; exact q_left _ _ _ _ _ _ _ _ (by intro k; cases k <;> simp [termOp, arithOp, shiftOp, andExprOp, xorExprOp, exprOp, andTestOp, orTestOp]) rfl rfl (by constructor) (by intros; constructor; assumption) h0
theorem q_expr [Plug] {o}  : RelQ (.pre o) (exprBody) (exprBody) := by
  unfold exprBody; q_auto
theorem q_exprLoop [Plug] {o} (s s' : Nat) (left left' : Tree) (h0 : PT left left') : RelQ (.pre o) (exprLoopBody s left) (exprLoopBody s' left') := by
  unfold exprLoopBody; exact q_left _ _ _ _ _ _ _ _ (by intro k; cases k <;> simp [termOp, arithOp, shiftOp, andExprOp, xorExprOp, exprOp, andTestOp, orTestOp]) rfl rfl (by constructor) (by intros; constructor; assumption) h0
theorem q_starExpr [Plug] {o}  : RelQ (.pre o) (starExprBody) (starExprBody) := by
  unfold starExprBody; q_auto
theorem q_comparison [Plug] {o}  : RelQ (.pre o) (comparisonBody) (comparisonBody) := by
  unfold comparisonBody; q_auto
theorem q_comparisonLoop [Plug] {o} (s s' : Nat) (left left' : Tree) (h0 : PT left left') : RelQ (.pre o) (comparisonLoopBody s left) (comparisonLoopBody s' left') := by
  unfold comparisonLoopBody; refine q_symAt ?_; intro t u h hne hk hm; rw [hk]
  cases hop : compOp u.kind with
  | none => q_auto
  | some tag =>
    have htag : tag ≠ .AtomNumber := fun e => compOp_ne _ (e ▸ hop)
    q_auto
theorem q_notTest [Plug] {o}  : RelQ (.pre o) (notTestBody) (notTestBody) := by
  unfold notTestBody; q_auto
theorem q_andTest [Plug] {o}  : RelQ (.pre o) (andTestBody) (andTestBody) := by
  unfold andTestBody; q_auto
theorem q_andTestLoop [Plug] {o} (s s' : Nat) (left left' : Tree) (h0 : PT left left') : RelQ (.pre o) (andTestLoopBody s left) (andTestLoopBody s' left') := by
  unfold andTestLoopBody; exact q_left _ _ _ _ _ _ _ _ (by intro k; cases k <;> simp [termOp, arithOp, shiftOp, andExprOp, xorExprOp, exprOp, andTestOp, orTestOp]) rfl rfl (by constructor) (by intros; constructor; assumption) h0
theorem q_orTest [Plug] {o}  : RelQ (.pre o) (orTestBody) (orTestBody) := by
  unfold orTestBody; q_auto
theorem q_orTestLoop [Plug] {o} (s s' : Nat) (left left' : Tree) (h0 : PT left left') : RelQ (.pre o) (orTestLoopBody s left) (orTestLoopBody s' left') := by
  unfold orTestLoopBody; exact q_left _ _ _ _ _ _ _ _ (by intro k; cases k <;> simp [termOp, arithOp, shiftOp, andExprOp, xorExprOp, exprOp, andTestOp, orTestOp]) rfl rfl (by constructor) (by intros; constructor; assumption) h0
theorem q_lambdaDef [Plug] {o} (cond : Bool) : RelQ (.pre o) (lambdaDefBody cond) (lambdaDefBody cond) := by
  unfold lambdaDefBody; q_auto
theorem q_noCondTest [Plug] {o}  : RelQ (.pre o) (noCondTestBody) (noCondTestBody) := by
  unfold noCondTestBody; q_auto
theorem q_test [Plug] {o}  : RelQ (.pre o) (testBody) (testBody) := by
  unfold testBody; q_auto
theorem q_namedExpression [Plug] {o}  : RelQ (.pre o) (namedExpressionBody) (namedExpressionBody) := by
  unfold namedExpressionBody; q_auto
theorem q_testlistComp [Plug] {o}  : RelQ (.pre o) (testlistCompBody) (testlistCompBody) := by
  unfold testlistCompBody starOrNamed; q_auto
theorem q_testlistCompLoop [Plug] {o} (s s' : Nat) (nodes nodes' : List Tree) (seps seps' : List Token) (h0 : PL nodes nodes') (h1 : seps.map Token.bare = seps'.map Token.bare) : RelQ (.pre o) (testlistCompLoopBody s nodes seps) (testlistCompLoopBody s' nodes' seps') := by
  unfold testlistCompLoopBody starOrNamed; q_auto
theorem q_trailer [Plug] {o}  : RelQ (.pre o) (trailerBody) (trailerBody) := by
  unfold trailerBody; q_auto
theorem q_subscriptList [Plug] {o}  : RelQ (.pre o) (subscriptListBody) (subscriptListBody) := by
  unfold subscriptListBody; q_auto
theorem q_subscriptListLoop [Plug] {o} (s s' : Nat) (nodes nodes' : List Tree) (seps seps' : List Token) (h0 : PL nodes nodes') (h1 : seps.map Token.bare = seps'.map Token.bare) : RelQ (.pre o) (subscriptListLoopBody s nodes seps) (subscriptListLoopBody s' nodes' seps') := by
  unfold subscriptListLoopBody; q_auto
theorem q_subscript [Plug] {o}  : RelQ (.pre o) (subscriptBody) (subscriptBody) := by
  unfold subscriptBody; q_auto
theorem q_exprlist [Plug] {o}  : RelQ (.pre o) (exprlistBody) (exprlistBody) := by
  unfold exprlistBody starOrNamed; q_auto
theorem q_exprlistLoop [Plug] {o} (s s' : Nat) (nodes nodes' : List Tree) (seps seps' : List Token) (h0 : PL nodes nodes') (h1 : seps.map Token.bare = seps'.map Token.bare) : RelQ (.pre o) (exprlistLoopBody s nodes seps) (exprlistLoopBody s' nodes' seps') := by
  unfold exprlistLoopBody; q_auto
theorem q_testlist [Plug] {o}  : RelQ (.pre o) (testlistBody) (testlistBody) := by
  unfold testlistBody; q_auto
theorem q_testlistLoop [Plug] {o} (s s' : Nat) (nodes nodes' : List Tree) (seps seps' : List Token) (h0 : PL nodes nodes') (h1 : seps.map Token.bare = seps'.map Token.bare) : RelQ (.pre o) (testlistLoopBody s nodes seps) (testlistLoopBody s' nodes' seps') := by
  unfold testlistLoopBody; q_auto
theorem q_dictorsetMaker [Plug] {o}  : RelQ (.pre o) (dictorsetMakerBody) (dictorsetMakerBody) := by
  unfold dictorsetMakerBody dictRest dictRest.fin; q_auto
theorem q_setLoop [Plug] {o} (s s' : Nat) (nodes nodes' : List Tree) (seps seps' : List Token) (h0 : PL nodes nodes') (h1 : seps.map Token.bare = seps'.map Token.bare) : RelQ (.pre o) (setLoopBody s nodes seps) (setLoopBody s' nodes' seps') := by
  unfold setLoopBody; q_auto
theorem q_arglist [Plug] {o}  : RelQ (.pre o) (arglistBody) (arglistBody) := by
  unfold arglistBody; q_auto
theorem q_arglistLoop [Plug] {o} (s s' : Nat) (nodes nodes' : List Tree) (seps seps' : List Token) (h0 : PL nodes nodes') (h1 : seps.map Token.bare = seps'.map Token.bare) : RelQ (.pre o) (arglistLoopBody s nodes seps) (arglistLoopBody s' nodes' seps') := by
  unfold arglistLoopBody; q_auto
theorem q_argument [Plug] {o}  : RelQ (.pre o) (argumentBody) (argumentBody) := by
  unfold argumentBody; q_auto
theorem q_compIter [Plug] {o}  : RelQ (.pre o) (compIterBody) (compIterBody) := by
  unfold compIterBody; q_auto
theorem q_syncCompFor [Plug] {o}  : RelQ (.pre o) (syncCompForBody) (syncCompForBody) := by
  unfold syncCompForBody; q_auto
theorem q_compFor [Plug] {o}  : RelQ (.pre o) (compForBody) (compForBody) := by
  unfold compForBody; q_auto
theorem q_compIf [Plug] {o}  : RelQ (.pre o) (compIfBody) (compIfBody) := by
  unfold compIfBody; q_auto
theorem q_yieldExpr [Plug] {o}  : RelQ (.pre o) (yieldExprBody) (yieldExprBody) := by
  unfold yieldExprBody; q_auto
theorem q_testlistStarExpr [Plug] {o}  : RelQ (.pre o) (testlistStarExprBody) (testlistStarExprBody) := by
  unfold testlistStarExprBody; q_auto
theorem q_testlistStarExprLoop [Plug] {o} (s s' : Nat) (nodes nodes' : List Tree) (seps seps' : List Token) (h0 : PL nodes nodes') (h1 : seps.map Token.bare = seps'.map Token.bare) : RelQ (.pre o) (testlistStarExprLoopBody s nodes seps) (testlistStarExprLoopBody s' nodes' seps') := by
  unfold testlistStarExprLoopBody; q_auto
theorem q_varArgsList [Plug] {o}  : RelQ (.pre o) (varArgsListBody) (varArgsListBody) := by
  unfold varArgsListBody varArgsMul varArgsPower varArgsResult; q_auto
theorem q_varArgsMainLoop [Plug] {o} (s s' : Nat) (v v' : VA) (h0 : PV v v') : RelQ (.pre o) (varArgsMainLoopBody s v) (varArgsMainLoopBody s' v') := by
  obtain ⟨_, _, _, _, _, _, _⟩ := id h0
  unfold varArgsMainLoopBody varArgsMul varArgsPower varArgsResult; q_auto
theorem q_varArgsStarLoop [Plug] {o} (s s' : Nat) (v v' : VA) (h0 : PV v v') : RelQ (.pre o) (varArgsStarLoopBody s v) (varArgsStarLoopBody s' v') := by
  obtain ⟨_, _, _, _, _, _, _⟩ := id h0
  unfold varArgsStarLoopBody varArgsPower varArgsResult; q_auto
theorem q_varArgsDivLoop [Plug] {o} (s s' : Nat) (v v' : VA) (h0 : PV v v') : RelQ (.pre o) (varArgsDivLoopBody s v) (varArgsDivLoopBody s' v') := by
  obtain ⟨_, _, _, _, _, _, _⟩ := id h0
  unfold varArgsDivLoopBody varArgsMul varArgsPower varArgsResult; q_auto
theorem q_varArgsAssignments [Plug] {o}  : RelQ (.pre o) (varArgsAssignmentsBody) (varArgsAssignmentsBody) := by
  unfold varArgsAssignmentsBody; q_auto
theorem q_vfpDef [Plug] {o}  : RelQ (.pre o) (vfpDefBody) (vfpDefBody) := by
  unfold vfpDefBody; q_auto
theorem q_stmt [Plug] {o}  : RelQ (.pre o) (stmtBody) (stmtBody) := by
  unfold stmtBody; q_auto
theorem q_simpleStmt [Plug] {o}  : RelQ (.pre o) (simpleStmtBody) (simpleStmtBody) := by
  unfold simpleStmtBody; q_auto
theorem q_simpleStmtLoop [Plug] {o} (s s' : Nat) (nodes nodes' : List Tree) (seps seps' : List Token) (h0 : PL nodes nodes') (h1 : seps.map Token.bare = seps'.map Token.bare) : RelQ (.pre o) (simpleStmtLoopBody s nodes seps) (simpleStmtLoopBody s' nodes' seps') := by
  unfold simpleStmtLoopBody simpleStmtLoopBody.fin; q_auto
theorem q_smallStmt [Plug] {o}  : RelQ (.pre o) (smallStmtBody) (smallStmtBody) := by
  unfold smallStmtBody; q_auto
theorem q_exprStmt [Plug] {o}  : RelQ (.pre o) (exprStmtBody) (exprStmtBody) := by
  unfold exprStmtBody yieldOrTestlist
  refine q_here fun p q => q_parse (by constructor) ?_ ?_
  · intro a b ha
    refine q_symAt ?_; intro t u h hne hk hm; rw [hk]
    cases hop : augOp u.kind with
    | none => q_auto
    | some tag =>
      have htag : tag ≠ .AtomNumber := fun e => augOp_ne _ (e ▸ hop)
      q_auto
  · intro a b ha; q_auto
theorem q_assignLoop [Plug] {o} (s s' : Nat) (left left' : Tree) (nodes nodes' : List Tree) (h0 : PT left left') (h1 : PL nodes nodes') : RelQ (.pre o) (assignLoopBody s left nodes) (assignLoopBody s' left' nodes') := by
  unfold assignLoopBody yieldOrTestlist; q_auto
theorem q_annAssign [Plug] {o} (s s' : Nat) (left left' : Tree) (h0 : PT left left') : RelQ (.pre o) (annAssignBody s left) (annAssignBody s' left') := by
  unfold annAssignBody yieldOrTestlist; q_auto
theorem q_delStmt [Plug] {o}  : RelQ (.pre o) (delStmtBody) (delStmtBody) := by
  unfold delStmtBody; q_auto
theorem q_passStmt [Plug] {o}  : RelQ (.pre o) (passStmtBody) (passStmtBody) := by
  unfold passStmtBody; q_auto
theorem q_flowStmt [Plug] {o}  : RelQ (.pre o) (flowStmtBody) (flowStmtBody) := by
  unfold flowStmtBody; q_auto
theorem q_breakStmt [Plug] {o}  : RelQ (.pre o) (breakStmtBody) (breakStmtBody) := by
  unfold breakStmtBody; q_auto
theorem q_continueStmt [Plug] {o}  : RelQ (.pre o) (continueStmtBody) (continueStmtBody) := by
  unfold continueStmtBody; q_auto
theorem q_returnStmt [Plug] {o}  : RelQ (.pre o) (returnStmtBody) (returnStmtBody) := by
  unfold returnStmtBody; q_auto
theorem q_yieldStmt [Plug] {o}  : RelQ (.pre o) (yieldStmtBody) (yieldStmtBody) := by
  unfold yieldStmtBody; q_auto
theorem q_raiseStmt [Plug] {o}  : RelQ (.pre o) (raiseStmtBody) (raiseStmtBody) := by
  unfold raiseStmtBody; q_auto
theorem q_importStmt [Plug] {o}  : RelQ (.pre o) (importStmtBody) (importStmtBody) := by
  unfold importStmtBody; q_auto
theorem q_importName [Plug] {o}  : RelQ (.pre o) (importNameBody) (importNameBody) := by
  unfold importNameBody; q_auto
theorem q_importFrom [Plug] {o}  : RelQ (.pre o) (importFromBody) (importFromBody) := by
  unfold importFromBody; q_auto
theorem q_importDotLoop [Plug] {o} (s s' : Nat) (sym1 sym1' : Token) (dots dots' : List Token) (h0 : sym1.bare = sym1'.bare) (h1 : dots.map Token.bare = dots'.map Token.bare) : RelQ (.pre o) (importDotLoopBody s sym1 dots) (importDotLoopBody s' sym1' dots') := by
  have hlen : dots.reverse.length = 0 ↔ dots'.reverse.length = 0 := by have := congrArg List.length h1; simp only [List.length_map] at this; simp only [List.length_reverse, this]
  unfold importDotLoopBody importFromRest; q_auto
  all_goals first | exact hlen.1 | exact hlen.2
theorem q_importAsName [Plug] {o}  : RelQ (.pre o) (importAsNameBody) (importAsNameBody) := by
  unfold importAsNameBody; q_auto
theorem q_dottedAsName [Plug] {o}  : RelQ (.pre o) (dottedAsNameBody) (dottedAsNameBody) := by
  unfold dottedAsNameBody; q_auto
theorem q_importAsNames [Plug] {o}  : RelQ (.pre o) (importAsNamesBody) (importAsNamesBody) := by
  unfold importAsNamesBody; q_auto
theorem q_importAsNamesLoop [Plug] {o} (s s' : Nat) (nodes nodes' : List Tree) (seps seps' : List Token) (h0 : PL nodes nodes') (h1 : seps.map Token.bare = seps'.map Token.bare) : RelQ (.pre o) (importAsNamesLoopBody s nodes seps) (importAsNamesLoopBody s' nodes' seps') := by
  unfold importAsNamesLoopBody; q_auto
theorem q_dottedAsNames [Plug] {o}  : RelQ (.pre o) (dottedAsNamesBody) (dottedAsNamesBody) := by
  unfold dottedAsNamesBody; q_auto
theorem q_dottedAsNamesLoop [Plug] {o} (s s' : Nat) (nodes nodes' : List Tree) (seps seps' : List Token) (h0 : PL nodes nodes') (h1 : seps.map Token.bare = seps'.map Token.bare) : RelQ (.pre o) (dottedAsNamesLoopBody s nodes seps) (dottedAsNamesLoopBody s' nodes' seps') := by
  unfold dottedAsNamesLoopBody; q_auto
theorem q_dottedName [Plug] {o}  : RelQ (.pre o) (dottedNameBody) (dottedNameBody) := by
  unfold dottedNameBody; q_auto
theorem q_dottedNameLoop [Plug] {o} (s s' : Nat) (nodes nodes' : List Token) (seps seps' : List Token) (h0 : nodes.map Token.bare = nodes'.map Token.bare) (h1 : seps.map Token.bare = seps'.map Token.bare) : RelQ (.pre o) (dottedNameLoopBody s nodes seps) (dottedNameLoopBody s' nodes' seps') := by
  unfold dottedNameLoopBody; q_auto
theorem q_globalStmt [Plug] {o}  : RelQ (.pre o) (globalStmtBody) (globalStmtBody) := by
  unfold globalStmtBody; q_auto

end Verif
