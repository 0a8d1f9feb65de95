import Verif.Proof.GraftStep

/-!
# Every parse function does the same with two bodies of a block, first part
-/
set_option linter.unusedSimpArgs false
set_option linter.unusedVariables false
namespace Verif
open Prog Graft
theorem g_atom [Graft] {b o}  : RelG b o (atomBody) (atomBody) := by
  unfold atomBody; g_auto
theorem g_atomStrLoop [Graft] {b o} (s s' : Nat) (toks toks' : List Token) (h0 : toks.map Token.bare = toks'.map Token.bare) : RelG b o (atomStrLoopBody s toks) (atomStrLoopBody s' toks') := by
  unfold atomStrLoopBody; g_auto
theorem g_atomExpr [Graft] {b o}  : RelG b o (atomExprBody) (atomExprBody) := by
  unfold atomExprBody; g_auto
theorem g_trailerLoop [Graft] {b o} (s s' : Nat) (await await' : Tree) (right right' : Tree) (lst lst' : List Tree) (h0 : GT await await') (h1 : GT right right') (h2 : GL lst lst') : RelG b o (trailerLoopBody s await right lst) (trailerLoopBody s' await' right' lst') := by
  unfold trailerLoopBody; g_auto
theorem g_power [Graft] {b o}  : RelG b o (powerBody) (powerBody) := by
  unfold powerBody; g_auto
theorem g_factor [Graft] {b o}  : RelG b o (factorBody) (factorBody) := by
  unfold factorBody; g_auto
theorem g_term [Graft] {b o}  : RelG b o (termBody) (termBody) := by
  unfold termBody; g_auto
theorem g_termLoop [Graft] {b o} (s s' : Nat) (left left' : Tree) (h0 : GT left left') : RelG b o (termLoopBody s left) (termLoopBody s' left') := by
  unfold termLoopBody; exact g_left _ _ _ _ _ _ _ _ (by intro k tag h; revert h; cases k <;> simp [termOp, arithOp, shiftOp, andExprOp, xorExprOp, exprOp, andTestOp, orTestOp] <;> (try (rintro rfl; simp))) rfl (by constructor) (by intros; exact ⟨rfl, by constructor; assumption⟩) h0
theorem g_arith [Graft] {b o}  : RelG b o (arithBody) (arithBody) := by
  unfold arithBody; g_auto
theorem g_arithLoop [Graft] {b o} (s s' : Nat) (left left' : Tree) (h0 : GT left left') : RelG b o (arithLoopBody s left) (arithLoopBody s' left') := by
  unfold arithLoopBody; exact g_left _ _ _ _ _ _ _ _ (by intro k tag h; revert h; cases k <;> simp [termOp, arithOp, shiftOp, andExprOp, xorExprOp, exprOp, andTestOp, orTestOp] <;> (try (rintro rfl; simp))) rfl (by constructor) (by intros; exact ⟨rfl, by constructor; assumption⟩) h0
theorem g_shift [Graft] {b o}  : RelG b o (shiftBody) (shiftBody) := by
  unfold shiftBody; g_auto
theorem g_shiftLoop [Graft] {b o} (s s' : Nat) (left left' : Tree) (h0 : GT left left') : RelG b o (shiftLoopBody s left) (shiftLoopBody s' left') := by
  unfold shiftLoopBody; exact g_left _ _ _ _ _ _ _ _ (by intro k tag h; revert h; cases k <;> simp [termOp, arithOp, shiftOp, andExprOp, xorExprOp, exprOp, andTestOp, orTestOp] <;> (try (rintro rfl; simp))) rfl (by constructor) (by intros; exact ⟨rfl, by constructor; assumption⟩) h0
theorem g_andExpr [Graft] {b o}  : RelG b o (andExprBody) (andExprBody) := by
  unfold andExprBody; g_auto
theorem g_andExprLoop [Graft] {b o} (s s' : Nat) (left left' : Tree) (h0 : GT left left') : RelG b o (andExprLoopBody s left) (andExprLoopBody s' left') := by
  unfold andExprLoopBody; exact g_left _ _ _ _ _ _ _ _ (by intro k tag h; revert h; cases k <;> simp [termOp, arithOp, shiftOp, andExprOp, xorExprOp, exprOp, andTestOp, orTestOp] <;> (try (rintro rfl; simp))) rfl (by constructor) (by intros; exact ⟨rfl, by constructor; assumption⟩) h0
theorem g_xorExpr [Graft] {b o}  : RelG b o (xorExprBody) (xorExprBody) := by
  unfold xorExprBody; g_auto
theorem g_xorExprLoop [Graft] {b o} (s s' : Nat) (left left' : Tree) (h0 : GT left left') : RelG b o (xorExprLoopBody s left) (xorExprLoopBody s' left') := by
  unfold xorExprLoopBody; exact g_left _ _ _ _ _ _ _ _ (by intro k tag h; revert h; cases k <;> simp [termOp, arithOp, shiftOp, andExprOp, xorExprOp, exprOp, andTestOp, orTestOp] <;> (try (rintro rfl; simp))) rfl (by constructor) (by intros; exact ⟨rfl, by constructor; assumption⟩) h0
theorem g_expr [Graft] {b o}  : RelG b o (exprBody) (exprBody) := by
  unfold exprBody; g_auto
theorem g_exprLoop [Graft] {b o} (s s' : Nat) (left left' : Tree) (h0 : GT left left') : RelG b o (exprLoopBody s left) (exprLoopBody s' left') := by
  unfold exprLoopBody; exact g_left _ _ _ _ _ _ _ _ (by intro k tag h; revert h; cases k <;> simp [termOp, arithOp, shiftOp, andExprOp, xorExprOp, exprOp, andTestOp, orTestOp] <;> (try (rintro rfl; simp))) rfl (by constructor) (by intros; exact ⟨rfl, by constructor; assumption⟩) h0
theorem g_starExpr [Graft] {b o}  : RelG b o (starExprBody) (starExprBody) := by
  unfold starExprBody; g_auto
theorem g_comparison [Graft] {b o}  : RelG b o (comparisonBody) (comparisonBody) := by
  unfold comparisonBody; g_auto
theorem g_comparisonLoop [Graft] {b o} (s s' : Nat) (left left' : Tree) (h0 : GT left left') : RelG b o (comparisonLoopBody s left) (comparisonLoopBody s' left') := by
  unfold comparisonLoopBody; refine g_symAt ?_; intro t u h hk hm; rw [hk]
  cases hop : compOp u.kind with
  | none => g_auto
  | some tag =>
    obtain ⟨htag, hi⟩ := compOp_plain hop
    rw [← hk] at hi
    g_auto
theorem g_notTest [Graft] {b o}  : RelG b o (notTestBody) (notTestBody) := by
  unfold notTestBody; g_auto
theorem g_andTest [Graft] {b o}  : RelG b o (andTestBody) (andTestBody) := by
  unfold andTestBody; g_auto
theorem g_andTestLoop [Graft] {b o} (s s' : Nat) (left left' : Tree) (h0 : GT left left') : RelG b o (andTestLoopBody s left) (andTestLoopBody s' left') := by
  unfold andTestLoopBody; exact g_left _ _ _ _ _ _ _ _ (by intro k tag h; revert h; cases k <;> simp [termOp, arithOp, shiftOp, andExprOp, xorExprOp, exprOp, andTestOp, orTestOp] <;> (try (rintro rfl; simp))) rfl (by constructor) (by intros; exact ⟨rfl, by constructor; assumption⟩) h0
theorem g_orTest [Graft] {b o}  : RelG b o (orTestBody) (orTestBody) := by
  unfold orTestBody; g_auto
theorem g_orTestLoop [Graft] {b o} (s s' : Nat) (left left' : Tree) (h0 : GT left left') : RelG b o (orTestLoopBody s left) (orTestLoopBody s' left') := by
  unfold orTestLoopBody; exact g_left _ _ _ _ _ _ _ _ (by intro k tag h; revert h; cases k <;> simp [termOp, arithOp, shiftOp, andExprOp, xorExprOp, exprOp, andTestOp, orTestOp] <;> (try (rintro rfl; simp))) rfl (by constructor) (by intros; exact ⟨rfl, by constructor; assumption⟩) h0
theorem g_lambdaDef [Graft] {b} {t : Token} (ht : t.kind ≠ .Indent) (cond : Bool) : RelG b (some t) (lambdaDefBody cond) (lambdaDefBody cond) := by
  unfold lambdaDefBody; refine g_here fun p q => g_symAgain ?_; intro u h; refine g_next ht ?_; g_auto
theorem g_noCondTest [Graft] {b o}  : RelG b o (noCondTestBody) (noCondTestBody) := by
  unfold noCondTestBody; g_auto
theorem g_test [Graft] {b o}  : RelG b o (testBody) (testBody) := by
  unfold testBody; g_auto
theorem g_namedExpression [Graft] {b o}  : RelG b o (namedExpressionBody) (namedExpressionBody) := by
  unfold namedExpressionBody; g_auto
theorem g_testlistComp [Graft] {b o}  : RelG b o (testlistCompBody) (testlistCompBody) := by
  unfold testlistCompBody starOrNamed; g_auto
theorem g_testlistCompLoop [Graft] {b o} (s s' : Nat) (nodes nodes' : List Tree) (seps seps' : List Token) (h0 : GL nodes nodes') (h1 : seps.map Token.bare = seps'.map Token.bare) : RelG b o (testlistCompLoopBody s nodes seps) (testlistCompLoopBody s' nodes' seps') := by
  unfold testlistCompLoopBody starOrNamed; g_auto
theorem g_trailer [Graft] {b o}  : RelG b o (trailerBody) (trailerBody) := by
  unfold trailerBody; g_auto
theorem g_subscriptList [Graft] {b o}  : RelG b o (subscriptListBody) (subscriptListBody) := by
  unfold subscriptListBody; g_auto
theorem g_subscriptListLoop [Graft] {b o} (s s' : Nat) (nodes nodes' : List Tree) (seps seps' : List Token) (h0 : GL nodes nodes') (h1 : seps.map Token.bare = seps'.map Token.bare) : RelG b o (subscriptListLoopBody s nodes seps) (subscriptListLoopBody s' nodes' seps') := by
  unfold subscriptListLoopBody; g_auto
theorem g_subscript [Graft] {b o}  : RelG b o (subscriptBody) (subscriptBody) := by
  unfold subscriptBody; repeat' first
    | ((with_reducible refine g_nextN ?_ ?_ ?_); (focus g_kind); focus g_kind)
    | (with_reducible refine g_nextT ?_)
    | ((with_reducible refine g_parseEnds ?_ ?_ ?_ ?_); rfl; rfl; rotate_left; (intro _ _ _))
    | g_step
theorem g_exprlist [Graft] {b o}  : RelG b o (exprlistBody) (exprlistBody) := by
  unfold exprlistBody starOrNamed; g_auto
theorem g_exprlistLoop [Graft] {b o} (s s' : Nat) (nodes nodes' : List Tree) (seps seps' : List Token) (h0 : GL nodes nodes') (h1 : seps.map Token.bare = seps'.map Token.bare) : RelG b o (exprlistLoopBody s nodes seps) (exprlistLoopBody s' nodes' seps') := by
  unfold exprlistLoopBody; g_auto
theorem g_testlist [Graft] {b o}  : RelG b o (testlistBody) (testlistBody) := by
  unfold testlistBody; g_auto
theorem g_testlistLoop [Graft] {b o} (s s' : Nat) (nodes nodes' : List Tree) (seps seps' : List Token) (h0 : GL nodes nodes') (h1 : seps.map Token.bare = seps'.map Token.bare) : RelG b o (testlistLoopBody s nodes seps) (testlistLoopBody s' nodes' seps') := by
  unfold testlistLoopBody; g_auto
theorem g_dictorsetMaker [Graft] {b o}  : RelG b o (dictorsetMakerBody) (dictorsetMakerBody) := by
  unfold dictorsetMakerBody dictRest dictRest.fin; g_auto
theorem g_setLoop [Graft] {b o} (s s' : Nat) (nodes nodes' : List Tree) (seps seps' : List Token) (h0 : GL nodes nodes') (h1 : seps.map Token.bare = seps'.map Token.bare) : RelG b o (setLoopBody s nodes seps) (setLoopBody s' nodes' seps') := by
  unfold setLoopBody; g_auto
theorem g_arglist [Graft] {b o}  : RelG b o (arglistBody) (arglistBody) := by
  unfold arglistBody; g_auto
theorem g_arglistLoop [Graft] {b o} (s s' : Nat) (nodes nodes' : List Tree) (seps seps' : List Token) (h0 : GL nodes nodes') (h1 : seps.map Token.bare = seps'.map Token.bare) : RelG b o (arglistLoopBody s nodes seps) (arglistLoopBody s' nodes' seps') := by
  unfold arglistLoopBody; g_auto
theorem g_argument [Graft] {b o}  : RelG b o (argumentBody) (argumentBody) := by
  unfold argumentBody; g_auto
theorem g_compIter [Graft] {b o}  : RelG b o (compIterBody) (compIterBody) := by
  unfold compIterBody; g_auto
theorem g_syncCompFor [Graft] {b o}  : RelG b o (syncCompForBody) (syncCompForBody) := by
  unfold syncCompForBody; g_auto
theorem g_compFor [Graft] {b o}  : RelG b o (compForBody) (compForBody) := by
  unfold compForBody; g_auto
theorem g_compIf [Graft] {b o}  : RelG b o (compIfBody) (compIfBody) := by
  unfold compIfBody; g_auto
theorem g_yieldExpr [Graft] {b o}  : RelG b o (yieldExprBody) (yieldExprBody) := by
  unfold yieldExprBody; g_auto
theorem g_testlistStarExpr [Graft] {b o}  : RelG b o (testlistStarExprBody) (testlistStarExprBody) := by
  unfold testlistStarExprBody; g_auto
theorem g_testlistStarExprLoop [Graft] {b o} (s s' : Nat) (nodes nodes' : List Tree) (seps seps' : List Token) (h0 : GL nodes nodes') (h1 : seps.map Token.bare = seps'.map Token.bare) : RelG b o (testlistStarExprLoopBody s nodes seps) (testlistStarExprLoopBody s' nodes' seps') := by
  unfold testlistStarExprLoopBody; g_auto
theorem g_varArgsList [Graft] {b o}  : RelG b o (varArgsListBody) (varArgsListBody) := by
  unfold varArgsListBody varArgsMul varArgsPower varArgsResult; g_auto
theorem g_varArgsMainLoop [Graft] {b o} (s s' : Nat) (v v' : VA) (h0 : GV v v') : RelG b o (varArgsMainLoopBody s v) (varArgsMainLoopBody s' v') := by
  obtain ⟨_, _, _, _, _, _, _⟩ := id h0
  unfold varArgsMainLoopBody varArgsMul varArgsPower varArgsResult; g_auto
theorem g_varArgsStarLoop [Graft] {b o} (s s' : Nat) (v v' : VA) (h0 : GV v v') : RelG b o (varArgsStarLoopBody s v) (varArgsStarLoopBody s' v') := by
  obtain ⟨_, _, _, _, _, _, _⟩ := id h0
  unfold varArgsStarLoopBody varArgsPower varArgsResult; g_auto
theorem g_varArgsDivLoop [Graft] {b o} (s s' : Nat) (v v' : VA) (h0 : GV v v') : RelG b o (varArgsDivLoopBody s v) (varArgsDivLoopBody s' v') := by
  obtain ⟨_, _, _, _, _, _, _⟩ := id h0
  unfold varArgsDivLoopBody varArgsMul varArgsPower varArgsResult; g_auto
theorem g_varArgsAssignments [Graft] {b o}  : RelG b o (varArgsAssignmentsBody) (varArgsAssignmentsBody) := by
  unfold varArgsAssignmentsBody; g_auto
theorem g_vfpDef [Graft] {b o}  : RelG b o (vfpDefBody) (vfpDefBody) := by
  unfold vfpDefBody; g_auto
theorem g_stmt [Graft] {b o}  : RelG b o (stmtBody) (stmtBody) := by
  unfold stmtBody; g_auto
theorem g_simpleStmt [Graft] {b o}  : RelG b o (simpleStmtBody) (simpleStmtBody) := by
  unfold simpleStmtBody; g_auto
theorem g_simpleStmtLoop [Graft] {b o} (s s' : Nat) (nodes nodes' : List Tree) (seps seps' : List Token) (h0 : GL nodes nodes') (h1 : seps.map Token.bare = seps'.map Token.bare) : RelG b o (simpleStmtLoopBody s nodes seps) (simpleStmtLoopBody s' nodes' seps') := by
  unfold simpleStmtLoopBody simpleStmtLoopBody.fin; g_auto
theorem g_smallStmt [Graft] {b o}  : RelG b o (smallStmtBody) (smallStmtBody) := by
  unfold smallStmtBody; g_auto
theorem g_exprStmt [Graft] {b o}  : RelG b o (exprStmtBody) (exprStmtBody) := by
  unfold exprStmtBody yieldOrTestlist
  refine g_here fun p q => g_parse rfl (by constructor) ?_
  intro a b ha
  refine g_symAt ?_; intro t u h hk hm; rw [hk]
  cases hop : augOp u.kind with
  | none => g_auto
  | some tag =>
    obtain ⟨htag, hi⟩ := augOp_plain hop
    rw [← hk] at hi
    g_auto
theorem g_assignLoop [Graft] {b o} (s s' : Nat) (left left' : Tree) (nodes nodes' : List Tree) (h0 : GT left left') (h1 : GL nodes nodes') : RelG b o (assignLoopBody s left nodes) (assignLoopBody s' left' nodes') := by
  unfold assignLoopBody yieldOrTestlist; g_auto
theorem g_annAssign [Graft] {b o} (s s' : Nat) (left left' : Tree) (h0 : GT left left') : RelG b o (annAssignBody s left) (annAssignBody s' left') := by
  unfold annAssignBody yieldOrTestlist; g_auto
theorem g_delStmt [Graft] {b o}  : RelG b o (delStmtBody) (delStmtBody) := by
  unfold delStmtBody; g_auto
theorem g_passStmt [Graft] {b o}  : RelG b o (passStmtBody) (passStmtBody) := by
  unfold passStmtBody; g_auto
theorem g_flowStmt [Graft] {b o}  : RelG b o (flowStmtBody) (flowStmtBody) := by
  unfold flowStmtBody; g_auto
theorem g_breakStmt [Graft] {b o}  : RelG b o (breakStmtBody) (breakStmtBody) := by
  unfold breakStmtBody; g_auto
theorem g_continueStmt [Graft] {b o}  : RelG b o (continueStmtBody) (continueStmtBody) := by
  unfold continueStmtBody; g_auto

end Verif
