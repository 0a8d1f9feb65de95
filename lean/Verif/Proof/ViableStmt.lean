import Verif.Proof.ViableList2

/-!
# Failing runs: statements
-/

namespace Verif
open Prog XR
set_option linter.unusedVariables false
set_option linter.unusedSectionVars false
set_option linter.unusedSimpArgs false

section
variable [Uni]

attribute [local irreducible] XG XPeek XE XL XT StrOk NoCont SymIn WF PSt.advance LoopX ExprEnd ExprItem SubEnd SubItem Halts XV XVD XVL Pre

theorem vf_passStmt (c) : VF passStmtBody .passStmt c := by
  unfold passStmtBody; vf_simp; vf_auto
theorem vf_flowStmt (c) : VF flowStmtBody .flowStmt c := by
  unfold flowStmtBody; vf_simp; vf_auto
theorem vf_breakStmt (c) : VF breakStmtBody .breakStmt c := by
  unfold breakStmtBody; vf_simp; vf_auto
theorem vf_continueStmt (c) : VF continueStmtBody .continueStmt c := by
  unfold continueStmtBody; vf_simp; vf_auto
theorem vf_returnStmt (c) : VF returnStmtBody .returnStmt c := by
  unfold returnStmtBody; vf_simp; vf_auto
theorem vf_yieldStmt (c) : VF yieldStmtBody .yieldStmt c := by
  unfold yieldStmtBody; vf_simp; vf_auto
theorem vf_raiseStmt (c) : VF raiseStmtBody .raiseStmt c := by
  unfold raiseStmtBody; vf_simp; vf_auto
theorem vf_importStmt (c) : VF importStmtBody .importStmt c := by
  unfold importStmtBody; vf_simp; vf_auto
theorem vf_importAsName (c) : VF importAsNameBody .importAsName c := by
  unfold importAsNameBody; vf_simp; vf_auto
theorem vf_importAsNames (c) : VF importAsNamesBody .importAsNames c := by
  unfold importAsNamesBody; vf_simp; vf_auto
theorem vf_importAsNamesLoop (s ns ss c) : VF (importAsNamesLoopBody s ns ss) (.importAsNamesLoop s ns ss) c := by
  unfold importAsNamesLoopBody; vf_simp; vf_auto
theorem vf_dottedName (c) : VF dottedNameBody .dottedName c := by
  unfold dottedNameBody; vf_simp; vf_auto
theorem vf_globalStmt (c) : VF globalStmtBody .globalStmt c := by
  unfold globalStmtBody; vf_simp; vf_auto
theorem vf_nonlocalStmt (c) : VF nonlocalStmtBody .nonlocalStmt c := by
  unfold nonlocalStmtBody; vf_simp; vf_auto
theorem vf_assertStmt (c) : VF assertStmtBody .assertStmt c := by
  unfold assertStmtBody; vf_simp; vf_auto
theorem vf_ifStmt (c) : VF ifStmtBody .ifStmt c := by
  unfold ifStmtBody; vf_simp; vf_auto
theorem vf_elifStmt (c) : VF elifStmtBody .elifStmt c := by
  unfold elifStmtBody; vf_simp; vf_auto
theorem vf_elseStmt (c) : VF elseStmtBody .elseStmt c := by
  unfold elseStmtBody; vf_simp; vf_auto
theorem vf_whileStmt (c) : VF whileStmtBody .whileStmt c := by
  unfold whileStmtBody; vf_simp; vf_auto
theorem vf_finallyStmt (c) : VF finallyStmtBody .finallyStmt c := by
  unfold finallyStmtBody; vf_simp; vf_auto
theorem vf_withItem (c) : VF withItemBody .withItem c := by
  unfold withItemBody; vf_simp; vf_auto
theorem vf_exceptStmt (c) : VF exceptStmtBody .exceptStmt c := by
  unfold exceptStmtBody; vf_simp; vf_auto
theorem vf_funcDef (c) : VF funcDefBody .funcDef c := by
  unfold funcDefBody; vf_simp; vf_auto
theorem vf_funcType (c) : VF funcTypeBody .funcType c := by
  unfold funcTypeBody; vf_simp; vf_auto
theorem vf_dottedNameLoop (s ns ss c) : VF (dottedNameLoopBody s ns ss) (.dottedNameLoop s ns ss) c := by
  unfold dottedNameLoopBody; vf_simp; vf_auto
theorem vf_globalLoop (s g ns ss c) : VF (globalLoopBody s g ns ss) (.globalLoop s g ns ss) c := by
  unfold globalLoopBody; vf_simp; vf_auto
theorem vf_nonlocalLoop (s g ns ss c) : VF (nonlocalLoopBody s g ns ss) (.nonlocalLoop s g ns ss) c := by
  unfold nonlocalLoopBody; vf_simp; vf_auto

theorem vf_forStmt (c) : VF forStmtBody .forStmt c := by
  unfold forStmtBody; vf_simp
  refine ⟨fun t ht => ⟨fun hk => ⟨by vf_auto, fun x c1 ⟨ts, a, b⟩ => ⟨fun t2 ht2 => ⟨fun hk2 => ?_, fun _ => ?_⟩, fun y hy => ?_⟩⟩,
    by vf_auto⟩, by vf_auto⟩
  · have b' := b.isIn ht2 hk2
    vf_auto
  · have b' := b.pre
    vf_close
  · have b' := b.pre
    vf_close
theorem vf_delStmt (c) : VF delStmtBody .delStmt c := by
  unfold delStmtBody; vf_simp; vf_auto

end

end Verif
