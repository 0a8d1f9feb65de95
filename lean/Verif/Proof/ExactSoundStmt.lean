import Verif.Proof.ExactSoundList2

/-!
# What the parse functions consume is in the exact grammar: statements
-/

namespace Verif
open Prog XR
set_option linter.unusedVariables false
set_option linter.unusedSectionVars false
set_option linter.unusedSimpArgs false

section
variable [Uni]

attribute [local irreducible] XG XPeek XE XL XT StrOk NoCont SymIn WP PSt.advance LoopX ExprEnd ExprItem SubEnd SubItem Halts

theorem xs_passStmt (c) : WP ΦEx passStmtBody c (ΦEx .passStmt c) := by
  unfold passStmtBody; xe_simp; xe_auto
theorem xs_flowStmt (c) : WP ΦEx flowStmtBody c (ΦEx .flowStmt c) := by
  unfold flowStmtBody; xe_simp; xe_auto
theorem xs_breakStmt (c) : WP ΦEx breakStmtBody c (ΦEx .breakStmt c) := by
  unfold breakStmtBody; xe_simp; xe_auto
theorem xs_continueStmt (c) : WP ΦEx continueStmtBody c (ΦEx .continueStmt c) := by
  unfold continueStmtBody; xe_simp; xe_auto
theorem xs_returnStmt (c) : WP ΦEx returnStmtBody c (ΦEx .returnStmt c) := by
  unfold returnStmtBody; xe_simp; xe_auto
theorem xs_yieldStmt (c) : WP ΦEx yieldStmtBody c (ΦEx .yieldStmt c) := by
  unfold yieldStmtBody; xe_simp; xe_auto
theorem xs_raiseStmt (c) : WP ΦEx raiseStmtBody c (ΦEx .raiseStmt c) := by
  unfold raiseStmtBody; xe_simp; xe_auto
theorem xs_importStmt (c) : WP ΦEx importStmtBody c (ΦEx .importStmt c) := by
  unfold importStmtBody; xe_simp; xe_auto
theorem xs_importAsName (c) : WP ΦEx importAsNameBody c (ΦEx .importAsName c) := by
  unfold importAsNameBody; xe_simp; xe_auto
theorem xs_importAsNames (c) : WP ΦEx importAsNamesBody c (ΦEx .importAsNames c) := by
  unfold importAsNamesBody; xe_simp; xe_auto
theorem xs_importAsNamesLoop (s ns ss c) : WP ΦEx (importAsNamesLoopBody s ns ss) c (ΦEx (.importAsNamesLoop s ns ss) c) := by
  unfold importAsNamesLoopBody; xe_simp; xe_auto
theorem xs_dottedName (c) : WP ΦEx dottedNameBody c (ΦEx .dottedName c) := by
  unfold dottedNameBody; xe_simp; xe_auto
theorem xs_globalStmt (c) : WP ΦEx globalStmtBody c (ΦEx .globalStmt c) := by
  unfold globalStmtBody; xe_simp; xe_auto
theorem xs_nonlocalStmt (c) : WP ΦEx nonlocalStmtBody c (ΦEx .nonlocalStmt c) := by
  unfold nonlocalStmtBody; xe_simp; xe_auto
theorem xs_assertStmt (c) : WP ΦEx assertStmtBody c (ΦEx .assertStmt c) := by
  unfold assertStmtBody; xe_simp; xe_auto
theorem xs_ifStmt (c) : WP ΦEx ifStmtBody c (ΦEx .ifStmt c) := by
  unfold ifStmtBody; xe_simp; xe_auto
theorem xs_elifStmt (c) : WP ΦEx elifStmtBody c (ΦEx .elifStmt c) := by
  unfold elifStmtBody; xe_simp; xe_auto
theorem xs_elseStmt (c) : WP ΦEx elseStmtBody c (ΦEx .elseStmt c) := by
  unfold elseStmtBody; xe_simp; xe_auto
theorem xs_whileStmt (c) : WP ΦEx whileStmtBody c (ΦEx .whileStmt c) := by
  unfold whileStmtBody; xe_simp; xe_auto
theorem xs_finallyStmt (c) : WP ΦEx finallyStmtBody c (ΦEx .finallyStmt c) := by
  unfold finallyStmtBody; xe_simp; xe_auto
theorem xs_withItem (c) : WP ΦEx withItemBody c (ΦEx .withItem c) := by
  unfold withItemBody; xe_simp; xe_auto
theorem xs_exceptStmt (c) : WP ΦEx exceptStmtBody c (ΦEx .exceptStmt c) := by
  unfold exceptStmtBody; xe_simp; xe_auto
theorem xs_funcDef (c) : WP ΦEx funcDefBody c (ΦEx .funcDef c) := by
  unfold funcDefBody; xe_simp; xe_auto
theorem xs_funcType (c) : WP ΦEx funcTypeBody c (ΦEx .funcType c) := by
  unfold funcTypeBody; xe_simp; xe_auto
theorem xs_dottedNameLoop (s ns ss c) : WP ΦEx (dottedNameLoopBody s ns ss) c (ΦEx (.dottedNameLoop s ns ss) c) := by
  unfold dottedNameLoopBody; xe_simp; xe_auto
theorem xs_globalLoop (s g ns ss c) : WP ΦEx (globalLoopBody s g ns ss) c (ΦEx (.globalLoop s g ns ss) c) := by
  unfold globalLoopBody; xe_simp; xe_auto
theorem xs_nonlocalLoop (s g ns ss c) : WP ΦEx (nonlocalLoopBody s g ns ss) c (ΦEx (.nonlocalLoop s g ns ss) c) := by
  unfold nonlocalLoopBody; xe_simp; xe_auto


theorem xs_forStmt (c) : WP ΦEx forStmtBody c (ΦEx .forStmt c) := by
  unfold forStmtBody; xe_simp
  intro t ht hk x c1 ⟨ts, a, b⟩ t2 ht2 hk2
  replace b := b.isIn ht2 hk2
  xe_auto
theorem xs_delStmt (c) : WP ΦEx delStmtBody c (ΦEx .delStmt c) := by
  unfold delStmtBody; xe_simp
  intro t ht hk x c1 ⟨ts, a, b⟩
  rcases b.cases with b | b
  · exact Or.inl (by xe_close)
  · exact Or.inr b

end

end Verif
