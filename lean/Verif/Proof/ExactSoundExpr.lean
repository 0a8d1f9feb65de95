import Verif.Proof.ExactSound

/-!
# What the parse functions consume is in the exact grammar: expressions
-/

namespace Verif
open Prog XR
set_option linter.unusedVariables false

section
variable [Uni]
attribute [local irreducible] XG XPeek XE XL XT StrOk NoCont SymIn WP PSt.advance

theorem xs_left {op : Kind → Option Tag} {operand self msg r x K} (L : List Kind)
    (h1 : ∀ k tag, op k = some tag → ∀ t : Token, t.kind = k → ∀ y, XDer pRule r y [t] y)
    (h0 : ∀ k, L.contains k = true → (op k).isSome = true)
    (hs : op .AtomString = none)
    (h2 : ∀ c t c', ΦEx operand c t c' → XE (n x) K c c')
    (h3 : ∀ s l c t c', ΦEx (self s l) c t c' → XL (star (r ⬝ n x)) K (K ++ L) c c')
    (s left c) : WP ΦEx (leftLoopBody op operand self msg s left) c (fun t c' => XL (star (r ⬝ n x)) K (K ++ L) c c') := by
  unfold leftLoopBody
  xe_simp
  intro t ht
  split
  · rename_i tag htag
    xe_simp
    intro x c1 hx y c2 hy
    obtain ⟨ts, a, b, b2, b3⟩ := (h2 _ _ _ hx).elim
    obtain ⟨us, a', b', b2', b3'⟩ := (h3 _ _ _ _ _ hy).elim
    rw [advance_exc_eq] at b
    refine XL.mk (.step ht (a.trans a')) (XDer.more (.seq (h1 _ _ htag t rfl _) b) b') ?_ (fun _ => b3' b3)
    exact StrOk.cons rfl (fun e => by rw [e, hs] at htag; cases htag) (.app b2 b2' a')
  · rename_i htag
    xe_simp
    refine XL.mk (.refl _) .stop .nil (fun h => h.addOp ht ?_)
    cases hc : L.contains t.kind with
    | false => rfl
    | true => have := h0 _ hc; rw [htag] at this; cases this

macro "xop_case" h:ident "," d:ident : tactic => `(tactic|
  (unfold $d at $h:ident; split at $h:ident <;> simp at $h:ident <;> intro t ht y <;> exact XDK.out (by xder)))

theorem xs_termLoop (s l c) : WP ΦEx (termLoopBody s l) c (ΦEx (.termLoop s l) c) := by
  refine xs_left [Kind.PyMul, .PyDiv, .PyFloorDiv, .PyModulo, .PyMatrice] ?_ (by decide) rfl ?_ ?_ _ _ _
  · intro k tag h; xop_case h, termOp
  · intro c t c' h; simpa only [ΦEx] using h
  · intro s l c t c' h; simp only [ΦEx] at h; exact h
theorem xs_arithLoop (s l c) : WP ΦEx (arithLoopBody s l) c (ΦEx (.arithLoop s l) c) := by
  refine xs_left [Kind.PyPlus, .PyMinus] ?_ (by decide) rfl ?_ ?_ _ _ _
  · intro k tag h; xop_case h, arithOp
  · intro c t c' h; simpa only [ΦEx] using h
  · intro s l c t c' h; simp only [ΦEx] at h; exact h
theorem xs_shiftLoop (s l c) : WP ΦEx (shiftLoopBody s l) c (ΦEx (.shiftLoop s l) c) := by
  refine xs_left [Kind.PyShiftLeft, .PyShiftRight] ?_ (by decide) rfl ?_ ?_ _ _ _
  · intro k tag h; xop_case h, shiftOp
  · intro c t c' h; simpa only [ΦEx] using h
  · intro s l c t c' h; simp only [ΦEx] at h; exact h
theorem xs_andExprLoop (s l c) : WP ΦEx (andExprLoopBody s l) c (ΦEx (.andExprLoop s l) c) := by
  refine xs_left [Kind.PyBitAnd] ?_ (by decide) rfl ?_ ?_ _ _ _
  · intro k tag h; xop_case h, andExprOp
  · intro c t c' h; simpa only [ΦEx] using h
  · intro s l c t c' h; simp only [ΦEx] at h; exact h
theorem xs_xorExprLoop (s l c) : WP ΦEx (xorExprLoopBody s l) c (ΦEx (.xorExprLoop s l) c) := by
  refine xs_left [Kind.PyBitXor] ?_ (by decide) rfl ?_ ?_ _ _ _
  · intro k tag h; xop_case h, xorExprOp
  · intro c t c' h; simpa only [ΦEx] using h
  · intro s l c t c' h; simp only [ΦEx] at h; exact h
theorem xs_exprLoop (s l c) : WP ΦEx (exprLoopBody s l) c (ΦEx (.exprLoop s l) c) := by
  refine xs_left [Kind.PyBitOr] ?_ (by decide) rfl ?_ ?_ _ _ _
  · intro k tag h; xop_case h, exprOp
  · intro c t c' h; simpa only [ΦEx] using h
  · intro s l c t c' h; simp only [ΦEx] at h; exact h
theorem xs_andTestLoop (s l c) : WP ΦEx (andTestLoopBody s l) c (ΦEx (.andTestLoop s l) c) := by
  refine xs_left [Kind.PyAnd] ?_ (by decide) rfl ?_ ?_ _ _ _
  · intro k tag h; xop_case h, andTestOp
  · intro c t c' h; simpa only [ΦEx] using h
  · intro s l c t c' h; simp only [ΦEx] at h; exact h
theorem xs_orTestLoop (s l c) : WP ΦEx (orTestLoopBody s l) c (ΦEx (.orTestLoop s l) c) := by
  refine xs_left [Kind.PyOr] ?_ (by decide) rfl ?_ ?_ _ _ _
  · intro k tag h; xop_case h, orTestOp
  · intro c t c' h; simpa only [ΦEx] using h
  · intro s l c t c' h; simp only [ΦEx] at h; exact h

theorem xs_comparisonLoop (s l c) : WP ΦEx (comparisonLoopBody s l) c (ΦEx (.comparisonLoop s l) c) := by
  unfold comparisonLoopBody
  xe_simp
  intro t ht
  split
  · rename_i tag htag
    xe_simp
    intro x c1 ts a b b2 b3 y c2 us a' b' b2' b3'
    have h1 : ∀ y, XDer pRule X.comp_op y [t] y := by
      intro y
      unfold compOp at htag; split at htag <;> simp at htag <;> exact XDK.out (by xder)
    refine XL.mk (.step ht (a.trans a')) (.more (.seq (h1 _) b) b') ?_ (fun _ => b3' b3)
    exact StrOk.cons rfl (fun e => by rw [e] at htag; cases htag) (.app b2 b2' a')
  · rename_i htag
    xe_simp
    refine ⟨fun hk t2 ht2 => ⟨fun hk2 x c1 ts a b b2 b3 y c2 us a' b' b2' b3' => ?_,
      fun hk2 x c1 ts a b b2 b3 y c2 us a' b' b2' b3' => ?_⟩, fun hk => ⟨fun hk' t2 ht2 hk2 x c1 ts a b b2 b3 y c2 us a' b' b2' b3' => ?_, fun hk' => ?_⟩⟩
    · refine XL.mk (.step ht (.step ht2 (a.trans (a'.trans (.refl _))))) ?_ (by strs) (fun _ => b3' b3)
      exact XDK.out (by xder)
    · refine XL.mk (.step ht (a.trans (a'.trans (.refl _)))) ?_ (by strs) (fun _ => b3' b3)
      exact XDK.out (by xder)
    · refine XL.mk (.step ht (.step ht2 (a.trans (a'.trans (.refl _))))) ?_ (by strs) (fun _ => b3' b3)
      exact XDK.out (by xder)
    · refine XL.mk (.refl _) .stop .nil (fun h => h.addOp ht ?_)
      revert htag hk hk'
      generalize t.kind = q
      revert q; decide

/-! ### The chain of operators -/

theorem xs_atomStrLoop (s l c) : WP ΦEx (atomStrLoopBody s l) c (ΦEx (.atomStrLoop s l) c) := by
  unfold atomStrLoopBody
  xe_simp
  refine ⟨fun t ht => ⟨fun hk x c1 ts a b b2 b3 => ?_, fun hk => ?_⟩, fun x hx => ?_⟩
  · exact XE.mk (.step ht (a.trans (.refl _))) (by xend) (.none b3) b3
  · have : NoCont [.AtomString] c := .add (K := []) .nil ht hk
    exact XE.mk (.refl _) (.stop .nil) (.none this) this
  · exact XE.mk (.refl _) (.stop .nil) .nil (.err hx)

theorem xs_atom (c) : WP ΦEx atomBody c (ΦEx .atom c) := by
  unfold atomBody; xe_simp; xe_auto

end

end Verif
