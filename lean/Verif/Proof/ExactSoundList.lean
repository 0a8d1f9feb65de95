import Verif.Proof.ExactSoundExpr2

/-!
# What the parse functions consume is in the exact grammar: lists
-/

namespace Verif
open Prog XR
set_option linter.unusedVariables false
set_option linter.unusedSectionVars false

section
variable [Uni]

/-! ### The three kinds of loops -/

theorem LoopX.trail {r E c c' t x} {K : List Kind} (ht : c.symbol = .ok t) (hk : t.kind = .PyComa)
    (hE : SymIn E c.advance) (hn : E.contains .PyComa = false) (h : LoopX x E c.advance c') : LoopX r E c c' := by
  obtain ⟨us, a, b, _⟩ := h
  have hno : NoCont [.PyComa] c.advance := by
    obtain ⟨u, hu, hc⟩ := hE
    refine .of hu ?_
    cases hq : [Kind.PyComa].contains u.kind with
    | false => rfl
    | true => simp at hq; rw [hq, hn] at hc; cases hc
  obtain ⟨rfl, he⟩ := b hno
  refine ⟨[t], .step ht a, fun hN => ?_, fun x a' d => .inr ⟨?_, hE.back a⟩⟩
  · exact absurd (hN t ht) (by rw [hk]; decide)
  · rw [he, advance_exc_eq]; exact XDer.singleTr d hk

theorem LoopX.round {r E c c1 c' t ts} (ht : c.symbol = .ok t) (hk : t.kind = .PyComa)
    (h1 : Consumed c.advance ts c1) (h2 : XDer pRule r c.exc ts c1.exc) (h : LoopX r E c1 c') : LoopX r E c c' := by
  obtain ⟨us, a, _, b⟩ := h
  refine ⟨t :: (ts ++ us), .step ht (h1.trans a), fun hN => ?_, fun x a' d => ?_⟩
  · exact absurd (hN t ht) (by rw [hk]; decide)
  · rcases b _ _ h2 with b | ⟨b, hE⟩
    · exact .inl (XDer.consList d hk b)
    · exact .inr ⟨XDer.consListTr d hk b, hE⟩

theorem LoopX.stop {r E c} : LoopX r E c c :=
  ⟨[], .refl _, fun _ => ⟨rfl, rfl⟩, fun x a d => .inl (by rw [List.append_nil]; exact d.single)⟩

theorem LoopX.use {r E c c1 c' ts} (h1 : Consumed c ts c1) (h2 : XDer pRule r c.exc ts c1.exc) (h : LoopX r E c1 c') :
    ∃ us, Consumed c us c' ∧ (XDer pRule (X.list r) c.exc us c'.exc ∨
      (XDer pRule (X.listTr r) c.exc us c'.exc ∧ SymIn E c')) := by
  obtain ⟨us, a, _, b⟩ := h
  exact ⟨_, h1.trans a, b _ _ h2⟩

theorem halts_comma {c : PSt} {t ts c'} (ht : c.symbol = .ok t) (hk : t.kind = .PyComa) : Halts c ts c' :=
  fun hN => absurd (hN t ht) (by rw [hk]; decide)

omit [Uni] in
theorem ExprEnd.cons {x a z t b c'} (d : XDer pRule X.elem x a z) (hk : t.kind = .PyComa) (h : ExprEnd z b c') :
    ExprEnd x (a ++ t :: b) c' := by
  have key : ∀ y, XDer pRule (n .exprlist_in) z b y → XDer pRule (n .exprlist_in) x (a ++ t :: b) y := by
    intro y h
    cases h with
    | n h =>
      refine .n ?_
      have := XDer.round (.seq d (.k hk) : XDer pRule (X.elem ⬝ X.comma) x (a ++ [t]) z) h
      simpa [pRule] using this
  rcases h with ⟨h1, h2⟩ | ⟨h1, h2⟩
  · refine .inl ⟨?_, fun hi => key _ (h2 hi)⟩
    cases h1 with
    | n h1 => exact .n (XDer.consList d hk h1)
  · exact .inr ⟨key _ h1, h2⟩

omit [Uni] in
theorem ExprEnd.last {x a c} (h : ExprItem x a c) : ExprEnd x a c := by
  refine .inl ⟨.n h.1.single, fun hi => .n ?_⟩
  exact .seq (ts := []) .stop (.left (h.2 hi))

omit [Uni] in
theorem ExprEnd.comma {x a t} {c' : PSt} (h : XDer pRule X.elem x a c'.exc) (hk : t.kind = .PyComa) (hi : SymIn [.PyIn] c') :
    ExprEnd x (a ++ [t]) c' :=
  .inr ⟨.n (.seq (ts := []) .stop (.right (.seq h (.k hk)))), hi⟩

omit [Uni] in
theorem SubEnd.cons {x a z t b c'} (d : XDer pRule (n .subscript) x a z) (hk : t.kind = .PyComa) (h : SubEnd z b c') :
    SubEnd x (a ++ t :: b) c' := by
  rcases h with h1 | ⟨h1, h2⟩
  · cases h1 with
    | n h1 => exact .inl (.n (XDer.consList d hk h1))
  · refine .inr ⟨?_, h2⟩
    cases h1 with
    | n h =>
      refine .n ?_
      have := XDer.round (.seq d (.k hk) : XDer pRule (n .subscript ⬝ X.comma) x (a ++ [t]) z) h
      simpa [pRule] using this
omit [Uni] in
theorem SubEnd.last {x a c} (h : SubItem x a c) : SubEnd x a c := by
  rcases h with h | ⟨h, h'⟩
  · exact .inl (.n h.single)
  · exact .inr ⟨.n (.seq (ts := []) .stop h), h'⟩

/-! ### The functions -/

attribute [local irreducible] XG XPeek XE XL XT StrOk NoCont SymIn WP PSt.advance LoopX ExprEnd ExprItem SubEnd SubItem Halts

theorem xs_exprItem_star {x a} {c : PSt} (h : XDer pRule (n .star_expr) x a c.exc) : ExprItem x a c := by
  with_unfolding_all exact ⟨.right h, fun _ => h⟩
theorem xs_exprItem_named {x a} {c : PSt} (h : XDer pRule (n .namedexpr_test) x a c.exc) (h' : NoCont contTest c) : ExprItem x a c := by
  have : SymIn [.PyIn] c → XDer pRule (n .star_expr) x a c.exc := fun hi => (hi.noCont h' (by decide)).elim
  with_unfolding_all exact ⟨.left h, this⟩
theorem ExprItem.elem {x a c} (h : ExprItem x a c) : XDer pRule X.elem x a c.exc := by
  with_unfolding_all exact h.1

theorem xs_exprlistLoop (s ns ss c) : WP ΦEx (exprlistLoopBody s ns ss) c (ΦEx (.exprlistLoop s ns ss) c) := by
  unfold exprlistLoopBody
  xe_simp
  intro t ht
  refine ⟨fun hk t2 ht2 => ⟨fun hk2 x c1 ⟨us, a, b, _⟩ => ?_, fun _ _ => ⟨fun _ x c1 ts u v y c2 ⟨us, a, _, b⟩ => ?_,
    fun _ x c1 ts u v v2 v3 y c2 ⟨us, a, _, b⟩ => ?_⟩⟩, fun _ => ?_⟩
  · have hno : NoCont [.PyComa] c.advance := .of ht2 (by rw [hk2]; decide)
    have hb : us = [] ∧ c1.exc = c.advance.exc := by with_unfolding_all exact b hno
    obtain ⟨rfl, he⟩ := hb
    rw [advance_exc_eq] at he
    have hi : SymIn [.PyIn] c1 := SymIn.back (.of ht2 hk2 (by decide)) a
    exact ⟨[t], .step ht a, halts_comma ht hk, fun x a' d => .comma (by rw [he]; exact d.elem) hk hi⟩
  · exact ⟨_, .step ht (u.trans a), halts_comma ht hk, fun x a' d => .cons d.elem hk (b _ _ (xs_exprItem_star v))⟩
  · exact ⟨_, .step ht (u.trans a), halts_comma ht hk, fun x a' d => .cons d.elem hk (b _ _ (xs_exprItem_named v v3))⟩
  · have : ∃ ts, Consumed c ts c ∧ Halts c ts c ∧ ∀ x a, ExprItem x a c → ExprEnd x (a ++ ts) c :=
      ⟨[], .refl _, by with_unfolding_all exact fun _ => ⟨rfl, rfl⟩, fun x a d => by rw [List.append_nil]; exact .last d⟩
    unfold listResult; split <;> xe_simp <;> exact this

theorem xs_exprlist (c) : WP ΦEx exprlistBody c (ΦEx .exprlist c) := by
  unfold exprlistBody
  xe_simp [starOrNamed]
  intro t ht
  refine ⟨fun _ x c1 ts u v y c2 ⟨us, a, _, b⟩ => ?_, fun _ x c1 ts u v v2 v3 y c2 ⟨us, a, _, b⟩ => ?_⟩
  · exact ⟨_, u.trans a, b _ _ (xs_exprItem_star v)⟩
  · exact ⟨_, u.trans a, b _ _ (xs_exprItem_named v v3)⟩

theorem xs_testlistLoop (s ns ss c) : WP ΦEx (testlistLoopBody s ns ss) c (ΦEx (.testlistLoop s ns ss) c) := by
  unfold testlistLoopBody
  xe_simp
  intro t ht
  refine ⟨fun hk t2 ht2 => ⟨fun hk2 x c1 h => ?_, fun _ _ x c1 ts u v v2 v3 y c2 h => ?_⟩, fun _ => ?_⟩
  · refine h.trail (K := []) ht hk ?_ (by decide)
    rcases hk2 with hk2 | hk2 | hk2 <;> exact .of ht2 hk2 (by decide)
  · exact h.round ht hk u v
  · unfold listResult; split <;> xe_simp <;> exact .stop

theorem xs_setLoop (s ns ss c) : WP ΦEx (setLoopBody s ns ss) c (ΦEx (.setLoop s ns ss) c) := by
  unfold setLoopBody
  xe_simp
  intro t ht
  refine ⟨fun hk t2 ht2 => ⟨fun hk2 x c1 h => ?_, fun _ _ => ⟨fun hm x c1 ts u v v2 v3 y c2 h => ?_, fun _ x c1 ts u v v2 v3 y c2 h => ?_⟩⟩, fun _ => ?_⟩
  · exact h.trail (K := []) ht hk (.of ht2 hk2 (by decide)) (by decide)
  · exact h.round ht hk (.step ht2 u) (.right (.n (.seq (ts := [t2]) (.k hm) v)))
  · exact h.round ht hk u (.left v)
  · exact .stop

theorem xs_testlistStarExprLoop (s ns ss c) : WP ΦEx (testlistStarExprLoopBody s ns ss) c (ΦEx (.testlistStarExprLoop s ns ss) c) := by
  unfold testlistStarExprLoopBody
  xe_simp
  intro t ht
  refine ⟨fun hk t2 ht2 => ⟨fun hk2 x c1 h => ?_, fun _ _ => ⟨fun hm x c1 ts u v y c2 h => ?_, fun _ x c1 ts u v v2 v3 y c2 h => ?_⟩⟩, fun _ => ?_⟩
  · exact h.trail (K := []) ht hk (.of ht2 rfl (by simpa using hk2)) (by decide)
  · exact h.round ht hk u (.right v)
  · exact h.round ht hk u (.left v)
  · unfold testlistStarExprResult; split <;> xe_simp <;> exact .stop

theorem xs_testlist (c) : WP ΦEx testlistBody c (ΦEx .testlist c) := by
  unfold testlistBody
  xe_simp
  intro x c1 ts u v v2 v3 y c2 h
  obtain ⟨us, a, b | ⟨b, b'⟩⟩ := h.use u v
  · exact .mk1 a (.of1 (.n b))
  · exact .mk2 a (.of1 (.n b)) b'

theorem xs_testlistStarExpr (c) : WP ΦEx testlistStarExprBody c (ΦEx .testlistStarExpr c) := by
  unfold testlistStarExprBody
  xe_simp
  intro t ht
  refine ⟨fun _ x c1 ts u v y c2 h => ?_, fun _ x c1 ts u v v2 v3 y c2 h => ?_⟩
  · obtain ⟨us, a, b | ⟨b, b'⟩⟩ := h.use u (.right v)
    · exact .mk1 a (.of1 (.n b))
    · exact .mk2 a (.of1 (.n b)) b'
  · obtain ⟨us, a, b | ⟨b, b'⟩⟩ := h.use u (.left v)
    · exact .mk1 a (.of1 (.n b))
    · exact .mk2 a (.of1 (.n b)) b'

theorem xs_dictRest (s ns c) : WP ΦEx (dictRest s ns) c (fun t c' => XG (opt (X.comma ⬝ opt X.dictEntry)) c c') := by
  unfold dictRest dictRest.fin
  xe_simp
  xe_auto

theorem xs_dictorsetMaker (c) : WP ΦEx dictorsetMakerBody c (ΦEx .dictorsetMaker c) := by
  unfold dictorsetMakerBody
  xe_simp
  intro t ht
  refine ⟨fun hk x c1 ts u v v2 v3 y c2 h => ?_, fun _ => ⟨fun hk x c1 ts u v v2 v3 => ?_,
    fun hk x c1 ts u v v2 v3 t2 ht2 => ⟨fun _ y c2 us w z z2 z3 => ?_, fun _ y c2 h => ?_⟩⟩⟩
  · obtain ⟨us, a, b⟩ := h.use (r := X.starOrTest) (.step ht u) (.right (.n (.seq (ts := [t]) (.k hk) v)))
    exact .mk a (.of1 (.n (.right (b.elim (·.listTr) (·.1)))))
  · refine wp_mono _ (fun y c2 hy => ?_) (xs_dictRest _ _ _)
    obtain ⟨us, w, z⟩ := hy.elim
    xe_close
  · refine wp_mono _ (fun y c2 hy => ?_) (xs_dictRest _ _ _)
    obtain ⟨us, w, z⟩ := hy.elim
    xe_close
  · obtain ⟨us, a, b⟩ := h.use (r := X.starOrTest) u (.left v)
    exact .mk a (.of1 (.n (.right (b.elim (·.listTr) (·.1)))))

/-! ### Subscripts -/

theorem xs_separate {ts : List Token} {c : PSt} {u} (h1 : StrOk ts c) (h2 : NoCont contTest c) (hu : c.symbol = .ok u) :
    X.separate (ts ++ [u]) = true := by
  have h2 : contTest.contains u.kind = false := by with_unfolding_all exact h2 u hu
  have h1 : StrEnd ts u := by with_unfolding_all exact h1 u hu
  have h3 : X.continues.contains u.kind = false := by
    revert h2; generalize u.kind = q; revert q; decide
  unfold X.separate
  simp only [List.reverse_append, List.reverse_cons, List.reverse_nil, List.nil_append, List.singleton_append]
  cases hr : ts.reverse with
  | nil => rfl
  | cons v l =>
    have hl : ts.getLast? = some v := by rw [List.getLast?_eq_head?_reverse, hr]; rfl
    simp only [h3, Bool.not_false, Bool.true_and]
    cases hq : u.kind == .AtomString with
    | false => rfl
    | true =>
      have := h1 (by simpa using hq) v hl
      simpa using this

theorem xs_slice {ts u} {x : ExcStatus} {c1 : PSt} (h : XDer pRule (n .test) x ts c1.exc) (h1 : StrOk ts c1)
    (h2 : NoCont contTest c1) (hu : c1.symbol = .ok u) :
    XDer pRule (X.colon ∥ k .PyRightBracket ∥ only X.separate (n .test ⬝ any)) x (ts ++ [u]) c1.exc :=
  .right (.right (.only (.seq h .any) (xs_separate h1 h2 hu)))

end

end Verif
