import Verif.Proof.Follow
import Verif.Proof.CompleteAtom
import Verif.Spec.Outcome
import Verif.Spec.Limits

/-!
# Constructs that are never accepted: preparation
-/

namespace Verif
section
variable [Uni]

/-! ### An expression that does not get past its first atom -/

theorem never_atomExpr {c t} (ht : c.symbol = .ok t) (hk : t.kind ≠ .PyAwait) (h : Never .atom c) : Never .atomExpr c := by
  refine never_body ?_
  simp only [body, atomExprBody]
  refine neverp_bind evp_here (neverp_bind (evp_symAt ht) ?_)
  simp only [hk, if_false]
  exact neverp_bind evp_pure (neverp_left (neverp_parse h))

theorem never_first {f g : Fn} {k : Nat → Tree → Prog Tree} (hb : body f = (do let s ← Prog.here; let x ← Prog.parse g; k s x)) {c}
    (h : Never g c) : Never f c := by
  refine never_body ?_
  rw [hb]
  exact neverp_bind evp_here (neverp_left (neverp_parse h))

theorem never_power {c} (h : Never .atomExpr c) : Never .power c := never_first rfl h

theorem never_factor {c t} (ht : c.symbol = .ok t) (hk : t.kind.starts = some 0) (h : Never .power c) : Never .factor c := by
  have n1 : t.kind ≠ .PyPlus := by intro h; rw [h] at hk; cases hk
  have n2 : t.kind ≠ .PyMinus := by intro h; rw [h] at hk; cases hk
  have n3 : t.kind ≠ .PyBitInvert := by intro h; rw [h] at hk; cases hk
  refine never_body ?_
  simp only [body, factorBody]
  refine neverp_bind evp_here (neverp_bind (evp_symAt ht) ?_)
  simp only [n1, n2, n3, if_false]
  exact neverp_parse h

theorem never_comparison_up {c t} (ht : c.symbol = .ok t) (hk : ∃ m, t.kind.starts = some m ∧ m ≤ 11) (h : Never .comparison c) :
    Never .notTest c ∧ Never .andTest c ∧ Never .orTest c ∧ Never .test c ∧ Never .namedExpression c := by
  obtain ⟨m, hm, hl⟩ := hk
  have n1 : t.kind ≠ .PyNot := by intro h; rw [h] at hm; cases hm; omega
  have n2 : t.kind ≠ .PyLambda := by intro h; rw [h] at hm; cases hm; omega
  have h1 : Never .notTest c := by
    refine never_body ?_
    simp only [body, notTestBody]
    refine neverp_bind evp_here (neverp_bind (evp_symAt ht) ?_)
    simp only [n1, if_false]
    exact neverp_parse h
  have h2 : Never .andTest c := never_first rfl h1
  have h3 : Never .orTest c := never_first rfl h2
  have h4 : Never .test c := by
    refine never_body ?_
    simp only [body, testBody]
    refine neverp_bind evp_here (neverp_bind (evp_symHere ht) ?_)
    simp only [n2, if_false]
    exact neverp_left (neverp_parse h3)
  exact ⟨h1, h2, h3, h4, never_first rfl h4⟩

/-- If the atom is never accepted, no expression is. -/
theorem never_levels {c t} (ht : c.symbol = .ok t) (hk : t.kind.starts = some 0) (h : Never .atom c) : ∀ f ∈ exprFns, Never f c := by
  have n0 : t.kind ≠ .PyAwait := by intro h; rw [h] at hk; cases hk
  have h1 := never_atomExpr ht n0 h
  have h2 := never_power h1
  have h3 := never_factor ht hk h2
  have h4 : Never .term c := never_first rfl h3
  have h5 : Never .arith c := never_first rfl h4
  have h6 : Never .shift c := never_first rfl h5
  have h7 : Never .andExpr c := never_first rfl h6
  have h8 : Never .xorExpr c := never_first rfl h7
  have h9 : Never .expr c := never_first rfl h8
  have h10 : Never .comparison c := never_first rfl h9
  obtain ⟨h11, h12, h13, h14, h15⟩ := never_comparison_up ht ⟨0, hk, by omega⟩ h10
  intro f hf
  simp only [exprFns, List.mem_cons, List.not_mem_nil, or_false] at hf
  rcases hf with rfl | rfl | rfl | rfl | rfl | rfl | rfl | rfl | rfl | rfl | rfl | rfl | rfl | rfl | rfl | rfl <;> assumption

omit [Uni] in
theorem not_first {n c u} (h : c.symbol = .ok u) (hk : ∀ m, u.kind.starts = some m → n < m) : ¬ First n c := by
  rintro ⟨v, m, h1, h2, h3⟩
  rw [h] at h1
  cases h1
  exact absurd (hk m h2) (by omega)

theorem never_test_first {c u} (h : c.symbol = .ok u) (hk : ∀ m, u.kind.starts = some m → 15 < m) : Never .test c :=
  never_ev fun _ _ he => not_first h hk (ev_follow he).1

theorem never_expr_first {c u} (h : c.symbol = .ok u) (hk : ∀ m, u.kind.starts = some m → 10 < m) : Never .expr c :=
  never_ev fun _ _ he => not_first h hk (ev_follow he).1

/-! ### Targets of `for` -/

theorem starExpr_tag {c t c'} (h : Ev .starExpr c t c') : t.tag? = some .StarExpr := by
  refine ev_inv (Q := fun t _ => t.tag? = some .StarExpr) h ?_
  simp only [body, starExprBody, wp_bind, wp_here, wp_symAt, wp_ite, wp_next, wp_parse, wp_mk, wp_fail]
  exact fun _ _ => ⟨fun _ _ _ _ => rfl, fun _ => trivial⟩

omit [Uni] in
/-- The current symbol is the keyword `in`. -/
def AtIn (c : PSt) : Prop := ∃ t, c.symbol = .ok t ∧ t.kind = .PyIn

theorem named_not_in {c t c'} (h : Ev .namedExpression c t c') : ¬ AtIn c' := by
  rintro ⟨u, h1, h2⟩
  have := (ev_follow h).2.1 u h1 11 (by rw [h2]; rfl)
  omega

def ΦX : Fn → PSt → Tree → PSt → Prop
  | .exprlistLoop _ ns ss, c, t, c' =>
    (ss.length + 1 = ns.length ∨ (AtIn c ∧ ss.length = ns.length)) → (AtIn c → EndsOpen ns ss) → AtIn c' → OpenTarget t
  | _, _, _, _ => True

theorem sound_open (f : Fn) (c : PSt) : WP (fun f c t c' => Ev f c t c' ∧ ΦX f c t c') (body f) c (ΦX f c) := by
  cases f
  case exprlistLoop s ns ss =>
    simp only [body, exprlistLoopBody, wp_bind, wp_symHere, wp_ite, wp_next, wp_parse, wp_failHere, listResult]
    refine fun t ht => ⟨fun hk t2 ht2 => ⟨fun hk2 y c' hy hlen ho hin => ?_, fun hn => ⟨fun _ => trivial, fun _ => ⟨fun _ x c1 hx y c' hy hlen ho hin => ?_,
      fun _ x c1 hx y c' hy hlen ho hin => ?_⟩⟩⟩, fun hk => ?_⟩
    · have h1 : ss.length + 1 = ns.length := by
        rcases hlen with h | ⟨⟨u, hu, hk'⟩, _⟩
        · exact h
        · rw [ht] at hu; cases hu; rw [hk] at hk'; cases hk'
      refine hy.2 (.inr ⟨⟨t2, ht2, hk2⟩, by simpa using h1⟩) (fun _ => .inl (by simpa using h1)) hin
    · have h1 : ss.length + 1 = ns.length := by
        rcases hlen with h | ⟨⟨u, hu, hk'⟩, _⟩
        · exact h
        · rw [ht] at hu; cases hu; rw [hk] at hk'; cases hk'
      exact hy.2 (.inl (by simpa using h1)) (fun _ => .inr ⟨x, by simp, starExpr_tag hx.1⟩) hin
    · have h1 : ss.length + 1 = ns.length := by
        rcases hlen with h | ⟨⟨u, hu, hk'⟩, _⟩
        · exact h
        · rw [ht] at hu; cases hu; rw [hk] at hk'; cases hk'
      exact hy.2 (.inl (by simpa using h1)) (fun h => absurd h (named_not_in hx.1)) hin
    · split
      · rename_i x
        simp only [wp_pure]
        intro hlen ho hin
        rcases ho hin with h | ⟨y, h, h'⟩
        · simp at h
        · simp at h; subst h; exact .inl h'
      · simp only [wp_mk]
        exact fun hlen ho hin => .inr ⟨_, _, _, _, rfl, ho hin⟩
  all_goals exact wp_any _ (fun _ _ => trivial)

theorem exprlist_open {c t c'} (h : Ev .exprlist c t c') (hin : AtIn c') : OpenTarget t := by
  revert hin
  refine ev_inv (Q := fun t c' => AtIn c' → OpenTarget t) h ?_
  simp only [body, exprlistBody, starOrNamed, wp_bind, wp_here, wp_symHere, wp_ite, wp_parse]
  refine fun t ht => ⟨fun _ x c1 hx y c2 hy hin => ?_, fun _ x c1 hx y c2 hy hin => ?_⟩
  · exact ev_sound sound_open hy (.inl rfl) (fun _ => .inr ⟨x, rfl, starExpr_tag hx⟩) hin
  · exact ev_sound sound_open hy (.inl rfl) (fun h => absurd h (named_not_in hx)) hin

/-! ### `x in y` read as a comparison -/

omit [Uni] in
theorem rot_base {x y : Ex} (hx : x.Wf) (hl : x.level ≤ 11) (hy : y.Wf) (hyl : y.level ≤ 10) :
    (∃ e : Ex, e.Wf ∧ e.level ≤ max 11 y.level ∧ e.words = x.words ++ .kw (cs! "in") .PyIn :: y.words) ∨
    (∃ z r, y.words = z :: r ∧ (z.leaf.kind = .PyNot ∨ z.leaf.kind = .PyLambda)) := by
  refine .inl ⟨.cmp .in_ x y, ?_, ?_, by rw [Ex.words]; rfl⟩
  · rw [Ex.Wf]
    exact ⟨hx, hy, hl, hyl⟩
  · show 11 ≤ _
    omega

omit [Uni] in
theorem rotate {x : Ex} (hx : x.Wf) (hl : x.level ≤ 11) : (y : Ex) → y.Wf → y.level ≤ 15 →
    (∃ e : Ex, e.Wf ∧ e.level ≤ max 11 y.level ∧ e.words = x.words ++ .kw (cs! "in") .PyIn :: y.words) ∨
    (∃ z r, y.words = z :: r ∧ (z.leaf.kind = .PyNot ∨ z.leaf.kind = .PyLambda))
  | .name w, hy, _ => rot_base hx hl hy (by simp [Ex.level])
  | .num w, hy, _ => rot_base hx hl hy (by simp [Ex.level])
  | .strs w, hy, _ => rot_base hx hl hy (by simp [Ex.level])
  | .const w, hy, _ => rot_base hx hl hy (by simp [Ex.level])
  | .tuple w, hy, _ => rot_base hx hl hy (by simp [Ex.level])
  | .list w, hy, _ => rot_base hx hl hy (by simp [Ex.level])
  | .set w, hy, _ => rot_base hx hl hy (by simp [Ex.level])
  | .dict1 a b, hy, _ => rot_base hx hl hy (by simp [Ex.level])
  | .dict2 a b a' b', hy, _ => rot_base hx hl hy (by simp [Ex.level])
  | .attr a b, hy, _ => rot_base hx hl hy (by simp [Ex.level])
  | .call a b, hy, _ => rot_base hx hl hy (by simp [Ex.level])
  | .index a b, hy, _ => rot_base hx hl hy (by simp [Ex.level])
  | .await a, hy, _ => rot_base hx hl hy (by simp [Ex.level])
  | .pow a b, hy, _ => rot_base hx hl hy (by simp [Ex.level])
  | .un a b, hy, _ => rot_base hx hl hy (by simp [Ex.level])
  | .bin op a b, hy, hy' => by
    by_cases h10 : op.level ≤ 10
    · exact rot_base hx hl hy h10
    · rw [Ex.Wf] at hy
      rw [Ex.level] at hy'
      rcases rotate hx hl a hy.1 (by omega) with ⟨e, h1, h2, h3⟩ | ⟨z, r, h1, h2⟩
      · refine .inl ⟨.bin op e b, ?_, by simp only [Ex.level]; omega, by simp [Ex.words, h3]⟩
        rw [Ex.Wf]
        refine ⟨h1, hy.2.1, ?_, hy.2.2.2⟩
        have : 13 ≤ op.level := by revert h10; cases op <;> simp [BinOp.level]
        omega
      · exact .inr ⟨z, _, by rw [Ex.words, h1, List.cons_append], h2⟩
  | .cmp op a b, hy, hy' => by
    rw [Ex.Wf] at hy
    rcases rotate hx hl a hy.1 (by omega) with ⟨e, h1, h2, h3⟩ | ⟨z, r, h1, h2⟩
    · refine .inl ⟨.cmp op e b, ?_, by simp only [Ex.level]; omega, by simp [Ex.words, h3]⟩
      rw [Ex.Wf]
      exact ⟨h1, hy.2.1, by omega, hy.2.2.2⟩
    · exact .inr ⟨z, _, by rw [Ex.words, h1, List.cons_append], h2⟩
  | .not a, _, _ => .inr ⟨_, _, by rw [Ex.words], .inl rfl⟩
  | .cond a d b, hy, hy' => by
    rw [Ex.Wf] at hy
    rcases rotate hx hl a hy.1 (by omega) with ⟨e, h1, h2, h3⟩ | ⟨z, r, h1, h2⟩
    · refine .inl ⟨.cond e d b, ?_, by simp only [Ex.level]; omega, by simp [Ex.words, h3]⟩
      rw [Ex.Wf]
      exact ⟨h1, hy.2.1, hy.2.2.1, by omega, hy.2.2.2.2⟩
    · exact .inr ⟨z, _, by rw [Ex.words, h1, List.cons_append], h2⟩
  | .lam a, _, _ => .inr ⟨_, _, by rw [Ex.words], .inr rfl⟩
  | .named a b, _, h => by simp [Ex.level] at h
  | .star a, _, h => by simp [Ex.level] at h
  | .slice a b c, _, h => by simp [Ex.level] at h

/-- The list rule, given `x in y` and a token that does not go on with it, either fails or stops at that token. -/
theorem exprlist_in {x y : Ex} (hx : x.Wf) (hxl : x.level ≤ 10) (hy : y.Wf) (hyl : y.level ≤ 15) {c d : PSt}
    (hf : Fed c (x.words ++ .kw (cs! "in") .PyIn :: y.words) d) (he : EndsExpr 16 d)
    (hc : ∀ u, d.symbol = .ok u → u.kind ≠ .PyComa) {t c'} (h : Ev .exprlist c t c') : c' = d := by
  obtain ⟨c1, hf1, hf2⟩ := fed_append.1 hf
  obtain ⟨u, m, hu, hs, hm⟩ := fed_first hx hf1
  have n1 : u.kind ≠ .PyMul := starts_ne hs hm (by intro m' h'; cases h'; omega)
  rcases rotate hx (by omega) y hy hyl with ⟨e, h1, h2, h3⟩ | ⟨z, r, h1, h2⟩
  · rw [← h3] at hf
    obtain ⟨te, hte, hev⟩ := (ex_good h1).parses 16 (by omega) (by omega) c d hf he
    obtain ⟨v, hv, hk⟩ := he
    have : Ev .exprlist c te d := by
      refine ev_body ?_
      simp only [body, exprlistBody]
      refine evp_bind evp_here (evp_bind (a := te) (d := d) ?_ (evp_parse (ev_body ?_)))
      · unfold starOrNamed
        refine evp_bind (evp_symHere hu) ?_
        simp only [n1, if_false]
        exact evp_parse hev
      · simp only [body, exprlistLoopBody]
        refine evp_bind (evp_symHere hv) ?_
        simp only [hc v hv, if_false, listResult]
        exact evp_pure
    exact (ev_det h this).2
  · exfalso
    obtain ⟨v, hv, lv, hf3⟩ := fed_cons hf2
    have kv : v.kind = .PyIn := kind_of_leaf lv
    rw [h1] at hf3
    obtain ⟨w, hw, lw, _⟩ := fed_cons hf3
    have kw : w.kind = z.leaf.kind := kind_of_leaf lw
    obtain ⟨te, hte, hev⟩ := (ex_good hx).parses 10 hxl (by omega) c c1 hf1 (ends_of_symbol hv kv (by intro m h; cases h; omega))
    have hcmp : Never .comparison c := by
      refine never_body ?_
      simp only [body, comparisonBody]
      refine neverp_bind evp_here (neverp_bind (evp_parse hev) (neverp_parse (never_body ?_)))
      simp only [body, comparisonLoopBody]
      refine neverp_bind (evp_symAt hv) ?_
      simp only [kv, compOp]
      refine neverp_bind evp_next (neverp_left (neverp_parse (never_expr_first hw ?_)))
      rw [kw]
      rcases h2 with h2 | h2 <;> rw [h2] <;> intro m h <;> cases h <;> omega
    have hn := (never_comparison_up hu ⟨m, hs, by omega⟩ hcmp).2.2.2.2
    obtain ⟨n, h⟩ := h
    refine never_body (f := .exprlist) (c := c) ?_ n t c' h
    simp only [body, exprlistBody]
    refine neverp_bind evp_here (neverp_left ?_)
    unfold starOrNamed
    refine neverp_bind (evp_symHere hu) ?_
    simp only [n1, if_false]
    exact neverp_parse hn

end
end Verif
