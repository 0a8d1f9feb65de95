import Verif.Proof.ExactLoop

/-!
# Sentences of the exact grammar are accepted: displays, parameters, types
-/

namespace Verif
open XR Prog
set_option linter.unusedVariables false
set_option linter.unusedSimpArgs false
set_option linter.unusedSectionVars false

section
variable [Uni]
attribute [local irreducible] Prog.bind Prog.here Prog.symAt Prog.symHere Prog.sym? Prog.next Prog.parse Prog.mk
  Prog.failHere On Eats XFits PSt.after hdT HdIs PSt.advance Suc StrEnd
variable {h : Nat}

/-! ### Displays -/

theorem set_stop {x s n p} : LoopOk .dictorsetmaker (.setLoop s n p) x [] x := by
  loop_start hf
  go setLoopBody
  eat
theorem set_comma {x s n p t} (ht : t.kind = .PyComa) : LoopOk .dictorsetmaker (.setLoop s n p) x [t] x := by
  loop_start hf
  go setLoopBody
  eat
  eat_loop set_stop

omit [Uni] in
theorem starOrTest_inv {x ts y} (d : XN h X.starOrTest x ts y) :
    XN h (.n .test) x ts y ∨ ∃ t us, ts = t :: us ∧ t.kind = .PyMul ∧ XN h (.n .expr) x us y := by
  simp only [X.starOrTest, xn_alt] at d
  obtain d | d := d
  · exact .inl d
  · replace d := XN.inv' d
    simp only [pRule, xn_seq, xn_k] at d
    obtain ⟨_, _, us, ⟨t, rfl, ht, rfl⟩, d, rfl⟩ := d
    exact .inr ⟨t, us, rfl, ht, d⟩

theorem cx_setLoop (ih : ∀ p, Claim h p) {x ts z} (d : XN h (star (X.comma ⬝ X.starOrTest)) x ts z) :
    ∀ b y, XN h (opt X.comma) z b y → ∀ s n p, LoopOk .dictorsetmaker (.setLoop s n p) x (ts ++ b) y := by
  refine XN.star_ind (P := fun x ts z => ∀ b y, XN h (opt X.comma) z b y → ∀ s n p,
    LoopOk .dictorsetmaker (.setLoop s n p) x (ts ++ b) y) ?_ ?_ d
  · intro x b y d s n p
    xinv d
    obtain ⟨rfl, rfl⟩ | ⟨t, rfl, ht, rfl⟩ := d
    · exact set_stop
    · exact set_comma ht
  · intro x a z b y d1 d2 hi b' y' d3 s n p
    loop_start hf
    have d4 := XN.seq d2 d3
    have hl := hi _ _ d3
    clear d2 d3
    rw [xn_seq] at d1
    obtain ⟨a, _, b, d0, d1, rfl⟩ := d1
    replace d1 := starOrTest_inv d1
    xinv d0
    splits <;> go setLoopBody <;> eat <;> eat_loop (hl _ _ _)

theorem cx_dictorset (ih : ∀ p, Claim h p) : Claim (h + 1) .dictorsetmaker := by
  intro c x ts y u d hx ho hf
  have hfk := XFits.fol hf
  replace d := XN.inv d
  simp only [pRule] at d
  rw [xn_alt] at d
  obtain d | d := d
  · simp only [X.dictEntry] at d
    xinv d
    splits <;> go dictorsetMakerBody <;> unfold dictRest dictRest.fin <;> eat
  · simp only [X.listTr] at d
    rw [xn_seq] at d
    obtain ⟨a, z, b, d1, d2, rfl⟩ := d
    have d3 := d2
    rw [xn_seq] at d3
    obtain ⟨a', z', b', d3, d4, rfl⟩ := d3
    have hl := cx_setLoop ih d3 _ _ d4
    clear d3 d4
    have hh : hdT (a' ++ b') u = hdT (a' ++ b') u := rfl
    obtain ⟨t, hd, hk⟩ : ∃ t, hdT (a' ++ b') u = t ∧ (t.kind = .PyComa ∨ t.kind = .PyRightCurly) := by
      refine ⟨_, rfl, ?_⟩
      generalize a' ++ b' = w at *
      cases w with
      | nil => rw [hdT_nil]; right; kdec
      | cons t w =>
        rw [hdT_cons]
        have := d2.first _ _ rfl
        kdec
    replace d1 := starOrTest_inv d1
    obtain d1 | ⟨t', us, rfl, ht', d1⟩ := d1
    · hds
      go dictorsetMakerBody
      eat
      refine eats_symHere (by assumption) hd ?_
      eat
      eat_loop (hl _ _ _)
    · lists
      hds
      go dictorsetMakerBody
      eat
      eat_loop (hl _ _ _)

/-! ### Parameters of a lambda -/

theorem cx_vaStar (ih : ∀ p, Claim h p) {x ts z} (d : XN h (star (X.comma ⬝ .n .vararg)) x ts z) :
    ∀ b y, XN h (opt (X.comma ⬝ X.kwargs)) z b y → ∀ s v, LoopOk .varargslist (.varArgsStarLoop s v) x (ts ++ b) y := by
  refine XN.star_ind (P := fun x ts z => ∀ b y, XN h (opt (X.comma ⬝ X.kwargs)) z b y → ∀ s v,
    LoopOk .varargslist (.varArgsStarLoop s v) x (ts ++ b) y) ?_ ?_ d
  · intro x b y d s v
    loop_start hf
    simp only [X.kwargs] at d
    xinv d
    splits <;> go varArgsStarLoopBody <;> unfold varArgsPower varArgsResult <;> eat
  · intro x a z b y d1 d2 hi b' y' d3 s v
    loop_start hf
    have d4 := XN.seq d2 d3
    have hl := hi _ _ d3
    clear d2 d3
    xinv d1
    splits <;> go varArgsStarLoopBody <;> eat <;> eat_loop (hl _ _)

theorem cx_vaDiv (ih : ∀ p, Claim h p) {x ts z} (d : XN h (star (X.comma ⬝ .n .vararg)) x ts z) :
    ∀ b y, XN h (opt (X.comma ⬝ (X.starargs ∥ X.kwargs))) z b y → ∀ s v,
      LoopOk .varargslist (.varArgsDivLoop s v) x (ts ++ b) y := by
  refine XN.star_ind (P := fun x ts z => ∀ b y, XN h (opt (X.comma ⬝ (X.starargs ∥ X.kwargs))) z b y → ∀ s v,
    LoopOk .varargslist (.varArgsDivLoop s v) x (ts ++ b) y) ?_ ?_ d
  · intro x b y d s v
    loop_start hf
    rw [xn_opt] at d
    obtain ⟨rfl, rfl⟩ | d := d
    · lists; go varArgsDivLoopBody; unfold varArgsResult; eat
    obtain ⟨t, b, rfl, ht, d⟩ := xn_kseq d
    rw [xn_alt] at d
    obtain d | d := d
    · simp only [X.starargs] at d
      obtain ⟨t2, b, rfl, ht2, d⟩ := xn_kseq d
      rw [xn_seq] at d
      obtain ⟨a1, z1, b1, d1, d2, rfl⟩ := d
      have d3 := d2
      rw [xn_seq] at d3
      obtain ⟨a2, z2, b2, d3, d4, rfl⟩ := d3
      have hl := cx_vaStar ih d3 _ _ d4
      clear d3 d4
      splits <;> go varArgsDivLoopBody <;> unfold varArgsMul <;> eat <;> eat_loop (hl _ _)
    · simp only [X.kwargs] at d
      xinv d
      splits <;> go varArgsDivLoopBody <;> unfold varArgsPower varArgsResult <;> eat
  · intro x a z b y d1 d2 hi b' y' d3 s v
    loop_start hf
    have d4 := XN.seq d2 d3
    have hl := hi _ _ d3
    clear d2 d3
    xinv d1
    splits <;> go varArgsDivLoopBody <;> eat <;> eat_loop (hl _ _)

theorem cx_vaMain (ih : ∀ p, Claim h p) {x ts z} (d : XN h (star (X.comma ⬝ .n .vararg)) x ts z) :
    ∀ b y, XN h (opt (X.comma ⬝ .k .PyDiv ⬝ star (X.comma ⬝ .n .vararg)) ⬝ opt (X.comma ⬝ (X.starargs ∥ X.kwargs))) z b y →
      ∀ s v, LoopOk .varargslist (.varArgsMainLoop s v) x (ts ++ b) y := by
  refine XN.star_ind (P := fun x ts z => ∀ b y,
    XN h (opt (X.comma ⬝ .k .PyDiv ⬝ star (X.comma ⬝ .n .vararg)) ⬝ opt (X.comma ⬝ (X.starargs ∥ X.kwargs))) z b y →
      ∀ s v, LoopOk .varargslist (.varArgsMainLoop s v) x (ts ++ b) y) ?_ ?_ d
  · intro x b y d s v
    loop_start hf
    rw [xn_seq] at d
    obtain ⟨a, z, b, d0, d, rfl⟩ := d
    rw [xn_opt] at d0
    obtain ⟨rfl, rfl⟩ | d0 := d0
    · rw [xn_opt] at d
      obtain ⟨rfl, rfl⟩ | d := d
      · lists; go varArgsMainLoopBody; unfold varArgsResult; eat
      obtain ⟨t, b, rfl, ht, d⟩ := xn_kseq d
      rw [xn_alt] at d
      obtain d | d := d
      · simp only [X.starargs] at d
        obtain ⟨t2, b, rfl, ht2, d⟩ := xn_kseq d
        rw [xn_seq] at d
        obtain ⟨a1, z1, b1, d1, d2, rfl⟩ := d
        have d3 := d2
        rw [xn_seq] at d3
        obtain ⟨a2, z2, b2, d3, d4, rfl⟩ := d3
        have hl := cx_vaStar ih d3 _ _ d4
        clear d3 d4
        splits <;> go varArgsMainLoopBody <;> unfold varArgsMul <;> eat <;> eat_loop (hl _ _)
      · simp only [X.kwargs] at d
        xinv d
        splits <;> go varArgsMainLoopBody <;> unfold varArgsPower varArgsResult <;> eat
    · obtain ⟨t, b, rfl, ht, d0⟩ := xn_kseq d0
      obtain ⟨t2, b, rfl, ht2, d0⟩ := xn_kseq d0
      have hl := cx_vaDiv ih d0 _ _ d
      lists
      go varArgsMainLoopBody
      eat
      eat_loop (hl _ _)
  · intro x a z b y d1 d2 hi b' y' d3 s v
    loop_start hf
    have d4 := XN.seq d2 d3
    have hl := hi _ _ d3
    clear d2 d3
    xinv d1
    splits <;> go varArgsMainLoopBody <;> eat <;> eat_loop (hl _ _)

theorem cx_varargslist (ih : ∀ p, Claim h p) : Claim (h + 1) .varargslist := by
  intro c x ts y u d hx ho hf
  have hfk := XFits.fol hf
  replace d := XN.inv d
  simp only [pRule] at d
  rw [xn_alt, xn_alt] at d
  obtain d | d | d := d
  · rw [xn_seq] at d
    obtain ⟨a, z, b, d1, d2, rfl⟩ := d
    have d3 := d2
    rw [xn_seq] at d3
    obtain ⟨a', z', b', d3, d4, rfl⟩ := d3
    have hl := cx_vaMain ih d3 _ _ d4
    clear d3 d4
    splits <;> go varArgsListBody <;> eat <;> eat_loop (hl _ _)
  · simp only [X.starargs] at d
    obtain ⟨t2, b, rfl, ht2, d⟩ := xn_kseq d
    rw [xn_seq] at d
    obtain ⟨a1, z1, b1, d1, d2, rfl⟩ := d
    have d3 := d2
    rw [xn_seq] at d3
    obtain ⟨a2, z2, b2, d3, d4, rfl⟩ := d3
    have hl := cx_vaStar ih d3 _ _ d4
    clear d3 d4
    splits <;> go varArgsListBody <;> unfold varArgsMul <;> eat <;> eat_loop (hl _ _)
  · simp only [X.kwargs] at d
    xinv d
    splits <;> go varArgsListBody <;> unfold varArgsPower varArgsResult <;> eat

/-! ### Types of a function -/

theorem cx_tlStar (ih : ∀ p, Claim h p) {x ts z} (d : XN h (star (X.comma ⬝ .n .test)) x ts z) :
    ∀ b y, XN h (opt (X.comma ⬝ X.typeKw)) z b y → ∀ s v, LoopOk .typelist (.typeListStarLoop s v) x (ts ++ b) y := by
  refine XN.star_ind (P := fun x ts z => ∀ b y, XN h (opt (X.comma ⬝ X.typeKw)) z b y → ∀ s v,
    LoopOk .typelist (.typeListStarLoop s v) x (ts ++ b) y) ?_ ?_ d
  · intro x b y d s v
    loop_start hf
    simp only [X.typeKw] at d
    xinv d
    splits <;> go typeListStarLoopBody <;> unfold typeListPower typeListResult <;> eat
  · intro x a z b y d1 d2 hi b' y' d3 s v
    loop_start hf
    have d4 := XN.seq d2 d3
    have hl := hi _ _ d3
    clear d2 d3
    xinv d1
    splits <;> go typeListStarLoopBody <;> eat <;> eat_loop (hl _ _)

theorem cx_tlMain (ih : ∀ p, Claim h p) {x ts z} (d : XN h (star (X.comma ⬝ .n .test)) x ts z) :
    ∀ b y, XN h (opt (X.comma ⬝ (X.typeStar ∥ X.typeKw))) z b y →
      ∀ s v, LoopOk .typelist (.typeListMainLoop s v) x (ts ++ b) y := by
  refine XN.star_ind (P := fun x ts z => ∀ b y, XN h (opt (X.comma ⬝ (X.typeStar ∥ X.typeKw))) z b y →
      ∀ s v, LoopOk .typelist (.typeListMainLoop s v) x (ts ++ b) y) ?_ ?_ d
  · intro x b y d s v
    loop_start hf
    rw [xn_opt] at d
    obtain ⟨rfl, rfl⟩ | d := d
    · lists; go typeListMainLoopBody; unfold typeListResult; eat
    obtain ⟨t, b, rfl, ht, d⟩ := xn_kseq d
    rw [xn_alt] at d
    obtain d | d := d
    · simp only [X.typeStar] at d
      obtain ⟨t2, b, rfl, ht2, d⟩ := xn_kseq d
      rw [xn_seq] at d
      obtain ⟨a1, z1, b1, d1, d2, rfl⟩ := d
      have d3 := d2
      rw [xn_seq] at d3
      obtain ⟨a2, z2, b2, d3, d4, rfl⟩ := d3
      have hl := cx_tlStar ih d3 _ _ d4
      clear d3 d4
      splits <;> go typeListMainLoopBody <;> unfold typeListMul <;> eat <;> eat_loop (hl _ _)
    · simp only [X.typeKw] at d
      xinv d
      splits <;> go typeListMainLoopBody <;> unfold typeListPower typeListResult <;> eat
  · intro x a z b y d1 d2 hi b' y' d3 s v
    loop_start hf
    have d4 := XN.seq d2 d3
    have hl := hi _ _ d3
    clear d2 d3
    xinv d1
    splits <;> go typeListMainLoopBody <;> eat <;> eat_loop (hl _ _)

theorem cx_typelist (ih : ∀ p, Claim h p) : Claim (h + 1) .typelist := by
  intro c x ts y u d hx ho hf
  have hfk := XFits.fol hf
  replace d := XN.inv d
  simp only [pRule] at d
  rw [xn_alt, xn_alt] at d
  obtain d | d | d := d
  · rw [xn_seq] at d
    obtain ⟨a, z, b, d1, d2, rfl⟩ := d
    have d3 := d2
    rw [xn_seq] at d3
    obtain ⟨a', z', b', d3, d4, rfl⟩ := d3
    have hl := cx_tlMain ih d3 _ _ d4
    clear d3 d4
    splits <;> go typeListBody <;> eat <;> eat_loop (hl _ _)
  · simp only [X.typeStar] at d
    obtain ⟨t2, b, rfl, ht2, d⟩ := xn_kseq d
    rw [xn_seq] at d
    obtain ⟨a1, z1, b1, d1, d2, rfl⟩ := d
    have d3 := d2
    rw [xn_seq] at d3
    obtain ⟨a2, z2, b2, d3, d4, rfl⟩ := d3
    have hl := cx_tlStar ih d3 _ _ d4
    clear d3 d4
    splits <;> go typeListBody <;> unfold typeListMul <;> eat <;> eat_loop (hl _ _)
  · simp only [X.typeKw] at d
    xinv d
    splits <;> go typeListBody <;> unfold typeListPower typeListResult <;> eat

theorem cx_funcType (ih : ∀ p, Claim h p) : Claim (h + 1) .func_type := by
  start d hf; splits <;> go funcTypeBody <;> eat

end
end Verif
