import Verif.Props.Kinds

/-!
# Replacing a number inside a sentence of the exact grammar
-/

namespace Verif
open XR X

/-- The nonterminals of expressions (their sentences do not change the state, and end as in `lastOf`). -/
def exprPN : PN → Bool
  | .namedexpr_test | .test | .test_nocond | .lambdef | .lambdef_nocond | .or_test | .and_test | .not_test | .comparison
  | .star_expr | .expr | .xor_expr | .and_expr | .shift_expr | .arith_expr | .term | .factor | .power | .atom_expr | .atom
  | .trailer => true
  | _ => false

/-- The kinds of symbols after which a number is not taken for a number: those at the end of an expression, and `with`. -/
def lastOf (x : Kind) : Bool :=
  [Kind.AtomName, .AtomNumber, .AtomString, .PyElipsis, .PyNone, .PyTrue, .PyFalse, .PyRightParen, .PyRightBracket, .PyRightCurly,
    .PyWith].contains x

theorem exprPN_ends (x : PN) (h : exprPN x = true) :
    (pRule x).endsIn exprPN lastOf = true ∧ (pRule x).solid exprPN = true := by
  cases x <;> first | exact ⟨rfl, rfl⟩ | simp [exprPN] at h

/-- A sentence that starts with the number keeps being one. -/
def XR.HeadOk (w : List Token) : XR → Prop
  | .any => False
  | .seq a b => a.HeadOk w ∧ (a.solid exprPN = true ∨ b.HeadOk w)
  | .alt a b => a.HeadOk w ∧ b.HeadOk w
  | .opt a | .star a => a.HeadOk w
  | .only p a => a.HeadOk w ∧ ∀ u b, u.kind = .AtomNumber → p (u :: b) = true → p (w ++ b) = true
  | _ => True

/-- The number is one of the sentences. -/
def XR.numAlt : XR → Bool
  | .k x => x == .AtomNumber
  | .alt a b => a.numAlt || b.numAlt
  | _ => false

/-- A sentence keeps being one if a number in it is replaced. -/
def XR.SubstOk (w : List Token) : XR → Prop
  | .seq a b => a.SubstOk w ∧ b.SubstOk w ∧ a.numAlt = false ∧ b.numAlt = false ∧
      (b.HeadOk w ∨ a.solid exprPN = true ∧ a.endsIn exprPN lastOf = true)
  | .alt a b => a.SubstOk w ∧ b.SubstOk w
  | .opt a => a.SubstOk w ∧ a.numAlt = false
  | .star a => a.SubstOk w ∧ a.numAlt = false ∧ a.HeadOk w
  | .only p a => a.SubstOk w ∧ a.numAlt = false ∧ ∀ a' u b, a' ≠ [] → u.kind = .AtomNumber → p (a' ++ u :: b) = true → p (a' ++ w ++ b) = true
  | _ => True

/-- What may stand for a number: `w` is an atom, does not start with the name `match`, and ends with a symbol that
is no string and does not continue an expression. -/
structure Stands (w : List Token) : Prop where
  atom : ∀ x, XDer pRule (.n .atom) x w x
  first : notMatch w = true
  last : ∃ w' u, w = w' ++ [u] ∧ u.kind ≠ .AtomString ∧ continues.contains u.kind = false

theorem Stands.ne {w} (h : Stands w) : w ≠ [] := by obtain ⟨w', u, rfl, -⟩ := h.last; simp

theorem sep_head {w} (h : Stands w) : ∀ u b, u.kind = .AtomNumber → separate (u :: b) = true → separate (w ++ b) = true := by
  obtain ⟨w', v, rfl, h1, h2⟩ := h.last
  intro u b hu hp
  rcases List.eq_nil_or_concat b with rfl | ⟨b, z, rfl⟩
  · unfold separate
    simp only [List.append_nil, List.reverse_append, List.reverse_cons, List.reverse_nil, List.nil_append, List.singleton_append]
    split
    · rename_i e
      injection e with e1 e2
      subst e1
      simp only [Bool.and_eq_true, Bool.not_eq_true', h2, Bool.not_false, true_and]
      simp [h1]
    · rfl
  · rw [List.concat_eq_append] at hp ⊢
    rcases List.eq_nil_or_concat b with rfl | ⟨b, y, rfl⟩
    · simp only [separate, List.nil_append, List.reverse_cons, List.reverse_nil, List.reverse_append, List.singleton_append,
        List.append_assoc, List.cons_append, Bool.and_eq_true, Bool.not_eq_true'] at hp ⊢
      refine ⟨hp.1, ?_⟩
      simp [h1]
    · simp only [List.concat_eq_append] at hp ⊢
      simp only [separate, List.reverse_cons, List.reverse_nil, List.reverse_append, List.singleton_append,
        List.append_assoc, List.cons_append, List.nil_append, Bool.and_eq_true, Bool.not_eq_true'] at hp ⊢
      exact hp

theorem sep_inner {w} (h : Stands w) : ∀ a u b, a ≠ [] → u.kind = .AtomNumber → separate (a ++ u :: b) = true → separate (a ++ w ++ b) = true := by
  obtain ⟨w', v, rfl, h1, h2⟩ := h.last
  intro a u b _ hu hp
  rcases List.eq_nil_or_concat b with rfl | ⟨b, z, rfl⟩
  · unfold separate
    simp only [List.append_nil, List.reverse_append, List.reverse_cons, List.reverse_nil, List.nil_append, List.singleton_append, List.cons_append]
    split
    · rename_i e
      injection e with e1 e2
      subst e1
      simp only [Bool.and_eq_true, Bool.not_eq_true', h2, Bool.not_false, true_and]
      simp [h1]
    · rfl
  · rw [List.concat_eq_append] at hp ⊢
    rcases List.eq_nil_or_concat b with rfl | ⟨b, y, rfl⟩
    · simp only [separate, List.nil_append, List.reverse_cons, List.reverse_nil, List.reverse_append, List.singleton_append,
        List.append_assoc, List.cons_append, Bool.and_eq_true, Bool.not_eq_true'] at hp ⊢
      refine ⟨hp.1, ?_⟩
      simp [h1]
    · simp only [List.concat_eq_append] at hp ⊢
      simp only [separate, List.reverse_cons, List.reverse_nil, List.reverse_append, List.singleton_append,
        List.append_assoc, List.cons_append, List.nil_append, Bool.and_eq_true, Bool.not_eq_true'] at hp ⊢
      exact hp

theorem notMatch_head {w} (h : Stands w) : ∀ (u : Token) (b : List Token), u.kind = .AtomNumber → notMatch (u :: b) = true → notMatch (w ++ b) = true := by
  intro u b _ _
  have := h.first
  rw [notMatch_eq] at this ⊢
  cases hw : w with
  | nil => exact absurd hw h.ne
  | cons x w => rw [hw] at this; simpa using this
theorem notMatch_inner {w : List Token} : ∀ (a : List Token) (u : Token) (b : List Token), a ≠ [] → u.kind = .AtomNumber → notMatch (a ++ u :: b) = true → notMatch (a ++ w ++ b) = true := by
  intro a u b ha _ hp
  rw [notMatch_eq] at hp ⊢
  cases a with
  | nil => exact absurd rfl ha
  | cons x a => simpa using hp
theorem notParen_inner {w : List Token} : ∀ (a : List Token) (u : Token) (b : List Token), a ≠ [] → u.kind = .AtomNumber → notParen (a ++ u :: b) = true → notParen (a ++ w ++ b) = true := by
  intro a u b ha _ hp
  unfold notParen at hp ⊢
  cases a with
  | nil => exact absurd rfl ha
  | cons x a => simpa using hp

theorem pRule_head {w} (h : Stands w) (p : PN) : (pRule p).HeadOk w := by
  have h1 := sep_head h
  have h2 := notMatch_head h
  cases p <;> simp [pRule, XR.HeadOk, plus, list, listTr, comma, colon, name, starOrTest, elem, comp_op, term_op, augassign, slice,
      dictEntry, kwargs, starargs, dots, rhs_tr, X.typeKw, X.typeStar, XR.solid, exprPN] <;> assumption

theorem pRule_substOk {w} (h : Stands w) (p : PN) : (pRule p).SubstOk w := by
  have h1 := sep_head h
  have h2 := notMatch_head h
  have h3 := sep_inner h
  have h4 := notMatch_inner (w := w)
  have h5 := notParen_inner (w := w)
  simp only [ne_eq, List.append_assoc] at h3 h4 h5
  cases p <;> simp [pRule, XR.SubstOk, XR.HeadOk, plus, list, listTr, comma, colon, name, starOrTest, elem, comp_op, term_op, augassign, slice,
      dictEntry, kwargs, starargs, dots, rhs_tr, X.typeKw, X.typeStar, XR.solid, exprPN, XR.endsIn, lastOf, XR.numAlt] <;>
    first | assumption | exact ⟨h3, h1⟩

theorem pRule_numAlt (p : PN) : (pRule p).numAlt = true → p = .atom := by
  cases p <;> first | (intro _; rfl) | (intro h; exact absurd h (by decide))

/-- The symbol before the number. -/
def PrevOk (a : List Token) : Prop := ∀ v, a.getLast? = some v → lastOf v.kind = false

theorem PrevOk.right {a b} (h : PrevOk (a ++ b)) (hb : b ≠ []) : PrevOk b := by
  intro v hv
  exact h v (by rw [List.getLast?_append, hv]; rfl)

theorem XDer.subst {w} (hw : Stands w) {r x us y} (d : XDer pRule r x us y) :
    ∀ a u b, us = a ++ u :: b → u.kind = .AtomNumber → PrevOk a → r.SubstOk w → (a = [] → r.HeadOk w) →
      XDer pRule r x (a ++ w ++ b) y ∨ (r.numAlt = true ∧ a = [] ∧ b = [] ∧ x = y) := by
  induction d with
  | eps | absent | stop | mark => intro a u b e; simp at e
  | @k K t x hk =>
    intro a u b e hu _ _ _
    cases a with
    | nil =>
      simp only [List.nil_append, List.cons.injEq] at e
      obtain ⟨rfl, rfl⟩ := e
      refine .inr ⟨?_, rfl, rfl, rfl⟩
      simp [XR.numAlt, ← hk, hu]
    | cons v a => simp at e
  | any =>
    intro a u b e hu _ _ hh
    cases a with
    | nil => exact (hh rfl).elim
    | cons v a => simp at e
  | @n p x ts y d ih =>
    intro a u b e hu hp _ _
    rcases ih a u b e hu hp (pRule_substOk hw p) (fun _ => pRule_head hw p) with h | ⟨h1, rfl, rfl, rfl⟩
    · exact .inl (.n h)
    · have := pRule_numAlt p h1
      subst this
      exact .inl (by simpa using hw.atom _)
  | @seq a1 b1 x ts z us y d1 d2 ih1 ih2 =>
    intro a u b e hu hp hs hh
    obtain ⟨s1, s2, s3, s4, s5⟩ := hs
    rcases List.append_eq_append_iff.1 e with ⟨m, rfl, e2⟩ | ⟨m, rfl, e2⟩
    · -- the number is in the second part
      have hm : m = [] → b1.HeadOk w := by
        rintro rfl
        rw [List.append_nil] at hp hh
        rcases s5 with s5 | ⟨s5, s6⟩
        · exact s5
        · have hne := XR.solid_sound (fun x hx => (exprPN_ends x hx).2) d1 s5
          have he := XR.endsIn_sound exprPN_ends d1 s6
          obtain ⟨v, hv⟩ : ∃ v, ts.getLast? = some v := ⟨_, List.getLast?_eq_some_getLast hne⟩
          have h1 := he v hv
          rw [hp v hv] at h1
          cases h1
      have hpm : PrevOk m := by
        by_cases hm0 : m = []
        · subst hm0; intro v hv; simp at hv
        · exact hp.right hm0
      rcases ih2 m u b e2 hu hpm s2 hm with h | ⟨h, -⟩
      · refine .inl ?_
        have := XDer.seq d1 h
        simpa using this
      · rw [s4] at h; cases h
    · cases m with
      | nil =>
        simp only [List.append_nil] at e2 hp hh d1 d2 ih1 ih2 ⊢
        rw [List.nil_append] at e2
        subst e2
        have hm : ([] : List Token) = [] → b1.HeadOk w := by
          intro _
          rcases s5 with s5 | ⟨s5, s6⟩
          · exact s5
          · have hne := XR.solid_sound (fun x hx => (exprPN_ends x hx).2) d1 s5
            have he := XR.endsIn_sound exprPN_ends d1 s6
            obtain ⟨v, hv⟩ : ∃ v, a.getLast? = some v := ⟨_, List.getLast?_eq_some_getLast hne⟩
            have h1 := he v hv
            rw [hp v hv] at h1
            cases h1
        rcases ih2 [] u b rfl hu (by intro v hv; simp at hv) s2 hm with h | ⟨h, -⟩
        · refine .inl ?_
          have := XDer.seq d1 h
          simpa using this
        · rw [s4] at h; cases h
      | cons v m =>
        simp only [List.cons_append, List.cons.injEq] at e2
        obtain ⟨rfl, rfl⟩ := e2
        rcases ih1 a u m rfl hu hp s1 (fun ha => (hh ha).1) with h | ⟨h, -⟩
        · refine .inl ?_
          have := XDer.seq h d2
          simpa using this
        · rw [s3] at h; cases h
  | @left a1 b1 x ts y d ih =>
    intro a u b e hu hp hs hh
    rcases ih a u b e hu hp hs.1 (fun ha => (hh ha).1) with h | ⟨h1, h2⟩
    · exact .inl (.left h)
    · exact .inr ⟨by simp [XR.numAlt, h1], h2⟩
  | @right a1 b1 x ts y d ih =>
    intro a u b e hu hp hs hh
    rcases ih a u b e hu hp hs.2 (fun ha => (hh ha).2) with h | ⟨h1, h2⟩
    · exact .inl (.right h)
    · exact .inr ⟨by simp [XR.numAlt, h1], h2⟩
  | present d ih =>
    intro a u b e hu hp hs hh
    rcases ih a u b e hu hp hs.1 hh with h | ⟨h1, h2⟩
    · exact .inl (.present h)
    · rw [hs.2] at h1; cases h1
  | @only p a1 x ts y d hpt ih =>
    intro a u b e hu hp hs hh
    rcases ih a u b e hu hp hs.1 (fun ha => (hh ha).1) with h | ⟨h1, h2⟩
    · refine .inl (.only h ?_)
      subst e
      cases a with
      | nil => simpa using (hh rfl).2 u b hu hpt
      | cons v a => exact hs.2.2 _ u b (by simp) hu hpt
    · rw [hs.2.1] at h1; cases h1
  | @more a1 x ts z us y d1 d2 ih1 ih2 =>
    intro a u b e hu hp hs hh
    rcases List.append_eq_append_iff.1 e with ⟨m, rfl, e2⟩ | ⟨m, rfl, e2⟩
    · have hpm : PrevOk m := by
        by_cases hm0 : m = []
        · subst hm0; intro v hv; simp at hv
        · exact hp.right hm0
      rcases ih2 m u b e2 hu hpm hs (fun _ => hs.2.2) with h | ⟨h, -⟩
      · refine .inl ?_
        have := XDer.more d1 h
        simpa using this
      · cases h
    · cases m with
      | nil =>
        simp only [List.append_nil] at e2 hp hh d1 d2 ih1 ih2 ⊢
        rw [List.nil_append] at e2
        subst e2
        rcases ih2 [] u b rfl hu (by intro v hv; simp at hv) hs (fun _ => hs.2.2) with h | ⟨h, -⟩
        · refine .inl ?_
          have := XDer.more d1 h
          simpa using this
        · cases h
      | cons v m =>
        simp only [List.cons_append, List.cons.injEq] at e2
        obtain ⟨rfl, rfl⟩ := e2
        rcases ih1 a u m rfl hu hp hs.1 (fun _ => hs.2.2) with h | ⟨h, -⟩
        · refine .inl ?_
          have := XDer.more h d2
          simpa using this
        · rw [hs.2.1] at h; cases h

end Verif
