import Verif.Proof.ExactBlock
import Verif.Spec.Stream

/-!
# Indents, dedents and brackets in the sentences of the exact grammar

In a sentence there are never more opening than closing round and square brackets.  If there are equally many, and line
structure symbols occur only outside brackets, the second colon of a slice is no line structure symbol, and there are as
many indents as dedents.
-/

namespace Verif
open XR X

/-- Round and square brackets: opening 1, closing -1. -/
def Kind.br : Kind → Int
  | .PyLeftParen | .PyLeftBracket => 1
  | .PyRightParen | .PyRightBracket => -1
  | _ => 0
/-- Indents 1, dedents -1. -/
def Kind.ind : Kind → Int
  | .Indent => 1
  | .Dedent => -1
  | _ => 0
def brSum (ts : List Token) : Int := (ts.map fun t => t.kind.br).sum
def indSum (ts : List Token) : Int := (ts.map fun t => t.kind.ind).sum

theorem brSum_append (a b : List Token) : brSum (a ++ b) = brSum a + brSum b := by simp [brSum]
theorem indSum_append (a b : List Token) : indSum (a ++ b) = indSum a + indSum b := by simp [indSum]

namespace XR

/-- An upper bound for `brSum`. -/
def ub : XR → Int
  | .eps | .n _ | .star _ | .mark _ => 0
  | .any => 1
  | .k x => x.br
  | .seq a b => a.ub + b.ub
  | .alt a b => max a.ub b.ub
  | .opt a => max 0 a.ub
  | .only _ (.seq a .any) => a.ub
  | .only _ a => a.ub

/-- The value of `indSum`. -/
def net : XR → Int
  | .eps | .n _ | .star _ | .mark _ | .opt _ | .any => 0
  | .k x => x.ind
  | .seq a b => a.net + b.net
  | .alt a _ => a.net
  | .only _ a => a.net

end XR

/-- The nonterminals that occur only between brackets. -/
def PN.inner : PN → Bool
  | .subscriptlist | .subscriptlist_open | .subscript | .subscript_open => true
  | _ => false

/-- `r` may be used where `d` brackets are open. -/
def XR.ok : Int → XR → Bool
  | _, .eps | _, .k _ | _, .mark _ => true
  | d, .any => 1 ≤ d
  | d, .n p => (if p.inner then 1 else 0) ≤ d
  | d, .seq a b => a.ok d && b.ok (d + a.ub)
  | d, .alt a b => a.ok d && b.ok d
  | d, .opt a => a.ok d
  | d, .star a => a.ok d
  | d, .only _ a => a.ok d

theorem XR.ok_mono (r : XR) : ∀ {d d' : Int}, d ≤ d' → r.ok d = true → r.ok d' = true := by
  induction r with
  | eps | k | mark => intros; rfl
  | any => intro d d' h; simp [XR.ok]; omega
  | n p => intro d d' h; simp only [XR.ok, decide_eq_true_eq]; omega
  | seq a b iha ihb =>
    intro d d' h h'
    simp only [XR.ok, Bool.and_eq_true] at h' ⊢
    exact ⟨iha h h'.1, ihb (by omega) h'.2⟩
  | alt a b iha ihb =>
    intro d d' h h'
    simp only [XR.ok, Bool.and_eq_true] at h' ⊢
    exact ⟨iha h h'.1, ihb h h'.2⟩
  | opt a ih | star a ih | only _ a ih => intro d d' h h'; exact ih (d := d) h h'

/-- What the bounds rely on. -/
def XR.fine : XR → Bool
  | .eps | .n _ | .mark _ | .k _ | .any => true
  | .seq a b => a.fine && b.fine
  | .alt a b => a.fine && b.fine && a.net == b.net
  | .opt a => a.fine && a.net == 0
  | .star a => a.fine && a.net == 0 && a.ub == 0
  | .only _ a => a.fine

/-- Tests before an arbitrary token are `separate`. -/
def XR.Tests : XR → Prop
  | .only p (.seq a .any) => p = separate ∧ a.null = false ∧ a.Tests
  | .only _ a => a.Tests
  | .eps | .n _ | .mark _ | .k _ | .any => True
  | .seq a b | .alt a b => a.Tests ∧ b.Tests
  | .opt a | .star a => a.Tests

theorem PN.table_fine : ∀ p : PN, (pRule p).fine = true ∧ (pRule p).ub ≤ 0 ∧ (pRule p).net = 0 ∧
    (pRule p).ok (if p.inner then 1 else 0) = true := by decide +kernel

theorem PN.table_tests (p : PN) : (pRule p).Tests := by
  cases p <;> simp [pRule, XR.Tests, slice, colon, XR.null, X.list, X.listTr, elem, starOrTest, comma, name, plus, augassign, rhs_tr, dots,
    comp_op, term_op, dictEntry, kwargs, starargs, typeKw, typeStar]

/-- What is shown for the sentences of `r`. -/
def Bal (r : XR) (ts : List Token) : Prop :=
  brSum ts ≤ r.ub ∧ ∀ d, brSum ts = r.ub → r.ok d = true →
    (∀ p t s, ts = p ++ t :: s → t.kind.isLayout = true → d + brSum p = 0) → indSum ts = r.net

theorem continues_br : ∀ k : Kind, continues.contains k = false → k.br ≤ 0 := by decide +kernel
theorem ind_of_not_layout : ∀ k : Kind, k.isLayout = false → k.ind = 0 := by decide +kernel

theorem separate_last {us : List Token} {t : Token} (hu : us ≠ []) (h : separate (us ++ [t]) = true) : t.kind.br ≤ 0 := by
  apply continues_br
  rw [separate, List.reverse_append] at h
  cases hr : us.reverse with
  | nil => exact absurd (by simpa using hr) hu
  | cons v vs =>
    rw [hr] at h
    simp only [List.reverse_cons, List.reverse_nil, List.nil_append, List.cons_append, Bool.and_eq_true, Bool.not_eq_true'] at h
    exact h.1

theorem Bal.seq {a b ts us} (h1 : Bal a ts) (h2 : Bal b us) : Bal (a ⬝ b) (ts ++ us) := by
  obtain ⟨h1, h1'⟩ := h1
  obtain ⟨h2, h2'⟩ := h2
  refine ⟨by rw [brSum_append, XR.ub]; omega, fun d e ho hl => ?_⟩
  rw [brSum_append, XR.ub] at e
  simp only [XR.ok, Bool.and_eq_true] at ho
  rw [indSum_append, XR.net, h1' d (by omega) ho.1, h2' (d + a.ub) (by omega) ho.2]
  · rintro p t s rfl ht
    have := hl (ts ++ p) t s (by simp) ht
    rw [brSum_append] at this
    omega
  · rintro p t s rfl ht
    exact hl p t (s ++ us) (by simp) ht

theorem only_cases (p : List Token → Bool) (a : XR) :
    (∃ b, a = .seq b .any) ∨ ((XR.only p a).ub = a.ub ∧ (XR.only p a).Tests = a.Tests) := by
  cases a with
  | seq b c => cases c <;> first | exact .inl ⟨_, rfl⟩ | exact .inr ⟨rfl, rfl⟩
  | _ => exact .inr ⟨rfl, rfl⟩

theorem XN.balance {h r x ts y} (d : XN h r x ts y) :
    (r.fine = true → r.Tests → Bal r ts) ∧ ∀ a, r = .seq a .any → ∃ us t, ts = us ++ [t] ∧ (us = [] → a.null = true) ∧
      (a.fine = true → a.Tests → Bal a us) := by
  induction d with
  | eps | mark => exact ⟨fun _ _ => ⟨by simp [brSum, XR.ub], fun _ _ _ _ => rfl⟩, by simp⟩
  | @k _ K t x hk =>
    subst hk
    refine ⟨fun _ _ => ⟨by simp [brSum, XR.ub], fun _ _ _ _ => by simp [indSum, XR.net]⟩, by simp⟩
  | @any _ t _ =>
    refine ⟨fun _ _ => ⟨?_, fun d e ho hl => ?_⟩, by simp⟩
    · have : ∀ k : Kind, k.br ≤ 1 := by decide +kernel
      simpa [brSum, XR.ub] using this t.kind
    · simp only [XR.ok, decide_eq_true_eq] at ho
      cases hk : t.kind.isLayout with
      | false => simp [indSum, XR.net, ind_of_not_layout _ hk]
      | true =>
        have := hl [] t [] rfl hk
        simp [brSum] at this
        omega
  | @n _ p _ ts _ d ih =>
    refine ⟨fun _ _ => ?_, by simp⟩
    obtain ⟨f1, f2, f3, f4⟩ := p.table_fine
    obtain ⟨h1, h2⟩ := ih.1 f1 p.table_tests
    refine ⟨by rw [XR.ub]; omega, fun d e ho hl => ?_⟩
    rw [XR.ub] at e
    rw [h2 d (by omega) ?_ hl, f3]; rfl
    simp only [XR.ok, decide_eq_true_eq] at ho
    exact XR.ok_mono _ ho f4
  | seq d1 d2 ih1 ih2 =>
    refine ⟨fun hf ht => ?_, ?_⟩
    · simp only [XR.fine, Bool.and_eq_true] at hf
      exact (ih1.1 hf.1 ht.1).seq (ih2.1 hf.2 ht.2)
    · rintro a he
      cases he
      cases d2
      exact ⟨_, _, rfl, d1.null, ih1.1⟩
  | left d ih =>
    refine ⟨fun hf ht => ?_, by simp⟩
    simp only [XR.fine, Bool.and_eq_true, beq_iff_eq] at hf
    obtain ⟨h1, h2⟩ := ih.1 hf.1.1 ht.1
    refine ⟨by rw [XR.ub]; omega, fun d e ho hl => ?_⟩
    rw [XR.ub] at e
    simp only [XR.ok, Bool.and_eq_true] at ho
    exact h2 d (by omega) ho.1 hl
  | right d ih =>
    refine ⟨fun hf ht => ?_, by simp⟩
    simp only [XR.fine, Bool.and_eq_true, beq_iff_eq] at hf
    obtain ⟨h1, h2⟩ := ih.1 hf.1.2 ht.2
    refine ⟨by rw [XR.ub]; omega, fun d e ho hl => ?_⟩
    rw [XR.ub] at e
    simp only [XR.ok, Bool.and_eq_true] at ho
    rw [XR.net, hf.2]
    exact h2 d (by omega) ho.2 hl
  | absent => exact ⟨fun _ _ => ⟨by simp [brSum, XR.ub]; omega, fun _ _ _ _ => rfl⟩, by simp⟩
  | present d ih =>
    refine ⟨fun hf ht => ?_, by simp⟩
    simp only [XR.fine, Bool.and_eq_true, beq_iff_eq] at hf
    obtain ⟨h1, h2⟩ := ih.1 hf.1 ht
    refine ⟨by rw [XR.ub]; omega, fun d e ho hl => ?_⟩
    rw [XR.ub] at e
    rw [h2 d (by omega) ho hl, hf.2]; rfl
  | stop => exact ⟨fun _ _ => ⟨by simp [brSum, XR.ub], fun _ _ _ _ => rfl⟩, by simp⟩
  | @more _ a _ _ _ _ _ d1 d2 ih1 ih2 =>
    refine ⟨fun hf ht => ?_, by simp⟩
    have hs := ih2.1 hf ht
    simp only [XR.fine, Bool.and_eq_true, beq_iff_eq] at hf
    obtain ⟨h1, h2⟩ := (ih1.1 hf.1.1 ht).seq hs
    have e : (a ⬝ .star a).ub = (XR.star a).ub := by simp [XR.ub, hf.2]
    have e2 : (a ⬝ .star a).net = (XR.star a).net := by simp [XR.net, hf.1.2]
    rw [e] at h1 h2
    rw [e2] at h2
    refine ⟨h1, fun d e ho hl => h2 d e ?_ hl⟩
    simp only [XR.ok, Bool.and_eq_true, hf.2, Int.add_zero] at ho ⊢
    exact ⟨ho, ho⟩
  | @only _ p a _ ts _ d hp ih =>
    refine ⟨fun hf ht => ?_, by simp⟩
    rcases only_cases p a with ⟨b, rfl⟩ | ⟨e1, e2⟩
    · obtain ⟨us, t, rfl, hn, ib⟩ := ih.2 b rfl
      obtain ⟨rfl, hnull, hb⟩ := ht
      simp only [XR.fine, Bool.and_eq_true] at hf
      obtain ⟨h1, h2⟩ := ib hf.1 hb
      have hu : us ≠ [] := by
        intro e
        rw [hn e] at hnull
        cases hnull
      have ht := separate_last hu hp
      have e1 : brSum (us ++ [t]) = brSum us + t.kind.br := by simp [brSum]
      refine ⟨by rw [XR.ub, e1]; omega, fun d e ho hl => ?_⟩
      rw [XR.ub, e1] at e
      simp only [XR.ok, Bool.and_eq_true, decide_eq_true_eq] at ho
      have e2 : indSum (us ++ [t]) = indSum us + t.kind.ind := by simp [indSum]
      rw [e2, h2 d (by omega) ho.1]
      · have : t.kind.isLayout = false := by
          cases hk : t.kind.isLayout with
          | false => rfl
          | true =>
            have := hl us t [] rfl hk
            omega
        rw [ind_of_not_layout _ this]
        rfl
      · rintro p u s rfl hu
        exact hl p u (s ++ [t]) (by simp) hu
    · rw [e2] at ht
      have := ih.1 hf ht
      unfold Bal at this ⊢
      rw [e1]
      exact this

end Verif
