import Verif.Spec.Grammar

/-!
# The last token of a sentence
-/

namespace Verif
open Rx

/-- Every sentence of the right hand side has a token, given that this holds for the nonterminals in `N`. -/
def Rx.solid (N : NT → Bool) : Rx → Bool
  | .eps | .opt _ | .star _ => false
  | .n x => N x
  | .k _ | .any => true
  | .seq a b => a.solid N || b.solid N
  | .alt a b => a.solid N && b.solid N

theorem Rx.solid_sound {rule N} (hN : ∀ x, N x = true → (rule x).solid N = true) {r ts} (h : Der rule r ts) :
    r.solid N = true → ts ≠ [] := by
  induction h with
  | seq _ _ ih1 ih2 =>
    intro hs
    rcases (Bool.or_eq_true _ _).mp hs with h | h
    · have := ih1 h; simp [this]
    · have := ih2 h; simp [this]
  | left _ ih => intro hs; exact ih ((Bool.and_eq_true _ _).mp hs).1
  | right _ ih => intro hs; exact ih ((Bool.and_eq_true _ _).mp hs).2
  | n _ ih => intro hs; exact ih (hN _ hs)
  | _ => simp [Rx.solid]

/-- A sentence of the right hand side is empty or ends with a kind in `S`, given that this holds for the nonterminals
in `N`. -/
def Rx.endsIn (N : NT → Bool) (S : Kind → Bool) : Rx → Bool
  | .eps => true
  | .any => false
  | .k x => S x
  | .n x => N x
  | .seq a b => b.endsIn N S && (a.endsIn N S || b.solid N)
  | .alt a b => a.endsIn N S && b.endsIn N S
  | .opt a | .star a => a.endsIn N S

/-- Empty, or ended by a kind in `S`. -/
def Ended (S : Kind → Bool) (ts : List Token) : Prop := ∀ u, ts.getLast? = some u → S u.kind = true

theorem Ended.append {S ts us} (h1 : Ended S ts ∨ us ≠ []) (h2 : Ended S us) : Ended S (ts ++ us) := by
  intro u hu
  rw [List.getLast?_append] at hu
  cases hl : us.getLast? with
  | some w => rw [hl] at hu; cases hu; exact h2 _ hl
  | none =>
    rw [hl] at hu
    rw [List.getLast?_eq_none_iff] at hl
    rcases h1 with h1 | h1
    · exact h1 _ hu
    · exact absurd hl h1

theorem Rx.endsIn_sound {rule N S} (hN : ∀ x, N x = true → (rule x).endsIn N S = true ∧ (rule x).solid N = true) {r ts} (h : Der rule r ts) :
    r.endsIn N S = true → Ended S ts := by
  induction h with
  | eps | absent | stop => intro _ u hu; simp at hu
  | k hk => intro hs u hu; simp at hu; subst hu; rw [hk]; exact hs
  | any => intro hs; simp [Rx.endsIn] at hs
  | n _ ih => intro hs; exact ih (hN _ hs).1
  | seq h1 h2 ih1 ih2 =>
    intro hs
    simp only [Rx.endsIn, Bool.and_eq_true, Bool.or_eq_true] at hs
    refine .append ?_ (ih2 hs.1)
    rcases hs.2 with h | h
    · exact .inl (ih1 h)
    · exact .inr (Rx.solid_sound (fun x hx => (hN x hx).2) h2 h)
  | left _ ih => intro hs; simp only [Rx.endsIn, Bool.and_eq_true] at hs; exact ih hs.1
  | right _ ih => intro hs; simp only [Rx.endsIn, Bool.and_eq_true] at hs; exact ih hs.2
  | present _ ih => intro hs; exact ih hs
  | more _ _ ih1 ih2 => intro hs; exact .append (.inl (ih1 hs)) (ih2 hs)

end Verif
