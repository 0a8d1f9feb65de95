import Verif.Proof.ExactDer
import Verif.Proof.EndsIn
import Verif.Props.Parse

/-!
# The last token of a sentence of the exact grammar
-/

namespace Verif
open XR

/-- As `Rx.solid`. -/
def XR.solid (N : PN → Bool) : XR → Bool
  | .eps | .opt _ | .star _ | .mark _ => false
  | .n x => N x
  | .k _ | .any => true
  | .seq a b => a.solid N || b.solid N
  | .alt a b => a.solid N && b.solid N
  | .only _ a => a.solid N

theorem XR.solid_sound {N} (hN : ∀ x, N x = true → (pRule x).solid N = true) {r x ts y} (h : XDer pRule r x ts y) :
    r.solid N = true → ts ≠ [] := by
  induction h with
  | seq _ _ ih1 ih2 =>
    intro hs
    rcases (Bool.or_eq_true _ _).mp hs with h | h
    · have := ih1 h; simp [this]
    · have := ih2 h; simp [this]
  | left _ ih => intro hs; exact ih ((Bool.and_eq_true _ _).mp hs).1
  | right _ ih => intro hs; exact ih ((Bool.and_eq_true _ _).mp hs).2
  | n _ ih => intro hs; exact ih (hN _ hs)
  | only _ _ ih => intro hs; exact ih hs
  | _ => simp [XR.solid]

/-- As `Rx.endsIn`. -/
def XR.endsIn (N : PN → Bool) (S : Kind → Bool) : XR → Bool
  | .eps | .mark _ => true
  | .any => false
  | .k x => S x
  | .n x => N x
  | .seq a b => b.endsIn N S && (a.endsIn N S || b.solid N)
  | .alt a b => a.endsIn N S && b.endsIn N S
  | .opt a | .star a | .only _ a => a.endsIn N S

theorem XR.endsIn_sound {N S} (hN : ∀ x, N x = true → (pRule x).endsIn N S = true ∧ (pRule x).solid N = true) {r x ts y}
    (h : XDer pRule r x ts y) : r.endsIn N S = true → Ended S ts := by
  induction h with
  | eps | absent | stop | mark => intro _ u hu; simp at hu
  | k hk => intro hs u hu; simp at hu; subst hu; rw [hk]; exact hs
  | any => intro hs; simp [XR.endsIn] at hs
  | n _ ih => intro hs; exact ih (hN _ hs).1
  | seq h1 h2 ih1 ih2 =>
    intro hs
    simp only [XR.endsIn, Bool.and_eq_true, Bool.or_eq_true] at hs
    refine .append ?_ (ih2 hs.1)
    rcases hs.2 with h | h
    · exact .inl (ih1 h)
    · exact .inr (XR.solid_sound (fun x hx => (hN x hx).2) h2 h)
  | left _ ih => intro hs; simp only [XR.endsIn, Bool.and_eq_true] at hs; exact ih hs.1
  | right _ ih => intro hs; simp only [XR.endsIn, Bool.and_eq_true] at hs; exact ih hs.2
  | present _ ih => intro hs; exact ih hs
  | only _ _ ih => intro hs; exact ih hs
  | more _ _ ih1 ih2 => intro hs; exact .append (.inl (ih1 hs)) (ih2 hs)

/-- The nonterminals whose sentences cannot end with `EOF`. -/
def innerPN : PN → Bool
  | .file_input | .eval_input | .func_type_input | .subscript_open | .subscriptlist_open => false
  | _ => true

def notEof (x : Kind) : Bool := x != .EOF

theorem innerPN_ends (x : PN) (h : innerPN x = true) :
    (pRule x).endsIn innerPN notEof = true ∧ (pRule x).solid innerPN = true := by
  cases x <;> first | exact ⟨rfl, rfl⟩ | simp [innerPN] at h

/-- A tokenizer that does not move gives the same token for ever. -/
theorem Tokens.stuck [Uni] {l vs l' t} (h : Tokens l vs l') (hs : getSymbol l = .ok t l) (ht : t.kind = .EOF) :
    ∀ v ∈ vs, v.kind = .EOF := by
  induction h with
  | nil => simp
  | cons h3 _ ih =>
    rw [hs] at h3; injection h3 with x y; subst x y
    intro w hw
    rcases List.mem_cons.mp hw with rfl | hw
    · exact ht
    · exact ih hs w hw

/-- After an `EOF` token there are only `EOF` tokens. -/
theorem Tokens.all_eof [Uni] {src l vs l'} (hv : Tokens l vs l') (hi : Inv src l) {a e b} (he : e.kind = .EOF)
    (hab : vs = a ++ e :: b) : ∀ v ∈ e :: b, v.kind = .EOF := by
  induction hv generalizing a with
  | nil => simp at hab
  | @cons l v l1 vs l2 g1 g2 ih =>
    have ff := ok_facts hi g1
    cases a with
    | cons a0 a => simp at hab; exact ih ff.inv hab.2
    | nil =>
      simp at hab
      obtain ⟨rfl, rfl⟩ := hab
      obtain ⟨x1, x2, x3, x4⟩ := ff.atEof he
      have hs := getSymbol_atEof ff.inv x1 x2 x3 x4
      intro w hw
      rcases List.mem_cons.mp hw with hw | hw
      · rw [hw]; exact he
      · exact Tokens.stuck g2 hs rfl w hw

/-- Two readings of a text up to an `EOF`, the first up to the first one and the second with another token before it,
are the same. -/
theorem Tokens.same_end [Uni] {src ts e l us f l'} (h1 : Tokens (Lexer.new src) (ts ++ [e]) l) (he : e.kind = .EOF)
    (hn : ∀ v ∈ ts, v.kind ≠ .EOF) (h2 : Tokens (Lexer.new src) (us ++ [f]) l') (hf : f.kind = .EOF)
    (hu : ∀ u, us.getLast? = some u → u.kind ≠ .EOF) : us ++ [f] = ts ++ [e] := by
  rcases Nat.lt_trichotomy (us ++ [f]).length (ts ++ [e]).length with hlt | heq | hgt
  · obtain ⟨w, hw⟩ := h2.det h1 (by omega)
    have hwne : w ≠ [] := by rintro rfl; rw [List.append_nil] at hw; rw [hw] at hlt; omega
    obtain ⟨w', x, rfl⟩ : ∃ w' x, w = w' ++ [x] := ⟨w.dropLast, w.getLast hwne, (List.dropLast_concat_getLast hwne).symm⟩
    rw [← List.append_assoc] at hw
    have := (List.append_inj' hw rfl).1
    exact absurd hf (hn f (by rw [← this]; simp))
  · obtain ⟨w, hw⟩ := h2.det h1 (by omega)
    have hw0 : w = [] := by
      have := congrArg List.length hw
      rw [List.length_append] at this
      exact List.length_eq_zero_iff.mp (by omega)
    rw [hw0, List.append_nil] at hw
    exact hw
  · obtain ⟨w, hw⟩ := h1.det h2 (by omega)
    have hwne : w ≠ [] := by rintro rfl; rw [List.append_nil] at hw; rw [hw] at hgt; omega
    obtain ⟨w', x, rfl⟩ : ∃ w' x, w = w' ++ [x] := ⟨w.dropLast, w.getLast hwne, (List.dropLast_concat_getLast hwne).symm⟩
    rw [← List.append_assoc] at hw
    have h3 := (List.append_inj' hw rfl).1
    have h4 : us = ts ++ e :: w' := by rw [← h3]; simp
    obtain ⟨l1, h5, _⟩ := h2.snoc
    have := h5.all_eof (Inv.new src) he h4
    exact absurd (this _ (List.getLast_mem (by simp))) (hu ((e :: w').getLast (by simp))
      (by rw [h4, List.getLast?_append, List.getLast?_eq_some_getLast (by simp)]; rfl))

end Verif
