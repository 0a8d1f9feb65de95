import Verif.Spec.Viable
import Verif.Proof.Viable

/-!
# A test that finds that symbols cannot be completed

`scanFor n r x ks` reads the kinds `ks` as the beginning of a sentence of `r` in all possible ways.  The answer is a flag, which
says that a sentence may go on after `ks` or that the depth `n` was not enough, and the list of the states and remaining
symbols after the sentences that end within `ks`.
-/

namespace Verif

/-- Continue with `f` after each of the outcomes. -/
def scanAll (f : ExcStatus → List Kind → Bool × List (ExcStatus × List Kind)) :
    List (ExcStatus × List Kind) → Bool × List (ExcStatus × List Kind)
  | [] => (false, [])
  | (x, ks) :: l => ((f x ks).1 || (scanAll f l).1, (f x ks).2 ++ (scanAll f l).2)

def scanFor : Nat → XR → ExcStatus → List Kind → Bool × List (ExcStatus × List Kind)
  | 0, _, _, _ => (true, [])
  | _ + 1, .eps, x, ks => (false, [(x, ks)])
  | _ + 1, .k _, _, [] => (true, [])
  | _ + 1, .k K, x, k' :: ks => (false, if k' = K then [(x, ks)] else [])
  | _ + 1, .any, _, [] => (true, [])
  | _ + 1, .any, x, _ :: ks => (false, [(x, ks)])
  | n + 1, .n p, x, ks => scanFor n (pRule p) x ks
  | n + 1, .seq a b, x, ks =>
    let o := scanFor n a x ks
    let q := scanAll (scanFor n b) o.2
    (o.1 || q.1, q.2)
  | n + 1, .alt a b, x, ks =>
    let o := scanFor n a x ks
    let q := scanFor n b x ks
    (o.1 || q.1, o.2 ++ q.2)
  | n + 1, .opt a, x, ks =>
    let o := scanFor n a x ks
    (o.1, (x, ks) :: o.2)
  | n + 1, .star a, x, ks =>
    let o := scanFor n a x ks
    let q := scanAll (scanFor n (.star a)) o.2
    (o.1 || q.1, (x, ks) :: q.2)
  | n + 1, .only _ a, x, ks => scanFor n a x ks
  | _ + 1, .mark m, x, ks => (false, match m.act x with | some y => [(y, ks)] | none => [])

theorem scanAll_of {f l x ks} (h : (x, ks) ∈ l) :
    ((f x ks).1 = true → (scanAll f l).1 = true) ∧ ∀ o ∈ (f x ks).2, o ∈ (scanAll f l).2 := by
  induction l with
  | nil => cases h
  | cons a l ih =>
    obtain ⟨x', ks'⟩ := a
    rcases List.mem_cons.1 h with h | h
    · cases h
      exact ⟨fun h => by simp [scanAll, h], fun o ho => by simp [scanAll, ho]⟩
    · exact ⟨fun h' => by simp [scanAll, (ih h).1 h'], fun o ho => by simp [scanAll, (ih h).2 o ho]⟩

/-- One of the two lists begins with the other. -/
def Agree (as ks : List Kind) : Prop := as <+: ks ∨ ks <+: as

theorem Agree.left {as bs ks} (h : Agree (as ++ bs) ks) : Agree as ks := by
  rcases h with h | h
  · exact .inl ((List.prefix_append as bs).trans h)
  · exact (List.prefix_or_prefix_of_prefix (List.prefix_append as bs) h)
theorem Agree.right {as bs rest} (h : Agree (as ++ bs) (as ++ rest)) : Agree bs rest := by
  rcases h with h | h
  · exact .inl ((List.prefix_append_right_inj as).1 h)
  · exact .inr ((List.prefix_append_right_inj as).1 h)

/-- The test finds every sentence. -/
theorem XDer.scan {r x us y} (d : XDer pRule r x us y) : ∀ n ks, Agree (us.map Token.kind) ks →
    (scanFor n r x ks).1 = true ∨ ∃ rest, us.map Token.kind ++ rest = ks ∧ (y, rest) ∈ (scanFor n r x ks).2 := by
  induction d with
  | eps => intro n ks _; cases n <;> simp [scanFor]
  | @k K t x hk =>
    intro n ks h
    cases n with
    | zero => simp [scanFor]
    | succ n =>
      cases ks with
      | nil => simp [scanFor]
      | cons k' ks =>
        have e : k' = K := by
          rcases h with h | h
          · simpa [hk] using (List.cons_prefix_cons.1 h).1.symm
          · simpa [hk] using (List.cons_prefix_cons.1 h).1
        right
        exact ⟨ks, by simp [hk, e], by simp [scanFor, e]⟩
  | @any t x =>
    intro n ks h
    cases n with
    | zero => simp [scanFor]
    | succ n =>
      cases ks with
      | nil => simp [scanFor]
      | cons k' ks =>
        have e : k' = t.kind := by
          rcases h with h | h
          · exact (List.cons_prefix_cons.1 h).1.symm
          · exact (List.cons_prefix_cons.1 h).1
        right
        exact ⟨ks, by simp [e], by simp [scanFor]⟩
  | n _ ih => intro n ks h; cases n with
    | zero => simp [scanFor]
    | succ n => simpa only [scanFor] using ih n ks h
  | only _ _ ih => intro n ks h; cases n with
    | zero => simp [scanFor]
    | succ n => simpa only [scanFor] using ih n ks h
  | left _ ih => intro n ks h; cases n with
    | zero => simp [scanFor]
    | succ n =>
      rcases ih n ks h with h | ⟨rest, e, h⟩
      · exact .inl (by simp [scanFor, h])
      · exact .inr ⟨rest, e, by simp [scanFor, h]⟩
  | right _ ih => intro n ks h; cases n with
    | zero => simp [scanFor]
    | succ n =>
      rcases ih n ks h with h | ⟨rest, e, h⟩
      · exact .inl (by simp [scanFor, h])
      · exact .inr ⟨rest, e, by simp [scanFor, h]⟩
  | absent => intro n ks _; cases n <;> simp [scanFor]
  | stop => intro n ks _; cases n <;> simp [scanFor]
  | present _ ih => intro n ks h; cases n with
    | zero => simp [scanFor]
    | succ n =>
      rcases ih n ks h with h | ⟨rest, e, h⟩
      · exact .inl (by simp [scanFor, h])
      · exact .inr ⟨rest, e, by simp [scanFor, h]⟩
  | seq _ _ ih1 ih2 => intro n ks h; cases n with
    | zero => simp [scanFor]
    | succ n =>
      rw [List.map_append] at h
      rcases ih1 n ks h.left with h1 | ⟨rest, rfl, h1⟩
      · exact .inl (by simp [scanFor, h1])
      · rcases ih2 n rest h.right with h2 | ⟨rest', rfl, h2⟩
        · exact .inl (by simp [scanFor, (scanAll_of h1).1 h2])
        · exact .inr ⟨rest', by simp, by simpa [scanFor] using (scanAll_of h1).2 _ h2⟩
  | more _ _ ih1 ih2 => intro n ks h; cases n with
    | zero => simp [scanFor]
    | succ n =>
      rw [List.map_append] at h
      rcases ih1 n ks h.left with h1 | ⟨rest, rfl, h1⟩
      · exact .inl (by simp [scanFor, h1])
      · rcases ih2 n rest h.right with h2 | ⟨rest', rfl, h2⟩
        · exact .inl (by simp [scanFor, (scanAll_of h1).1 h2])
        · exact .inr ⟨rest', by simp, by
            simpa [scanFor] using .inr ((scanAll_of h1).2 _ h2)⟩
  | mark hm => intro n ks _; cases n <;> simp [scanFor, hm]

/-- Symbols that the test rejects cannot be completed. -/
theorem not_viable_of_scan {r x ts} (n : Nat) (h1 : (scanFor n r x (ts.map Token.kind)).1 = false)
    (h2 : ∀ o ∈ (scanFor n r x (ts.map Token.kind)).2, o.2 ≠ []) : ¬ Viable r x ts := by
  rintro ⟨vs, y, d⟩
  rcases d.scan n (ts.map Token.kind) (.inr (by simp)) with h | ⟨rest, e, h⟩
  · rw [h1] at h; cases h
  · have : rest = [] := by
      have := congrArg List.length e
      simp only [List.map_append, List.length_append, List.length_map] at this
      exact List.eq_nil_of_length_eq_zero (by omega)
    exact h2 _ h this

end Verif
