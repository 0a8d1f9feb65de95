import Verif.Props.Assemble
import Verif.Props.Split
import Verif.Props.Replace

/-!
# C81: a program that is put together from pieces is accepted if and only if all of them are
-/

namespace Verif
open LG

/-- The first symbol of a closed piece does not depend on what is written behind it. -/
theorem StartsStatement.join [Uni] {a b : List Char} (hp : IsPiece a) (ha : Closed (a ++ ['\n'])) (hs : StartsStatement (a ++ ['\n']))
    (hc : ∃ c r, b = c :: r ∧ c ∉ cs! " \t\r\n#\\") (hb : StartsStatement b) : StartsStatement (a ++ '\n' :: b) := by
  have bare_kind : ∀ t : Token, t.bare.kind = t.kind := fun t => by cases t <;> rfl
  obtain ⟨⟨x, r, hx, hm⟩, h0, hcr⟩ := hp
  obtain ⟨ts, e, l, h1, h2, h3, h4, h5, h6⟩ := ha
  obtain ⟨t, lt, ht, hk⟩ := hs
  obtain ⟨u, lu, hu, -⟩ := hb
  obtain ⟨vs, lv, v1, v2, -⟩ := joined_symbols (b := b) (u := u) h1 h2 h3 h4 h5 h6 h0 hcr hc
    ((C55_next_symbol b (Lexer.new b) _ _ .new).1 ⟨u, lu, hu, rfl, rfl⟩)
  -- the first symbol is not the end of the text
  have hne : t.kind ≠ .EOF := by
    have hn := (C55_next_symbol _ (Lexer.new (a ++ ['\n'])) _ _ .new).1 ⟨t, lt, ht, rfl, rfl⟩
    obtain ⟨st, r', hw, -⟩ := AtCode.first (b := a ++ ['\n']) ⟨x, r ++ ['\n'], by simp [hx], hm⟩ hn
    intro he
    obtain ⟨h7, -, -⟩ := hw.atEof ((bare_kind t).trans he)
    rcases h7 with h7 | h7
    · simp at h7
    · have : '\x00' ∈ a ++ ['\n'] := List.mem_of_mem_head? (by rw [h7]; rfl)
      rcases List.mem_append.1 this with h | h
      · exact h0 h
      · simp at h
  cases ts with
  | nil =>
    cases h1 with
    | cons h7 _ =>
      rw [ht] at h7
      cases h7
      exact absurd h2 hne
  | cons t' ts =>
    cases h1 with
    | cons h7 _ =>
      rw [ht] at h7
      cases h7
      cases v1 with
      | nil => simp at v2
      | @cons _ v l' _ _ h8 _ =>
        simp only [List.map_cons, List.cons_append, List.cons.injEq] at v2
        refine ⟨v, l', h8, ?_⟩
        rw [← bare_kind, v2.1, bare_kind]
        exact hk

theorem StartsStatement.assemble [Uni] {ps : List (List Char)} (hne : ps ≠ [])
    (hp : ∀ p ∈ ps, IsPiece p ∧ Closed (p ++ ['\n']) ∧ StartsStatement (p ++ ['\n'])) : StartsStatement (assemble ps) := by
  induction ps with
  | nil => exact absurd rfl hne
  | cons p ps ih =>
    obtain ⟨h1, h2, h3⟩ := hp p (by simp)
    cases ps with
    | nil => simpa [Verif.assemble] using h3
    | cons q ps =>
      obtain ⟨⟨⟨x, r, hx, hm⟩, -⟩, -⟩ := hp q (by simp)
      have := StartsStatement.join h1 h2 h3 (b := Verif.assemble (q :: ps)) ⟨x, r ++ '\n' :: Verif.assemble ps, by simp [Verif.assemble, hx], hm⟩
        (ih (by simp) fun p hpm => hp p (List.mem_cons_of_mem _ hpm))
      simpa [Verif.assemble] using this

/-- C81, both directions: let the pieces be read by the tokenizer without an error, close their brackets and blocks, and start
with a symbol other than `elif`, `else`, `except` and `finally`.  The program made of them is accepted if and only if each of
them is: a wrong piece is not repaired by the others, wherever it is. -/
theorem C81_accepted_iff [Uni] (ps : List (List Char)) (hne : ps ≠ [])
    (hp : ∀ p ∈ ps, IsPiece p ∧ Closed (p ++ ['\n']) ∧ StartsStatement (p ++ ['\n'])) :
    Accepts .fileInput (assemble ps) ↔ ∀ p ∈ ps, Accepts .fileInput (p ++ ['\n']) := by
  induction ps with
  | nil => exact absurd rfl hne
  | cons p ps ih =>
    obtain ⟨⟨-, h0, hcr⟩, h2, h3⟩ := hp p (by simp)
    cases ps with
    | nil => simp [assemble]
    | cons q ps =>
      have hr : ∀ p ∈ q :: ps, IsPiece p ∧ Closed (p ++ ['\n']) ∧ StartsStatement (p ++ ['\n']) :=
        fun p hpm => hp p (List.mem_cons_of_mem _ hpm)
      obtain ⟨⟨⟨x, r, hx, hm⟩, -⟩, -⟩ := hp q (by simp)
      have := C65_accepted_iff_parts p (assemble (q :: ps)) h2 h0 hcr ⟨x, r ++ '\n' :: assemble ps, by simp [assemble, hx], hm⟩
        (StartsStatement.assemble (by simp) hr)
      rw [ih (by simp) hr] at this
      have e : assemble (p :: q :: ps) = p ++ '\n' :: assemble (q :: ps) := by simp [assemble]
      rw [e, this]
      simp

/-- C81, both directions, any order: the pieces in one order are accepted if and only if they are in another. -/
theorem C81_accepted_any_order [Uni] (ps qs : List (List Char)) (hne : ps ≠ [])
    (hp : ∀ p ∈ ps, IsPiece p ∧ Closed (p ++ ['\n']) ∧ StartsStatement (p ++ ['\n'])) (hq : qs.Perm ps) :
    Accepts .fileInput (assemble ps) ↔ Accepts .fileInput (assemble qs) := by
  rw [C81_accepted_iff ps hne hp, C81_accepted_iff qs (fun h => hne (by rw [h] at hq; exact hq.nil_eq.symm)) fun q hm => hp q (hq.mem_iff.1 hm)]
  exact ⟨fun h p hm => h p (hq.mem_iff.1 hm), fun h p hm => h p (hq.mem_iff.2 hm)⟩

/-- Two pieces that are accepted (one with a block, one with brackets over two lines), and one that is not: without it the program is
accepted, with it, it is not. -/
example : let _ := asciiUni
    Accepts .fileInput (cs! "c(\nd)\nwhile a:\n  b\n") ∧ ¬ Accepts .fileInput (cs! "while a:\n  b\nx y\nc(\nd)\n") := by
  intro _
  have hp : ∀ p ∈ [cs! "while a:\n  b", cs! "x y", cs! "c(\nd)"], IsPiece p ∧ Closed (p ++ ['\n']) ∧ StartsStatement (p ++ ['\n']) := by
    intro p hm
    rcases List.mem_cons.1 hm with rfl | hm
    · exact ⟨⟨⟨_, _, rfl, by decide⟩, by decide, by decide⟩, closed_of 100 (by decide +kernel), _, _, rfl, by decide⟩
    rcases List.mem_cons.1 hm with rfl | hm
    · exact ⟨⟨⟨_, _, rfl, by decide⟩, by decide, by decide⟩, closed_of 100 (by decide +kernel), _, _, rfl, by decide⟩
    rcases List.mem_cons.1 hm with rfl | hm
    · exact ⟨⟨⟨_, _, rfl, by decide⟩, by decide, by decide⟩, closed_of 100 (by decide +kernel), _, _, rfl, by decide⟩
    · cases hm
  constructor
  · refine (C81_accepted_iff [cs! "c(\nd)", cs! "while a:\n  b"] (by simp) fun p hm => hp p (by simp at hm ⊢; rcases hm with h | h <;> simp [h])).2 ?_
    intro p hm
    rcases List.mem_cons.1 hm with rfl | hm
    · exact Res.accepts (m := 100) (by decide +kernel)
    rcases List.mem_cons.1 hm with rfl | hm
    · exact Res.accepts (m := 100) (by decide +kernel)
    · cases hm
  · intro h
    exact Res.rejects (m := 100) (by decide +kernel) ((C81_accepted_iff _ (by simp) hp).1 h (cs! "x y") (by simp))

end Verif
