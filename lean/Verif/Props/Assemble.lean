import Verif.Spec.Assemble
import Verif.Props.JoinTrees

/-!
# C81: programs can be put together from pieces, in any order
-/

namespace Verif
set_option linter.unusedVariables false

/-- C81: pieces that are accepted as files, each on its own, are accepted as one file when they are put together, and its statements
are those of the pieces in order. -/
theorem C81_assembled [Uni] (ps : List (List Char × Tree)) (hne : ps ≠ [])
    (hp : ∀ q ∈ ps, IsPiece q.1 ∧ ∃ n c, run n .fileInput (PSt.new (Lexer.new (q.1 ++ ['\n']))) = .ok q.2 c) :
    ∃ k v c', run k .fileInput (PSt.new (Lexer.new (assemble (ps.map Prod.fst)))) = .ok v c' ∧
      bareStatements v = ps.flatMap fun q => bareStatements q.2 := by
  induction ps with
  | nil => exact absurd rfl hne
  | cons q ps ih =>
    obtain ⟨⟨⟨x, r, hx, hm⟩, h0, hcr⟩, n, c, hq⟩ := hp q (by simp)
    cases ps with
    | nil => exact ⟨n, q.2, c, by simpa [assemble] using hq, by simp⟩
    | cons q' ps =>
      obtain ⟨m, u, d, hu, he⟩ := ih (by simp) fun p hpm => hp p (List.mem_cons_of_mem _ hpm)
      obtain ⟨⟨⟨x', r', hx', hm'⟩, -⟩, -⟩ := hp q' (by simp)
      obtain ⟨k, v, c', h1, h2⟩ := C62_tree_of_joined_files q.1 (assemble ((q' :: ps).map Prod.fst)) n m q.2 u c d hq hu h0 hcr
        ⟨x', r' ++ '\n' :: assemble (ps.map Prod.fst), by simp [assemble, hx'], hm'⟩
      refine ⟨k, v, c', ?_, ?_⟩
      · rw [← h1]
        simp [assemble]
      · rw [List.flatMap_cons, ← he]
        exact h2

/-- C81, any order: the pieces in another order are accepted as well, with the same statements in another order. -/
theorem C81_any_order [Uni] (ps qs : List (List Char × Tree)) (hne : ps ≠ [])
    (hp : ∀ q ∈ ps, IsPiece q.1 ∧ ∃ n c, run n .fileInput (PSt.new (Lexer.new (q.1 ++ ['\n']))) = .ok q.2 c)
    (hq : qs.Perm ps) :
    ∃ k v c' k' v' d', run k .fileInput (PSt.new (Lexer.new (assemble (ps.map Prod.fst)))) = .ok v c' ∧
      run k' .fileInput (PSt.new (Lexer.new (assemble (qs.map Prod.fst)))) = .ok v' d' ∧
      (bareStatements v').Perm (bareStatements v) := by
  obtain ⟨k, v, c', h1, h2⟩ := C81_assembled ps hne hp
  obtain ⟨k', v', d', g1, g2⟩ := C81_assembled qs (fun h => hne (by rw [h] at hq; exact hq.nil_eq.symm)) fun q hm => hp q (hq.mem_iff.1 hm)
  refine ⟨k, v, c', k', v', d', h1, g1, ?_⟩
  rw [h2, g2]
  exact hq.flatMap_right _

/-- C81, leaving out: some of the pieces, at least one, are accepted, and the statements are those of the pieces that are left. -/
theorem C81_left_out [Uni] (ps qs : List (List Char × Tree)) (hne : qs ≠ [])
    (hp : ∀ q ∈ ps, IsPiece q.1 ∧ ∃ n c, run n .fileInput (PSt.new (Lexer.new (q.1 ++ ['\n']))) = .ok q.2 c)
    (hq : qs.Sublist ps) :
    ∃ k v c', run k .fileInput (PSt.new (Lexer.new (assemble (qs.map Prod.fst)))) = .ok v c' ∧
      bareStatements v = qs.flatMap fun q => bareStatements q.2 :=
  C81_assembled qs hne fun q hm => hp q (hq.subset hm)

/-- Three pieces (a loop, two statements with a comment, a `try`), put together in two orders: four statements each time. -/
example : let _ := asciiUni
    ∃ k v c' k' v' d',
      run k .fileInput (PSt.new (Lexer.new (cs! "while a:\n  b\nc = 1 # x\nd\ntry: e\nexcept: f\n"))) = .ok v c' ∧
      run k' .fileInput (PSt.new (Lexer.new (cs! "c = 1 # x\nd\nwhile a:\n  b\ntry: e\nexcept: f\n"))) = .ok v' d' ∧
      (bareStatements v').Perm (bareStatements v) ∧ (bareStatements v').length = 4 := by
  intro _
  obtain ⟨t, c, h1, e1⟩ := Res.shows (P := fun t => (fileStatements t).length = 1)
    (r := run 200 .fileInput (PSt.new (Lexer.new (cs! "while a:\n  b" ++ ['\n'])))) (by decide +kernel)
  obtain ⟨u, d, h2, e2⟩ := Res.shows (P := fun t => (fileStatements t).length = 2)
    (r := run 200 .fileInput (PSt.new (Lexer.new (cs! "c = 1 # x\nd" ++ ['\n'])))) (by decide +kernel)
  obtain ⟨w, f, h3, e3⟩ := Res.shows (P := fun t => (fileStatements t).length = 1)
    (r := run 200 .fileInput (PSt.new (Lexer.new (cs! "try: e\nexcept: f" ++ ['\n'])))) (by decide +kernel)
  have hp : ∀ q ∈ [(cs! "while a:\n  b", t), (cs! "c = 1 # x\nd", u), (cs! "try: e\nexcept: f", w)],
      IsPiece q.1 ∧ ∃ n c, run n .fileInput (PSt.new (Lexer.new (q.1 ++ ['\n']))) = .ok q.2 c := by
    intro q hq
    rcases List.mem_cons.1 hq with rfl | hq
    · exact ⟨⟨⟨_, _, rfl, by decide⟩, (by dsimp only; decide), (by dsimp only; decide)⟩, _, _, h1⟩
    rcases List.mem_cons.1 hq with rfl | hq
    · exact ⟨⟨⟨_, _, rfl, by decide⟩, (by dsimp only; decide), (by dsimp only; decide)⟩, _, _, h2⟩
    rcases List.mem_cons.1 hq with rfl | hq
    · exact ⟨⟨⟨_, _, rfl, by decide⟩, (by dsimp only; decide), (by dsimp only; decide)⟩, _, _, h3⟩
    · cases hq
  obtain ⟨k, v, c', k', v', d', g1, g2, g3⟩ := C81_any_order _ [(cs! "c = 1 # x\nd", u), (cs! "while a:\n  b", t), (cs! "try: e\nexcept: f", w)]
    (by simp) hp (List.Perm.swap _ _ _)
  refine ⟨k, v, c', k', v', d', g1, g2, g3, ?_⟩
  obtain ⟨k2, v2, c2, j1, j2⟩ := C81_assembled _ (by simp) hp
  have e := run_det (n := k) (m := k2) (f := .fileInput) (by rw [g1]; simp) (by rw [j1]; simp)
  rw [g1, j1] at e
  cases e
  rw [g3.length_eq, j2]
  simp [bareStatements, e1, e2, e3]

end Verif
