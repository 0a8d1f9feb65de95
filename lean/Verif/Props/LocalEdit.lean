import Verif.Spec.Pieces
import Verif.Props.JoinTrees

/-!
# C64 An edit in one place leaves the other statements alone
-/

namespace Verif

/-- A piece after a piece is a piece. -/
theorem Piece.append {v w : List Char} (hv : Piece v) (hw : Piece w) : Piece (v ++ w) := by
  obtain ⟨-, h2, c, r, rfl, hc⟩ := hv
  obtain ⟨⟨b, rfl, hb⟩, g2, c', r', hr', hc'⟩ := hw
  refine ⟨⟨c :: r ++ b, by simp, ?_⟩, ?_, c, r ++ (b ++ ['\n']), by simp, hc⟩
  · cases b with
    | nil =>
      simp only [List.nil_append, List.cons.injEq] at hr'
      obtain ⟨rfl, -⟩ := hr'
      exact absurd (by decide) hc'
    | cons x b =>
      rw [List.getLast?_append]
      cases hh : (x :: b).getLast? with
      | none => simp at hh
      | some y => rw [hh] at hb; simpa using hb
  · simp only [List.mem_append, not_or]
    exact ⟨h2, by simpa using g2⟩

/-- C62 for two pieces. -/
theorem join_two [Uni] (v w : List Char) (hv : Piece v) (hw : Piece w) (n m : Nat) (t u : Tree) (c d : PSt)
    (h : run n .fileInput (PSt.new (Lexer.new v)) = .ok t c) (h' : run m .fileInput (PSt.new (Lexer.new w)) = .ok u d) :
    ∃ k x c', run k .fileInput (PSt.new (Lexer.new (v ++ w))) = .ok x c' ∧
      (fileStatements x).map (Tree.erase Token.bare) =
        (fileStatements t).map (Tree.erase Token.bare) ++ (fileStatements u).map (Tree.erase Token.bare) := by
  obtain ⟨⟨a, rfl, h1⟩, h2, -⟩ := hv
  have := C62_tree_of_joined_files a w n m t u c d h h' (fun hh => h2 (by simp [hh])) h1 hw.2.2
  simpa using this

/-- C64, any number of pieces: the statements of a file that is made of pieces, each accepted as a file on its own, are
the statements of the pieces, in order, apart from positions and trivia. -/
theorem C64_pieces [Uni] (ps : List (List Char × Tree)) (hne : ps ≠ []) (hp : ∀ w ∈ ps, Piece w.1)
    (h : ∀ w ∈ ps, ∃ n c, run n .fileInput (PSt.new (Lexer.new w.1)) = .ok w.2 c) :
    ∃ k x c, run k .fileInput (PSt.new (Lexer.new (ps.flatMap (·.1)))) = .ok x c ∧
      (fileStatements x).map (Tree.erase Token.bare) =
        (ps.flatMap (fun w => fileStatements w.2)).map (Tree.erase Token.bare) := by
  suffices key : Piece (ps.flatMap (·.1)) ∧ ∃ k x c, run k .fileInput (PSt.new (Lexer.new (ps.flatMap (·.1)))) = .ok x c ∧
      (fileStatements x).map (Tree.erase Token.bare) =
        (ps.flatMap (fun w => fileStatements w.2)).map (Tree.erase Token.bare) from key.2
  induction ps with
  | nil => exact absurd rfl hne
  | cons w ps ih =>
    obtain ⟨n, c, h1⟩ := h w (by simp)
    have hw := hp w (by simp)
    cases ps with
    | nil => exact ⟨by simpa using hw, n, w.2, c, by simpa using h1, by simp⟩
    | cons w' ps =>
      obtain ⟨i1, k, x, d, i2, i3⟩ := ih (by simp) (fun w hw => hp w (List.mem_cons_of_mem _ hw))
        (fun w hw => h w (List.mem_cons_of_mem _ hw))
      obtain ⟨k', x', c', j1, j2⟩ := join_two _ _ hw i1 _ _ _ _ _ _ h1 i2
      rw [List.flatMap_cons]
      refine ⟨hw.append i1, k', x', c', j1, ?_⟩
      rw [j2, i3, List.flatMap_cons (x := w), List.map_append]

/-- C64: replace some lines `b` in the middle of a file by other lines `b'`.  If the text before, the old lines, the new
lines and the text after are accepted on their own, the old and the new file are accepted.  The statements before and
after the edit are the same in both trees, apart from positions and trivia, and between them stand those of the old and
those of the new lines. -/
theorem C64_local_edit [Uni] (a b b' d : List Char) (ha : Piece a) (hb : Piece b) (hb' : Piece b') (hd : Piece d)
    (aa : Accepts .fileInput a) (ab : Accepts .fileInput b) (ab' : Accepts .fileInput b') (ad : Accepts .fileInput d) :
    ∃ n n' t t' c c' p m m' q, run n .fileInput (PSt.new (Lexer.new (a ++ b ++ d))) = .ok t c ∧
      run n' .fileInput (PSt.new (Lexer.new (a ++ b' ++ d))) = .ok t' c' ∧
      (fileStatements t).map (Tree.erase Token.bare) = p ++ m ++ q ∧
      (fileStatements t').map (Tree.erase Token.bare) = p ++ m' ++ q ∧
      (∃ k x s, run k .fileInput (PSt.new (Lexer.new a)) = .ok x s ∧ (fileStatements x).map (Tree.erase Token.bare) = p) ∧
      (∃ k x s, run k .fileInput (PSt.new (Lexer.new b)) = .ok x s ∧ (fileStatements x).map (Tree.erase Token.bare) = m) ∧
      (∃ k x s, run k .fileInput (PSt.new (Lexer.new b')) = .ok x s ∧ (fileStatements x).map (Tree.erase Token.bare) = m') ∧
      (∃ k x s, run k .fileInput (PSt.new (Lexer.new d)) = .ok x s ∧ (fileStatements x).map (Tree.erase Token.bare) = q) := by
  obtain ⟨na, ta, ca, ha'⟩ := aa
  obtain ⟨nb, tb, cb, hb1⟩ := ab
  obtain ⟨nb', tb', cb', hb1'⟩ := ab'
  obtain ⟨nd, td, cd, hd1⟩ := ad
  have three : ∀ {w t n s}, Piece w → run n .fileInput (PSt.new (Lexer.new w)) = .ok t s →
      ∃ k x c, run k .fileInput (PSt.new (Lexer.new (a ++ w ++ d))) = .ok x c ∧
        (fileStatements x).map (Tree.erase Token.bare) = (fileStatements ta).map (Tree.erase Token.bare) ++
          (fileStatements t).map (Tree.erase Token.bare) ++ (fileStatements td).map (Tree.erase Token.bare) := by
    intro w t n s hw hr
    obtain ⟨k, x, c, h1, h2⟩ := join_two a w ha hw _ _ _ _ _ _ ha' hr
    obtain ⟨k', x', c', h1', h2'⟩ := join_two (a ++ w) d (ha.append hw) hd _ _ _ _ _ _ h1 hd1
    exact ⟨k', x', c', h1', by rw [h2', h2]⟩
  obtain ⟨n, t, c, h1, h2⟩ := three hb hb1
  obtain ⟨n', t', c', h1', h2'⟩ := three hb' hb1'
  exact ⟨n, n', t, t', c, c', _, _, _, _, h1, h1', h2, h2', ⟨_, _, _, ha', rfl⟩, ⟨_, _, _, hb1, rfl⟩, ⟨_, _, _, hb1', rfl⟩,
    ⟨_, _, _, hd1, rfl⟩⟩

/-- Pieces can be checked. -/
theorem piece_of (w : List Char) (h : (match w with | [] => false | c :: _ => !(cs! " \t\r\n#\\").contains c) = true)
    (h1 : w.getLast? = some '\n') (h2 : w.dropLast.getLast? ≠ some '\r') (h3 : '\x00' ∉ w) : Piece w := by
  refine ⟨⟨w.dropLast, ?_, h2⟩, h3, ?_⟩
  · obtain ⟨ys, rfl⟩ := List.getLast?_eq_some_iff.mp h1
    simp
  · cases w with
    | nil => simp at h
    | cons c r => exact ⟨c, r, rfl, by simpa using h⟩

/-- A statement in the middle of a file is replaced by two others. -/
example : let _ := asciiUni
    Piece (cs! "try:\n  a\nexcept:\n  b\n") ∧ Piece (cs! "c = (\n  d)\n") ∧ Piece (cs! "if c:\n  d; e\nf # g\n") ∧
      Piece (cs! "else_ = 1\n") ∧ Accepts .fileInput (cs! "try:\n  a\nexcept:\n  b\n") ∧
      Accepts .fileInput (cs! "c = (\n  d)\n") ∧ Accepts .fileInput (cs! "if c:\n  d; e\nf # g\n") ∧
      Accepts .fileInput (cs! "else_ = 1\n") := by
  intro _
  exact ⟨piece_of _ (by decide) (by decide) (by decide) (by decide), piece_of _ (by decide) (by decide) (by decide) (by decide),
    piece_of _ (by decide) (by decide) (by decide) (by decide), piece_of _ (by decide) (by decide) (by decide) (by decide),
    Res.accepts (m := 200) (by decide +kernel), Res.accepts (m := 200) (by decide +kernel),
    Res.accepts (m := 200) (by decide +kernel), Res.accepts (m := 200) (by decide +kernel)⟩

/-- The new lines must be accepted on their own: with an opening bracket as the new line and a closing one in the text
after it, the edited file is accepted, but the two statements `b` and `)` are gone. -/
example : let _ := asciiUni
    Piece (cs! "(\n") ∧ ¬ Accepts .fileInput (cs! "(\n") ∧
      ∃ n t c, run n .fileInput (PSt.new (Lexer.new (cs! "a\n(\nb\n)\n"))) = .ok t c ∧ (fileStatements t).length = 2 := by
  intro _
  refine ⟨piece_of _ (by decide) (by decide) (by decide) (by decide), ?_, 200, Res.shows (by decide +kernel)⟩
  rintro ⟨n, t, c, h⟩
  have h2 : (run 200 .fileInput (PSt.new (Lexer.new (cs! "(\n")))).isErr = true := by decide +kernel
  obtain ⟨p, m, h2⟩ := Res.of_isErr h2
  have := run_det (n := n) (m := 200) (f := .fileInput) (c := PSt.new (Lexer.new (cs! "(\n"))) (by rw [h]; simp) (by rw [h2]; simp)
  rw [h, h2] at this
  cases this

end Verif
