import Verif.Proof.Shift

/-!
# Tokenizer: the start of the token does not depend on the position in the text either

As in `Proof/Shift.lean`, with the field that `get_position` returns.
-/

set_option linter.unusedSimpArgs false

namespace Verif
open LexM
attribute [-simp] List.drop_one List.tail_drop

/-- `SameAhead`, and the last token started `d` characters further on. -/
structure SameAt (d : Nat) (l l' : Lexer) : Prop extends SameAhead d l l' where
  start : l'.tokStart = l.tokStart + d

theorem SameAt.rest' {d l l'} (h : SameAt d l l') : l'.rest = l.rest := h.rest
theorem SameAt.pos' {d l l'} (h : SameAt d l l') : l'.pos = l.pos + d := h.pos
theorem SameAt.fwd {d l l'} (h : SameAt d l l') (k : Nat) : SameAt d (l.fwd k) (l'.fwd k) :=
  ⟨h.toSameAhead.fwd k, h.start⟩
theorem SameAhead.atStart {d l l'} (h : SameAhead d l l') (s s' : Nat) (hs : s' = s + d) : SameAt d (l.at s) (l'.at s') :=
  ⟨h.at s s', hs⟩
theorem SameAt.at {d l l'} (h : SameAt d l l') (s s' : Nat) (hs : s' = s + d) : SameAt d (l.at s) (l'.at s') :=
  ⟨h.toSameAhead.at s s', hs⟩
theorem SameAt.setBol {d l l'} (h : SameAt d l l') (b) : SameAt d (l.setBol b) (l'.setBol b) :=
  ⟨h.toSameAhead.setBol b, h.start⟩
theorem SameAt.setParens {d l l'} (h : SameAt d l l') {p p' : List Char} (hp : p' = p) :
    SameAt d { l with parens := p } { l' with parens := p' } :=
  ⟨h.toSameAhead.setParens hp, h.start⟩
theorem SameAt.bolState {d l l' b} (h : SameAt d l l') :
    (bolState b l').1 = (bolState b l).1 ∧ SameAt d (bolState b l).2 (bolState b l').2 :=
  ⟨h.toSameAhead.bolState.1, h.toSameAhead.bolState.2, by rw [bolState_tokStart, bolState_tokStart]; exact h.start⟩

/-- The same result, `d` characters further on. -/
inductive SameResAt (d : Nat) : LexRes Token → LexRes Token → Prop
  | ok {t l l'} : SameAt d l l' → SameResAt d (.ok t l) (.ok (t.shift d) l')
  | err {e l l'} : SameAt d l l' → SameResAt d (.err e l) (.err (e.shift d) l')

theorem SameResAt.ok' {d t t' l l'} (h : SameAt d l l') (ht : t' = Token.shift d t) :
    SameResAt d (.ok t l) (.ok t' l') := ht ▸ .ok h
theorem SameResAt.err' {d e e' l l'} (h : SameAt d l l') (he : e' = LexErr.shift d e) :
    SameResAt d (.err e l) (.err e' l') := he ▸ .err h

theorem numResult_shiftAt {d s ts l l'} (h : SameAt d l l')
    (hs : ErrOk (s l.rest)) :
    SameResAt d (numResult s ts l) (numResult s (ts.map (Trivia.shift d)) l') := by
  have ht := h.start
  unfold numResult
  rw [h.rest']
  cases hc : s l.rest with
  | ok t =>
    dsimp only
    exact .ok' (h.fwd _) (by simp [Token.shift, finTrivia_shift, ht, h.pos', Nat.add_right_comm])
  | error e =>
    rw [hc] at hs
    exact .err' (h.fwd _) (by rw [ht]; exact (hs _ _).symm)

theorem stringResult_shiftAt {d s q pfx ts l l'} (h : SameAt d l l') :
    SameResAt d (stringResult s q pfx ts l) (stringResult (s + d) q pfx (ts.map (Trivia.shift d)) l') := by
  unfold stringResult
  rw [h.rest', h.pos']
  split
  · cases tripleBody q (l.rest.drop 3) with
    | some txt =>
      exact .ok' (h.fwd _) (by simp [Token.shift, finTrivia_shift, Nat.add_right_comm])
    | none => exact .err' (h.fwd _) rfl
  · split
    · exact .ok' (h.fwd _) (by simp [Token.shift, finTrivia_shift, Nat.add_right_comm])
    · dsimp only
      split
      · exact .ok' (h.fwd _) (by simp [Token.shift, finTrivia_shift, Nat.add_right_comm])
      · exact .err' (h.fwd _) (by simp [LexErr.shift, Nat.add_right_comm])

theorem armResult_shiftAt {d a ts l l'} (h : SameAt d l l') :
    SameResAt d (armResult a ts l) (armResult a (ts.map (Trivia.shift d)) l') := by
  have ht := h.start
  unfold armResult
  rw [h.pos', ht, h.parens]
  cases a.act with
  | tok k => exact .ok' (h.fwd _) (by simp [Token.shift, finTrivia_shift, Nat.add_right_comm])
  | openB k c =>
    exact .ok' ((h.fwd _).setParens rfl) (by simp [Token.shift, finTrivia_shift, Nat.add_right_comm])
  | closeB k c =>
    dsimp only
    split
    · exact .ok' ((h.fwd _).setParens rfl) (by simp [Token.shift, finTrivia_shift, Nat.add_right_comm])
    · exact .err' (h.fwd _) rfl

theorem armsResult_shiftAt [Uni] {d ts l l'} (h : SameAt d l l') :
    SameResAt d (armsResult ts l) (armsResult (ts.map (Trivia.shift d)) l') := by
  have ht := h.start
  unfold armsResult
  rw [h.rest']
  cases findArm (hd l.rest, hd (l.rest.drop 1), hd (l.rest.drop 2)) with
  | some a => exact armResult_shiftAt h
  | none =>
    dsimp only
    split
    · rw [nameArm_apply, nameArm_apply, h.rest']
      dsimp only
      cases keywords.lookup (word l.rest) with
      | some k =>
        exact .ok' (h.fwd _) (by simp [Token.shift, finTrivia_shift, ht, h.pos', Nat.add_right_comm])
      | none =>
        dsimp only
        split
        · rw [ht]; exact stringResult_shiftAt (h.fwd _)
        · exact .ok' (h.fwd _) (by simp [Token.shift, finTrivia_shift, ht, h.pos', Nat.add_right_comm])
    split
    · exact numResult_shiftAt h (.zeroScan _)
    split
    · exact numResult_shiftAt h (.dotScan _)
    split
    · exact numResult_shiftAt h (.decScan _)
    split
    · rw [ht]; exact stringResult_shiftAt h
    · exact .err' h (by simp [LexErr.shift, h.pos'])

theorem Step.shiftAt [Uni] {d l l' r} (h : SameAhead d l l') (hs : Step l r) :
    ∃ r', Step l' r' ∧ SameResAt d r r' := by
  obtain ⟨hb0, h1⟩ := (h.atStart l.pos l'.pos h.pos').bolState (b := false)
  have hbs : ∀ {b l1}, Verif.bolState false (l.at l.pos) = (b, l1) →
      ∃ l1', Verif.bolState false (l'.at l'.pos) = (b, l1') ∧ SameAt d l1 l1' := by
    intro b l1 hb
    rw [hb] at hb0 h1
    exact ⟨_, by rw [show b = _ from hb0.symm], h1⟩
  cases hs with
  | dedent hb hp =>
    obtain ⟨l1', hb', h1⟩ := hbs hb
    refine ⟨_, .dedent hb' (by rw [h1.pending]; exact hp), .ok' (t := .dedent none) ?_ rfl⟩
    exact ⟨⟨h1.pos, h1.rest, h1.parens, h1.bol, h1.tabSize, h1.interactive, by simp [h1.pending], h1.indents⟩, h1.start⟩
  | indent hb hp =>
    obtain ⟨l1', hb', h1⟩ := hbs hb
    refine ⟨_, .indent hb' (by rw [h1.pending]; exact hp), .ok' (t := .indent none) ?_ rfl⟩
    exact ⟨⟨h1.pos, h1.rest, h1.parens, h1.bol, h1.tabSize, h1.interactive, by simp [h1.pending], h1.indents⟩, h1.start⟩
  | newline hb hp hbf hpar hrun hend hc1 hc2 =>
    obtain ⟨l1', hb', h1⟩ := hbs hb
    have hg := (Gap.of_hrun (q := false) hrun).shift d
    rw [← h1.rest', ← h1.pos'] at hg
    refine ⟨_, .newline hb' (by rw [h1.pending]; exact hp) hbf (by rw [h1.parens]; exact hpar)
      hg.hrun (by rw [h1.rest']; exact hend) rfl hc2, ?_⟩
    exact .ok' (((h1.fwd _).at _ _ (by simp [h1.pos', Nat.add_right_comm])).setBol _) (by
      simp [hc1, h1.rest', Token.shift, finTrivia_shift, h1.pos', Nat.add_right_comm])
  | typeComment hb hp hg hh ht =>
    obtain ⟨l1', hb', h1⟩ := hbs hb
    have hg := hg.shift d
    rw [← h1.rest', ← h1.pos', ← h1.parens] at hg
    have := Step.typeComment hb' (by rw [h1.pending]; exact hp) hg (by rw [h1.rest']; exact hh)
      (by rw [h1.rest']; exact ht)
    refine ⟨_, this, ?_⟩
    rw [h1.rest']
    exact .ok' ((h1.fwd _).at _ _ (by simp [h1.pos', Nat.add_right_comm])) (by
      simp [Token.shift, finTrivia_shift, h1.pos', Nat.add_right_comm])
  | eof hb hp hg hh =>
    obtain ⟨l1', hb', h1⟩ := hbs hb
    have hg := hg.shift d
    rw [← h1.rest', ← h1.pos', ← h1.parens] at hg
    have := Step.eof hb' (by rw [h1.pending]; exact hp) hg (by rw [h1.rest']; exact hh)
    refine ⟨_, this, ?_⟩
    exact .ok' ((h1.fwd _).at _ _ (by simp [h1.pos', Nat.add_right_comm])) (by
      simp [Token.shift, finTrivia_shift, h1.pos', Nat.add_right_comm])
  | badCont hb hp hg hh e1 e2 =>
    obtain ⟨l1', hb', h1⟩ := hbs hb
    have hg := hg.shift d
    rw [← h1.rest', ← h1.pos', ← h1.parens] at hg
    have := Step.badCont hb' (by rw [h1.pending]; exact hp) hg (by rw [h1.rest']; exact hh)
      (by rw [h1.rest']; exact e1) (by rw [h1.rest']; exact e2)
    refine ⟨_, this, ?_⟩
    exact .err' ((h1.fwd _).at _ _ (by simp [h1.pos', Nat.add_right_comm])) (by simp [LexErr.shift, h1.pos', Nat.add_right_comm])
  | arms hb hp hg hh =>
    obtain ⟨l1', hb', h1⟩ := hbs hb
    have hg := hg.shift d
    rw [← h1.rest', ← h1.pos', ← h1.parens] at hg
    have := Step.arms hb' (by rw [h1.pending]; exact hp) hg (by rw [h1.rest']; exact hh)
    refine ⟨_, this, ?_⟩
    exact armsResult_shiftAt ((h1.fwd _).at _ _ (by simp [h1.pos', Nat.add_right_comm]))

theorem getSymbol_shiftAt [Uni] {d src src' l l'} (hi : Inv src l) (hi' : Inv src' l')
    (h : SameAhead d l l') : SameResAt d (getSymbol l) (getSymbol l') := by
  obtain ⟨r', h1, h2⟩ := (getSymbol_step l hi.inter hi.ind).shiftAt h
  rw [getSymbol_eq hi' h1]; exact h2

end Verif
