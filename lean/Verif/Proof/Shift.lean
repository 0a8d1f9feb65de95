import Verif.Proof.StepDet
import Verif.Proof.Gaps
import Verif.Spec.Shift

/-!
# Tokenizer: results do not depend on the position in the text
-/

set_option linter.unusedSimpArgs false

namespace Verif
open LexM
attribute [-simp] List.drop_one List.tail_drop

theorem finTrivia_shift (d : Nat) (ts : List Trivia) :
    Trivs.shift d (finTrivia ts) = finTrivia (ts.map (Trivia.shift d)) := by
  cases ts with
  | nil => rfl
  | cons x xs => simp [finTrivia, Trivs.shift]

theorem HTrivia.shift {pos cs x n} (d : Nat) (h : HTrivia pos cs x n) :
    HTrivia (pos + d) cs (x.shift d) n := by
  cases h with
  | spaces h =>
    have := HTrivia.spaces (pos := pos + d) h
    simpa [Trivia.shift, Nat.add_right_comm] using this
  | tab h =>
    have := HTrivia.tab (pos := pos + d) h
    simpa [Trivia.shift, Nat.add_right_comm] using this
  | comment h h2 =>
    have := HTrivia.comment (pos := pos + d) h h2
    simpa [Trivia.shift, Nat.add_right_comm] using this
  | cont3 h h1 h2 =>
    have := HTrivia.cont3 (pos := pos + d) h h1 h2
    simpa [Trivia.shift, Nat.add_right_comm] using this
  | contCR h h1 h2 =>
    have := HTrivia.contCR (pos := pos + d) h h1 h2
    simpa [Trivia.shift, Nat.add_right_comm] using this
  | contLF h h1 =>
    have := HTrivia.contLF (pos := pos + d) h h1
    simpa [Trivia.shift, Nat.add_right_comm] using this

theorem Gap.shift {q pos cs ts n} (d : Nat) (h : Gap q pos cs ts n) :
    Gap q (pos + d) cs (ts.map (Trivia.shift d)) n := by
  induction h with
  | nil => exact .nil
  | item h _ ih =>
    rw [List.map_cons]
    refine .item (h.shift d) ?_
    rw [Nat.add_right_comm]; exact ih
  | @line pos cs n ts m hq h _ ih =>
    rw [List.map_cons]
    have := Gap.line (pos := pos + d) hq h (by rw [Nat.add_right_comm pos d n, Nat.add_right_comm]; exact ih)
    simpa [Trivia.shift, Nat.add_right_comm] using this

/-! ### States -/

theorem SameAhead.rest' {d l l'} (h : SameAhead d l l') : l'.rest = l.rest := h.rest
theorem SameAhead.pos' {d l l'} (h : SameAhead d l l') : l'.pos = l.pos + d := h.pos

theorem SameAhead.fwd {d l l'} (h : SameAhead d l l') (k : Nat) : SameAhead d (l.fwd k) (l'.fwd k) where
  pos := by have := h.pos; simp; omega
  rest := by
    have := h.rest
    show (l'.fwd k).rest = (l.fwd k).rest
    rw [rest_fwd, rest_fwd, h.rest']
  parens := h.parens
  bol := h.bol
  tabSize := h.tabSize
  interactive := h.interactive
  pending := h.pending
  indents := h.indents

theorem SameAhead.at {d l l'} (h : SameAhead d l l') (s s' : Nat) : SameAhead d (l.at s) (l'.at s') :=
  ⟨h.pos, h.rest, h.parens, h.bol, h.tabSize, h.interactive, h.pending, h.indents⟩

theorem SameAhead.setBol {d l l'} (h : SameAhead d l l') (b) : SameAhead d (l.setBol b) (l'.setBol b) :=
  ⟨h.pos, h.rest, h.parens, rfl, h.tabSize, h.interactive, h.pending, h.indents⟩

theorem SameAhead.setParens {d l l'} (h : SameAhead d l l') {p p' : List Char} (hp : p' = p) :
    SameAhead d { l with parens := p } { l' with parens := p' } :=
  ⟨h.pos, h.rest, hp, h.bol, h.tabSize, h.interactive, h.pending, h.indents⟩

theorem SameAhead.bolState {d l l' b} (h : SameAhead d l l') :
    (bolState b l').1 = (bolState b l).1 ∧ SameAhead d (bolState b l).2 (bolState b l').2 := by
  have hbl : l'.blanks = l.blanks := by simp [Lexer.blanks, h.rest']
  have hcol : l'.col = l.col := by simp [Lexer.col, hbl, h.tabSize]
  unfold Verif.bolState
  rw [h.bol]
  split
  · simp only [hbl, hcol, h.rest', h.parens, h.indents, h.pending]
    have hf := h.fwd l.blanks.length
    split
    · exact ⟨rfl, hf.pos, hf.rest, hf.parens, rfl, hf.tabSize, hf.interactive, rfl, rfl⟩
    · exact ⟨rfl, hf.pos, hf.rest, hf.parens, rfl, hf.tabSize, hf.interactive, hf.pending, hf.indents⟩
  · exact ⟨rfl, h⟩

/-- The same result, `d` characters further on. -/
inductive SameRes (d : Nat) : LexRes Token → LexRes Token → Prop
  | ok {t l l'} : SameAhead d l l' → SameRes d (.ok t l) (.ok (t.shift d) l')
  | err {e l l'} : SameAhead d l l' → SameRes d (.err e l) (.err (e.shift d) l')

theorem SameRes.ok' {d t t' l l'} (h : SameAhead d l l') (ht : t' = Token.shift d t) :
    SameRes d (.ok t l) (.ok t' l') := ht ▸ .ok h
theorem SameRes.err' {d e e' l l'} (h : SameAhead d l l') (he : e' = LexErr.shift d e) :
    SameRes d (.err e l) (.err e' l') := he ▸ .err h

/-! ### Scans -/

/-- An error the scan raises is the same error wherever the token starts. -/
def ErrOk : Except ((Nat → LexErr) × Nat) (List Char) → Prop
  | .ok _ => True
  | .error (e, _) => ∀ p d, (e p).shift d = e (p + d)

theorem ErrOk.pre {s : Scan} {w cs} (h : ErrOk (s (cs.drop w.length))) : ErrOk (Scan.pre w s cs) := by
  unfold Scan.pre
  cases hs : s (cs.drop w.length) with
  | ok t => trivial
  | error e => rw [hs] at h; exact h

theorem ErrOk.seq {s1 s2 : Scan} (h1 : ∀ cs, ErrOk (s1 cs)) (h2 : ∀ cs, ErrOk (s2 cs)) (cs) :
    ErrOk ((s1.seq s2) cs) := by
  unfold Scan.seq
  cases hs : s1 cs with
  | error e => have := h1 cs; rw [hs] at this; exact this
  | ok t => exact .pre (h2 _)

theorem ErrOk.digitRun (d : Char → Bool) {e : Nat → LexErr} (he : ∀ p d, (e p).shift d = e (p + d)) (cs) :
    ErrOk (digitRun d e cs) := by
  induction cs with
  | nil => trivial
  | cons c cs ih =>
    unfold Verif.digitRun
    split
    · split
      · cases hs : Verif.digitRun d e cs with
        | ok t => trivial
        | error x => rw [hs] at ih; exact ih
      · exact he
    · split
      · cases hs : Verif.digitRun d e cs with
        | ok t => trivial
        | error x => rw [hs] at ih; exact ih
      · trivial

theorem ErrOk.dec (cs) : ErrOk (Verif.digitRun isDigit .badUnderscore cs) :=
  ErrOk.digitRun _ (fun _ _ => rfl) cs

theorem ErrOk.fraction (cs) : ErrOk (fractionScan cs) := by
  unfold fractionScan
  split
  · split
    · exact fun _ _ => rfl
    · exact .pre (.dec _)
  · trivial

theorem ErrOk.exponent (cs) : ErrOk (exponentScan cs) := by
  unfold exponentScan
  split
  · split <;> exact .pre (.dec _)
  · trivial

theorem ErrOk.imag (cs) : ErrOk (imagScan cs) := by
  unfold imagScan
  split <;> trivial

theorem ErrOk.radix (r d cs) : ErrOk (radixScan r d cs) := by
  unfold radixScan
  split
  · exact .pre (.digitRun _ (fun _ _ => rfl) _)
  · exact fun _ _ => rfl

theorem ErrOk.decScan (cs) : ErrOk (decScan cs) :=
  ErrOk.seq (ErrOk.seq (ErrOk.seq .dec .fraction) .exponent) .imag cs

theorem ErrOk.dotScan (cs) : ErrOk (dotScan cs) :=
  .pre (ErrOk.seq (ErrOk.seq .dec .exponent) .imag _)

theorem ErrOk.zeroScan (cs) : ErrOk (zeroScan cs) := by
  unfold Verif.zeroScan
  dsimp only
  split
  · exact .pre (.radix ..)
  split
  · exact .pre (.radix ..)
  split
  · exact .pre (.radix ..)
  refine .pre ?_
  generalize List.drop _ cs = cs
  have h1 := ErrOk.fraction cs
  cases hf : fractionScan cs with
  | error e => rw [hf] at h1; exact h1
  | ok fr =>
    dsimp only
    refine .pre ?_
    generalize List.drop _ cs = cs
    have h1 := ErrOk.exponent cs
    cases hf : exponentScan cs with
    | error e => rw [hf] at h1; exact h1
    | ok ex =>
      dsimp only
      refine .pre ?_
      generalize List.drop _ cs = cs
      have h1 := ErrOk.imag cs
      cases hf : imagScan cs with
      | error e => rw [hf] at h1; exact h1
      | ok im =>
        dsimp only
        split
        · exact fun _ _ => rfl
        · trivial

theorem numResult_shift {d s ts l l'} (h : SameAhead d l l') (ht : l'.tokStart = l.tokStart + d)
    (hs : ErrOk (s l.rest)) :
    SameRes d (numResult s ts l) (numResult s (ts.map (Trivia.shift d)) l') := by
  unfold numResult
  rw [h.rest']
  cases hc : s l.rest with
  | ok t =>
    dsimp only
    exact .ok' (h.fwd _) (by simp [Token.shift, finTrivia_shift, ht, h.pos', Nat.add_right_comm])
  | error e =>
    rw [hc] at hs
    exact .err' (h.fwd _) (by rw [ht]; exact (hs _ _).symm)

theorem stringResult_shift {d s q pfx ts l l'} (h : SameAhead d l l') :
    SameRes d (stringResult s q pfx ts l) (stringResult (s + d) q pfx (ts.map (Trivia.shift d)) l') := by
  unfold stringResult
  rw [h.rest', h.pos']
  split
  · cases tripleBody q (l.rest.drop 3) with
    | some txt =>
      exact .ok' (h.fwd _) (by simp [Token.shift, finTrivia_shift, Nat.add_right_comm])
    | none => exact .err' (h.fwd _) rfl
  · split
    · exact .ok' (h.fwd _) (by simp [Token.shift, finTrivia_shift, Nat.add_right_comm])
    · dsimp only
      split
      · exact .ok' (h.fwd _) (by simp [Token.shift, finTrivia_shift, Nat.add_right_comm])
      · exact .err' (h.fwd _) (by simp [LexErr.shift, Nat.add_right_comm])

theorem armResult_shift {d a ts l l'} (h : SameAhead d l l') (ht : l'.tokStart = l.tokStart + d) :
    SameRes d (armResult a ts l) (armResult a (ts.map (Trivia.shift d)) l') := by
  unfold armResult
  rw [h.pos', ht, h.parens]
  cases a.act with
  | tok k => exact .ok' (h.fwd _) (by simp [Token.shift, finTrivia_shift, Nat.add_right_comm])
  | openB k c =>
    exact .ok' ((h.fwd _).setParens rfl) (by simp [Token.shift, finTrivia_shift, Nat.add_right_comm])
  | closeB k c =>
    dsimp only
    split
    · exact .ok' ((h.fwd _).setParens rfl) (by simp [Token.shift, finTrivia_shift, Nat.add_right_comm])
    · exact .err' (h.fwd _) rfl

theorem armsResult_shift [Uni] {d ts l l'} (h : SameAhead d l l') (ht : l'.tokStart = l.tokStart + d) :
    SameRes d (armsResult ts l) (armsResult (ts.map (Trivia.shift d)) l') := by
  unfold armsResult
  rw [h.rest']
  cases findArm (hd l.rest, hd (l.rest.drop 1), hd (l.rest.drop 2)) with
  | some a => exact armResult_shift h ht
  | none =>
    dsimp only
    split
    · rw [nameArm_apply, nameArm_apply, h.rest']
      dsimp only
      cases keywords.lookup (word l.rest) with
      | some k =>
        exact .ok' (h.fwd _) (by simp [Token.shift, finTrivia_shift, ht, h.pos', Nat.add_right_comm])
      | none =>
        dsimp only
        split
        · rw [ht]; exact stringResult_shift (h.fwd _)
        · exact .ok' (h.fwd _) (by simp [Token.shift, finTrivia_shift, ht, h.pos', Nat.add_right_comm])
    split
    · exact numResult_shift h ht (.zeroScan _)
    split
    · exact numResult_shift h ht (.dotScan _)
    split
    · exact numResult_shift h ht (.decScan _)
    split
    · rw [ht]; exact stringResult_shift h
    · exact .err' h (by simp [LexErr.shift, h.pos'])

theorem Step.shift [Uni] {d l l' r} (h : SameAhead d l l') (hs : Step l r) :
    ∃ r', Step l' r' ∧ SameRes d r r' := by
  obtain ⟨hb0, h1⟩ := (h.at l.pos l'.pos).bolState (b := false)
  have hbs : ∀ {b l1}, Verif.bolState false (l.at l.pos) = (b, l1) →
      ∃ l1', Verif.bolState false (l'.at l'.pos) = (b, l1') ∧ SameAhead d l1 l1' := by
    intro b l1 hb
    rw [hb] at hb0 h1
    exact ⟨_, by rw [show b = _ from hb0.symm], h1⟩
  cases hs with
  | dedent hb hp =>
    obtain ⟨l1', hb', h1⟩ := hbs hb
    refine ⟨_, .dedent hb' (by rw [h1.pending]; exact hp), .ok' (t := .dedent none) ?_ rfl⟩
    exact ⟨h1.pos, h1.rest, h1.parens, h1.bol, h1.tabSize, h1.interactive, by simp [h1.pending], h1.indents⟩
  | indent hb hp =>
    obtain ⟨l1', hb', h1⟩ := hbs hb
    refine ⟨_, .indent hb' (by rw [h1.pending]; exact hp), .ok' (t := .indent none) ?_ rfl⟩
    exact ⟨h1.pos, h1.rest, h1.parens, h1.bol, h1.tabSize, h1.interactive, by simp [h1.pending], h1.indents⟩
  | newline hb hp hbf hpar hrun hend hc1 hc2 =>
    obtain ⟨l1', hb', h1⟩ := hbs hb
    have hg := (Gap.of_hrun (q := false) hrun).shift d
    rw [← h1.rest', ← h1.pos'] at hg
    refine ⟨_, .newline hb' (by rw [h1.pending]; exact hp) hbf (by rw [h1.parens]; exact hpar)
      hg.hrun (by rw [h1.rest']; exact hend) rfl hc2, ?_⟩
    exact .ok' (((h1.fwd _).at _ _).setBol _) (by
      simp [hc1, h1.rest', Token.shift, finTrivia_shift, h1.pos', Nat.add_right_comm])
  | typeComment hb hp hg hh ht =>
    obtain ⟨l1', hb', h1⟩ := hbs hb
    have hg := hg.shift d
    rw [← h1.rest', ← h1.pos', ← h1.parens] at hg
    have := Step.typeComment hb' (by rw [h1.pending]; exact hp) hg (by rw [h1.rest']; exact hh)
      (by rw [h1.rest']; exact ht)
    refine ⟨_, this, ?_⟩
    rw [h1.rest']
    exact .ok' ((h1.fwd _).at _ _) (by
      simp [Token.shift, finTrivia_shift, h1.pos', Nat.add_right_comm])
  | eof hb hp hg hh =>
    obtain ⟨l1', hb', h1⟩ := hbs hb
    have hg := hg.shift d
    rw [← h1.rest', ← h1.pos', ← h1.parens] at hg
    have := Step.eof hb' (by rw [h1.pending]; exact hp) hg (by rw [h1.rest']; exact hh)
    refine ⟨_, this, ?_⟩
    exact .ok' ((h1.fwd _).at _ _) (by
      simp [Token.shift, finTrivia_shift, h1.pos', Nat.add_right_comm])
  | badCont hb hp hg hh e1 e2 =>
    obtain ⟨l1', hb', h1⟩ := hbs hb
    have hg := hg.shift d
    rw [← h1.rest', ← h1.pos', ← h1.parens] at hg
    have := Step.badCont hb' (by rw [h1.pending]; exact hp) hg (by rw [h1.rest']; exact hh)
      (by rw [h1.rest']; exact e1) (by rw [h1.rest']; exact e2)
    refine ⟨_, this, ?_⟩
    exact .err' ((h1.fwd _).at _ _) (by simp [LexErr.shift, h1.pos', Nat.add_right_comm])
  | arms hb hp hg hh =>
    obtain ⟨l1', hb', h1⟩ := hbs hb
    have hg := hg.shift d
    rw [← h1.rest', ← h1.pos', ← h1.parens] at hg
    have := Step.arms hb' (by rw [h1.pending]; exact hp) hg (by rw [h1.rest']; exact hh)
    refine ⟨_, this, ?_⟩
    exact armsResult_shift ((h1.fwd _).at _ _) (by simp [h1.pos', Nat.add_right_comm])

theorem getSymbol_shift [Uni] {d src src' l l'} (hi : Inv src l) (hi' : Inv src' l')
    (h : SameAhead d l l') : SameRes d (getSymbol l) (getSymbol l') := by
  obtain ⟨r', h1, h2⟩ := (getSymbol_step l hi.inter hi.ind).shift h
  rw [getSymbol_eq hi' h1]; exact h2

end Verif
