import Verif.Proof.StepDet
import Verif.Spec.Gaps

/-!
# Tokenizer: gaps between tokens
-/

set_option linter.unusedSimpArgs false

namespace Verif
open LexM
attribute [-simp] List.drop_one List.tail_drop

/-- Line flag and pending layout tokens after a call. -/
theorem ok_state [Uni] {src l t l'} (h : Inv src l) (he : getSymbol l = .ok t l') :
    (t.kind = .Newline → l'.bol = true ∧ l'.pending = 0 ∧ l'.parens = []) ∧
    (t.kind ≠ .Newline → l'.bol = false) ∧
    (t.kind ≠ .Newline → t.kind ≠ .Dedent → l'.pending = 0) := by
  have hs := getSymbol_step l h.inter h.ind
  have h0 : Inv src (l.at l.pos) := h.at (Nat.le_refl _)
  rw [he] at hs
  generalize hr : LexRes.ok t l' = r at hs
  cases hs with
  | dedent hb hq =>
    obtain ⟨hi, e1, _⟩ := bolState_inv h0 hb
    simp only [LexRes.ok.injEq] at hr
    obtain ⟨rfl, rfl⟩ := hr
    exact ⟨by simp [Token.kind], fun _ => e1, by simp [Token.kind]⟩
  | indent hb hq =>
    obtain ⟨hi, e1, _⟩ := bolState_inv h0 hb
    simp only [LexRes.ok.injEq] at hr
    obtain ⟨rfl, rfl⟩ := hr
    refine ⟨by simp [Token.kind], fun _ => e1, fun _ _ => ?_⟩
    have := hi.pendHi.1
    show _ - 1 = (0 : Int)
    omega
  | newline hb hq hbf hpar =>
    obtain ⟨hi, e1, _⟩ := bolState_inv h0 hb
    simp only [LexRes.ok.injEq] at hr
    obtain ⟨rfl, rfl⟩ := hr
    exact ⟨fun _ => ⟨rfl, by simpa using hq, by simpa using hpar⟩, by simp [Token.kind],
      by simp [Token.kind]⟩
  | typeComment hb hq =>
    obtain ⟨hi, e1, _⟩ := bolState_inv h0 hb
    simp only [LexRes.ok.injEq] at hr
    obtain ⟨rfl, rfl⟩ := hr
    exact ⟨by simp [Token.kind], fun _ => by simpa using e1, fun _ _ => by simpa using hq⟩
  | eof hb hq =>
    obtain ⟨hi, e1, _⟩ := bolState_inv h0 hb
    simp only [LexRes.ok.injEq] at hr
    obtain ⟨rfl, rfl⟩ := hr
    exact ⟨by simp [Token.kind], fun _ => by simpa using e1, fun _ _ => by simpa using hq⟩
  | badCont hb hq => simp at hr
  | @arms b l1 ts k hb hq hg hh =>
    obtain ⟨hi, e1, _⟩ := bolState_inv h0 hb
    rcases armsResult_facts ts ((l1.fwd k).at (l1.pos + k)) (by simp) with
      ⟨t', j, ps, hres, _, _, _, _, _, hlay, _⟩ | ⟨e, j, hres, _⟩
    · rw [hres] at hr
      simp only [LexRes.ok.injEq] at hr
      obtain ⟨rfl, rfl⟩ := hr
      refine ⟨?_, fun _ => e1, fun _ _ => hq⟩
      intro hk; rw [hk] at hlay; simp [Kind.isLayout] at hlay
    · rw [hres] at hr; simp at hr

theorem MidLine.state [Uni] {src l} (h : MidLine src l) : Inv src l ∧ l.bol = false ∧ l.pending = 0 := by
  obtain ⟨l0, t, hr, he, h1, h2⟩ := h
  obtain ⟨_, g2, g3⟩ := ok_state hr.inv he
  exact ⟨(Reach.ok hr he).inv, g2 h1, g3 h1 h2⟩

theorem MidLine.reach [Uni] {src l} (h : MidLine src l) : Reach src l := by
  obtain ⟨l0, t, hr, he, h1, h2⟩ := h
  exact .ok hr he

theorem LineStart.state [Uni] {src l} (h : LineStart src l) :
    Inv src l ∧ l.bol = true ∧ l.pending = 0 ∧ l.parens = [] := by
  rcases h with rfl | ⟨l0, t, hr, he, h1⟩
  · exact ⟨.new src, rfl, rfl, rfl⟩
  · obtain ⟨g1, _⟩ := ok_state hr.inv he
    obtain ⟨a, b, c⟩ := g1 h1
    exact ⟨(Reach.ok hr he).inv, a, b, c⟩

theorem LineStart.reach [Uni] {src l} (h : LineStart src l) : Reach src l := by
  rcases h with rfl | ⟨l0, t, hr, he, h1⟩
  · exact .new
  · exact .ok hr he

/-! ### One trivia more -/

theorem finTrivia_cons (x : Trivia) (ts : List Trivia) :
    finTrivia (x :: ts) = some ((finTrivia ts).getD [] ++ [x]) := by
  unfold finTrivia
  rw [if_neg (by simp)]
  cases ts with
  | nil => simp
  | cons y ts => simp

theorem stringResult_cons (s q pfx x ts l) :
    stringResult s q pfx (x :: ts) l = (stringResult s q pfx ts l).addFirst x := by
  unfold stringResult
  split
  · split <;> simp [LexRes.addFirst, Token.addFirst, finTrivia_cons]
  · split
    · simp [LexRes.addFirst, Token.addFirst, finTrivia_cons]
    · dsimp only
      split <;> simp [LexRes.addFirst, Token.addFirst, finTrivia_cons]

theorem numResult_cons (s x ts l) : numResult s (x :: ts) l = (numResult s ts l).addFirst x := by
  unfold numResult
  split <;> simp [LexRes.addFirst, Token.addFirst, finTrivia_cons]

theorem armResult_cons (a x ts l) : armResult a (x :: ts) l = (armResult a ts l).addFirst x := by
  unfold armResult
  cases a.act with
  | tok => simp [LexRes.addFirst, Token.addFirst, finTrivia_cons]
  | openB => simp [LexRes.addFirst, Token.addFirst, finTrivia_cons]
  | closeB k c =>
    dsimp only
    split <;> simp [LexRes.addFirst, Token.addFirst, finTrivia_cons]

theorem nameArm_cons [Uni] (x ts l) : nameArm (x :: ts) l = (nameArm ts l).addFirst x := by
  rw [nameArm_apply, nameArm_apply]
  dsimp only
  cases keywords.lookup (word l.rest) with
  | some k => simp [LexRes.addFirst, Token.addFirst, finTrivia_cons]
  | none =>
    dsimp only
    split
    · exact stringResult_cons ..
    · simp [LexRes.addFirst, Token.addFirst, finTrivia_cons]

theorem armsResult_cons [Uni] (x ts l) : armsResult (x :: ts) l = (armsResult ts l).addFirst x := by
  unfold armsResult
  cases findArm (hd l.rest, hd (l.rest.drop 1), hd (l.rest.drop 2)) with
  | some a => exact armResult_cons ..
  | none =>
    dsimp only
    split
    · exact nameArm_cons ..
    split
    · exact numResult_cons ..
    split
    · exact numResult_cons ..
    split
    · exact numResult_cons ..
    split
    · exact stringResult_cons ..
    · rfl

/-- In the middle of a line, one piece of trivia is skipped and recorded, and nothing else changes. -/
theorem getSymbol_skip [Uni] {src l x n} (hi : Inv src l) (hb : l.bol = false) (hp : l.pending = 0)
    (ht : HTrivia l.pos l.rest x n) : getSymbol l = (getSymbol (l.fwd n)).addFirst x := by
  have hle := ht.pos_of
  have hl := rest_length_add l
  rw [hi.chars] at hl
  have hi2 : Inv src (l.fwd n) := hi.fwd (by omega)
  have hs := getSymbol_step (l.fwd n) hi2.inter hi2.ind
  have hbs : bolState false (l.at l.pos) = (false, l.at l.pos) := bolState_mid hb
  have hbs2 : bolState false ((l.fwd n).at (l.fwd n).pos) = (false, (l.fwd n).at (l.fwd n).pos) :=
    bolState_mid hb
  apply getSymbol_eq hi
  generalize getSymbol (l.fwd n) = r at hs
  have same : ∀ {b' l1'}, bolState false ((l.fwd n).at (l.fwd n).pos) = (b', l1') →
      b' = false ∧ l1' = (l.fwd n).at (l.fwd n).pos := by
    intro b' l1' h; rw [hbs2] at h; injection h with h1 h2; exact ⟨h1.symm, h2.symm⟩
  have gap : ∀ {ts k}, Gap (false || !(l.fwd n).parens.isEmpty) (l.pos + n) (l.rest.drop n) ts k →
      Gap (false || !l.parens.isEmpty) l.pos l.rest (x :: ts) (n + k) := fun hg => .item ht hg
  have e1 : ∀ k, l.pos + n + k = l.pos + (n + k) := fun k => Nat.add_assoc ..
  have e2 : ∀ k, (l.rest.drop n).drop k = l.rest.drop (n + k) := fun k => List.drop_drop ..
  cases hs with
  | dedent hb' hq => obtain ⟨rfl, rfl⟩ := same hb'; simp at hq; omega
  | indent hb' hq => obtain ⟨rfl, rfl⟩ := same hb'; simp at hq; omega
  | newline hb' hq hbf hpar hrun hend hc1 hc2 =>
    obtain ⟨rfl, rfl⟩ := same hb'
    simp only [pos_at, pos_fwd, rest_at, rest_fwd, e1, e2] at hrun hend hc1 ⊢
    have := Step.newline (l := l) (ts := x :: _) hbs hp rfl hpar (.cons ht hrun) hend hc1 hc2
    simpa [LexRes.addFirst, Token.addFirst, finTrivia_cons, Nat.add_assoc] using this
  | typeComment hb' hq hg hh hty =>
    obtain ⟨rfl, rfl⟩ := same hb'
    simp only [pos_at, pos_fwd, rest_at, rest_fwd, e1, e2, parens_at] at hg hh hty ⊢
    have := Step.typeComment (l := l) hbs hp (gap hg) hh hty
    simpa [LexRes.addFirst, Token.addFirst, finTrivia_cons, Nat.add_assoc] using this
  | eof hb' hq hg hh =>
    obtain ⟨rfl, rfl⟩ := same hb'
    simp only [pos_at, pos_fwd, rest_at, rest_fwd, e1, e2, parens_at] at hg hh ⊢
    have := Step.eof (l := l) hbs hp (gap hg) hh
    simpa [LexRes.addFirst, Token.addFirst, finTrivia_cons, Nat.add_assoc] using this
  | badCont hb' hq hg hh h1 h2 =>
    obtain ⟨rfl, rfl⟩ := same hb'
    simp only [pos_at, pos_fwd, rest_at, rest_fwd, e1, e2, parens_at] at hg hh h1 h2 ⊢
    have := Step.badCont (l := l) hbs hp (gap hg) hh h1 h2
    simpa [LexRes.addFirst, Nat.add_assoc] using this
  | arms hb' hq hg hh =>
    obtain ⟨rfl, rfl⟩ := same hb'
    simp only [pos_at, pos_fwd, rest_at, rest_fwd, e1, e2, parens_at] at hg hh ⊢
    have := Step.arms (l := l) hbs hp (gap hg) hh
    rw [armsResult_cons] at this
    simpa [Nat.add_assoc] using this

/-! ### Covering -/

theorem Covers.mono {src p ts q} (h : Covers src false p ts q) : Covers src true p ts q := by
  cases h with
  | nil => exact .nil
  | item h1 h2 h3 => exact .item h1 h2 h3
  | line h1 h2 => exact .line h1 h2

theorem HTrivia.span {pos cs t n} (h : HTrivia pos cs t n) : t.span = (pos, pos + n) ∧ 0 < n := by
  have := h.pos_of.1
  refine ⟨?_, this⟩
  cases h <;> rfl

theorem covers_blanks {src : List Char} {n p ts q}
    (hb : n ≤ ((src.drop p).takeWhile isBlank).length)
    (h : Covers src true (p + n) ts q) : Covers src true p ts q := by
  induction n generalizing p with
  | zero => exact h
  | succ n ih =>
    cases hs : src.drop p with
    | nil => rw [hs] at hb; simp at hb
    | cons c r =>
      rw [hs] at hb
      by_cases hc : isBlank c = true
      · have hget : src[p]? = some c := by
          have := congrArg (·[0]?) hs
          simpa using this
        have hr : src.drop (p + 1) = r := by
          rw [← List.drop_drop, hs]; rfl
        refine .blank hget (by simpa [isBlank] using hc) (ih ?_ ?_)
        · rw [hr]; simpa [hc] using hb
        · rwa [Nat.add_assoc, Nat.add_comm 1]
      · simp [hc] at hb

theorem Gap.covers {src : List Char} {m pos cs ts n b} (h : Gap m pos cs ts n) (hcs : cs = src.drop pos) :
    Covers src b pos ts (pos + n) := by
  induction h generalizing b with
  | nil => exact .nil
  | item h _ ih =>
    obtain ⟨h1, h2⟩ := h.span
    refine .item h1 (by omega) ?_
    have := ih (b := false) (by rw [hcs, List.drop_drop])
    rwa [Nat.add_assoc] at this
  | @line pos cs n ts k hm h _ ih =>
    have hb := h.bound
    refine .line (by omega) (covers_blanks (n := ((cs.drop n).takeWhile isBlank).length) ?_ ?_)
    · rw [hcs, List.drop_drop]; exact Nat.le_refl _
    · have := ih (b := true) (by rw [hcs, List.drop_drop, Nat.add_assoc])
      simpa [Nat.add_assoc] using this

end Verif
