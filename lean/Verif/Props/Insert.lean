import Verif.Proof.LGInsert
import Verif.Props.LexGrammar
import Verif.Props.Shift
import Verif.Props.Layout

/-!
# Gaps between symbols can be exchanged (C56)
-/

set_option linter.unusedSimpArgs false

namespace Verif
attribute [-simp] List.drop_one List.tail_drop
open LG

/-- The same result up to positions and trivia, and the tokenizers are at the same place afterwards. -/
inductive LexLike : LexRes Token → LexRes Token → Prop
  | ok {t u l m} : t.bare = u.bare → l.place = m.place → LexLike (.ok t l) (.ok u m)
  | err {e e' l m} : l.place = m.place → LexLike (.err e l) (.err e' m)

theorem LexLike.symm {r s} (h : LexLike r s) : LexLike s r := by
  cases h with
  | ok h1 h2 => exact .ok h1.symm h2.symm
  | err h => exact .err h.symm

theorem LexLike.trans {r s t} (h : LexLike r s) (h' : LexLike s t) : LexLike r t := by
  cases h with
  | ok h1 h2 => cases h' with | ok h3 h4 => exact .ok (h1.trans h3) (h2.trans h4)
  | err h => cases h' with | err h4 => exact .err (h.trans h4)

theorem shift_bare (d : Nat) (t : Token) : (t.shift d).bare = t.bare := by cases t <;> rfl

theorem SameAhead.place {d l l'} (h : SameAhead d l l') : l.place = l'.place := by
  rw [place_eq, place_eq, h.bol, h.parens, h.indents, h.pending]
  have : l'.rest = l.rest := h.rest
  rw [this]

theorem LexLike.of_sameRes {d r r'} (h : SameRes d r r') : LexLike r r' := by
  cases h with
  | ok h => exact .ok (shift_bare _ _).symm h.place
  | err h => exact .err h.place

theorem sameAhead_of_place {src src' l l'} (hi : Inv src l) (hi' : Inv src' l') (h : l.place = l'.place)
    (hle : l.pos ≤ l'.pos) : SameAhead (l'.pos - l.pos) l l' := by
  rw [place_eq, place_eq] at h
  simp only [Place.mk.injEq] at h
  obtain ⟨h1, h2, h3, h4, h5⟩ := h
  refine ⟨?_, h5.symm, h2.symm, h1.symm, by rw [hi.tab, hi'.tab], by rw [hi.inter, hi'.inter], h4.symm, h3.symm⟩
  show l'.pos = l.pos + (l'.pos - l.pos)
  omega

/-- What a tokenizer does depends only on the place it is at. -/
theorem getSymbol_place [Uni] {src src' l l'} (hi : Inv src l) (hi' : Inv src' l') (h : l.place = l'.place) :
    LexLike (getSymbol l) (getSymbol l') := by
  rcases Nat.le_total l.pos l'.pos with hle | hle
  · exact .of_sameRes (getSymbol_shift hi hi' (sameAhead_of_place hi hi' h hle))
  · exact (LexLike.of_sameRes (getSymbol_shift hi' hi (sameAhead_of_place hi' hi h.symm hle))).symm

theorem LG.Skips.trans {b cs r s} (h : Skips b cs r) (h' : Skips b r s) : Skips b cs s := by
  induction h with
  | done => exact h'
  | blank hc _ ih => exact .blank hc (ih h')
  | comment h1 h2 h3 _ ih => exact .comment h1 h2 h3 (ih h')
  | continuation he _ ih => exact .continuation he (ih h')
  | line hl he _ ih => exact .line hl he (ih h')

theorem addFirst_like (x : Trivia) (r : LexRes Token) : LexLike (r.addFirst x) r := by
  cases r with
  | ok t l => exact .ok (by cases t <;> rfl) rfl
  | err e l => exact .err rfl

theorem LexLike.refl (r : LexRes Token) : LexLike r r := by
  cases r with
  | ok => exact .ok rfl rfl
  | err => exact .err rfl

theorem armsResult_acc [Uni] (ts us : List Trivia) (l : Lexer) : LexLike (armsResult ts l) (armsResult us l) := by
  have key : ∀ ts : List Trivia, LexLike (armsResult ts l) (armsResult [] l) := by
    intro ts
    induction ts with
    | nil => exact .refl _
    | cons x ts ih => rw [armsResult_cons]; exact (addFirst_like x _).trans ih
  exact (key ts).trans (key us).symm

theorem fwd_place' (l : Lexer) (k s : Nat) : ((l.fwd k).at s).place = l.place.setText (l.rest.drop k) := fwd_place l k s

theorem rest_jump {l : Lexer} {n k m : Nat} (j : Nat) (hm : l.rest.drop m = l.rest.drop (n + k)) (p q s s' : Nat) :
    (((l.at p).fwd (m + j)).at s).rest = ((((l.fwd n).at q).fwd (k + j)).at s').rest := by
  simp only [rest_at, rest_fwd, List.drop_drop]
  rw [← Nat.add_assoc, ← List.drop_drop, hm, List.drop_drop]

theorem place_jump {l : Lexer} {n k m : Nat} (j : Nat) (hm : l.rest.drop m = l.rest.drop (n + k)) (p q s s' : Nat) :
    (((l.at p).fwd (m + j)).at s).place = ((((l.fwd n).at q).fwd (k + j)).at s').place := by
  rw [place_eq, place_eq, rest_jump j hm p q s s']
  rfl

/-- In the middle of a line, a gap is skipped. -/
theorem getSymbol_gap [Uni] {src l} {n : Nat} (hi : Inv src l) (hi' : Inv src (l.fwd n)) (hb : l.bol = false) (hp : l.pending = 0)
    (hs : Skips (!l.parens.isEmpty) l.rest (l.rest.drop n)) : LexLike (getSymbol l) (getSymbol (l.fwd n)) := by
  have e : bolState false (l.at l.pos) = (false, l.at l.pos) := by unfold bolState; simp [hb]
  have e' : bolState false ((l.fwd n).at (l.fwd n).pos) = (false, (l.fwd n).at (l.fwd n).pos) := by
    unfold bolState; rw [if_neg (by show ¬ l.bol = true; simp [hb])]
  have hstep := getSymbol_step (l.fwd n) hi'.inter hi'.ind
  generalize getSymbol (l.fwd n) = r at hstep
  have hr : ((l.fwd n).at (l.fwd n).pos).rest = l.rest.drop n := by rw [rest_at, rest_fwd]
  have hpar : ((l.fwd n).at (l.fwd n).pos).parens = l.parens := rfl
  have comp : ∀ {pos : Nat} {ts k}, Gap (!l.parens.isEmpty) pos (l.rest.drop n) ts k → Stop (!l.parens.isEmpty) (l.rest.drop (n + k)) →
      ∃ ts' m, Gap (!l.parens.isEmpty) l.pos l.rest ts' m ∧ l.rest.drop m = l.rest.drop (n + k) := by
    intro pos ts k hg hst
    have h2 := hs.trans (skips_of_gap hg)
    rw [List.drop_drop] at h2
    obtain ⟨ts', m, hg', e⟩ := h2.gap l.pos hst
    exact ⟨ts', m, hg', e.symm⟩
  cases hstep with
  | dedent h1 h2 => rw [e'] at h1; cases h1; exact absurd h2 (by show ¬ l.pending < 0; omega)
  | indent h1 h2 => rw [e'] at h1; cases h1; exact absurd h2 (by show ¬ l.pending > 0; omega)
  | newline h1 h2 h3 h4 h5 h6 h7 h8 =>
    rw [e'] at h1; cases h1
    rw [hr, List.drop_drop] at h6
    rw [hr] at h5
    rw [hpar] at h4
    have hq : (!l.parens.isEmpty) = false := by simp [h4]
    rw [hq] at comp
    obtain ⟨ts', m, hg, hm⟩ := comp (Gap.of_hrun (q := false) h5) (.of_lineEnd h6)
    rw [getSymbol_eq hi (.newline e hp rfl h4 hg.hrun (by rw [rest_at, hm]; exact h6) rfl rfl)]
    refine .ok rfl ?_
    simp only [place_eq, Place.mk.injEq]
    refine ⟨rfl, rfl, rfl, rfl, ?_⟩
    exact rest_jump _ hm _ _ 0 0
  | @typeComment _ _ ts k h1 h2 h3 h4 h5 =>
    rw [e'] at h1; cases h1
    rw [hr, List.drop_drop] at h4 h5
    rw [hr, hpar] at h3
    simp only [Bool.false_or] at h3
    obtain ⟨ts', m, hg, hm⟩ := comp h3 (.of_type h4 h5)
    rw [getSymbol_eq hi (.typeComment e hp (by simpa using hg) (by rw [rest_at, hm]; exact h4) (by rw [rest_at, hm]; exact h5))]
    refine .ok ?_ ?_
    · simp only [Token.bare, rest_at, hm, rest_fwd, List.drop_drop]
    · have : (lineText (((l.fwd n).at (l.fwd n).pos).rest.drop k)).length = (lineText (((l.at l.pos).rest.drop m))).length := by
        rw [hr, List.drop_drop, rest_at, hm]
      rw [this]
      exact place_jump _ hm _ _ _ _
  | eof h1 h2 h3 h4 =>
    rw [e'] at h1; cases h1
    rw [hr, List.drop_drop] at h4
    rw [hr, hpar] at h3
    simp only [Bool.false_or] at h3
    obtain ⟨ts', m, hg, hm⟩ := comp h3 (.of_eof h4)
    rw [getSymbol_eq hi (.eof e hp (by simpa using hg) (by rw [rest_at, hm]; exact h4))]
    exact .ok rfl (place_jump 0 hm _ _ _ _)
  | @badCont _ _ ts k h1 h2 h3 h4 h5 h6 =>
    rw [e'] at h1; cases h1
    rw [hr, List.drop_drop] at h4 h5 h6
    rw [hr, hpar] at h3
    simp only [Bool.false_or] at h3
    obtain ⟨ts', m, hg, hm⟩ := comp h3 (Stop.of_badCont h4 h5 h6)
    have hm1 : l.rest.drop (m + 1) = l.rest.drop (n + (k + 1)) := by
      rw [← List.drop_drop, hm, List.drop_drop, Nat.add_assoc]
    rw [getSymbol_eq hi (.badCont e hp (by simpa using hg) (by rw [rest_at, hm]; exact h4) (by rw [rest_at, hm1]; exact h5)
      (by rw [rest_at, hm1]; exact h6))]
    exact .err (place_jump 0 hm _ _ _ _)
  | @arms _ _ ts k h1 h2 h3 h4 =>
    rw [e'] at h1; cases h1
    rw [hr, List.drop_drop] at h4
    rw [hr, hpar] at h3
    simp only [Bool.false_or] at h3
    obtain ⟨ts', m, hg, hm⟩ := comp h3 (.of_arms h4)
    rw [getSymbol_eq hi (.arms e hp (by simpa using hg) (by rw [rest_at, hm]; exact h4))]
    have hlen : m = n + k := by
      have := congrArg List.length hm
      simp only [List.length_drop] at this
      have hne : l.rest.length - (n + k) ≠ 0 := by
        intro h0
        have : l.rest.drop (n + k) = [] := List.drop_eq_nil_of_le (by omega)
        rw [this] at h4
        exact h4 (by decide)
      omega
    subst hlen
    have hl : ((l.at l.pos).fwd (n + k)).at ((l.at l.pos).pos + (n + k)) =
        (((l.fwd n).at (l.fwd n).pos).fwd k).at (((l.fwd n).at (l.fwd n).pos).pos + k) := by
      simp [Lexer.at, Lexer.fwd, Lexer.pos, Nat.add_assoc]
    rw [hl]
    exact armsResult_acc _ _ _

/-! ### From there on the symbols are alike -/

theorem reach_lexer [Uni] {src l} (h : Reach src l) : Reach src (getSymbol l).lexer := by
  cases hr : getSymbol l with
  | ok t l' => exact .ok h hr
  | err e l' => exact .err h hr

theorem LexLike.view [Uni] {src src' : List Char} : ∀ (i : Nat) {c d : PSt}, Reach src c.lex → Reach src' d.lex →
    LexLike (getSymbol c.lex) (getSymbol d.lex) → SymLike Token.bare (c.ahead (i + 1)) (d.ahead (i + 1))
  | i, c, d, hc, hd, h => by
    have hc' := reach_lexer hc
    have hd' := reach_lexer hd
    have ec : c.advance.lex = (getSymbol c.lex).lexer := by unfold PSt.advance; cases getSymbol c.lex <;> rfl
    have ed : d.advance.lex = (getSymbol d.lex).lexer := by unfold PSt.advance; cases getSymbol d.lex <;> rfl
    cases i with
    | zero =>
      show SymLike _ c.advance d.advance
      unfold SymLike PSt.advance
      generalize getSymbol c.lex = r at h
      generalize getSymbol d.lex = s at h
      cases h with
      | ok h1 => exact h1
      | err => trivial
    | succ i =>
      refine LexLike.view i (c := c.advance) (d := d.advance) (ec ▸ hc') (ed ▸ hd') ?_
      refine getSymbol_place (src := src) (src' := src') (ec ▸ hc').inv (ed ▸ hd').inv ?_
      rw [ec, ed]
      generalize getSymbol c.lex = r at h
      generalize getSymbol d.lex = s at h
      cases h with
      | ok _ h2 => exact h2
      | err h2 => exact h2

theorem GapBefore.start {inside : Bool} {g b : List Char} (h : GapBefore inside g b) (hg : g ≠ []) :
    ∃ c r, g ++ b = c :: r ∧ c ∈ gapChars := by
  unfold GapBefore at h
  generalize hcs : g ++ b = cs at h
  generalize hr : b = r at h
  cases h with
  | done => subst hr; exact absurd (List.append_left_eq_self.1 hcs) hg
  | blank hc => exact ⟨_, _, rfl, by rcases hc with rfl | rfl <;> decide⟩
  | @comment _ txt rest _ h1 h2 =>
    obtain ⟨rfl, _, _⟩ := h1
    cases txt with
    | nil => simp at h2
    | cons c t => simp at h2; subst h2; exact ⟨_, _, rfl, by decide⟩
  | continuation => exact ⟨_, _, rfl, by decide⟩
  | line _ he => cases he <;> exact ⟨_, _, rfl, by decide⟩

/-- The state after a symbol, with another gap ahead of it. -/
theorem other_gap [Uni] {a g g' b : List Char} {ts : List Token} {t : Token} {l : Lexer} {st : List Char}
    (h : Tokens (Lexer.new (a ++ (g ++ b))) (ts ++ [t]) l) (hpos : l.buf.index = a.length) (ht : Solid t)
    (hst : brRun [] (ts ++ [t]) = some st) (hb : g ++ b ≠ [])
    (hg : GapBefore (!st.isEmpty) g b) (hg' : GapBefore (!st.isEmpty) g' b) (hne : g' ≠ []) :
    ∃ us l', Tokens (Lexer.new (a ++ (g' ++ b))) us l' ∧ us.map Token.bare = (ts ++ [t]).map Token.bare ∧
      LexLike (getSymbol l) (getSymbol l') := by
  have hreach := h.reach .new
  have hi := hreach.inv
  have hrest : l.rest = g ++ b := by
    show l.buf.chars.drop l.buf.index = _
    rw [hi.chars, hpos, List.drop_left]
  have hpar : l.parens = st := by
    have := returned_brackets (Inv.new _) h.returned
    rw [show (Lexer.new (a ++ (g ++ b))).parens = [] from rfl, hst] at this
    exact (Option.some.inj this).symm
  have hbare : (ts ++ [t]).map Token.bare = ts.map Token.bare ++ [t.bare] := by simp
  have hrun := (C55_symbols _ _ _).1 ⟨_, _, h, rfl, rfl⟩
  rw [hbare] at hrun
  obtain ⟨y, _, e, hrun'⟩ := hrun.swap (b := g ++ b) (b' := g' ++ b) (by obtain ⟨c, r, e, hc⟩ := hg'.start hne; intro d hd; rw [e] at hd; cases hd; exact hc) hb
    (by cases t <;> exact ht) hrest
  have : y = a := (List.append_cancel_right e).symm
  subst this
  obtain ⟨us, l', h', e1, e2⟩ := (C55_symbols _ _ _).2 hrun'
  refine ⟨us, l', h', by rw [e1, hbare], ?_⟩
  have hreach' := h'.reach .new
  have hi' := hreach'.inv
  obtain ⟨hbol, hpend⟩ : l.bol = false ∧ l.pending = 0 := by
    obtain ⟨l0, h1, h2⟩ := h.snoc
    exact (MidLine.state ⟨l0, t, h1.reach .new, h2, fun e => ht (by simp [e]), fun e => ht (by simp [e])⟩).2
  have hpl := e2
  rw [place_eq, place_eq] at hpl
  simp only [Place.mk.injEq] at hpl
  obtain ⟨p1, p2, p3, p4, p5⟩ := hpl
  have ilen : l.pos ≤ _ := hi.pos
  have hchars : l'.buf.chars = y ++ (g' ++ b) := hi'.chars
  have f : Inv _ (l.fwd g.length) := hi.fwd (by rw [show l.pos = y.length from hpos]; simp; omega)
  have f' : Inv _ (l'.fwd g'.length) := hi'.fwd (by
    have hl := congrArg List.length p5
    have : l'.rest.length = l'.buf.chars.length - l'.pos := by simp [Lexer.rest, Lexer.pos]
    have hc := congrArg List.length hchars
    have hn : 0 < g'.length := List.length_pos_iff.2 hne
    simp at hl hc ⊢
    omega)
  have s1 := getSymbol_gap (n := g.length) hi f hbol hpend (by rw [hpar, hrest, List.drop_left]; exact hg)
  have s2 := getSymbol_gap (n := g'.length) hi' f' (p1.trans hbol) (p4.trans hpend) (by rw [p2, hpar, p5, List.drop_left]; exact hg')
  refine s1.trans (LexLike.trans ?_ s2.symm)
  refine getSymbol_place f f' ?_
  rw [place_eq, place_eq, rest_fwd, rest_fwd, hrest, p5, List.drop_left, List.drop_left]
  exact (by rw [Place.mk.injEq]; exact ⟨p1.symm, p2.symm, p3.symm, p4.symm, rfl⟩)

/-- C56, symbols: between two symbols one gap can be exchanged for another one; the symbols of the two texts are the same up
to positions and trivia. -/
theorem C56_symbols [Uni] (a g g' b : List Char) (ts : List Token) (t : Token) (l : Lexer) (st : List Char)
    (h : Tokens (Lexer.new (a ++ (g ++ b))) (ts ++ [t]) l) (hpos : l.buf.index = a.length) (ht : Solid t)
    (hst : brRun [] (ts ++ [t]) = some st) (hb : g ++ b ≠ [])
    (hg : GapBefore (!st.isEmpty) g b) (hg' : GapBefore (!st.isEmpty) g' b) (hne : g' ≠ []) :
    ViewLike Token.bare (PSt.new (Lexer.new (a ++ (g ++ b)))) (PSt.new (Lexer.new (a ++ (g' ++ b)))) := by
  obtain ⟨us, l', h', e, hl⟩ := other_gap h hpos ht hst hb hg hg' hne
  generalize ts ++ [t] = vs at h hst e
  refine ⟨rfl, fun i => ?_⟩
  have hlen : us.length = vs.length := by simpa using congrArg List.length e
  cases i with
  | zero => exact trivial
  | succ i =>
    by_cases hi : i < vs.length
    · unfold SymLike
      rw [h.seen rfl i hi, h'.seen rfl i (hlen ▸ hi)]
      have := congrArg (·[i]?) e
      simpa [hi, hlen ▸ hi] using this.symm
    · obtain ⟨j, rfl⟩ := Nat.exists_eq_add_of_le (Nat.le_of_not_lt hi)
      rw [Nat.add_assoc, ahead_add _ vs.length (j + 1), show vs.length + (j + 1) = us.length + (j + 1) by rw [hlen],
        ahead_add _ us.length (j + 1)]
      have c1 := h.left_state (c := PSt.new (Lexer.new (a ++ (g ++ b)))) rfl
      have c2 := h'.left_state (c := PSt.new (Lexer.new (a ++ (g' ++ b)))) rfl
      exact LexLike.view j (c1 ▸ h.reach .new) (c2 ▸ h'.reach .new) (by rw [c1, c2]; exact hl)

/-- C56: between two symbols one gap (blanks, comments, continuations, and inside brackets line ends) can be exchanged for
another one: every entry point gives the same tree up to positions and trivia, or the same error message. -/
theorem C56_gaps [Uni] (a g g' b : List Char) (ts : List Token) (t : Token) (l : Lexer) (st : List Char)
    (h : Tokens (Lexer.new (a ++ (g ++ b))) (ts ++ [t]) l) (hpos : l.buf.index = a.length) (ht : Solid t)
    (hst : brRun [] (ts ++ [t]) = some st) (hb : g ++ b ≠ [])
    (hg : GapBefore (!st.isEmpty) g b) (hg' : GapBefore (!st.isEmpty) g' b) (hne : g' ≠ []) (n : Nat) (f : Fn) :
    ResLike Token.bare (run n f (PSt.new (Lexer.new (a ++ (g ++ b))))) (run n f (PSt.new (Lexer.new (a ++ (g' ++ b))))) :=
  C53_layout_anywhere n f _ _ (C56_symbols a g g' b ts t l st h hpos ht hst hb hg hg' hne)

/-- C56: acceptance does not depend on the gap. -/
theorem C56_accepted [Uni] (a g g' b : List Char) (ts : List Token) (t : Token) (l : Lexer) (st : List Char)
    (h : Tokens (Lexer.new (a ++ (g ++ b))) (ts ++ [t]) l) (hpos : l.buf.index = a.length) (ht : Solid t)
    (hst : brRun [] (ts ++ [t]) = some st) (hb : g ++ b ≠ [])
    (hg : GapBefore (!st.isEmpty) g b) (hg' : GapBefore (!st.isEmpty) g' b) (hne : g' ≠ []) (f : Fn) :
    Accepts f (a ++ (g ++ b)) ↔ Accepts f (a ++ (g' ++ b)) := by
  have key := fun n => C56_gaps a g g' b ts t l st h hpos ht hst hb hg hg' hne n f
  constructor
  · rintro ⟨n, u, c, e⟩
    have := key n
    rw [e] at this
    cases hr : run n f (PSt.new (Lexer.new (a ++ (g' ++ b)))) with
    | ok u' c' => exact ⟨n, u', c', hr⟩
    | err => rw [hr] at this; exact this.elim
    | panic => rw [hr] at this; exact this.elim
    | diverge => rw [hr] at this; exact this.elim
  · rintro ⟨n, u, c, e⟩
    have := key n
    rw [e] at this
    cases hr : run n f (PSt.new (Lexer.new (a ++ (g ++ b)))) with
    | ok u' c' => exact ⟨n, u', c', hr⟩
    | err => rw [hr] at this; exact this.elim
    | panic => rw [hr] at this; exact this.elim
    | diverge => rw [hr] at this; exact this.elim

/-- C56, the exception: a blank after a `0` that ends the text becomes part of the number. -/
theorem C56_zero_at_end :
    (∃ l, @getSymbol asciiUni (Lexer.new (cs! "0")) = .ok (.number 0 2 none ['0', '\x00']) l) ∧
    (∃ l, @getSymbol asciiUni (Lexer.new (cs! "0 ")) = .ok (.number 0 2 none (cs! "0 ")) l) :=
  ⟨⟨_, rfl⟩, ⟨_, rfl⟩⟩

/-! ### The hypotheses are met -/

/-- Nothing after `x` is exchanged for a blank, a continuation and another blank. -/
example (n : Nat) (f : Fn) : ResLike Token.bare (@run asciiUni n f (PSt.new (Lexer.new (cs! "x+1\n"))))
    (@run asciiUni n f (PSt.new (Lexer.new (cs! "x \\\n +1\n")))) := by
  let _ := asciiUni
  exact C56_gaps (cs! "x") [] (cs! " \\\n ") (cs! "+1\n") [] (.name 0 1 none (cs! "x")) _ [] (.cons rfl .nil) rfl
    (by simp [Solid, Token.kind]) rfl (by simp) .done
    (.blank (.inl rfl) (.continuation (eol := cs! "\n") (.inl rfl) (.blank (.inl rfl) .done))) (by simp) n f
/-- Inside brackets, a blank is exchanged for a comment and a line end. -/
example : @Accepts asciiUni .fileInput (cs! "(x #c\n + 1)\n") := by
  let _ := asciiUni
  refine (C56_accepted (cs! "(x") (cs! " ") (cs! " #c\n ") (cs! "+ 1)\n") [.sym .PyLeftParen 0 1 none] (.name 1 2 none (cs! "x"))
    _ [')'] (.cons rfl (.cons rfl .nil)) rfl (by simp [Solid, Token.kind]) rfl (by simp) (.blank (.inl rfl) .done)
    (.blank (.inl rfl) (.comment (txt := cs! "#c") (rest := cs! "\n + 1)\n") ⟨rfl, by decide, by simp⟩ rfl (by decide)
      (.line rfl .lf (.blank (.inl rfl) .done)))) (by simp) .fileInput).1 (Res.accepts (m := 100) (by decide +kernel))
/-- A comment at the end of a line. -/
example : @Accepts asciiUni .fileInput (cs! "x#c\n") := by
  let _ := asciiUni
  exact (C56_accepted (cs! "x") [] (cs! "#c") (cs! "\n") [] (.name 0 1 none (cs! "x"))
    _ [] (.cons rfl .nil) rfl (by simp [Solid, Token.kind]) rfl (by simp) .done
    (.comment (txt := cs! "#c") (rest := cs! "\n") ⟨rfl, by decide, by simp⟩ rfl (by decide) .done)
    (by simp) .fileInput).1 (Res.accepts (m := 100) (by decide +kernel))

end Verif
