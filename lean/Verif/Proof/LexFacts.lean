import Verif.Proof.LexStep

/-!
# Tokenizer: the invariant and what one call does to it
-/

set_option linter.unusedSimpArgs false

namespace Verif
open LexM
attribute [-simp] List.drop_one List.tail_drop

theorem Gap.nil_length {q pos ts n} (h : Gap q pos [] ts n) : n = 0 ∧ ts = [] := by
  cases h with
  | nil => exact ⟨rfl, rfl⟩
  | item h _ => have := h.pos_of; simp at this; omega
  | line _ h => have := h.bound; simp at this

/-- Nothing is skipped in front of a character that cannot be skipped. -/
theorem Gap.of_stop {q pos cs ts n} (h : Gap q pos cs ts n)
    (hs : hd cs ∉ [' ', '\t', '#', '\r', '\n', '\\']) : n = 0 ∧ ts = [] := by
  cases h with
  | nil => exact ⟨rfl, rfl⟩
  | item h _ => exfalso; cases h <;> simp_all
  | line _ h => exfalso; cases h <;> simp_all

/-- Invariant of the tokenizer states on the text `src`. -/
structure Inv (src : List Char) (l : Lexer) : Prop where
  chars : l.buf.chars = src
  inter : l.interactive = false
  tab : l.tabSize = 4
  ind : IndOk l.indents
  sorted : l.indents.Pairwise (· > ·)
  cols : ∀ x ∈ l.indents, x ≤ 4 * src.length
  pos : l.pos ≤ src.length + 1
  start : l.tokStart ≤ l.pos
  bolp : l.bol = true → l.pending = 0
  pend : l.pending ≠ 0 → l.parens = []
  depth : l.indents.length ≤ src.length + 1
  depthPos : l.indents.length ≤ l.pos + 1
  pendHi : l.pending ≤ 1 ∧ l.pending ≤ (l.indents.length : Int) - 1
  pendLo : - l.pending + (l.indents.length - 1 : Int) ≤ src.length ∨ 0 ≤ l.pending

/-- Progress measure. -/
def Lexer.todo (l : Lexer) : Nat :=
  2 * (l.buf.chars.length - l.pos) + (l.indents.length - 1) + l.pending.natAbs

/-- Indentation levels the client has been told about. -/
def Lexer.told (l : Lexer) : Int := (l.indents.length : Int) - 1 - l.pending

theorem columnOf_le (cs : List Char) (c : Nat) : columnOf 4 c cs ≤ c + 4 * cs.length := by
  induction cs generalizing c with
  | nil => simp [columnOf]
  | cons a cs ih =>
    simp only [columnOf, List.length_cons]
    split
    · have := ih ((c / 4 + 1) * 4); omega
    · have := ih (c + 1); omega

theorem columnOf_nil (t c) : columnOf t c [] = c := rfl

theorem blanks_length_le (l : Lexer) : l.blanks.length ≤ l.buf.chars.length - l.pos := by
  have := takeWhile_length_le isBlank l.rest
  rw [rest_length_add] at this; exact this

theorem takeWhile_length_le' {α} (p : α → Bool) (xs : List α) : (xs.takeWhile p).length ≤ xs.length := by
  induction xs with
  | nil => simp
  | cons x xs ih => by_cases h : p x <;> simp [h, ih]

theorem dropWhile_takeWhile_length {α} (p : α → Bool) (xs : List α) :
    (xs.takeWhile p).length + (xs.dropWhile p).length = xs.length := by
  rw [← List.length_append, List.takeWhile_append_dropWhile]

theorem IndOk.length_pos {ind} (h : IndOk ind) : 0 < ind.length := by
  cases ind <;> simp [IndOk] at h ⊢

theorem pairwise_topIndent {ind : List Nat} (h : ind.Pairwise (· > ·)) (x) (hx : x ∈ ind) :
    x ≤ topIndent ind := by
  cases ind with
  | nil => simp at hx
  | cons a r =>
    simp only [List.pairwise_cons] at h
    simp at hx
    rcases hx with rfl | hx
    · simp [topIndent]
    · have := h.1 x hx; simp [topIndent]; omega

theorem Inv.at {src l s} (h : Inv src l) (hs : s ≤ l.pos) : Inv src (l.at s) := by
  obtain ⟨h1, h2, h3, h4, h5, h6, h7, h8, h9, h10, h11, h12, h13, h14⟩ := h
  exact ⟨h1, h2, h3, h4, h5, h6, h7, hs, h9, h10, h11, h12, h13, h14⟩

theorem Inv.fwd {src l k} (h : Inv src l) (hk : l.pos + k ≤ src.length + 1) : Inv src (l.fwd k) := by
  obtain ⟨h1, h2, h3, h4, h5, h6, h7, h8, h9, h10, h11, h12, h13, h14⟩ := h
  exact ⟨h1, h2, h3, h4, h5, h6, hk, by simp; omega, h9, h10, h11, by simp at h12 ⊢; omega, h13, h14⟩

/-- The line start step keeps the invariant, does not lose progress and tells nothing yet. -/
theorem bolState_inv {src b l b' l1} (h : Inv src l) (he : bolState b l = (b', l1)) :
    Inv src l1 ∧ l1.bol = false ∧ l1.todo ≤ l.todo ∧ l1.told = l.told ∧ l1.tokStart = l.tokStart ∧
      l1.parens = l.parens ∧ l1.pos = l.pos + bolSkip l ∧ l1.rest = l.rest.drop (bolSkip l) ∧
      (l1.pending ≠ 0 → l.parens = []) := by
  have e1 := bolState_bol b l
  have e2 := bolState_tokStart b l
  have e3 := bolState_parens b l
  have e4 := bolState_pos b l
  have e5 := bolState_rest b l
  rw [he] at e1 e2 e3 e4 e5
  simp only at e1 e2 e3 e4 e5
  suffices hs : Inv src l1 ∧ l1.todo ≤ l.todo ∧ l1.told = l.told by
    exact ⟨hs.1, e1, hs.2.1, hs.2.2, e2, e3, e4, e5, fun hp => by rw [← e3]; exact hs.1.pend hp⟩
  clear e1 e2 e3 e4 e5
  obtain ⟨h1, h2, h3, h4, h5, h6, h7, h8, h9, h10, h11, h12, h13, h14⟩ := h
  have hbl := blanks_length_le l
  rw [h1] at hbl
  have hlp := h4.length_pos
  unfold bolState at he
  dsimp only at he
  split at he
  · rename_i hb
    have hp0 := h9 hb
    have hbl' : l.pos + l.blanks.length ≤ src.length + 1 := by omega
    split at he
    · rename_i hc
      injection he with hb' hl1
      subst hl1
      -- what `adjust` does
      unfold adjust
      by_cases c1 : l.col = topIndent l.indents
      · rw [if_pos c1]
        refine ⟨⟨h1, h2, h3, h4, h5, h6, by simpa [Lexer.pos, Lexer.fwd] using hbl', ?_, by simp, ?_, h11, ?_, ?_, ?_⟩, ?_, ?_⟩
        · simp [Lexer.pos, Lexer.fwd] at h8 ⊢; omega
        · simp [hp0]
        · simp [Lexer.pos, Lexer.fwd] at h12 ⊢; omega
        · exact h13
        · exact h14
        · simp [Lexer.todo, Lexer.pos, Lexer.fwd]; omega
        · simp [Lexer.told]
      · rw [if_neg c1]
        by_cases c2 : l.col > topIndent l.indents
        · rw [if_pos c2]
          have hcol : l.col ≤ 4 * l.blanks.length := by
            have := columnOf_le l.blanks 0
            simp only [Lexer.col, h3]; omega
          have hb1 : 1 ≤ l.blanks.length := by omega
          refine ⟨⟨h1, h2, h3, h4.cons, ?_, ?_, by simpa [Lexer.pos, Lexer.fwd] using hbl', ?_, by simp, ?_, ?_, ?_, ?_, ?_⟩, ?_, ?_⟩
          · simp only [List.pairwise_cons]
            refine ⟨fun x hx => ?_, h5⟩
            have := pairwise_topIndent h5 x hx; omega
          · intro x hx
            simp at hx
            rcases hx with rfl | hx
            · omega
            · exact h6 x hx
          · simp [Lexer.pos, Lexer.fwd] at h8 ⊢; omega
          · intro _; exact hc.2
          · simp only [List.length_cons]; simp [Lexer.pos] at *; omega
          · simp [Lexer.pos, Lexer.fwd] at h12 ⊢; omega
          · simp only [List.length_cons, hp0]; omega
          · right; simp only [hp0]; omega
          · simp only [Lexer.todo, Lexer.pos, Lexer.fwd, List.length_cons, hp0, h1] at hbl ⊢; omega
          · simp only [Lexer.told, List.length_cons, hp0]; omega
        · rw [if_neg c2]
          have hd := h4.dropWhile (col := l.col)
          have hlen := dropWhile_takeWhile_length (fun x => decide (l.col < x)) l.indents
          have hdp := hd.1.length_pos
          generalize hdw : l.indents.dropWhile (fun x => decide (l.col < x)) = dw at *
          generalize htw : l.indents.takeWhile (fun x => decide (l.col < x)) = tw at *
          have hsub : dw.Sublist l.indents := by rw [← hdw]; exact List.dropWhile_sublist _
          refine ⟨⟨h1, h2, h3, hd.1, h5.sublist hsub, fun x hx => h6 x (hsub.subset hx),
            by simpa [Lexer.pos, Lexer.fwd] using hbl', ?_, by simp, ?_, ?_, ?_, ?_, ?_⟩, ?_, ?_⟩
          · simp [Lexer.pos, Lexer.fwd] at h8 ⊢; omega
          · intro _; exact hc.2
          · simp only; omega
          · simp [Lexer.pos, Lexer.fwd] at h12 ⊢; omega
          · simp only [hp0]; omega
          · left; simp only [hp0]; omega
          · simp only [Lexer.todo, Lexer.pos, Lexer.fwd, hp0, h1] at hbl ⊢; omega
          · simp only [Lexer.told, hp0]; omega
    · injection he with hb' hl1
      subst hl1
      refine ⟨⟨h1, h2, h3, h4, h5, h6, by simpa [Lexer.pos, Lexer.fwd] using hbl', ?_, by simp, ?_, h11, ?_, ?_, ?_⟩, ?_, ?_⟩
      · simp [Lexer.pos, Lexer.fwd] at h8 ⊢; omega
      · intro h; exact absurd hp0 h
      · simp [Lexer.pos, Lexer.fwd] at h12 ⊢; omega
      · exact h13
      · exact h14
      · simp [Lexer.todo, Lexer.pos, Lexer.fwd]; omega
      · simp [Lexer.told]
  · injection he with hb' hl1
    subst hl1
    exact ⟨⟨h1, h2, h3, h4, h5, h6, h7, h8, h9, h10, h11, h12, h13, h14⟩, Nat.le_refl _, rfl⟩

/-- `Indent` counts 1, `Dedent` counts -1. -/
def Kind.indentDelta : Kind → Int
  | .Indent => 1
  | .Dedent => -1
  | _ => 0

/-- What one call that returns a token does. -/
structure OkFacts (src : List Char) (l : Lexer) (t : Token) (l' : Lexer) : Prop where
  inv : Inv src l'
  startGe : l.pos ≤ l'.tokStart
  brackets : brStep l.parens t.kind = some l'.parens
  layout : t.kind.isLayout = true → l.parens = []
  told : l'.told = l.told + t.kind.indentDelta
  span : t.span? = if t.kind = .Indent ∨ t.kind = .Dedent then none else some (l'.tokStart, l'.pos)
  nonempty : t.kind ≠ .Indent → t.kind ≠ .Dedent → t.kind ≠ .EOF → l'.tokStart < l'.pos
  less : t.kind ≠ .EOF → l'.todo < l.todo
  atEof : t.kind = .EOF → hd l'.rest = '\x00' ∧ l'.bol = false ∧ l'.pending = 0 ∧ l'.tokStart = l'.pos

/-- What one call that returns an error does. -/
structure ErrFacts (src : List Char) (l : Lexer) (e : LexErr) (l' : Lexer) : Prop where
  inv : Inv src l'
  startGe : l.pos ≤ l'.tokStart
  brackets : l'.parens = l.parens
  told : l'.told = l.told
  kind : e.isArm = true ∨ ∃ p, e = .badContinuation p

def StepFacts (src : List Char) (l : Lexer) : LexRes Token → Prop
  | .ok t l' => OkFacts src l t l'
  | .err e l' => ErrFacts src l e l'

theorem indentDelta_zero {k : Kind} (h : k.isLayout = false) : k.indentDelta = 0 := by
  cases k <;> first | rfl | simp [Kind.isLayout] at h

theorem Inv.setParens {src l ps} (h : Inv src l) (hp : l.pending = 0) : Inv src { l with parens := ps } := by
  obtain ⟨h1, h2, h3, h4, h5, h6, h7, h8, h9, h10, h11, h12, h13, h14⟩ := h
  exact ⟨h1, h2, h3, h4, h5, h6, h7, h8, h9, fun h => absurd hp h, h11, h12, h13, h14⟩

theorem Inv.setBol {src l} (h : Inv src l) (hp : l.pending = 0) : Inv src (l.setBol true) := by
  obtain ⟨h1, h2, h3, h4, h5, h6, h7, h8, h9, h10, h11, h12, h13, h14⟩ := h
  exact ⟨h1, h2, h3, h4, h5, h6, h7, h8, fun _ => hp, h10, h11, h12, h13, h14⟩

theorem todo_fwd {src : List Char} {l : Lexer} {k : Nat} (hc : l.buf.chars = src) (hp : l.pos < src.length)
    (hk : 0 < k) : (l.fwd k).todo < l.todo := by
  simp only [Lexer.todo, pos_fwd, chars_fwd, hc, indents_fwd, pending_fwd]; omega

theorem todo_fwd_le (l : Lexer) (k : Nat) : (l.fwd k).todo ≤ l.todo := by
  simp only [Lexer.todo, pos_fwd, chars_fwd, indents_fwd, pending_fwd]; omega

theorem step_facts [Uni] {src l} (h : Inv src l) : StepFacts src l (getSymbol l) := by
  have hs := getSymbol_step l h.inter h.ind
  generalize getSymbol l = r at hs
  have h0 : Inv src (l.at l.pos) := h.at (Nat.le_refl _)
  have gapPos : ∀ {q : Bool} {l1 : Lexer} {ts k}, Inv src l1 → Gap q l1.pos l1.rest ts k →
      l1.pos + k ≤ src.length + 1 := by
    intro q l1 ts k hi hg
    have hr := rest_length_add l1
    rw [hi.chars] at hr
    have hp := hi.pos
    by_cases hl : l1.pos ≤ src.length
    · have := hg.bound; omega
    · have : l1.rest = [] := List.eq_nil_of_length_eq_zero (by omega)
      rw [this] at hg
      have := hg.nil_length.1; omega
  have ltLen : ∀ {l1 : Lexer} {k}, Inv src l1 → hd (l1.rest.drop k) ≠ '\x00' → l1.pos + k < src.length := by
    intro l1 k hi hne
    have hr := rest_length_add l1
    rw [hi.chars] at hr
    have := lt_of_hd_ne hne
    omega
  cases hs with
  | @dedent b l1 hb hp =>
    obtain ⟨hi, e1, e2, e3, e4, e5, e6, e7, e8⟩ := bolState_inv h0 hb
    have hpar := e8 (by omega)
    obtain ⟨h1, h2, h3, h4, h5, h6, h7, h8, h9, h10, h11, h12, h13, h14⟩ := hi
    refine ⟨⟨h1, h2, h3, h4, h5, h6, h7, h8, ?_, ?_, h11, h12, ?_, ?_⟩, ?_, ?_, ?_, ?_, rfl, ?_, ?_, ?_⟩
    · intro h; rw [e1] at h; simp at h
    · intro _; rw [e5]; exact hpar
    · have := h4.length_pos; simp only; omega
    · simp only; omega
    · change l.pos ≤ l1.tokStart; rw [e4]; simp
    · change brStep l.parens .Dedent = some l1.parens; rw [e5]; rfl
    · intro _; exact hpar
    · simp only [Token.kind, Kind.indentDelta]; simp only [Lexer.told] at e3 ⊢; simp at e3; omega
    · intro _ h; simp [Token.kind] at h
    · intro _; simp only [Lexer.todo, Lexer.pos] at e2 ⊢; simp at e2; omega
    · intro h; simp [Token.kind] at h
  | @indent b l1 hb hp =>
    obtain ⟨hi, e1, e2, e3, e4, e5, e6, e7, e8⟩ := bolState_inv h0 hb
    have hpar := e8 (by omega)
    obtain ⟨h1, h2, h3, h4, h5, h6, h7, h8, h9, h10, h11, h12, h13, h14⟩ := hi
    refine ⟨⟨h1, h2, h3, h4, h5, h6, h7, h8, ?_, ?_, h11, h12, ?_, ?_⟩, ?_, ?_, ?_, ?_, rfl, ?_, ?_, ?_⟩
    · intro h; rw [e1] at h; simp at h
    · intro _; rw [e5]; exact hpar
    · simp only; omega
    · simp only; omega
    · change l.pos ≤ l1.tokStart; rw [e4]; simp
    · change brStep l.parens .Indent = some l1.parens; rw [e5]; rfl
    · intro _; exact hpar
    · simp only [Token.kind, Kind.indentDelta]; simp only [Lexer.told] at e3 ⊢; simp at e3; omega
    · intro h; simp [Token.kind] at h
    · intro _; simp only [Lexer.todo, Lexer.pos] at e2 ⊢; simp at e2; omega
    · intro h; simp [Token.kind] at h
  | @newline b l1 ts k m c1 c2 hb hp hbf hpar hrun hend hc1 hc2 =>
    obtain ⟨hi, e1, e2, e3, e4, e5, e6, e7, e8⟩ := bolState_inv h0 hb
    have hne : hd (l1.rest.drop k) ≠ '\x00' := by
      cases hend <;> rename_i h <;> first | (rw [h]; decide) | (rename_i h' ; rw [h']; decide)
    have hlt := ltLen hi hne
    have hm := hend.bound
    simp only [List.length_drop] at hm
    have hr := rest_length_add l1
    rw [hi.chars] at hr
    simp at e6
    refine ⟨((hi.fwd (by omega)).at (by simp)).setBol (by simpa using hp), ?_, ?_, ?_, ?_, ?_, ?_, ?_, ?_⟩
    · simp; omega
    · simp only [parens_setBol, parens_at, parens_fwd, e5]; rfl
    · intro _; simp at e5; rw [← e5]; exact hpar
    · simp only [Token.kind, Kind.indentDelta]; simp only [Lexer.told] at e3 ⊢; simp at e3 ⊢; omega
    · simp [Token.span?, Token.kind, Nat.add_assoc]
    · intro _ _ _; simp; omega
    · intro _
      have := todo_fwd hi.chars (show l1.pos < src.length by omega) (show 0 < k + m by omega)
      simp only [Lexer.todo] at e2 this ⊢; simp at e2 this ⊢; omega
    · intro h; simp [Token.kind] at h
  | @typeComment b l1 ts k hb hp hg hh hty =>
    obtain ⟨hi, e1, e2, e3, e4, e5, e6, e7, e8⟩ := bolState_inv h0 hb
    have hne : hd (l1.rest.drop k) ≠ '\x00' := by rw [hh]; decide
    have hlt := ltLen hi hne
    have hr := rest_length_add l1
    rw [hi.chars] at hr
    simp at e6
    have hll := takeWhile_length_le (fun c => !(c == '\r' || c == '\n' || c == '\x00')) (l1.rest.drop k)
    change (lineText (l1.rest.drop k)).length ≤ _ at hll
    have hlp : 0 < (lineText (l1.rest.drop k)).length := by
      cases hcs : l1.rest.drop k with
      | nil => rw [hcs] at hh; simp at hh
      | cons c cs => rw [hcs] at hh; simp at hh; subst hh; simp [lineText]
    simp only [List.length_drop] at hll
    refine ⟨((hi.fwd (by omega)).at (by simp)), ?_, ?_, ?_, ?_, ?_, ?_, ?_, ?_⟩
    · simp; omega
    · simp only [parens_at, parens_fwd, e5]; rfl
    · intro h; simp [Token.kind, Kind.isLayout] at h
    · simp only [Token.kind, Kind.indentDelta]; simp only [Lexer.told] at e3 ⊢; simp at e3 ⊢; omega
    · simp [Token.span?, Token.kind, Nat.add_assoc]
    · intro _ _ _; simp; omega
    · intro _
      have := todo_fwd hi.chars (show l1.pos < src.length by omega)
        (show 0 < k + (lineText (l1.rest.drop k)).length by omega)
      simp only [Lexer.todo] at e2 this ⊢; simp at e2 this ⊢; omega
    · intro h; simp [Token.kind] at h
  | @eof b l1 ts k hb hp hg hh =>
    obtain ⟨hi, e1, e2, e3, e4, e5, e6, e7, e8⟩ := bolState_inv h0 hb
    have hgp := gapPos hi hg
    simp at e6
    refine ⟨((hi.fwd hgp).at (by simp)), ?_, ?_, ?_, ?_, ?_, ?_, ?_, ?_⟩
    · simp; omega
    · simp only [parens_at, parens_fwd, e5]; rfl
    · intro h; simp [Token.kind, Kind.isLayout] at h
    · simp only [Token.kind, Kind.indentDelta]; simp only [Lexer.told] at e3 ⊢; simp at e3 ⊢; omega
    · simp [Token.span?, Token.kind, Nat.add_assoc]
    · intro _ _ h; simp [Token.kind] at h
    · intro h; simp [Token.kind] at h
    · intro _; simp [hh, e1, hp]
  | @badCont b l1 ts k hb hp hg hh =>
    obtain ⟨hi, e1, e2, e3, e4, e5, e6, e7, e8⟩ := bolState_inv h0 hb
    have hgp := gapPos hi hg
    simp at e6
    refine ⟨((hi.fwd hgp).at (by simp)), ?_, ?_, ?_, .inr ⟨_, rfl⟩⟩
    · simp; omega
    · simpa using e5
    · simp only [Lexer.told] at e3 ⊢; simp at e3 ⊢; omega
  | @arms b l1 ts k hb hp hg hh =>
    obtain ⟨hi, e1, e2, e3, e4, e5, e6, e7, e8⟩ := bolState_inv h0 hb
    have hgp := gapPos hi hg
    have hne : hd (l1.rest.drop k) ≠ '\x00' := by
      intro h; rw [h] at hh; simp at hh
    have hlt := ltLen hi hne
    simp at e6
    have hr := rest_length_add l1
    rw [hi.chars] at hr
    rcases armsResult_facts ts ((l1.fwd k).at (l1.pos + k)) rfl with
      ⟨t, j, ps, hres, hj0, hj, hspan, htr, hbr, hlay, hneof, hntc⟩ | ⟨e, j, hres, hj, harm⟩
    · rw [hres]
      simp at hj
      have hli : t.kind ≠ .Indent := by intro h; rw [h] at hlay; simp [Kind.isLayout] at hlay
      have hld : t.kind ≠ .Dedent := by intro h; rw [h] at hlay; simp [Kind.isLayout] at hlay
      refine ⟨(Inv.fwd (k := j) ((hi.fwd hgp).at (by simp)) (by simp; omega)).setParens (by simpa using hp), ?_, ?_, ?_, ?_, ?_, ?_, ?_, ?_⟩
      · simp; omega
      · simp at hbr; rw [e5] at hbr; exact hbr
      · intro h; rw [hlay] at h; simp at h
      · rw [indentDelta_zero hlay]; simp only [Lexer.told] at e3 ⊢; simp at e3 ⊢; omega
      · rw [if_neg (by simp [hli, hld]), hspan]; rfl
      · intro _ _ _
        change l1.pos + k < l1.pos + k + j
        omega
      · intro _
        have := todo_fwd hi.chars (show l1.pos < src.length by omega) (show 0 < k + j by omega)
        have e : ({ Lexer.fwd j ((l1.fwd k).at (l1.pos + k)) with parens := ps } : Lexer).todo =
          (l1.fwd (k + j)).todo := by
          change ((l1.fwd k).fwd j).todo = _
          rw [fwd_fwd]
        rw [e]
        have e2' : l1.todo ≤ l.todo := e2
        omega
      · intro h; exact absurd h hneof
    · rw [hres]
      simp at hj
      refine ⟨(Inv.fwd (k := j) ((hi.fwd hgp).at (by simp)) (by simp; omega)), ?_, ?_, ?_, .inl harm⟩
      · simp; omega
      · simpa using e5
      · simp only [Lexer.told] at e3 ⊢; simp at e3 ⊢; omega

theorem Inv.new (src : List Char) : Inv src (Lexer.new src) where
  chars := rfl
  inter := rfl
  tab := rfl
  ind := rfl
  sorted := by simp [Lexer.new]
  cols := by simp [Lexer.new]
  pos := by simp [Lexer.new, Lexer.pos, Source.new]
  start := by simp [Lexer.new]
  bolp := by simp [Lexer.new]
  pend := by simp [Lexer.new]
  depth := by simp [Lexer.new]
  depthPos := by simp [Lexer.new]
  pendHi := by simp [Lexer.new]
  pendLo := by simp [Lexer.new]

theorem ok_facts [Uni] {src l t l'} (h : Inv src l) (he : getSymbol l = .ok t l') : OkFacts src l t l' := by
  have := step_facts h; rw [he] at this; exact this

theorem err_facts [Uni] {src l e l'} (h : Inv src l) (he : getSymbol l = .err e l') :
    ErrFacts src l e l' := by
  have := step_facts h; rw [he] at this; exact this

/-- A token of kind `EOF` is the `EOF` token. -/
theorem eof_of_kind [Uni] {src l t l'} (h : Inv src l) (he : getSymbol l = .ok t l')
    (hk : t.kind = .EOF) : ∃ tr, t = .eof l'.pos tr := by
  have hs := getSymbol_step l h.inter h.ind
  rw [he] at hs
  generalize hres : LexRes.ok t l' = r at hs
  cases hs with
  | @arms b l1 ts k hb hp hg hh =>
    rcases armsResult_facts ts ((l1.fwd k).at (l1.pos + k)) rfl with
      ⟨t', j, ps, hres', _, _, _, _, _, _, hne, _⟩ | ⟨e, j, hres', _⟩
    · rw [hres'] at hres; injection hres with h1 _
      rw [← h1] at hne; exact absurd hk hne
    · rw [hres'] at hres; simp at hres
  | eof => injection hres with h1 h2; subst h2; exact ⟨_, h1⟩
  | badCont => simp at hres
  | _ => injection hres with h1 _; rw [h1] at hk; simp [Token.kind] at hk

/-- In the middle of a line with no layout pending the line start step does nothing. -/
theorem bolState_mid {b} {l : Lexer} (h : l.bol = false) : bolState b l = (b, l) := by
  simp [bolState, h]

/-- At the end of the text the tokenizer stays where it is. -/
theorem getSymbol_atEof [Uni] {src l} (h : Inv src l) (hz : hd l.rest = '\x00') (hb : l.bol = false)
    (hp : l.pending = 0) (ht : l.tokStart = l.pos) : getSymbol l = .ok (.eof l.pos none) l := by
  have hs := getSymbol_step l h.inter h.ind
  have hl : l.at l.pos = l := by rw [← ht]; rfl
  generalize getSymbol l = r at hs
  cases hs with
  | dedent he hq => rw [hl, bolState_mid hb] at he; injection he with h1 h2; subst h2; omega
  | indent he hq => rw [hl, bolState_mid hb] at he; injection he with h1 h2; subst h2; omega
  | newline he hq h1 h2 h3 h4 =>
    rw [hl, bolState_mid hb] at he; injection he with _ e2; subst e2
    have := (Gap.of_hrun (q := false) h3).of_stop (by simp [hz]); rw [this.1] at h4
    rw [List.drop_zero] at h4
    cases h4 <;> rename_i h5 <;> first | (rw [hz] at h5; exact absurd h5 (by decide)) | (rename_i h6 _; rw [hz] at h6; exact absurd h6 (by decide)) | (rename_i h6; rw [hz] at h6; exact absurd h6 (by decide))
  | typeComment he hq h1 h2 =>
    rw [hl, bolState_mid hb] at he; injection he with _ e2; subst e2
    have := h1.of_stop (by simp [hz]); rw [this.1] at h2; simp_all
  | eof he hq h1 h2 =>
    rw [hl, bolState_mid hb] at he; injection he with _ e2; subst e2
    obtain ⟨rfl, rfl⟩ := h1.of_stop (by simp [hz])
    simp [hl, finTrivia]
  | badCont he hq h1 h2 =>
    rw [hl, bolState_mid hb] at he; injection he with _ e2; subst e2
    have := h1.of_stop (by simp [hz]); rw [this.1] at h2; simp_all
  | arms he hq h1 h2 =>
    rw [hl, bolState_mid hb] at he; injection he with _ e2; subst e2
    have := h1.of_stop (by simp [hz]); rw [this.1] at h2; simp_all

theorem Reach.inv [Uni] {src l} (h : Reach src l) : Inv src l := by
  induction h with
  | new => exact .new src
  | ok _ he ih => exact (ok_facts ih he).inv
  | err _ he ih => exact (err_facts ih he).inv

end Verif
