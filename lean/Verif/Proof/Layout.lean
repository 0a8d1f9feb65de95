import Verif.Proof.Program

/-!
# Reading whole lines
-/

namespace Verif
attribute [-simp] List.drop_one List.tail_drop
set_option linter.unusedSimpArgs false

theorem blankColumn_eq (cs : List Char) (c : Nat) : blankColumn c cs = columnOf 4 c cs := by
  induction cs generalizing c with
  | nil => rfl
  | cons a cs ih => rw [blankColumn, columnOf, ih]

theorem takeWhile_filter {col : Nat} {st : List Nat} (h : st.Pairwise (· > ·)) :
    st.takeWhile (fun x => decide (col < x)) = st.filter (· > col) ∧
    st.dropWhile (fun x => decide (col < x)) = st.filter (· ≤ col) := by
  induction st with
  | nil => exact ⟨rfl, rfl⟩
  | cons a st ih =>
    obtain ⟨h1, h2⟩ := List.pairwise_cons.mp h
    obtain ⟨i1, i2⟩ := ih h2
    by_cases hc : col < a
    · have hc' : ¬ a ≤ col := by omega
      simp [List.takeWhile_cons, List.dropWhile_cons, hc, hc', i1, i2]
    · have hc' : a ≤ col := by omega
      have e1 : st.filter (fun x => decide (x > col)) = [] := by
        apply List.filter_eq_nil_iff.mpr; intro b hb; have := h1 b hb; simp; omega
      have e2 : st.filter (fun x => decide (x ≤ col)) = st := by
        apply List.filter_eq_self.mpr; intro b hb; have := h1 b hb; simp; omega
      simp [List.takeWhile_cons, List.dropWhile_cons, hc, hc', e1, e2]

/-- At the start of a line outside brackets. -/
structure Bol (src : List Char) (l : Lexer) : Prop where
  inv : Inv src l
  bol : l.bol = true
  parens : l.parens = []

theorem spacedText_head [Uni] {xs : List Lexeme} (hxs : ∀ x ∈ xs, x.Ok) (hne : xs ≠ []) (tail) :
    hd (spacedText xs ++ tail) ∉ [' ', '\t', '#', '\x00', '\r', '\n', '\\'] := by
  cases xs with
  | nil => exact absurd rfl hne
  | cons x xs => cases xs with
    | nil => exact ((hxs x (by simp)).start tail).1
    | cons y ys =>
      rw [spacedText, List.append_assoc]
      exact ((hxs x (by simp)).start _).1

theorem takeWhile_blank {bl cs : List Char} (h : ∀ c ∈ bl, c = ' ' ∨ c = '\t')
    (hc : isBlank (hd cs) = false) : (bl ++ cs).takeWhile isBlank = bl := by
  induction bl with
  | nil =>
    cases cs with
    | nil => rfl
    | cons c cs => simp at hc; simp [List.takeWhile_cons, hc]
  | cons b bl ih =>
    have : isBlank b = true := by rcases h b (by simp) with h | h <;> subst h <;> rfl
    rw [List.cons_append, List.takeWhile_cons, if_pos this, ih (fun c hc => h c (by simp [hc]))]

/-- The line start step in front of code at column `col`. -/
theorem bolState_code {src l} {bl cs : List Char} (hb : Bol src l) (hr : l.rest = bl ++ cs)
    (hbl : ∀ c ∈ bl, c = ' ' ∨ c = '\t') (hc : isBlank (hd cs) = false)
    (hs : isSkipChar (hd cs) = false) :
    ∃ l1, bolState false (l.at l.pos) = (false, l1) ∧ l1.pos = l.pos + bl.length ∧ l1.rest = cs ∧
      l1.parens = [] ∧ l1.indents = (adjust (blankColumn 0 bl) l.indents 0).1 ∧
      l1.pending = (adjust (blankColumn 0 bl) l.indents 0).2 := by
  have h1 : (l.at l.pos).blanks = bl := by
    show (l.rest.takeWhile isBlank) = bl
    rw [hr]; exact takeWhile_blank hbl hc
  have h2 : (l.at l.pos).col = blankColumn 0 bl := by
    rw [Lexer.col, h1, blankColumn_eq]; show columnOf l.tabSize _ _ = _; rw [hb.inv.tab]
  have h3 : (l.at l.pos).rest.drop (l.at l.pos).blanks.length = cs := by
    rw [h1]; show l.rest.drop _ = _; rw [hr]; simp
  have hp : l.pending = 0 := hb.inv.bolp hb.bol
  refine ⟨{ (l.at l.pos).fwd bl.length with
      bol := false, indents := (adjust (blankColumn 0 bl) l.indents 0).1,
      pending := (adjust (blankColumn 0 bl) l.indents 0).2 }, ?_, rfl, ?_, hb.parens, rfl, rfl⟩
  · unfold bolState
    rw [if_pos (show (l.at l.pos).bol = true from hb.bol)]
    dsimp only
    rw [h3, hs, if_pos ⟨rfl, hb.parens⟩, h2, h1]
    have e1 : (l.at l.pos).indents = l.indents := rfl
    have e2 : (l.at l.pos).pending = 0 := hp
    rw [e1, e2]; rfl
  · show ((l.at l.pos).fwd bl.length).rest = cs
    rw [rest_fwd, rest_at, hr]; simp

theorem notSkip_blank {c : Char} (h : c ∉ [' ', '\t', '#', '\x00', '\r', '\n', '\\']) :
    isBlank c = false ∧ isSkipChar c = false := by
  simp only [List.mem_cons, not_or] at h
  simp [isBlank, isSkipChar, h]

/-- The `Newline` after the last word of a line. -/
theorem read_newline [Uni] {src l r} (hm : Mid src l) (hp : l.parens = []) (hr : l.rest = '\n' :: r) :
    ∃ l', getSymbol l = .ok (.newline l.pos (l.pos + 1) none '\n' ' ') l' ∧ Bol src l' ∧
      l'.rest = r ∧ l'.pos = l.pos + 1 ∧ l'.indents = l.indents := by
  have hstep := Step.newline (l := l) (bolState_mid (l := l.at l.pos) (b := false) hm.bol) hm.pending rfl
    hp (HRun.nil) (LineEnd.lf (by rw [rest_at, hr]; rfl)) rfl rfl
  have heq := getSymbol_eq hm.inv hstep
  have hc : hd ((l.at l.pos).rest.drop 0) = '\n' := by rw [rest_at, hr]; rfl
  rw [hc] at heq
  refine ⟨_, heq, ⟨(ok_facts hm.inv heq).inv, rfl, hp⟩, ?_, rfl, rfl⟩
  show (l.fwd 1).rest = r
  rw [rest_fwd, hr]; rfl

/-- The end of the text in the middle of a line or after the dedents. -/
theorem read_eof [Uni] {src l} (hm : Mid src l) (hr : l.rest = []) :
    ∃ l', getSymbol l = .ok (.eof l.pos none) l' := by
  have hstep := Step.eof (l := l) (bolState_mid (l := l.at l.pos) (b := false) hm.bol) hm.pending
    Gap.nil (by rw [rest_at, hr]; rfl)
  exact ⟨_, getSymbol_eq hm.inv hstep⟩

/-- The words of one line, from its start to the start of the next. -/
theorem read_line [Uni] {src l} {ln : Line} {rest} (hb : Bol src l) (hl : ln.Ok) (hr : l.rest = ln.text ++ rest) :
    ∃ l', Bol src l' ∧ l'.rest = rest ∧
      l'.pos = l.pos + ln.blanks.length + (spacedText ln.words).length + 1 ∧
      l'.indents = (adjust ln.column l.indents 0).1 ∧
      Tokens l ((if (adjust ln.column l.indents 0).2 > 0 then [.indent none] else
          List.replicate (adjust ln.column l.indents 0).2.natAbs (.dedent none)) ++
        (spacedTokens (l.pos + ln.blanks.length) none ln.words ++
          [.newline (l.pos + ln.blanks.length + (spacedText ln.words).length)
            (l.pos + ln.blanks.length + (spacedText ln.words).length + 1) none '\n' ' '])) l' := by
  obtain ⟨h1, h2, h3, h4⟩ := hl
  have hr' : l.rest = ln.blanks ++ (spacedText ln.words ++ ('\n' :: rest)) := by
    rw [hr, Line.text]; simp
  have hh := spacedText_head h3 h2 ('\n' :: rest)
  obtain ⟨l1, b1, b2, b3, b4, b5, b6⟩ := bolState_code hb hr' h1 (notSkip_blank hh).1 (notSkip_blank hh).2
  obtain ⟨l2, c1, c2, c3, c4, c5, c6⟩ := read_layout hb.inv b1
  obtain ⟨l3, d1, d2, d3, d4, d5, d6⟩ := read_spaced (ts := []) (k := 0) (tail := '\n' :: rest) (ps := []) c1 h3 h2
    Gap.nil (by rw [List.drop_zero, c3, b3]) (.inr ⟨_, rfl⟩) (by rw [c4, b4, h4])
  obtain ⟨l4, e1, e2, e3, e4, e5⟩ := read_newline d2 d5 d4
  have hp2 : l2.pos + 0 = l.pos + ln.blanks.length := by rw [c2, b2]; rfl
  rw [hp2] at d1 d3
  rw [d3] at e1 e4
  refine ⟨l4, e2, e3, by rw [e4], by rw [e5, d6, c5, b5]; rfl, ?_⟩
  have := c6 _ _ (by simp) (d1.append (.cons e1 .nil))
  rw [b6] at this
  exact this

theorem read_end [Uni] {src l} (hb : Bol src l) (hr : l.rest = []) :
    ∃ l', Tokens l (List.replicate (l.indents.length - 1) (.dedent none) ++ [.eof l.pos none]) l' := by
  obtain ⟨l1, b1, b2, b3, b4, b5, b6⟩ := bolState_code (bl := []) (cs := []) hb (by rw [hr]; rfl) (by simp) (by decide) (by decide)
  obtain ⟨l2, c1, c2, c3, c4, c5, c6⟩ := read_layout hb.inv b1
  obtain ⟨l3, d1⟩ := read_eof c1 (by rw [c3, b3])
  refine ⟨l3, ?_⟩
  have := c6 _ _ (by simp) (.cons d1 .nil)
  rw [b6, c2, b2] at this
  have hadj : (adjust 0 l.indents 0).2 = -((l.indents.length - 1 : Nat) : Int) := by
    have hs := hb.inv.sorted
    have hi := hb.inv.ind
    cases hl : l.indents with
    | nil => rw [hl] at hi; simp [IndOk] at hi
    | cons a r =>
      rw [hl] at hs hi
      cases r with
      | nil => simp [IndOk] at hi; subst hi; rfl
      | cons b r =>
        have hpa : 0 < a := by
          have := (List.pairwise_cons.mp hs).1 b (by simp); omega
        have htk : ∀ (xs : List Nat), xs.Pairwise (· > ·) → xs.getLast? = some 0 →
            (xs.takeWhile (fun x => decide (0 < x))).length = xs.length - 1 := by
          intro xs
          induction xs with
          | nil => simp
          | cons x xs ih =>
            intro h1 h2
            cases xs with
            | nil => simp at h2; subst h2; rfl
            | cons y ys =>
              have : 0 < x := by have := (List.pairwise_cons.mp h1).1 y (by simp); omega
              rw [List.getLast?_cons_cons] at h2
              rw [List.takeWhile_cons, if_pos (by simpa using this), List.length_cons,
                ih (List.pairwise_cons.mp h1).2 h2]
              simp
        have := htk _ hs hi
        unfold adjust
        rw [if_neg (by simp [topIndent]; omega), if_neg (by simp [topIndent])]
        rw [this]; simp
  have hadj : (adjust (blankColumn 0 []) l.indents 0).2 = -((l.indents.length - 1 : Nat) : Int) := hadj
  rw [hadj, if_neg (by omega)] at this
  simpa using this

/-- All lines and the end of the text. -/
theorem read_lines [Uni] {src l} {lns : List Line} (hb : Bol src l) (hl : ∀ ln ∈ lns, ln.Ok)
    (hr : l.rest = linesText lns) : ∃ l', Tokens l (lenientLayout l.pos l.indents lns) l' := by
  induction lns generalizing l with
  | nil => exact read_end hb (by rw [hr]; rfl)
  | cons ln lns ih =>
    have hr' : l.rest = ln.text ++ linesText lns := by rw [hr]; rfl
    obtain ⟨l1, h1, h2, h3, h4, h5⟩ := read_line hb (hl ln (by simp)) hr'
    obtain ⟨l', hl'⟩ := ih h1 (fun x hx => hl x (by simp [hx])) h2
    rw [h3, h4] at hl'
    refine ⟨l', ?_⟩
    simp only [lenientLayout]
    have htop : topIndent l.indents = l.indents.headD 0 := by
      cases h : l.indents with
      | nil => have := hb.inv.ind; rw [h] at this; simp [IndOk] at this
      | cons a r => rfl
    split
    · rename_i hc
      have ha : adjust ln.column l.indents 0 = (ln.column :: l.indents, 1) := by
        unfold adjust; rw [htop, if_neg (by omega), if_pos hc]; rfl
      rw [ha] at hl' h5
      have := h5.append hl'
      simpa using this
    · rename_i hc
      have ha : adjust ln.column l.indents 0 = (l.indents.filter (· ≤ ln.column),
          -((l.indents.filter (· > ln.column)).length : Int)) := by
        unfold adjust
        rw [htop]
        obtain ⟨f1, f2⟩ := takeWhile_filter (col := ln.column) hb.inv.sorted
        by_cases he : ln.column = l.indents.headD 0
        · rw [if_pos he]
          have hs := hb.inv.ind
          cases hi : l.indents with
          | nil => rw [hi] at hs; simp [IndOk] at hs
          | cons a r =>
            rw [hi] at f1 f2 he
            have hca : ¬ ln.column < a := by simp at he; omega
            rw [← f1, ← f2]
            simp [List.takeWhile_cons, List.dropWhile_cons, hca]
        · rw [if_neg he, if_neg hc, f1, f2]; simp
      rw [ha] at hl' h5
      have := h5.append hl'
      rw [if_neg (by omega)] at this
      simpa using this

theorem pyLayout_lenient {p st lns ts} (h : pyLayout p st lns = some ts) : lenientLayout p st lns = ts := by
  induction lns generalizing p st ts with
  | nil => simpa [pyLayout, lenientLayout] using h
  | cons ln lns ih =>
    simp only [pyLayout] at h
    simp only [lenientLayout]
    split at h
    · rename_i hc
      simp only [Option.map_eq_some_iff] at h
      obtain ⟨ts', ht, rfl⟩ := h
      rw [if_pos hc, ih ht]
    · rename_i hc
      split at h
      · simp only [Option.map_eq_some_iff] at h
        obtain ⟨ts', ht, rfl⟩ := h
        rw [if_neg hc, ih ht]
      · simp at h

end Verif
