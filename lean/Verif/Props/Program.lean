import Verif.Proof.Layout

/-!
# C19: space separated lexemes are read back.  C11, C12: indentation of lines
-/

set_option linter.unusedSimpArgs false

namespace Verif
attribute [-simp] List.drop_one List.tail_drop

theorem new_rest (src : List Char) : (Lexer.new src).rest = src := rfl

theorem new_bol (src : List Char) : Bol src (Lexer.new src) := ⟨Inv.new src, rfl, rfl⟩

/-- C19: names, keywords, operators, numbers and strings written one after another with single spaces,
with brackets that nest properly (or are still open at the end), are read back one by one, with their
kinds, texts and positions, and followed by EOF. -/
theorem C19_spaced_lexemes [Uni] (xs : List Lexeme) (st : List Char) (hne : xs ≠ []) (hok : ∀ x ∈ xs, x.Ok)
    (hbr : brRun [] (spacedTokens 0 none xs) = some st) :
    ∃ l, Tokens (Lexer.new (spacedText xs))
      (spacedTokens 0 none xs ++ [.eof (spacedText xs).length none]) l := by
  have hh := spacedText_head hok hne []
  obtain ⟨l1, b1, b2, b3, b4, b5, b6⟩ := bolState_code (bl := []) (cs := spacedText xs ++ [])
    (new_bol (spacedText xs)) (by rw [new_rest]; simp) (by simp) (notSkip_blank hh).1 (notSkip_blank hh).2
  obtain ⟨l2, c1, c2, c3, c4, c5, c6⟩ := read_layout (new_bol (spacedText xs)).inv b1
  obtain ⟨l3, d1, d2, d3, d4, d5, d6⟩ := read_spaced (ts := []) (k := 0) (tail := []) (ps := st) c1 hok hne
    Gap.nil (by rw [List.drop_zero, c3, b3]) (.inl rfl) (by rw [c4, b4, hbr])
  obtain ⟨l4, e1⟩ := read_eof d2 d4
  have hp2 : l2.pos = 0 := by rw [c2, b2]; rfl
  rw [hp2] at d1 d3
  rw [d3] at e1
  refine ⟨l4, ?_⟩
  have := c6 _ _ (by simp) (d1.append (.cons e1 .nil))
  have hpend : l1.pending = 0 := b6
  rw [hpend] at this
  simpa [finTrivia] using this

/-- `x1 = f ( r'a b' , not 1.5e3 )` -/
example : ∃ xs : List Lexeme, spacedText xs = cs! "x1 = f ( r'a b' , not 1.5e3 )" ∧ xs ≠ [] ∧
    (∀ x ∈ xs, @Lexeme.Ok asciiUni x) ∧ brRun [] (spacedTokens 0 none xs) = some [] := by
  refine ⟨[.name (cs! "x1"), .op (cs! "=") .PyAssign, .name (cs! "f"), .op (cs! "(") .PyLeftParen,
    .str (cs! "r") '\'' (cs! "a b"), .op (cs! ",") .PyComa, .kw (cs! "not") .PyNot, .num (cs! "1.5e3"),
    .op (cs! ")") .PyRightParen], rfl, by simp, ?_, rfl⟩
  have hn : DecNumber false (cs! "1.5e3") :=
    ⟨cs! "1.5", cs! "e3", [], rfl,
      .frac (ds := cs! "1") ⟨'1', [], rfl, by decide, .nil⟩ (by decide) ⟨'5', [], rfl, by decide, .nil⟩,
      .inr ⟨'e', [], ['3'], rfl, .inl rfl, .inl rfl, '3', [], rfl, by decide, .nil⟩, .inl rfl⟩
  have hk : ∀ x ∈ pyKeywords, x.1 ≠ cs! "x1" ∧ x.1 ≠ cs! "f" := by decide
  intro x hx
  simp only [List.mem_cons, List.not_mem_nil, or_false] at hx
  rcases hx with rfl | rfl | rfl | rfl | rfl | rfl | rfl | rfl | rfl
  · exact ⟨⟨_, _, rfl, rfl⟩, by decide, fun k h => (hk _ h).1 rfl⟩
  · show (_, _) ∈ operators; decide
  · exact ⟨⟨_, _, rfl, rfl⟩, by decide, fun k h => (hk _ h).2 rfl⟩
  · show (_, _) ∈ operators; decide
  · exact ⟨.inr (by decide), .inl rfl, by decide, by decide, by decide, by decide⟩
  · show (_, _) ∈ operators; decide
  · show (_, _) ∈ pyKeywords; decide
  · exact .inl hn
  · show (_, _) ∈ operators; decide

/-- C11 for texts without blank, comment and continued lines: the tokens of any sequence of lines are
those of the Python layout rules (`pyLayout`): one `Indent` before a deeper line, a `Dedent` for each
block a line further left closes, and a `Dedent` for every open block before EOF. -/
theorem C11_layout_partial [Uni] (lns : List Line) (ts : List Token) (hok : ∀ ln ∈ lns, ln.Ok)
    (hl : pyLayout 0 [0] lns = some ts) : ∃ l, Tokens (Lexer.new (linesText lns)) ts l := by
  have := read_lines (new_bol (linesText lns)) hok (new_rest _)
  rw [show lenientLayout (Lexer.new (linesText lns)).pos (Lexer.new (linesText lns)).indents lns = ts from
    pyLayout_lenient hl] at this
  exact this

/-- `if a :` / tab `b` / blanks `( c )` deeper / `d` back at the left. -/
def exampleLines : List Line :=
  [⟨[], [.kw (cs! "if") .PyIf, .name (cs! "a"), .op (cs! ":") .PyColon]⟩,
   ⟨cs! "\t", [.name (cs! "b")]⟩,
   ⟨cs! "  \t  ", [.op (cs! "(") .PyLeftParen, .name (cs! "c"), .op (cs! ")") .PyRightParen]⟩,
   ⟨[], [.name (cs! "d")]⟩]

example : (∀ ln ∈ exampleLines, @Line.Ok asciiUni ln) ∧
    ∃ ts, pyLayout 0 [0] exampleLines = some ts ∧ ts.map Token.kind =
      [.PyIf, .AtomName, .PyColon, .Newline, .Indent, .AtomName, .Newline, .Indent, .PyLeftParen, .AtomName, .PyRightParen,
       .Newline, .Dedent, .Dedent, .AtomName, .Newline, .EOF] := by
  refine ⟨?_, _, rfl, by decide⟩
  have hw : ∀ w : List Char, (∃ c r, w = c :: r ∧ isAsciiLetter c = true) → w.length = 1 →
      @Lexeme.Ok asciiUni (.name w) := by
    rintro w ⟨c, r, rfl, hc⟩ hl
    cases r with
    | cons => simp at hl
    | nil =>
      letI := asciiUni
      obtain ⟨h1, h2⟩ := asciiLetters_name (w := [c]) hc (by simp [hc])
      refine ⟨⟨_, _, rfl, h1⟩, h2, ?_⟩
      intro k hk
      have : ∀ x ∈ pyKeywords, x.1.length ≠ 1 := by decide
      exact this _ hk rfl
  intro ln hln
  simp only [exampleLines, List.mem_cons, List.not_mem_nil, or_false] at hln
  rcases hln with rfl | rfl | rfl | rfl
  · refine ⟨by decide, by simp, ?_, rfl⟩
    intro x hx
    simp only [List.mem_cons, List.not_mem_nil, or_false] at hx
    rcases hx with rfl | rfl | rfl
    · show (_, _) ∈ pyKeywords; decide
    · exact hw _ ⟨_, _, rfl, rfl⟩ rfl
    · show (_, _) ∈ operators; decide
  · refine ⟨by decide, by simp, ?_, rfl⟩
    intro x hx
    simp only [List.mem_cons, List.not_mem_nil, or_false] at hx
    subst hx; exact hw _ ⟨_, _, rfl, rfl⟩ rfl
  · refine ⟨by decide, by simp, ?_, rfl⟩
    intro x hx
    simp only [List.mem_cons, List.not_mem_nil, or_false] at hx
    rcases hx with rfl | rfl | rfl
    · show (_, _) ∈ operators; decide
    · exact hw _ ⟨_, _, rfl, rfl⟩ rfl
    · show (_, _) ∈ operators; decide
  · refine ⟨by decide, by simp, ?_, rfl⟩
    intro x hx
    simp only [List.mem_cons, List.not_mem_nil, or_false] at hx
    subst hx; exact hw _ ⟨_, _, rfl, rfl⟩ rfl

/-- C11, negation: the line `c` after a blank line is at the left margin, but no `Dedent` is returned
for it: the block opened before `b` stays open. -/
theorem C11_blank_line_hides_dedent :
    letI := asciiUni
    ∃ ts l, Tokens (Lexer.new (cs! "if a:\n  b\n\nc\n")) ts l ∧
      ts.map Token.kind = [.PyIf, .AtomName, .PyColon, .Newline, .Indent, .AtomName, .Newline, .AtomName, .Newline,
        .Dedent, .EOF] :=
  letI := asciiUni
  ⟨_, _, .cons rfl (.cons rfl (.cons rfl (.cons rfl (.cons rfl (.cons rfl (.cons rfl (.cons rfl
    (.cons rfl (.cons rfl (.cons rfl .nil)))))))))), rfl⟩

/-- C11, negation in general: whenever the line ahead is blank, a comment line or starts with a
backslash, the next token is neither `Indent` nor `Dedent`, however the line of that token is indented. -/
theorem C11_blank_line_hides_indentation [Uni] (src : List Char) (l l' : Lexer) (t : Token)
    (hl : LineStart src l)
    (hblank : ((src.drop l.buf.index).dropWhile (fun c => c == ' ' || c == '\t')).head?.any
      (· ∈ ['#', '\r', '\n', '\\']) = true)
    (ht : getSymbol l = .ok t l') : t.kind ≠ .Indent ∧ t.kind ≠ .Dedent := by
  obtain ⟨hi, hb, hp, hpar⟩ := hl.state
  have hs : isSkipChar (hd ((l.at l.pos).rest.drop (l.at l.pos).blanks.length)) = true := by
    have e : (l.at l.pos).rest.drop (l.at l.pos).blanks.length =
        (src.drop l.buf.index).dropWhile (fun c => c == ' ' || c == '\t') := by
      show l.rest.drop (l.rest.takeWhile isBlank).length = _
      rw [drop_takeWhile_length, hi.rest_eq]; rfl
    rw [e]
    generalize (src.drop l.buf.index).dropWhile (fun c => c == ' ' || c == '\t') = cs at hblank
    cases cs with
    | nil => simp at hblank
    | cons c cs => simp at hblank; simp [isSkipChar]; grind
  have hbs : ∃ l1, bolState false (l.at l.pos) = (true, l1) ∧ l1.pending = 0 := by
    unfold bolState
    rw [if_pos (show (l.at l.pos).bol = true from hb)]
    dsimp only
    rw [hs, if_neg (by simp)]
    exact ⟨_, rfl, hp⟩
  obtain ⟨l1, h1, h2⟩ := hbs
  have hstep := getSymbol_step l hi.inter hi.ind
  generalize getSymbol l = r at hstep ht
  cases hstep with
  | dedent hb' hq => rw [h1] at hb'; injection hb' with _ h; subst h; omega
  | indent hb' hq => rw [h1] at hb'; injection hb' with _ h; subst h; omega
  | newline => simp only [LexRes.ok.injEq] at ht; rw [← ht.1]; simp [Token.kind]
  | typeComment => simp only [LexRes.ok.injEq] at ht; rw [← ht.1]; simp [Token.kind]
  | eof => simp only [LexRes.ok.injEq] at ht; rw [← ht.1]; simp [Token.kind]
  | badCont => simp at ht
  | arms hb' hq hg hh =>
    rename_i b l1' ts k
    rcases armsResult_facts ts ((l1'.fwd k).at (l1'.pos + k)) rfl with
      ⟨t', j, ps', e1, e2, e3, e4, e5, e6, e7, e8, _⟩ | ⟨e, j, e1, _⟩
    · rw [e1] at ht
      simp only [LexRes.ok.injEq] at ht
      rw [← ht.1]
      constructor <;> intro hk <;> rw [hk] at e7 <;> simp [Kind.isLayout] at e7
    · rw [e1] at ht; simp at ht

/-- `  c` after a comment line: no `Indent`. -/
example : ∃ l t l', @LineStart asciiUni (cs! "a\n # x\n  c") l ∧
    (((cs! "a\n # x\n  c").drop l.buf.index).dropWhile (fun c => c == ' ' || c == '\t')).head?.any
      (· ∈ ['#', '\r', '\n', '\\']) = true ∧ @getSymbol asciiUni l = .ok t l' ∧ t.kind = .AtomName :=
  letI := asciiUni
  ⟨_, _, _, .inr ⟨_, _, .ok .new rfl, rfl, rfl⟩, rfl, rfl, rfl⟩

/-- C12, negation in general: no text makes the tokenizer report an indentation error. -/
theorem C12_never_rejected [Uni] (src : List Char) (l l' : Lexer) (e : LexErr) (h : Reach src l)
    (he : getSymbol l = .err e l') : e ≠ .inconsistentIndent := by
  rintro rfl
  rcases (err_facts h.inv he).kind with h | ⟨p, h⟩
  · exact absurd h (by decide)
  · exact absurd h (by simp)

/-- C12, negation: `c` is at column 1, which is no open block; it is accepted. -/
theorem C12_inconsistent_dedent_accepted :
    letI := asciiUni
    ∃ ts l, Tokens (Lexer.new (cs! "if a:\n  b\n c\n")) ts l ∧
      ts.map Token.kind = [.PyIf, .AtomName, .PyColon, .Newline, .Indent, .AtomName, .Newline, .Dedent,
        .AtomName, .Newline, .EOF] :=
  letI := asciiUni
  ⟨_, _, .cons rfl (.cons rfl (.cons rfl (.cons rfl (.cons rfl (.cons rfl (.cons rfl (.cons rfl
    (.cons rfl (.cons rfl (.cons rfl .nil)))))))))), rfl⟩

/-- C12, what happens instead, for every sequence of lines: the deeper blocks are closed and the line is
taken to belong to the innermost block that is left (`lenientLayout`). -/
theorem C12_lenient_layout_partial [Uni] (lns : List Line) (hok : ∀ ln ∈ lns, ln.Ok) :
    ∃ l, Tokens (Lexer.new (linesText lns)) (lenientLayout 0 [0] lns) l :=
  read_lines (new_bol (linesText lns)) hok (new_rest _)

/-- Consistent dedents are treated as in the reference: both layouts agree where the reference has one. -/
example (p : Nat) (st : List Nat) (lns : List Line) (ts : List Token) (h : pyLayout p st lns = some ts) :
    lenientLayout p st lns = ts := pyLayout_lenient h

end Verif
