import Verif.Proof.Gaps
import Verif.Props.Numbers

/-!
# Tokenizer: what lies between tokens (C15, C17, C20, C21)

Specification in `Spec/Gaps.lean`.
-/

set_option linter.unusedSimpArgs false

namespace Verif
attribute [-simp] List.drop_one List.tail_drop

/-! ### C20 -/

/-- C20: in the middle of a line, a backslash directly before a line end is skipped together with the
line end (`\n`, `\r` or `\r\n`): the call does what it would do after it, with the continuation
recorded as trivia.  So the line end is not a `Newline` token. -/
theorem C20_continuation [Uni] (src : List Char) (l : Lexer) (rest eol : List Char)
    (h : MidLine src l) (hsrc : src.drop l.buf.index = '\\' :: (eol ++ rest))
    (heol : eol = cs! "\n" ∨ eol = cs! "\r\n" ∨ (eol = cs! "\r" ∧ rest.head? ≠ some '\n')) :
    ∃ c1 c2, getSymbol l = (getSymbol (l.skipChars (1 + eol.length))).addFirst
      (.lineContinuation l.buf.index (l.buf.index + (1 + eol.length)) '\\' c1 c2) ∧
      (if c2 = ' ' then [c1] else [c1, c2]) = eol := by
  obtain ⟨hi, hb, hp⟩ := h.state
  have hrest : l.rest = '\\' :: (eol ++ rest) := by rw [hi.rest_eq]; exact hsrc
  rcases heol with rfl | rfl | ⟨rfl, hr⟩
  · exact ⟨'\n', ' ', getSymbol_skip hi hb hp (.contLF (by rw [hrest]; rfl) (by rw [hrest]; rfl)), by simp⟩
  · exact ⟨'\r', '\n', getSymbol_skip hi hb hp
      (.cont3 (by rw [hrest]; rfl) (by rw [hrest]; rfl) (by rw [hrest]; rfl)), by simp⟩
  · refine ⟨'\r', ' ', getSymbol_skip hi hb hp
      (.contCR (by rw [hrest]; rfl) (by rw [hrest]; rfl) ?_), by simp⟩
    rw [hrest]
    show hd rest ≠ '\n'
    rw [Ne, head_ne_iff (by decide)]
    exact hr

example : ∃ l, @MidLine asciiUni (cs! "a\\\n+b") l ∧
    (cs! "a\\\n+b").drop l.buf.index = '\\' :: (cs! "\n" ++ cs! "+b") :=
  letI := asciiUni
  ⟨_, ⟨_, _, .new, rfl, by decide, by decide⟩, rfl⟩

/-- C20: a backslash at the start of a lexeme that is not directly before a line end is an error that
names its position; so does every later call, and nothing is skipped. -/
theorem C20_bad_continuation [Uni] (src : List Char) (l : Lexer) (p : Nat) (rest : List Char)
    (h : Reach src l) (hp : LexemeAt l p) (hsrc : src.drop p = '\\' :: rest)
    (h1 : rest.head? ≠ some '\n') (h2 : rest.head? ≠ some '\r') (n : Nat) :
    (∀ m, m ≤ n → ∃ l', getSymbol (callTimes m l) = .err (.badContinuation p) l') ∧
      (callTimes (n + 1) l).buf.index = p := by
  have hh : hd (src.drop p) = '\\' := by rw [hsrc]; rfl
  have hn1 : hd (src.drop (p + 1)) ≠ '\r' := by
    rw [← List.drop_drop, hsrc]; show hd rest ≠ '\r'; rwa [Ne, head_ne_iff (by decide)]
  have hn2 : hd (src.drop (p + 1)) ≠ '\n' := by
    rw [← List.drop_drop, hsrc]; show hd rest ≠ '\n'; rwa [Ne, head_ne_iff (by decide)]
  have one : ∀ l, Inv src l → LexemeAt l p → ∃ l2, getSymbol l = .err (.badContinuation p) l2 ∧
      Inv src l2 ∧ l2.pos = p ∧ l2.bol = false ∧ l2.pending = 0 := by
    intro l hi hp
    cases atOut hi hp with
    | newline he => exfalso; cases he <;> simp_all
    | typeComment he => exfalso; simp_all
    | eof he => exfalso; simp_all
    | badCont _ _ _ e g1 g2 g3 g4 => exact ⟨_, e, (err_facts hi e).inv, g1, g3, g4⟩
    | arms he => exfalso; simp_all
  have again : ∀ l2, Inv src l2 → l2.pos = p → l2.bol = false → l2.pending = 0 → LexemeAt l2 p := by
    intro l2 hi hp2 hb hq
    have hstep : Step l2 (.err (.badContinuation l2.pos) (l2.at l2.pos)) := by
      have hr : l2.rest = src.drop p := by rw [hi.rest_eq, hp2]
      have := Step.badCont (l := l2) (b := false) (l1 := l2.at l2.pos) (ts := []) (k := 0)
        (bolState_mid hb) hq .nil (by simpa [hr] using hh)
        (by simpa [hr, List.drop_drop] using hn1) (by simpa [hr, List.drop_drop] using hn2)
      simpa using this
    have e := getSymbol_eq hi hstep
    refine ⟨by rw [e]; exact hp2, ?_⟩
    intro t l' ht; rw [e] at ht; simp at ht
  have all : ∀ n l, Inv src l → LexemeAt l p →
      (∀ m, m ≤ n → ∃ l', getSymbol (callTimes m l) = .err (.badContinuation p) l') ∧
      (callTimes (n + 1) l).pos = p := by
    intro n
    induction n with
    | zero =>
      intro l hi hp
      obtain ⟨l2, e, _, g, _⟩ := one l hi hp
      refine ⟨fun m hm => ?_, ?_⟩
      · obtain rfl : m = 0 := by omega
        exact ⟨l2, e⟩
      · simp only [callTimes, e, LexRes.lexer]; exact g
    | succ n ih =>
      intro l hi hp
      obtain ⟨l2, e, hi2, g1, g2, g3⟩ := one l hi hp
      obtain ⟨a, b⟩ := ih l2 hi2 (again l2 hi2 g1 g2 g3)
      refine ⟨fun m hm => ?_, ?_⟩
      · cases m with
        | zero => exact ⟨l2, e⟩
        | succ m =>
          simp only [callTimes, e, LexRes.lexer]
          exact a m (by omega)
      · rw [callTimes, e]; exact b
  exact all n l h.inv hp

example : ∃ l, @Reach asciiUni (cs! "a \\b") l ∧ @LexemeAt asciiUni l 2 ∧
    (cs! "a \\b").drop 2 = '\\' :: cs! "b" :=
  letI := asciiUni
  ⟨_, .ok .new rfl, lexemeAt_eval rfl, rfl⟩

/-- C20 at the start of a line (after blanks): there too the line end after the backslash is never
returned as a `Newline` token. -/
theorem C20_continuation_line_start [Uni] (src : List Char) (l l' : Lexer) (t : Token)
    (blanks rest : List Char) (h : LineStart src l)
    (hb : ∀ c ∈ blanks, c = ' ' ∨ c = '\t')
    (hsrc : src.drop l.buf.index = blanks ++ '\\' :: rest) (hr : getSymbol l = .ok t l') :
    t.kind ≠ .Newline := by
  obtain ⟨hi, hbol, hp, hpar⟩ := h.state
  have hs := getSymbol_step l hi.inter hi.ind
  rw [hr] at hs
  generalize hres : LexRes.ok t l' = r at hs
  cases hs with
  | newline hbs _ hbf =>
    exfalso
    have hrest : l.rest = blanks ++ '\\' :: rest := by rw [hi.rest_eq]; exact hsrc
    have hbl : (l.at l.pos).blanks = blanks := by
      show l.rest.takeWhile isBlank = blanks
      rw [hrest, List.takeWhile_append_of_pos (by intro c hc; simpa [isBlank] using hb c hc)]
      simp [isBlank]
    unfold bolState at hbs
    rw [if_pos (by simpa using hbol), hbl, rest_at, hrest] at hbs
    have hsk : isSkipChar (hd ((blanks ++ '\\' :: rest).drop blanks.length)) = true := by
      simp [isSkipChar]
    dsimp only at hbs
    rw [hsk] at hbs
    simp at hbs
    rw [hbs.1] at hbf; simp at hbf
  | dedent => simp only [LexRes.ok.injEq] at hres; obtain ⟨rfl, _⟩ := hres; simp [Token.kind]
  | indent => simp only [LexRes.ok.injEq] at hres; obtain ⟨rfl, _⟩ := hres; simp [Token.kind]
  | typeComment => simp only [LexRes.ok.injEq] at hres; obtain ⟨rfl, _⟩ := hres; simp [Token.kind]
  | eof => simp only [LexRes.ok.injEq] at hres; obtain ⟨rfl, _⟩ := hres; simp [Token.kind]
  | badCont => simp at hres
  | @arms b l1 ts k _ _ _ _ =>
    rcases armsResult_facts ts ((l1.fwd k).at (l1.pos + k)) (by simp) with
      ⟨t', j, ps, h1, _, _, _, _, _, hlay, _⟩ | ⟨e, j, h1, _⟩
    · rw [h1] at hres
      simp only [LexRes.ok.injEq] at hres
      obtain ⟨rfl, _⟩ := hres
      intro hk; rw [hk] at hlay; simp [Kind.isLayout] at hlay
    · rw [h1] at hres; simp at hres

example : ∃ l l' t, @LineStart asciiUni (cs! " \\\na") l ∧
    (cs! " \\\na").drop l.buf.index = cs! " " ++ '\\' :: cs! "\na" ∧ @getSymbol asciiUni l = .ok t l' :=
  letI := asciiUni
  ⟨_, _, _, .inl rfl, rfl, rfl⟩

/-! ### C21 -/

theorem lineText_eq {cs txt rest} (h : RestOfLine cs txt rest) : lineText cs = txt := by
  obtain ⟨rfl, h1, h2⟩ := h
  unfold lineText
  rw [List.takeWhile_append_of_pos]
  · cases rest with
    | nil => simp
    | cons c r =>
      have := h2 c rfl
      rw [List.takeWhile_cons, if_neg]
      · simp
      · rcases this with rfl | rfl | rfl <;> decide
  · intro c hc
    obtain ⟨a, b, d⟩ := h1 c hc
    simp [a, b, d]

theorem restOfLine_lineText (cs : List Char) : RestOfLine cs (lineText cs) (cs.drop (lineText cs).length) := by
  refine ⟨?_, ?_, ?_⟩
  · rw [lineText, drop_takeWhile_length, List.takeWhile_append_dropWhile]
  · intro c hc
    have : ∀ (p : Char → Bool) (cs : List Char), ∀ c ∈ cs.takeWhile p, p c = true := by
      intro p cs
      induction cs with
      | nil => simp
      | cons a cs ih =>
        intro c hc
        by_cases ha : p a = true
        · simp only [List.takeWhile_cons, ha, if_true, List.mem_cons] at hc
          rcases hc with rfl | hc
          · exact ha
          · exact ih c hc
        · simp [ha] at hc
    have := this _ _ c hc
    simp at this
    exact ⟨this.1.1, this.1.2, this.2⟩
  · intro c hc
    have := hd_drop_takeWhile (fun c => !(c == '\r' || c == '\n' || c == '\x00')) (by decide) cs
    rw [show (cs.takeWhile fun c => !(c == '\r' || c == '\n' || c == '\x00')) = lineText cs from rfl] at this
    cases hd' : cs.drop (lineText cs).length with
    | nil => rw [hd'] at hc; simp at hc
    | cons a r =>
      rw [hd'] at hc this; simp at hc this; subst hc
      by_cases ha : a = '\r'
      · exact .inl ha
      · by_cases hb : a = '\n'
        · exact .inr (.inl hb)
        · exact .inr (.inr (this ha hb))

theorem isTypeComment_iff (txt : List Char) : isTypeComment txt = true ↔ cs! "# type:" <+: txt := by
  unfold isTypeComment; exact List.isPrefixOf_iff_prefix

/-- C21: in the middle of a line, a comment that does not start with `# type:` is skipped up to the
line end: the call does what it would do after it, with the comment recorded as trivia, text exact. -/
theorem C21_comment [Uni] (src : List Char) (l : Lexer) (txt rest : List Char) (h : MidLine src l)
    (hsrc : RestOfLine (src.drop l.buf.index) txt rest) (hh : txt.head? = some '#')
    (hty : ¬ cs! "# type:" <+: txt) :
    getSymbol l = (getSymbol (l.skipChars txt.length)).addFirst
      (.comment l.buf.index (l.buf.index + txt.length) txt) := by
  obtain ⟨hi, hb, hp⟩ := h.state
  have hrest : l.rest = src.drop l.buf.index := hi.rest_eq
  have hlt : lineText l.rest = txt := by rw [hrest]; exact lineText_eq hsrc
  have hd1 : hd l.rest = '#' := by
    rw [hrest, hsrc.1]
    cases txt with
    | nil => simp at hh
    | cons c r => simpa using hh
  have := getSymbol_skip hi hb hp (.comment hd1 (by
    rw [hlt]
    cases hb : isTypeComment txt with
    | false => rfl
    | true => exact absurd ((isTypeComment_iff _).mp hb) hty))
  rw [hlt] at this
  exact this

example : ∃ l, @MidLine asciiUni (cs! "a# b\nc") l ∧
    RestOfLine ((cs! "a# b\nc").drop l.buf.index) (cs! "# b") (cs! "\nc") ∧
    ¬ cs! "# type:" <+: cs! "# b" :=
  letI := asciiUni
  ⟨_, ⟨_, _, .new, rfl, by decide, by decide⟩,
    ⟨rfl, by decide, by intro c hc; simp at hc; subst hc; simp⟩, by decide⟩

/-- C21: a comment that starts with `# type:` is returned as a `TypeComment` token with the exact text
up to the line end. -/
theorem C21_type_comment [Uni] (src : List Char) (l : Lexer) (txt rest : List Char) (h : MidLine src l)
    (hsrc : RestOfLine (src.drop l.buf.index) txt rest) (hty : cs! "# type:" <+: txt) :
    ∃ l', getSymbol l = .ok (.typeComment l.buf.index (l.buf.index + txt.length) none txt) l' ∧
      l'.buf.index = l.buf.index + txt.length := by
  obtain ⟨hi, hb, hp⟩ := h.state
  have hrest : l.rest = src.drop l.buf.index := hi.rest_eq
  have hlt : lineText l.rest = txt := by rw [hrest]; exact lineText_eq hsrc
  have hd1 : hd l.rest = '#' := by
    obtain ⟨r, hr⟩ := hty
    rw [hrest, hsrc.1, ← hr]; rfl
  have hstep := Step.typeComment (l := l) (b := false) (l1 := l.at l.pos) (ts := []) (k := 0)
    (bolState_mid hb) hp .nil (by simpa using hd1)
    (by simp only [List.drop_zero, rest_at, hlt]; exact (isTypeComment_iff _).mpr hty)
  simp only [List.drop_zero, rest_at, hlt] at hstep
  refine ⟨_, getSymbol_eq hi hstep, ?_⟩
  show ((l.at l.pos).fwd (0 + txt.length)).pos = _
  simp [Lexer.pos]

example : ∃ l, @MidLine asciiUni (cs! "a# type: b\n") l ∧
    RestOfLine ((cs! "a# type: b\n").drop l.buf.index) (cs! "# type: b") (cs! "\n") ∧
    cs! "# type:" <+: cs! "# type: b" :=
  letI := asciiUni
  ⟨_, ⟨_, _, .new, rfl, by decide, by decide⟩,
    ⟨rfl, by decide, by intro c hc; simp at hc; subst hc; simp⟩, by decide⟩

/-- C21, converse: a `TypeComment` token starts with `# type:` and its text is exactly the source from
its start up to the line end. -/
theorem C21_type_comment_text [Uni] (src : List Char) (l l' : Lexer) (s e : Nat) (tr : Trivs)
    (txt : List Char) (h : Reach src l) (hr : getSymbol l = .ok (.typeComment s e tr txt) l') :
    ∃ rest, RestOfLine (src.drop s) txt rest ∧ cs! "# type:" <+: txt ∧ e = s + txt.length ∧
      l'.buf.index = e := by
  have hat := atOut h.inv (lexemeAt_of_ok hr (by simp [Token.kind]) (by simp [Token.kind]))
  generalize l'.tokStart = p at hat
  cases hat with
  | newline _ he => rw [hr] at he; simp at he
  | typeComment h1 h2 he h3 =>
    rw [hr] at he
    simp only [LexRes.ok.injEq, Token.typeComment.injEq] at he
    obtain ⟨⟨rfl, rfl, _, rfl⟩, rfl⟩ := he
    exact ⟨_, restOfLine_lineText _, (isTypeComment_iff _).mp h2, rfl, h3⟩
  | eof _ he => rw [hr] at he; simp at he
  | badCont _ _ _ he => rw [hr] at he; simp at he
  | @arms ts l2 _ he h1 h2 h3 h4 h5 h6 h7 =>
    rcases armsResult_facts ts l2 (by rw [h1, h2]) with
      ⟨t', j, ps, hres, _, _, _, _, _, _, _, hk⟩ | ⟨e, j, hres, _⟩
    · rw [hr, hres] at he
      simp only [LexRes.ok.injEq] at he
      obtain ⟨rfl, _⟩ := he
      simp [Token.kind] at hk
    · rw [hr, hres] at he; simp at he

example : ∃ l l', @Reach asciiUni (cs! "a # type: b\n") l ∧ @getSymbol asciiUni l =
    .ok (.typeComment 2 11 (some [.whiteSpace 1 2 ' ']) (cs! "# type: b")) l' :=
  letI := asciiUni
  ⟨_, _, .ok .new rfl, rfl⟩

/-! ### C15 -/

theorem finTrivia_inOrder (ts : List Trivia) : ((finTrivia ts).getD []).reverse = ts := by
  unfold finTrivia
  split
  · rename_i h; simp at h; simp [h]
  · simp

theorem covers_of_ok [Uni] {src l l' t s e} (h : Inv src l) (hr : getSymbol l = .ok t l')
    (hsp : t.span? = some (s, e)) : Covers src l.bol l.buf.index t.triviaInOrder s := by
  have hs := getSymbol_step l h.inter h.ind
  have h0 : Inv src (l.at l.pos) := h.at (Nat.le_refl _)
  rw [hr] at hs
  generalize hres : LexRes.ok t l' = r at hs
  have fin : ∀ {b l1 m ts k}, bolState false (l.at l.pos) = (b, l1) → Gap m l1.pos l1.rest ts k →
      Covers src l.bol l.pos ts (l1.pos + k) := by
    intro b l1 m ts k hb hg
    obtain ⟨hi, e1, e2, e3, e4, e5, e6, e7, e8⟩ := bolState_inv h0 hb
    have hc : ∀ b, Covers src b l1.pos ts (l1.pos + k) := fun b => hg.covers hi.rest_eq
    rw [e6] at hc ⊢
    cases hbl : l.bol with
    | true =>
      have hn : bolSkip (l.at l.pos) = ((src.drop l.pos).takeWhile isBlank).length := by
        rw [bolSkip, if_pos (by simpa using hbl)]
        show (l.rest.takeWhile isBlank).length = _
        rw [h.rest_eq]
      exact covers_blanks (by rw [hn]; exact Nat.le_refl _) (hc true)
    | false =>
      have hn : bolSkip (l.at l.pos) = 0 := by
        rw [bolSkip, if_neg (by simpa using hbl)]
      rw [hn] at hc ⊢
      exact hc false
  cases hs with
  | dedent => simp only [LexRes.ok.injEq] at hres; obtain ⟨rfl, _⟩ := hres; simp [Token.span?] at hsp
  | indent => simp only [LexRes.ok.injEq] at hres; obtain ⟨rfl, _⟩ := hres; simp [Token.span?] at hsp
  | newline hb _ _ _ hrun =>
    simp only [LexRes.ok.injEq] at hres; obtain ⟨rfl, _⟩ := hres
    simp only [Token.span?, Option.some.injEq, Prod.mk.injEq] at hsp
    simp only [Token.triviaInOrder, Token.trivia, finTrivia_inOrder, ← hsp.1]
    exact fin hb (Gap.of_hrun (q := false) hrun)
  | typeComment hb _ hg =>
    simp only [LexRes.ok.injEq] at hres; obtain ⟨rfl, _⟩ := hres
    simp only [Token.span?, Option.some.injEq, Prod.mk.injEq] at hsp
    simp only [Token.triviaInOrder, Token.trivia, finTrivia_inOrder, ← hsp.1]
    exact fin hb hg
  | eof hb _ hg =>
    simp only [LexRes.ok.injEq] at hres; obtain ⟨rfl, _⟩ := hres
    simp only [Token.span?, Option.some.injEq, Prod.mk.injEq] at hsp
    simp only [Token.triviaInOrder, Token.trivia, finTrivia_inOrder, ← hsp.1]
    exact fin hb hg
  | badCont => simp at hres
  | @arms b l1 ts k hb _ hg _ =>
    rcases armsResult_facts ts ((l1.fwd k).at (l1.pos + k)) (by simp) with
      ⟨t', j, ps, h1, _, _, h2, h3, _⟩ | ⟨e, j, h1, _⟩
    · rw [h1] at hres
      simp only [LexRes.ok.injEq] at hres
      obtain ⟨rfl, _⟩ := hres
      rw [h2] at hsp
      simp only [pos_at, pos_fwd, Option.some.injEq, Prod.mk.injEq] at hsp
      simp only [Token.triviaInOrder, h3, finTrivia_inOrder, ← hsp.1]
      exact fin hb hg
    · rw [h1] at hres; simp at hres

/-- C15, up to blanks at the start of a line: whatever the state, the trivia of the token returned lie
one directly after the other between the end of the previous token (the read position before the
call) and the start of the token; the only characters left out are blanks at the start of a line. -/
theorem C15_trivia_cover_partial [Uni] (src : List Char) (l l' : Lexer) (t : Token) (s e : Nat)
    (hr : getSymbol l = .ok t l') (hsp : t.span? = some (s, e)) :
    (LineStart src l → Covers src true l.buf.index t.triviaInOrder s) ∧
    (MidLine src l → Covers src false l.buf.index t.triviaInOrder s) := by
  constructor
  · intro h
    have := covers_of_ok h.state.1 hr hsp
    rwa [h.state.2.1] at this
  · intro h
    have := covers_of_ok h.state.1 hr hsp
    rwa [h.state.2.1] at this

example : ∃ l l' t, @MidLine asciiUni (cs! "(# c\n  a)") l ∧ @getSymbol asciiUni l = .ok t l' ∧
    t.span? = some (7, 8) ∧ t.triviaInOrder = [.comment 1 4 (cs! "# c"), .newline 4 5 '\r' '\n'] :=
  letI := asciiUni
  ⟨_, _, _, ⟨_, _, .new, rfl, by decide, by decide⟩, rfl, rfl, rfl⟩

/-- C15, exact part: in the middle of a line, if no line end was skipped, the trivia tile the gap. -/
theorem C15_trivia_tile [Uni] (src : List Char) (l l' : Lexer) (t : Token) (s e : Nat)
    (h : MidLine src l) (hr : getSymbol l = .ok t l') (hsp : t.span? = some (s, e))
    (hn : ∀ x ∈ t.triviaInOrder, x.isNewline = false) : Tiles l.buf.index t.triviaInOrder s := by
  have hc := (C15_trivia_cover_partial src l l' t s e hr hsp).2 h
  generalize t.triviaInOrder = ts at hc hn
  have key : ∀ {b p ts q}, Covers src b p ts q → b = false →
      (∀ x ∈ ts, x.isNewline = false) → Tiles p ts q := by
    intro b p ts q h
    induction h with
    | nil => intros; exact .nil
    | blank => intro hb; simp at hb
    | item h1 h2 _ ih => intro _ hx; exact .cons h1 h2 (ih rfl fun x h => hx x (by simp [h]))
    | line => intro _ hx; have := hx _ (List.mem_cons_self ..); simp [Trivia.isNewline] at this
  exact key hc rfl hn

example : ∃ l l' t, @MidLine asciiUni (cs! "a \t\\\n b") l ∧ @getSymbol asciiUni l = .ok t l' ∧
    t.span? = some (6, 7) ∧ t.triviaInOrder.length = 4 ∧ ∀ x ∈ t.triviaInOrder, x.isNewline = false :=
  letI := asciiUni
  ⟨_, _, _, ⟨_, _, .new, rfl, by decide, by decide⟩, rfl, rfl, rfl, by decide⟩

/-- C15, negation: the blank before `b` is in no trivia and no token. -/
theorem C15_indentation_not_recorded :
    letI := asciiUni
    ∃ l1 l2 l3 l4, getSymbol (Lexer.new (cs! "a\n b")) = .ok (.name 0 1 none (cs! "a")) l1 ∧
      getSymbol l1 = .ok (.newline 1 2 none '\n' ' ') l2 ∧ getSymbol l2 = .ok (.indent none) l3 ∧
      getSymbol l3 = .ok (.name 3 4 none (cs! "b")) l4 :=
  letI := asciiUni
  ⟨_, _, _, _, rfl, rfl, rfl, rfl⟩

/-! ### C17 -/

theorem zeroScan_prefix {c : Char} {r t : List Char} (h : zeroScan ('0' :: c :: r) = .ok t) :
    ∃ rest, '0' :: c :: r = t ++ rest := by
  have rad : ∀ rc (d : Char → Bool), d '\x00' = false → d '_' = false →
      zeroScan ('0' :: c :: r) = (if d (hd r) = true ∨ hd r = '_' then
        preRes ['0', c] (digitRun d (fun p => .badRadix p rc) r)
        else .error ((fun p => .badRadix p rc), 2)) → ∃ rest, '0' :: c :: r = t ++ rest := by
    intro rc d h0 hu hz
    rw [hz] at h
    split at h
    · obtain ⟨u, hu', rfl⟩ := preRes_ok h
      obtain ⟨rest, rfl, _⟩ := digitRun_ok h0 hu hu'
      exact ⟨rest, rfl⟩
    · simp at h
  by_cases h1 : c = 'x' ∨ c = 'X'
  · exact rad 'x' isHexDigit (by decide) (by decide) (zeroScan_radix 'x' isHexDigit (.inl ⟨h1, rfl, rfl⟩))
  by_cases h2 : c = 'o' ∨ c = 'O'
  · exact rad 'o' isOctDigit (by decide) (by decide)
      (zeroScan_radix 'o' isOctDigit (.inr (.inl ⟨h2, rfl, rfl⟩)))
  by_cases h3 : c = 'b' ∨ c = 'B'
  · exact rad 'b' isBinDigit (by decide) (by decide)
      (zeroScan_radix 'b' isBinDigit (.inr (.inr ⟨h3, rfl, rfl⟩)))
  unfold zeroScan at h
  simp only [List.drop_succ_cons, List.drop_zero, hd_cons, h1, h2, h3, if_false] at h
  replace h := (pre_eq _ _ _).symm.trans h
  obtain ⟨t1, g1, rfl⟩ := preRes_ok h
  simp only [List.length_cons, List.drop_succ_cons] at g1
  have hds := List.takeWhile_append_dropWhile (p := isDigit) (l := r)
  rw [drop_takeWhile_length] at g1
  generalize hdw : r.dropWhile isDigit = dw at g1 hds
  generalize htw : r.takeWhile isDigit = tw at g1 hds ⊢
  cases hf : fractionScan dw with
  | error e => rw [hf] at g1; simp at g1
  | ok fr =>
    rw [hf] at g1
    dsimp only at g1
    replace g1 := (pre_eq _ _ _).symm.trans g1
    obtain ⟨t2, g2, rfl⟩ := preRes_ok g1
    have hfr : ∃ rest, dw = fr ++ rest := by
      rcases fractionScan_ok hf with ⟨rfl, _⟩ | ⟨f, rest, rfl, rfl, _⟩
      · exact ⟨dw, rfl⟩
      · exact ⟨rest, rfl⟩
    obtain ⟨d2, rfl⟩ := hfr
    rw [List.drop_left] at g2
    cases hx : exponentScan d2 with
    | error e => rw [hx] at g2; simp at g2
    | ok ex =>
      rw [hx] at g2
      dsimp only at g2
      replace g2 := (pre_eq _ _ _).symm.trans g2
      obtain ⟨t3, g3, rfl⟩ := preRes_ok g2
      have hex : ∃ rest, d2 = ex ++ rest := by
        rcases exponentScan_ok hx with ⟨rfl, _⟩ | ⟨_, _, _, rest, _, _, _, h, _⟩
        · exact ⟨d2, rfl⟩
        · exact ⟨rest, h⟩
      obtain ⟨d3, rfl⟩ := hex
      rw [List.drop_left] at g3
      cases hi : imagScan d3 with
      | error e => rw [hi] at g3; simp at g3
      | ok im =>
        rw [hi] at g3
        dsimp only at g3
        split at g3
        · simp at g3
        · injection g3 with g3; subst g3
          obtain ⟨_, rest, rfl⟩ := imagScan_ok hi
          refine ⟨rest, ?_⟩
          rw [← hds]; simp

theorem StrLit.prefix {cs txt} (h : StrLit cs txt) : txt <+: cs := by
  cases h with
  | @empty q rest => exact ⟨rest, rfl⟩
  | @line q body rest => exact ⟨rest, by simp⟩
  | @triple q body rest => exact ⟨rest, by simp⟩

/-- C17, one token: the source text of a token's span is the token's spelling (so nothing in it is
lost), except for a line end `\r\n` and a `0` at the very end of the text. -/
theorem C17_token_text_partial [Uni] (src : List Char) (l l' : Lexer) (t : Token) (s e : Nat)
    (h : Reach src l) (hr : getSymbol l = .ok t l') (hsp : t.span? = some (s, e))
    (hcrlf : ¬ cs! "\r\n" <+: src.drop s) (hzero : src.drop s ≠ cs! "0") :
    ∃ w, Spells t w ∧ src.drop s = w ++ src.drop e ∧ e = s + w.length ∧ l'.buf.index = e := by
  have hk : t.kind ≠ .Indent ∧ t.kind ≠ .Dedent := by
    have hf := (ok_facts h.inv hr).span
    constructor <;> (intro hk; rw [if_pos (by simp [hk]), hsp] at hf; simp at hf)
  have hat := atOut h.inv (lexemeAt_of_ok hr hk.1 hk.2)
  have hf := ok_facts h.inv hr
  have hspan := hf.span
  rw [if_neg (by simp [hk]), hsp] at hspan
  simp only [Option.some.injEq, Prod.mk.injEq] at hspan
  obtain ⟨rfl, rfl⟩ := hspan
  have fin : ∀ {w : List Char} {p q : Nat}, w <+: src.drop p → q = p + w.length →
      src.drop p = w ++ src.drop q := by
    rintro w p q ⟨r, hr⟩ rfl
    rw [← List.drop_drop, ← hr, List.drop_left]
  generalize hp : l'.tokStart = p at *
  suffices hs : ∃ w, Spells t w ∧ w <+: src.drop p ∧ l'.pos = p + w.length by
    obtain ⟨w, h1, h2, h3⟩ := hs
    exact ⟨w, h1, fin h2 h3, h3, rfl⟩
  cases hat with
  | @newline ts m c1 c2 _ he hres _ hc1 hc2 hpos =>
    rw [hr] at hres
    simp only [LexRes.ok.injEq] at hres
    obtain ⟨rfl, rfl⟩ := hres
    cases he with
    | crlf h1 h2 =>
      exfalso; apply hcrlf
      obtain ⟨r, hr⟩ := (hd_eq_iff (by decide)).mp h1
      rw [hr] at h2 ⊢
      obtain ⟨r', hr'⟩ := (hd_eq_iff (by decide)).mp h2
      simp only [List.drop_succ_cons, List.drop_zero] at hr'
      rw [hr']; exact ⟨r', rfl⟩
    | cr h1 h2 =>
      obtain ⟨r, hr⟩ := (hd_eq_iff (by decide)).mp h1
      simp only [show ¬ ((1 : Nat) = 3) from by decide, if_false] at hc2
      subst hc2
      exact ⟨_, .newline1 (by rw [hc1, ‹src.drop p = _›]; simp), by rw [hc1, ‹src.drop p = _›]; exact ⟨r, rfl⟩, hpos⟩
    | lf h1 =>
      obtain ⟨r, hr⟩ := (hd_eq_iff (by decide)).mp h1
      simp only [show ¬ ((1 : Nat) = 3) from by decide, if_false] at hc2
      subst hc2
      exact ⟨_, .newline1 (by rw [hc1, ‹src.drop p = _›]; simp), by rw [hc1, ‹src.drop p = _›]; exact ⟨r, rfl⟩, hpos⟩
  | typeComment h1 h2 hres hpos =>
    rw [hr] at hres
    simp only [LexRes.ok.injEq] at hres
    obtain ⟨rfl, rfl⟩ := hres
    exact ⟨_, .typeComment, ⟨_, (restOfLine_lineText _).1.symm⟩, hpos⟩
  | eof h1 hres hpos =>
    rw [hr] at hres
    simp only [LexRes.ok.injEq] at hres
    obtain ⟨rfl, rfl⟩ := hres
    exact ⟨[], .eof, List.nil_prefix, hpos⟩
  | badCont _ _ _ hres => rw [hr] at hres; simp at hres
  | @arms ts l2 _ he h1 h2 h3 h4 h5 h6 h7 =>
    have hc := armsCase ts l2
    rw [← he, hr] at hc
    generalize hres : LexRes.ok t l' = r at hc
    have num : ∀ {s : Scan}, LexRes.ok t l' = numResult s ts l2 →
        (∀ txt, s (src.drop p) = .ok txt → ∃ rest, src.drop p = txt ++ rest) →
        ∃ w, Spells t w ∧ w <+: src.drop p ∧ l'.pos = p + w.length := by
      intro s hres hpre
      obtain ⟨txt, ht, htok, hl⟩ := numResult_tok hres.symm
      rw [h3] at ht
      obtain ⟨rest, hrest⟩ := hpre txt ht
      exact ⟨txt, by rw [htok]; exact .number, ⟨rest, hrest.symm⟩, by rw [hl]; simp [h2]⟩
    cases hc with
    | @op a hfa hdd =>
      obtain ⟨g1, g2⟩ := armResult_tok hres.symm
      obtain ⟨hw, hpre, _⟩ := findArm_longest hfa hdd
      have hm := List.mem_of_find?_eq_some hfa
      refine ⟨a.spell, by rw [g1]; exact .op hw, h3 ▸ hpre, ?_⟩
      rw [g2, h2, (opArms_spell a hm).2.1]
    | kw hn hkw =>
      simp only [LexRes.ok.injEq] at hres
      obtain ⟨rfl, rfl⟩ := hres
      refine ⟨_, .kw ((keywords_eq _ _).mp hkw), ?_, by simp [h2]⟩
      rw [← h3]; exact List.takeWhile_prefix _
    | bad => simp at hres
    | name hn hk hpf =>
      simp only [LexRes.ok.injEq] at hres
      obtain ⟨rfl, rfl⟩ := hres
      refine ⟨_, .name, ?_, by simp [h2]⟩
      rw [← h3]; exact List.takeWhile_prefix _
    | pstr =>
      obtain ⟨e, txt, rfl, _⟩ := stringResult_tok hres.symm
      obtain ⟨cs, g1, g2, _, g3, g4⟩ := C13_string_text src l l' _ _ _ _ _ h hr
      rw [h1] at g1 g3
      obtain ⟨r, hr'⟩ := g2.prefix
      refine ⟨_, .pstring, ⟨r, ?_⟩, ?_⟩
      · rw [g1, ← hr']; simp
      · show l'.buf.index = _
        rw [g4, g3]; simp [Nat.add_assoc]
    | str =>
      obtain ⟨e, txt, rfl, _⟩ := stringResult_tok hres.symm
      obtain ⟨cs, g1, g2, _, g3, g4⟩ := C13_string_text src l l' _ _ _ _ _ h hr
      rw [h1] at g1 g3
      obtain ⟨r, hr'⟩ := g2.prefix
      refine ⟨_, .string, ⟨r, ?_⟩, ?_⟩
      · rw [g1, ← hr']; simp
      · show l'.buf.index = _
        rw [g4, g3]; simp
    | dot hdd => exact num hres fun txt ht => (dotScan_sound ht (h3 ▸ hdd)).2
    | dec hdg hz => exact num hres fun txt ht => (decScan_sound ht (h3 ▸ hdg) (h3 ▸ hz)).2
    | zero hz =>
      refine num hres fun txt ht => ?_
      rw [h3] at hz
      obtain ⟨r, hr⟩ := (hd_eq_iff (by decide)).mp hz
      cases r with
      | nil => exact absurd hr hzero
      | cons c r => rw [hr] at ht ⊢; exact zeroScan_prefix ht

example : ∃ l l' t, @Reach asciiUni (cs! "a+ f'b'") l ∧ @getSymbol asciiUni l = .ok t l' ∧
    t.span? = some (3, 7) ∧ ¬ cs! "\r\n" <+: (cs! "a+ f'b'").drop 3 ∧
    (cs! "a+ f'b'").drop 3 ≠ cs! "0" :=
  letI := asciiUni
  ⟨_, _, _, .ok (.ok .new rfl) rfl, rfl, rfl, by decide, by decide⟩

theorem takeWhile_eq_replicate (c : Char) (cs : List Char) :
    cs.takeWhile (· == c) = List.replicate (cs.takeWhile (· == c)).length c := by
  induction cs with
  | nil => rfl
  | cons a cs ih =>
    by_cases h : a = c
    · subst h; simpa [List.replicate_succ] using ih
    · have : (a == c) = false := by simp [h]
      simp [this]

theorem HTrivia.text {pos cs x n} (h : HTrivia pos cs x n) : cs = x.text ++ cs.drop n := by
  cases h with
  | spaces h =>
    simp only [Trivia.text, Nat.add_sub_cancel_left]
    rw [← takeWhile_eq_replicate, drop_takeWhile_length, List.takeWhile_append_dropWhile]
  | tab h =>
    obtain ⟨r, rfl⟩ := (hd_eq_iff (by decide)).mp h
    simp [Trivia.text]
  | comment h ht => exact (restOfLine_lineText cs).1
  | cont3 h h1 h2 =>
    obtain ⟨r, rfl⟩ := (hd_eq_iff (by decide)).mp h
    obtain ⟨r1, h1⟩ := (hd_eq_iff (by decide)).mp h1
    obtain ⟨r2, h2⟩ := (hd_eq_iff (by decide)).mp h2
    simp only [List.drop_succ_cons, List.drop_zero] at h1 h2
    subst h1
    simp only [List.drop_succ_cons, List.drop_zero] at h2
    subst h2; rfl
  | contCR h h1 h2 =>
    obtain ⟨r, rfl⟩ := (hd_eq_iff (by decide)).mp h
    obtain ⟨r1, h1⟩ := (hd_eq_iff (by decide)).mp h1
    simp only [List.drop_succ_cons, List.drop_zero] at h1
    subst h1; rfl
  | contLF h h1 =>
    obtain ⟨r, rfl⟩ := (hd_eq_iff (by decide)).mp h
    obtain ⟨r1, h1⟩ := (hd_eq_iff (by decide)).mp h1
    simp only [List.drop_succ_cons, List.drop_zero] at h1
    subst h1; rfl

theorem Gap.text {m pos cs ts n} (h : Gap m pos cs ts n) (hn : ∀ x ∈ ts, x.isNewline = false) :
    cs = (ts.map Trivia.text).flatten ++ cs.drop n := by
  induction h with
  | nil => rfl
  | @item pos cs t n ts m h _ ih =>
    have := ih fun x hx => hn x (by simp [hx])
    rw [List.drop_drop] at this
    rw [List.map_cons, List.flatten_cons, List.append_assoc, ← this]
    exact h.text
  | line _ h => have := hn _ (List.mem_cons_self ..); simp [Trivia.isNewline] at this

/-- The text of a gap in the middle of a line. -/
theorem gap_text [Uni] {src l l' t s e} (h : MidLine src l) (hr : getSymbol l = .ok t l')
    (hsp : t.span? = some (s, e)) (hn : ∀ x ∈ t.triviaInOrder, x.isNewline = false) :
    src.drop l.pos = (t.triviaInOrder.map Trivia.text).flatten ++ src.drop s := by
  obtain ⟨hi, hb, hp⟩ := h.state
  have hs := getSymbol_step l hi.inter hi.ind
  rw [hr] at hs
  generalize hres : LexRes.ok t l' = r at hs
  have hbs : bolState false (l.at l.pos) = (false, l.at l.pos) := bolState_mid hb
  have fin : ∀ {b l1 m ts k}, bolState false (l.at l.pos) = (b, l1) → Gap m l1.pos l1.rest ts k →
      (∀ x ∈ ts, x.isNewline = false) →
      src.drop l.pos = (ts.map Trivia.text).flatten ++ src.drop (l1.pos + k) := by
    intro b l1 m ts k hb' hg hn
    rw [hbs] at hb'; injection hb' with a b; subst b
    have := hg.text hn
    simp only [rest_at, hi.rest_eq] at this
    rwa [List.drop_drop] at this
  cases hs with
  | dedent => simp only [LexRes.ok.injEq] at hres; obtain ⟨rfl, _⟩ := hres; simp [Token.span?] at hsp
  | indent => simp only [LexRes.ok.injEq] at hres; obtain ⟨rfl, _⟩ := hres; simp [Token.span?] at hsp
  | newline hb _ _ _ hrun =>
    simp only [LexRes.ok.injEq] at hres; obtain ⟨rfl, _⟩ := hres
    simp only [Token.span?, Option.some.injEq, Prod.mk.injEq] at hsp
    simp only [Token.triviaInOrder, Token.trivia, finTrivia_inOrder, ← hsp.1] at hn ⊢
    exact fin hb (Gap.of_hrun (q := false) hrun) hn
  | typeComment hb _ hg =>
    simp only [LexRes.ok.injEq] at hres; obtain ⟨rfl, _⟩ := hres
    simp only [Token.span?, Option.some.injEq, Prod.mk.injEq] at hsp
    simp only [Token.triviaInOrder, Token.trivia, finTrivia_inOrder, ← hsp.1] at hn ⊢
    exact fin hb hg hn
  | eof hb _ hg =>
    simp only [LexRes.ok.injEq] at hres; obtain ⟨rfl, _⟩ := hres
    simp only [Token.span?, Option.some.injEq, Prod.mk.injEq] at hsp
    simp only [Token.triviaInOrder, Token.trivia, finTrivia_inOrder, ← hsp.1] at hn ⊢
    exact fin hb hg hn
  | badCont => simp at hres
  | @arms b l1 ts k hb _ hg _ =>
    rcases armsResult_facts ts ((l1.fwd k).at (l1.pos + k)) (by simp) with
      ⟨t', j, ps, h1, _, _, h2, h3, _⟩ | ⟨e, j, h1, _⟩
    · rw [h1] at hres
      simp only [LexRes.ok.injEq] at hres
      obtain ⟨rfl, _⟩ := hres
      rw [h2] at hsp
      simp only [pos_at, pos_fwd, Option.some.injEq, Prod.mk.injEq] at hsp
      simp only [Token.triviaInOrder, h3, finTrivia_inOrder, ← hsp.1] at hn ⊢
      exact fin hb hg hn
    · rw [h1] at hres; simp at hres

/-- C17, within a line: the tokens returned by consecutive calls, each written after its trivia, are
exactly the text between the read positions before and after these calls (no character is lost,
repeated or invented), as long as no line end is passed and the text does not end in `0`. -/
theorem C17_line_partial [Uni] (src : List Char) (l l' : Lexer) (ts : List Token) (h : MidLine src l)
    (ht : Tokens l ts l') (hlay : ∀ t ∈ ts, t.kind.isLayout = false)
    (hn : ∀ t ∈ ts, ∀ x ∈ t.triviaInOrder, x.isNewline = false) (hzero : src.getLast? ≠ some '0') :
    ∃ w, Written ts w ∧ src.drop l.buf.index = w ++ src.drop l'.buf.index := by
  induction ht with
  | nil => exact ⟨[], .nil, rfl⟩
  | @cons l t l1 ts l2 hr _ ih =>
    have hk := hlay t (by simp)
    have hnl : t.kind ≠ .Newline := by intro hh; rw [hh] at hk; simp [Kind.isLayout] at hk
    have hnd : t.kind ≠ .Dedent := by intro hh; rw [hh] at hk; simp [Kind.isLayout] at hk
    have hni : t.kind ≠ .Indent := by intro hh; rw [hh] at hk; simp [Kind.isLayout] at hk
    have hf := (ok_facts h.reach.inv hr).span
    rw [if_neg (by simp [hni, hnd])] at hf
    obtain ⟨w, hw, hsrc⟩ := ih ⟨l, t, h.reach, hr, hnl, hnd⟩ (fun t h => hlay t (by simp [h]))
      (fun t h => hn t (by simp [h]))
    have hg := gap_text h hr hf (hn t (by simp))
    have hcr : ¬ cs! "\r\n" <+: src.drop l1.tokStart := by
      rintro ⟨r, hcr⟩
      have hat := atOut h.reach.inv (lexemeAt_of_ok hr hni hnd)
      have hh : hd (src.drop l1.tokStart) = '\r' := by rw [← hcr]; rfl
      cases hat with
      | newline _ he => rw [hr] at he; simp only [LexRes.ok.injEq] at he; rw [he.1] at hnl; exact hnl rfl
      | typeComment h1 => rw [hh] at h1; exact absurd h1 (by decide)
      | eof h1 => rw [hh] at h1; exact absurd h1 (by decide)
      | badCont h1 => rw [hh] at h1; exact absurd h1 (by decide)
      | arms h1 => rw [hh] at h1; exact absurd h1 (by decide)
    have hz : src.drop l1.tokStart ≠ cs! "0" := by
      intro hz
      apply hzero
      have := List.getLast?_drop (l := src) (i := l1.tokStart)
      rw [hz] at this
      split at this
      · simp at this
      · exact this.symm
    obtain ⟨v, hv1, hv2, _, hv3⟩ := C17_token_text_partial src l l1 t _ _ h.reach hr hf hcr hz
    refine ⟨_, .cons hv1 hw, ?_⟩
    show src.drop l.pos = _
    rw [hg, hv2, List.append_assoc, List.append_assoc, ← hv3, hsrc]

example : ∃ l l' ts, @MidLine asciiUni (cs! "x=(a\t+b) # c") l ∧ @Tokens asciiUni l ts l' ∧
    ts.length = 7 ∧ (∀ t ∈ ts, t.kind.isLayout = false) ∧
    (∀ t ∈ ts, ∀ x ∈ t.triviaInOrder, x.isNewline = false) ∧ l'.buf.index = 12 :=
  letI := asciiUni
  ⟨_, _, _, ⟨_, _, .new, rfl, by decide, by decide⟩,
    .cons rfl (.cons rfl (.cons rfl (.cons rfl (.cons rfl (.cons rfl (.cons rfl .nil)))))), rfl,
    by decide, by decide, rfl⟩

/-- C17, negation: the `b` after a `\r\n` line end is in no token and no trivia. -/
theorem C17_crlf_loses_character :
    letI := asciiUni
    ∃ l1 l2 l3, getSymbol (Lexer.new (cs! "a\r\nb")) = .ok (.name 0 1 none (cs! "a")) l1 ∧
      getSymbol l1 = .ok (.newline 1 4 none '\r' '\n') l2 ∧ getSymbol l2 = .ok (.eof 4 none) l3 :=
  letI := asciiUni
  ⟨_, _, _, rfl, rfl, rfl⟩

/-- C17, negation: a `0` at the end of the text gets an invented NUL character. -/
theorem C17_zero_invents_character :
    letI := asciiUni
    ∃ l1, getSymbol (Lexer.new (cs! "0")) = .ok (.number 0 2 none (cs! "0\x00")) l1 :=
  letI := asciiUni
  ⟨_, rfl⟩

end Verif
