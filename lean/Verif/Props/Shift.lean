import Verif.Proof.Shift
import Verif.Props.Gaps

/-!
# C42: tokens depend only on the text that follows.  C16: CRLF line ends
-/

set_option linter.unusedSimpArgs false

namespace Verif
attribute [-simp] List.drop_one List.tail_drop

/-- C42, one call: two tokenizers (on any two texts) with the same text ahead and the same open brackets
and blocks return the same token, or the same error, with all positions shifted by the distance `d`
between them, and are in the same situation again. -/
theorem C42_position_independent [Uni] (src src' : List Char) (d : Nat) (l l' : Lexer)
    (h : Reach src l) (h' : Reach src' l') (hs : SameAhead d l l') :
    (∀ t m, getSymbol l = .ok t m → ∃ m', getSymbol l' = .ok (t.shift d) m' ∧ SameAhead d m m') ∧
    (∀ e m, getSymbol l = .err e m → ∃ m', getSymbol l' = .err (e.shift d) m' ∧ SameAhead d m m') := by
  have hr := getSymbol_shift h.inv h'.inv hs
  constructor
  · intro t m ht
    rw [ht] at hr
    generalize getSymbol l' = r at hr
    cases hr with
    | ok h => exact ⟨_, rfl, h⟩
  · intro e m ht
    rw [ht] at hr
    generalize getSymbol l' = r at hr
    cases hr with
    | err h => exact ⟨_, rfl, h⟩

/-- `b` after `a+` at position 2 and after `a[0]+` at position 5 (and different brackets before). -/
example : ∃ l l', @Reach asciiUni (cs! "a+b c") l ∧ @Reach asciiUni (cs! "a[1]+b c") l' ∧ SameAhead 3 l l' :=
  letI := asciiUni
  ⟨_, _, .ok (.ok .new rfl) rfl, .ok (.ok (.ok (.ok (.ok .new rfl) rfl) rfl) rfl) rfl,
    rfl, rfl, rfl, rfl, rfl, rfl, rfl, rfl⟩

/-- C42, any number of calls. -/
theorem C42_stream_position_independent [Uni] (src src' : List Char) (d : Nat) (l l' m : Lexer)
    (ts : List Token) (h : Reach src l) (h' : Reach src' l') (hs : SameAhead d l l')
    (ht : Tokens l ts m) :
    ∃ m', Tokens l' (ts.map (Token.shift d)) m' ∧ SameAhead d m m' := by
  induction ht generalizing l' with
  | nil => exact ⟨l', .nil, hs⟩
  | cons hr _ ih =>
    obtain ⟨m1, h1, h2⟩ := (C42_position_independent src src' d _ _ h h' hs).1 _ _ hr
    obtain ⟨m', h3, h4⟩ := ih m1 (.ok h hr) (.ok h' h1) h2
    exact ⟨m', .cons h1 h3, h4⟩

/-- C42, prefix: a tokenizer that has read the text `a` completely up to a line start, outside of
indented blocks (as many `Dedent`s as `Indent`s returned), returns for the text `b` after it exactly
the tokens a new tokenizer returns for `b` alone, shifted by the length of `a`. -/
theorem C42_suffix [Uni] (a b : List Char) (us ts : List Token) (l m : Lexer)
    (hret : Returned (Lexer.new (a ++ b)) us l) (hl : LineStart (a ++ b) l)
    (hpos : l.buf.index = a.length) (hbal : countKind .Indent us = countKind .Dedent us)
    (ht : Tokens (Lexer.new b) ts m) :
    ∃ m', Tokens l (ts.map (Token.shift a.length)) m' := by
  obtain ⟨hi, hb, hp, hpar⟩ := hl.state
  have h10 := (C10_indent_dedent_balance (a ++ b) us l hret).1
  have hlen : l.indents.length = 1 := by
    have := hi.ind.length_pos
    rw [hp, hbal] at h10; omega
  have hind : l.indents = [0] := by
    have := hi.ind
    match h : l.indents, hlen with
    | [x], _ => rw [h] at this; simpa [IndOk] using this
  have hs : SameAhead a.length (Lexer.new b) l := by
    refine ⟨?_, ?_, hpar, hb, hi.tab, hi.inter, hp, hind⟩
    · show l.buf.index = 0 + a.length
      rw [hpos]; omega
    · show l.rest = b
      rw [hi.rest_eq]
      show (a ++ b).drop l.buf.index = b
      rw [hpos]; simp
  obtain ⟨m', h1, _⟩ := C42_stream_position_independent b (a ++ b) a.length _ l m ts .new hl.reach hs ht
  exact ⟨m', h1⟩

example : ∃ us ts l m, @Returned asciiUni (Lexer.new (cs! "if a:\n b\nc\n" ++ cs! "d=1\n")) us l ∧
    @LineStart asciiUni (cs! "if a:\n b\nc\n" ++ cs! "d=1\n") l ∧ l.buf.index = (cs! "if a:\n b\nc\n").length ∧
    countKind .Indent us = 1 ∧ countKind .Dedent us = 1 ∧
    @Tokens asciiUni (Lexer.new (cs! "d=1\n")) ts m ∧ ts.length = 5 :=
  letI := asciiUni
  ⟨_, _, _, _, .ok rfl (.ok rfl (.ok rfl (.ok rfl (.ok rfl (.ok rfl (.ok rfl (.ok rfl (.ok rfl (.ok rfl .nil))))))))),
    .inr ⟨_, _, .ok (.ok (.ok (.ok (.ok (.ok (.ok (.ok (.ok .new rfl) rfl) rfl) rfl) rfl) rfl) rfl) rfl) rfl, rfl, rfl⟩,
    rfl, rfl, rfl, .cons rfl (.cons rfl (.cons rfl (.cons rfl (.cons rfl .nil)))), rfl⟩

/-! ### C16 -/

/-- C16: what a `\r\n` line end does, compared with a `\n` line end.  Outside brackets both are one
`Newline` token; but the one for `\r\n` takes the character after it along (`skip`), so afterwards the
two tokenizers agree exactly if the text after `\r\n` is that character followed by the text after
`\n`.  In particular (`skip = []`) they agree if the line end is the end of the text. -/
theorem C16_crlf_partial [Uni] (src src' : List Char) (l l' : Lexer) (d : Nat) (skip b : List Char)
    (h : MidLine src l) (h' : MidLine src' l') (hpar : l.parens = []) (hpar' : l'.parens = [])
    (hind : l'.indents = l.indents) (hpos : l'.buf.index = l.buf.index + d)
    (hsrc : src.drop l.buf.index = '\n' :: b)
    (hsrc' : src'.drop l'.buf.index = '\r' :: '\n' :: (skip ++ b))
    (hskip : skip.length = 1 ∨ skip = [] ∧ b = []) :
    ∃ m m', getSymbol l = .ok (.newline l.buf.index (l.buf.index + 1) none '\n' ' ') m ∧
      getSymbol l' = .ok (.newline l'.buf.index (l'.buf.index + 3) none '\r' '\n') m' ∧
      SameAhead (d + 2) m m' := by
  obtain ⟨hi, hb, hp⟩ := h.state
  obtain ⟨hi', hb', hp'⟩ := h'.state
  have hrest : l.rest = '\n' :: b := by rw [hi.rest_eq]; exact hsrc
  have hrest' : l'.rest = '\r' :: '\n' :: (skip ++ b) := by rw [hi'.rest_eq]; exact hsrc'
  have s1 := Step.newline (l := l) (b := false) (l1 := l.at l.pos) (ts := []) (k := 0) (m := 1)
    (bolState_mid hb) hp rfl hpar .nil (.lf (by simp [hrest])) rfl rfl
  have s2 := Step.newline (l := l') (b := false) (l1 := l'.at l'.pos) (ts := []) (k := 0) (m := 3)
    (bolState_mid hb') hp' rfl hpar' .nil (.crlf (by simp [hrest']) (by simp [hrest'])) rfl rfl
  have e1 := getSymbol_eq hi s1
  have e2 := getSymbol_eq hi' s2
  simp [hrest, finTrivia] at e1
  simp [hrest', finTrivia] at e2
  refine ⟨_, _, e1, e2, ?_⟩
  refine ⟨?_, ?_, by simp [hpar, hpar'], rfl, by simp [hi.tab, hi'.tab], by simp [hi.inter, hi'.inter],
    by simp [hp, hp'], by simpa using hind⟩
  · show l'.buf.index + 3 = l.buf.index + 1 + (d + 2)
    omega
  · show (l'.fwd 3).rest = (l.fwd 1).rest
    rw [rest_fwd, rest_fwd, hrest, hrest']
    rcases hskip with hk | ⟨rfl, rfl⟩
    · match skip, hk with
      | [c], _ => rfl
    · rfl

example : ∃ l l', @MidLine asciiUni (cs! "a\nb") l ∧ @MidLine asciiUni (cs! "a\r\nxb") l' ∧ l.parens = [] ∧
    l'.parens = [] ∧ l'.indents = l.indents ∧ l'.buf.index = l.buf.index + 0 ∧
    (cs! "a\nb").drop l.buf.index = '\n' :: cs! "b" ∧
    (cs! "a\r\nxb").drop l'.buf.index = '\r' :: '\n' :: (cs! "x" ++ cs! "b") :=
  letI := asciiUni
  ⟨_, _, ⟨_, _, .new, rfl, by decide, by decide⟩, ⟨_, _, .new, rfl, by decide, by decide⟩,
    rfl, rfl, rfl, rfl, rfl, rfl⟩

/-- C16: in a line continuation, `\r\n` is as good as `\n`. -/
theorem C16_continuation [Uni] (src src' : List Char) (l l' : Lexer) (d : Nat) (b : List Char)
    (h : MidLine src l) (h' : MidLine src' l') (hpar : l'.parens = l.parens)
    (hind : l'.indents = l.indents) (hpos : l'.buf.index = l.buf.index + d)
    (hsrc : src.drop l.buf.index = '\\' :: '\n' :: b)
    (hsrc' : src'.drop l'.buf.index = '\\' :: '\r' :: '\n' :: b) :
    (∀ t m, getSymbol l = .ok t m → ∃ t' m', getSymbol l' = .ok t' m' ∧ t'.kind = t.kind ∧
      (∀ w, Spells t w ↔ Spells t' w) ∧ SameAhead (d + 1) m m') ∧
    (∀ e m, getSymbol l = .err e m → ∃ m', getSymbol l' = .err (e.shift (d + 1)) m' ∧
      SameAhead (d + 1) m m') := by
  obtain ⟨hi, hb, hp⟩ := h.state
  obtain ⟨hi', hb', hp'⟩ := h'.state
  have hrest : l.rest = '\\' :: '\n' :: b := by rw [hi.rest_eq]; exact hsrc
  have hrest' : l'.rest = '\\' :: '\r' :: '\n' :: b := by rw [hi'.rest_eq]; exact hsrc'
  have e1 := getSymbol_skip hi hb hp (.contLF (by rw [hrest]; rfl) (by rw [hrest]; rfl))
  have e2 := getSymbol_skip hi' hb' hp'
    (.cont3 (by rw [hrest']; rfl) (by rw [hrest']; rfl) (by rw [hrest']; rfl))
  have hle : l.pos + 2 ≤ src.length + 1 := by
    have : l.rest.length = src.length - l.pos := by rw [rest_length_add, hi.chars]
    rw [hrest] at this; simp at this; omega
  have hle' : l'.pos + 3 ≤ src'.length + 1 := by
    have : l'.rest.length = src'.length - l'.pos := by rw [rest_length_add, hi'.chars]
    rw [hrest'] at this; simp at this; omega
  have hsame : SameAhead (d + 1) (l.fwd 2) (l'.fwd 3) := by
    refine ⟨?_, ?_, hpar, by simp [hb, hb'], by simp [hi.tab, hi'.tab], by simp [hi.inter, hi'.inter],
      by simp [hp, hp'], hind⟩
    · show l'.buf.index + 3 = l.buf.index + 2 + (d + 1)
      omega
    · show (l'.fwd 3).rest = (l.fwd 2).rest
      rw [rest_fwd, rest_fwd, hrest, hrest']; rfl
  have hres := getSymbol_shift (hi.fwd hle) (hi'.fwd hle') hsame
  generalize getSymbol (l.fwd 2) = r1 at e1 hres
  generalize getSymbol (l'.fwd 3) = r2 at e2 hres
  cases hres with
  | ok hh =>
    rw [e1, e2]
    refine ⟨?_, ?_⟩
    · intro t m ht
      simp only [LexRes.addFirst, LexRes.ok.injEq] at ht
      obtain ⟨rfl, rfl⟩ := ht
      refine ⟨_, _, rfl, ?_, ?_, hh⟩
      · rename_i t _ _; cases t <;> rfl
      · rename_i t _ _
        intro w
        constructor
        · intro hw; cases t <;> cases hw <;> first | exact .op ‹_› | exact .kw ‹_› | (constructor; done) | (constructor; assumption)
        · intro hw; cases t <;> cases hw <;> first | exact .op ‹_› | exact .kw ‹_› | (constructor; done) | (constructor; assumption)
    · intro e m ht; simp [LexRes.addFirst] at ht
  | err hh =>
    rw [e1, e2]
    refine ⟨?_, ?_⟩
    · intro t m ht; simp [LexRes.addFirst] at ht
    · intro e m ht
      simp only [LexRes.addFirst, LexRes.err.injEq] at ht
      obtain ⟨rfl, rfl⟩ := ht
      exact ⟨_, rfl, hh⟩

example : ∃ l l', @MidLine asciiUni (cs! "a\\\n+b") l ∧ @MidLine asciiUni (cs! "a\\\r\n+b") l' ∧
    l'.parens = l.parens ∧ l'.indents = l.indents ∧ l'.buf.index = l.buf.index + 0 ∧
    (cs! "a\\\n+b").drop l.buf.index = '\\' :: '\n' :: cs! "+b" ∧
    (cs! "a\\\r\n+b").drop l'.buf.index = '\\' :: '\r' :: '\n' :: cs! "+b" :=
  letI := asciiUni
  ⟨_, _, ⟨_, _, .new, rfl, by decide, by decide⟩, ⟨_, _, .new, rfl, by decide, by decide⟩,
    rfl, rfl, rfl, rfl, rfl⟩

/-- C16, negation: with `\n` the text has the tokens `a`, Newline, `b`, EOF; with `\r\n` the name `b` is
missing. -/
theorem C16_crlf_differs :
    letI := asciiUni
    (∃ l4, Tokens (Lexer.new (cs! "a\nb")) [.name 0 1 none (cs! "a"), .newline 1 2 none '\n' ' ',
      .name 2 3 none (cs! "b"), .eof 3 none] l4) ∧
    (∃ l3, Tokens (Lexer.new (cs! "a\r\nb")) [.name 0 1 none (cs! "a"), .newline 1 4 none '\r' '\n',
      .eof 4 none] l3) :=
  letI := asciiUni
  ⟨⟨_, .cons rfl (.cons rfl (.cons rfl (.cons rfl .nil)))⟩, ⟨_, .cons rfl (.cons rfl (.cons rfl .nil))⟩⟩

end Verif
