import Verif.Proof.LexFacts

/-!
# Tokenizer: termination, progress, positions, brackets, layout (C01-C05, C08-C10)

`Reach src l` (in `Spec/Stream.lean`) says that `l` is a state of a tokenizer created on `src`
after any number of `get_symbol` calls, successful or not.  Every theorem is for every instance of
the Unicode tables (`[Uni]`).
-/

namespace Verif

/-! ### C01 -/

/-- C01: every call returns a token or one of the source's error messages; no loop is cut off. -/
theorem C01_get_symbol_returns [Uni] (src : List Char) (l : Lexer) (h : Reach src l) :
    (∃ t l', getSymbol l = .ok t l') ∨ (∃ e l', getSymbol l = .err e l' ∧ e ≠ .fuel) := by
  cases hr : getSymbol l with
  | ok t l' => exact .inl ⟨t, l', rfl⟩
  | err e l' =>
    refine .inr ⟨e, l', rfl, ?_⟩
    have := (err_facts h.inv hr).kind
    rintro rfl
    rcases this with h | ⟨p, h⟩
    · simp [LexErr.isArm] at h
    · simp at h

/-! ### C02 -/

theorem Returned.inv [Uni] {src l ts l'} (hl : Inv src l) (h : Returned l ts l') : Inv src l' := by
  induction h with
  | nil => exact hl
  | ok he _ ih => exact ih (ok_facts hl he).inv
  | err he _ ih => exact ih (err_facts hl he).inv

theorem Tokens.returned [Uni] {l ts l'} (h : Tokens l ts l') : Returned l ts l' := by
  induction h with
  | nil => exact .nil
  | cons he _ ih => exact .ok he ih

theorem Tokens.reach [Uni] {src l ts l'} (hl : Reach src l) (h : Tokens l ts l') : Reach src l' := by
  induction h with
  | nil => exact hl
  | cons he _ ih => exact ih (hl.ok he)

theorem tokens_todo [Uni] {src l ts l'} (hl : Inv src l) (h : Tokens l ts l')
    (hn : ∀ t ∈ ts, t.kind ≠ .EOF) : l'.todo + ts.length ≤ l.todo := by
  induction h with
  | nil => simp
  | cons he _ ih =>
    have f := ok_facts hl he
    have h1 := ih f.inv (fun t ht => hn t (by simp [ht]))
    have h2 := f.less (hn _ (by simp))
    simp only [List.length_cons]; omega

/-- C02: from the start of a text of `n` characters at most `2 n` calls return a token other than
`EOF`; so call number `2 n + 1` at the latest returns `EOF` or an error. -/
theorem C02_stream_ends [Uni] (src : List Char) (ts : List Token) (l' : Lexer)
    (h : Tokens (Lexer.new src) ts l') (hn : ∀ t ∈ ts, t.kind ≠ .EOF) :
    ts.length ≤ 2 * src.length := by
  have := tokens_todo (Inv.new src) h hn
  have h0 : (Lexer.new src).todo = 2 * src.length := by
    simp [Lexer.todo, Lexer.new, Source.new, Lexer.pos]
  omega

/-- C02, as the client's loop: reading until `EOF` or an error needs at most `2 n + 1` calls. -/
theorem C02_loop_stops [Uni] (src : List Char) : ∃ ts l' , Tokens (Lexer.new src) ts l' ∧
    ts.length ≤ 2 * src.length ∧
    ((∃ p tr l'', getSymbol l' = .ok (.eof p tr) l'') ∨ ∃ e l'', getSymbol l' = .err e l'') := by
  have key : ∀ n l, Inv src l → l.todo ≤ n → ∃ ts l', Tokens l ts l' ∧ ts.length ≤ n ∧
      ((∃ p tr l'', getSymbol l' = .ok (.eof p tr) l'') ∨ ∃ e l'', getSymbol l' = .err e l'') := by
    intro n
    induction n with
    | zero =>
      intro l hl hn
      refine ⟨[], l, .nil, by simp, ?_⟩
      cases hr : getSymbol l with
      | err e l'' => exact .inr ⟨e, l'', rfl⟩
      | ok t l'' =>
        left
        by_cases hk : t.kind = .EOF
        · obtain ⟨tr, rfl⟩ := eof_of_kind hl hr hk; exact ⟨_, tr, l'', rfl⟩
        · have := (ok_facts hl hr).less hk; omega
    | succ n ih =>
      intro l hl hn
      cases hr : getSymbol l with
      | err e l'' => exact ⟨[], l, .nil, by simp, .inr ⟨e, l'', hr⟩⟩
      | ok t l1 =>
        have f := ok_facts hl hr
        by_cases hk : t.kind = .EOF
        · obtain ⟨tr, rfl⟩ := eof_of_kind hl hr hk
          exact ⟨[], l, .nil, by simp, .inl ⟨_, tr, l1, hr⟩⟩
        · have := f.less hk
          obtain ⟨ts, l', h1, h2, h3⟩ := ih l1 f.inv (by omega)
          exact ⟨t :: ts, l', .cons hr h1, by simp; omega, h3⟩
  obtain ⟨ts, l', h1, h2, h3⟩ := key (2 * src.length) (Lexer.new src) (Inv.new src) (by
    simp [Lexer.todo, Lexer.new, Source.new, Lexer.pos])
  exact ⟨ts, l', h1, h2, h3⟩

/-- The bound of C02 is reached by texts with indentation: `a⏎ b⏎` without the last line end. -/
example : ∃ ts l', @Tokens asciiUni (Lexer.new (cs! "a\n b")) ts l' ∧ ts.length = 4 ∧
    ∀ t ∈ ts, t.kind ≠ .EOF :=
  letI := asciiUni
  ⟨_, _, .cons rfl (.cons rfl (.cons rfl (.cons rfl .nil))), rfl, by decide⟩

/-! ### C03 -/

/-- C03: after `EOF` every further call returns `EOF` at the same position without trivia, and the
tokenizer does not change at all. -/
theorem C03_eof_sticky [Uni] (src : List Char) (l l' : Lexer) (p : Nat) (tr : Trivs)
    (h : Reach src l) (he : getSymbol l = .ok (.eof p tr) l') (k : Nat) :
    callTimes k l' = l' ∧ getSymbol (callTimes k l') = .ok (.eof p none) l' := by
  have f := ok_facts h.inv he
  obtain ⟨h1, h2, h3, h4⟩ := f.atEof rfl
  have hsame := getSymbol_atEof f.inv h1 h2 h3 h4
  have hp : p = l'.pos := by
    have := f.span
    simp [Token.span?, Token.kind] at this
    exact this.2
  have hk : callTimes k l' = l' := by
    induction k with
    | zero => rfl
    | succ k ih => rw [callTimes, hsame]; exact ih
  rw [hk, hp]
  exact ⟨rfl, hsame⟩

/-- `EOF` is reached: after `x ` the first call returns the name and the second one `EOF` with
trivia. -/
example : ∃ l l' tr, @Reach asciiUni (cs! "x ") l ∧ tr ≠ none ∧
    @getSymbol asciiUni l = .ok (.eof 2 tr) l' :=
  letI := asciiUni
  ⟨_, _, _, .ok .new rfl, by decide, rfl⟩

/-! ### C04 -/

/-- C04: every counter of the tokenizer is bounded by the length of the text: the read position by
`n + 1`, recorded columns by `4 n`, the depth of the indentation stack by `n + 1`, the number of
pending `Indent` tokens by one and of pending `Dedent` tokens by `n`. -/
theorem C04_counters_bounded [Uni] (src : List Char) (l : Lexer) (h : Reach src l) :
    l.buf.index ≤ src.length + 1 ∧ l.tokStart ≤ src.length + 1 ∧
    (∀ col ∈ l.indents, col ≤ 4 * src.length) ∧ l.indents.length ≤ src.length + 1 ∧
    - (src.length : Int) ≤ l.pending ∧ l.pending ≤ 1 := by
  have i := h.inv
  have h1 := i.pos
  have h2 := i.start
  refine ⟨h1, Nat.le_trans h2 h1, i.cols, i.depth, ?_, i.pendHi.1⟩
  have := i.pendLo
  have := i.ind.length_pos
  omega

/-- C04: the column measured at the start of a line (the local `col` of `get_symbol`). -/
theorem C04_column_bounded [Uni] (src : List Char) (l l' : Lexer) (h : Reach src l) (n col : Nat)
    (hc : colLoop 0 n l = .ok col l') : col ≤ 4 * src.length := by
  have i := h.inv
  have key : ∀ n c l col l', l.tabSize = 4 → colLoop c n l = .ok col l' →
      col ≤ c + 4 * l.rest.length := by
    intro n
    induction n with
    | zero => intro c l col l' _ h; simp [colLoop] at h
    | succ n ih =>
      intro c l col l' ht h
      have hlen : ∀ a, hd l.rest = a → a ≠ '\x00' → (l.fwd 1).rest.length + 1 = l.rest.length := by
        intro a ha hne
        have := lt_of_hd_ne (cs := l.rest) (k := 0) (by simpa [ha] using hne)
        simp; omega
      simp only [colLoop, lexm_bind, curChar_apply, lexm_ite, adv_apply, lexm_get, lexm_pure] at h
      split at h
      · rename_i hs
        have := ih _ _ _ _ (by simpa using ht) h
        have := hlen _ hs (by decide)
        omega
      · split at h
        · rename_i hs
          have := ih _ _ _ _ (by simpa using ht) h
          have := hlen _ hs (by decide)
          rw [ht] at *; omega
        · injection h with h1 _; omega
  have := key n 0 l col l' i.tab hc
  have := rest_length_add l
  rw [i.chars] at this
  omega

/-- C04: on texts shorter than `2^30` characters no counter exceeds the 32 bit types of the
source: `u32` positions (`peek_three_chars` looks two past the position) and columns (including
the next tab stop), `i32` pending count. -/
theorem C04_no_overflow [Uni] (src : List Char) (l : Lexer) (h : Reach src l)
    (hlen : src.length < 2 ^ 30 - 1) :
    l.buf.index + 3 < 2 ^ 32 ∧ (∀ col ∈ l.indents, (col / 4 + 1) * 4 < 2 ^ 32) ∧
    - 2 ^ 31 < l.pending ∧ l.pending + 1 < 2 ^ 31 := by
  obtain ⟨h1, _, h3, _, h5, h6⟩ := C04_counters_bounded src l h
  refine ⟨by omega, fun c hc => ?_, by omega, by omega⟩
  have := h3 c hc
  omega

/-- The bounds of C04 are met by a real state: one past the end after `0`, and an indentation
stack of depth two at column 4 after a tab. -/
example : ∃ l, @Reach asciiUni (cs! "0") l ∧ l.buf.index = 2 :=
  letI := asciiUni
  ⟨_, .ok .new rfl, rfl⟩
example : ∃ l, @Reach asciiUni (cs! "\ta") l ∧ l.indents = [4, 0] :=
  letI := asciiUni
  ⟨_, .ok .new rfl, rfl⟩

/-! ### C05 -/

/-- C05: a token that has a span starts at `get_position()` and is not empty, except `EOF`, whose
span is one position. -/
theorem C05_span_of_token [Uni] (src : List Char) (l l' : Lexer) (t : Token) (s e : Nat)
    (h : Reach src l) (he : getSymbol l = .ok t l') (hs : t.span? = some (s, e)) :
    getPosition l' = .ok s l' ∧ (t.kind ≠ .EOF → s < e) ∧ (t.kind = .EOF → s = e) ∧
      e ≤ src.length + 1 := by
  have f := ok_facts h.inv he
  have hsp := f.span
  rw [hs] at hsp
  split at hsp
  · simp at hsp
  · rename_i hk
    simp only [not_or] at hk
    simp only [Option.some.injEq, Prod.mk.injEq] at hsp
    obtain ⟨rfl, rfl⟩ := hsp
    exact ⟨rfl, fun h3 => f.nonempty hk.1 hk.2 h3, fun h3 => (f.atEof h3).2.2.2, f.inv.pos⟩

/-- C05: `get_position()` never decreases, neither on success nor on error. -/
theorem C05_position_monotone [Uni] (src : List Char) (l : Lexer) (h : Reach src l) :
    l.tokStart ≤ (getSymbol l).lexer.tokStart := by
  have i := h.inv
  cases hr : getSymbol l with
  | ok t l' => exact Nat.le_trans i.start (ok_facts i hr).startGe
  | err e l' => exact Nat.le_trans i.start (err_facts i hr).startGe

theorem returned_start [Uni] {src l ts l'} (hl : Inv src l) (h : Returned l ts l') :
    ∀ t ∈ ts, ∀ s e, t.span? = some (s, e) → l.pos ≤ s := by
  induction h with
  | nil => simp
  | @ok l t l1 ts l2 he hr ih =>
    have f := ok_facts hl he
    intro t' ht s e hs
    simp at ht
    rcases ht with rfl | ht
    · have hsp := f.span
      rw [hs] at hsp
      split at hsp
      · simp at hsp
      · simp only [Option.some.injEq, Prod.mk.injEq] at hsp
        rw [hsp.1]; exact f.startGe
    · have := ih f.inv t' ht s e hs
      have h1 := f.startGe
      have h2 := f.inv.start
      omega
  | err he _ ih =>
    have f := err_facts hl he
    intro t' ht s e hs
    have := ih f.inv t' ht s e hs
    have h1 := f.startGe
    have h2 := f.inv.start
    omega

theorem returned_ordered [Uni] {src l ts l'} (hl : Inv src l) (h : Returned l ts l') :
    ts.Pairwise fun a b => ∀ s1 e1 s2 e2, a.span? = some (s1, e1) → b.span? = some (s2, e2) →
      e1 ≤ s2 := by
  induction h with
  | nil => exact .nil
  | err he _ ih => exact ih (err_facts hl he).inv
  | @ok l t l1 ts l2 he hr ih =>
    have f := ok_facts hl he
    refine .cons ?_ (ih f.inv)
    intro b hb s1 e1 s2 e2 h1 h2
    have h3 := returned_start f.inv hr b hb s2 e2 h2
    have hsp := f.span
    rw [h1] at hsp
    split at hsp
    · simp at hsp
    · simp only [Option.some.injEq, Prod.mk.injEq] at hsp
      omega

/-- C05: tokens do not overlap and come in source order, over the whole history of calls (also
across errors): every token starts at or after the end of every token returned before it. -/
theorem C05_spans_ordered [Uni] (src : List Char) (ts : List Token) (l' : Lexer)
    (h : Returned (Lexer.new src) ts l') :
    ts.Pairwise fun a b => ∀ s1 e1 s2 e2, a.span? = some (s1, e1) → b.span? = some (s2, e2) →
      e1 ≤ s2 := returned_ordered (Inv.new src) h

/-- A history with an error in it: `a` and `b` around a stray bracket. -/
example : ∃ l', @Returned asciiUni (Lexer.new (cs! "a ) b"))
    [.name 0 1 none (cs! "a"), .name 4 5 (some [.whiteSpace 3 4 ' ']) (cs! "b")] l' :=
  letI := asciiUni
  ⟨_, .ok rfl (.err rfl (.ok rfl .nil))⟩

/-! ### C08, C09: brackets -/

theorem returned_brackets [Uni] {src l ts l'} (hl : Inv src l) (h : Returned l ts l') :
    brRun l.parens ts = some l'.parens := by
  induction h with
  | nil => rfl
  | ok he _ ih =>
    have f := ok_facts hl he
    simp only [brRun, f.brackets]
    exact ih f.inv
  | err he _ ih =>
    have f := err_facts hl he
    rw [← f.brackets]
    exact ih f.inv

/-- C08: the bracket tokens returned so far (in any history of calls, also across errors) are a
prefix of a properly nested sequence: matching them never fails. -/
theorem C08_brackets_nested [Uni] (src : List Char) (ts : List Token) (l' : Lexer)
    (h : Returned (Lexer.new src) ts l') : ∃ st, brRun [] ts = some st :=
  ⟨_, returned_brackets (Inv.new src) h⟩

/-- C09: while a bracket is open no `Newline`, `Indent` or `Dedent` is returned. -/
theorem C09_no_layout_in_brackets [Uni] (src : List Char) (ts : List Token) (l l' : Lexer)
    (t : Token) (c : Char) (st : List Char) (h : Returned (Lexer.new src) ts l)
    (hopen : brRun [] ts = some (c :: st)) (he : getSymbol l = .ok t l') :
    t.kind ≠ .Newline ∧ t.kind ≠ .Indent ∧ t.kind ≠ .Dedent := by
  have f := ok_facts (h.inv (Inv.new src)) he
  have hp : l.parens = c :: st := by
    have := returned_brackets (Inv.new src) h
    rw [show (Lexer.new src).parens = [] from rfl, hopen] at this
    exact (Option.some.inj this).symm
  refine ⟨?_, ?_, ?_⟩ <;> intro hk <;>
  · have := f.layout (by simp [hk, Kind.isLayout])
    rw [hp] at this; simp at this

/-- A bracket open over a line end and an indented line: `(⏎  a` continues with `a`. -/
example : ∃ l l' t, @Returned asciiUni (Lexer.new (cs! "(\n  a")) [.sym .PyLeftParen 0 1 none] l ∧
    brRun [] [.sym .PyLeftParen 0 1 none] = some [')'] ∧ @getSymbol asciiUni l = .ok t l' ∧
    t = .name 4 5 (some [.newline 1 2 '\r' '\n']) (cs! "a") :=
  letI := asciiUni
  ⟨_, _, _, .ok rfl .nil, rfl, rfl, rfl⟩

/-! ### C10 -/

/-- Number of tokens of a kind. -/
def countKind (k : Kind) (ts : List Token) : Nat := ts.countP fun t => t.kind == k

theorem returned_told [Uni] {src l ts l'} (hl : Inv src l) (h : Returned l ts l') :
    l'.told = l.told + countKind .Indent ts - countKind .Dedent ts := by
  induction h with
  | nil => simp [countKind]
  | err he _ ih =>
    have f := err_facts hl he
    rw [ih f.inv, f.told]
  | @ok l t l1 ts l2 he _ ih =>
    have f := ok_facts hl he
    rw [ih f.inv, f.told]
    simp only [countKind, List.countP_cons]
    cases hk : t.kind <;> simp [Kind.indentDelta] <;> omega

/-- C10: in every history, the number of `Indent` tokens minus the number of `Dedent` tokens is the
number of open levels minus the levels not reported yet (`pending` is negative when `Dedent`s are
still to be reported); it is never negative.  The open levels are strictly increasing columns above
column 0. -/
theorem C10_indent_dedent_balance [Uni] (src : List Char) (ts : List Token) (l : Lexer)
    (h : Returned (Lexer.new src) ts l) :
    (countKind .Indent ts : Int) - countKind .Dedent ts = (l.indents.length - 1 : Int) - l.pending ∧
    countKind .Dedent ts ≤ countKind .Indent ts ∧
    l.indents.Pairwise (· > ·) ∧ l.indents.getLast? = some 0 := by
  have h1 := returned_told (Inv.new src) h
  have i := h.inv (Inv.new src)
  have h0 : (Lexer.new src).told = 0 := by simp [Lexer.told, Lexer.new]
  rw [h0] at h1
  simp only [Lexer.told] at h1
  have := i.pendHi
  exact ⟨by omega, by omega, i.sorted, i.ind⟩

/-- Two levels opened, one closed and one still to be reported: after `a⏎ b⏎  c⏎d` up to the first
`Dedent`. -/
example : ∃ ts l, @Returned asciiUni (Lexer.new (cs! "a\n b\n  c\nd")) ts l ∧
    countKind .Indent ts = 2 ∧ countKind .Dedent ts = 1 ∧ l.pending = -1 ∧ l.indents = [0] :=
  letI := asciiUni
  ⟨_, _, .ok rfl (.ok rfl (.ok rfl (.ok rfl (.ok rfl (.ok rfl (.ok rfl (.ok rfl (.ok rfl .nil)))))))),
    rfl, rfl, rfl, rfl⟩

end Verif
