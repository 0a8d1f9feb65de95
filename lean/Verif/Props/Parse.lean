import Verif.Proof.ReadsStmt
import Verif.Props.LexRun
import Verif.Proof.LexAt
import Verif.Spec.Outcome

/-!
# Parser: the whole input is used and every token is kept (C22, C24, C32)

`run n f c` runs the parse function `f` in the parser state `c`, with recursion depth at most `n`; the
theorems hold for every `n`.  `Consumed`, `Reads` and `Tree.tokens` are in `Spec/Parse.lean`.
-/

namespace Verif
set_option linter.unusedVariables false

/-! ### Tokens of a tree -/

theorem tokensList_append (a b : List Tree) : tokensList (a ++ b) = tokensList a ++ tokensList b := by
  induction a with
  | nil => simp [tokensList]
  | cons x l ih => simp [tokensList, ih]

theorem tokensList_perm {a b : List Tree} (h : a.Perm b) : (tokensList a).Perm (tokensList b) := by
  induction h with
  | nil => exact .refl _
  | cons x _ ih => simp only [tokensList]; exact ih.append_left _
  | swap x y l => simp only [tokensList, ← List.append_assoc]; exact (List.perm_append_comm).append_right _
  | trans _ _ h1 h2 => exact h1.trans h2

theorem tokensList_present (l : List Tree) : tokensList (present l) = tokensList l := by
  induction l with
  | nil => rfl
  | cons x l ih => cases x <;> simp_all [present, tokensList, Tree.tokens]

theorem tokensList_reverse (l : List Tree) : (tokensList l.reverse).Perm (tokensList l) :=
  tokensList_perm (List.reverse_perm l)

theorem alternate_perm : ∀ a b : List Tree, (alternate a b).Perm (a ++ b)
  | x :: xs, s :: ss => by
    rw [alternate]
    refine List.Perm.cons _ (((alternate_perm xs ss).cons s).trans ?_)
    exact List.perm_middle.symm
  | [], [] => by simp [alternate]
  | x :: xs, [] => by simp [alternate]
  | [], s :: ss => by simp [alternate]

theorem arrange_tokens {tag fs fs'} (h : arrange tag fs = some fs') :
    (tokensList fs').Perm (tokensList fs) := by
  have alt (a b : List Tree) : (tokensList (alternate a b)).Perm (tokensList a ++ tokensList b) := by
    rw [← tokensList_append]; exact tokensList_perm (alternate_perm a b)
  have altr (a b : List Tree) : (tokensList (alternate a.reverse b.reverse)).Perm (tokensList a ++ tokensList b) :=
    (alt _ _).trans ((tokensList_reverse a).append (tokensList_reverse b))
  unfold arrange at h
  split at h <;> simp only [Option.some.injEq, reduceCtorEq] at h <;> subst h <;>
    try simp only [tokensList, tokensList_append, Tree.tokens, List.append_nil, List.cons_append]
  all_goals first
    | exact .refl _
    | exact alt _ _
    | exact altr _ _
    | exact tokensList_reverse _
    | skip
  all_goals
    repeat first
      | exact .refl _
      | exact altr _ _
      | exact tokensList_reverse _
      | apply List.Perm.append_left
      | (rw [← List.append_assoc (tokensList _) (tokensList _)]; apply List.Perm.append (altr _ _))
      | apply List.Perm.append (tokensList_reverse _)

/-- Read in source order or as stored, a tree holds the same tokens, each the same number of times. -/
theorem Reads.perm {l ts} (h : Reads l ts) : (tokensList l).Perm ts := by
  induction h with
  | nil => exact .refl _
  | none _ ih => simpa [tokensList, Tree.tokens] using ih
  | tok _ ih => simpa [tokensList, Tree.tokens] using ih
  | seq _ ih => simpa [tokensList, Tree.tokens, tokensList_append] using ih
  | node h _ ih =>
    rw [tokensList_append] at ih
    simp only [tokensList, Tree.tokens]
    exact ((arrange_tokens h).symm.append_right _).trans ih
  | @loose tag s e fs fs' l ts h hi _ ih =>
    rw [tokensList_append] at ih
    simp only [tokensList, Tree.tokens]
    refine List.Perm.trans (List.Perm.append_right _ ?_) ih
    unfold Interleaves at hi
    split at hi
    · rename_i ns ss rest fs'
      refine (((tokensList_perm hi.1).trans ?_)).symm
      rw [tokensList_present]
      simp [tokensList, Tree.tokens, tokensList_append]
    · exact hi.elim

/-! ### C24 -/

/-- C24: when a parse function other than the input rules and decorators succeeds, the tokens it
consumed, in source order, are exactly the tokens of the tree read from left to right; so the tree
holds each of them once and no other token. -/
theorem C24_tree_holds_consumed_tokens [Uni] (n : Nat) (f : Fn) (c c' : PSt) (t : Tree) (hf : f ∈ ruleFns)
    (h : run n f c = .ok t c') : ∃ ts, Consumed c ts c' ∧ Reads [t] ts ∧ t.tokens.Perm ts := by
  have key : ∃ ts, Consumed c ts c' ∧ Reads [t] ts := by
    have hr := run_reads h
    simp only [ruleFns, List.mem_cons, List.not_mem_nil, or_false] at hf
    repeat' (first | exact hr | exact hr.1 | (rcases hf with rfl | hf))
  obtain ⟨ts, h1, h2⟩ := key
  exact ⟨ts, h1, h2, by simpa [tokensList] using h2.perm⟩

/-- A rule succeeds: `not a < (b)` before `c` is read up to the closing bracket. -/
example : Fn.test ∈ ruleFns ∧ ∃ t c', @run asciiUni 40 .test (@started asciiUni (cs! "not a < (b) c")) = .ok t c' ∧
    t.tokens.map Token.kind = [.PyNot, .AtomName, .PyLess, .PyLeftParen, .AtomName, .PyRightParen] :=
  ⟨by simp [ruleFns], Res.shows (by decide +kernel)⟩

/-- C24 for the input rules that run to the end of the text: the tree holds the tokens consumed and,
at the end, the `EOF` token (which stays the current symbol). -/
theorem C24_input_tokens [Uni] (n : Nat) (f : Fn) (c c' : PSt) (t : Tree)
    (hf : f = .evalInput ∨ f = .fileInput ∨ f = .funcTypeInput) (h : run n f c = .ok t c') :
    ∃ ts u, Consumed c.advance ts c' ∧ c'.symbol = .ok u ∧ u.kind = .EOF ∧ Reads [t] (ts ++ [u]) ∧
      t.tokens.Perm (ts ++ [u]) := by
  have hr := run_reads h
  have : RdPeek .EOF c.advance t c' := by rcases hf with rfl | rfl | rfl <;> exact hr
  obtain ⟨ts, u, h1, h2, h3, h4⟩ := this
  exact ⟨ts, u, h1, h2, h3, h4, by simpa [tokensList] using h4.perm⟩

example : ∃ t c', @run asciiUni 40 .evalInput (PSt.new (Lexer.new (cs! "a, b\n\n"))) = .ok t c' ∧
    t.tokens.map Token.kind = [.AtomName, .AtomName, .PyComa, .Newline, .EOF] := Res.shows (by decide +kernel)

/-- C24 for interactive input: as above, except that after a compound statement the `Newline` token is
stored without being consumed. -/
theorem C24_single_input_tokens [Uni] (n : Nat) (c c' : PSt) (t : Tree) (h : run n .singleInput c = .ok t c') :
    (∃ ts, Consumed c.advance ts c' ∧ Reads [t] ts ∧ t.tokens.Perm ts) ∨
    ∃ ts u, Consumed c.advance ts c' ∧ c'.symbol = .ok u ∧ u.kind = .Newline ∧ Reads [t] (ts ++ [u]) ∧
      t.tokens.Perm (ts ++ [u]) := by
  rcases run_reads h with ⟨ts, h1, h2⟩ | ⟨ts, u, h1, h2, h3, h4⟩
  · exact .inl ⟨ts, h1, h2, by simpa [tokensList] using h2.perm⟩
  · exact .inr ⟨ts, u, h1, h2, h3, h4, by simpa [tokensList] using h4.perm⟩

example : ∃ t c', @run asciiUni 40 .singleInput (PSt.new (Lexer.new (cs! "a; b\nc"))) = .ok t c' ∧
    t.tokens.length = 4 := Res.shows (by decide +kernel)

/-- C24 for decorators: the `Newline` token at the end is stored without being consumed. -/
theorem C24_decorator_tokens [Uni] (n : Nat) (f : Fn) (c c' : PSt) (t : Tree)
    (hf : f = .decorator ∨ f = .decorators) (h : run n f c = .ok t c') :
    ∃ ts u, Consumed c ts c' ∧ c'.symbol = .ok u ∧ u.kind = .Newline ∧ Reads [t] (ts ++ [u]) ∧
      t.tokens.Perm (ts ++ [u]) := by
  have hr := run_reads h
  have : RdPeek .Newline c t c' := by rcases hf with rfl | rfl <;> exact hr
  obtain ⟨ts, u, h1, h2, h3, h4⟩ := this
  exact ⟨ts, u, h1, h2, h3, h4, by simpa [tokensList] using h4.perm⟩

example : ∃ t c', @run asciiUni 40 .decorator (@started asciiUni (cs! "@a.b(c)\n")) = .ok t c' ∧
    t.tokens.length = 8 := Res.shows (by decide +kernel)

/-! ### C22 -/

section
variable [Uni]
theorem advance_ok {c : PSt} {t} (h : c.advance.symbol = .ok t) : getSymbol c.lex = .ok t c.advance.lex := by
  unfold PSt.advance at h ⊢
  cases hg : getSymbol c.lex with
  | ok u l => rw [hg] at h; simp at h; simp [h]
  | err e l => rw [hg] at h; simp at h

theorem Consumed.tokens {d ts c' u} (h : Consumed d ts c') : ∀ {c : PSt}, d.lex = c.advance.lex →
    d.symbol = c.advance.symbol → c'.symbol = .ok u → Tokens c.lex (ts ++ [u]) c'.lex := by
  induction h with
  | done e1 e2 =>
    intro c h1 h2 hu
    rw [e1, h1]
    exact .cons (advance_ok (by rw [← h2, ← e2]; exact hu)) .nil
  | step hs _ ih =>
    intro c h1 h2 hu
    refine .cons (advance_ok (h2 ▸ hs)) ?_
    rw [← h1]
    exact ih rfl rfl hu
end

theorem Tokens.snoc [Uni] {l ts u l'} (h : Tokens l (ts ++ [u]) l') :
    ∃ l1, Tokens l ts l1 ∧ getSymbol l1 = .ok u l' := by
  induction ts generalizing l with
  | nil =>
    cases h with
    | cons h1 h2 => cases h2; exact ⟨l, .nil, h1⟩
  | cons t ts ih =>
    cases h with
    | cons h1 h2 =>
      obtain ⟨l1, h3, h4⟩ := ih h2
      exact ⟨l1, .cons h1 h3, h4⟩

/-- C22: if an input rule that runs to the end of the text succeeds on a new parser, then the
`get_symbol` calls from the start of the text returned tokens, without any error, up to an `EOF` token;
the tree holds exactly these tokens; and the tokenizer stands at the end of the text (or at a NUL
character, which the tokenizer takes for the end). -/
theorem C22_whole_input_used [Uni] (n : Nat) (f : Fn) (src : List Char) (c' : PSt) (t : Tree)
    (hf : f = .evalInput ∨ f = .fileInput ∨ f = .funcTypeInput)
    (h : run n f (PSt.new (Lexer.new src)) = .ok t c') :
    ∃ ts u, Tokens (Lexer.new src) (ts ++ [u]) c'.lex ∧ u.kind = .EOF ∧ Reads [t] (ts ++ [u]) ∧
      t.tokens.Perm (ts ++ [u]) ∧
      (src.length ≤ c'.lex.buf.index ∨ src[c'.lex.buf.index]? = some '\x00') := by
  obtain ⟨ts, u, h1, h2, h3, h4, h5⟩ := C24_input_tokens n f _ c' t hf h
  have ht : Tokens (Lexer.new src) (ts ++ [u]) c'.lex := h1.tokens (c := PSt.new (Lexer.new src)) rfl rfl h2
  refine ⟨ts, u, ht, h3, h4, h5, ?_⟩
  obtain ⟨l1, h6, h7⟩ := ht.snoc
  have f := ok_facts (h6.reach .new).inv h7
  have := (f.atEof h3).1
  rw [f.inv.rest_eq] at this
  by_cases hl : src.length ≤ c'.lex.pos
  · exact .inl hl
  · right
    show src[c'.lex.pos]? = some '\x00'
    rw [List.drop_eq_getElem_cons (by omega)] at this
    rw [List.getElem?_eq_getElem (by omega)]
    exact congrArg some this

/-- File input succeeds on `a = b; c⏎`. -/
example : ∃ t c', @run asciiUni 40 .fileInput (PSt.new (Lexer.new (cs! "a = b; c\n"))) = .ok t c' ∧
    t.tokens.length = 7 := Res.shows (by decide +kernel)

/-! ### C32 -/

theorem Tokens.det [Uni] {l ts l'} (h : Tokens l ts l') : ∀ {us l''}, Tokens l us l'' → ts.length ≤ us.length →
    ts <+: us := by
  induction h with
  | nil => intros; exact List.nil_prefix
  | cons h1 _ ih =>
    intro us l'' h2 hl
    cases h2 with
    | nil => simp at hl
    | cons h3 h4 =>
      rw [h1] at h3
      injection h3 with a b
      subst a b
      exact List.prefix_cons_inj _ |>.2 (ih h4 (by simpa using hl))

/-- After an `EOF` token there are only `EOF` tokens. -/
theorem Tokens.eof_last [Uni] {src l ts l'} (hl : Inv src l) (h : Tokens l ts l') (hk : ∃ t ∈ ts, t.kind = .EOF) :
    ∃ p tr, getSymbol l' = .ok (.eof p tr) l' := by
  induction h with
  | nil => obtain ⟨t, h, _⟩ := hk; simp at h
  | @cons l t l1 ts l2 h1 h2 ih =>
    have f := ok_facts hl h1
    obtain ⟨u, hu, hk⟩ := hk
    rcases List.mem_cons.1 hu with rfl | hu
    · obtain ⟨a, b, c, d⟩ := f.atEof hk
      have hs := getSymbol_atEof f.inv a b c d
      clear ih f a b c d h1 hl hu
      induction h2 with
      | nil => exact ⟨_, _, hs⟩
      | cons h3 _ ih => rw [hs] at h3; injection h3 with x y; subst y; exact ih hs
    · exact ih f.inv ⟨u, hu, hk⟩

/-- C32: if the tokenizer reports an error on a text, after any number of tokens, then the input rules
that run to the end of the text never return a tree. -/
theorem C32_lexical_error_fails [Uni] (n : Nat) (f : Fn) (src : List Char) (ts : List Token) (l l' : Lexer) (e : LexErr)
    (hf : f = .evalInput ∨ f = .fileInput ∨ f = .funcTypeInput)
    (ht : Tokens (Lexer.new src) ts l) (he : getSymbol l = .err e l') (t : Tree) (c' : PSt) :
    run n f (PSt.new (Lexer.new src)) ≠ .ok t c' := by
  intro h
  obtain ⟨us, u, h1, h2, _⟩ := C22_whole_input_used n f src c' t hf h
  rcases Nat.lt_or_ge ts.length (us ++ [u]).length with hlt | hle
  · have key : ∀ {l0 ts l vs lv}, Tokens l0 ts l → Tokens l0 vs lv → ts.length < vs.length →
        ∃ v l1, getSymbol l = .ok v l1 := by
      intro l0 ts l vs lv hts
      induction hts generalizing vs with
      | nil =>
        intro h2 hl
        cases h2 with
        | nil => simp at hl
        | cons h3 h4 => exact ⟨_, _, h3⟩
      | cons h1 _ ih =>
        intro h2 hl
        cases h2 with
        | nil => simp at hl
        | cons h3 h4 =>
          rw [h1] at h3
          injection h3 with a b
          subst a b
          exact ih h4 (by simpa using hl)
    obtain ⟨v, l1, hv⟩ := key ht h1 hlt
    rw [he] at hv; cases hv
  · obtain ⟨vs, hv⟩ := h1.det ht hle
    obtain ⟨p, tr, hx⟩ := ht.eof_last (Inv.new src) ⟨u, by rw [← hv]; simp, h2⟩
    rw [he] at hx; cases hx

/-- A text with an error after two tokens: `a + ?`. -/
example : ∃ ts l e l', @Tokens asciiUni (Lexer.new (cs! "a + ?")) ts l ∧ ts.length = 2 ∧
    @getSymbol asciiUni l = .err e l' :=
  letI := asciiUni
  ⟨_, _, _, _, .cons rfl (.cons rfl .nil), rfl, rfl⟩

end Verif
