import Verif.Proof.LGWord
import Verif.Props.Kinds

/-!
# The texts that are accepted (C55)

`Spec/LexGrammar.lean` writes down how symbols follow one another in a text, `Spec/Exact.lean` which sequences of symbols
are sentences.  Both together say which texts the parser accepts.
-/

set_option linter.unusedSimpArgs false

namespace Verif
attribute [-simp] List.drop_one List.tail_drop
open LG

theorem place_eq (l : Lexer) : l.place = ⟨l.bol, l.parens, l.indents, l.pending, l.rest⟩ := rfl

theorem fwd_place (l : Lexer) (k s : Nat) : ((l.fwd k).at s).place = { l.place with text := l.rest.drop k } := by
  rw [place_eq, rest_at, rest_fwd]; rfl

/-- C55: the calls of the tokenizer are the steps of the lexical grammar. -/
theorem C55_next_symbol [Uni] (src : List Char) (l : Lexer) (w : Token) (q : Place) (h : Reach src l) :
    (∃ t l', getSymbol l = .ok t l' ∧ t.bare = w ∧ l'.place = q) ↔ Next l.place w q := by
  have hi := h.inv
  constructor
  · rintro ⟨t, l', hr, rfl, rfl⟩
    have hs := getSymbol_step l hi.inter hi.ind
    rw [hr] at hs
    generalize hx : LexRes.ok t l' = r at hs
    cases hs with
    | dedent hb hp =>
      cases hx
      exact .dedent ((enter_iff hi).2 ⟨_, hb, rfl⟩) hp
    | indent hb hp =>
      cases hx
      exact .indent ((enter_iff hi).2 ⟨_, hb, rfl⟩) hp
    | @newline b l1 ts k m c1 c2 hb hp hbf hpar hrun hend =>
      subst hbf
      cases hx
      have := Next.newline (p := l.place) ((enter_iff hi).2 ⟨_, hb, rfl⟩) hp hpar
        (skips_of_gap (Gap.of_hrun (q := false) hrun)) (endsLine_of hend)
      rw [List.drop_drop] at this
      have e : ((((l1.fwd (k + m)).at (l1.pos + k)).setBol true)).place =
          { l1.place with fresh := true, text := l1.rest.drop (k + m) } := by
        have := fwd_place l1 (k + m) (l1.pos + k)
        rw [place_eq] at this ⊢
        simp only [Place.mk.injEq] at this ⊢
        exact ⟨rfl, this.2⟩
      rw [e]
      exact this
    | @typeComment b l1 ts k hb hp hg hh ht =>
      cases hx
      have := Next.word (p := l.place) ((enter_iff hi).2 ⟨_, hb, rfl⟩) hp (skips_of_gap hg)
        (Word.typeComment (restOfLine_lineText _) ((isTypeComment_iff _).1 ht))
      rw [List.drop_drop] at this
      rw [fwd_place]
      exact this
    | @eof b l1 ts k hb hp hg hh =>
      cases hx
      have := Next.word (p := l.place) ((enter_iff hi).2 ⟨_, hb, rfl⟩) hp (skips_of_gap hg)
        (Word.eof (atEnd_iff.2 hh))
      rw [fwd_place]
      exact this
    | badCont => cases hx
    | @arms b l1 ts k hb hp hg hh =>
      have hw := word_of_arms hx.symm
      have hpl : l'.place = { l1.place with closers := l'.parens, text := l'.rest } := by
        rcases armsResult_facts ts ((l1.fwd k).at (l1.pos + k)) (by simp) with
          ⟨t', j, ps, hres, _⟩ | ⟨e, j, hres, _⟩
        · rw [hres] at hx
          simp only [LexRes.ok.injEq] at hx
          obtain ⟨rfl, rfl⟩ := hx
          rfl
        · rw [hres] at hx; cases hx
      rw [rest_at, rest_fwd] at hw
      have := Next.word (p := l.place) ((enter_iff hi).2 ⟨_, hb, rfl⟩) hp (skips_of_gap hg) hw
      rw [hpl]
      exact this
  · intro hn
    cases hn with
    | dedent he hp =>
      obtain ⟨l1, hb, rfl⟩ := (enter_iff hi).1 he
      exact ⟨_, _, getSymbol_eq hi (.dedent hb hp), rfl, rfl⟩
    | indent he hp =>
      obtain ⟨l1, hb, rfl⟩ := (enter_iff hi).1 he
      exact ⟨_, _, getSymbol_eq hi (.indent hb hp), rfl, rfl⟩
    | newline he hp hc hs hl =>
      obtain ⟨l1, hb, rfl⟩ := (enter_iff hi).1 he
      obtain ⟨m, hm, rfl⟩ := hl.lineEnd
      obtain ⟨ts, n, hg, rfl⟩ := hs.gap l1.pos (.of_lineEnd hm)
      refine ⟨_, _, getSymbol_eq hi (.newline hb hp rfl hc hg.hrun hm rfl rfl), rfl, ?_⟩
      have := fwd_place l1 (n + m) (l1.pos + n)
      rw [place_eq] at this ⊢
      simp only [Place.mk.injEq] at this ⊢
      refine ⟨rfl, this.2.1, this.2.2.1, this.2.2.2.1, ?_⟩
      rw [List.drop_drop]
      exact this.2.2.2.2
    | word he hp hs hw =>
      obtain ⟨l1, hb, rfl⟩ := (enter_iff hi).1 he
      rcases hw.first with ⟨h1, rfl, rfl, rfl⟩ | ⟨txt, h1, h2, rfl, rfl⟩ | h1
      · rw [atEnd_iff] at h1
        obtain ⟨ts, n, hg, rfl⟩ := hs.gap l1.pos (.of_eof h1)
        exact ⟨_, _, getSymbol_eq hi (.eof hb hp hg h1), rfl, fwd_place ..⟩
      · have e := lineText_eq h1
        have ht : isTypeComment txt = true := (isTypeComment_iff _).2 h2
        have hh : ∀ {cs r : List Char}, RestOfLine cs txt r → hd cs = '#' := by
          rintro cs r ⟨rfl, _⟩
          obtain ⟨x, rfl⟩ := h2
          rfl
        obtain ⟨ts, n, hg, rfl⟩ := hs.gap l1.pos (.of_type (hh h1) (by rw [e]; exact ht))
        have := Step.typeComment hb hp hg (hh h1) (by
          have e' : lineText (l1.rest.drop n) = txt := e
          rw [e']; exact ht)
        rw [show lineText (l1.rest.drop n) = txt from e] at this
        refine ⟨_, _, getSymbol_eq hi this, rfl, ?_⟩
        rw [fwd_place]
        have hr := congrArg (List.drop txt.length) h1.1
        rw [List.drop_left, List.drop_drop] at hr
        have e2 : l1.rest.drop (n + txt.length) = _ := hr
        rw [e2]
      · obtain ⟨ts, n, hg, rfl⟩ := hs.gap l1.pos (.of_arms h1)
        have h2 : hd ((l1.fwd n).at (l1.pos + n)).rest ∉ [' ', '\t', '#', '\x00', '\r', '\n', '\\'] := by
          rw [rest_at, rest_fwd]; exact h1
        obtain ⟨t', l', e, rfl, rfl, rfl⟩ := arms_of_word ts (l := (l1.fwd n).at (l1.pos + n))
          (by rw [rest_at, rest_fwd]; exact hw) h2
        refine ⟨_, _, (getSymbol_eq hi (.arms hb hp hg h1)).trans e, rfl, ?_⟩
        rcases armsResult_facts ts ((l1.fwd n).at (l1.pos + n)) (by simp) with
          ⟨t2, j, ps, hres, _⟩ | ⟨e2, j, hres, _⟩
        · rw [hres] at e
          simp only [LexRes.ok.injEq] at e
          obtain ⟨rfl, rfl⟩ := e
          rfl
        · rw [hres] at e; cases e

/-- C55: the tokenizer reports an error exactly where the lexical grammar has no next symbol. -/
theorem C55_error [Uni] (src : List Char) (l : Lexer) (h : Reach src l) :
    (∃ e l', getSymbol l = .err e l') ↔ ¬ ∃ w q, Next l.place w q := by
  constructor
  · rintro ⟨e, l', hr⟩ ⟨w, q, hn⟩
    obtain ⟨t, l2, hr2, _⟩ := (C55_next_symbol src l w q h).2 hn
    rw [hr] at hr2; cases hr2
  · intro hn
    cases hr : getSymbol l with
    | ok t l' => exact absurd ⟨_, _, (C55_next_symbol src l _ _ h).1 ⟨t, l', hr, rfl, rfl⟩⟩ hn
    | err e l' => exact ⟨e, l', rfl⟩

/-- C55: at a place the tokenizer can be at, the next symbol of the lexical grammar is unique. -/
theorem C55_unambiguous [Uni] (src : List Char) (l : Lexer) (w w' : Token) (q q' : Place) (h : Reach src l)
    (h1 : Next l.place w q) (h2 : Next l.place w' q') : w = w' ∧ q = q' := by
  obtain ⟨t, l1, e, rfl, rfl⟩ := (C55_next_symbol src l w q h).2 h1
  obtain ⟨t', l1', e', rfl, rfl⟩ := (C55_next_symbol src l w' q' h).2 h2
  rw [e] at e'; cases e'
  exact ⟨rfl, rfl⟩

theorem run_of_tokens [Uni] {src l ts l'} (h : Reach src l) (ht : Tokens l ts l') :
    LG.Run l.place (ts.map Token.bare) l'.place := by
  induction ht with
  | nil => exact .nil
  | cons e _ ih => exact .cons ((C55_next_symbol src _ _ _ h).1 ⟨_, _, e, rfl, rfl⟩) (ih (.ok h e))

theorem tokens_of_run [Uni] {src p ws q} (hr : LG.Run p ws q) : ∀ {l : Lexer}, Reach src l → l.place = p →
    ∃ ts l', Tokens l ts l' ∧ ts.map Token.bare = ws ∧ l'.place = q := by
  induction hr with
  | nil => intro l h e; exact ⟨[], l, .nil, rfl, e⟩
  | cons hn _ ih =>
    intro l h e
    subst e
    obtain ⟨t, l1, e1, rfl, e3⟩ := (C55_next_symbol src l _ _ h).2 hn
    obtain ⟨ts, l', h1, rfl, h3⟩ := ih (.ok h e1) e3
    exact ⟨t :: ts, l', .cons e1 h1, rfl, h3⟩

theorem start_place (src : List Char) : (Lexer.new src).place = .start src := rfl

/-- C55: the symbols at the start of a text are those of the lexical grammar. -/
theorem C55_symbols [Uni] (src : List Char) (ws : List Token) (q : Place) :
    (∃ ts l, Tokens (Lexer.new src) ts l ∧ ts.map Token.bare = ws ∧ l.place = q) ↔ LG.Run (.start src) ws q := by
  constructor
  · rintro ⟨ts, l, h, rfl, rfl⟩
    rw [← start_place]
    exact run_of_tokens .new h
  · intro h
    exact tokens_of_run h .new (start_place src)

theorem alike_bare (ts : List Token) : Alike ts (ts.map Token.bare) := by
  induction ts with
  | nil => exact .nil
  | cons t ts ih => exact .cons (by cases t <;> exact ⟨rfl, rfl⟩) ih

theorem inLanguage_iff [Uni] (p : PN) (src : List Char) :
    InLanguage p src ↔ ∃ ws q y, LG.Run (.start src) ws q ∧ XDer pRule (.n p) .exceptNone ws y := by
  constructor
  · rintro ⟨ts, l, y, h, d⟩
    exact ⟨_, _, y, (C55_symbols src _ _).1 ⟨ts, l, h, rfl, rfl⟩, d.alike _ (alike_bare ts) trivial⟩
  · rintro ⟨ws, q, y, h, d⟩
    obtain ⟨ts, l, h1, rfl, h3⟩ := (C55_symbols src ws q).2 h
    exact ⟨ts, l, y, h1, d.alike _ (alike_bare ts).symm trivial⟩

/-- C55: a text is accepted exactly if its symbols (for interactive input: some first symbols), as the lexical grammar reads
them, are a sentence of the grammar. -/
theorem C55_accepted_texts [Uni] (f : Fn) (p : PN) (src : List Char)
    (hf : (f, p) ∈ [(Fn.fileInput, PN.file_input), (.evalInput, .eval_input), (.funcTypeInput, .func_type_input),
      (.singleInput, .single_input)]) :
    Accepts f src ↔ ∃ ws q y, LG.Run (.start src) ws q ∧ XDer pRule (.n p) .exceptNone ws y := by
  rw [← inLanguage_iff]
  simp only [List.mem_cons, List.not_mem_nil, or_false, Prod.mk.injEq] at hf
  rcases hf with ⟨rfl, rfl⟩ | ⟨rfl, rfl⟩ | ⟨rfl, rfl⟩ | ⟨rfl, rfl⟩
  · exact C50_file_input_exact src
  · exact C50_eval_input_exact src
  · exact C50_func_type_input_exact src
  · exact C50_single_input_exact src

/-! ### Examples -/

/-- A symbol read by the rules of the lexical grammar: at the start of the text, after a line that is blank. -/
example : @Next asciiUni (.start (cs! " # c\n+ 1")) (.sym .PyPlus 0 0 none) ⟨false, [], [0], 0, cs! " 1"⟩ := by
  let _ := asciiUni
  refine .word (q := ⟨false, [], [0], 0, cs! "# c\n+ 1"⟩) (.noCode (col := 1) rfl rfl (.inl rfl)) rfl
    (.comment (txt := cs! "# c") (rest := cs! "\n+ 1") ⟨rfl, by decide, by simp⟩ rfl (by decide) (.line rfl .lf .done))
    (.operator (w := cs! "+") (rest := cs! " 1") ⟨by decide, by decide, ?_⟩ (by simp) rfl)
  have : operators.all (fun x => !x.1.isPrefixOf (cs! "+ 1") || decide (x.1.length ≤ 1)) = true := by decide
  intro w k h1 h2
  have := List.all_eq_true.mp this _ h1
  have h2 : w.isPrefixOf (cs! "+ 1") = true := List.isPrefixOf_iff_prefix.2 h2
  dsimp only at this
  rw [h2] at this
  simpa using this
/-- The symbols of a text with a block. -/
example : ∃ q, @LG.Run asciiUni (.start (cs! "if a:\n  b\nc")) [.sym .PyIf 0 0 none, .name 0 0 none (cs! "a"),
    .sym .PyColon 0 0 none, .newline 0 0 none ' ' ' ', .indent none, .name 0 0 none (cs! "b"),
    .newline 0 0 none ' ' ' ', .dedent none, .name 0 0 none (cs! "c"), .eof 0 none] q := by
  let _ := asciiUni
  exact ⟨_, (C55_symbols _ _ _).1 ⟨_, _, .cons rfl (.cons rfl (.cons rfl (.cons rfl (.cons rfl (.cons rfl (.cons rfl
    (.cons rfl (.cons rfl (.cons rfl .nil))))))))), rfl, rfl⟩⟩
/-- There is no next symbol. -/
example : ¬ ∃ w q, @Next asciiUni (.start (cs! "?")) w q := by
  let _ := asciiUni
  exact (C55_error (cs! "?") _ .new).1 ⟨_, _, rfl⟩
example : ∃ ws q y, @LG.Run asciiUni (.start (cs! "if a:\n  assert b from c\n")) ws q ∧
    XDer pRule (.n .file_input) .exceptNone ws y := by
  let _ := asciiUni
  exact (C55_accepted_texts .fileInput _ _ (by simp)).1 (Res.accepts (m := 100) (by decide +kernel))

end Verif
