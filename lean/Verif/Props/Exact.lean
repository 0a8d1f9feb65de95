import Verif.Proof.ExactAll
import Verif.Proof.ExactSoundStmt3
import Verif.Proof.ExactEnds
import Verif.Props.LastLine

/-!
# C50: exactly which texts are accepted

`pRule` (`Spec/Exact.lean`) is a grammar that was written down from the source, with a comment at each place where it
differs from Python's.  `XDer pRule r x ts y` says that the tokens `ts` are a sentence of `r`; `x` and `y` are the
kinds of `except` clauses that the innermost `try` statement read last has before and after (the only thing that is not
context free).  The theorems say that the parser accepts the sentences of this grammar and nothing else.
-/

namespace Verif
set_option linter.unusedVariables false

/-- The function returns a tree for the text, if it gets enough steps. -/
def Accepts [Uni] (f : Fn) (src : List Char) : Prop := ∃ n t c', run n f (PSt.new (Lexer.new src)) = .ok t c'

/-- The tokenizer returns the tokens `ts` for the text, and these are a sentence of `p`. -/
def InLanguage [Uni] (p : PN) (src : List Char) : Prop :=
  ∃ ts l y, Tokens (Lexer.new src) ts l ∧ XDer pRule (.n p) .exceptNone ts y

section
variable [Uni]

theorem Consumed.someTokens {d ts c'} (h : Consumed d ts c') : ∀ {c : PSt}, d.lex = c.advance.lex →
    d.symbol = c.advance.symbol → ∃ l, Tokens c.lex ts l := by
  induction h with
  | done e1 e2 => intro c h1 h2; exact ⟨_, .nil⟩
  | step hs _ ih =>
    intro c h1 h2
    obtain ⟨l, h⟩ := ih rfl rfl
    exact ⟨l, .cons (advance_ok (h2 ▸ hs)) (h1 ▸ h)⟩

theorem new_exc (src : List Char) : (PSt.new (Lexer.new src)).advance.exc = .exceptNone := advance_exc_eq _

theorem XPeek.language {p : PN} {src c'} (h : XPeek (.n p) (PSt.new (Lexer.new src)).advance c') : InLanguage p src := by
  obtain ⟨ts, u, h1, h2, h3⟩ := h
  rw [new_exc] at h3
  exact ⟨_, _, _, h1.tokens (c := PSt.new (Lexer.new src)) rfl rfl h2, h3⟩
theorem XG.language {p : PN} {src c'} (h : XG (.n p) (PSt.new (Lexer.new src)).advance c') : InLanguage p src := by
  obtain ⟨ts, h1, h3⟩ := h
  rw [new_exc] at h3
  obtain ⟨l, h⟩ := h1.someTokens (c := PSt.new (Lexer.new src)) rfl rfl
  exact ⟨_, _, _, h, h3⟩

theorem Suc.accepts {f src ts y} (h : Suc f (PSt.new (Lexer.new src)) ts y) : Accepts f src := by
  obtain ⟨t, n, h⟩ := h; exact ⟨n, t, _, h⟩

/-- a token that stands for the one that a new parser does not have -/
def noToken : Token := .eof 0 none

end

/-- C50 for files: a text is accepted if and only if the tokenizer returns a sentence of `file_input` for it. -/
theorem C50_file_input_exact [Uni] (src : List Char) : Accepts .fileInput src ↔ InLanguage .file_input src := by
  refine ⟨fun ⟨n, t, c', h⟩ => XPeek.language (run_exact h), fun ⟨ts, l, y, h, d⟩ => ?_⟩
  obtain ⟨j, d⟩ := XN.of d
  obtain ⟨j', _, d0⟩ := xn_n d
  simp only [pRule] at d0
  obtain ⟨a, z, b, d1, d2, rfl⟩ := xn_seq.1 d0
  obtain ⟨u, rfl, hu, rfl⟩ := xn_k.1 d2
  exact (cx_fileInput (t := noToken) d1 (new_exc src) (onW_snoc (onW_of_tokens h rfl)) hu).accepts

/-- C50 for expressions. -/
theorem C50_eval_input_exact [Uni] (src : List Char) : Accepts .evalInput src ↔ InLanguage .eval_input src := by
  refine ⟨fun ⟨n, t, c', h⟩ => XPeek.language (run_exact h), fun ⟨ts, l, y, h, d⟩ => ?_⟩
  obtain ⟨j, d⟩ := XN.of d
  obtain ⟨j', _, d0⟩ := xn_n d
  simp only [pRule] at d0
  obtain ⟨a, z, b, d1, d2, rfl⟩ := xn_seq.1 d0
  obtain ⟨a2, z2, b2, d3, d4, rfl⟩ := xn_seq.1 d2
  obtain ⟨u, rfl, hu, rfl⟩ := xn_k.1 d4
  have d' := xn_seq.2 ⟨a, z, a2, d1, d3, rfl⟩
  rw [← List.append_assoc] at h
  exact (cx_evalInput (t := noToken) d' (new_exc src) (onW_snoc (onW_of_tokens h rfl)) hu).accepts

/-- C50 for function types. -/
theorem C50_func_type_input_exact [Uni] (src : List Char) : Accepts .funcTypeInput src ↔ InLanguage .func_type_input src := by
  refine ⟨fun ⟨n, t, c', h⟩ => XPeek.language (run_exact h), fun ⟨ts, l, y, h, d⟩ => ?_⟩
  obtain ⟨j, d⟩ := XN.of d
  obtain ⟨j', _, d0⟩ := xn_n d
  simp only [pRule] at d0
  obtain ⟨a, z, b, d1, d2, rfl⟩ := xn_seq.1 d0
  obtain ⟨a2, z2, b2, d3, d4, rfl⟩ := xn_seq.1 d2
  obtain ⟨u, rfl, hu, rfl⟩ := xn_k.1 d4
  have d' := xn_seq.2 ⟨a, z, a2, d1, d3, rfl⟩
  rw [← List.append_assoc] at h
  exact (cx_funcTypeInput (t := noToken) d' (new_exc src) (onW_snoc (onW_of_tokens h rfl)) hu).accepts

/-- C50 for interactive input: some first tokens of the text are a sentence of `single_input`. -/
theorem C50_single_input_exact [Uni] (src : List Char) : Accepts .singleInput src ↔ InLanguage .single_input src := by
  refine ⟨fun ⟨n, t, c', h⟩ => ?_, fun ⟨ts, l, y, h, d⟩ => ?_⟩
  · have := run_exact h
    simp only [ΦEx] at this
    exact this.elim XG.language XPeek.language
  · obtain ⟨j, d⟩ := XN.of d
    obtain ⟨j', _, d0⟩ := xn_n d
    simp only [pRule] at d0
    have ho := onW_of_tokens (c := PSt.new (Lexer.new src)) h rfl
    rcases xn_alt.1 d0 with d | d
    · obtain ⟨u, rfl, hu, rfl⟩ := xn_k.1 d
      exact (cx_singleEmpty (t := noToken) ho hu).accepts
    · rcases xn_alt.1 d with d | d
      · obtain ⟨d, hm⟩ := xn_only.1 d
        exact (cx_singleSimple (t := noToken) d (new_exc src) ho hm).accepts
      · obtain ⟨a, z, b, d1, d2, rfl⟩ := xn_seq.1 d
        obtain ⟨u, rfl, hu, rfl⟩ := xn_k.1 d2
        exact (cx_singleCompound (t := noToken) d1 (new_exc src) (onW_snoc ho) hu).accepts

/-! ### In the form of a decision -/

/-- The parts of the sentences of the inputs that run to the end of the text. -/
theorem sentence_ends {p : PN} (hp : p = .file_input ∨ p = .eval_input ∨ p = .func_type_input) {x ts y}
    (d : XDer pRule (.n p) x ts y) :
    ∃ us f, ts = us ++ [f] ∧ f.kind = .EOF ∧ ∀ u, us.getLast? = some u → u.kind ≠ .EOF := by
  have key : ∀ {r : XR} {x us z}, XDer pRule r x us z → r.endsIn innerPN notEof = true →
      ∀ u, us.getLast? = some u → u.kind ≠ .EOF := fun d h u hu => by
    have := XR.endsIn_sound innerPN_ends d h u hu
    simpa [notEof] using this
  cases d with
  | n d =>
    rcases hp with rfl | rfl | rfl <;> simp only [pRule] at d
    · cases d with
      | seq d1 d2 => cases d2 with
        | k hk => exact ⟨_, _, rfl, hk, key d1 rfl⟩
    · cases d with
      | seq d1 d2 => cases d2 with
        | seq d2 d3 => cases d3 with
          | k hk => exact ⟨_, _, (List.append_assoc ..).symm, hk, key (.seq d1 d2) rfl⟩
    · cases d with
      | seq d1 d2 => cases d2 with
        | seq d2 d3 => cases d3 with
          | k hk => exact ⟨_, _, (List.append_assoc ..).symm, hk, key (.seq d1 d2) rfl⟩

/-- C50 in the form of a decision: if the tokenizer reads the whole text without an error, then the text is accepted if
and only if its tokens are a sentence. -/
theorem C50_accepted_iff_sentence [Uni] (f : Fn) (p : PN) (src : List Char) (ts : List Token) (e : Token) (l : Lexer)
    (hf : (f, p) ∈ [(Fn.fileInput, PN.file_input), (.evalInput, .eval_input), (.funcTypeInput, .func_type_input)])
    (ht : Tokens (Lexer.new src) (ts ++ [e]) l) (he : e.kind = .EOF) (hn : ∀ v ∈ ts, v.kind ≠ .EOF) :
    Accepts f src ↔ ∃ y, XDer pRule (.n p) .exceptNone (ts ++ [e]) y := by
  have hiff : Accepts f src ↔ InLanguage p src := by
    simp only [List.mem_cons, List.not_mem_nil, or_false, Prod.mk.injEq] at hf
    rcases hf with ⟨rfl, rfl⟩ | ⟨rfl, rfl⟩ | ⟨rfl, rfl⟩
    · exact C50_file_input_exact src
    · exact C50_eval_input_exact src
    · exact C50_func_type_input_exact src
  have hp : p = .file_input ∨ p = .eval_input ∨ p = .func_type_input := by
    simp only [List.mem_cons, List.not_mem_nil, or_false, Prod.mk.injEq] at hf
    rcases hf with ⟨_, h⟩ | ⟨_, h⟩ | ⟨_, h⟩ <;> simp [h]
  rw [hiff]
  refine ⟨fun ⟨us, l', y, hu, d⟩ => ?_, fun ⟨y, d⟩ => ⟨_, _, _, ht, d⟩⟩
  obtain ⟨vs, g, rfl, hg, hl⟩ := sentence_ends hp d
  rw [ht.same_end he hn hu hg hl] at d
  exact ⟨y, d⟩

/-- C50, consequence: the first token of an accepted text is one with which a sentence can start.  For a file:
a `Newline`, the end, the start of an expression, `*`, or one of the keywords of the statements that the parser knows. -/
theorem C50_first_token [Uni] (f : Fn) (p : PN) (src : List Char) (t : Token) (l : Lexer)
    (hf : (f, p) ∈ [(Fn.fileInput, PN.file_input), (.evalInput, .eval_input), (.funcTypeInput, .func_type_input),
      (.singleInput, .single_input)])
    (ht : getSymbol (Lexer.new src) = .ok t l) (ha : Accepts f src) : p.firsts.contains t.kind = true := by
  have hiff : InLanguage p src := by
    simp only [List.mem_cons, List.not_mem_nil, or_false, Prod.mk.injEq] at hf
    rcases hf with ⟨rfl, rfl⟩ | ⟨rfl, rfl⟩ | ⟨rfl, rfl⟩ | ⟨rfl, rfl⟩
    · exact (C50_file_input_exact src).1 ha
    · exact (C50_eval_input_exact src).1 ha
    · exact (C50_func_type_input_exact src).1 ha
    · exact (C50_single_input_exact src).1 ha
  obtain ⟨ts, l', y, hs, d⟩ := hiff
  obtain ⟨j, d⟩ := XN.of d
  obtain ⟨u, us, rfl, hu⟩ := d.head
  cases hs with
  | cons h1 _ =>
    rw [ht] at h1; injection h1 with h1 _; subst h1; exact hu

/-- C50, consequence: a file that starts with `import` or with a decorator is rejected. -/
theorem C50_import_decorator_rejected [Uni] (src : List Char) (t : Token) (l : Lexer)
    (ht : getSymbol (Lexer.new src) = .ok t l) (hk : t.kind = .PyImport ∨ t.kind = .PyMatrice) :
    ¬ Accepts .fileInput src := fun ha => by
  have := C50_first_token .fileInput .file_input src t l (by simp) ht ha
  rcases hk with hk | hk <;> rw [hk] at this <;> exact absurd this (by decide)

/-! ### Both sides occur -/

theorem Res.accepts [Uni] {m f src} (h : (run m f (PSt.new (Lexer.new src))).tree?.isSome = true) : Accepts f src := by
  cases hr : run m f (PSt.new (Lexer.new src)) with
  | ok t c => exact ⟨m, t, c, hr⟩
  | _ => simp [hr, Res.tree?] at h

example : @Accepts asciiUni .fileInput (cs! "if a:\n  assert b from c\n") := by
  let _ := asciiUni; exact Res.accepts (m := 100) (by decide +kernel)
example : @InLanguage asciiUni .file_input (cs! "if a:\n  assert b from c\n") := by
  let _ := asciiUni
  exact (C50_file_input_exact _).1 (Res.accepts (m := 100) (by decide +kernel))
example : @Accepts asciiUni .evalInput (cs! "a, b,\n\n") ∧ @Accepts asciiUni .funcTypeInput (cs! "(a, *b, **c) -> d") ∧
    @Accepts asciiUni .singleInput (cs! "a = b; c\n") := by
  let _ := asciiUni
  exact ⟨Res.accepts (m := 100) (by decide +kernel), Res.accepts (m := 100) (by decide +kernel),
    Res.accepts (m := 100) (by decide +kernel)⟩
/-- `import a⏎` is rejected. -/
example : ¬ @Accepts asciiUni .fileInput (cs! "import a\n") := by
  let _ := asciiUni
  cases h : getSymbol (Lexer.new (cs! "import a\n")) with
  | ok t l =>
    refine C50_import_decorator_rejected _ t l h (Or.inl ?_)
    have : (match getSymbol (Lexer.new (cs! "import a\n")) with | .ok t _ => decide (t.kind = .PyImport) | _ => true) = true := by
      decide +kernel
    rw [h] at this; exact of_decide_eq_true this
  | _ =>
    have : (match getSymbol (Lexer.new (cs! "import a\n")) with | .ok t _ => true | _ => false) = true := by decide +kernel
    rw [h] at this; simp at this

end Verif
