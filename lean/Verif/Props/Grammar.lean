import Verif.Proof.GramStmt
import Verif.Props.Parse
import Verif.Spec.ReadsAs

/-!
# Parser: accepted token sequences are sentences of the grammar (C23, C41)

`Der rule r ts` says that the tokens `ts` are a sentence of `r` (`Spec/Grammar.lean`, which also lists the
differences between `rule` and Python's grammar); `readsAs` pairs parse functions with what they read.
-/

namespace Verif
open Rx
set_option linter.unusedVariables false

/-! ### C23 -/

/-- C23: when a parse function succeeds, the tokens it consumed are a sentence of its rule. -/
theorem C23_accepted_in_grammar [Uni] (n : Nat) (f : Fn) (r : Rx) (c c' : PSt) (t : Tree) (hf : (f, r) ∈ readsAs)
    (h : run n f c = .ok t c') : ∃ ts, Consumed c ts c' ∧ Der rule r ts := by
  have hg := run_grammar h
  simp only [readsAs, List.mem_cons, List.not_mem_nil, Prod.mk.injEq] at hf
  repeat' (first | exact hg | exact hg.1 | exact hf.elim | (rcases hf with ⟨rfl, rfl⟩ | hf))

/-- `if` with an `elif` clause is read. -/
example : (Fn.ifStmt, n .if_stmt) ∈ readsAs ∧
    ∃ t c', @run asciiUni 60 .ifStmt (@started asciiUni (cs! "if a < 1: pass\nelif b: c = 2\nd")) = .ok t c' ∧
      t.tokens.length = 14 :=
  ⟨by simp [readsAs], Res.shows (by decide +kernel)⟩

/-- C23 for lambdas.  The first token is not looked at: the callers do that. -/
theorem C23_lambda_in_grammar [Uni] (n : Nat) (b : Bool) (c c' : PSt) (t : Tree) (h : run n (.lambdaDef b) c = .ok t c') :
    ∃ u ts, Consumed c (u :: ts) c' ∧ (u.kind = .PyLambda → Der rule (.n .lambdef) (u :: ts)) := by
  obtain ⟨u, ts, h1, h2⟩ := run_grammar h
  refine ⟨u, ts, h1, fun hk => .n ?_⟩
  have hk' : Der rule (.k .PyLambda) [u] := .k hk
  cases b with
  | true => exact .seq (ts := [u]) hk' h2
  | false =>
    refine .seq (ts := [u]) hk' ?_
    cases h2 with
    | seq h3 h4 =>
      cases h4 with
      | seq h5 h6 => exact .seq h3 (.seq h5 (.n (.left (by have := Der.seq h6 (.absent (a := k .PyIf ⬝ .n .or_test ⬝ k .PyElse ⬝ .n .test)); rwa [List.append_nil] at this))))

example : ∃ t c', @run asciiUni 60 (.lambdaDef true) (@started asciiUni (cs! "lambda a, *b: a or b")) = .ok t c' ∧
    t.tokens.length = 9 := Res.shows (by decide +kernel)

/-- C23 for the input rules that run to the end of the text: if the rule returns a tree for a text, then
the `get_symbol` calls from the start of the text return tokens up to `EOF`, and these are a sentence of the
rule. -/
theorem C23_input_in_grammar [Uni] (n : Nat) (f : Fn) (x : NT) (src : List Char) (c' : PSt) (t : Tree)
    (hf : (f, x) ∈ [(Fn.evalInput, NT.eval_input), (.fileInput, .file_input), (.funcTypeInput, .func_type_input)])
    (h : run n f (PSt.new (Lexer.new src)) = .ok t c') :
    ∃ ts, Tokens (Lexer.new src) ts c'.lex ∧ Der rule (.n x) ts := by
  have hg := run_grammar h
  have : GrPeek (.n x) (PSt.new (Lexer.new src)).advance c' := by
    simp only [List.mem_cons, List.not_mem_nil, or_false, Prod.mk.injEq] at hf
    rcases hf with ⟨rfl, rfl⟩ | ⟨rfl, rfl⟩ | ⟨rfl, rfl⟩ <;> exact hg
  obtain ⟨ts, u, h1, h2, h3⟩ := this
  exact ⟨_, h1.tokens (c := PSt.new (Lexer.new src)) rfl rfl h2, h3⟩

example : ∃ t c', @run asciiUni 60 .fileInput (PSt.new (Lexer.new (cs! "while a:\n  b\n  break\nc\n"))) = .ok t c' ∧
    t.tokens.length = 13 := Res.shows (by decide +kernel)

/-- C23 for interactive input. -/
theorem C23_single_input_in_grammar [Uni] (n : Nat) (c c' : PSt) (t : Tree) (h : run n .singleInput c = .ok t c') :
    (∃ ts, Consumed c.advance ts c' ∧ Der rule (.n .single_input) ts) ∨
    ∃ ts u, Consumed c.advance ts c' ∧ c'.symbol = .ok u ∧ Der rule (.n .single_input) (ts ++ [u]) :=
  run_grammar h

example : ∃ t c', @run asciiUni 60 .singleInput (PSt.new (Lexer.new (cs! "a = b\n"))) = .ok t c' ∧
    t.tokens.length = 4 := Res.shows (by decide +kernel)

/-- C23 for decorators; the `Newline` at the end stays the current symbol. -/
theorem C23_decorator_in_grammar [Uni] (n : Nat) (f : Fn) (x : NT) (c c' : PSt) (t : Tree)
    (hf : (f, x) ∈ [(Fn.decorator, NT.decorator), (.decorators, .decorators)]) (h : run n f c = .ok t c') :
    ∃ ts u, Consumed c ts c' ∧ c'.symbol = .ok u ∧ Der rule (.n x) (ts ++ [u]) := by
  have hg := run_grammar h
  simp only [List.mem_cons, List.not_mem_nil, or_false, Prod.mk.injEq] at hf
  rcases hf with ⟨rfl, rfl⟩ | ⟨rfl, rfl⟩ <;> exact hg.1

example : ∃ t c', @run asciiUni 60 .decorators (@started asciiUni (cs! "@a.b(c)\n@d\n")) = .ok t c' ∧
    t.tokens.length = 8 := Res.shows (by decide +kernel)

/-- The parser's grammar is Python's except for eight rules. -/
theorem C23_grammar_is_python (x : NT) (h : x ∉ wider) : rule x = pyRule x := rule_eq_pyRule x h

/-- In these rules the parser does accept what Python does not, for example
`a[1:2 b c]`, where `b` is taken for a colon; `def f: pass`; and `assert a from b`. -/
theorem C23_accepts_more :
    (∃ t c', @run asciiUni 60 .evalInput (PSt.new (Lexer.new (cs! "a[1:2 b c]"))) = .ok t c' ∧
      t.tokens.map Token.kind = [.AtomName, .PyLeftBracket, .AtomNumber, .PyColon, .AtomNumber, .AtomName, .AtomName,
        .PyRightBracket, .EOF]) ∧
    (∃ t c', @run asciiUni 60 .fileInput (PSt.new (Lexer.new (cs! "def f: pass\n"))) = .ok t c' ∧ t.tokens.length = 6) ∧
    (∃ t c', @run asciiUni 60 .fileInput (PSt.new (Lexer.new (cs! "assert a from b\n"))) = .ok t c' ∧ t.tokens.length = 6) :=
  ⟨Res.shows (by decide +kernel), Res.shows (by decide +kernel), Res.shows (by decide +kernel)⟩

/-! ### C41 -/

/-- C41: an accepted suite is a simple statement or `Newline Indent` statements `Dedent`, with at least one
statement. -/
theorem C41_suite_shape [Uni] (n : Nat) (c c' : PSt) (t : Tree) (h : run n .suite c = .ok t c') :
    ∃ ts, Consumed c ts c' ∧ (Der rule (.n .simple_stmt) ts ∨
      ∃ nl ind s us ded, ts = nl :: ind :: (s ++ us ++ [ded]) ∧ nl.kind = .Newline ∧ ind.kind = .Indent ∧
        Der rule (.n .stmt) s ∧ Der rule (.star (.n .stmt)) us ∧ ded.kind = .Dedent) := by
  obtain ⟨ts, h1, h2⟩ := C23_accepted_in_grammar n .suite (.n .suite) c c' t (by simp [readsAs]) h
  refine ⟨ts, h1, ?_⟩
  cases h2 with
  | n h2 =>
    change Der rule (.n .simple_stmt ∥ .k .Newline ⬝ .k .Indent ⬝ (.n .stmt ⬝ .star (.n .stmt)) ⬝ .k .Dedent) _ at h2
    cases h2 with
    | left h => exact .inl h
    | right h =>
      cases h with
      | seq a h =>
        cases h with
        | seq b h =>
          cases h with
          | seq h d =>
            cases h with
            | seq e f =>
              cases a; cases b; cases d
              exact .inr ⟨_, _, _, _, _, rfl, by assumption, by assumption, e, f, by assumption⟩

example : ∃ t c', @run asciiUni 60 .suite (@PSt.advance asciiUni (@PSt.advance asciiUni (@started asciiUni (cs! "x:\n  a\n  if b: c\nd\n")))) = .ok t c' ∧
    t.tokens.length = 10 ∧ t.tokens.head?.map Token.kind = some .Newline ∧ t.tokens.getLast?.map Token.kind = some .Dedent :=
  Res.shows (by decide +kernel)

/-- C41: an accepted simple statement ends with a `Newline` token. -/
theorem C41_simple_stmt_newline [Uni] (n : Nat) (c c' : PSt) (t : Tree) (h : run n .simpleStmt c = .ok t c') :
    ∃ ts nl, Consumed c (ts ++ [nl]) c' ∧ nl.kind = .Newline := by
  obtain ⟨ts, h1, h2⟩ := C23_accepted_in_grammar n .simpleStmt (.n .simple_stmt) c c' t (by simp [readsAs]) h
  cases h2 with
  | n h2 =>
    change Der rule (_ ⬝ _ ⬝ _ ⬝ .k .Newline) _ at h2
    cases h2 with
    | seq a h =>
      cases h with
      | seq b h =>
        cases h with
        | seq d h =>
          cases h with
          | k hk =>
            rw [← List.append_assoc, ← List.append_assoc] at h1
            exact ⟨_, _, h1, hk⟩

example : ∃ t c', @run asciiUni 60 .simpleStmt (@started asciiUni (cs! "a; b;\nc")) = .ok t c' ∧
    t.tokens.length = 5 := Res.shows (by decide +kernel)

end Verif
