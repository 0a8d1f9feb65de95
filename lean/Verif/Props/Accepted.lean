import Verif.Props.CompleteStmt
import Verif.Props.Single

/-!
# C33, C36, C38, C43: what is accepted

Consequences of the completeness theorems for the properties that do not hold in full.
-/

namespace Verif
section
variable [Uni]

/-- C33, the loops that do work: `for` with a comma after the last target, any targets, any expressions after `in`, any
well formed suite, is accepted with the tree expected. -/
theorem C33_for_accepted_partial {es it : List Ex} {b : Suite} (hes : es ≠ []) (hit : it ≠ [])
    (h1 : ∀ e ∈ es, e.Wf ∧ e.level ≤ 17) (h2 : ∀ e ∈ it, e.Wf ∧ e.level ≤ 15) (hb : b.Wf none) {c c' : PSt}
    (hf : FedL c (Stm.comp false [.mk (.for_ es it) b]).leaves c') (he : EndsStm c') :
    ∃ n t y, run n .stmt c = .ok t { c' with exc := y } ∧ t.sk = (Stm.comp false [.mk (.for_ es it) b]).sk :=
  C47_statements (s := .comp false [.mk (.for_ es it) b])
    (by
      refine ⟨.for_, by simp, by simp [excOf, Clause.head], ?_⟩
      simp only [wfClauses, and_true]
      exact ⟨⟨hes, hit, h1, h2⟩, by simpa [excOf, Clause.head] using hb⟩) hf he

/-- C36, the definitions that do work: no parameters, with or without a result type, any well formed suite. -/
theorem C36_plain_def_accepted_partial {f : List Char} {r : Option Ex} {b : Suite}
    (h1 : ∀ e ∈ r, e.Wf ∧ e.level ≤ 15) (hb : b.Wf none) {c c' : PSt}
    (hf : FedL c (Stm.comp false [.mk (.def_ f r) b]).leaves c') (he : EndsStm c') :
    ∃ n t y, run n .stmt c = .ok t { c' with exc := y } ∧ t.sk = (Stm.comp false [.mk (.def_ f r) b]).sk :=
  C47_statements (s := .comp false [.mk (.def_ f r) b])
    (by
      refine ⟨.def_, by simp, by simp [excOf, Clause.head], ?_⟩
      simp only [wfClauses, and_true]
      exact ⟨h1, by simpa [excOf, Clause.head] using hb⟩) hf he

/-- The suites of clauses. -/
def Clause.suite : Clause → Suite
  | .mk _ b => b

/-- C38, acceptance: a `try` statement whose `except` clauses are all of one kind (`except` if `star = false`, `except*`
if `star = true`), with or without `else` and `finally`, whose suites hold no `except` clause of the other kind, is
accepted with the tree expected. -/
theorem C38_uniform_accepted_partial {star : Bool} {e : Option (Ex × Option (List Char))}
    {es : List (Option (Ex × Option (List Char)))} {last : List Head} {cs : List Clause}
    (hl : last ∈ [[], [.else_], [.finally_], [.else_, .finally_]])
    (hh : cs.map Clause.head = .try_ :: ((e :: es).map (.except star) ++ last))
    (hx : ∀ x ∈ e :: es, ∀ y ∈ x, y.1.Wf ∧ y.1.level ≤ 15) (hb : ∀ x ∈ cs, x.suite.Wf (some star)) {c c' : PSt}
    (hf : FedL c (Stm.comp false cs).leaves c') (he : EndsStm c') :
    ∃ n t y, run n .stmt c = .ok t { c' with exc := y } ∧ t.sk = (Stm.comp false cs).sk := by
  have hk : excOf (cs.map Clause.head) = some star := by rw [hh]; rfl
  refine C47_statements (s := .comp false cs) ⟨?_, by simp, by simp, ?_⟩ hf he
  · rw [hh]
    simp only [List.mem_cons, List.not_mem_nil, or_false] at hl
    rcases hl with rfl | rfl | rfl | rfl
    · rw [List.append_nil]; exact .tryExcept
    · exact .tryElse
    · exact .tryExceptFinally
    · exact .tryElseFinally
  · rw [hk, Option.some_or]
    have hw : ∀ x ∈ cs, x.head.Wf := by
      intro x hxc
      have : x.head ∈ cs.map Clause.head := List.mem_map.2 ⟨x, hxc, rfl⟩
      rw [hh] at this
      rcases List.mem_cons.1 this with h | h
      · rw [h]; trivial
      rcases List.mem_append.1 h with h | h
      · obtain ⟨z, hz, h⟩ := List.mem_map.1 h
        rw [← h]
        exact hx z hz
      · simp only [List.mem_cons, List.not_mem_nil, or_false] at hl
        rcases hl with rfl | rfl | rfl | rfl <;> simp at h
        · rw [h]; trivial
        · rw [h]; trivial
        · rcases h with h | h <;> rw [h] <;> trivial
    clear hh hk hf
    induction cs with
    | nil => simp [wfClauses]
    | cons x cs ih =>
      cases x with
      | mk h b =>
        simp only [wfClauses]
        exact ⟨hw (.mk h b) (by simp), hb (.mk h b) (by simp), ih (fun y hy => hb y (by simp [hy])) (fun y hy => hw y (by simp [hy]))⟩

/-- C43: every line of well formed simple statements that does not start with the name `match` is accepted as interactive
input, with the tree of the line; reading stops behind its `Newline`. -/
theorem C43_line_accepted_partial {l : SLine} (hw : (Stm.simple l).Wf none) {c c' : PSt}
    (hf : FedL c.advance (Stm.simple l).leaves c') :
    ∃ n s e x, run n .singleInput c = .ok (.node .SingleInput s e [x, .none]) c' ∧ x.sk = l.sk := by
  rw [Stm.Wf] at hw
  rw [Stm.leaves] at hf
  obtain ⟨d, hf1, hf2⟩ := fedL_append.1 hf
  obtain ⟨u, hu, lu, hf2⟩ := fedL_cons hf2
  cases fedL_nil hf2
  have hf1 := fed_of_fedL hf1
  obtain ⟨t, ht, n, h⟩ := simpleStmt_ev hw.1 hf1 hu lu
  obtain ⟨x, r, h1, h2⟩ := sline_first hw.1
  rw [h1] at hf1
  obtain ⟨v, hv, lv, _⟩ := fed_cons hf1
  have kv := kind_of_leaf lv
  have n2 : v.isMatchName = false := by
    cases hm : v.isMatchName with
    | false => rfl
    | true =>
      refine absurd ?_ hw.2
      rw [h1, List.head?_cons, Option.map_some, ← lv]
      cases v <;> simp [Token.isMatchName] at hm
      simp [Token.leaf, hm]
  obtain ⟨s, e, hr⟩ := C43_simple_accepted_partial n c d.advance v t hv
    (by rw [kv]; intro h; apply h2; rw [h]; simp [notSmall])
    (by
      cases hc : v.kind.opensCompound with
      | false => rfl
      | true =>
        exfalso; apply h2
        rw [← kv]
        revert hc; cases v.kind <;> simp [Kind.opensCompound, notSmall])
    n2 h
  exact ⟨n + 1, s, e, t, hr, ht⟩

/-- The same from the text: the words of the line with single spaces between them and a line end. -/
theorem C43_text_accepted_partial {l : SLine} (hw : (Stm.simple l).Wf none) (hok : ∀ x ∈ l.words, x.Ok) :
    ∃ n s e x c', run n .singleInput (PSt.new (Lexer.new (spacedText l.words ++ ['\n']))) =
      .ok (.node .SingleInput s e [x, .none]) c' ∧ x.sk = l.sk := by
  obtain ⟨c', v, hf, _, _⟩ := program_fed (u := [' ']) (p := [.simple l]) (by simp) (by simp) ⟨hw, trivial⟩
    (by simpa [stmLines, Stm.lines] using hok)
  have e : linesText (stmLines [' '] [] [.simple l]) = spacedText l.words ++ ['\n'] := by
    simp [stmLines, Stm.lines, linesText, Line.text]
  rw [e] at hf
  have e2 : stmLeaves [.simple l] = (Stm.simple l).leaves := by simp [stmLeaves]
  rw [e2] at hf
  obtain ⟨n, s, e, x, h1, h2⟩ := C43_line_accepted_partial hw hf
  exact ⟨n, s, e, x, c', h1, h2⟩
end

private def v (w : String) : Ex := .name w.toList

/-- `for a , * b , in c : pass`, `def f ( ) : pass` and a `try` with two `except*` clauses and `else` are such statements. -/
example : (∀ e ∈ [v "a", .star (v "b")], e.Wf ∧ e.level ≤ 17) ∧ (Suite.inline ⟨.pass, [], false⟩).Wf none ∧
    (Stm.comp false [.mk (.for_ [v "a", .star (v "b")] [v "c"]) (.inline ⟨.pass, [], false⟩)]).leaves =
      [.sym .PyFor, .name ['a'], .sym .PyComa, .sym .PyMul, .name ['b'], .sym .PyComa, .sym .PyIn, .name ['c'], .sym .PyColon,
        .sym .PyPass, .sym .Newline] := by
  refine ⟨?_, by simp [Suite.Wf, SLine.Wf, Small.Wf], by decide +kernel⟩
  intro e he
  simp at he
  rcases he with rfl | rfl <;> simp [v, Ex.Wf, Ex.level]

example : ∃ cs : List Clause, cs.map Clause.head = .try_ :: ([some (v "e", none), none].map (.except true) ++ [.else_]) ∧
    ∀ x ∈ cs, x.suite.Wf (some true) :=
  ⟨[.mk .try_ (.inline ⟨.pass, [], false⟩), .mk (.except true (some (v "e", none))) (.inline ⟨.pass, [], false⟩),
    .mk (.except true none) (.inline ⟨.pass, [], false⟩), .mk .else_ (.inline ⟨.pass, [], false⟩)], rfl,
    by simp [Clause.suite, Suite.Wf, SLine.Wf, Small.Wf]⟩

/-- `a = b ; c ;` -/
example : (Stm.simple ⟨.assign ⟨[v "a"], false⟩ (.exprs ⟨[v "b"], false⟩) [], [.expr ⟨[v "c"], false⟩], true⟩).Wf none := by
  simp [Stm.Wf, SLine.Wf, Small.Wf, Exprs.Wf, Rhs.Wf, v, Ex.Wf, Ex.level, SLine.words, Small.words, Exprs.words, wordsList, Ex.words,
    Lexeme.leaf, initRhs]

end Verif
