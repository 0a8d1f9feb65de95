import Verif.Proof.ViableAll
import Verif.Proof.GraftSound
import Verif.Proof.Prefix
import Verif.Props.Untouched

/-!
# C79: a syntax error is found at the first symbol that makes the text wrong

When an entry point returns an error, the symbols it has taken before the one at which it stopped are the beginning of a sentence
of the grammar (C50): what was read so far could still have been completed.  There are only three kinds of exceptions
(`Spec/Viable.lean`): `{}`, an `except*` clause after an `except` clause, and decorators.  The other half, that nothing that
follows can repair the error, is C71.
-/

namespace Verif
set_option linter.unusedVariables false
open XR

/-- The entry points and their start symbols. -/
def entries : List (Fn × PN) :=
  [(.fileInput, .file_input), (.evalInput, .eval_input), (.funcTypeInput, .func_type_input), (.singleInput, .single_input)]

theorem Tail.overrun {a b} (h : Tail a b) : b = [] ∨ Overrun a b := by
  rcases h with h | ⟨l, u, h1, h2⟩ | ⟨⟨l, h1, h2⟩, u, b', rfl, hk⟩
  · exact .inl h
  · exact .inr (.inl ⟨l, u, h1, h2⟩)
  · exact .inr (.inr ⟨u, b', rfl, hk, fun l' h => by rw [h1] at h; cases h; exact h2⟩)

section
variable [Uni]

theorem XV.split {r c d} (h : XV r c d) : ∃ a b, Consumed c (a ++ b) d ∧ Viable r c.exc a ∧ (b = [] ∨ Overrun a b) := by
  obtain ⟨ts, h, a, b, rfl, hv, ht⟩ := h
  exact ⟨a, b, h, hv, ht.overrun⟩
theorem XVD.split {p : PN} {c d} (h : XVD (.n p) c d) :
    ∃ a b, Consumed c (a ++ b) d ∧ Viable (.n p) c.exc a ∧ (b = [] ∨ Overrun a b) := by
  rcases h with h | ⟨hs, ts, h⟩
  · exact h.split
  · refine ⟨[], ts, h, prod_n p _, ?_⟩
    cases ts with
    | nil => exact .inl rfl
    | cons u us => exact .inr (.inr ⟨u, us, rfl, hs.headKind h u us rfl, fun l hl => by cases hl⟩)

end

/-- C79: the symbols taken before an error can be completed to a sentence, apart from those named by `Overrun`. -/
theorem C79_prefix_completable_partial [Uni] (f : Fn) (p : PN) (hf : (f, p) ∈ entries) (src : List Char) (n pos : Nat) (m : String)
    (h : run n f (PSt.new (Lexer.new src)) = .err pos m) :
    ∃ a b, Consumed (started src) (a ++ b) (runStop n f (PSt.new (Lexer.new src))) ∧ Viable (.n p) .exceptNone a ∧
      (b = [] ∨ Overrun a b) := by
  have hv := run_viable h
  have he : (started src).exc = .exceptNone := advance_exc_eq _
  rw [← he]
  simp only [entries, List.mem_cons, List.not_mem_nil, or_false, Prod.mk.injEq] at hf
  rcases hf with ⟨rfl, rfl⟩ | ⟨rfl, rfl⟩ | ⟨rfl, rfl⟩ | ⟨rfl, rfl⟩
  · exact XVD.split hv
  · exact XV.split hv
  · exact XV.split hv
  · exact XVD.split hv

/-- C79 without exceptions, for texts in which neither `@` nor `{` nor `except` is read: everything that was read before the symbol at
which the parser stopped can be completed. -/
theorem C79_plain_text_partial [Uni] (f : Fn) (p : PN) (hf : (f, p) ∈ entries) (src : List Char) (n pos : Nat) (m : String)
    (h : run n f (PSt.new (Lexer.new src)) = .err pos m)
    (hk : ∀ ts, Consumed (started src) ts (runStop n f (PSt.new (Lexer.new src))) →
      ∀ t ∈ ts, t.kind ≠ .PyMatrice ∧ t.kind ≠ .PyLeftCurly ∧ t.kind ≠ .PyExcept) :
    ∃ ts, Consumed (started src) ts (runStop n f (PSt.new (Lexer.new src))) ∧ Viable (.n p) .exceptNone ts := by
  obtain ⟨a, b, hc, hv, hb⟩ := C79_prefix_completable_partial f p hf src n pos m h
  have hk := hk _ hc
  rcases hb with rfl | ⟨l, u, hl, rfl, h⟩ | ⟨u, b', rfl, hu, -⟩
  · exact ⟨a, by simpa using hc, hv⟩
  · have hm : l ∈ a ++ [u] := List.mem_append_left _ (List.mem_of_getLast? hl)
    rcases h with ⟨h, -⟩ | ⟨h, -⟩
    · exact absurd h (hk l hm).2.1
    · exact absurd h (hk l hm).2.2
  · exact absurd hu (hk u (by simp)).1

/-- C79 with C71: the parser stops at the right place.  What was taken before can be completed, and no text that begins with the
characters that the tokenizer has seen, and the next three, is accepted with the same number of steps. -/
theorem C79_stops_at_the_first_mistake_partial [Uni] (f : Fn) (p : PN) (hf : (f, p) ∈ entries) (src : List Char) (n pos : Nat) (m : String)
    (h : run n f (PSt.new (Lexer.new src)) = .err pos m)
    (hs : (runStop n f (PSt.new (Lexer.new src))).lex.buf.index + 3 ≤ src.length) :
    (∃ a b, Consumed (started src) (a ++ b) (runStop n f (PSt.new (Lexer.new src))) ∧ Viable (.n p) .exceptNone a ∧
      (b = [] ∨ Overrun a b)) ∧
    ∀ rest, run n f (PSt.new (Lexer.new (src ++ rest))) = .err pos m :=
  ⟨C79_prefix_completable_partial f p hf src n pos m h, C71_not_repaired src n f pos m h hs⟩

/-! ### The exceptions occur -/

/-- Can the right hand side be the token `{` alone? -/
def XR.lone : XR → Bool
  | .eps | .mark _ | .n _ => false
  | .k K => K == .PyLeftCurly
  | .any => true
  | .seq a b => a.lone && b.null || a.null && b.lone
  | .alt a b => a.lone || b.lone
  | .opt a | .star a | .only _ a => a.lone
/-- Can it start with `{}`? -/
def XR.braces : XR → Bool
  | .eps | .mark _ | .n _ | .k _ | .any => false
  | .seq a b => a.braces || a.null && b.braces || a.lone && b.first .PyRightCurly
  | .alt a b => a.braces || b.braces
  | .star a => a.braces || a.lone && a.first .PyRightCurly
  | .opt a | .only _ a => a.braces

theorem lone_table : ∀ p : PN, (pRule p).lone = false := by decide +kernel
theorem braces_table : ∀ p : PN, (pRule p).braces = false := by decide +kernel

theorem XDer.lone {r x ts y} (d : XDer pRule r x ts y) : ∀ t, ts = [t] → t.kind = .PyLeftCurly → r.lone = true := by
  induction d with
  | eps | mark | absent | stop => intro t h; cases h
  | k hk => intro t h ht; cases h; simp [XR.lone, ← hk, ht]
  | any => intros; rfl
  | n _ ih => intro t h ht; have := ih t h ht; rw [lone_table] at this; cases this
  | seq d1 d2 ih1 ih2 =>
    intro t h ht
    rcases List.append_eq_singleton_iff.1 h with ⟨h1, h2⟩ | ⟨h1, h2⟩
    · obtain ⟨j, d1⟩ := XN.of d1
      simp [XR.lone, d1.null h1, ih2 t h2 ht]
    · obtain ⟨j, d2⟩ := XN.of d2
      simp [XR.lone, d2.null h2, ih1 t h1 ht]
  | left _ ih | right _ ih => intro t h ht; simp [XR.lone, ih t h ht]
  | present _ ih | only _ _ ih => exact ih
  | more d1 d2 ih1 ih2 =>
    intro t h ht
    rcases List.append_eq_singleton_iff.1 h with ⟨h1, h2⟩ | ⟨h1, h2⟩
    · exact ih2 t h2 ht
    · exact ih1 t h1 ht

theorem XDer.braces {r x ts y} (d : XDer pRule r x ts y) :
    ∀ t u us, ts = t :: u :: us → t.kind = .PyLeftCurly → u.kind = .PyRightCurly → r.braces = true := by
  induction d with
  | eps | mark | absent | stop | k | any => intro t u us h; cases h
  | n _ ih => intro t u us h ht hu; have := ih t u us h ht hu; rw [braces_table] at this; cases this
  | @seq a b x ts z vs y d1 d2 ih1 ih2 =>
    intro t u us h ht hu
    match ts, h with
    | [], h =>
      obtain ⟨j, d1⟩ := XN.of d1
      simp [XR.braces, d1.null rfl, ih2 t u us h ht hu]
    | [t'], h =>
      cases h
      obtain ⟨j, d2⟩ := XN.of d2
      have := d2.first _ _ rfl
      rw [hu] at this
      simp [XR.braces, d1.lone t rfl ht, this]
    | t' :: u' :: us', h =>
      cases h
      simp [XR.braces, ih1 t u _ rfl ht hu]
  | left _ ih | right _ ih => intro t u us h ht hu; simp [XR.braces, ih t u us h ht hu]
  | present _ ih | only _ _ ih => exact ih
  | @more a x ts z vs y d1 d2 ih1 ih2 =>
    intro t u us h ht hu
    match ts, h with
    | [], h => exact ih2 t u us h ht hu
    | [t'], h =>
      cases h
      obtain ⟨j, d2⟩ := XN.of d2
      have : a.first _ = true := d2.first _ _ rfl
      rw [hu] at this
      simp [XR.braces, d1.lone t rfl ht, this]
    | t' :: u' :: us', h =>
      cases h
      simp [XR.braces, ih1 t u _ rfl ht hu]

/-- No sentence starts with `{}`. -/
theorem not_viable_braces {p x t u us} (ht : t.kind = .PyLeftCurly) (hu : u.kind = .PyRightCurly) :
    ¬ Viable (.n p) x (t :: u :: us) := fun ⟨vs, y, d⟩ => by
  have := d.braces t u (us ++ vs) rfl ht hu
  simp [XR.braces] at this

/-- No file starts with a decorator. -/
theorem not_viable_at {x t us} (ht : t.kind = .PyMatrice) : ¬ Viable (.n .file_input) x (t :: us) := fun ⟨vs, y, d⟩ => by
  obtain ⟨j, d⟩ := XN.of d
  obtain ⟨u, ws, e, h⟩ := d.head
  cases e
  rw [ht] at h
  exact absurd h (by decide)

section
variable [Uni]

/-- What has been read is known when the parser is at its third symbol and the fourth is somewhere else. -/
theorem Consumed.two {src : List Char} {ts d} (h : Consumed (started src) ts d) (h2 : d.lex.tokStart < ((started src).ahead 3).lex.tokStart)
    (h1 : ((started src).ahead 1).lex.tokStart < d.lex.tokStart) : ∃ t u, ts = [t, u] ∧ (started src).symbol = .ok t ∧
      ((started src).ahead 1).symbol = .ok u := by
  have hi : Inv src (started src).lex := advance_inv (PReach.new (src := src)).good.inv
  have hl := h.lexIndex
  match ts, h with
  | [], h => rw [hl] at h1; exact absurd (ahead_start_le hi (Nat.zero_le 1)) (Nat.not_le.2 h1)
  | [t], h => rw [hl] at h1; exact absurd h1 (Nat.lt_irrefl _)
  | [t, u], h =>
    cases h with
    | step a h => cases h with
      | step b h => exact ⟨t, u, rfl, a, b⟩
  | t :: u :: v :: ts, h =>
    rw [hl] at h2
    exact absurd (ahead_start_le hi (j := (t :: u :: v :: ts).length) (i := 3) (by simp)) (Nat.not_le.2 h2)

/-- The kinds of the symbols that have been taken, one after the other. -/
theorem Consumed.kindsAhead {c ts d} (h : Consumed c ts d) :
    ts.map (some ·.kind) = (List.range ts.length).map fun i => (c.ahead i).symbol.toOption.map Token.kind := by
  induction h with
  | done => rfl
  | @step c t ts d a h ih =>
    rw [List.length_cons, List.range_succ_eq_map, List.map_cons, List.map_cons, List.map_map, ih]
    simp [PSt.ahead, a, Except.toOption]

omit [Uni] in
theorem kinds_of_some {ts : List Token} {ks : List Kind} (h : ts.map (some ·.kind) = ks.map some) : ts.map Token.kind = ks := by
  induction ts generalizing ks with
  | nil => cases ks with
    | nil => rfl
    | cons => cases h
  | cons t ts ih => cases ks with
    | nil => cases h
    | cons k ks =>
      simp only [List.map_cons, List.cons.injEq, Option.some.injEq] at h ⊢
      exact ⟨h.1, ih h.2⟩

/-- What has been read is known when the number of symbols is known from where the parser stands. -/
theorem Consumed.kinds {src : List Char} {ts d} (h : Consumed (started src) ts d) (k : Nat)
    (h1 : ((started src).ahead k).lex.tokStart < d.lex.tokStart)
    (h2 : d.lex.tokStart < ((started src).ahead (k + 2)).lex.tokStart) :
    ts.map (some ·.kind) = (List.range (k + 1)).map fun i => ((started src).ahead i).symbol.toOption.map Token.kind := by
  have hi : Inv src (started src).lex := advance_inv (PReach.new (src := src)).good.inv
  have hl := h.lexIndex
  have e : ts.length = k + 1 := by
    rw [hl] at h1 h2
    rcases Nat.lt_trichotomy ts.length (k + 1) with hh | hh | hh
    · exact absurd (ahead_start_le hi (Nat.le_of_lt_succ hh)) (Nat.not_le.2 h1)
    · exact hh
    · exact absurd (ahead_start_le hi (show k + 2 ≤ ts.length by omega)) (Nat.not_le.2 h2)
  rw [← e]
  exact h.kindsAhead

end

/-- C79 without exceptions is false: on the expression `{}` the parser stops behind the right brace, and no sentence begins with
the two braces. -/
theorem C79_empty_braces_read : ¬ ∀ (U : Uni) (src : List Char) (n pos : Nat) (m : String),
    run n .evalInput (PSt.new (Lexer.new src)) = .err pos m →
    ∃ ts, Consumed (started src) ts (runStop n .evalInput (PSt.new (Lexer.new src))) ∧ Viable (.n .eval_input) .exceptNone ts := by
  intro hall
  let _ := asciiUni
  obtain ⟨m, h⟩ := Res.errAt_spec (r := run 40 .evalInput (PSt.new (Lexer.new (cs! "{} + a\n")))) (p := 0) (by decide +kernel)
  obtain ⟨ts, hc, hv⟩ := hall asciiUni _ _ _ _ h
  obtain ⟨t, u, rfl, ht, hu⟩ := hc.two (by decide +kernel) (by decide +kernel)
  have e1 : (started (cs! "{} + a\n")).symbol.toOption.map Token.kind = some .PyLeftCurly := by decide +kernel
  have e2 : ((started (cs! "{} + a\n")).ahead 1).symbol.toOption.map Token.kind = some .PyRightCurly := by decide +kernel
  rw [ht] at e1
  rw [hu] at e2
  exact not_viable_braces (Option.some.inj e1) (Option.some.inj e2) hv

/-- The same for decorators: on `@a = b` the parser stops at the `=`, and no file begins with `@`. -/
theorem C79_decorator_read : ¬ ∀ (U : Uni) (src : List Char) (n pos : Nat) (m : String),
    run n .fileInput (PSt.new (Lexer.new src)) = .err pos m →
    ∃ ts, Consumed (started src) ts (runStop n .fileInput (PSt.new (Lexer.new src))) ∧ Viable (.n .file_input) .exceptNone ts := by
  intro hall
  let _ := asciiUni
  obtain ⟨m, h⟩ := Res.errAt_spec (r := run 40 .fileInput (PSt.new (Lexer.new (cs! "@a = b\n")))) (p := 0) (by decide +kernel)
  obtain ⟨ts, hc, hv⟩ := hall asciiUni _ _ _ _ h
  obtain ⟨t, u, rfl, ht, hu⟩ := hc.two (by decide +kernel) (by decide +kernel)
  have e1 : (started (cs! "@a = b\n")).symbol.toOption.map Token.kind = some .PyMatrice := by decide +kernel
  rw [ht] at e1
  exact not_viable_at (Option.some.inj e1) hv

/-- The same for handlers: after `try: a`, `except: b` and `except` the parser stops behind the `*`, and no file begins with these
symbols. -/
theorem C79_mixed_handlers_read : ¬ ∀ (U : Uni) (src : List Char) (n pos : Nat) (m : String),
    run n .fileInput (PSt.new (Lexer.new src)) = .err pos m →
    ∃ ts, Consumed (started src) ts (runStop n .fileInput (PSt.new (Lexer.new src))) ∧ Viable (.n .file_input) .exceptNone ts := by
  intro hall
  let _ := asciiUni
  obtain ⟨m, h⟩ := Res.errAt_spec (r := run 60 .fileInput (PSt.new (Lexer.new (cs! "try: a\nexcept: b\nexcept * c: d\n"))))
    (p := 17) (by decide +kernel)
  obtain ⟨ts, hc, hv⟩ := hall asciiUni _ _ _ _ h
  have hk := hc.kinds 9 (by decide +kernel) (by decide +kernel)
  have e : ts.map (some ·.kind) = [.PyTry, .PyColon, .AtomName, .Newline, .PyExcept, .PyColon, .AtomName, .Newline, .PyExcept,
      .PyMul].map some := hk.trans (by decide +kernel)
  have e : ts.map Token.kind = [.PyTry, .PyColon, .AtomName, .Newline, .PyExcept, .PyColon, .AtomName, .Newline, .PyExcept, .PyMul] :=
    kinds_of_some e
  refine not_viable_of_scan 90 ?_ ?_ hv <;> rw [e] <;> decide +kernel

/-! ### The hypotheses are met -/

/-- `if a: b = = c` and more text: an error at the second `=`; nothing of it is `@`, `{` or `except`. -/
example : let _ := asciiUni
    ∃ a b, Consumed (started (cs! "if a:\n  b = = c\n  d = e\n"))
      (a ++ b) (runStop 90 .fileInput (PSt.new (Lexer.new (cs! "if a:\n  b = = c\n  d = e\n")))) ∧
      Viable (.n .file_input) .exceptNone a ∧ (b = [] ∨ Overrun a b) := by
  intro _
  obtain ⟨m, h⟩ := Res.errAt_spec (r := run 90 .fileInput (PSt.new (Lexer.new (cs! "if a:\n  b = = c\n  d = e\n")))) (p := 12)
    (by decide +kernel)
  exact (C79_stops_at_the_first_mistake_partial .fileInput .file_input (by simp [entries]) _ _ _ _ h (by decide +kernel)).1

/-- `a = = b`: what was read, `a =`, can be completed. -/
example : let _ := asciiUni
    ∃ ts, Consumed (started (cs! "a = = b\n")) ts (runStop 60 .fileInput (PSt.new (Lexer.new (cs! "a = = b\n")))) ∧
      Viable (.n .file_input) .exceptNone ts := by
  intro _
  obtain ⟨m, h⟩ := Res.errAt_spec (r := run 60 .fileInput (PSt.new (Lexer.new (cs! "a = = b\n")))) (p := 4) (by decide +kernel)
  refine C79_plain_text_partial .fileInput .file_input (by simp [entries]) _ _ _ _ h fun ts hc => ?_
  obtain ⟨t, u, rfl, ht, hu⟩ := hc.two (by decide +kernel) (by decide +kernel)
  have e1 : (started (cs! "a = = b\n")).symbol.toOption.map Token.kind = some .AtomName := by decide +kernel
  have e2 : ((started (cs! "a = = b\n")).ahead 1).symbol.toOption.map Token.kind = some .PyAssign := by decide +kernel
  rw [ht] at e1
  rw [hu] at e2
  have e1 : t.kind = .AtomName := Option.some.inj e1
  have e2 : u.kind = .PyAssign := Option.some.inj e2
  simp [e1, e2]

/-- The tokens of `{ }` are an overrun, those of `a b` are not. -/
example : Overrun [.sym .PyLeftCurly 0 1 none] [.sym .PyRightCurly 1 2 none] ∧
    ¬ Overrun [.name 0 1 none ['a']] [.name 2 3 none ['b']] := by
  refine ⟨.inl ⟨_, _, rfl, rfl, .inl ⟨rfl, rfl⟩⟩, ?_⟩
  rintro (⟨l, u, h1, h2, h3⟩ | ⟨u, b', h, hk, -⟩)
  · cases h1; cases h2; rcases h3 with ⟨h, -⟩ | ⟨h, -⟩ <;> cases h
  · cases h; cases hk

end Verif
