import Verif.Proof.Balance
import Verif.Props.LastLine
import Verif.Props.Exact
import Verif.Props.LexGrammar

/-!
# Accepted files close their blocks and brackets (C58)
-/

namespace Verif
open XR

theorem br_step {st st' : List Char} {k : Kind} (h : brStep st k = some st') :
    k.br = ((st'.filter (· ≠ '}')).length : Int) - (st.filter (· ≠ '}')).length := by
  have close : ∀ c : Char, (if st.head? = some c then some st.tail else none) = some st' → st = c :: st' := by
    intro c h
    cases st with
    | nil => simp at h
    | cons a st => simp at h; rw [h.1, h.2]
  have id : some st = some st' → k.br = 0 →
      k.br = ((st'.filter (· ≠ '}')).length : Int) - (st.filter (· ≠ '}')).length := by
    intro h e
    cases h
    rw [e]; omega
  cases k
  case PyLeftParen | PyLeftBracket | PyLeftCurly => cases h; simp [Kind.br]; try omega
  case PyRightParen | PyRightBracket | PyRightCurly => rw [close _ h]; simp [Kind.br]; try omega
  all_goals exact id h rfl

/-- Round and square brackets in a matched sequence. -/
theorem br_run {ts : List Token} : ∀ {st st' : List Char}, brRun st ts = some st' →
    brSum ts = ((st'.filter (· ≠ '}')).length : Int) - (st.filter (· ≠ '}')).length := by
  induction ts with
  | nil => intro st st' h; cases h; simp [brSum]
  | cons t ts ih =>
    intro st st' h
    simp only [brRun] at h
    cases hs : brStep st t.kind with
    | none => rw [hs] at h; cases h
    | some s =>
      rw [hs] at h
      have h1 := br_step hs
      have h2 := ih h
      have : brSum (t :: ts) = t.kind.br + brSum ts := by simp [brSum]
      omega

theorem indSum_count (ts : List Token) : indSum ts = countKind .Indent ts - countKind .Dedent ts := by
  induction ts with
  | nil => rfl
  | cons t ts ih =>
    have e : indSum (t :: ts) = t.kind.ind + indSum ts := by simp [indSum]
    have e2 : ∀ k, countKind k (t :: ts) = countKind k ts + if t.kind = k then 1 else 0 := by
      intro k
      simp only [countKind, List.countP_cons]
      simp
    rw [e, ih, e2, e2]
    generalize t.kind = k
    cases k <;> simp [Kind.ind] <;> omega

theorem tokens_split [Uni] {a b : List Token} : ∀ {l l'}, Tokens l (a ++ b) l' → ∃ l1, Tokens l a l1 ∧ Tokens l1 b l' := by
  induction a with
  | nil => intro l l' h; exact ⟨l, .nil, h⟩
  | cons t a ih =>
    intro l l' h
    cases h with
    | cons e h =>
      obtain ⟨l1, h1, h2⟩ := ih h
      exact ⟨l1, .cons e h1, h2⟩

theorem layout_outside [Uni] {src p t s l} (h : Tokens (Lexer.new src) (p ++ t :: s) l) (ht : t.kind.isLayout = true) :
    brRun [] p = some [] := by
  obtain ⟨l1, h1, h2⟩ := tokens_split h
  have := returned_brackets (Inv.new src) h1.returned
  have hi := h1.returned.inv (Inv.new src)
  cases h2 with
  | cons e _ =>
    rw [(ok_facts hi e).layout ht] at this
    exact this

theorem brStep_layout {k : Kind} (h : k.isLayout = true ∨ k = .EOF) (st : List Char) : brStep st k = some st := by
  cases k <;> simp [Kind.isLayout] at h <;> rfl

theorem brRun_append (a b : List Token) (st : List Char) : brRun st (a ++ b) = (brRun st a).bind fun s => brRun s b := by
  induction a generalizing st with
  | nil => rfl
  | cons t a ih =>
    simp only [List.cons_append, brRun]
    cases brStep st t.kind with
    | none => rfl
    | some s => exact ih s

theorem sentence_balanced [Uni] {src ts l j x y} (h : Tokens (Lexer.new src) ts l) (d : XN j (.n .file_input) x ts y) :
    ∃ a e, ts = a ++ [e] ∧ e.kind = .EOF ∧ (∀ v ∈ a, v.kind ≠ .EOF) ∧ brRun [] a = some [] ∧ countKind .Indent a = countKind .Dedent a := by
  have ⟨j', _, d0⟩ := xn_n d
  simp only [pRule] at d0
  obtain ⟨a, z, b, d1, d2, rfl⟩ := xn_seq.1 d0
  obtain ⟨f, rfl, hf, rfl⟩ := xn_k.1 d2
  have hb : brRun [] a = some [] := by
    rcases List.eq_nil_or_concat a with rfl | ⟨a', u, rfl⟩
    · rfl
    · have := d1.closed (by decide +kernel) u (by simp)
      have hu : u.kind.isLayout = true := by
        simp only [List.contains_cons, List.contains_nil, Bool.or_false, Bool.or_eq_true, beq_iff_eq] at this
        rcases this with e | e <;> rw [e] <;> rfl
      rw [List.concat_eq_append] at h ⊢
      rw [List.append_assoc] at h
      rw [brRun_append, layout_outside h hu]
      simp only [Option.bind_some, brRun, brStep_layout (.inl hu)]
  have hs : brSum a = 0 := by simpa using br_run hb
  have hl : ∀ p t s, a = p ++ t :: s → t.kind.isLayout = true → (0 : Int) + brSum p = 0 := by
    rintro p t s rfl ht
    rw [List.append_assoc] at h
    simpa using br_run (layout_outside h ht)
  have ht : (XR.star (.k .Newline ∥ .n .stmt)).Tests := ⟨trivial, trivial⟩
  have := ((d1.balance.1 (by decide +kernel) ht).2 0 hs (by decide +kernel) hl)
  rw [indSum_count] at this
  have hne : ∀ v ∈ a, v.kind ≠ .EOF := by
    intro v hv hk
    obtain ⟨p, q, rfl⟩ := List.append_of_mem hv
    rw [List.append_assoc] at h
    have h1 := h.all_eof (Inv.new src) hk (a := p) (b := q ++ [f]) rfl
    have h2 : ∃ u, (p ++ v :: q).getLast? = some u ∧ u ∈ v :: q :=
      ⟨(v :: q).getLast (by simp), by rw [List.getLast?_append, List.getLast?_eq_some_getLast (by simp)]; rfl, List.getLast_mem _⟩
    obtain ⟨u, h3, h4⟩ := h2
    have h5 := d1.closed (by decide +kernel) u h3
    rw [h1 u (by simp at h4 ⊢; rcases h4 with h | h <;> simp [h])] at h5
    exact absurd h5 (by decide)
  refine ⟨a, f, rfl, hf, hne, hb, ?_⟩
  have e : (countKind .Indent a : Int) - countKind .Dedent a = 0 := this
  omega

/-- C58: in the symbols of an accepted file, up to the end of the text, every bracket is closed by a matching one, and every
indent is followed by its dedent: both are equally many, and the tokenizer is back at the left margin. -/
theorem C58_blocks_and_brackets_closed [Uni] (n : Nat) (src : List Char) (c' : PSt) (t : Tree)
    (h : run n .fileInput (PSt.new (Lexer.new src)) = .ok t c') :
    ∃ ts e, Tokens (Lexer.new src) (ts ++ [e]) c'.lex ∧ e.kind = .EOF ∧ (∀ v ∈ ts, v.kind ≠ .EOF) ∧
      brRun [] ts = some [] ∧ countKind .Indent ts = countKind .Dedent ts ∧ c'.lex.indents = [0] := by
  obtain ⟨us, u, h1, h2, d⟩ := run_exact h
  rw [new_exc] at d
  have ht : Tokens (Lexer.new src) (us ++ [u]) c'.lex := h1.tokens (c := PSt.new (Lexer.new src)) rfl rfl h2
  obtain ⟨j, d⟩ := XN.of d
  obtain ⟨a, e, he, hk, hne, hb, hc⟩ := sentence_balanced ht d
  rw [he] at ht
  refine ⟨a, e, ht, hk, hne, hb, hc, ?_⟩
  obtain ⟨c1, -, -, c4⟩ := C10_indent_dedent_balance src _ _ ht.returned
  obtain ⟨l1, h3, h4⟩ := ht.snoc
  have hp := ((ok_facts (h3.reach .new).inv h4).atEof hk).2.2.1
  have c0 : ∀ k, k ≠ .EOF → countKind k (a ++ [e]) = countKind k a := by
    intro k hne
    simp [countKind, hk, Ne.symm hne]
  rw [c0 _ (by decide), c0 _ (by decide), hp] at c1
  have hlen : c'.lex.indents.length = 1 := by omega
  match hi : c'.lex.indents, hlen with
  | [x], _ => rw [hi] at c4; simp at c4; rw [c4]

/-- C58: a file whose symbols up to the end of the text leave a bracket or a block open is not accepted. -/
theorem C58_unclosed_rejected [Uni] (n : Nat) (src : List Char) (ts : List Token) (e : Token) (l : Lexer)
    (ht : Tokens (Lexer.new src) (ts ++ [e]) l) (he : e.kind = .EOF) (hn : ∀ v ∈ ts, v.kind ≠ .EOF)
    (hu : brRun [] ts ≠ some [] ∨ countKind .Indent ts ≠ countKind .Dedent ts) (t : Tree) (c' : PSt) :
    run n .fileInput (PSt.new (Lexer.new src)) ≠ .ok t c' := by
  intro h
  obtain ⟨us, f, h1, hf, h4, h2, h3, _⟩ := C58_blocks_and_brackets_closed n src c' t h
  have e0 := ht.same_end he hn h1 hf (fun u hu => h4 u (List.mem_of_getLast? hu))
  obtain ⟨rfl, -⟩ := List.append_inj' e0 rfl
  rcases hu with hu | hu
  · exact hu h2
  · exact hu h3

/-- A block, a bracket over two lines and a block inside a block. -/
example : ∃ t c', @run asciiUni 200 .fileInput (PSt.new (Lexer.new (cs! "if a:\n  while (b +\n c):\n    d\ne\n"))) = .ok t c' ∧
    t.tokens.length = 21 := Res.shows (by decide +kernel)

/-- A blank line at the end of the text keeps the block before it open, and the text is rejected. -/
theorem C58_blank_last_line :
    (∃ t c', @run asciiUni 100 .fileInput (PSt.new (Lexer.new (cs! "if a:\n  b\n"))) = .ok t c' ∧ t.tokens.length = 9) ∧
    ∀ n t c', @run asciiUni n .fileInput (PSt.new (Lexer.new (cs! "if a:\n  b\n\n"))) ≠ .ok t c' := by
  refine ⟨Res.shows (by decide +kernel), fun n t c' => ?_⟩
  let _ := asciiUni
  refine C58_unclosed_rejected n _ (ts := [_, _, _, _, _, _, _]) _ _ (.cons rfl (.cons rfl (.cons rfl (.cons rfl (.cons rfl
    (.cons rfl (.cons rfl (.cons rfl .nil)))))))) rfl ?_ (.inr ?_) t c'
  · decide
  · decide

end Verif
