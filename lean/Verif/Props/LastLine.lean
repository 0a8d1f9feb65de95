import Verif.Proof.EndsIn
import Verif.Props.Grammar
import Verif.Props.Program
import Verif.Props.CompleteStmt

/-!
# C49: the end of the last line
-/

namespace Verif
open Rx

/-- The nonterminals whose sentences end with a line or a block. -/
def lineNT : NT → Bool
  | .stmt | .simple_stmt | .compound_stmt | .if_stmt | .while_stmt | .for_stmt | .try_stmt | .with_stmt | .funcdef
  | .classdef | .decorated | .async_stmt | .async_funcdef | .suite | .func_body_suite => true
  | _ => false

def isLineEnd (x : Kind) : Bool := x = .Newline ∨ x = .Dedent

theorem lineNT_ends (x : NT) (h : lineNT x = true) : 
    (rule x).endsIn lineNT isLineEnd = true ∧ (rule x).solid lineNT = true := by
  cases x <;> first | exact ⟨rfl, rfl⟩ | simp [lineNT] at h

/-- C49: the tokens of an accepted file are `EOF` alone, or a `Newline` or `Dedent` token stands before `EOF`. -/
theorem C49_accepted_file_ends_with_line [Uni] (n : Nat) (src : List Char) (c' : PSt) (t : Tree)
    (h : run n .fileInput (PSt.new (Lexer.new src)) = .ok t c') :
    ∃ ts e, Tokens (Lexer.new src) (ts ++ [e]) c'.lex ∧ e.kind = .EOF ∧
      ∀ u, ts.getLast? = some u → u.kind = .Newline ∨ u.kind = .Dedent := by
  obtain ⟨us, h1, h2⟩ := C23_input_in_grammar n .fileInput .file_input src c' t (by simp) h
  cases h2 with
  | n h2 =>
    change Der rule (star (.k .Newline ∥ .n .stmt) ⬝ .k .EOF) us at h2
    cases h2 with
    | @seq _ _ ts vs ha hb =>
      cases hb with
      | k hk =>
        refine ⟨_, _, h1, hk, fun u hu => ?_⟩
        have := Rx.endsIn_sound lineNT_ends ha (by decide) u hu
        simpa [isLineEnd] using this

/-- C49, negation in general: a text whose last token before `EOF` is not a `Newline` or `Dedent` is not accepted. -/
theorem C49_unfinished_line_rejected [Uni] (n : Nat) (src : List Char) (ts : List Token) (u e : Token) (l : Lexer)
    (ht : Tokens (Lexer.new src) (ts ++ [u, e]) l) (he : e.kind = .EOF) (hn : ∀ v ∈ ts ++ [u], v.kind ≠ .EOF)
    (hu : u.kind ≠ .Newline ∧ u.kind ≠ .Dedent) (t : Tree) (c' : PSt) :
    run n .fileInput (PSt.new (Lexer.new src)) ≠ .ok t c' := by
  intro h
  obtain ⟨us, f, h1, hf, h2⟩ := C49_accepted_file_ends_with_line n src c' t h
  have e1 : ts ++ [u, e] = (ts ++ [u]) ++ [e] := by simp
  rw [e1] at ht
  rcases Nat.lt_trichotomy (us ++ [f]).length ((ts ++ [u]) ++ [e]).length with hlt | heq | hgt
  · have hp := h1.det ht (by omega)
    have hmem : f ∈ ts ++ [u] := by
      obtain ⟨w, hw⟩ := hp
      have hwne : w ≠ [] := by rintro rfl; rw [List.append_nil] at hw; rw [hw] at hlt; omega
      obtain ⟨w', x, rfl⟩ : ∃ w' x, w = w' ++ [x] := ⟨w.dropLast, w.getLast hwne, (List.dropLast_concat_getLast hwne).symm⟩
      rw [← List.append_assoc] at hw
      have := (List.append_inj' hw rfl).1
      rw [← this]; simp
    exact hn _ hmem hf
  · obtain ⟨w, hw⟩ := h1.det ht (by omega)
    have hw0 : w = [] := by
      have := congrArg List.length hw
      rw [List.length_append] at this
      exact List.length_eq_zero_iff.mp (by omega)
    subst hw0
    rw [List.append_nil] at hw
    have := (List.append_inj' hw rfl).1
    rcases h2 u (by rw [this]; simp) with h | h
    · exact hu.1 h
    · exact hu.2 h
  · have hp := ht.det h1 (by omega)
    obtain ⟨w, hw⟩ := hp
    have hwne : w ≠ [] := by rintro rfl; rw [List.append_nil] at hw; rw [hw] at hgt; omega
    obtain ⟨w', x, rfl⟩ : ∃ w' x, w = w' ++ [x] := ⟨w.dropLast, w.getLast hwne, (List.dropLast_concat_getLast hwne).symm⟩
    rw [← List.append_assoc] at hw
    have h3 := (List.append_inj' hw rfl).1
    obtain ⟨l1, h4, h5⟩ := h1.snoc
    -- the token before `f` comes after or is `e`, so it is an `EOF`
    have hall : ∀ {l vs l'}, Tokens l vs l' → Inv src l → ∀ a b, vs = a ++ e :: b → ∀ v ∈ e :: b, v.kind = .EOF := by
      intro l vs l' hv
      induction hv with
      | nil => intro _ a b hab; simp at hab
      | @cons l v l1 vs l2 g1 g2 ih =>
        intro hi a b hab
        have ff := ok_facts hi g1
        cases a with
        | cons a0 a => simp at hab; exact ih ff.inv a b hab.2
        | nil =>
          simp at hab
          obtain ⟨rfl, rfl⟩ := hab
          obtain ⟨x1, x2, x3, x4⟩ := ff.atEof he
          have hs := getSymbol_atEof ff.inv x1 x2 x3 x4
          intro w hw
          rcases List.mem_cons.mp hw with rfl | hw
          · exact he
          clear ih ff x1 x2 x3 x4 g1 hi
          induction g2 with
          | nil => simp at hw
          | cons h3 _ ih =>
            rw [hs] at h3; injection h3 with x y; subst x y
            rcases List.mem_cons.mp hw with rfl | hw
            · rfl
            · exact ih hs (by simp [hw]) hw
    have hlast : ∃ v, us.getLast? = some v ∧ v.kind = .EOF := by
      have h3' : us = (ts ++ [u]) ++ e :: w' := by rw [← h3]; simp
      have := hall h4 (Inv.new src) (ts ++ [u]) w' h3'
      refine ⟨(e :: w').getLast (by simp), ?_, this _ (List.getLast_mem _)⟩
      rw [h3', List.getLast?_append, List.getLast?_eq_some_getLast (by simp)]; rfl
    obtain ⟨v, hv1, hv2⟩ := hlast
    rcases h2 v hv1 with h | h <;> rw [h] at hv2 <;> simp at hv2

/-- The text `x` without a line end: the tokens are a name and `EOF`. -/
example : ∃ ts u e l, @Tokens asciiUni (Lexer.new (cs! "y\nx")) (ts ++ [u, e]) l ∧ e.kind = .EOF ∧
    (∀ v ∈ ts ++ [u], v.kind ≠ .EOF) ∧ u.kind ≠ .Newline ∧ u.kind ≠ .Dedent :=
  letI := asciiUni
  ⟨[_, _], _, _, _, .cons rfl (.cons rfl (.cons rfl (.cons rfl .nil))), rfl, by decide, by decide, by decide⟩

/-- Lines and then the words of a last line without its line end. -/
theorem read_unfinished [Uni] {src l} {lns : List Line} {ln : Line} (hb : Bol src l) (hl : ∀ x ∈ lns, x.Ok) (hk : ln.Ok)
    (hr : l.rest = linesText lns ++ (ln.blanks ++ spacedText ln.words)) :
    ∃ ts u e l', Tokens l (ts ++ [u, e]) l' ∧ e.kind = .EOF ∧ (∀ v ∈ ts ++ [u], v.kind ≠ .EOF) ∧
      u.kind.isLayout = false := by
  induction lns generalizing l with
  | nil =>
    obtain ⟨h1, h2, h3, h4⟩ := hk
    have hh := spacedText_head h3 h2 []
    obtain ⟨l1, b1, b2, b3, b4, b5, b6⟩ := bolState_code hb
      (by rw [hr]; exact (congrArg (fun z => ln.blanks ++ z) (List.append_nil _).symm)) h1 (notSkip_blank hh).1 (notSkip_blank hh).2
    obtain ⟨l2, c1, c2, c3, c4, c5, c6⟩ := read_layout hb.inv b1
    obtain ⟨l3, d1, d2, d3, d4, d5, d6⟩ := read_spaced (ts := []) (k := 0) (tail := []) (ps := []) c1 h3 h2
      Gap.nil (by rw [List.drop_zero, c3, b3]) (.inl rfl) (by rw [c4, b4, h4])
    obtain ⟨l4, e1⟩ := read_eof d2 d4
    have hw : ∀ (xs : List Lexeme) p tr, (∀ x ∈ xs, x.Ok) → ∀ v ∈ spacedTokens p tr xs, v.kind.isLayout = false ∧ v.kind ≠ .EOF := by
      intro xs
      induction xs with
      | nil => intro p tr _ v hv; simp [spacedTokens] at hv
      | cons x xs ih =>
        intro p tr hx v hv
        rw [spacedTokens] at hv
        rcases List.mem_cons.mp hv with rfl | hv
        · exact lexeme_not_layout x (hx x (by simp)) _ _
        · exact ih _ _ (fun y hy => hx y (by simp [hy])) v hv
    have hwords := hw ln.words (l2.pos + 0) (finTrivia []) h3
    have hne : spacedTokens (l2.pos + 0) (finTrivia []) ln.words ≠ [] := by
      cases hws : ln.words with
      | nil => exact absurd hws h2
      | cons x xs => simp [spacedTokens]
    have ht := c6 _ _ (by simp) (d1.append (.cons e1 .nil))
    generalize spacedTokens (l2.pos + 0) (finTrivia []) ln.words = ws at *
    generalize hlay : (if l1.pending > 0 then [Token.indent none] else List.replicate l1.pending.natAbs (Token.dedent none)) = lay at *
    have hlayk : ∀ v ∈ lay, v.kind ≠ .EOF := by
      intro v hv
      rw [← hlay] at hv
      split at hv
      · simp at hv; subst hv; decide
      · rw [(List.mem_replicate.mp hv).2]; decide
    have hsplit : ws = ws.dropLast ++ [ws.getLast hne] := (List.dropLast_concat_getLast hne).symm
    refine ⟨lay ++ ws.dropLast, ws.getLast hne, .eof l3.pos none, l4, ?_, rfl, ?_, (hwords _ (List.getLast_mem _)).1⟩
    · have : lay ++ ws.dropLast ++ [ws.getLast hne, Token.eof l3.pos none] = lay ++ (ws ++ [Token.eof l3.pos none]) := by
        conv => rhs; rw [hsplit]
        simp
      rw [this]; exact ht
    · intro v hv
      have : v ∈ lay ++ ws := by
        rw [hsplit, ← List.append_assoc]; exact hv
      rcases List.mem_append.mp this with h | h
      · exact hlayk _ h
      · exact (hwords _ h).2
  | cons x lns ih =>
    have hr' : l.rest = x.text ++ (linesText lns ++ (ln.blanks ++ spacedText ln.words)) := by rw [hr]; simp [linesText]
    obtain ⟨l1, h1, h2, h3, h4, h5⟩ := read_line hb (hl x (by simp)) hr'
    obtain ⟨ts, u, e, l', i1, i2, i3, i4⟩ := ih h1 (fun y hy => hl y (by simp [hy])) h2
    refine ⟨_ ++ ts, u, e, l', by rw [List.append_assoc]; exact h5.append i1, i2, ?_, i4⟩
    intro v hv
    rw [List.append_assoc] at hv
    rcases List.mem_append.mp hv with hv | hv
    · rcases List.mem_append.mp hv with hv | hv
      · split at hv
        · simp at hv; subst hv; decide
        · rw [(List.mem_replicate.mp hv).2]; decide
      · rcases List.mem_append.mp hv with hv | hv
        · have hw : ∀ (xs : List Lexeme) p tr, (∀ x ∈ xs, x.Ok) → ∀ v ∈ spacedTokens p tr xs, v.kind ≠ .EOF := by
            intro xs
            induction xs with
            | nil => intro p tr _ v hv; simp [spacedTokens] at hv
            | cons x xs ih =>
              intro p tr hx v hv
              rw [spacedTokens] at hv
              rcases List.mem_cons.mp hv with rfl | hv
              · exact (lexeme_not_layout x (hx x (by simp)) _ _).2
              · exact ih _ _ (fun y hy => hx y (by simp [hy])) v hv
          exact hw _ _ _ (hl x (by simp)).2.2.1 v hv
        · simp at hv; subst hv; simp [Token.kind]
    · exact i3 v hv

/-- C49, negation: a text of lines in which the last line has no line end is never accepted as a file, whatever the
lines say. -/
theorem C49_no_final_newline_rejected [Uni] (n : Nat) (lns : List Line) (ln : Line) (hl : ∀ x ∈ lns, x.Ok) (hk : ln.Ok)
    (t : Tree) (c' : PSt) :
    run n .fileInput (PSt.new (Lexer.new (linesText lns ++ (ln.blanks ++ spacedText ln.words)))) ≠ .ok t c' := by
  obtain ⟨ts, u, e, l, h1, h2, h3, h4⟩ := read_unfinished (new_bol _) hl hk (new_rest _)
  exact C49_unfinished_line_rejected n _ ts u e l h1 h2 h3
    ⟨by rintro h; rw [h] at h4; simp [Kind.isLayout] at h4, by rintro h; rw [h] at h4; simp [Kind.isLayout] at h4⟩ t c'

/-- The same text with the line end can be fine: `pass` and `pass⏎`. -/
theorem C49_newline_matters :
    (∀ n t c', @run asciiUni n .fileInput (PSt.new (Lexer.new (cs! "pass"))) ≠ .ok t c') ∧
    ∃ t c', @run asciiUni 40 .fileInput (PSt.new (Lexer.new (cs! "pass\n"))) = .ok t c' ∧ t.tokens.length = 3 := by
  refine ⟨fun n t c' => ?_, Res.shows (by decide +kernel)⟩
  letI := asciiUni
  refine C49_no_final_newline_rejected n [] ⟨[], [.kw (cs! "pass") .PyPass]⟩ (by simp) ⟨by simp, by simp, ?_, rfl⟩ t c'
  intro x hx
  simp at hx; subst hx
  show (_, _) ∈ pyKeywords
  decide

end Verif
