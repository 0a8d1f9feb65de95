import Verif.Spec.SameText
import Verif.Props.WholeText
import Verif.Props.InjectPos

/-!
# C63 The tree determines the text
-/

namespace Verif

theorem SameText.mono {b w w'} (h : SameText b w w') : SameText true w w' := by
  induction h with
  | nil => exact .nil
  | @same b c w w' h ih =>
    refine .same ?_
    by_cases h2 : (c == '\n' || c == '\r' || true && (c == ' ' || c == '\t')) = true
    · rw [h2]; exact ih
    · rw [Bool.not_eq_true] at h2
      have hc : (c == '\n' || c == '\r' || b && (c == ' ' || c == '\t')) = false := by
        revert h2; cases b <;> simp +contextual
      rw [h2, ← hc]; exact h
  | blank h1 h2 _ ih => exact .blank h1 h2 ih
  | line h1 h2 _ ih => exact .line h1 h2 ih
  | less h _ => exact .less h
  | bang h _ => exact .bang h

theorem SameText.upTo {w w'} (h : SameText false w w') (b : Bool) : SameText b w w' := by
  cases b
  · exact h
  · exact h.mono

theorem SameText.prepend {w w'} (h : SameText false w w') : ∀ (u : List Char) (b : Bool), SameText b (u ++ w) (u ++ w')
  | [], b => h.upTo b
  | _ :: u, _ => .same (SameText.prepend h u _)

/-- The position of the first piece that has one. -/
def firstPos : List (Trivia ⊕ Token) → Option Nat
  | [] => none
  | .inl x :: _ => some x.span.1
  | .inr t :: ps => if t.kind = .Indent ∨ t.kind = .Dedent then firstPos ps else t.span?.map Prod.fst

theorem Spells.not_layout {t u} (h : Spells t u) : ¬ (t.kind = .Indent ∨ t.kind = .Dedent) := by
  have key : ∀ x ∈ operators ++ pyKeywords, ¬ (x.2 = .Indent ∨ x.2 = .Dedent) := by decide +kernel
  cases h with
  | op h => exact key _ (List.mem_append_left _ h)
  | kw h => exact key _ (List.mem_append_right _ h)
  | _ => simp [Token.kind]

theorem Spells.unique {t u v} (h : Spells t u) (h' : Spells t v) :
    u = v ∨ u = cs! "<>" ∧ v = cs! "!=" ∨ u = cs! "!=" ∧ v = cs! "<>" := by
  have key : ∀ x ∈ operators ++ pyKeywords, ∀ y ∈ operators ++ pyKeywords, x.2 = y.2 →
      x.1 = y.1 ∨ x.1 = cs! "<>" ∧ y.1 = cs! "!=" ∨ x.1 = cs! "!=" ∧ y.1 = cs! "<>" := by decide +kernel
  cases h with
  | op h =>
    cases h' with
    | op h' => exact key _ (List.mem_append_left _ h) _ (List.mem_append_left _ h') rfl
    | kw h' => exact key _ (List.mem_append_left _ h) _ (List.mem_append_right _ h') rfl
  | kw h =>
    cases h' with
    | op h' => exact key _ (List.mem_append_right _ h) _ (List.mem_append_left _ h') rfl
    | kw h' => exact key _ (List.mem_append_right _ h) _ (List.mem_append_right _ h') rfl
  | newline1 => cases h' <;> simp_all
  | newline2 => cases h' <;> simp_all
  | _ => cases h'; exact .inl rfl

/-- Without blanks the first piece stands at the start of the text. -/
theorem TextFrom.first_eq {b p ps w q} (h : TextFrom b p ps w) : b = false → firstPos ps = some q → q = p := by
  induction h with
  | nil => intro _ h; cases h
  | blank => intro h; cases h
  | trivia _ h2 _ => intro _ h; simp [firstPos, h2] at h; exact h.symm
  | layout h1 _ ih => intro _ h; rw [firstPos, if_pos h1] at h; exact ih rfl h
  | token h1 h2 _ => intro _ h; rw [firstPos, if_neg h1.not_layout, h2] at h; simpa using h.symm

theorem TextFrom.first_ge {b p ps w q} (h : TextFrom b p ps w) : firstPos ps = some q → p ≤ q := by
  induction h with
  | nil => intro h; cases h
  | blank _ _ ih => intro h; have := ih h; omega
  | trivia _ h2 _ => intro h; simp [firstPos, h2] at h; omega
  | layout h1 _ ih => intro h; rw [firstPos, if_pos h1] at h; exact ih h
  | token h1 h2 _ => intro h; rw [firstPos, if_neg h1.not_layout, h2] at h; simp at h; omega

/-- The pieces end with the end of the file. -/
def Anchored (b : Bool) (ps : List (Trivia ⊕ Token)) : Prop :=
  (∃ qs t, ps = qs ++ [.inr t] ∧ t.kind = .EOF) ∨ ps = [] ∧ b = false

theorem Anchored.first {ps} (h : Anchored true ps) : ∃ q, firstPos ps = some q := by
  rcases h with ⟨qs, u, rfl, hu⟩ | ⟨_, h⟩
  · induction qs with
    | nil =>
      cases u with
      | sym k s e tr => exact ⟨s, by cases hu; rfl⟩
      | eof p tr => exact ⟨p, rfl⟩
      | _ => cases hu
    | cons x qs ih =>
      cases x with
      | inl x => exact ⟨_, rfl⟩
      | inr t =>
        obtain ⟨q, hq⟩ := ih
        by_cases hk : t.kind = .Indent ∨ t.kind = .Dedent
        · exact ⟨q, by rw [List.cons_append, firstPos, if_pos hk, hq]⟩
        · cases t with
          | indent => simp [Token.kind] at hk
          | dedent => simp [Token.kind] at hk
          | _ => exact ⟨_, by rw [List.cons_append, firstPos, if_neg hk]; rfl⟩
  · cases h

theorem Anchored.tail {b b' x ps} (h : Anchored b (x :: ps)) (hb : ∀ t : Token, x = .inr t → t.kind = .EOF → b' = false) :
    Anchored b' ps := by
  rcases h with ⟨qs, u, h, hu⟩ | ⟨h, _⟩
  · cases qs with
    | nil => cases h; exact .inr ⟨rfl, hb _ rfl hu⟩
    | cons y qs => cases h; exact .inl ⟨qs, u, rfl, hu⟩
  · cases h

theorem TextFrom.same {b p ps w} (h : TextFrom b p ps w) : ∀ {w'}, Anchored b ps → TextFrom b p ps w' → SameText b w w' := by
  induction h with
  | nil =>
    intro w' ha h'
    cases h' with
    | nil => exact .nil
    | blank => obtain ⟨q, hq⟩ := ha.first; cases hq
  | @blank p ps c w hc h ih =>
    intro w' ha h'
    obtain ⟨q, hq⟩ := ha.first
    have hlt := h.first_ge hq
    cases h' with
    | nil => cases hq
    | blank hd h' => exact .blank hc hd (ih ha h')
    | trivia _ h2 _ => simp [firstPos, h2] at hq; omega
    | layout h1 h2 => rw [firstPos, if_pos h1] at hq; have := h2.first_eq rfl hq; omega
    | token h1 h2 _ => rw [firstPos, if_neg h1.not_layout, h2] at hq; simp at hq; omega
  | @trivia b p x ps u w hu hs h ih =>
    intro w' ha h'
    have ht : Anchored x.isNewline ps := ha.tail (fun _ h => by cases h)
    cases h' with
    | blank _ h' => have := h'.first_ge (q := p) (by simp [firstPos, hs]); omega
    | @trivia _ _ _ _ u' w' hu' hs' h' =>
      cases hu with
      | line hc =>
        cases hu' with
        | line hd => exact .line hc hd (ih ht h')
        | other hd => cases hd
      | other hc =>
        cases hu' with
        | line hd => cases hc
        | other hd =>
          rw [hc] at ih h' ht
          exact (ih ht h').prepend _ _
  | @layout b p t ps w hk h ih =>
    intro w' ha h'
    have ht : Anchored false ps := ha.tail (by intros; rfl)
    cases h' with
    | @blank _ _ c w' hc h' =>
      obtain ⟨q, hq⟩ := ha.first
      have h1 := h'.first_ge hq
      rw [firstPos, if_pos hk] at hq
      have := h.first_eq rfl hq
      omega
    | layout _ h' => exact (ih ht h').upTo _
    | token h1 => exact absurd hk h1.not_layout
  | @token b p t ps u w hu hs h ih =>
    intro w' ha h'
    have ht : Anchored (t.kind == .Newline) ps := ha.tail (by rintro _ h hk; cases h; rw [hk]; rfl)
    cases h' with
    | blank _ h' =>
      have := h'.first_ge (q := p) (by rw [firstPos, if_neg hu.not_layout, hs]; rfl)
      omega
    | layout hk => exact absurd hk hu.not_layout
    | @token _ _ _ _ v w' hv hs' h' =>
      have hlen : u.length = v.length := by
        rw [hs] at hs'
        simp at hs'
        exact hs'
      rw [← hlen] at h'
      have hi := ih ht h'
      by_cases hn : t.kind = .Newline
      · rw [hn] at hi
        cases hu with
        | newline1 hc =>
          cases hv with
          | newline1 hd => exact .line hc hd hi
        | newline2 =>
          cases hv with
          | newline2 => exact .same (.same hi)
        | op h1 =>
          have key : ∀ x ∈ operators, x.2 ≠ .Newline := by decide +kernel
          exact absurd hn (key _ h1)
        | kw h1 =>
          have key : ∀ x ∈ pyKeywords, x.2 ≠ .Newline := by decide +kernel
          exact absurd hn (key _ h1)
        | _ => cases hn
      · rw [beq_false_of_ne hn] at hi
        rcases hu.unique hv with rfl | ⟨rfl, rfl⟩ | ⟨rfl, rfl⟩
        · exact hi.prepend _ _
        · exact .less hi
        · exact .bang hi

theorem pieces_snoc (ts : List Token) (t : Token) : ∃ qs, pieces (ts ++ [t]) = qs ++ [.inr t] := by
  induction ts with
  | nil => exact ⟨_, rfl⟩
  | cons x ts ih =>
    obtain ⟨qs, h⟩ := ih
    exact ⟨x.triviaInOrder.map .inl ++ .inr x :: qs, by simp [pieces, h]⟩

/-- C63: two texts (without `\r\n`, NUL and a `0` at the end) that are given the same tree by an entry point that reads
the whole text are the same, apart from which blanks stand at the start of a line, which character ends a line, and `<>`
for `!=`. -/
theorem C63_tree_determines_text [Uni] (f : Fn) (hf : f = .evalInput ∨ f = .fileInput ∨ f = .funcTypeInput)
    (src src' : List Char) (n n' : Nat) (t : Tree) (c c' : PSt)
    (h : run n f (PSt.new (Lexer.new src)) = .ok t c) (h' : run n' f (PSt.new (Lexer.new src')) = .ok t c')
    (hcr : ¬ cs! "\r\n" <:+: src) (hnul : '\x00' ∉ src) (hzero : src.getLast? ≠ some '0')
    (hcr' : ¬ cs! "\r\n" <:+: src') (hnul' : '\x00' ∉ src') (hzero' : src'.getLast? ≠ some '0') :
    SameText true src src' := by
  obtain ⟨ts, u, h1, h2, h3⟩ := C57_same_tree_same_symbols f hf src src' n n' t c c' h h'
  obtain ⟨qs, hq⟩ := pieces_snoc ts u
  exact (C17_whole_text_partial src _ ts _ h1 h3 hcr hnul hzero).same (.inl ⟨qs, u, hq, h3⟩)
    (C17_whole_text_partial src' _ ts _ h2 h3 hcr' hnul' hzero')

/-- The three differences do occur: the trees of `if a:⏎␣␣b⏎` and `if a:⏎⇥␣b⏎`, of `a <> b` and `a != b`, and of an
empty line ended by `\n` and by `\r` are the same. -/
theorem C63_not_recorded :
    ∀ p ∈ [(Fn.fileInput, cs! "if a:\n  b\n", cs! "if a:\n\t b\n"), (.evalInput, cs! "a <> b", cs! "a != b"),
        (.fileInput, cs! "a\n\nb\n", cs! "a\n\rb\n")],
      p.2.1 ≠ p.2.2 ∧ ∃ t c c', @run asciiUni 100 p.1 (PSt.new (Lexer.new p.2.1)) = .ok t c ∧
        @run asciiUni 100 p.1 (PSt.new (Lexer.new p.2.2)) = .ok t c' := by
  let _ := asciiUni
  simp only [List.forall_mem_cons]
  refine ⟨⟨by decide, Res.sameTree_spec (by decide +kernel)⟩, ⟨by decide, Res.sameTree_spec (by decide +kernel)⟩,
    ⟨by decide, Res.sameTree_spec (by decide +kernel)⟩, by simp⟩

/-- Without the conditions on the texts more is lost: the character after `\r\n` is read as part of the line end, and
what stands after a NUL character is not read at all. -/
theorem C63_lost :
    ∀ p ∈ [(cs! "a\r\nxb\n", cs! "a\r\nyb\n"), (cs! "a\n\x00b", cs! "a\n\x00c + d")],
      (∃ t c c', @run asciiUni 100 .fileInput (PSt.new (Lexer.new p.1)) = .ok t c ∧
        @run asciiUni 100 .fileInput (PSt.new (Lexer.new p.2)) = .ok t c') := by
  let _ := asciiUni
  simp only [List.forall_mem_cons]
  exact ⟨Res.sameTree_spec (by decide +kernel), Res.sameTree_spec (by decide +kernel), by simp⟩

/-- The texts of `C63_not_recorded` meet the conditions of the theorem. -/
example : SameText true (cs! "if a:\n  b\n") (cs! "if a:\n\t b\n") := by
  let _ := asciiUni
  obtain ⟨-, t, c, c', h, h'⟩ := C63_not_recorded (.fileInput, cs! "if a:\n  b\n", cs! "if a:\n\t b\n") (by simp)
  exact C63_tree_determines_text .fileInput (.inr (.inl rfl)) _ _ 100 100 t c c' h h' (by decide) (by decide) (by decide)
    (by decide) (by decide) (by decide)

/-- The relation is not everything: a blank elsewhere, or another name, makes a difference. -/
example : ¬ SameText true (cs! "a b") (cs! "a\tb") ∧ ¬ SameText true (cs! "a") (cs! "b") ∧ ¬ SameText true (cs! "a") (cs! " a") := by
  refine ⟨?_, ?_, ?_⟩
  · intro h
    cases h with
    | same h => cases h with
      | line h1 => simp at h1
    | blank h1 => simp at h1
    | line h1 => simp at h1
  · intro h
    cases h with
    | blank h1 => simp at h1
    | line h1 => simp at h1
  · intro h
    cases h with
    | blank h1 => simp at h1
    | line h1 => simp at h1

end Verif
