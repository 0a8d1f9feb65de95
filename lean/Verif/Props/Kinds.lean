import Verif.Props.Exact
import Verif.Proof.Program

/-!
# C51: whether a text is accepted depends only on the kinds of its tokens

Names, numbers, the contents of strings and comments, blanks, line ends and positions do not matter, with one
exception: the parser treats the name `match` at the start of a statement in a special way.
-/

namespace Verif
open XR X

/-- The token is the name `match`. -/
def Token.isMatch : Token → Bool
  | .name _ _ _ txt => txt == cs! "match"
  | _ => false

/-- Same kind, and both or neither are the name `match`. -/
def Token.Alike (t u : Token) : Prop := t.kind = u.kind ∧ t.isMatch = u.isMatch

/-- Two sequences of tokens, alike one by one. -/
inductive Alike : List Token → List Token → Prop
  | nil : Alike [] []
  | cons {t u ts us} : t.Alike u → Alike ts us → Alike (t :: ts) (u :: us)

theorem Alike.append {a b a' b'} (h : Alike a b) (h' : Alike a' b') : Alike (a ++ a') (b ++ b') := by
  induction h with
  | nil => exact h'
  | cons h1 _ ih => exact .cons h1 ih
theorem Alike.split {a a' c} (h : Alike (a ++ a') c) : ∃ b b', c = b ++ b' ∧ Alike a b ∧ Alike a' b' := by
  induction a generalizing c with
  | nil => exact ⟨[], c, rfl, .nil, h⟩
  | cons x a ih =>
    cases h with
    | cons h1 h2 => obtain ⟨b, b', rfl, i1, i2⟩ := ih h2; exact ⟨_ :: b, b', rfl, .cons h1 i1, i2⟩
theorem Alike.symm {a b} (h : Alike a b) : Alike b a := by
  induction h with
  | nil => exact .nil
  | cons h1 _ ih => exact .cons ⟨h1.1.symm, h1.2.symm⟩ ih
theorem Alike.reverse {a b} (h : Alike a b) : Alike a.reverse b.reverse := by
  induction h with
  | nil => exact .nil
  | cons h1 _ ih => simpa using ih.append (.cons h1 .nil)
theorem Alike.length {a b} (h : Alike a b) : a.length = b.length := by
  induction h with
  | nil => rfl
  | cons _ _ ih => simp [ih]

/-- The tests in a right hand side look only at what `Alike` keeps. -/
def XR.Stable : XR → Prop
  | .seq a b | .alt a b => a.Stable ∧ b.Stable
  | .opt a | .star a => a.Stable
  | .only p a => (∀ ts us, Alike ts us → p ts = p us) ∧ a.Stable
  | _ => True

theorem separate_alike : ∀ ts us, Alike ts us → separate ts = separate us := by
  intro ts us h
  unfold separate
  have := h.reverse
  generalize ts.reverse = a, us.reverse = b at *
  cases this with
  | nil => rfl
  | cons h1 h2 => cases h2 with
    | nil => rfl
    | cons h3 _ => simp only [h1.1, h3.1]
theorem notMatch_eq (ts : List Token) : notMatch ts = !(ts.head?.map Token.isMatch).getD false := by
  rcases ts with _ | ⟨t, ts⟩
  · rfl
  · cases t <;> simp [notMatch, Token.isMatch, bne]
theorem notMatch_alike : ∀ ts us, Alike ts us → notMatch ts = notMatch us := by
  intro ts us h
  rw [notMatch_eq, notMatch_eq]
  cases h with
  | nil => rfl
  | cons h1 _ => simp [h1.2]
theorem notParen_alike : ∀ ts us, Alike ts us → notParen ts = notParen us := by
  intro ts us h
  unfold notParen
  cases h with
  | nil => rfl
  | cons h1 _ => simp [h1.1]

theorem pRule_stable (p : PN) : (pRule p).Stable := by
  cases p <;>
    simp only [pRule, XR.Stable, plus, list, listTr, comma, colon, name, starOrTest, elem, comp_op, term_op, augassign, slice,
      dictEntry, kwargs, starargs, dots, rhs_tr, X.typeKw, X.typeStar, and_true, true_and] <;>
    first | exact separate_alike | exact notMatch_alike | exact notParen_alike

theorem XDer.alike {r x ts y} (d : XDer pRule r x ts y) : ∀ us, Alike ts us → r.Stable → XDer pRule r x us y := by
  induction d with
  | eps => intro us h _; cases h; exact .eps
  | absent => intro us h _; cases h; exact .absent
  | stop => intro us h _; cases h; exact .stop
  | mark hm => intro us h _; cases h; exact .mark hm
  | k hk => intro us h _; cases h with
    | cons h1 h2 => cases h2; exact .k (h1.1 ▸ hk)
  | any => intro us h _; cases h with
    | cons h1 h2 => cases h2; exact .any
  | n _ ih => intro us h _; exact .n (ih us h (pRule_stable _))
  | seq _ _ ih1 ih2 =>
    intro us h hs
    obtain ⟨b, b', rfl, i1, i2⟩ := h.split
    exact .seq (ih1 _ i1 hs.1) (ih2 _ i2 hs.2)
  | left _ ih => intro us h hs; exact .left (ih us h hs.1)
  | right _ ih => intro us h hs; exact .right (ih us h hs.2)
  | present _ ih => intro us h hs; exact .present (ih us h hs)
  | more _ _ ih1 ih2 =>
    intro us h hs
    obtain ⟨b, b', rfl, i1, i2⟩ := h.split
    exact .more (ih1 _ i1 hs) (ih2 _ i2 hs)
  | only _ hp ih => intro us h hs; exact .only (ih us h hs.2) (hs.1 _ _ h ▸ hp)

/-- The first tokens of a reading. -/
theorem Tokens.take [Uni] {a : List Token} : ∀ {b l l'}, Tokens l (a ++ b) l' → ∃ l1, Tokens l a l1 := by
  induction a with
  | nil => intro b l l' _; exact ⟨l, .nil⟩
  | cons x a ih =>
    intro b l l' h
    cases h with
    | cons h1 h2 => obtain ⟨l1, h3⟩ := ih h2; exact ⟨l1, .cons h1 h3⟩

/-- The readings of one text and the readings of another, if the readings up to the end are alike. -/
theorem readings [Uni] {src1 src2 : List Char} {ts1 ts2 : List Token} {e1 e2 : Token} {l1 l2 : Lexer}
    (h1 : Tokens (Lexer.new src1) (ts1 ++ [e1]) l1) (h2 : Tokens (Lexer.new src2) (ts2 ++ [e2]) l2)
    (he : e1.kind = .EOF) (ha : Alike (ts1 ++ [e1]) (ts2 ++ [e2])) {us l} (hu : Tokens (Lexer.new src1) us l) :
    ∃ vs l', Tokens (Lexer.new src2) vs l' ∧ Alike us vs := by
  rcases Nat.le_total us.length (ts1 ++ [e1]).length with hl | hl
  · obtain ⟨w, hw⟩ := hu.det h1 hl
    rw [← hw] at ha
    obtain ⟨b, b', hb, i1, _⟩ := ha.split
    rw [hb] at h2
    obtain ⟨l', h3⟩ := h2.take
    exact ⟨b, l', h3, i1⟩
  · obtain ⟨w, rfl⟩ := h1.det hu hl
    have hw : ∀ v ∈ w, v.kind = .EOF := fun v hv =>
      hu.all_eof (Inv.new src1) he (a := ts1) (b := w) (by simp) v (by simp [hv])
    have he2 : e2.kind = .EOF := by
      obtain ⟨b, b', hb, _, i2⟩ := ha.split
      cases i2 with
      | cons h3 h4 =>
        cases h4
        have := (List.append_inj' hb rfl).2
        injection this with this
        rw [this, ← h3.1]; exact he
    obtain ⟨p, tr, hs⟩ := h2.eof_last (Inv.new src2) ⟨e2, by simp, he2⟩
    have hx : ∃ w' , Tokens l2 w' l2 ∧ Alike w w' := by
      clear hu hl
      induction w with
      | nil => exact ⟨[], .nil, .nil⟩
      | cons x w ih =>
        obtain ⟨w', i1, i2⟩ := ih (fun v hv => hw v (by simp [hv]))
        have hx := hw x (by simp)
        refine ⟨_ :: w', .cons hs i1, .cons ⟨hx, ?_⟩ i2⟩
        cases x <;> first | rfl | simp [Token.kind] at hx
    obtain ⟨w', i1, i2⟩ := hx
    exact ⟨_, _, h2.append i1, ha.append i2⟩

/-- C51: two texts whose tokens are alike are both accepted or both rejected, by each of the four entry points. -/
theorem C51_kinds_decide [Uni] (f : Fn) (hf : f ∈ [Fn.fileInput, .evalInput, .singleInput, .funcTypeInput])
    (src1 src2 : List Char) (ts1 ts2 : List Token) (e1 e2 : Token) (l1 l2 : Lexer)
    (h1 : Tokens (Lexer.new src1) (ts1 ++ [e1]) l1) (h2 : Tokens (Lexer.new src2) (ts2 ++ [e2]) l2)
    (he : e1.kind = .EOF) (ha : Alike (ts1 ++ [e1]) (ts2 ++ [e2])) :
    Accepts f src1 ↔ Accepts f src2 := by
  have he2 : e2.kind = .EOF := by
    have h3 := ha.reverse
    simp only [List.reverse_append, List.reverse_cons, List.reverse_nil, List.nil_append, List.singleton_append] at h3
    cases h3 with
    | cons h4 _ => exact h4.1 ▸ he
  have key : ∀ p, InLanguage p src1 ↔ InLanguage p src2 := by
    intro p
    constructor
    · rintro ⟨us, l, y, hu, d⟩
      obtain ⟨vs, l', i1, i2⟩ := readings h1 h2 he ha hu
      exact ⟨vs, l', y, i1, d.alike _ i2 trivial⟩
    · rintro ⟨us, l, y, hu, d⟩
      obtain ⟨vs, l', i1, i2⟩ := readings h2 h1 he2 ha.symm hu
      exact ⟨vs, l', y, i1, d.alike _ i2 trivial⟩
  simp only [List.mem_cons, List.not_mem_nil, or_false] at hf
  rcases hf with rfl | rfl | rfl | rfl
  · rw [C50_file_input_exact, C50_file_input_exact, key]
  · rw [C50_eval_input_exact, C50_eval_input_exact, key]
  · rw [C50_single_input_exact, C50_single_input_exact, key]
  · rw [C50_func_type_input_exact, C50_func_type_input_exact, key]

/-! ### The hypotheses are met -/

/-- The first `n` tokens of a text. -/
def firstTokens [Uni] : Nat → Lexer → Option (List Token)
  | 0, _ => some []
  | m + 1, l =>
    match getSymbol l with
    | .ok t l1 => (firstTokens m l1).map (t :: ·)
    | _ => none

theorem firstTokens_spec [Uni] : ∀ n l ts, firstTokens n l = some ts → ∃ l', Tokens l ts l'
  | 0, l, ts, h => by cases h; exact ⟨l, .nil⟩
  | m + 1, l, ts, h => by
    unfold firstTokens at h
    split at h
    · rename_i t l1 hg
      cases hr : firstTokens m l1 with
      | none => simp [hr] at h
      | some us =>
        simp [hr] at h; subst h
        obtain ⟨l', h'⟩ := firstTokens_spec m l1 us hr
        exact ⟨l', .cons hg h'⟩
    · simp at h

theorem Alike.of_map : ∀ {a b : List Token}, a.map (fun t => (t.kind, t.isMatch)) = b.map (fun t => (t.kind, t.isMatch)) → Alike a b
  | [], [], _ => .nil
  | x :: a, y :: b, h => by
    simp at h
    exact .cons ⟨h.1.1, h.1.2⟩ (Alike.of_map (by simpa using h.2))
  | [], _ :: _, h => by simp at h
  | _ :: _, [], h => by simp at h

/-- Two texts of which the first `n + 1` tokens are alike and end with `EOF`. -/
def alikeUpTo [Uni] (n : Nat) (src1 src2 : List Char) : Bool :=
  match firstTokens (n + 1) (Lexer.new src1), firstTokens (n + 1) (Lexer.new src2) with
  | some a, some b => a.map (fun t => (t.kind, t.isMatch)) == b.map (fun t => (t.kind, t.isMatch)) &&
      a.getLast?.map Token.kind == some .EOF
  | _, _ => false

theorem alikeUpTo_spec [Uni] {n src1 src2} (h : alikeUpTo n src1 src2 = true) {f}
    (hf : f ∈ [Fn.fileInput, .evalInput, .singleInput, .funcTypeInput]) : Accepts f src1 ↔ Accepts f src2 := by
  unfold alikeUpTo at h
  split at h
  · rename_i a b h1 h2
    simp only [Bool.and_eq_true, beq_iff_eq] at h
    obtain ⟨h3, h4⟩ := h
    have h3 := Alike.of_map h3
    obtain ⟨l1, h1⟩ := firstTokens_spec _ _ _ h1
    obtain ⟨l2, h2⟩ := firstTokens_spec _ _ _ h2
    have ha : a ≠ [] := by rintro rfl; simp at h4
    have hb : b ≠ [] := by rintro rfl; have := h3.length; simp at this; exact ha this
    have ea := (List.dropLast_concat_getLast ha).symm
    have eb := (List.dropLast_concat_getLast hb).symm
    rw [List.getLast?_eq_some_getLast ha] at h4
    generalize a.dropLast = a1, a.getLast ha = a2 at *
    generalize b.dropLast = b1, b.getLast hb = b2 at *
    subst ea eb
    exact C51_kinds_decide f hf _ _ _ _ _ _ _ _ h1 h2 (by simpa using h4) h3
  · simp at h

/-- Other names, another number, other blanks, a comment, a blank line. -/
example : @Accepts asciiUni .fileInput (cs! "if a:\n  b = 1\n") ↔
    @Accepts asciiUni .fileInput (cs! "if   foo :  # why\n\t_x1=0x2f\n") := by
  let _ := asciiUni
  exact alikeUpTo_spec (n := 10) (by decide +kernel) (by simp)
/-- The run ends with a panic. -/
def Res.isPanic {α : Type} : Res α → Bool
  | .panic => true
  | _ => false

/-- The exception is needed: `a = b⏎` is accepted, and the parser panics at `match = b⏎`. -/
theorem C51_match_differs :
    @Accepts asciiUni .fileInput (cs! "a = b\n") ∧ ¬ @Accepts asciiUni .fileInput (cs! "match = b\n") := by
  let _ := asciiUni
  refine ⟨Res.accepts (m := 60) (by decide +kernel), fun h => ?_⟩
  obtain ⟨m, t, c, h⟩ := h
  have h2 : (run 60 .fileInput (PSt.new (Lexer.new (cs! "match = b\n")))).isPanic = true := by decide +kernel
  have h3 := run_det (n := 60) (m := m) (f := .fileInput) (c := PSt.new (Lexer.new (cs! "match = b\n")))
    (by intro h; rw [h] at h2; simp [Res.isPanic] at h2) (by rw [h]; simp)
  rw [h3, h] at h2; simp [Res.isPanic] at h2

end Verif
