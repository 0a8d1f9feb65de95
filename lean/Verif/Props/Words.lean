import Verif.Proof.LexAt
import Verif.Props.LexRun

/-!
# Tokenizer: words, operators, brackets, strings, lexical errors (C06, C07, C08, C13, C18)

`LexemeAt l p` (in `Spec/Lexemes.lean`): the next call reads a lexeme that starts at position `p`.
`src.drop p` is the text from there on.  Tables are those of `Spec/Lexemes.lean`.
-/

set_option linter.unusedSimpArgs false

namespace Verif
attribute [-simp] List.drop_one List.tail_drop

/-- For examples: `LexemeAt` by evaluation. -/
theorem lexemeAt_eval [Uni] {l p} (h : (match getSymbol l with
    | .ok t l' => l'.tokStart == p && t.kind != .Indent && t.kind != .Dedent
    | .err _ l' => l'.tokStart == p) = true) : LexemeAt l p := by
  unfold LexemeAt
  cases hr : getSymbol l with
  | ok t l' =>
    rw [hr] at h
    simp only [Bool.and_eq_true, beq_iff_eq, bne_iff_ne] at h
    refine ⟨h.1.1, fun t2 l2 h2 => ?_⟩
    injection h2 with h2 _; subst h2; exact ⟨h.1.2, h.2⟩
  | err e l' =>
    rw [hr] at h
    exact ⟨beq_iff_eq.mp h, fun t l2 h2 => by simp at h2⟩

/-! ### C06 -/

theorem keywords_eq : ∀ w k, keywords.lookup w = some k ↔ (w, k) ∈ pyKeywords := by
  have h1 : keywords.all (fun p => decide (p ∈ pyKeywords)) = true := by decide
  have h2 : pyKeywords.all (fun p => decide (keywords.lookup p.1 = some p.2)) = true := by decide
  intro w k
  constructor
  · intro h
    have := List.all_eq_true.mp h1 _ (lookup_mem h)
    simpa using this
  · intro h
    have := List.all_eq_true.mp h2 _ h
    simpa using this

theorem prefixes_eq : ∀ w, stringPrefixes.contains w = true ↔ w ∈ pyPrefixes := by
  have h1 : stringPrefixes.all (fun p => decide (p ∈ pyPrefixes)) = true := by decide
  have h2 : pyPrefixes.all (fun p => stringPrefixes.contains p) = true := by decide
  intro w
  constructor
  · intro h
    have := List.all_eq_true.mp h1 w (by simpa using h)
    simpa using this
  · intro h; exact List.all_eq_true.mp h2 w h

theorem word_eq [Uni] {w rest : List Char} (hw : ∀ c ∈ w, isNameChar c = true)
    (hr : ∀ c, rest.head? = some c → isNameChar c = false) : word (w ++ rest) = w := by
  unfold word
  induction w with
  | nil =>
    cases rest with
    | nil => rfl
    | cons c r => simp [hr c rfl]
  | cons c w ih =>
    rw [List.cons_append, List.takeWhile_cons, if_pos (hw c (by simp)), ih fun c h => hw c (by simp [h])]

theorem nameStart_not_skip [Uni] {c : Char} (h : isNameStart c = true) :
    c ∉ [' ', '\t', '#', '\x00', '\r', '\n', '\\'] := by
  intro hc
  simp only [List.mem_cons, List.not_mem_nil, or_false] at hc
  rcases hc with rfl | rfl | rfl | rfl | rfl | rfl | rfl <;>
    simp [isNameStart, isAlphabetic, isAsciiLetter] at h

theorem names_at [Uni] {src l p w rest} (h : Inv src l) (hp : LexemeAt l p)
    (hsrc : src.drop p = w ++ rest) (hs : isNameStart (hd w) = true) (hne : w ≠ [])
    (hw : ∀ c ∈ w, isNameChar c = true) (hr : ∀ c, rest.head? = some c → isNameChar c = false) :
    ∃ (ts : List Trivia) (l2 : Lexer), l2.tokStart = p ∧ l2.pos = p ∧ l2.rest = w ++ rest ∧ l2.parens = l.parens ∧
      getSymbol l = match keywords.lookup w with
      | some k => .ok (.sym k p (p + w.length) (finTrivia ts)) (l2.fwd w.length)
      | none =>
        if stringPrefixes.contains w = true ∧ (hd rest = '\'' ∨ hd rest = '"') then
          stringResult p (hd rest) (some w) ts (l2.fwd w.length)
        else .ok (.name p (p + w.length) (finTrivia ts) w) (l2.fwd w.length) := by
  have hh : hd (src.drop p) = hd w := by
    rw [hsrc]; cases w with
    | nil => exact absurd rfl hne
    | cons c w => rfl
  obtain ⟨ts, l2, e, h1, h2, h3, h4, _⟩ := arms_at h hp (by rw [hh]; exact nameStart_not_skip hs)
  refine ⟨ts, l2, h1, h2, by rw [h3, hsrc], h4, ?_⟩
  rw [e, armsResult, h3, findArm_nameStart (by rw [hh]; exact hs)]
  simp only [hh, hs, if_true]
  rw [nameArm_apply]
  dsimp only
  rw [h3, hsrc, word_eq hw hr, h1, h2]
  cases keywords.lookup w <;> simp

/-- C06, keywords: if the maximal run of identifier characters at the start of a lexeme is the
keyword `w`, the call returns that keyword's token, spanning exactly the run. -/
theorem C06_keyword [Uni] (src : List Char) (l : Lexer) (p : Nat) (w rest : List Char) (k : Kind)
    (h : Reach src l) (hp : LexemeAt l p) (hsrc : src.drop p = w ++ rest)
    (hw : (w, k) ∈ pyKeywords) (hr : ∀ c, rest.head? = some c → isNameChar c = false) :
    ∃ tr l', getSymbol l = .ok (.sym k p (p + w.length) tr) l' ∧ l'.buf.index = p + w.length := by
  have hk : ∀ x ∈ pyKeywords, x.1 ≠ [] ∧ (isAsciiLetter (hd x.1) = true) ∧
      x.1.all isAsciiLetter = true := by decide
  obtain ⟨k1, k2, k3⟩ := hk _ hw
  have hlt : ∀ c, isAsciiLetter c = true → c.toNat < 128 := by
    intro c hc; simp only [isAsciiLetter, Bool.or_eq_true, Bool.and_eq_true, decide_eq_true_eq] at hc
    omega
  obtain ⟨ts, l2, e1, e2, e3, e4, e⟩ := names_at h.inv hp hsrc
    (by simp [isNameStart, isAlphabetic, hlt _ k2, k2]) k1
    (by
      intro c hc
      have := List.all_eq_true.mp k3 c hc
      simp [isNameChar, isAlphanumeric, hlt _ this, this]) hr
  rw [(keywords_eq w k).mpr hw] at e
  refine ⟨_, _, e, ?_⟩
  show (l2.fwd w.length).pos = _
  simp [e2]

example : ∃ l rest, @Reach asciiUni (cs! "x is(y") l ∧ @LexemeAt asciiUni l 2 ∧
    (cs! "x is(y").drop 2 = cs! "is" ++ rest ∧ (cs! "is", Kind.PyIs) ∈ pyKeywords ∧
    rest.head? = some '(' :=
  letI := asciiUni
  ⟨_, _, .ok .new rfl, lexemeAt_eval rfl, rfl, by decide, rfl⟩

/-- C06, names: if the maximal run of identifier characters at the start of a lexeme is not a
keyword (and not a string prefix directly in front of a quote), the call returns a name with exactly
that text and span. -/
theorem C06_name [Uni] (src : List Char) (l : Lexer) (p : Nat) (w rest : List Char)
    (h : Reach src l) (hp : LexemeAt l p) (hsrc : src.drop p = w ++ rest)
    (hne : w ≠ []) (hs : isNameStart (hd w) = true) (hw : ∀ c ∈ w, isNameChar c = true)
    (hr : ∀ c, rest.head? = some c → isNameChar c = false)
    (hk : ∀ k, (w, k) ∉ pyKeywords)
    (hpf : ¬ (w ∈ pyPrefixes ∧ (rest.head? = some '\'' ∨ rest.head? = some '"'))) :
    ∃ tr l', getSymbol l = .ok (.name p (p + w.length) tr w) l' ∧ l'.buf.index = p + w.length := by
  obtain ⟨ts, l2, e1, e2, e3, e4, e⟩ := names_at h.inv hp hsrc hs hne hw hr
  have hl : keywords.lookup w = none := by
    cases hlk : keywords.lookup w with
    | none => rfl
    | some k => exact absurd ((keywords_eq w k).mp hlk) (hk k)
  rw [hl] at e
  dsimp only at e
  rw [if_neg] at e
  · refine ⟨_, _, e, ?_⟩
    show (l2.fwd w.length).pos = _
    simp [e2]
  · rintro ⟨h1, h2⟩
    apply hpf
    refine ⟨(prefixes_eq w).mp h1, ?_⟩
    cases rest with
    | nil => simp at h2
    | cons c r => simpa using h2

example : ∃ l rest, @Reach asciiUni (cs! "not is_1+2") l ∧ @LexemeAt asciiUni l 4 ∧
    (cs! "not is_1+2").drop 4 = cs! "is_1" ++ rest ∧ @isNameStart asciiUni 'i' = true ∧
    (∀ c ∈ cs! "is_1", @isNameChar asciiUni c = true) ∧ rest.head? = some '+' ∧
    (cs! "is_1" ∉ pyKeywords.map (·.1)) :=
  letI := asciiUni
  ⟨_, _, .ok .new rfl, lexemeAt_eval rfl, rfl, by decide, by decide, rfl,
    by decide⟩

/-- C06, converse: a name token carries the source text of its span, which is a maximal run of
identifier characters and not a keyword. -/
theorem C06_name_text [Uni] (src : List Char) (l l' : Lexer) (s e : Nat) (tr : Trivs) (txt : List Char)
    (h : Reach src l) (hr : getSymbol l = .ok (.name s e tr txt) l') :
    ∃ rest, src.drop s = txt ++ rest ∧ e = s + txt.length ∧ l'.buf.index = e ∧
      isNameStart (hd txt) = true ∧ (∀ c ∈ txt, isNameChar c = true) ∧
      (∀ c, rest.head? = some c → isNameChar c = false) ∧ ∀ k, (txt, k) ∉ pyKeywords := by
  have hat := atOut h.inv (lexemeAt_of_ok hr (by simp [Token.kind]) (by simp [Token.kind]))
  generalize l'.tokStart = p at hat
  cases hat with
  | newline _ he => rw [hr] at he; simp at he
  | typeComment _ _ he => rw [hr] at he; simp at he
  | eof _ he => rw [hr] at he; simp at he
  | badCont _ _ _ he => rw [hr] at he; simp at he
  | @arms ts l2 _ he h1 h2 h3 h4 h5 h6 h7 =>
    have hc := armsCase ts l2
    rw [← he, hr] at hc
    generalize hres : LexRes.ok (Token.name s e tr txt) l' = r at hc
    cases hc with
    | op => have := (armResult_tok hres.symm).1; simp at this
    | kw => simp at hres
    | pstr => obtain ⟨_, _, h, _⟩ := stringResult_tok hres.symm; simp at h
    | zero => obtain ⟨_, _, h, _⟩ := numResult_tok hres.symm; simp at h
    | dot => obtain ⟨_, _, h, _⟩ := numResult_tok hres.symm; simp at h
    | dec => obtain ⟨_, _, h, _⟩ := numResult_tok hres.symm; simp at h
    | str => obtain ⟨_, _, h, _⟩ := stringResult_tok hres.symm; simp at h
    | bad => simp at hres
    | name hn hk hpf =>
      simp only [LexRes.ok.injEq, Token.name.injEq] at hres
      obtain ⟨⟨he1, he2, _, he4⟩, he5⟩ := hres
      rw [h1] at he1
      subst he1
      subst he4
      rw [h2] at he2
      refine ⟨l2.rest.dropWhile isNameChar, ?_, he2, ?_, ?_, ?_, ?_, ?_⟩
      · rw [← h3, word, List.takeWhile_append_dropWhile]
      · rw [he5, he2, ← h2]; rfl
      · rw [hd_word hn]; exact hn
      · intro c hc
        have := List.all_takeWhile (p := isNameChar) (l := l2.rest)
        exact List.all_eq_true.mp this c hc
      · intro c hc
        have := List.head?_dropWhile_not isNameChar l2.rest
        rw [hc] at this; simpa using this
      · intro k hk'
        rw [(keywords_eq _ _).mpr hk'] at hk; simp at hk

example : ∃ l l', @Reach asciiUni (cs! "not is_1+2") l ∧
    @getSymbol asciiUni l = .ok (.name 4 8 (some [.whiteSpace 3 4 ' ']) (cs! "is_1")) l' :=
  letI := asciiUni
  ⟨_, _, .ok .new rfl, rfl⟩

/-- C06, converse: the span of a keyword token is that keyword in the text, and no identifier character follows. -/
theorem C06_keyword_text [Uni] (src : List Char) (l l' : Lexer) (w : List Char) (k : Kind) (s e : Nat) (tr : Trivs)
    (h : Reach src l) (hw : (w, k) ∈ pyKeywords) (hr : getSymbol l = .ok (.sym k s e tr) l') :
    ∃ rest, src.drop s = w ++ rest ∧ e = s + w.length ∧ l'.buf.index = e ∧
      ∀ c, rest.head? = some c → isNameChar c = false := by
  have hk1 : ∀ x ∈ pyKeywords, ∀ y ∈ pyKeywords, x.2 = y.2 → x.1 = y.1 := by decide
  have hk2 : ∀ x ∈ pyKeywords, ∀ y ∈ opArms, x.2 ≠ y.act.kind := by decide
  have hk3 : ∀ x ∈ pyKeywords, x.2 ≠ .Indent ∧ x.2 ≠ .Dedent := by decide
  have hat := atOut h.inv (lexemeAt_of_ok hr (hk3 _ hw).1 (hk3 _ hw).2)
  generalize l'.tokStart = p at hat
  cases hat with
  | newline _ he => rw [hr] at he; simp at he
  | typeComment _ _ he => rw [hr] at he; simp at he
  | eof _ he => rw [hr] at he; simp at he
  | badCont _ _ _ he => rw [hr] at he; simp at he
  | @arms ts l2 _ he h1 h2 h3 h4 h5 h6 h7 =>
    have hc := armsCase ts l2
    rw [← he, hr] at hc
    generalize hres : LexRes.ok (Token.sym k s e tr) l' = r at hc
    cases hc with
    | @op a hfa hdd =>
      obtain ⟨g1, g2⟩ := armResult_tok hres.symm
      have hm := List.mem_of_find?_eq_some hfa
      simp only [Token.sym.injEq] at g1
      exact absurd g1.1 (hk2 _ hw a hm)
    | name => simp at hres
    | pstr => obtain ⟨_, _, h, _⟩ := stringResult_tok hres.symm; simp at h
    | zero => obtain ⟨_, _, h, _⟩ := numResult_tok hres.symm; simp at h
    | dot => obtain ⟨_, _, h, _⟩ := numResult_tok hres.symm; simp at h
    | dec => obtain ⟨_, _, h, _⟩ := numResult_tok hres.symm; simp at h
    | str => obtain ⟨_, _, h, _⟩ := stringResult_tok hres.symm; simp at h
    | bad => simp at hres
    | kw hn hkw =>
      simp only [LexRes.ok.injEq, Token.sym.injEq] at hres
      obtain ⟨⟨he0, he1, he2, _⟩, he5⟩ := hres
      subst he0
      rw [h1] at he1
      subst he1
      rw [h2] at he2
      have hword := hk1 _ ((keywords_eq _ _).mp hkw) _ hw rfl
      simp only at hword
      refine ⟨l2.rest.dropWhile isNameChar, ?_, ?_, ?_, ?_⟩
      · rw [← h3, ← hword, word, List.takeWhile_append_dropWhile]
      · rw [he2, hword]
      · rw [he5, he2, ← h2]; rfl
      · intro c hc
        have := List.head?_dropWhile_not isNameChar l2.rest
        rw [hc] at this; simpa using this

example : ∃ l l', @Reach asciiUni (cs! "x is(y") l ∧
    @getSymbol asciiUni l = .ok (.sym .PyIs 2 4 (some [.whiteSpace 1 2 ' '])) l' :=
  letI := asciiUni
  ⟨_, _, .ok .new rfl, rfl⟩

/-! ### C07 -/

theorem operator_not_skip {w cs : List Char} {k : Kind} (hw : (w, k) ∈ operators) (hp : w <+: cs) :
    hd cs ∉ [' ', '\t', '#', '\x00', '\r', '\n', '\\'] := by
  have h : ∀ x ∈ operators, x.1 ≠ [] ∧ hd x.1 ∉ [' ', '\t', '#', '\x00', '\r', '\n', '\\'] := by
    decide
  obtain ⟨h1, h2⟩ := h _ hw
  obtain ⟨r, rfl⟩ := hp
  cases w with
  | nil => exact absurd rfl h1
  | cons c w => exact h2

theorem operator_at [Uni] {src l p w k} (h : Inv src l) (hp : LexemeAt l p)
    (hw : Longest operators (src.drop p) w k) (hd0 : ¬ dotDigit (src.drop p)) :
    ∃ ts l2 a, a ∈ opArms ∧ a.spell = w ∧ a.act.kind = k ∧ a.len = w.length ∧
      getSymbol l = armResult a ts l2 ∧ l2.tokStart = p ∧ l2.pos = p ∧ l2.parens = l.parens := by
  obtain ⟨ts, l2, e, h1, h2, h3, h4, _⟩ := arms_at h hp (operator_not_skip hw.1 hw.2.1)
  obtain ⟨a, ha⟩ := findArm_of_operator hw.1 hw.2.1 hd0
  have hm := List.mem_of_find?_eq_some ha
  obtain ⟨h5, h6⟩ := longest_unique (findArm_longest ha hd0) hw
  refine ⟨ts, l2, a, hm, h5, h6, ?_, ?_, h1, h2, h4⟩
  · rw [← (opArms_spell a hm).2.1, h5]
  · rw [e, armsResult, h3, ha]

theorem not_dotDigit {cs : List Char}
    (h : ¬ ∃ d rest, cs = '.' :: d :: rest ∧ isDigit d = true) : ¬ dotDigit cs := by
  rintro ⟨h1, h2⟩
  apply h
  match cs, h1, h2 with
  | c :: d :: r, h1, h2 => exact ⟨d, r, by simp at h1; rw [h1], by simpa using h2⟩
  | [c], h1, h2 => simp at h2; exact absurd h2 (by decide)
  | [], h1, h2 => simp at h1

/-- C07: if the text at the start of a lexeme starts with operators or delimiters of the table, then
the longest of them, `w`, is the token returned and spans exactly those characters.  The exceptions
are a dot in front of a digit (a number) and a closing bracket that does not match the innermost open
bracket (see C08). -/
theorem C07_longest_match [Uni] (src : List Char) (l : Lexer) (p : Nat) (w : List Char) (k : Kind)
    (h : Reach src l) (hp : LexemeAt l p) (hw : Longest operators (src.drop p) w k)
    (hdot : ¬ ∃ d rest, src.drop p = '.' :: d :: rest ∧ isDigit d = true)
    (hcl : ∀ c, w = [c] → c ∈ [')', ']', '}'] → l.parens.head? = some c) :
    ∃ tr l', getSymbol l = .ok (.sym k p (p + w.length) tr) l' ∧ l'.buf.index = p + w.length := by
  obtain ⟨ts, l2, a, hm, hsp, hk, hlen, e, h1, h2, h4⟩ := operator_at h.inv hp hw (not_dotDigit hdot)
  have hact := opArms_act a hm
  unfold armResult at e
  rw [h1, h2, hlen] at e
  have hpos : ∀ k, (l2.fwd k).buf.index = p + k := by intro k; rw [← h2]; rfl
  cases ha : a.act with
  | tok k' =>
    rw [ha] at e hk; simp only [OpAct.kind] at hk; subst hk
    exact ⟨_, _, e, hpos _⟩
  | openB k' c =>
    rw [ha] at e hk; simp only [OpAct.kind] at hk; subst hk
    exact ⟨_, _, e, hpos _⟩
  | closeB k' c =>
    rw [ha] at e hk; simp only [OpAct.kind] at hk; subst hk
    have hc : ∀ a ∈ opArms, ∀ k c, a.act = .closeB k c → a.spell = [c] ∧ c ∈ [')', ']', '}'] := by
      have : opArms.all (fun a => match a.act with
          | .closeB _ c => decide (a.spell = [c]) && decide (c ∈ [')', ']', '}'])
          | _ => true) = true := by decide
      intro a ha k c hac
      have := List.all_eq_true.mp this a ha
      rw [hac] at this
      simpa using this
    obtain ⟨hs, hmem⟩ := hc a hm _ _ ha
    dsimp only at e
    rw [if_pos (by rw [h4]; exact hcl c (by rw [← hsp, hs]) hmem)] at e
    exact ⟨_, _, e, hpos _⟩

example : ∃ l, @Reach asciiUni (cs! "a**=b") l ∧ @LexemeAt asciiUni l 1 ∧
    Longest operators ((cs! "a**=b").drop 1) (cs! "**=") .PyPowerAssign :=
  letI := asciiUni
  ⟨_, .ok .new rfl, lexemeAt_eval rfl, by decide, by decide, fun w k hw _ => by
    have h : ∀ x ∈ operators, x.1.length ≤ 3 := by decide
    exact h _ hw⟩

/-- C07, converse: a token whose kind is an operator or delimiter is spelled in the text by the
longest entry of the table that the text starts with there. -/
theorem C07_operator_text [Uni] (src : List Char) (l l' : Lexer) (k : Kind) (s e : Nat) (tr : Trivs)
    (h : Reach src l) (hr : getSymbol l = .ok (.sym k s e tr) l') (hk : ∃ w, (w, k) ∈ operators) :
    ∃ w, Longest operators (src.drop s) w k ∧ e = s + w.length ∧ l'.buf.index = e := by
  have hki : k ≠ .Indent ∧ k ≠ .Dedent := by
    obtain ⟨w, hw⟩ := hk
    have : ∀ x ∈ operators, x.2 ≠ .Indent ∧ x.2 ≠ .Dedent := by decide
    exact this _ hw
  have hat := atOut h.inv (lexemeAt_of_ok hr hki.1 hki.2)
  generalize l'.tokStart = p at hat
  cases hat with
  | newline _ he => rw [hr] at he; simp at he
  | typeComment _ _ he => rw [hr] at he; simp at he
  | eof _ he => rw [hr] at he; simp at he
  | badCont _ _ _ he => rw [hr] at he; simp at he
  | @arms ts l2 _ he h1 h2 h3 h4 h5 h6 h7 =>
    have hc := armsCase ts l2
    rw [← he, hr] at hc
    generalize hres : LexRes.ok (Token.sym k s e tr) l' = r at hc
    cases hc with
    | @op a hf hd0 =>
      obtain ⟨g1, g2⟩ := armResult_tok hres.symm
      simp only [Token.sym.injEq] at g1
      obtain ⟨rfl, rfl, rfl, rfl⟩ := g1
      have hm := List.mem_of_find?_eq_some hf
      refine ⟨a.spell, ?_, ?_, ?_⟩
      · rw [h1, ← h3]; exact findArm_longest hf hd0
      · rw [(opArms_spell a hm).2.1, h1, h2]
      · exact g2
    | kw hn hkw =>
      simp only [LexRes.ok.injEq, Token.sym.injEq] at hres
      exfalso
      have hm := lookup_mem hkw
      obtain ⟨w, hw⟩ := hk
      have : ∀ x ∈ operators, ∀ y ∈ keywords, x.2 ≠ y.2 := by decide
      exact this _ hw _ hm hres.1.1
    | pstr => obtain ⟨_, _, h, _⟩ := stringResult_tok hres.symm; simp at h
    | zero => obtain ⟨_, _, h, _⟩ := numResult_tok hres.symm; simp at h
    | dot => obtain ⟨_, _, h, _⟩ := numResult_tok hres.symm; simp at h
    | dec => obtain ⟨_, _, h, _⟩ := numResult_tok hres.symm; simp at h
    | str => obtain ⟨_, _, h, _⟩ := stringResult_tok hres.symm; simp at h
    | bad => simp at hres
    | name hn hk hpf => simp at hres

example : ∃ l l', @Reach asciiUni (cs! "a//=b") l ∧
    @getSymbol asciiUni l = .ok (.sym .PyFloorDivAssign 1 4 none) l' ∧
    (cs! "//=", Kind.PyFloorDivAssign) ∈ operators :=
  letI := asciiUni
  ⟨_, _, .ok .new rfl, rfl, by decide⟩

/-! ### C08, closing brackets -/

/-- C08: after calls that returned the tokens `ts`, with `st` the closing brackets still expected by
`ts` (innermost first), a closing bracket `c` that is not the innermost expected one is an error that
says where it is; it is never returned as a token. -/
theorem C08_mismatch_is_error [Uni] (src : List Char) (ts : List Token) (l : Lexer) (st : List Char)
    (p : Nat) (c : Char) (rest : List Char)
    (hret : Returned (Lexer.new src) ts l) (hst : brRun [] ts = some st) (hp : LexemeAt l p)
    (hsrc : src.drop p = c :: rest) (hc : c ∈ [')', ']', '}']) (hmis : st.head? ≠ some c) :
    ∃ l', getSymbol l = .err (.mismatch p c) l' := by
  have hinv := hret.inv (Inv.new src)
  have hpar : l.parens = st := by
    have := returned_brackets (Inv.new src) hret
    rw [show (Lexer.new src).parens = [] from rfl, hst] at this
    injection this with this; exact this.symm
  have hw : ∃ k, ([c], k) ∈ operators ∧ ∀ w' k', (w', k') ∈ operators → hd w' = c → w' = [c] := by
    have : ∀ c ∈ [')', ']', '}'], (∃ x ∈ operators, x.1 = [c]) ∧
        ∀ x ∈ operators, hd x.1 = c → x.1 = [c] := by decide
    obtain ⟨⟨x, hx, hx1⟩, h2⟩ := this c hc
    exact ⟨x.2, by rw [← hx1]; exact hx, fun w' k' hw' => h2 _ hw'⟩
  obtain ⟨k, hk, huniq⟩ := hw
  have hlong : Longest operators (src.drop p) [c] k := by
    refine ⟨hk, ?_, ?_⟩
    · rw [hsrc]; simp [List.cons_prefix_cons]
    · intro w' k' hw' hpre
      rw [huniq w' k' hw' ?_]
      · exact Nat.le_refl _
      · have hne : ∀ x ∈ operators, x.1 ≠ [] := by decide
        rw [hsrc] at hpre
        cases w' with
        | nil => exact absurd rfl (hne _ hw')
        | cons a w' => simp [List.cons_prefix_cons] at hpre; simp [hpre.1]
  obtain ⟨us, l2, a, hm, hsp, hk, hlen, e, h1, h2, h4⟩ := operator_at hinv hp hlong (by
    rintro ⟨h1, _⟩; rw [hsrc] at h1; simp at h1; subst h1; simp at hc)
  have hcl : ∀ a ∈ opArms, ∀ c ∈ [')', ']', '}'], a.spell = [c] → ∃ k, a.act = .closeB k c := by
    have : opArms.all (fun a => [')', ']', '}'].all fun c => decide (a.spell ≠ [c]) ||
        match a.act with | .closeB _ c' => c' == c | _ => false) = true := by decide
    intro a ha c hc hs
    have := List.all_eq_true.mp (List.all_eq_true.mp this a ha) c hc
    simp only [hs, ne_eq, not_true, decide_false, Bool.false_or] at this
    split at this
    · rename_i k c' hac; exact ⟨k, by rw [hac]; simp at this; rw [this]⟩
    · simp at this
  obtain ⟨k', hact⟩ := hcl a hm c hc hsp
  rw [armResult, hact] at e
  dsimp only at e
  rw [if_neg (by rw [h4, hpar]; exact hmis), h1] at e
  exact ⟨_, e⟩

example : ∃ l, @Returned asciiUni (Lexer.new (cs! "([)")) [.sym .PyLeftParen 0 1 none,
      .sym .PyLeftBracket 1 2 none] l ∧
    brRun [] [.sym .PyLeftParen 0 1 none, .sym .PyLeftBracket 1 2 none] = some [']', ')'] ∧
    @LexemeAt asciiUni l 2 ∧ (cs! "([)").drop 2 = ')' :: [] :=
  letI := asciiUni
  ⟨_, .ok rfl (.ok rfl .nil), rfl, lexemeAt_eval rfl, rfl⟩

/-! ### C13 -/

theorem head_ne_iff {cs : List Char} {q : Char} (hq : q ≠ '\x00') : hd cs = q ↔ cs.head? = some q := by
  cases cs with
  | nil => simp [hq.symm]
  | cons c r => simp

/-- Text of the string literal at the start of `cs`. -/
def strText (q : Char) (cs : List Char) : Option (List Char) :=
  if hd (cs.drop 1) = q ∧ hd (cs.drop 2) = q then
    (tripleBody q (cs.drop 3)).map fun t => q :: q :: q :: t
  else if hd (cs.drop 1) = q then some [q, q]
  else if hd (cs.drop (1 + (lineBody q (cs.drop 1)).length)) = q then
    some (q :: lineBody q (cs.drop 1) ++ [q])
  else none

theorem stringResult_strText (s q pfx ts l) : 
    (∀ txt, strText q l.rest = some txt → stringResult s q pfx ts l =
      .ok (.string s (l.pos + txt.length) (finTrivia ts) txt pfx) (l.fwd txt.length)) ∧
    (strText q l.rest = none → ∃ e l', stringResult s q pfx ts l = .err e l' ∧
      (e = .moreData ∨ ∃ p, e = .unterminated p)) := by
  unfold strText stringResult
  split
  · constructor
    · intro txt ht
      cases hb : tripleBody q (l.rest.drop 3) with
      | none => rw [hb] at ht; simp at ht
      | some b =>
        rw [hb] at ht; simp at ht; subst ht
        simp [Nat.add_comm 3, Nat.add_assoc]
    · intro ht
      cases hb : tripleBody q (l.rest.drop 3) with
      | none => exact ⟨_, _, rfl, .inl rfl⟩
      | some b => rw [hb] at ht; simp at ht
  · split
    · constructor
      · intro txt ht; simp at ht; subst ht; simp
      · intro ht; simp at ht
    · dsimp only
      split
      · constructor
        · intro txt ht; simp at ht; subst ht
          simp [Nat.add_comm 2, Nat.add_assoc]
        · intro ht; simp at ht
      · constructor
        · intro txt ht; simp at ht
        · intro _; exact ⟨_, _, rfl, .inr ⟨_, rfl⟩⟩

theorem tripleBody_iff {q : Char} (hq : q ≠ '\x00') (cs t : List Char) :
    tripleBody q cs = some t ↔ ∃ body rest, cs = body ++ q :: q :: q :: rest ∧ t = body ++ [q, q, q] ∧
      '\x00' ∉ body ∧ ∀ j, j < body.length → ¬ [q, q, q] <+: (body ++ q :: q :: q :: rest).drop j := by
  have hpre : ∀ c cs, [q, q, q] <+: c :: cs ↔ c = q ∧ hd cs = q ∧ hd (cs.drop 1) = q := by
    intro c cs
    cases cs with
    | nil => simp [List.cons_prefix_cons, hq.symm]
    | cons d cs =>
      cases cs with
      | nil => simp [List.cons_prefix_cons, hq.symm]
      | cons e cs => simp [List.cons_prefix_cons, eq_comm]
  induction cs generalizing t with
  | nil => simp [tripleBody]
  | cons c cs ih =>
    simp only [tripleBody]
    by_cases h0 : c = '\x00'
    · rw [if_pos h0]
      constructor
      · intro h; simp at h
      · rintro ⟨body, rest, h, _, hn, _⟩
        cases body with
        | nil => simp at h; exact absurd (h.1.symm.trans h0) hq
        | cons b body => simp at h; exact absurd (by simp [← h.1, h0]) hn
    · rw [if_neg h0]
      by_cases h1 : c = q ∧ hd cs = q ∧ hd (cs.drop 1) = q
      · rw [if_pos h1]
        have hp := (hpre c cs).mpr h1
        constructor
        · intro h
          simp at h; subst h
          obtain ⟨rest, hr⟩ := hp
          exact ⟨[], rest, by simpa using hr.symm, rfl, by simp, by simp⟩
        · rintro ⟨body, rest, h, ht, hn, hj⟩
          cases body with
          | nil => simp [ht]
          | cons b body =>
            exfalso
            apply hj 0 (by simp)
            rw [List.drop_zero, ← h]; exact hp
      · rw [if_neg h1]
        constructor
        · intro h
          cases hb : tripleBody q cs with
          | none => rw [hb] at h; simp at h
          | some t' =>
            rw [hb] at h; simp at h; subst h
            obtain ⟨body, rest, e1, e2, e3, e4⟩ := (ih t').mp hb
            refine ⟨c :: body, rest, by simp [e1], by simp [e2], by simp [e3, Ne.symm h0], ?_⟩
            intro j hj
            cases j with
            | zero =>
              rw [List.drop_zero, List.cons_append, hpre, ← e1]; exact h1
            | succ j =>
              simp only [List.cons_append, List.drop_succ_cons]
              exact e4 j (by simpa using hj)
        · rintro ⟨body, rest, h, ht, hn, hj⟩
          cases body with
          | nil =>
            exfalso; apply h1
            rw [← hpre, h]; exact ⟨rest, rfl⟩
          | cons b body =>
            simp only [List.cons_append, List.cons.injEq] at h
            obtain ⟨rfl, h⟩ := h
            have := (ih (body ++ [q, q, q])).mpr ⟨body, rest, h, rfl, by simp at hn; exact hn.2, by
              intro j hj'
              have := hj (j + 1) (by simpa using hj')
              simpa using this⟩
            rw [this, ht]; simp

theorem strText_iff {q : Char} {cs : List Char} (hq : q = '\'' ∨ q = '"') (hh : hd cs = q) (txt : List Char) :
    strText q cs = some txt ↔ StrLit cs txt := by
  have hq0 : q ≠ '\x00' := by rcases hq with h | h <;> subst h <;> decide
  have hq1 : q ≠ '\r' := by rcases hq with h | h <;> subst h <;> decide
  have hq2 : q ≠ '\n' := by rcases hq with h | h <;> subst h <;> decide
  obtain ⟨r, rfl⟩ : ∃ r, cs = q :: r := (hd_eq_iff hq0).mp hh
  simp only [strText, List.drop_succ_cons, List.drop_zero]
  rw [show (q :: r).drop (1 + (lineBody q r).length) = r.drop (lineBody q r).length by
    rw [Nat.add_comm]; rfl]
  constructor
  · intro h
    split at h
    · rename_i h3
      cases hb : tripleBody q (r.drop 2) with
      | none => rw [hb] at h; simp at h
      | some t =>
        rw [hb] at h; simp at h; subst h
        obtain ⟨body, rest, e1, e2, e3, e4⟩ := (tripleBody_iff hq0 _ _).mp hb
        have : r = q :: q :: (body ++ q :: q :: q :: rest) := by
          match r, h3, e1 with
          | a :: b :: r, h3, e1 => simp at h3 e1; rw [h3.1, h3.2, e1]
          | [a], h3, _ => simp at h3; exact absurd h3.2.symm hq0
          | [], h3, _ => simp at h3; exact absurd h3.symm hq0
        rw [this, e2]
        exact .triple hq e3 e4
    · split at h
      · rename_i h3 h2
        simp at h; subst h
        obtain ⟨r', rfl⟩ := (hd_eq_iff hq0).mp h2
        refine .empty hq ?_
        intro h; rw [← head_ne_iff hq0] at h; apply h3; exact ⟨rfl, by simpa using h⟩
      · rename_i h3 h2
        split at h
        · rename_i h4
          simp at h; subst h
          obtain ⟨r', hr'⟩ := (hd_eq_iff hq0).mp h4
          have hr : r = lineBody q r ++ q :: r' := by
            rw [← hr', lineBody, drop_takeWhile_length, List.takeWhile_append_dropWhile]
          have hall := List.all_takeWhile (l := r)
            (p := fun c => !(c == q || c == '\x00' || c == '\r' || c == '\n'))
          rw [List.all_eq_true] at hall
          have hmem : ∀ c ∈ lineBody q r, c ≠ q ∧ c ≠ '\x00' ∧ c ≠ '\r' ∧ c ≠ '\n' := by
            intro c hc
            have := hall c hc
            simpa [and_assoc] using this
          have : StrLit (q :: (lineBody q r ++ q :: r')) (q :: (lineBody q r ++ [q])) := by
            refine .line hq ?_ ?_ ?_ ?_ ?_
            · intro he; rw [he] at hr; simp at hr; rw [hr] at h2; simp at h2
            · exact fun h => (hmem _ h).1 rfl
            · exact fun h => (hmem _ h).2.2.1 rfl
            · exact fun h => (hmem _ h).2.2.2 rfl
            · exact fun h => (hmem _ h).2.1 rfl
          rw [← hr] at this; exact this
        · simp at h
  · intro h
    cases h with
    | @empty _ rest hq' hne =>
      rw [if_neg, if_pos (by simp)]
      rintro ⟨_, h⟩
      apply hne
      rw [← head_ne_iff hq0]; simpa using h
    | @line _ body rest hq' hne h1 h2 h3 h4 =>
      have hb : lineBody q (body ++ q :: rest) = body := by
        unfold lineBody
        have : ∀ (b : List Char), (∀ c ∈ b, c ≠ q ∧ c ≠ '\x00' ∧ c ≠ '\r' ∧ c ≠ '\n') →
            (b ++ q :: rest).takeWhile (fun c => !(c == q || c == '\x00' || c == '\r' || c == '\n')) = b := by
          intro b
          induction b with
          | nil => intro _; simp
          | cons c b ih =>
            intro hc
            have h := hc c (by simp)
            rw [List.cons_append, List.takeWhile_cons, if_pos (by simp [h]), ih fun c h => hc c (by simp [h])]
        exact this body fun c hc => ⟨fun h => h1 (h ▸ hc), fun h => h4 (h ▸ hc), fun h => h2 (h ▸ hc),
          fun h => h3 (h ▸ hc)⟩
      have hn : hd (body ++ q :: rest) ≠ q := by
        cases body with
        | nil => exact absurd rfl hne
        | cons c b => simp at h1 ⊢; exact Ne.symm h1.1
      rw [if_neg (fun h => hn h.1), if_neg hn, hb]
      simp
    | @triple _ body rest hq' h1 h2 =>
      rw [if_pos (by simp)]
      have := (tripleBody_iff hq0 (body ++ q :: q :: q :: rest) (body ++ [q, q, q])).mpr
        ⟨body, rest, rfl, rfl, h1, h2⟩
      simp [this]

theorem StrLit.quote {cs txt} (h : StrLit cs txt) : hd cs = '\'' ∨ hd cs = '"' := by
  cases h <;> simp_all

/-- The string results at the start of a lexeme. -/
theorem string_at [Uni] {src l p pfx cs} (h : Inv src l) (hp : LexemeAt l p)
    (hsrc : src.drop p = pfx ++ cs) (hpfx : pfx = [] ∨ pfx ∈ pyPrefixes)
    (hq : hd cs = '\'' ∨ hd cs = '"') :
    ∃ ts l2, l2.rest = cs ∧ l2.pos = p + pfx.length ∧
      getSymbol l = stringResult p (hd cs) (if pfx = [] then none else some pfx) ts l2 := by
  rcases hpfx with rfl | hpfx
  · simp only [List.nil_append] at hsrc
    obtain ⟨ts, l2, e, h1, h2, h3, h4, _⟩ := arms_at h hp (by
      rw [hsrc]; rcases hq with h | h <;> rw [h] <;> decide)
    refine ⟨ts, l2, by rw [h3, hsrc], by simpa using h2, ?_⟩
    have hr : l2.rest = cs := by rw [h3, hsrc]
    have n1 : isNameStart (hd cs) = false := by
      rcases hq with h | h <;> rw [h] <;> simp [isNameStart, isAlphabetic, isAsciiLetter]
    have n2 : hd cs ≠ '0' ∧ hd cs ≠ '.' ∧ isDigit (hd cs) = false := by
      rcases hq with h | h <;> rw [h] <;> decide
    rw [e, armsResult, hr, findArm_quote hq]
    simp [n1, n2, hq, h1]
  · have hk : ∀ w ∈ pyPrefixes, w ≠ [] ∧ (isAsciiLetter (hd w) = true) ∧ w.all isAsciiLetter = true ∧
        keywords.lookup w = none ∧ stringPrefixes.contains w = true := by decide
    obtain ⟨k1, k2, k3, k4, k5⟩ := hk _ hpfx
    have hlt : ∀ c, isAsciiLetter c = true → c.toNat < 128 := by
      intro c hc; simp only [isAsciiLetter, Bool.or_eq_true, Bool.and_eq_true, decide_eq_true_eq] at hc
      omega
    obtain ⟨ts, l2, e1, e2, e3, e4, e⟩ := names_at h hp hsrc
      (by simp [isNameStart, isAlphabetic, hlt _ k2, k2]) k1
      (by
        intro c hc
        have := List.all_eq_true.mp k3 c hc
        simp [isNameChar, isAlphanumeric, hlt _ this, this])
      (by
        intro c hc
        cases cs with
        | nil => simp at hc
        | cons d r =>
          simp at hc hq; subst hc
          rcases hq with h | h <;> subst h <;>
            simp [isNameChar, isAlphanumeric, isAsciiLetter, isDigit])
    rw [k4] at e
    dsimp only at e
    rw [if_pos ⟨k5, hq⟩] at e
    refine ⟨ts, l2.fwd pfx.length, by rw [rest_fwd, e3]; simp, by simp [e2], ?_⟩
    rw [e, if_neg k1]

/-- C13: a string literal at the start of a lexeme, with or without a prefix, is returned as one
string token with exactly its text, its prefix and its span. -/
theorem C13_string [Uni] (src : List Char) (l : Lexer) (p : Nat) (pfx cs txt : List Char)
    (h : Reach src l) (hp : LexemeAt l p) (hsrc : src.drop p = pfx ++ cs)
    (hpfx : pfx = [] ∨ pfx ∈ pyPrefixes) (hlit : StrLit cs txt) :
    ∃ tr l', getSymbol l = .ok (.string p (p + pfx.length + txt.length) tr txt
      (if pfx = [] then none else some pfx)) l' ∧ l'.buf.index = p + pfx.length + txt.length := by
  have hq := hlit.quote
  obtain ⟨ts, l2, h1, h2, e⟩ := string_at h.inv hp hsrc hpfx hq
  have := (stringResult_strText p (hd cs) (if pfx = [] then none else some pfx) ts l2).1 txt
    (by rw [h1]; exact (strText_iff hq rfl txt).mpr hlit)
  rw [this, h2] at e
  refine ⟨_, _, e, ?_⟩
  rw [← h2]; rfl

example : ∃ l, @Reach asciiUni (cs! "x=rf'a b'+1") l ∧ @LexemeAt asciiUni l 2 ∧
    (cs! "x=rf'a b'+1").drop 2 = cs! "rf" ++ cs! "'a b'+1" ∧ cs! "rf" ∈ pyPrefixes ∧
    StrLit (cs! "'a b'+1") (cs! "'a b'") :=
  letI := asciiUni
  ⟨_, .ok (.ok .new rfl) rfl, lexemeAt_eval rfl, rfl, by decide,
    .line (body := cs! "a b") (.inl rfl) (by decide) (by decide) (by decide) (by decide) (by decide)⟩

/-- C13: an opening quote (with or without prefix) that is not the start of a complete string literal
is an error, never a token. -/
theorem C13_unterminated [Uni] (src : List Char) (l : Lexer) (p : Nat) (pfx cs : List Char)
    (h : Reach src l) (hp : LexemeAt l p) (hsrc : src.drop p = pfx ++ cs)
    (hpfx : pfx = [] ∨ pfx ∈ pyPrefixes) (hq : cs.head? = some '\'' ∨ cs.head? = some '"')
    (hlit : ¬ ∃ txt, StrLit cs txt) :
    ∃ e l', getSymbol l = .err e l' ∧ (e = .moreData ∨ ∃ pos, e = .unterminated pos) := by
  have hq' : hd cs = '\'' ∨ hd cs = '"' := by
    rwa [head_ne_iff (by decide), head_ne_iff (by decide)]
  obtain ⟨ts, l2, h1, h2, e⟩ := string_at h.inv hp hsrc hpfx hq'
  rw [e]
  apply (stringResult_strText p (hd cs) (if pfx = [] then none else some pfx) ts l2).2
  rw [h1]
  cases hs : strText (hd cs) cs with
  | none => rfl
  | some txt => exact absurd ⟨txt, (strText_iff hq' rfl txt).mp hs⟩ hlit

example : ∃ l, @Reach asciiUni (cs! "x='ab\n'") l ∧ @LexemeAt asciiUni l 2 ∧
    (cs! "x='ab\n'").drop 2 = [] ++ cs! "'ab\n'" ∧ ¬ ∃ txt, StrLit (cs! "'ab\n'") txt :=
  letI := asciiUni
  ⟨_, .ok (.ok .new rfl) rfl, lexemeAt_eval rfl, rfl, fun ⟨txt, h⟩ => by
    have := (strText_iff (q := '\'') (.inl rfl) rfl txt).mpr h
    exact absurd this (by rw [show strText '\'' (cs! "'ab\n'") = none from by decide]; simp)⟩

/-- C13, converse: a string token is its prefix and a string literal of the text, at its span. -/
theorem C13_string_text [Uni] (src : List Char) (l l' : Lexer) (s e : Nat) (tr : Trivs)
    (txt : List Char) (pfx : Option (List Char)) (h : Reach src l)
    (hr : getSymbol l = .ok (.string s e tr txt pfx) l') :
    ∃ cs, src.drop s = pfx.getD [] ++ cs ∧ StrLit cs txt ∧ (∀ w, pfx = some w → w ∈ pyPrefixes) ∧
      e = s + (pfx.getD []).length + txt.length ∧ l'.buf.index = e := by
  have hat := atOut h.inv (lexemeAt_of_ok hr (by simp [Token.kind]) (by simp [Token.kind]))
  generalize l'.tokStart = p at hat
  have key : ∀ (q : Char) (pfx' : Option (List Char)) ts l3 s', (q = '\'' ∨ q = '"') → hd l3.rest = q →
      LexRes.ok (Token.string s e tr txt pfx) l' = stringResult s' q pfx' ts l3 →
      s = s' ∧ pfx = pfx' ∧ StrLit l3.rest txt ∧ e = l3.pos + txt.length ∧ l'.buf.index = e := by
    intro q pfx' ts l3 s' hq hh hres
    cases hs : strText q l3.rest with
    | none =>
      obtain ⟨_, _, h, _⟩ := (stringResult_strText s' q pfx' ts l3).2 hs
      rw [h] at hres; simp at hres
    | some t =>
      have h := (stringResult_strText s' q pfx' ts l3).1 t hs
      rw [h] at hres
      simp only [LexRes.ok.injEq, Token.string.injEq] at hres
      obtain ⟨⟨rfl, rfl, _, rfl, rfl⟩, rfl⟩ := hres
      exact ⟨rfl, rfl, (strText_iff hq hh _).mp hs, rfl, rfl⟩
  cases hat with
  | newline _ he => rw [hr] at he; simp at he
  | typeComment _ _ he => rw [hr] at he; simp at he
  | eof _ he => rw [hr] at he; simp at he
  | badCont _ _ _ he => rw [hr] at he; simp at he
  | @arms ts l2 _ he h1 h2 h3 h4 h5 h6 h7 =>
    have hc := armsCase ts l2
    rw [← he, hr] at hc
    generalize hres : LexRes.ok (Token.string s e tr txt pfx) l' = r at hc
    cases hc with
    | op => have := (armResult_tok hres.symm).1; simp at this
    | kw => simp at hres
    | zero => obtain ⟨_, _, h, _⟩ := numResult_tok hres.symm; simp at h
    | dot => obtain ⟨_, _, h, _⟩ := numResult_tok hres.symm; simp at h
    | dec => obtain ⟨_, _, h, _⟩ := numResult_tok hres.symm; simp at h
    | bad => simp at hres
    | name hn hk hpf => simp at hres
    | pstr hn hk hpf hq =>
      obtain ⟨rfl, rfl, g3, g4, g5⟩ := key _ _ _ (l2.fwd (word l2.rest).length) _ hq (by simp) hres
      refine ⟨l2.rest.drop (word l2.rest).length, ?_, by simpa using g3, ?_, ?_, g5⟩
      · rw [h1, ← h3, Option.getD_some, word, drop_takeWhile_length, List.takeWhile_append_dropWhile]
      · intro w hw; injection hw with hw; subst hw; exact (prefixes_eq _).mp hpf
      · rw [g4, h1, pos_fwd, h2]; rfl
    | str hq =>
      obtain ⟨rfl, rfl, g3, g4, g5⟩ := key _ _ _ l2 _ hq rfl hres
      refine ⟨l2.rest, by rw [h1, h3]; rfl, g3, by simp, ?_, g5⟩
      rw [g4, h1, h2]; rfl

example : ∃ l l', @Reach asciiUni (cs! "u\"\"\"a\"b\"\"\"") l ∧ @getSymbol asciiUni l =
    .ok (.string 0 10 none (cs! "\"\"\"a\"b\"\"\"") (some (cs! "u"))) l' :=
  letI := asciiUni
  ⟨_, _, .new, rfl⟩

/-- C13: the literal at the start of a text is unique. -/
theorem C13_literal_unique (cs t t' : List Char) (h : StrLit cs t) (h' : StrLit cs t') : t = t' := by
  have h1 := (strText_iff h.quote rfl t).mpr h
  have h2 := (strText_iff h.quote rfl t').mpr h'
  rw [h1] at h2; injection h2

example : StrLit (cs! "''x'") (cs! "''") := .empty (.inl rfl) (by decide)

/-! ### C18 -/

/-- C18: a character at the start of a lexeme with which no token can start is reported as a lexical
error at its position; so does every later call, and nothing is skipped. -/
theorem C18_lexical_error_sticks [Uni] (src : List Char) (l : Lexer) (p : Nat) (c : Char)
    (rest : List Char) (h : Reach src l) (hp : LexemeAt l p) (hsrc : src.drop p = c :: rest)
    (h1 : c ∉ [' ', '\t', '#', '\x00', '\r', '\n', '\\', '\'', '"'])
    (h2 : isNameStart c = false) (h3 : isDigit c = false)
    (h4 : ∀ w k, (w, k) ∈ operators → ¬ w <+: src.drop p) (n : Nat) :
    (∀ m, m ≤ n → ∃ l', getSymbol (callTimes m l) = .err (.lexical p c) l') ∧
      (callTimes (n + 1) l).buf.index = p := by
  have hd0 : ¬ dotDigit (src.drop p) := by
    rintro ⟨h, _⟩
    apply h4 (cs! ".") .PyDot (by decide)
    rw [hsrc] at h ⊢; simp at h; subst h; exact ⟨rest, rfl⟩
  have hskip : hd (src.drop p) ∉ [' ', '\t', '#', '\x00', '\r', '\n', '\\'] := by
    rw [hsrc]; simp only [List.mem_cons, not_or] at h1 ⊢; simp [h1]
  -- one call
  have one : ∀ l, Inv src l → LexemeAt l p → ∃ l2, getSymbol l = .err (.lexical p c) l2 ∧
      Inv src l2 ∧ l2.pos = p ∧ l2.bol = false ∧ l2.pending = 0 := by
    intro l hi hp
    obtain ⟨ts, l2, e, g1, g2, g3, g4, g5, g6, g7⟩ := arms_at hi hp hskip
    refine ⟨l2, ?_, g7, g2, g5, g6⟩
    have hf : findArm (hd (src.drop p), hd ((src.drop p).drop 1), hd ((src.drop p).drop 2)) = none := by
      cases hf : findArm (hd (src.drop p), hd ((src.drop p).drop 1), hd ((src.drop p).drop 2)) with
      | none => rfl
      | some a =>
        have := findArm_longest hf hd0
        exact absurd this.2.1 (h4 _ _ this.1)
    rw [e, armsResult, g3, hf]
    have hc0 : c ≠ '0' := by rintro rfl; exact absurd h3 (by decide)
    have hq : ¬ (c = '\'' ∨ c = '"') := by simp only [List.mem_cons, not_or] at h1; simp [h1]
    have hdd : ¬ (c = '.' ∧ isDigit (hd (rest)) = true) := by
      rintro ⟨ha, hb⟩; apply hd0; rw [hsrc]; exact ⟨ha, by simpa using hb⟩
    dsimp only
    rw [hsrc, hd_cons, if_neg (by simp [h2]), if_neg hc0, if_neg (by simpa using hdd),
      if_neg (by simp [h3]), if_neg hq, g2]
  -- later calls start the same lexeme
  have again : ∀ l, Inv src l → l.pos = p → l.bol = false → l.pending = 0 → LexemeAt l p := by
    intro l hi hpos hb hpe
    rw [← hpos]
    exact lexemeAt_here hi hb hpe (by rw [hi.rest_eq, hpos]; exact hskip)
  have all : ∀ m l, Inv src l → LexemeAt l p → ∃ l2, getSymbol (callTimes m l) = .err (.lexical p c) l2 ∧
      Inv src l2 ∧ l2.pos = p ∧ l2.bol = false ∧ l2.pending = 0 := by
    intro m
    induction m with
    | zero => exact one
    | succ m ih =>
      intro l hi hp
      obtain ⟨l2, e, i1, i2, i3, i4⟩ := one l hi hp
      rw [callTimes, e]
      exact ih l2 i1 (again l2 i1 i2 i3 i4)
  constructor
  · intro m _
    obtain ⟨l2, e, _⟩ := all m l h.inv hp
    exact ⟨l2, e⟩
  · obtain ⟨l2, e, _, hpos, _⟩ := all n l h.inv hp
    have : ∀ n (l : Lexer), callTimes (n + 1) l = (getSymbol (callTimes n l)).lexer := by
      intro n
      induction n with
      | zero => intro l; rfl
      | succ n ih => intro l; rw [callTimes, ih]; rfl
    rw [this, e]; exact hpos

example : ∃ l, @Reach asciiUni (cs! "a $b") l ∧ @LexemeAt asciiUni l 2 ∧
    (cs! "a $b").drop 2 = '$' :: cs! "b" ∧ @isNameStart asciiUni '$' = false ∧
    ∀ x ∈ operators, ¬ x.1 <+: (cs! "a $b").drop 2 :=
  letI := asciiUni
  ⟨_, .ok .new rfl, lexemeAt_eval rfl, rfl, by decide, by decide⟩

end Verif
