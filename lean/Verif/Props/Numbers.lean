import Verif.Proof.Numbers
import Verif.Props.Words

/-!
# Tokenizer: numbers (C14)

`DecNumber false` and `RadixNumber` (in `Spec/Lexemes.lean`) are the numeric literals of the language
reference, except those decimal ones that start with `0`.  `DecNumber true` also has exponents
without digits.

The full property is false of the code: literals that start with `0` and are not in another radix
swallow the next character (`C14_zero_swallows`), and exponents without digits are accepted
(`C14_bad_exponent_accepted`).
-/

set_option linter.unusedSimpArgs false

namespace Verif
attribute [-simp] List.drop_one List.tail_drop

theorem isDigit_not_name [Uni] {c : Char} (h : isDigit c = true) : isNameStart c = false := by
  simp only [isDigit, Bool.and_eq_true, decide_eq_true_eq] at h
  have hlt : c.toNat < 128 := by omega
  have : c ≠ '_' := by rintro rfl; exact absurd h (by decide)
  have hl : isAsciiLetter c = false := by
    simp only [isAsciiLetter, Bool.or_eq_false_iff, Bool.and_eq_false_iff, decide_eq_false_iff_not]
    omega
  simp [isNameStart, isAlphabetic, hlt, hl, this]

theorem isDigit_not_skip {c : Char} (h : isDigit c = true) :
    c ∉ [' ', '\t', '#', '\x00', '\r', '\n', '\\'] := by
  intro hc
  simp only [List.mem_cons, List.not_mem_nil, or_false] at hc
  rcases hc with rfl | rfl | rfl | rfl | rfl | rfl | rfl <;> exact absurd h (by decide)

/-- Which scanner reads a number. -/
theorem number_at [Uni] {src l p} (h : Inv src l) (hp : LexemeAt l p)
    (hc : isDigit (hd (src.drop p)) = true ∨ dotDigit (src.drop p)) :
    ∃ ts l2, l2.tokStart = p ∧ l2.pos = p ∧ l2.rest = src.drop p ∧
      getSymbol l = numResult (if hd (src.drop p) = '0' then zeroScan
        else if hd (src.drop p) = '.' then dotScan else decScan) ts l2 := by
  obtain ⟨ts, l2, e, h1, h2, h3, h4, _⟩ := arms_at h hp (by
    rcases hc with hc | hc
    · exact isDigit_not_skip hc
    · rw [hc.1]; decide)
  refine ⟨ts, l2, h1, h2, h3, ?_⟩
  rw [e, armsResult, h3]
  rcases hc with hc | hc
  · rw [findArm_digit hc]
    dsimp only
    rw [if_neg (by simp [isDigit_not_name hc])]
    split
    · rfl
    · rename_i h0
      have hd : hd (src.drop p) ≠ '.' := by intro h; rw [h] at hc; exact absurd hc (by decide)
      rw [if_neg hd, if_neg (fun h => hd h.1)]
  · rw [findArm_dotDigit hc]
    dsimp only
    have hn : isNameStart (hd (src.drop p)) = false := by
      rw [hc.1]; simp [isNameStart, isAlphabetic, isAsciiLetter]
    rw [if_neg (by simp [hn]), if_neg (by rw [hc.1]; decide), if_pos ⟨hc.1, hc.2⟩,
      if_neg (by rw [hc.1]; decide), if_pos hc.1]

theorem DigitTail.ends {d : Char → Bool}
    (hsub : ∀ c, d c = true → isDigit c = true ∨ isAsciiLetter c = true) {rest} (h : NumEnd rest) :
    Ends d rest := by
  refine ⟨?_, h.2.1⟩
  cases hd' : d (hd rest) with
  | false => rfl
  | true =>
    rcases hsub _ hd' with h' | h'
    · rw [h.1] at h'; simp at h'
    · rw [h.2.2.2] at h'; simp at h'

theorem hexDigit_sub (c : Char) (h : isHexDigit c = true) : isDigit c = true ∨ isAsciiLetter c = true := by
  simp only [isHexDigit, isDigit, isAsciiLetter, Bool.or_eq_true, Bool.and_eq_true, decide_eq_true_eq] at h ⊢
  omega
theorem octDigit_sub (c : Char) (h : isOctDigit c = true) : isDigit c = true ∨ isAsciiLetter c = true := by
  simp only [isOctDigit, isDigit, isAsciiLetter, Bool.or_eq_true, Bool.and_eq_true, decide_eq_true_eq] at h ⊢
  omega
theorem binDigit_sub (c : Char) (h : isBinDigit c = true) : isDigit c = true ∨ isAsciiLetter c = true := by
  simp only [isBinDigit, isDigit, isAsciiLetter, Bool.or_eq_true, Bool.and_eq_true, decide_eq_true_eq,
    beq_iff_eq] at h ⊢
  rcases h with rfl | rfl <;> decide

/-- The scanner and its result for a valid literal. -/
theorem scan_exact {txt rest : List Char} (hlit : DecNumber false txt ∨ RadixNumber txt) (he : NumEnd rest) :
    (isDigit (hd (txt ++ rest)) = true ∨ dotDigit (txt ++ rest)) ∧
    (if hd (txt ++ rest) = '0' then zeroScan
        else if hd (txt ++ rest) = '.' then dotScan else decScan) (txt ++ rest) = .ok txt := by
  rcases hlit with ⟨m, ex, im, rfl, hm, h1, h2⟩ | ⟨x, ds, rfl, hne, hx⟩
  · by_cases hdg : isDigit (hd m) = true
    · have hm0 : hd m ≠ '0' := by
        cases hm with
        | int hp hz => obtain ⟨c, u, rfl, _⟩ := hp; simpa using hz
        | point hp hz => obtain ⟨c, u, rfl, _⟩ := hp; simpa using hz
        | frac hp hz => obtain ⟨c, u, rfl, _⟩ := hp; simpa using hz
        | dot => simp
      have hm1 : hd m ≠ '.' := by intro h; rw [h] at hdg; exact absurd hdg (by decide)
      have hmm : hd (m ++ (ex ++ im) ++ rest) = hd m := by
        cases m with
        | nil => exact absurd hdg (by decide)
        | cons c m => rfl
      rw [hmm]
      refine ⟨.inl hdg, ?_⟩
      rw [if_neg hm0, if_neg hm1]
      exact decScan_exact hm h1 h2 he hdg
    · cases hm with
      | int hp hz => obtain ⟨c, u, rfl, h, _⟩ := DigitPart.iff.1 hp; exact absurd (by simpa using h) hdg
      | point hp hz => obtain ⟨c, u, rfl, h, _⟩ := DigitPart.iff.1 hp; exact absurd (by simpa using h) hdg
      | frac hp hz => obtain ⟨c, u, rfl, h, _⟩ := DigitPart.iff.1 hp; exact absurd (by simpa using h) hdg
      | dot hf =>
        refine ⟨.inr ⟨rfl, ?_⟩, ?_⟩
        · obtain ⟨c, u, rfl, h, _⟩ := DigitPart.iff.1 hf; simpa using h
        · rw [if_neg (by simp), if_pos (by simp)]
          exact dotScan_exact hf h1 h2 he
  · refine ⟨.inl (by simp; decide), ?_⟩
    rw [if_pos (by simp)]
    have key : ∀ r (d : Char → Bool), d '\x00' = false → d '_' = false →
        (∀ c, d c = true → isDigit c = true ∨ isAsciiLetter c = true) → DigitTail d ds →
        zeroScan ('0' :: x :: (ds ++ rest)) =
          (if d (hd (ds ++ rest)) = true ∨ hd (ds ++ rest) = '_' then
            preRes ['0', x] (digitRun d (fun p => .badRadix p r) (ds ++ rest))
            else .error ((fun p => .badRadix p r), 2)) → 
        zeroScan ('0' :: x :: ds ++ rest) = .ok ('0' :: x :: ds) := by
      intro r d hd0 hu hsub ht hz
      rw [List.cons_append, List.cons_append, hz, if_pos, digitRun_append ht hu,
        digitRun_ends (DigitTail.ends hsub he)]
      · simp [preRes]
      · cases ht with
        | nil => exact absurd rfl hne
        | digit h _ => exact .inl h
        | under h _ => exact .inr rfl
    rw [isHex_eq, isOct_eq, isBin_eq] at hx
    rcases hx with ⟨hx, ht⟩ | ⟨hx, ht⟩ | ⟨hx, ht⟩
    · exact key 'x' isHexDigit (by decide) (by decide) hexDigit_sub ht
        (zeroScan_radix 'x' isHexDigit (.inl ⟨hx, rfl, rfl⟩))
    · exact key 'o' isOctDigit (by decide) (by decide) octDigit_sub ht
        (zeroScan_radix 'o' isOctDigit (.inr (.inl ⟨hx, rfl, rfl⟩)))
    · exact key 'b' isBinDigit (by decide) (by decide) binDigit_sub ht
        (zeroScan_radix 'b' isBinDigit (.inr (.inr ⟨hx, rfl, rfl⟩)))

theorem numEnd_of {rest : List Char} (h : ∀ c, rest.head? = some c → isDigit c = false ∧
    isAsciiLetter c = false ∧ c ≠ '_' ∧ c ≠ '.') : NumEnd rest := by
  cases rest with
  | nil => exact ⟨by decide, by decide, by decide, by decide⟩
  | cons c r =>
    obtain ⟨h1, h2, h3, h4⟩ := h c rfl
    exact ⟨h1, h3, h4, h2⟩

/-- C14, for literals that do not start with `0` or are in another radix: the literal is returned as
one number token with exactly its text and span, whatever follows that is not a letter, digit,
underscore or dot. -/
theorem C14_number_partial [Uni] (src : List Char) (l : Lexer) (p : Nat) (txt rest : List Char)
    (h : Reach src l) (hp : LexemeAt l p) (hsrc : src.drop p = txt ++ rest)
    (hlit : DecNumber false txt ∨ RadixNumber txt)
    (hrest : ∀ c, rest.head? = some c → isDigit c = false ∧ isAsciiLetter c = false ∧ c ≠ '_' ∧ c ≠ '.') :
    ∃ tr l', getSymbol l = .ok (.number p (p + txt.length) tr txt) l' ∧
      l'.buf.index = p + txt.length := by
  obtain ⟨g1, g2⟩ := scan_exact hlit (numEnd_of hrest)
  rw [← hsrc] at g1 g2
  obtain ⟨ts, l2, h1, h2, h3, e⟩ := number_at h.inv hp g1
  rw [numResult, h3, g2] at e
  dsimp only at e
  rw [h1, h2] at e
  refine ⟨_, _, e, ?_⟩
  rw [← h2]; rfl

example : ∃ l rest, @Reach asciiUni (cs! "x=1_0.5e-3j+y") l ∧ @LexemeAt asciiUni l 2 ∧
    (cs! "x=1_0.5e-3j+y").drop 2 = cs! "1_0.5e-3j" ++ rest ∧ rest.head? = some '+' ∧
    DecNumber false (cs! "1_0.5e-3j") :=
  letI := asciiUni
  ⟨_, _, .ok (.ok .new rfl) rfl, lexemeAt_eval rfl, rfl, rfl,
    cs! "1_0.5", cs! "e-3", cs! "j", rfl,
    .frac (ds := cs! "1_0") ⟨'1', cs! "_0", rfl, by decide, .under (by decide) .nil⟩ (by decide)
      ⟨'5', [], rfl, by decide, .nil⟩,
    .inr ⟨'e', ['-'], ['3'], rfl, .inl rfl, .inr (.inr rfl), '3', [], rfl, by decide, .nil⟩,
    .inr (.inl rfl)⟩
example : ∃ l rest, @Reach asciiUni (cs! "0xF_f;") l ∧ @LexemeAt asciiUni l 0 ∧
    (cs! "0xF_f;").drop 0 = cs! "0xF_f" ++ rest ∧ rest.head? = some ';' ∧ RadixNumber (cs! "0xF_f") :=
  letI := asciiUni
  ⟨_, _, .new, lexemeAt_eval rfl, rfl, rfl, 'x', cs! "F_f", rfl, by decide,
    .inl ⟨.inl rfl, .digit (by decide) (.under (by decide) .nil)⟩⟩

/-- C14, converse, for tokens that do not start with `0` or are in another radix: a number token
carries the source text of its span, which is a literal (up to missing exponent digits), and no longer
piece of the text from there on is one. -/
theorem C14_number_text_partial [Uni] (src : List Char) (l l' : Lexer) (s e : Nat) (tr : Trivs)
    (txt : List Char) (h : Reach src l) (hr : getSymbol l = .ok (.number s e tr txt) l')
    (h0 : ∀ rest, src.drop s = '0' :: rest → ∃ x r, rest = x :: r ∧ x ∈ ['x', 'X', 'o', 'O', 'b', 'B']) :
    ∃ rest, src.drop s = txt ++ rest ∧ e = s + txt.length ∧ l'.buf.index = e ∧
      (DecNumber true txt ∨ RadixNumber txt) ∧
      ∀ t', DecNumber true t' ∨ RadixNumber t' → t' <+: src.drop s → t'.length ≤ txt.length := by
  have hat := atOut h.inv (lexemeAt_of_ok hr (by simp [Token.kind]) (by simp [Token.kind]))
  generalize l'.tokStart = p at hat
  have hdot : ∀ {t' : List Char}, RadixNumber t' → hd t' = '0' ∧ t' ≠ [] := by
    rintro t' ⟨x, ds, rfl, _⟩; simp
  cases hat with
  | newline _ he => rw [hr] at he; simp at he
  | typeComment _ _ he => rw [hr] at he; simp at he
  | eof _ he => rw [hr] at he; simp at he
  | badCont _ _ _ he => rw [hr] at he; simp at he
  | @arms ts l2 _ he h1 h2 h3 h4 h5 h6 h7 =>
    have hc := armsCase ts l2
    rw [← he, hr] at hc
    generalize hres : LexRes.ok (Token.number s e tr txt) l' = r at hc
    cases hc with
    | op => have := (armResult_tok hres.symm).1; simp at this
    | kw => simp at hres
    | bad => simp at hres
    | name hn hk hpf => simp at hres
    | pstr => obtain ⟨_, _, h, _⟩ := stringResult_tok hres.symm; simp at h
    | str => obtain ⟨_, _, h, _⟩ := stringResult_tok hres.symm; simp at h
    | dot hdd =>
      obtain ⟨t, ht, htok, rfl⟩ := numResult_tok hres.symm
      simp only [Token.number.injEq] at htok
      obtain ⟨rfl, rfl, _, rfl⟩ := htok
      obtain ⟨g1, rest, g2⟩ := dotScan_sound ht hdd
      rw [h3] at g2 ht hdd
      rw [h1]
      refine ⟨rest, g2, by rw [h2], rfl, .inl g1, ?_⟩
      rintro t' ht' ⟨r', hr'⟩
      rw [← hr'] at ht hdd
      rcases ht' with ht' | ht'
      · exact dotScan_longest ht' ht hdd
      · obtain ⟨a, b⟩ := hdot ht'
        have := hdd.1
        cases t' with
        | nil => exact absurd rfl b
        | cons c t' => simp at this a; rw [this] at a; exact absurd a (by decide)
    | dec hdg hz =>
      obtain ⟨t, ht, htok, rfl⟩ := numResult_tok hres.symm
      simp only [Token.number.injEq] at htok
      obtain ⟨rfl, rfl, _, rfl⟩ := htok
      obtain ⟨g1, rest, g2⟩ := decScan_sound ht hdg hz
      rw [h3] at g2 ht hdg hz
      rw [h1]
      refine ⟨rest, g2, by rw [h2], rfl, .inl g1, ?_⟩
      rintro t' ht' ⟨r', hr'⟩
      rw [← hr'] at ht hdg hz
      rcases ht' with ht' | ht'
      · exact decScan_longest ht' ht hdg
      · obtain ⟨a, b⟩ := hdot ht'
        cases t' with
        | nil => exact absurd rfl b
        | cons c t' => simp at hz a; exact absurd a hz
    | zero hz =>
      obtain ⟨t, ht, htok, rfl⟩ := numResult_tok hres.symm
      simp only [Token.number.injEq] at htok
      obtain ⟨rfl, rfl, _, rfl⟩ := htok
      rw [h3] at ht hz
      rw [h1] at h0 ⊢
      obtain ⟨r0, hr0⟩ := (hd_eq_iff (by decide)).mp hz
      obtain ⟨x, r, rfl, hx⟩ := h0 r0 hr0
      rw [hr0] at ht ⊢
      have key : ∀ rc (d : Char → Bool), d '\x00' = false → d '_' = false →
          (∀ u, DigitTail d u → u ≠ [] → RadixNumber ('0' :: x :: u)) →
          (∀ t' : List Char, RadixNumber ('0' :: x :: t') → DigitTail d t') →
          zeroScan ('0' :: x :: r) =
            (if d (hd r) = true ∨ hd r = '_' then
              preRes ['0', x] (digitRun d (fun p => .badRadix p rc) r)
              else .error ((fun p => .badRadix p rc), 2)) →
          ∃ rest, '0' :: x :: r = txt ++ rest ∧ (DecNumber true txt ∨ RadixNumber txt) ∧
            ∀ t', DecNumber true t' ∨ RadixNumber t' → t' <+: '0' :: x :: r → t'.length ≤ txt.length := by
        intro rc d hd0 hu hmk hinv hz
        rw [hz] at ht
        split at ht
        · rename_i hfirst
          obtain ⟨u, hu', rfl⟩ := preRes_ok ht
          obtain ⟨rest, rfl, hut, hue⟩ := digitRun_ok hd0 hu hu'
          have hune : u ≠ [] := by
            rintro rfl
            simp only [List.nil_append] at hfirst
            rcases hfirst with h | h
            · rw [hue.1] at h; simp at h
            · exact hue.2 h
          refine ⟨rest, rfl, .inr (hmk u hut hune), ?_⟩
          rintro t' ht' ⟨r', hr'⟩
          rcases ht' with ht' | ht'
          · exfalso
            obtain ⟨m, ex, im, rfl, hm, _⟩ := ht'
            have hhd : hd m = '0' ∨ m = [] := by
              cases m with
              | nil => exact .inr rfl
              | cons c m => simp at hr'; exact .inl (by simpa using hr'.1)
            cases hm with
            | int hp hz => obtain ⟨c, v, rfl, _⟩ := hp; simp at hz hhd; exact hz hhd
            | point hp hz => obtain ⟨c, v, rfl, _⟩ := hp; simp at hz hhd; exact hz hhd
            | frac hp hz => obtain ⟨c, v, rfl, _⟩ := hp; simp at hz hhd; exact hz hhd
            | dot => simp at hhd
          · obtain ⟨x', ds, rfl, hne, hx'⟩ := ht'
            simp only [List.cons_append, List.cons.injEq, true_and] at hr'
            obtain ⟨rfl, hr'⟩ := hr'
            have hds := hinv ds ⟨_, _, rfl, hne, hx'⟩
            rw [← hr', digitRun_append hds hu] at hu'
            obtain ⟨u', _, rfl⟩ := preRes_ok hu'
            simp
        · simp at ht
      have fin : (∃ rest, '0' :: x :: r = txt ++ rest ∧ (DecNumber true txt ∨ RadixNumber txt) ∧
          ∀ t', DecNumber true t' ∨ RadixNumber t' → t' <+: '0' :: x :: r → t'.length ≤ txt.length) := by
        simp only [List.mem_cons, List.not_mem_nil, or_false] at hx
        have hcase : (x = 'x' ∨ x = 'X') ∨ (x = 'o' ∨ x = 'O') ∨ (x = 'b' ∨ x = 'B') := by
          rcases hx with h | h | h | h | h | h <;> simp [h]
        rcases hcase with hx | hx | hx
        · refine key 'x' isHexDigit (by decide) (by decide) (fun u hu hn => RadixNumber.iff.2 ⟨x, u, rfl, hn, .inl ⟨hx, hu⟩⟩) ?_
            (zeroScan_radix 'x' isHexDigit (.inl ⟨hx, rfl, rfl⟩))
          rintro t' hrad
          obtain ⟨x', ds, he, hne, hh⟩ := RadixNumber.iff.1 hrad
          simp only [List.cons.injEq, true_and] at he
          obtain ⟨rfl, rfl⟩ := he
          rcases hh with ⟨_, hh⟩ | ⟨hh, _⟩ | ⟨hh, _⟩
          · exact hh
          · rcases hx with rfl | rfl <;> simp at hh
          · rcases hx with rfl | rfl <;> simp at hh
        · refine key 'o' isOctDigit (by decide) (by decide)
            (fun u hu hn => RadixNumber.iff.2 ⟨x, u, rfl, hn, .inr (.inl ⟨hx, hu⟩)⟩) ?_
            (zeroScan_radix 'o' isOctDigit (.inr (.inl ⟨hx, rfl, rfl⟩)))
          rintro t' hrad
          obtain ⟨x', ds, he, hne, hh⟩ := RadixNumber.iff.1 hrad
          simp only [List.cons.injEq, true_and] at he
          obtain ⟨rfl, rfl⟩ := he
          rcases hh with ⟨hh, _⟩ | ⟨_, hh⟩ | ⟨hh, _⟩
          · rcases hx with rfl | rfl <;> simp at hh
          · exact hh
          · rcases hx with rfl | rfl <;> simp at hh
        · refine key 'b' isBinDigit (by decide) (by decide)
            (fun u hu hn => RadixNumber.iff.2 ⟨x, u, rfl, hn, .inr (.inr ⟨hx, hu⟩)⟩) ?_
            (zeroScan_radix 'b' isBinDigit (.inr (.inr ⟨hx, rfl, rfl⟩)))
          rintro t' hrad
          obtain ⟨x', ds, he, hne, hh⟩ := RadixNumber.iff.1 hrad
          simp only [List.cons.injEq, true_and] at he
          obtain ⟨rfl, rfl⟩ := he
          rcases hh with ⟨hh, _⟩ | ⟨hh, _⟩ | ⟨_, hh⟩
          · rcases hx with rfl | rfl <;> simp at hh
          · rcases hx with rfl | rfl <;> simp at hh
          · exact hh
      obtain ⟨rest, f1, f2, f3⟩ := fin
      exact ⟨rest, f1, by rw [h2], rfl, f2, f3⟩

example : ∃ l l', @Reach asciiUni (cs! "x=12.e+y") l ∧
    @getSymbol asciiUni l = .ok (.number 2 7 none (cs! "12.e+")) l' :=
  letI := asciiUni
  ⟨_, _, .ok (.ok .new rfl) rfl, rfl⟩
example : ∃ l l', @Reach asciiUni (cs! "0b1_02") l ∧
    @getSymbol asciiUni l = .ok (.number 0 5 none (cs! "0b1_0")) l' :=
  letI := asciiUni
  ⟨_, _, .new, rfl⟩

/-- C14 is false for literals that start with `0`: whatever character `c` follows (unless it selects
another radix), a token starting there swallows it as part of the number. -/
theorem C14_zero_swallows [Uni] (src : List Char) (l l' : Lexer) (p : Nat) (c : Char) (rest : List Char)
    (t : Token) (h : Reach src l) (hp : LexemeAt l p) (hsrc : src.drop p = '0' :: c :: rest)
    (hc : c ∉ ['x', 'X', 'o', 'O', 'b', 'B']) (hr : getSymbol l = .ok t l') :
    ∃ e tr txt, t = .number p e tr ('0' :: c :: txt) ∧ p + 2 ≤ l'.buf.index := by
  obtain ⟨ts, l2, h1, h2, h3, e⟩ := number_at h.inv hp (.inl (by rw [hsrc]; simp; decide))
  rw [hsrc, hd_cons, if_pos rfl, hr] at e
  obtain ⟨t', ht, htok, rfl⟩ := numResult_tok e.symm
  rw [h3, hsrc] at ht
  obtain ⟨u, rfl⟩ := zeroScan_other hc ht rfl
  refine ⟨_, _, u, by rw [htok, h1], ?_⟩
  show p + 2 ≤ (l2.fwd _).pos
  simp [h2]

example : ∃ l l' t, @Reach asciiUni (cs! "f(0)") l ∧ @LexemeAt asciiUni l 2 ∧
    @getSymbol asciiUni l = .ok t l' ∧ t = .number 2 4 none (cs! "0)") :=
  letI := asciiUni
  ⟨_, _, _, .ok (.ok .new rfl) rfl, lexemeAt_eval rfl, rfl, rfl⟩

/-- C14, negation: on `0` + line end the token is not the literal `0`, and the line end is lost. -/
theorem C14_zero_loses_newline :
    letI := asciiUni
    ∃ l1 l2, getSymbol (Lexer.new (cs! "0\n")) = .ok (.number 0 2 none (cs! "0\n")) l1 ∧
      getSymbol l1 = .ok (.eof 2 none) l2 :=
  letI := asciiUni
  ⟨_, _, rfl, rfl⟩

theorem DigitTail.last {d : Char → Bool} {ds c} (h : DigitTail d ds) (hl : ds.getLast? = some c) :
    d c = true := by
  induction h with
  | nil => simp at hl
  | @digit a u ha _ ih =>
    cases u with
    | nil => simp at hl; subst hl; exact ha
    | cons b u => exact ih (by simpa [List.getLast?_cons_cons] using hl)
  | @under a u ha _ ih =>
    cases u with
    | nil => simp at hl; subst hl; exact ha
    | cons b u => exact ih (by simpa [List.getLast?_cons_cons] using hl)

/-- A decimal literal does not end with `e`. -/
theorem DecNumber.not_e {txt} (h : DecNumber false txt) : txt.getLast? ≠ some 'e' := by
  obtain ⟨m, ex, im, rfl, hm, h1, h2⟩ := h
  intro hl
  have part : ∀ {ds : List Char}, DigitPart ds → ds.getLast? ≠ some 'e' ∧ ds ≠ [] := by
    intro ds h
    refine ⟨fun hl => absurd (h.tail.last hl) (by decide), ?_⟩
    obtain ⟨c, t, rfl, _⟩ := h; simp
  have last_app : ∀ {a b : List Char}, b ≠ [] → (a ++ b).getLast? = b.getLast? := by
    intro a b hb
    rw [List.getLast?_append]
    cases h : b.getLast? with
    | none => simp [List.getLast?_eq_none_iff] at h; exact absurd h hb
    | some x => rfl
  rcases h2 with rfl | rfl | rfl
  · rw [List.append_nil] at hl
    rcases h1 with rfl | ⟨c, s, ds, rfl, _, _, hds⟩
    · rw [List.append_nil] at hl
      cases hm with
      | int hp => exact (part hp).1 hl
      | point hp => rw [last_app (by simp)] at hl; simp at hl
      | frac hp _ hf =>
        rw [last_app (by simp)] at hl
        rw [← List.singleton_append, last_app (part hf).2] at hl
        exact (part hf).1 hl
      | dot hf =>
        rw [← List.singleton_append, last_app (part hf).2] at hl
        exact (part hf).1 hl
    · simp only [Bool.false_eq_true, if_false] at hds
      rw [last_app (by simp), show c :: (s ++ ds) = (c :: s) ++ ds from rfl, last_app (part hds).2] at hl
      exact (part hds).1 hl
  · rw [← List.append_assoc, last_app (by simp)] at hl; simp at hl
  · rw [← List.append_assoc, last_app (by simp)] at hl; simp at hl

/-- C14, negation: `1e` is accepted as a number, but is not a literal. -/
theorem C14_bad_exponent_accepted :
    letI := asciiUni
    (∃ l', getSymbol (Lexer.new (cs! "1e")) = .ok (.number 0 2 none (cs! "1e")) l') ∧
      ¬ (DecNumber false (cs! "1e") ∨ RadixNumber (cs! "1e")) := by
  letI := asciiUni
  refine ⟨⟨_, rfl⟩, ?_⟩
  rintro (h | ⟨x, ds, h, _⟩)
  · exact h.not_e rfl
  · simp at h

/-- The character classes named in the statements about lexemes, for every instance of the Unicode
tables: digits and letters are the listed ASCII characters; a name starts with a letter or underscore
and goes on with letters, digits and underscores; beyond ASCII the Unicode tables decide. -/
theorem C14_classes [Uni] (c : Char) :
    (isDigit c = true ↔ c ∈ cs! "0123456789") ∧
    (isAsciiLetter c = true ↔ c ∈ cs! "abcdefghijklmnopqrstuvwxyzABCDEFGHIJKLMNOPQRSTUVWXYZ") ∧
    (c.toNat < 128 →
      (isNameStart c = true ↔ c = '_' ∨ c ∈ cs! "abcdefghijklmnopqrstuvwxyzABCDEFGHIJKLMNOPQRSTUVWXYZ") ∧
      (isNameChar c = true ↔ c = '_' ∨ c ∈ cs! "0123456789" ∨
        c ∈ cs! "abcdefghijklmnopqrstuvwxyzABCDEFGHIJKLMNOPQRSTUVWXYZ")) ∧
    (128 ≤ c.toNat → isNameStart c = Uni.alphaHi c ∧ isNameChar c = (Uni.alphaHi c || Uni.numHi c)) := by
  have h1 : isDigit c = true ↔ c ∈ cs! "0123456789" := by
    rw [← isDec_eq, isDec, List.contains_iff_mem]
  have h2 : isAsciiLetter = fun c =>
      (cs! "abcdefghijklmnopqrstuvwxyzABCDEFGHIJKLMNOPQRSTUVWXYZ").contains c :=
    class_eq (by decide +kernel) (fun c h => by simp [isAsciiLetter]; omega) (contains_ascii (by decide))
  have h3 : isAsciiLetter c = true ↔ c ∈ cs! "abcdefghijklmnopqrstuvwxyzABCDEFGHIJKLMNOPQRSTUVWXYZ" := by
    rw [h2, List.contains_iff_mem]
  refine ⟨h1, h3, fun hc => ⟨?_, ?_⟩, fun hc => ?_⟩
  · rw [← h3]; simp [isNameStart, isAlphabetic, hc, or_comm]
  · rw [← h3, ← h1]; simp [isNameChar, isAlphanumeric, hc, or_comm, or_assoc]
  · have hn : ¬ c.toNat < 128 := by omega
    have hu : c ≠ '_' := by rintro rfl; exact absurd hc (by decide)
    simp [isNameStart, isNameChar, isAlphabetic, isAlphanumeric, hn, hu]

end Verif
