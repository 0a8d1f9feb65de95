import Verif.Proof.LexInner

/-!
# Tokenizer: strings, numbers, words and operators without fuel
-/

set_option linter.unusedSimpArgs false

namespace Verif
open LexM
attribute [-simp] List.drop_one List.tail_drop

/-! ### Strings -/

/-- Body of a one-line literal: up to the quote or a line end (or NUL). -/
def lineBody (q : Char) (cs : List Char) : List Char :=
  cs.takeWhile fun c => !(c == q || c == '\x00' || c == '\r' || c == '\n')

theorem singleLoop_apply (q : Char) (hq : q = '\'' ∨ q = '"') (n : Nat) (l : Lexer)
    (hn : l.rest.length < n) :
    singleLoop q n l =
      if hd (l.rest.drop (lineBody q l.rest).length) = q then
        .ok (lineBody q l.rest ++ [q]) (l.fwd ((lineBody q l.rest).length + 1))
      else .err (.unterminated (l.pos + (lineBody q l.rest).length))
        (l.fwd (lineBody q l.rest).length) := by
  have hq0 : q ≠ '\x00' := by rcases hq with h | h <;> subst h <;> decide
  have hq1 : q ≠ '\r' := by rcases hq with h | h <;> subst h <;> decide
  have hq2 : q ≠ '\n' := by rcases hq with h | h <;> subst h <;> decide
  induction n generalizing l with
  | zero => omega
  | succ n ih =>
    cases hr : l.rest with
    | nil => simp [singleLoop, hr, lineBody, hq0.symm]
    | cons c cs =>
      have h1 : (l.fwd 1).rest = cs := by simp [hr, List.drop_one]
      have hl : (l.fwd 1).rest.length < n := by rw [h1]; rw [hr] at hn; simp at hn; omega
      by_cases hc : c = '\x00' ∨ c = '\r' ∨ c = '\n'
      · have hb : lineBody q (c :: cs) = [] := by
          rcases hc with h | h | h <;> simp [lineBody, h]
        have hne : c ≠ q := by rintro rfl; simp [hq0, hq1, hq2] at hc
        simp [singleLoop, hr, hc, hb, hne]
      · by_cases hcq : c = q
        · subst hcq
          simp [singleLoop, hr, hc, lineBody]
        · have hb : lineBody q (c :: cs) = c :: lineBody q cs := by
            simp only [not_or] at hc
            simp [lineBody, hc, hcq]
          have := ih (l.fwd 1) hl
          rw [h1] at this
          simp only [singleLoop, lexm_bind, curChar_apply, hr, hd_cons, lexm_ite, hc, hcq, if_false,
            adv_apply, this, hb]
          by_cases hz : hd (cs.drop (lineBody q cs).length) = q
          · simp [hz, Nat.add_comm 1]
          · simp [hz, Nat.add_comm 1, Nat.add_assoc]

/-- What a triple-quoted literal contains after the opening quotes, closing quotes included;
`none` if it is not closed. -/
def tripleBody (q : Char) : List Char → Option (List Char)
  | [] => none
  | c :: cs =>
    if c = '\x00' then none
    else if c = q ∧ hd cs = q ∧ hd (cs.drop 1) = q then some [q, q, q]
    else (tripleBody q cs).map (c :: ·)

theorem tripleLoop_apply (q : Char) (hq : q = '\'' ∨ q = '"') (n : Nat) (l : Lexer)
    (hn : l.rest.length < n) :
    tripleLoop q n l = match tripleBody q l.rest with
      | some txt => .ok txt (l.fwd txt.length)
      | none => .err .moreData (l.fwd (l.rest.takeWhile (· != '\x00')).length) := by
  have hq0 : q ≠ '\x00' := by rcases hq with h | h <;> subst h <;> decide
  have hq1 : q ≠ '\r' := by rcases hq with h | h <;> subst h <;> decide
  have hq2 : q ≠ '\n' := by rcases hq with h | h <;> subst h <;> decide
  induction n using Nat.strongRecOn generalizing l with
  | ind n ih =>
    cases n with
    | zero => omega
    | succ n =>
    cases hr : l.rest with
    | nil => simp [tripleLoop, hr, tripleBody]
    | cons c cs =>
      have h1 : (l.fwd 1).rest = cs := by simp [hr, List.drop_one]
      have hl : (l.fwd 1).rest.length < n := by rw [h1]; rw [hr] at hn; simp at hn; omega
      have ih1 := ih n (by omega) (l.fwd 1) hl
      rw [h1] at ih1
      by_cases hz : c = '\x00'
      · simp [tripleLoop, hr, hz, tripleBody]
      by_cases hcl : c = '\r' ∧ hd cs = '\n'
      · obtain ⟨rfl, hn'⟩ := hcl
        cases cs with
        | nil => simp at hn'
        | cons c2 cs =>
          simp at hn'; subst hn'
          have h2 : (l.fwd 2).rest = cs := by simp [hr]
          have ih2 := ih n (by omega) (l.fwd 2) (by rw [h2]; rw [hr] at hn; simp at hn; omega)
          rw [h2] at ih2
          simp only [tripleLoop, lexm_bind, peekThree_apply, hr, hd_cons, lexm_ite,
            advN_apply, ih2, List.drop_succ_cons, List.drop_zero, tripleBody, hq1.symm, hq2.symm]
          cases tripleBody q cs <;> simp [Nat.add_comm 2]
      by_cases hnl : c = '\r' ∨ c = '\n'
      · have hne : c ≠ q := by rintro rfl; simp [hq1, hq2] at hnl
        simp only [tripleLoop, lexm_bind, peekThree_apply, hr, hd_cons, lexm_ite, hz,
            adv_apply, ih1, List.drop_succ_cons, List.drop_zero, tripleBody, hne, hcl, hnl, if_false,
            if_true, false_and]
        cases tripleBody q cs <;> simp [Nat.add_comm, Nat.add_left_comm, hz]
      by_cases hend : c = q ∧ hd cs = q ∧ hd (cs.drop 1) = q
      · have hend' : q = c ∧ q = hd cs ∧ q = hd (cs.drop 1) := ⟨hend.1.symm, hend.2.1.symm, hend.2.2.symm⟩
        simp only [tripleLoop, lexm_bind, peekThree_apply, hr, hd_cons, lexm_ite, hz,
            advN_apply, List.drop_succ_cons, List.drop_zero, tripleBody, hcl, hnl, if_false,
            if_true, if_pos hend, if_pos hend', lexm_pure]
        rw [hend.1, hend.2.1, hend.2.2]; simp
      · have hend' : ¬ (q = c ∧ q = hd cs ∧ q = hd (cs.drop 1)) := by
          rintro ⟨a, b, d⟩; exact hend ⟨a.symm, b.symm, d.symm⟩
        simp only [tripleLoop, lexm_bind, peekThree_apply, hr, hd_cons, lexm_ite, hz,
            adv_apply, ih1, List.drop_succ_cons, List.drop_zero, tripleBody, hcl, hnl, if_false,
            if_neg hend, if_neg hend']
        cases tripleBody q cs <;> simp [Nat.add_comm, Nat.add_left_comm, hz]

/-- What `handle_string` and its callers return when the text at the current position starts with
the quote `q`. -/
def stringResult (s : Nat) (q : Char) (pfx : Option (List Char)) (acc : List Trivia) (l : Lexer) :
    LexRes Token :=
  if hd (l.rest.drop 1) = q ∧ hd (l.rest.drop 2) = q then
    match tripleBody q (l.rest.drop 3) with
    | some txt =>
      .ok (.string s (l.pos + 3 + txt.length) (finTrivia acc) (q :: q :: q :: txt) pfx)
        (l.fwd (3 + txt.length))
    | none => .err .moreData (l.fwd (3 + ((l.rest.drop 3).takeWhile (· != '\x00')).length))
  else if hd (l.rest.drop 1) = q then
    .ok (.string s (l.pos + 2) (finTrivia acc) [q, q] pfx) (l.fwd 2)
  else
    let b := lineBody q (l.rest.drop 1)
    if hd (l.rest.drop (1 + b.length)) = q then
      .ok (.string s (l.pos + 2 + b.length) (finTrivia acc) (q :: b ++ [q]) pfx) (l.fwd (b.length + 2))
    else .err (.unterminated (l.pos + 1 + b.length)) (l.fwd (1 + b.length))

theorem rest_fwd_len (l : Lexer) (k : Nat) : (l.fwd k).rest.length < l.buf.chars.length + 2 := by
  have := rest_length_le l; simp; omega

theorem stringStart_apply (q : Char) (hq : q = '\'' ∨ q = '"') (pfx : Option (List Char))
    (acc : List Trivia) (l : Lexer) (hh : hd l.rest = q) :
    stringStart pfx acc l = stringResult l.tokStart q pfx acc l := by
  have e1 : ((hd l.rest = '\'' ∧ hd (l.rest.drop 1) = '\'' ∧ hd (l.rest.drop 2) = '\'') ∨
      (hd l.rest = '"' ∧ hd (l.rest.drop 1) = '"' ∧ hd (l.rest.drop 2) = '"')) ↔
      (hd (l.rest.drop 1) = q ∧ hd (l.rest.drop 2) = q) := by
    rcases hq with h | h <;> subst h <;> rw [hh] <;> simp
  have e2 : ((hd l.rest = '\'' ∧ hd (l.rest.drop 1) = '\'') ∨
      (hd l.rest = '"' ∧ hd (l.rest.drop 1) = '"')) ↔ hd (l.rest.drop 1) = q := by
    rcases hq with h | h <;> subst h <;> rw [hh] <;> simp
  simp only [stringStart, lexm_bind, peekThree_apply, getPosition_apply, lexm_ite, e1, e2, stringResult]
  split
  · rename_i h3
    simp only [handleString, lexm_bind, curChar_apply, if_true, peekThree_apply, advN_apply,
      loopFuel_apply, hh, h3.1, h3.2, bufPos_apply, lexm_ite, lexm_pure]
    rw [tripleLoop_apply q hq _ _ (by simpa using rest_fwd_len l 3)]
    simp only [rest_fwd]
    cases tripleBody q (l.rest.drop 3) <;> simp [Nat.add_assoc]
  · split
    · rename_i h2
      simp [hh, h2]
    · simp only [handleString, lexm_bind, curChar_apply, if_false, peekThree_apply, adv_apply,
        loopFuel_apply, hh, bufPos_apply, lexm_ite, lexm_pure, Bool.false_eq_true]
      rw [singleLoop_apply q hq _ _ (by simpa using rest_fwd_len l 1)]
      simp only [rest_fwd, List.drop_drop]
      by_cases hz : hd (l.rest.drop (1 + (lineBody q (l.rest.drop 1)).length)) = q
      · simp [hz, Nat.add_comm, Nat.add_left_comm, Nat.add_assoc]
        constructor
        · omega
        · congr 1; omega
      · simp [hz, Nat.add_comm, Nat.add_left_comm, Nat.add_assoc]

/-! ### Words -/

theorem isNameChar_nul [Uni] : isNameChar '\x00' = false := by
  simp [isNameChar, isAlphanumeric, isAsciiLetter, isDigit]

/-- The maximal run of identifier characters. -/
def word [Uni] (cs : List Char) : List Char := cs.takeWhile isNameChar

theorem nameArm_apply [Uni] (acc : List Trivia) (l : Lexer) :
    nameArm acc l =
      let w := word l.rest
      match keywords.lookup w with
      | some k => .ok (.sym k l.tokStart (l.pos + w.length) (finTrivia acc)) (l.fwd w.length)
      | none =>
        let q := hd (l.rest.drop w.length)
        if stringPrefixes.contains w = true ∧ (q = '\'' ∨ q = '"') then
          stringResult l.tokStart q (some w) acc (l.fwd w.length)
        else .ok (.name l.tokStart (l.pos + w.length) (finTrivia acc) w) (l.fwd w.length) := by
  simp only [nameArm, lexm_bind, loopFuel_apply]
  rw [scanWhile_apply isNameChar isNameChar_nul _ _ (by simpa using rest_fwd_len l 0)]
  simp only []
  rw [show List.takeWhile isNameChar l.rest = word l.rest from rfl]
  cases keywords.lookup (word l.rest) with
  | some k => simp [symTok, word]
  | none =>
    simp only [lexm_bind, curChar_apply, rest_fwd, lexm_ite]
    simp only [Bool.and_eq_true, Bool.or_eq_true, beq_iff_eq]
    split
    · rename_i h
      rw [stringStart_apply _ h.2 _ _ _ (by simp [word])]
      rfl
    · rename_i h
      rfl

/-! ### Operators -/

/-- What the operator arm `a` returns. -/
def armResult (a : OpArm) (acc : List Trivia) (l : Lexer) : LexRes Token :=
  match a.act with
  | .tok k => .ok (.sym k l.tokStart (l.pos + a.len) (finTrivia acc)) (l.fwd a.len)
  | .openB k c => .ok (.sym k l.tokStart (l.pos + a.len) (finTrivia acc))
      { l.fwd a.len with parens := c :: l.parens }
  | .closeB k c =>
    if l.parens.head? = some c then
      .ok (.sym k l.tokStart (l.pos + a.len) (finTrivia acc)) { l.fwd a.len with parens := l.parens.tail }
    else .err (.mismatch l.tokStart c) (l.fwd a.len)

theorem runArm_apply (a : OpArm) (acc : List Trivia) (l : Lexer) :
    runArm a acc l = armResult a acc l := by
  simp only [runArm, lexm_bind, advN_apply, armResult]
  cases a.act with
  | tok k => simp [symTok]
  | openB k c => simp [symTok, Lexer.pos, Lexer.fwd]
  | closeB k c =>
    simp only [lexm_bind, lexm_get]
    cases hp : l.parens with
    | nil => simp [hp]
    | cons top rest =>
      by_cases h : top = c
      · simp [hp, h, symTok, Lexer.pos, Lexer.fwd]
      · simp [hp, h]

/-! ### Numbers -/

/-- A scanner on the remaining text: the text it accepts, or an error (applied to the start of the
token) and the number of characters consumed when it was noticed. -/
def Scan : Type := List Char → Except ((Nat → LexErr) × Nat) (List Char)

/-- `m` is the scanner `s`. -/
def Impl (m : LexM (List Char)) (s : Scan) : Prop :=
  ∀ l, m l = match s l.rest with
    | .ok t => .ok t (l.fwd t.length)
    | .error (e, k) => .err (e l.tokStart) (l.fwd k)

/-- First the fixed text `w` (whatever the characters are), then `s`. -/
def Scan.pre (w : List Char) (s : Scan) : Scan := fun cs =>
  match s (cs.drop w.length) with
  | .ok t => .ok (w ++ t)
  | .error (e, k) => .error (e, w.length + k)

/-- `s1` then `s2` on what follows. -/
def Scan.seq (s1 s2 : Scan) : Scan := fun cs =>
  match s1 cs with
  | .error e => .error e
  | .ok t => Scan.pre t s2 cs

theorem Impl.seq {m1 m2 : LexM (List Char)} {s1 s2 : Scan} (h1 : Impl m1 s1) (h2 : Impl m2 s2) :
    Impl (do let a ← m1; let b ← m2; pure (a ++ b)) (s1.seq s2) := by
  intro l
  simp only [lexm_bind, h1 l, Scan.seq, Scan.pre]
  cases h : s1 l.rest with
  | error e => rfl
  | ok t =>
    simp only [h2 (l.fwd t.length), rest_fwd]
    cases s2 (l.rest.drop t.length) <;> simp

/-- Digits with single underscores between them (and possibly a leading underscore). -/
def digitRun (d : Char → Bool) (e : Nat → LexErr) : Scan
  | [] => .ok []
  | c :: cs =>
    if c = '_' then
      if d (hd cs) then
        match digitRun d e cs with
        | .ok t => .ok ('_' :: t)
        | .error (e, k) => .error (e, k + 1)
      else .error (e, 1)
    else if d c then
      match digitRun d e cs with
      | .ok t => .ok (c :: t)
      | .error (e, k) => .error (e, k + 1)
    else .ok []

theorem digitLoop_apply (d : Char → Bool) (hd0 : d '\x00' = false) (e : Nat → LexErr) (n : Nat)
    (l : Lexer) (hn : l.rest.length < n) :
    digitLoop d e n l = match digitRun d e l.rest with
      | .ok t => .ok t (l.fwd t.length)
      | .error (e, k) => .err (e l.tokStart) (l.fwd k) := by
  induction n generalizing l with
  | zero => omega
  | succ n ih =>
    cases hr : l.rest with
    | nil => simp [digitLoop, hr, hd0, digitRun]
    | cons c cs =>
      have h1 : (l.fwd 1).rest = cs := by simp [hr, List.drop_one]
      have ih1 := ih (l.fwd 1) (by rw [h1]; rw [hr] at hn; simp at hn; omega)
      rw [h1] at ih1
      simp only [digitLoop, lexm_bind, curChar_apply, hr, hd_cons, lexm_ite, adv_apply, h1, digitRun]
      by_cases hc : c = '_'
      · simp only [hc, if_true]
        by_cases hdc : d (hd cs) = true
        · simp only [hdc, if_true, ih1]
          cases digitRun d e cs <;> simp [Nat.add_comm 1]
        · simp [hdc]
      · simp only [hc, if_false]
        by_cases hdc : d c = true
        · simp only [hdc, if_true, ih1]
          cases digitRun d e cs <;> simp [Nat.add_comm 1]
        · simp [hdc]

theorem digitLoop_impl (d : Char → Bool) (hd0 : d '\x00' = false) (e : Nat → LexErr) :
    Impl (do digitLoop d e (← loopFuel)) (digitRun d e) := by
  intro l
  simp only [lexm_bind, loopFuel_apply]
  exact digitLoop_apply d hd0 e _ l (by simpa using rest_fwd_len l 0)

/-- Optional fraction. -/
def fractionScan : Scan := fun cs =>
  if hd cs = '.' then
    if hd (cs.drop 1) = '_' then .error (.underscoreAfterDot, 1)
    else Scan.pre ['.'] (digitRun isDigit .badUnderscore) cs
  else .ok []

theorem fractionPart_impl : Impl fractionPart fractionScan := by
  intro l
  have hi := digitLoop_impl isDigit (by decide) .badUnderscore (l.fwd 1)
  simp only [lexm_bind, loopFuel_apply, chars_fwd] at hi
  simp only [fractionPart, fractionScan, lexm_bind, curChar_apply, lexm_ite, adv_apply, rest_fwd,
    loopFuel_apply, chars_fwd]
  by_cases h : hd l.rest = '.'
  · simp only [h, if_true]
    by_cases h2 : hd (l.rest.drop 1) = '_'
    · simp [h2]
    · simp only [h2, if_false, hi, rest_fwd, Scan.pre, List.length_singleton]
      cases digitRun isDigit .badUnderscore (l.rest.drop 1) <;> simp [Nat.add_comm 1]
  · simp [h]

/-- Optional exponent. -/
def exponentScan : Scan := fun cs =>
  if hd cs = 'e' ∨ hd cs = 'E' then
    if hd (cs.drop 1) = '+' ∨ hd (cs.drop 1) = '-' then
      Scan.pre [hd cs, hd (cs.drop 1)] (digitRun isDigit .badUnderscore) cs
    else Scan.pre [hd cs] (digitRun isDigit .badUnderscore) cs
  else .ok []

theorem exponentPart_impl : Impl exponentPart exponentScan := by
  intro l
  have hi := digitLoop_impl isDigit (by decide) .badUnderscore (l.fwd 1)
  simp only [lexm_bind, loopFuel_apply, chars_fwd] at hi
  have hi2 := digitLoop_impl isDigit (by decide) .badUnderscore (l.fwd 2)
  simp only [lexm_bind, loopFuel_apply, chars_fwd] at hi2
  simp only [exponentPart, exponentScan, lexm_bind, curChar_apply, lexm_ite, adv_apply, rest_fwd,
    loopFuel_apply, chars_fwd, fwd_fwd]
  split
  · split
    · simp only [hi2, rest_fwd, Scan.pre, List.length_cons, List.length_nil]
      cases digitRun isDigit .badUnderscore (l.rest.drop 2) <;> simp [Nat.add_comm 2]
    · simp only [hi, rest_fwd, Scan.pre, List.length_singleton]
      cases digitRun isDigit .badUnderscore (l.rest.drop 1) <;> simp [Nat.add_comm 1]
  · simp

/-- Optional imaginary suffix. -/
def imagScan : Scan := fun cs => if hd cs = 'j' ∨ hd cs = 'J' then .ok [hd cs] else .ok []

theorem imagPart_impl : Impl imagPart imagScan := by
  intro l
  simp only [imagPart, imagScan, lexm_bind, curChar_apply, lexm_ite]
  split <;> simp

/-- The part of a radix literal after the leading zero. -/
def radixScan (r : Char) (d : Char → Bool) : Scan := fun cs =>
  if d (hd (cs.drop 1)) = true ∨ hd (cs.drop 1) = '_' then
    Scan.pre [hd cs] (digitRun d (fun p => .badRadix p r)) cs
  else .error ((fun p => .badRadix p r), 1)

theorem radixArm_impl (r : Char) (d : Char → Bool) (hd0 : d '\x00' = false) :
    Impl (radixArm r d) (radixScan r d) := by
  intro l
  have hi := digitLoop_impl d hd0 (fun p => .badRadix p r) (l.fwd 1)
  simp only [lexm_bind, loopFuel_apply, chars_fwd] at hi
  simp only [radixArm, radixScan, lexm_bind, curChar_apply, lexm_ite, adv_apply, rest_fwd,
    loopFuel_apply, chars_fwd, Bool.or_eq_true, beq_iff_eq]
  split
  · simp only [hi, rest_fwd, Scan.pre, List.length_singleton]
    cases digitRun d (fun p => .badRadix p r) (l.rest.drop 1) <;> simp [Nat.add_comm 1]
  · simp

/-- A number token from a scan, or its error. -/
def numResult (s : Scan) (acc : List Trivia) (l : Lexer) : LexRes Token :=
  match s l.rest with
  | .ok t => .ok (.number l.tokStart (l.pos + t.length) (finTrivia acc) t) (l.fwd t.length)
  | .error (e, k) => .err (e l.tokStart) (l.fwd k)

/-- Literals starting with `1`..`9`. -/
def decScan : Scan :=
  ((digitRun isDigit .badUnderscore).seq fractionScan).seq exponentScan |>.seq imagScan

/-- Literals starting with a dot. -/
def dotScan : Scan := fun cs =>
  Scan.pre [hd cs, hd (cs.drop 1)]
    (((digitRun isDigit .badUnderscore).seq exponentScan).seq imagScan) cs

theorem decArm_apply (acc : List Trivia) (l : Lexer) : decArm acc l = numResult decScan acc l := by
  have h := (((digitLoop_impl isDigit (by decide) .badUnderscore).seq fractionPart_impl).seq
    exponentPart_impl).seq imagPart_impl l
  simp only [numResult, decScan]
  generalize hs : ((((digitRun isDigit .badUnderscore).seq fractionScan).seq exponentScan).seq
    imagScan) l.rest = r at h ⊢
  simp only [lexm_bind, lexm_pure] at h
  simp only [decArm, lexm_bind, numTok]
  cases h1 : loopFuel l with
  | err e l' => simp at h1
  | ok n l1 =>
  rw [h1] at h; simp only at h ⊢
  cases h2 : digitLoop isDigit .badUnderscore n l1 with
  | err e l' => rw [h2] at h; simp only at h ⊢; cases r <;> simp_all
  | ok ds l2 =>
  rw [h2] at h; simp only at h ⊢
  cases h3 : fractionPart l2 with
  | err e l' => rw [h3] at h; simp only at h ⊢; cases r <;> simp_all
  | ok fr l3 =>
  rw [h3] at h; simp only at h ⊢
  cases h4 : exponentPart l3 with
  | err e l' => rw [h4] at h; simp only at h ⊢; cases r <;> simp_all
  | ok ex l4 =>
  rw [h4] at h; simp only at h ⊢
  cases h5 : imagPart l4 with
  | err e l' => rw [h5] at h; simp only at h ⊢; cases r <;> simp_all
  | ok im l5 =>
  rw [h5] at h; simp only at h ⊢
  cases r with
  | error e => simp at h
  | ok t =>
    simp only [LexRes.ok.injEq] at h
    obtain ⟨rfl, rfl⟩ := h
    simp

theorem dotNumArm_apply (acc : List Trivia) (l : Lexer) : dotNumArm acc l = numResult dotScan acc l := by
  have h := ((digitLoop_impl isDigit (by decide) .badUnderscore).seq exponentPart_impl).seq
    imagPart_impl (l.fwd 2)
  simp only [numResult, dotScan, Scan.pre, List.length_cons, List.length_nil]
  rw [rest_fwd] at h
  generalize hs : (((digitRun isDigit .badUnderscore).seq exponentScan).seq
    imagScan) (l.rest.drop 2) = r at h ⊢
  simp only [lexm_bind, lexm_pure] at h
  simp only [dotNumArm, lexm_bind, numTok, peekThree_apply, advN_apply]
  cases h1 : loopFuel (l.fwd 2) with
  | err e l' => simp at h1
  | ok n l1 =>
  simp only [loopFuel_apply, LexRes.ok.injEq] at h1
  obtain ⟨rfl, rfl⟩ := h1
  simp only [loopFuel_apply] at h ⊢
  cases h2 : digitLoop isDigit .badUnderscore ((l.fwd 2).buf.chars.length + 2) (l.fwd 2) with
  | err e l' =>
    rw [h2] at h; simp only at h ⊢
    cases r <;> simp_all
  | ok ds l2 =>
  rw [h2] at h; simp only at h ⊢
  cases h4 : exponentPart l2 with
  | err e l' => rw [h4] at h; simp only at h ⊢; cases r <;> simp_all
  | ok ex l4 =>
  rw [h4] at h; simp only at h ⊢
  cases h5 : imagPart l4 with
  | err e l' => rw [h5] at h; simp only at h ⊢; cases r <;> simp_all
  | ok im l5 =>
  rw [h5] at h; simp only at h ⊢
  cases r with
  | error e => simp at h
  | ok t =>
    simp only [LexRes.ok.injEq] at h
    obtain ⟨rfl, rfl⟩ := h
    simp [Nat.add_comm, Nat.add_left_comm]

/-- Literals starting with `0`. -/
def zeroScan : Scan := fun cs =>
  let c := hd (cs.drop 1)
  if c = 'x' ∨ c = 'X' then Scan.pre ['0'] (radixScan 'x' isHexDigit) cs
  else if c = 'o' ∨ c = 'O' then Scan.pre ['0'] (radixScan 'o' isOctDigit) cs
  else if c = 'b' ∨ c = 'B' then Scan.pre ['0'] (radixScan 'b' isBinDigit) cs
  else
    let ds := (cs.drop 2).takeWhile isDigit
    Scan.pre ('0' :: c :: ds) (fun cs =>
      match fractionScan cs with
      | .error e => .error e
      | .ok fr => Scan.pre fr (fun cs =>
        match exponentScan cs with
        | .error e => .error e
        | .ok ex => Scan.pre ex (fun cs =>
          match imagScan cs with
          | .error e => .error e
          | .ok im =>
            if ds.any (· != '0') = true ∧ fr = [] ∧ ex = [] ∧ im = [] then .error (.leadingZero, 0)
            else .ok im) cs) cs) cs

theorem radix_number (r : Char) (d : Char → Bool) (hd0 : d '\x00' = false) (acc : List Trivia)
    (l : Lexer) :
    (do let cs ← radixArm r d; numTok ('0' :: cs) acc) (l.fwd 1) =
      numResult (Scan.pre ['0'] (radixScan r d)) acc l := by
  simp only [lexm_bind, radixArm_impl r d hd0 (l.fwd 1), rest_fwd, numResult, Scan.pre,
    List.length_singleton]
  cases radixScan r d (l.rest.drop 1) <;> simp [numTok, Nat.add_comm, Nat.add_left_comm]

theorem zeroArm_apply (acc : List Trivia) (l : Lexer) : zeroArm acc l = numResult zeroScan acc l := by
  simp only [zeroArm, lexm_bind, adv_apply, curChar_apply, rest_fwd, lexm_ite]
  have hx := radix_number 'x' isHexDigit (by decide) acc l
  have ho := radix_number 'o' isOctDigit (by decide) acc l
  have hb := radix_number 'b' isBinDigit (by decide) acc l
  simp only [lexm_bind] at hx ho hb
  rw [hx, ho, hb]
  clear hx ho hb
  simp only [numResult, zeroScan]
  split
  · rfl
  split
  · rfl
  split
  · rfl
  simp only [loopFuel_apply, fwd_fwd, chars_fwd, Nat.reduceAdd]
  rw [scanWhile_apply isDigit (by decide) _ _ (by simpa using rest_fwd_len l 2)]
  simp only [rest_fwd, fwd_fwd]
  generalize (l.rest.drop 2).takeWhile isDigit = ds
  rw [fractionPart_impl]
  simp only [rest_fwd, Scan.pre, List.length_cons]
  rw [show ds.length + 1 + 1 = 2 + ds.length by omega]
  cases hf : fractionScan (l.rest.drop (2 + ds.length)) with
  | error e => simp
  | ok fr =>
    simp only [fwd_fwd, List.drop_drop]
    rw [exponentPart_impl]
    simp only [rest_fwd]
    cases he : exponentScan (l.rest.drop (2 + ds.length + fr.length)) with
    | error e => simp [Nat.add_assoc]
    | ok ex =>
      simp only [fwd_fwd, List.drop_drop]
      rw [imagPart_impl]
      simp only [rest_fwd]
      cases hi : imagScan (l.rest.drop (2 + ds.length + fr.length + ex.length)) with
      | error e => simp [Nat.add_assoc]
      | ok im =>
        simp only [fwd_fwd]
        have himl : im = [] ∨ ∃ c, im = [c] := by
          unfold imagScan at hi; split at hi <;> simp at hi <;> simp [← hi]
        by_cases hc : ds.any (· != '0') = true ∧ fr = [] ∧ ex = [] ∧ im = []
        · obtain ⟨h1, rfl, rfl, rfl⟩ := hc
          simp [h1]
        · rw [if_neg hc]
          have : ¬ ((if im.isEmpty = true then
              if ex.isEmpty = true then if fr.isEmpty = true then ds.any (· != '0') else false
              else false else false) = true) := by
            intro h
            apply hc
            cases im <;> cases ex <;> cases fr <;> simp_all
          rw [if_neg this]
          simp [numTok, Nat.add_assoc, Nat.add_comm, Nat.add_left_comm]

end Verif
