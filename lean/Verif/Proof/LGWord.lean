import Verif.Proof.LGLines
import Verif.Props.Numbers

/-!
# Symbols as in the lexical grammar
-/

set_option linter.unusedSimpArgs false

namespace Verif
attribute [-simp] List.drop_one List.tail_drop
namespace LG

theorem atEnd_iff {cs : List Char} : AtEnd cs ↔ hd cs = '\x00' := by
  cases cs with
  | nil => simp [AtEnd]
  | cons c r => simp [AtEnd]

theorem Longest.dot {w rest : List Char} {k : Kind} (h : Longest operators (w ++ rest) w k) :
    dotDigit (w ++ rest) ↔ w = ['.'] ∧ ∃ d r, rest = d :: r ∧ isDec d = true := by
  rw [isDec_eq]
  constructor
  · rintro ⟨h1, h2⟩
    have hw : ∀ x ∈ operators, hd x.1 = '.' → x.1 = ['.'] ∨ x.1 = ['.', '.', '.'] := by decide
    have hne : ∀ x ∈ operators, x.1 ≠ [] := by decide
    have hh : hd w = '.' := by
      cases w with
      | nil => exact absurd rfl (hne _ h.1)
      | cons c w => simpa using h1
    rcases hw _ h.1 hh with e | e <;> simp only at e <;> subst e
    · refine ⟨rfl, ?_⟩
      cases rest with
      | nil => simp at h2; exact absurd h2 (by decide)
      | cons d r => exact ⟨d, r, rfl, by simpa using h2⟩
    · simp at h2; exact absurd h2 (by decide)
  · rintro ⟨rfl, d, r, rfl, hd⟩
    exact ⟨rfl, by simpa using hd⟩

theorem armResult_ok {a : OpArm} (ha : a ∈ opArms) {ts l st} (hb : brStep l.parens a.act.kind = some st) :
    armResult a ts l = .ok (.sym a.act.kind l.tokStart (l.pos + a.len) (finTrivia ts)) { l.fwd a.len with parens := st } := by
  have hact := opArms_act a ha
  unfold armResult
  cases h : a.act with
  | tok k =>
    rw [h] at hact hb
    simp only at hact
    have := brStep_of_not_special hact l.parens
    simp only [OpAct.kind] at hb ⊢
    rw [this] at hb
    cases hb
    rfl
  | openB k c =>
    rw [h] at hact hb
    simp only [OpAct.kind] at hact hb ⊢
    rcases hact.2.2.2 with ⟨rfl, rfl⟩ | ⟨rfl, rfl⟩ | ⟨rfl, rfl⟩ <;> simp [brStep] at hb <;> subst hb <;> rfl
  | closeB k c =>
    rw [h] at hact hb
    simp only [OpAct.kind] at hact hb ⊢
    rcases hact.2.2.2 with ⟨rfl, rfl⟩ | ⟨rfl, rfl⟩ | ⟨rfl, rfl⟩ <;> simp [brStep] at hb <;> simp [hb]

theorem armResult_err {a : OpArm} (ha : a ∈ opArms) {ts l} (hb : brStep l.parens a.act.kind = none) :
    ∀ t l', armResult a ts l ≠ .ok t l' := by
  have hact := opArms_act a ha
  unfold armResult
  cases h : a.act with
  | tok k =>
    rw [h] at hact hb
    simp only at hact
    have := brStep_of_not_special hact l.parens
    simp only [OpAct.kind] at hb
    rw [this] at hb; cases hb
  | openB k c =>
    rw [h] at hact hb
    simp only [OpAct.kind] at hact hb
    rcases hact.2.2.2 with ⟨rfl, rfl⟩ | ⟨rfl, rfl⟩ | ⟨rfl, rfl⟩ <;> simp [brStep] at hb
  | closeB k c =>
    rw [h] at hact hb
    simp only [OpAct.kind] at hact hb
    rcases hact.2.2.2 with ⟨rfl, rfl⟩ | ⟨rfl, rfl⟩ | ⟨rfl, rfl⟩ <;> simp [brStep] at hb <;> simp [hb]

theorem word_split [Uni] (cs : List Char) : cs = word cs ++ cs.drop (word cs).length ∧
    (∀ c ∈ word cs, isNameChar c = true) ∧ Stops (fun c => isNameChar c = true) (cs.drop (word cs).length) := by
  refine ⟨?_, ?_, ?_⟩
  · rw [word, drop_takeWhile_length, List.takeWhile_append_dropWhile]
  · intro c hc
    exact List.all_eq_true.mp (List.all_takeWhile (p := isNameChar) (l := cs)) c hc
  · rw [word, drop_takeWhile_length]
    intro c hc
    have := List.head?_dropWhile_not isNameChar cs
    rw [hc] at this; simpa using this

theorem word_cons [Uni] {cs : List Char} (h : isNameStart (hd cs) = true) : ∃ w, word cs = hd cs :: w := by
  cases cs with
  | nil => simp [isNameStart, isAlphabetic, isAsciiLetter] at h
  | cons c r =>
    have := isNameChar_of_start h
    rw [hd_cons] at this ⊢
    exact ⟨r.takeWhile isNameChar, by simp [word, this]⟩

theorem quote_iff {cs : List Char} : (cs.head? = some '\'' ∨ cs.head? = some '"') ↔ (hd cs = '\'' ∨ hd cs = '"') := by
  rw [head?_iff (by decide), head?_iff (by decide)]

/-- A symbol the tokenizer returns is one of the grammar. -/
theorem word_of_arms [Uni] {ts l t l'} (h : armsResult ts l = .ok t l') :
    Word l.parens l.rest t.bare l'.parens l'.rest := by
  have hc := armsCase ts l
  rw [h] at hc
  generalize hr : LexRes.ok t l' = r at hc
  cases hc with
  | @op a hf hd0 =>
    have hm := List.mem_of_find?_eq_some hf
    have hL := findArm_longest hf hd0
    cases hb : brStep l.parens a.act.kind with
    | none => exact absurd hr.symm (armResult_err hm hb t l')
    | some st =>
      rw [armResult_ok hm hb] at hr
      simp only [LexRes.ok.injEq] at hr
      obtain ⟨rfl, rfl⟩ := hr
      obtain ⟨rest, hrest⟩ := hL.2.1
      have hlen := (opArms_spell a hm).2.1
      have e : Lexer.rest { l.fwd a.len with parens := st } = rest := by
        show (l.fwd a.len).rest = rest
        rw [rest_fwd, ← hlen, ← hrest, List.drop_left]
      rw [e]
      show Word l.parens l.rest (.sym a.act.kind 0 0 none) st rest
      rw [← hrest] at hL hd0 ⊢
      exact .operator hL (fun h => hd0 ((Longest.dot hL).2 h)) hb
  | @kw k h1 h2 =>
    simp only [LexRes.ok.injEq] at hr
    obtain ⟨rfl, rfl⟩ := hr
    obtain ⟨e, _, e3⟩ := word_split l.rest
    have := Word.keyword (st := l.parens) ((keywords_eq _ _).1 h2) e3
    rw [← e] at this
    simpa [Token.bare] using this
  | pstr h1 h2 h3 h4 =>
    have hs := stringResult_strText l.tokStart (hd (l.rest.drop (word l.rest).length)) (some (word l.rest)) ts
      (l.fwd (word l.rest).length)
    cases hst : strText (hd (l.rest.drop (word l.rest).length)) (l.fwd (word l.rest).length).rest with
    | none =>
      obtain ⟨e, l2, h, _⟩ := hs.2 hst
      rw [h] at hr; cases hr
    | some txt =>
      rw [hs.1 txt hst] at hr
      simp only [LexRes.ok.injEq] at hr
      obtain ⟨rfl, rfl⟩ := hr
      rw [rest_fwd] at hst
      have hL := (strText_iff h4 rfl txt).1 hst
      have := Word.prefixed (st := l.parens) ((prefixes_eq _).1 h3) hL
      rw [← (word_split l.rest).1] at this
      simpa [Token.bare] using this
  | name h1 h2 h3 =>
    simp only [LexRes.ok.injEq] at hr
    obtain ⟨rfl, rfl⟩ := hr
    obtain ⟨e, e2, e3⟩ := word_split l.rest
    obtain ⟨w, hw⟩ := word_cons h1
    have hk : ∀ k, (word l.rest, k) ∉ pyKeywords := by
      intro k hk
      rw [(keywords_eq _ _).2 hk] at h2; cases h2
    have h3' : ¬ (word l.rest ∈ pyPrefixes ∧ ((l.rest.drop (word l.rest).length).head? = some '\'' ∨
        (l.rest.drop (word l.rest).length).head? = some '"')) := by
      rw [quote_iff, ← prefixes_eq]; exact h3
    have := Word.name (st := l.parens) (c := hd l.rest) (w := w) (rest := l.rest.drop (word l.rest).length) h1
      (fun c hc => e2 c (by rw [hw]; simp [hc])) e3 (by rw [← hw]; exact hk) (by rw [← hw]; exact h3')
    rw [← hw, ← e] at this
    simpa [Token.bare] using this
  | zero h0 =>
    obtain ⟨txt, h1, rfl, rfl⟩ := numResult_tok hr.symm
    obtain ⟨r, hr⟩ := (hd_eq_iff (by decide)).mp h0
    rw [hr] at h1
    obtain ⟨r', hn⟩ := zeroScan_iff.1.1 h1
    have e := zeroScan_iff.2 r' hn
    rw [← hr] at hn e
    subst e
    simpa [Token.bare] using Word.number (st := l.parens) hn
  | dot h0 =>
    obtain ⟨txt, h1, rfl, rfl⟩ := numResult_tok hr.symm
    obtain ⟨c, r, hr, hc⟩ : ∃ c r, l.rest = '.' :: c :: r ∧ isDigit c = true := by
      obtain ⟨a, b⟩ := h0
      obtain ⟨r, hr⟩ := (hd_eq_iff (by decide)).mp a
      rw [hr] at b
      cases r with
      | nil => simp at b; exact absurd b (by decide)
      | cons c r => exact ⟨c, r, hr, by simpa using b⟩
    rw [hr] at h1
    have hn := (dotScan_iff hc).1.1 h1
    rw [← hr] at hn
    simpa [Token.bare] using Word.number (st := l.parens) hn
  | dec h0 hz =>
    obtain ⟨txt, h1, rfl, rfl⟩ := numResult_tok hr.symm
    obtain ⟨c, r, hr, hc, hz⟩ : ∃ c r, l.rest = c :: r ∧ isDigit c = true ∧ c ≠ '0' := by
      cases h : l.rest with
      | nil => rw [h] at h0; exact absurd h0 (by decide)
      | cons c r => rw [h] at h0 hz; exact ⟨c, r, rfl, h0, hz⟩
    rw [hr] at h1
    have hn := (decScan_iff hc hz).1.1 h1
    rw [← hr] at hn
    simpa [Token.bare] using Word.number (st := l.parens) hn
  | str h0 =>
    have hs := stringResult_strText l.tokStart (hd l.rest) none ts l
    cases hst : strText (hd l.rest) l.rest with
    | none =>
      obtain ⟨e, l2, h, _⟩ := hs.2 hst
      rw [h] at hr; cases hr
    | some txt =>
      rw [hs.1 txt hst] at hr
      simp only [LexRes.ok.injEq] at hr
      obtain ⟨rfl, rfl⟩ := hr
      have hL := (strText_iff h0 rfl txt).1 hst
      simpa [Token.bare] using Word.string (st := l.parens) hL
  | bad => cases hr

/-- The first character of a symbol. -/
theorem Word.first [Uni] {st cs t st' r} (h : Word st cs t st' r) :
    (AtEnd cs ∧ t = .eof 0 none ∧ st' = st ∧ r = cs) ∨
    (∃ txt, RestOfLine cs txt r ∧ cs! "# type:" <+: txt ∧ t = .typeComment 0 0 none txt ∧ st' = st) ∨
    hd cs ∉ [' ', '\t', '#', '\x00', '\r', '\n', '\\'] := by
  have hq : ∀ {cs txt}, StrLit cs txt → hd cs = '\'' ∨ hd cs = '"' := by
    intro cs txt h
    cases h with
    | empty h => exact h
    | line h => exact h
    | triple h => exact h
  cases h with
  | eof h => exact .inl ⟨h, rfl, rfl, rfl⟩
  | typeComment h1 h2 => exact .inr (.inl ⟨_, h1, h2, rfl, rfl⟩)
  | operator h1 => exact .inr (.inr (operator_not_skip h1.1 h1.2.1))
  | @keyword w k rest h1 =>
    refine .inr (.inr ?_)
    have hk : ∀ x ∈ pyKeywords, x.1 ≠ [] ∧ hd x.1 ∉ [' ', '\t', '#', '\x00', '\r', '\n', '\\'] := by decide
    obtain ⟨a, b⟩ := hk _ h1
    cases w with
    | nil => exact absurd rfl a
    | cons c w => exact b
  | name h1 => exact .inr (.inr (nameStart_not_skip h1))
  | string h1 => rcases hq h1 with h | h <;> rw [h] <;> exact .inr (.inr (by decide))
  | @prefixed pfx cs txt h1 h2 =>
    refine .inr (.inr ?_)
    have hk : ∀ x ∈ pyPrefixes, x ≠ [] ∧ hd x ∉ [' ', '\t', '#', '\x00', '\r', '\n', '\\'] := by decide
    obtain ⟨a, b⟩ := hk _ h1
    cases pfx with
    | nil => exact absurd rfl a
    | cons c w => exact b
  | number h1 =>
    refine .inr (.inr ?_)
    cases h1 with
    | decimal h => rw [isDec_eq] at h; exact isDigit_not_skip h
    | point h => simp
    | radix h => simp
    | zero h => simp

theorem armsResult_name [Uni] {ts : List Trivia} {l : Lexer} (h : isNameStart (hd l.rest) = true) :
    armsResult ts l = match keywords.lookup (word l.rest) with
      | some k => .ok (.sym k l.tokStart (l.pos + (word l.rest).length) (finTrivia ts)) (l.fwd (word l.rest).length)
      | none =>
        if stringPrefixes.contains (word l.rest) = true ∧ (hd (l.rest.drop (word l.rest).length) = '\'' ∨
            hd (l.rest.drop (word l.rest).length) = '"') then
          stringResult l.tokStart (hd (l.rest.drop (word l.rest).length)) (some (word l.rest)) ts (l.fwd (word l.rest).length)
        else .ok (.name l.tokStart (l.pos + (word l.rest).length) (finTrivia ts) (word l.rest))
          (l.fwd (word l.rest).length) := by
  rw [armsResult, findArm_nameStart h]
  dsimp only
  rw [if_pos h, nameArm_apply]
  rfl

theorem armsResult_number [Uni] {ts : List Trivia} {l : Lexer} (h : isDigit (hd l.rest) = true ∨ dotDigit l.rest) :
    armsResult ts l = numResult (if hd l.rest = '0' then zeroScan
        else if hd l.rest = '.' then dotScan else decScan) ts l := by
  rw [armsResult]
  rcases h with hc | hc
  · rw [findArm_digit hc]
    dsimp only
    rw [if_neg (by simp [isDigit_not_name hc])]
    split
    · rfl
    · rename_i h0
      have hd : hd l.rest ≠ '.' := by intro h; rw [h] at hc; exact absurd hc (by decide)
      rw [if_neg hd, if_neg (fun h => hd h.1)]
  · rw [findArm_dotDigit hc]
    dsimp only
    have hn : isNameStart (hd l.rest) = false := by
      rw [hc.1]; simp [isNameStart, isAlphabetic, isAsciiLetter]
    rw [if_neg (by simp [hn]), if_neg (by rw [hc.1]; decide), if_pos ⟨hc.1, hc.2⟩,
      if_neg (by rw [hc.1]; decide), if_pos hc.1]

theorem armsResult_string [Uni] {ts : List Trivia} {l : Lexer} (h : hd l.rest = '\'' ∨ hd l.rest = '"') :
    armsResult ts l = stringResult l.tokStart (hd l.rest) none ts l := by
  have hn : isNameStart (hd l.rest) = false := by
    rcases h with h | h <;> rw [h] <;> simp [isNameStart, isAlphabetic, isAsciiLetter]
  rw [armsResult, findArm_quote h]
  dsimp only
  have hx : ∀ c, hd l.rest = c → c = '\'' ∨ c = '"' := by rintro c rfl; exact h
  have hnd : isDigit (hd l.rest) = false := by rcases h with h | h <;> rw [h] <;> decide
  rw [if_neg (by simp [hn]), if_neg (fun e => absurd (hx _ e) (by decide)), if_neg (fun e => absurd (hx _ e.1) (by decide)),
    if_neg (by simp [hnd]), if_pos h]

theorem ascii_letter_start [Uni] {c : Char} (h : isAsciiLetter c = true) : isNameStart c = true ∧ isNameChar c = true := by
  have hlt : c.toNat < 128 := by
    simp only [isAsciiLetter, Bool.or_eq_true, Bool.and_eq_true, decide_eq_true_eq] at h
    omega
  exact ⟨by simp [isNameStart, isAlphabetic, hlt, h], by simp [isNameChar, isAlphanumeric, hlt, h]⟩

/-- A symbol of the grammar is returned by the tokenizer. -/
theorem arms_of_word [Uni] (ts : List Trivia) {l : Lexer} {t st r} (h : Word l.parens l.rest t st r)
    (hc : hd l.rest ∉ [' ', '\t', '#', '\x00', '\r', '\n', '\\']) :
    ∃ t' l', armsResult ts l = .ok t' l' ∧ t'.bare = t ∧ l'.parens = st ∧ l'.rest = r := by
  generalize hps : l.parens = ps at h
  generalize hcs : l.rest = cs at h hc
  have hstop : ∀ {rest : List Char}, Stops (fun c => isNameChar c = true) rest →
      ∀ c, rest.head? = some c → isNameChar c = false := by
    intro rest h c hc
    simpa using h c hc
  have hquo : ∀ {cs txt}, StrLit cs txt → hd cs = '\'' ∨ hd cs = '"' := by
    intro cs txt h
    cases h with
    | empty h => exact h
    | line h => exact h
    | triple h => exact h
  cases h with
  | eof h => rw [atEnd_iff] at h; rw [h] at hc; simp at hc
  | typeComment h1 h2 =>
    exfalso
    obtain ⟨x, rfl⟩ := h2
    obtain ⟨rfl, _⟩ := h1
    simp at hc
  | @operator w k st' rest hL hnd hb =>
    have hd0 : ¬ dotDigit (w ++ r) := fun h => hnd ((Longest.dot hL).1 h)
    obtain ⟨a, ha⟩ := findArm_of_operator hL.1 hL.2.1 hd0
    have hm := List.mem_of_find?_eq_some ha
    obtain ⟨h5, h6⟩ := longest_unique (findArm_longest ha hd0) hL
    have e : armsResult ts l = armResult a ts l := by rw [armsResult, hcs, ha]
    rw [e, armResult_ok hm (st := st) (by rw [hps, h6]; exact hb)]
    refine ⟨_, _, rfl, by simp [Token.bare, h6], rfl, ?_⟩
    show (l.fwd a.len).rest = _
    rw [rest_fwd, hcs, ← (opArms_spell a hm).2.1, h5, List.drop_left]
  | @keyword w k rest h1 h2 =>
    have hk : ∀ x ∈ pyKeywords, x.1 ≠ [] ∧ isAsciiLetter (hd x.1) = true ∧ x.1.all isAsciiLetter = true := by decide
    obtain ⟨k1, k2, k3⟩ := hk _ h1
    have hw : word (w ++ r) = w := word_eq (fun c hc => (ascii_letter_start (List.all_eq_true.mp k3 c hc)).2) (hstop h2)
    have hn : isNameStart (hd l.rest) = true := by
      rw [hcs]
      cases w with
      | nil => exact absurd rfl k1
      | cons c w => exact (ascii_letter_start k2).1
    rw [armsResult_name hn, hcs, hw, (keywords_eq _ _).2 h1]
    exact ⟨_, _, rfl, rfl, hps, by rw [rest_fwd, hcs, List.drop_left]⟩
  | @name c w rest h1 h2 h3 h4 h5 =>
    have hw : word (c :: w ++ r) = c :: w := word_eq (by
      intro x hx
      rcases List.mem_cons.1 hx with rfl | hx
      · exact isNameChar_of_start h1
      · exact h2 x hx) (hstop h3)
    have hn : isNameStart (hd l.rest) = true := by rw [hcs]; exact h1
    have hlk : keywords.lookup (c :: w) = none := by
      cases hl : keywords.lookup (c :: w) with
      | none => rfl
      | some k => exact absurd ((keywords_eq _ _).1 hl) (h4 k)
    rw [quote_iff, ← prefixes_eq] at h5
    rw [armsResult_name hn, hcs, hw, hlk]
    dsimp only
    rw [List.drop_left, if_neg h5]
    exact ⟨_, _, rfl, rfl, hps, by rw [rest_fwd, hcs, List.drop_left]⟩
  | @string cs txt hL =>
    have hq := hquo hL
    have hst := (strText_iff hq rfl txt).2 hL
    rw [← hcs] at hq hst
    rw [armsResult_string hq, (stringResult_strText ..).1 txt hst]
    exact ⟨_, _, rfl, rfl, hps, by rw [rest_fwd, hcs]⟩
  | @prefixed pfx cs txt h1 hL =>
    have hp : ∀ x ∈ pyPrefixes, x ≠ [] ∧ isAsciiLetter (hd x) = true ∧ x.all isAsciiLetter = true ∧
        keywords.lookup x = none := by decide
    obtain ⟨k1, k2, k3, k4⟩ := hp _ h1
    have hq := hquo hL
    have hw : word (pfx ++ cs) = pfx := word_eq (fun c hc => (ascii_letter_start (List.all_eq_true.mp k3 c hc)).2) (by
      intro c hc'
      cases cs with
      | nil => cases hc'
      | cons x cs =>
        simp at hc'; subst hc'
        rcases hq with h | h <;> rw [hd_cons] at h <;> subst h <;>
          simp [isNameChar, isAlphanumeric, isAsciiLetter, isDigit])
    have hn : isNameStart (hd l.rest) = true := by
      rw [hcs]
      cases pfx with
      | nil => exact absurd rfl k1
      | cons c w => exact (ascii_letter_start k2).1
    have hst := (strText_iff hq rfl txt).2 hL
    rw [armsResult_name hn, hcs, hw, k4]
    dsimp only
    rw [List.drop_left, if_pos ⟨(prefixes_eq _).2 h1, hq⟩]
    have hr : (l.fwd pfx.length).rest = cs := by rw [rest_fwd, hcs, List.drop_left]
    rw [(stringResult_strText ..).1 txt (by rw [hr]; exact hst)]
    exact ⟨_, _, rfl, rfl, hps, by rw [rest_fwd, hr]⟩
  | @number cs txt r hN =>
    have key : ∀ {s : Scan}, (isDigit (hd l.rest) = true ∨ dotDigit l.rest) →
        (if hd l.rest = '0' then zeroScan else if hd l.rest = '.' then dotScan else decScan) = s →
        s l.rest = .ok txt → r = l.rest.drop txt.length →
        ∃ t' l', armsResult ts l = .ok t' l' ∧ t'.bare = .number 0 0 none txt ∧ l'.parens = st ∧ l'.rest = r := by
      intro s h1 h2 h3 h4
      rw [armsResult_number h1, h2, numResult, h3]
      exact ⟨_, _, rfl, rfl, hps, by rw [rest_fwd, h4]⟩
    have hN' := hN
    cases hN with
    | decimal hd0 h0 =>
      have hdd := hd0
      rw [isDec_eq] at hdd
      refine key (.inl (by rw [hcs]; exact hdd)) (by
        rw [hcs, hd_cons, if_neg h0, if_neg]
        rintro rfl; exact absurd hdd (by decide)) ?_ ?_
      · rw [hcs, (decScan_iff hdd h0).1, ← (decScan_iff hdd h0).2 _ hN']; exact hN'
      · rw [hcs]; exact (decScan_iff hdd h0).2 _ hN'
    | point hd0 =>
      have hdd := hd0
      rw [isDec_eq] at hdd
      refine key (.inr (by rw [hcs]; exact ⟨rfl, by simpa using hdd⟩)) (by
        rw [hcs, hd_cons, if_neg (by decide), if_pos rfl]) ?_ ?_
      · rw [hcs, (dotScan_iff hdd).1, ← (dotScan_iff hdd).2 _ hN']; exact hN'
      · rw [hcs]; exact (dotScan_iff hdd).2 _ hN'
    | radix =>
      refine key (s := zeroScan) (.inl (by rw [hcs]; rfl)) (by rw [hcs, hd_cons, if_pos rfl]) ?_ ?_
      · rw [hcs, zeroScan_iff.1]; exact ⟨_, hN'⟩
      · rw [hcs]; exact zeroScan_iff.2 _ hN'
    | zero =>
      refine key (s := zeroScan) (.inl (by rw [hcs]; rfl)) (by rw [hcs, hd_cons, if_pos rfl]) ?_ ?_
      · rw [hcs, zeroScan_iff.1]; exact ⟨_, hN'⟩
      · rw [hcs]; exact zeroScan_iff.2 _ hN'

end LG
end Verif
