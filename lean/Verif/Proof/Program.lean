import Verif.Spec.Program
import Verif.Props.Gaps
import Verif.Props.Numbers

/-!
# Tokenizer: reading texts written lexeme by lexeme and line by line
-/

set_option linter.unusedSimpArgs false

namespace Verif
open LexM
attribute [-simp] List.drop_one List.tail_drop

/-- What may follow a lexeme here. -/
def Sep (rest : List Char) : Prop := rest = [] ∨ ∃ c r, rest = c :: r ∧ (c = ' ' ∨ c = '\n')

theorem Sep.hd {rest} (h : Sep rest) : hd rest = '\x00' ∨ hd rest = ' ' ∨ hd rest = '\n' := by
  rcases h with rfl | ⟨c, r, rfl, h⟩
  · exact .inl rfl
  · exact .inr h

theorem Sep.head {rest} (h : Sep rest) {c} (hc : rest.head? = some c) : c = ' ' ∨ c = '\n' := by
  rcases h with rfl | ⟨d, r, rfl, h⟩
  · simp at hc
  · simp at hc; subst hc; exact h

theorem Sep.notName [Uni] {rest} (h : Sep rest) : ∀ c, rest.head? = some c → isNameChar c = false := by
  intro c hc
  rcases h.head hc with rfl | rfl <;> simp [isNameChar, isAlphanumeric, isAsciiLetter, isDigit]

theorem Sep.numEnd {rest} (h : Sep rest) : NumEnd rest := by
  apply numEnd_of
  intro c hc
  rcases h.head hc with rfl | rfl <;> decide

theorem Lexeme.token_kind (x : Lexeme) (s tr s' tr') : (x.token s tr).kind = (x.token s' tr').kind := by
  cases x <;> rfl

/-- Names and keywords. -/
theorem names_arms [Uni] {ts l w rest} (ht : l.tokStart = l.pos) (hr : l.rest = w ++ rest)
    (hs : isNameStart (hd w) = true) (hne : w ≠ []) (hw : ∀ c ∈ w, isNameChar c = true)
    (hrest : ∀ c, rest.head? = some c → isNameChar c = false) :
    armsResult ts l = match keywords.lookup w with
      | some k => .ok (.sym k l.pos (l.pos + w.length) (finTrivia ts)) (l.fwd w.length)
      | none =>
        if stringPrefixes.contains w = true ∧ (hd rest = '\'' ∨ hd rest = '"') then
          stringResult l.pos (hd rest) (some w) ts (l.fwd w.length)
        else .ok (.name l.pos (l.pos + w.length) (finTrivia ts) w) (l.fwd w.length) := by
  have hh : hd l.rest = hd w := by
    rw [hr]; cases w with
    | nil => exact absurd rfl hne
    | cons c w => rfl
  rw [armsResult, findArm_nameStart (by rw [hh]; exact hs)]
  simp only [hh, hs, if_true]
  rw [nameArm_apply]
  dsimp only
  rw [hr, word_eq hw hrest, ht]
  cases keywords.lookup w <;> simp

theorem asciiLetters_name [Uni] {w : List Char} (k2 : isAsciiLetter (hd w) = true)
    (k3 : w.all isAsciiLetter = true) :
    isNameStart (hd w) = true ∧ ∀ c ∈ w, isNameChar c = true := by
  have hlt : ∀ c, isAsciiLetter c = true → c.toNat < 128 := by
    intro c hc; simp only [isAsciiLetter, Bool.or_eq_true, Bool.and_eq_true, decide_eq_true_eq] at hc
    omega
  refine ⟨by simp [isNameStart, isAlphabetic, hlt _ k2, k2], ?_⟩
  intro c hc
  have := List.all_eq_true.mp k3 c hc
  simp [isNameChar, isAlphanumeric, hlt _ this, this]

/-- Operators followed by a separator. -/
theorem operator_longest {w rest k} (hw : (w, k) ∈ operators) (hs : Sep rest) :
    Longest operators (w ++ rest) w k ∧ ¬ dotDigit (w ++ rest) := by
  have hch : ∀ x ∈ operators, ∀ c ∈ x.1, c ≠ ' ' ∧ c ≠ '\n' ∧ isDigit c = false := by decide
  refine ⟨⟨hw, List.prefix_append .., ?_⟩, ?_⟩
  · intro w' k' hw' hp
    apply Nat.le_of_not_lt
    intro hlt
    obtain ⟨v, hv⟩ := List.prefix_of_prefix_length_le (List.prefix_append w rest) hp (by omega)
    rw [← hv, List.prefix_append_right_inj] at hp
    have hv0 : v ≠ [] := by rintro rfl; simp at hv; rw [hv] at hlt; omega
    obtain ⟨u, hu⟩ := hp
    cases v with
    | nil => exact hv0 rfl
    | cons c v =>
      have hc := hch _ hw' c (by simp [← hv])
      rcases hs.head (c := c) (by rw [← hu]; rfl) with h | h
      · exact hc.1 h
      · exact hc.2.1 h
  · rintro ⟨h1, h2⟩
    have hl : ∀ x ∈ operators, x.1 ≠ [] := by decide
    have := hl _ hw
    match w, this, hw with
    | [c], _, hw =>
      simp at h2
      rcases hs.hd with h | h | h <;> rw [h] at h2 <;> exact absurd h2 (by decide)
    | c :: d :: w, _, hw =>
      have := (hch _ hw d (by simp)).2.2
      simp at h2
      rw [this] at h2; simp at h2

theorem operator_arms [Uni] {ts l w k} (ht : l.tokStart = l.pos)
    (hw : Longest operators l.rest w k) (hd0 : ¬ dotDigit l.rest)
    (hbr : (brStep l.parens k).isSome = true) :
    ∃ l', armsResult ts l = .ok (.sym k l.pos (l.pos + w.length) (finTrivia ts)) l' := by
  obtain ⟨a, ha⟩ := findArm_of_operator hw.1 hw.2.1 hd0
  have hm := List.mem_of_find?_eq_some ha
  obtain ⟨h5, h6⟩ := longest_unique (findArm_longest ha hd0) hw
  have hlen : a.len = w.length := by rw [← (opArms_spell a hm).2.1, h5]
  have hact := opArms_act a hm
  rw [armsResult, ha]
  simp only [armResult, ht, hlen]
  cases hk : a.act with
  | tok k' => simp only [hk, OpAct.kind] at h6; subst h6; exact ⟨_, rfl⟩
  | openB k' c => simp only [hk, OpAct.kind] at h6; subst h6; exact ⟨_, rfl⟩
  | closeB k' c =>
    simp only [hk, OpAct.kind] at h6 hact; subst h6
    dsimp only
    rw [if_pos]
    · exact ⟨_, rfl⟩
    · rcases hact.2.2.2 with ⟨rfl, rfl⟩ | ⟨rfl, rfl⟩ | ⟨rfl, rfl⟩ <;> simp only [brStep] at hbr <;>
        split at hbr <;> first | assumption | simp at hbr

/-- A lexeme with a separator after it. -/
theorem lexeme_arms [Uni] {ts l} {x : Lexeme} {rest} (hx : x.Ok) (ht : l.tokStart = l.pos)
    (hr : l.rest = x.text ++ rest) (hs : Sep rest) (hbr : (brStep l.parens (x.token 0 none).kind).isSome = true) :
    ∃ l', armsResult ts l = .ok (x.token l.pos (finTrivia ts)) l' := by
  cases x with
  | name w =>
    obtain ⟨⟨c, r, rfl, h2⟩, h3, h4⟩ := hx
    have hl : keywords.lookup (c :: r) = none := by
      cases hlk : keywords.lookup (c :: r) with
      | none => rfl
      | some k => exact absurd ((keywords_eq _ k).mp hlk) (h4 k)
    have hr : l.rest = (c :: r) ++ rest := hr
    rw [names_arms ht hr h2 (by simp) h3 hs.notName, hl]
    dsimp only
    rw [if_neg]
    · exact ⟨_, rfl⟩
    · rintro ⟨_, h | h⟩ <;> rcases hs.hd with h' | h' | h' <;> rw [h'] at h <;> exact absurd h (by decide)
  | kw w k =>
    have hx : (w, k) ∈ pyKeywords := hx
    have hk : ∀ x ∈ pyKeywords, x.1 ≠ [] ∧ (isAsciiLetter (hd x.1) = true) ∧
      x.1.all isAsciiLetter = true := by decide
    obtain ⟨k1, k2, k3⟩ := hk _ hx
    obtain ⟨k4, k5⟩ := asciiLetters_name k2 k3
    have hr : l.rest = w ++ rest := hr
    rw [names_arms ht hr k4 k1 k5 hs.notName, (keywords_eq w k).mpr hx]
    exact ⟨_, rfl⟩
  | op w k =>
    obtain ⟨h1, h2⟩ := operator_longest (k := k) hx hs
    have hr : l.rest = w ++ rest := hr
    exact operator_arms ht (by rw [hr]; exact h1) (by rw [hr]; exact h2) hbr
  | num txt =>
    obtain ⟨g1, g2⟩ := scan_exact hx hs.numEnd
    have hr : l.rest = txt ++ rest := hr
    rw [← hr] at g1 g2
    rw [armsResult]
    rcases g1 with hc | hc
    · rw [findArm_digit hc]
      dsimp only
      rw [if_neg (by simp [isDigit_not_name hc])]
      have hd : hd l.rest ≠ '.' := by intro h; rw [h] at hc; exact absurd hc (by decide)
      by_cases h0 : Verif.hd l.rest = '0'
      · rw [if_pos h0] at g2 ⊢
        rw [numResult, g2, ht]; exact ⟨_, rfl⟩
      · rw [if_neg h0, if_neg hd] at g2
        rw [if_neg h0, if_neg (fun h => hd h.1), if_pos hc, numResult, g2, ht]; exact ⟨_, rfl⟩
    · rw [findArm_dotDigit hc]
      dsimp only
      have hn : isNameStart (hd l.rest) = false := by
        rw [hc.1]; simp [isNameStart, isAlphabetic, isAsciiLetter]
      rw [if_neg (by rw [hc.1]; decide), if_pos hc.1] at g2
      rw [if_neg (by simp [hn]), if_neg (by rw [hc.1]; decide), if_pos ⟨hc.1, hc.2⟩, numResult, g2, ht]
      exact ⟨_, rfl⟩
  | str pfx q body =>
    obtain ⟨hpfx, hq, h1, h2, h3, h4⟩ := hx
    have hr : l.rest = pfx ++ (q :: (body ++ q :: rest)) := by rw [hr]; simp [Lexeme.text]
    have hq0 : q ≠ '\x00' := by rcases hq with rfl | rfl <;> decide
    have hlit : StrLit (q :: (body ++ q :: rest)) (q :: (body ++ [q])) := by
      cases body with
      | nil =>
        refine .empty hq ?_
        intro hc
        rcases hs.head hc with h | h <;> subst h <;> simp at hq
      | cons c b => exact .line hq (by simp) h1 h2 h3 h4
    have hst := (strText_iff hq rfl _).mpr hlit
    rcases hpfx with rfl | hpfx
    · simp only [List.nil_append] at hr
      have n1 : isNameStart q = false := by
        rcases hq with h | h <;> rw [h] <;> simp [isNameStart, isAlphabetic, isAsciiLetter]
      have n2 : q ≠ '0' ∧ q ≠ '.' ∧ isDigit q = false := by
        rcases hq with h | h <;> rw [h] <;> decide
      rw [armsResult, findArm_quote (by rw [hr]; exact hq)]
      have := (stringResult_strText l.pos q none ts l).1 _ (by rw [hr]; exact hst)
      refine ⟨Lexer.fwd (q :: (body ++ [q])).length l, ?_⟩
      · simp only [hr, hd_cons, n1, n2, hq, ht, false_and, if_false, if_true]
        simp only [Bool.false_eq_true, if_false]
        rw [this]
        simp [Lexeme.token]
    · have hk : ∀ w ∈ pyPrefixes, w ≠ [] ∧ (isAsciiLetter (hd w) = true) ∧ w.all isAsciiLetter = true ∧
          keywords.lookup w = none ∧ stringPrefixes.contains w = true := by decide
      obtain ⟨k1, k2, k3, k4, k5⟩ := hk _ hpfx
      obtain ⟨k6, k7⟩ := asciiLetters_name k2 k3
      rw [names_arms ht hr k6 k1 k7 (by
        intro c hc
        simp at hc; subst hc
        rcases hq with h | h <;> subst h <;>
          simp [isNameChar, isAlphanumeric, isAsciiLetter, isDigit]), k4]
      dsimp only
      rw [if_pos ⟨k5, hq⟩]
      have := (stringResult_strText l.pos q (some pfx) ts (l.fwd pfx.length)).1 _
        (by rw [rest_fwd, hr]; simpa using hst)
      refine ⟨(l.fwd pfx.length).fwd (q :: (body ++ [q])).length, ?_⟩
      rw [hd_cons, this]
      simp [Lexeme.token, k1, Nat.add_assoc]

/-- No lexeme starts with a character that is skipped, and none is empty. -/
theorem Lexeme.Ok.start [Uni] {x : Lexeme} (hx : x.Ok) (rest) :
    hd (x.text ++ rest) ∉ [' ', '\t', '#', '\x00', '\r', '\n', '\\'] ∧ x.text ≠ [] := by
  cases x with
  | name w => obtain ⟨⟨c, r, rfl, h2⟩, _⟩ := hx; exact ⟨nameStart_not_skip h2, by simp [Lexeme.text]⟩
  | kw w k =>
    have hk : ∀ x ∈ pyKeywords, x.1 ≠ [] ∧ hd x.1 ∉ [' ', '\t', '#', '\x00', '\r', '\n', '\\'] := by decide
    obtain ⟨h1, h2⟩ := hk _ hx
    refine ⟨?_, h1⟩
    cases w with
    | nil => exact absurd rfl h1
    | cons c w => exact h2
  | op w k =>
    have hk : ∀ x ∈ operators, x.1 ≠ [] ∧ hd x.1 ∉ [' ', '\t', '#', '\x00', '\r', '\n', '\\'] := by decide
    obtain ⟨h1, h2⟩ := hk _ hx
    refine ⟨?_, h1⟩
    cases w with
    | nil => exact absurd rfl h1
    | cons c w => exact h2
  | num txt =>
    have hne : txt ≠ [] := by
      rintro rfl
      rcases (scan_exact hx (rest := []) ⟨by decide, by decide, by decide, by decide⟩).1 with h | h
      · exact absurd h (by decide)
      · exact absurd h.1 (by decide)
    refine ⟨?_, hne⟩
    have he : NumEnd [' '] := ⟨by decide, by decide, by decide, by decide⟩
    have : hd (txt ++ rest) = hd (txt ++ [' ']) := by
      cases txt with
      | nil => exact absurd rfl hne
      | cons c w => rfl
    show hd (txt ++ rest) ∉ _
    rw [this]
    rcases (scan_exact hx he).1 with h | h
    · exact isDigit_not_skip h
    · rw [h.1]; decide
  | str pfx q body =>
    obtain ⟨hpfx, hq, _⟩ := hx
    refine ⟨?_, by simp [Lexeme.text]⟩
    rcases hpfx with rfl | hpfx
    · show q ∉ _; rcases hq with rfl | rfl <;> decide
    · have hk : ∀ w ∈ pyPrefixes, w ≠ [] ∧ hd w ∉ [' ', '\t', '#', '\x00', '\r', '\n', '\\'] := by decide
      obtain ⟨h1, h2⟩ := hk _ hpfx
      cases pfx with
      | nil => exact absurd rfl h1
      | cons c w => exact h2

theorem Lexeme.token_span (x : Lexeme) (s tr) : (x.token s tr).span? = some (s, s + x.text.length) := by
  cases x <;> simp [Lexeme.token, Token.span?, Lexeme.text]

/-- In the middle of a line, with everything else in order. -/
structure Mid (src : List Char) (l : Lexer) : Prop where
  inv : Inv src l
  bol : l.bol = false
  pending : l.pending = 0

theorem lexeme_not_layout (x : Lexeme) [Uni] (hx : x.Ok) (s tr) : (x.token s tr).kind.isLayout = false ∧
    (x.token s tr).kind ≠ .EOF := by
  cases x with
  | name w => exact ⟨rfl, by simp [Lexeme.token, Token.kind]⟩
  | num w => exact ⟨rfl, by simp [Lexeme.token, Token.kind]⟩
  | str _ _ _ => exact ⟨rfl, by simp [Lexeme.token, Token.kind]⟩
  | kw w k =>
    have : ∀ x ∈ pyKeywords, x.2.isLayout = false ∧ x.2 ≠ .EOF := by decide
    exact this _ hx
  | op w k =>
    have : ∀ x ∈ operators, x.2.isLayout = false ∧ x.2 ≠ .EOF := by decide
    exact this _ hx

/-- Reading one lexeme after the gap `gap`. -/
theorem read_lexeme [Uni] {src l} {x : Lexeme} {ts k rest} (hm : Mid src l) (hx : x.Ok)
    (hg : Gap false l.pos l.rest ts k) (hr : l.rest.drop k = x.text ++ rest) (hs : Sep rest) {ps}
    (hbr : brStep l.parens (x.token 0 none).kind = some ps) :
    ∃ l', getSymbol l = .ok (x.token (l.pos + k) (finTrivia ts)) l' ∧ Mid src l' ∧
      l'.pos = l.pos + k + x.text.length ∧ l'.rest = rest ∧ l'.parens = ps ∧ l'.indents = l.indents := by
  have hst := hx.start rest
  have hg' : Gap (false || !(l.at l.pos).parens.isEmpty) (l.at l.pos).pos (l.at l.pos).rest ts k := by
    cases h : (l.at l.pos).parens.isEmpty
    · exact Gap.of_hrun hg.hrun
    · exact hg
  have hstep := Step.arms (bolState_mid (l := l.at l.pos) (b := false) hm.bol) hm.pending hg'
    (by rw [rest_at, hr]; exact hst.1)
  have heq := getSymbol_eq hm.inv hstep
  generalize hl2 : (Lexer.fwd k (l.at l.pos)).at ((l.at l.pos).pos + k) = l2 at heq
  have hp2 : l2.pos = l.pos + k := by rw [← hl2]; simp
  obtain ⟨l', hl'⟩ := lexeme_arms (ts := ts) (l := l2) hx (by rw [← hl2]; simp)
    (by rw [← hl2]; simpa using hr) hs (by rw [← hl2]; simpa using by rw [hbr]; rfl)
  rw [hp2] at hl'
  have hlen : k + x.text.length ≤ l.rest.length := by
    have := congrArg List.length hr
    have hpos : 0 < x.text.length := by
      have := hst.2; cases h : x.text with
      | nil => exact absurd h this
      | cons c r => simp
    simp at this; omega
  rcases armsResult_facts ts l2 (by rw [← hl2]; simp) with
    ⟨t', j, ps', e1, e2, e3, e4, e5, e6, e7, e8, _⟩ | ⟨e, j, e1, _⟩
  · rw [hl'] at e1
    simp only [LexRes.ok.injEq] at e1
    obtain ⟨rfl, rfl⟩ := e1
    rw [Lexeme.token_span, hp2] at e4
    simp at e4
    have hj : j = x.text.length := by omega
    subst hj
    rw [hl'] at heq
    have hok := ok_facts hm.inv heq
    refine ⟨_, heq, ⟨hok.inv, ?_, ?_⟩, ?_, ?_, ?_, ?_⟩
    · rw [← hl2]; exact hm.bol
    · rw [← hl2]; exact hm.pending
    · show l2.pos + _ = _; rw [hp2]
    · show (l2.fwd _).rest = _
      rw [rest_fwd, ← hl2]
      show List.drop _ ((Lexer.fwd k l).rest) = _
      rw [rest_fwd, hr]; simp
    · have h1 := hok.brackets
      rw [Lexeme.token_kind x _ _ 0 none, hbr] at h1
      injection h1 with h1; exact h1.symm
    · rw [← hl2]; rfl
  · rw [hl'] at e1; simp at e1

theorem brRun_kinds {ts us : List Token} (h : ts.map Token.kind = us.map Token.kind) (st) :
    brRun st ts = brRun st us := by
  induction ts generalizing us st with
  | nil => cases us with
    | nil => rfl
    | cons => simp at h
  | cons t ts ih => cases us with
    | nil => simp at h
    | cons u us =>
      simp at h
      rw [brRun, brRun, h.1]
      cases brStep st u.kind with
      | none => rfl
      | some st' => exact ih h.2 st'

theorem spacedTokens_kinds (xs : List Lexeme) (p tr p' tr') :
    (spacedTokens p tr xs).map Token.kind = (spacedTokens p' tr' xs).map Token.kind := by
  induction xs generalizing p tr p' tr' with
  | nil => rfl
  | cons x xs ih =>
    simp only [spacedTokens, List.map_cons]
    rw [Lexeme.token_kind x p tr p' tr', ih]

/-- Reading space separated lexemes in the middle of a line; the first one after the gap `ts`. -/
theorem read_spaced [Uni] {src l} {xs : List Lexeme} {ts k tail ps} (hm : Mid src l) (hxs : ∀ x ∈ xs, x.Ok)
    (hne : xs ≠ []) (hg : Gap false l.pos l.rest ts k) (hr : l.rest.drop k = spacedText xs ++ tail)
    (htail : tail = [] ∨ ∃ r, tail = '\n' :: r)
    (hbr : brRun l.parens (spacedTokens 0 none xs) = some ps) :
    ∃ l', Tokens l (spacedTokens (l.pos + k) (finTrivia ts) xs) l' ∧ Mid src l' ∧
      l'.pos = l.pos + k + (spacedText xs).length ∧ l'.rest = tail ∧ l'.parens = ps ∧
      l'.indents = l.indents := by
  induction xs generalizing l ts k with
  | nil => exact absurd rfl hne
  | cons x xs ih =>
    simp only [spacedTokens, brRun] at hbr
    cases hb1 : brStep l.parens (x.token 0 none).kind with
    | none => rw [hb1] at hbr; simp at hbr
    | some ps1 =>
      rw [hb1] at hbr
      simp only [] at hbr
      cases xs with
      | nil =>
        simp only [spacedTokens, brRun, Option.some.injEq] at hbr
        subst hbr
        obtain ⟨l', h1, h2, h3, h4, h5, h6⟩ := read_lexeme hm (hxs x (by simp)) hg hr (by
          rcases htail with rfl | ⟨r, rfl⟩
          · exact .inl rfl
          · exact .inr ⟨_, _, rfl, .inr rfl⟩) hb1
        exact ⟨l', .cons h1 .nil, h2, h3, h4, h5, h6⟩
      | cons y ys =>
        simp only [spacedText, List.append_assoc, List.cons_append] at hr
        obtain ⟨l', h1, h2, h3, h4, h5, h6⟩ := read_lexeme hm (hxs x (by simp)) hg hr
          (.inr ⟨_, _, rfl, .inl rfl⟩) hb1
        have hsp : (l'.rest.takeWhile (· == ' ')).length = 1 := by
          have hst : hd (spacedText (y :: ys) ++ tail) ≠ ' ' := by
            have hy : y.Ok := hxs y (by simp)
            intro hh
            cases ys with
            | nil => exact (hy.start tail).1 (by simp [spacedText] at hh; rw [hh]; simp)
            | cons z zs =>
              simp only [spacedText, List.append_assoc] at hh
              exact (hy.start _).1 (by rw [hh]; simp)
          rw [h4, List.takeWhile_cons]
          simp only [beq_self_eq_true, if_true, List.length_cons]
          cases hc : spacedText (y :: ys) ++ tail with
          | nil => rfl
          | cons c r =>
            rw [hc] at hst
            have : (c == ' ') = false := by simpa using hst
            simp [List.takeWhile_cons, this]
        have hgap : Gap false l'.pos l'.rest [.whiteSpace l'.pos (l'.pos + 1) ' '] 1 := by
          have := Gap.item (multi := false) (HTrivia.spaces (pos := l'.pos) (cs := l'.rest) (by rw [h4]; rfl)) .nil
          rwa [hsp] at this
        obtain ⟨l2, g1, g2, g3, g4, g5, g6⟩ := ih (l := l') (k := 1) h2 (fun z hz => hxs z (by simp [hz]))
          (by simp) hgap (by rw [h4]; rfl)
          (by rw [h5, ← hbr]; exact brRun_kinds (spacedTokens_kinds _ _ _ _ _) _)
        refine ⟨l2, ?_, g2, ?_, g4, g5, by rw [g6, h6]⟩
        · rw [spacedTokens]
          refine .cons h1 ?_
          have : finTrivia [.whiteSpace l'.pos (l'.pos + 1) ' '] =
            some [.whiteSpace (l.pos + k + x.text.length) (l.pos + k + x.text.length + 1) ' '] := by
            rw [h3]; rfl
          rw [this, h3] at g1
          exact g1
        · rw [g3, h3]; simp [spacedText]; omega

/-! ### Line starts -/

/-- A line start that changes no block is the same as having read the blanks. -/
theorem getSymbol_bol [Uni] {src l l1} (hi : Inv src l) (hb : bolState false (l.at l.pos) = (false, l1))
    (hp : l1.pending = 0) : getSymbol l = getSymbol l1 := by
  obtain ⟨hi1, e1, _⟩ := bolState_inv (hi.at (Nat.le_refl _)) hb
  have hs := getSymbol_step l1 hi1.inter hi1.ind
  have hbs : bolState false (l1.at l1.pos) = (false, l1.at l1.pos) := bolState_mid e1
  apply getSymbol_eq hi
  generalize getSymbol l1 = r at hs
  have same : ∀ {b' l1'}, bolState false (l1.at l1.pos) = (b', l1') → b' = false ∧ l1' = l1.at l1.pos := by
    intro b' l1' h; rw [hbs] at h; injection h with h1 h2; exact ⟨h1.symm, h2.symm⟩
  cases hs with
  | dedent hb' hq => obtain ⟨rfl, rfl⟩ := same hb'; have : l1.pending < 0 := hq; omega
  | indent hb' hq => obtain ⟨rfl, rfl⟩ := same hb'; have : l1.pending > 0 := hq; omega
  | newline hb' hq hbf hpar hrun hend hc1 hc2 =>
    obtain ⟨rfl, rfl⟩ := same hb'
    exact Step.newline (l1 := l1) hb hq rfl hpar hrun hend hc1 hc2
  | typeComment hb' hq hg hh ht =>
    obtain ⟨rfl, rfl⟩ := same hb'
    exact Step.typeComment (l1 := l1) hb hq hg hh ht
  | eof hb' hq hg hh =>
    obtain ⟨rfl, rfl⟩ := same hb'
    exact Step.eof (l1 := l1) hb hq hg hh
  | badCont hb' hq hg hh h1 h2 =>
    obtain ⟨rfl, rfl⟩ := same hb'
    exact Step.badCont (l1 := l1) hb hq hg hh h1 h2
  | arms hb' hq hg hh =>
    obtain ⟨rfl, rfl⟩ := same hb'
    exact Step.arms (l1 := l1) hb hq hg hh

/-- Pending dedents are returned one by one. -/
theorem read_dedents [Uni] {src l} (n : Nat) (hi : Inv src l) (hb : l.bol = false)
    (hp : l.pending = -(n : Int)) :
    ∃ l', Tokens l (List.replicate n (.dedent none)) l' ∧ Mid src l' ∧ l'.pos = l.pos ∧
      l'.rest = l.rest ∧ l'.parens = l.parens ∧ l'.indents = l.indents := by
  induction n generalizing l with
  | zero => exact ⟨l, .nil, ⟨hi, hb, by simpa using hp⟩, rfl, rfl, rfl, rfl⟩
  | succ n ih =>
    have hstep := Step.dedent (l := l) (bolState_mid (l := l.at l.pos) (b := false) hb)
      (by show l.pending < 0; omega)
    have heq := getSymbol_eq hi hstep
    obtain ⟨l', h1, h2, h3, h4, h5, h6⟩ := ih (ok_facts hi heq).inv hb (by
      show l.pending + 1 = _; omega)
    exact ⟨l', .cons heq h1, h2, h3, h4, h5, h6⟩

/-- The layout tokens at a line start, and the state in front of the first lexeme. -/
theorem read_layout [Uni] {src l l1} (hi : Inv src l) (hb : bolState false (l.at l.pos) = (false, l1)) :
    ∃ l2, Mid src l2 ∧ l2.pos = l1.pos ∧ l2.rest = l1.rest ∧ l2.parens = l1.parens ∧
      l2.indents = l1.indents ∧ ∀ ts l3, ts ≠ [] → Tokens l2 ts l3 →
        Tokens l ((if l1.pending > 0 then [.indent none] else
          List.replicate l1.pending.natAbs (.dedent none)) ++ ts) l3 := by
  obtain ⟨hi1, e1, _⟩ := bolState_inv (hi.at (Nat.le_refl _)) hb
  by_cases h0 : l1.pending = 0
  · refine ⟨l1, ⟨hi1, e1, h0⟩, rfl, rfl, rfl, rfl, ?_⟩
    intro ts l3 hne ht
    rw [h0]
    cases ht with
    | nil => exact absurd rfl hne
    | cons hr hts =>
      rw [← getSymbol_bol hi hb h0] at hr
      exact .cons hr hts
  by_cases h1 : l1.pending > 0
  · have hstep := Step.indent hb h1
    have heq := getSymbol_eq hi hstep
    have hle := hi1.pendHi.1
    refine ⟨_, ⟨(ok_facts hi heq).inv, e1, ?_⟩, rfl, rfl, rfl, rfl, ?_⟩
    · show l1.pending - 1 = 0; omega
    · intro ts l3 _ ht
      rw [if_pos h1]; exact .cons heq ht
  · have hstep := Step.dedent hb (by omega)
    have heq := getSymbol_eq hi hstep
    obtain ⟨l2, g1, g2, g3, g4, g5, g6⟩ := read_dedents (l1.pending.natAbs - 1) (ok_facts hi heq).inv e1 (by
      show l1.pending + 1 = _; omega)
    refine ⟨l2, g2, g3, g4, g5, g6, ?_⟩
    intro ts l3 _ ht
    rw [if_neg h1]
    have : l1.pending.natAbs = (l1.pending.natAbs - 1) + 1 := by omega
    rw [this, List.replicate_succ, List.cons_append]
    refine .cons heq ?_
    clear this h0 h1 heq hstep e1 hb
    generalize l1.pending.natAbs - 1 = n at g1 ⊢
    clear g2 g3 g4 g5 g6
    revert g1
    generalize { l1 with pending := l1.pending + 1 } = lx
    intro g1
    generalize hus : List.replicate n (Token.dedent none) = us at g1
    clear hus
    induction g1 with
    | nil => exact ht
    | cons h _ ih => exact .cons h (ih ht)

theorem Tokens.append [Uni] {l ts l1 us l2} (h : Tokens l ts l1) (h' : Tokens l1 us l2) :
    Tokens l (ts ++ us) l2 := by
  induction h with
  | nil => exact h'
  | cons h _ ih => exact .cons h (ih h')

end Verif
