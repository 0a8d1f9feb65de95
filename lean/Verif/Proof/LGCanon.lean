import Verif.Proof.LGBlank
import Verif.Spec.Canonical

/-!
# The canonical text has the given symbols
-/

set_option linter.unusedSimpArgs false

namespace Verif
namespace LG

/-! ### One symbol -/

/-- The text is empty, or starts with a blank, a comment, a backslash or a line end. -/
def Gap (b : List Char) : Prop := ∀ c, b.head? = some c → c ∈ gapChars

/-- The text does not start with a blank, a comment, a backslash or a line end. -/
def Code (b : List Char) : Prop := ∀ c, b.head? = some c → c ∉ gapChars

theorem Number.retext {cs txt r b : List Char} (h : Number cs txt r) (hb : Gap b) : Number (txt ++ b) txt b := by
  by_cases hr : r = []
  · subst hr
    cases h with
    | @decimal c cs ds a fr b0 ex x0 im _ h1 h2 h3 h4 h5 h6 =>
      obtain ⟨rfl, g6⟩ := Suffix.swap hb (x := []) (b := []) h6
      obtain ⟨rfl, g5⟩ := Power.swap hb h5
      rw [← List.append_assoc] at h4
      obtain ⟨rfl, g4⟩ := Fraction.swap hb h4
      simp only [← List.append_assoc] at h3
      obtain ⟨rfl, g3⟩ := Digits.swap hb isDec_gap h3
      simp only [← List.append_assoc] at *
      have := Number.decimal h1 h2 g3 g4 g5 g6
      simpa using this
    | @point c cs ds a ex x0 im _ h1 h3 h5 h6 =>
      obtain ⟨rfl, g6⟩ := Suffix.swap hb (x := []) (b := []) h6
      obtain ⟨rfl, g5⟩ := Power.swap hb h5
      simp only [← List.append_assoc] at h3
      obtain ⟨rfl, g3⟩ := Digits.swap hb isDec_gap h3
      simp only [← List.append_assoc] at *
      have := Number.point h1 g3 g5 g6
      simpa using this
    | @radix x0 d cs ds _ h1 h2 h3 =>
      obtain ⟨rfl, g2⟩ := Digits.swap hb (x := []) (b := []) (by cases h1 <;> decide) h2
      have := Number.radix h1 g2 h3
      simpa using this
    | @zero c cs ds a fr b0 ex x0 im _ h1 h2 h3 h4 h5 h6 h7 h8 h9 =>
      obtain ⟨rfl, g8⟩ := Suffix.swap hb (x := []) (b := []) h8
      obtain ⟨rfl, g7⟩ := Power.swap hb h7
      rw [← List.append_assoc] at h6
      obtain ⟨rfl, g6⟩ := Fraction.swap hb h6
      simp only [← List.append_assoc] at h3 h5
      have g5 := Stops.swap hb h5 (fun c hc h => by rw [isDec_gap c hc] at h; cases h)
      simp only [← List.append_assoc] at *
      have := Number.zero (c := c) (cs := c :: (ds ++ fr ++ ex ++ im ++ [] ++ b)) rfl h2 (by simp) h4 g5 g6 g7 g8 h9
      simpa using this
  · obtain ⟨_, _, h⟩ := Number.swap hb hr (x := []) (by simpa using h)
    simpa using h

theorem spelling_operators : ∀ x ∈ operators, ((Token.sym x.2 0 0 none).spelling, x.2) ∈ operators := by decide +kernel
theorem spelling_keywords : ∀ x ∈ pyKeywords, (Token.sym x.2 0 0 none).spelling = x.1 := by decide +kernel

theorem operators_long : ∀ x ∈ operators, x.1.length ≤ 3 := by decide
theorem operators_ne : ∀ x ∈ operators, x.1 ≠ [] := by decide

/-- An operator in front of a gap. -/
theorem longest_gap {w : List Char} {k : Kind} (h : (w, k) ∈ operators) {b : List Char} (hb : Gap b) : Longest operators (w ++ b) w k := by
  refine ⟨h, List.prefix_append _ _, fun w' k' h' hp => ?_⟩
  have := prefix_swap hb hp (op_gap _ _ h')
  exact this.length_le

/-- A symbol can be read from its spelling. -/
theorem Word.retext [Uni] {st cs t st' r b} (h : Word st cs t st' r) (ht : Solid t) (hb : Gap b) :
    Word st (t.spelling ++ b) t st' b := by
  have hdec : ∀ {w : List Char}, ¬ (w = ['.'] ∧ ∃ d r, b = d :: r ∧ isDec d = true) := by
    rintro _ ⟨-, d, r, rfl, h⟩
    rw [isDec_gap d (hb d rfl)] at h; cases h
  have hname : Stops (fun c => isNameChar c = true) b := fun c hc h => nameChar_gap c (hb c hc) h
  cases h with
  | eof => exact absurd ht (by simp [Solid, Token.kind])
  | typeComment => exact absurd ht (by simp [Solid, Token.kind])
  | operator h1 h2 h3 => exact .operator (longest_gap (spelling_operators _ h1.1) hb) hdec h3
  | @keyword w k _ h1 h2 =>
    rw [spelling_keywords _ h1]
    exact .keyword h1 hname
  | name h1 h2 h3 h4 h5 =>
    refine .name h1 h2 hname h4 ?_
    rintro ⟨-, h | h⟩
    · exact absurd (hb _ h) (by decide)
    · exact absurd (hb _ h) (by decide)
  | @string cs txt h =>
    obtain ⟨_, _, h3⟩ := StrLit.swap hb h (x := []) rfl
    have := Word.string (st := st) h3
    simpa [Token.spelling] using this
  | @prefixed pfx cs txt h0 h =>
    obtain ⟨_, _, h3⟩ := StrLit.swap hb h (x := []) rfl
    have := Word.prefixed (st := st) h0 h3
    simpa [Token.spelling] using this
  | number h => exact .number (h.retext hb)

theorem isDec_notGap {c : Char} (h : isDec c = true) : c ∉ '\x00' :: gapChars := by
  intro hc
  rcases List.mem_cons.1 hc with rfl | hc
  · revert h; decide
  · rw [isDec_gap c hc] at h; cases h

theorem keywords_start : ∀ x ∈ pyKeywords, ∃ c r, x.1 = c :: r ∧ c ∉ '\x00' :: gapChars := by
  intro x hx
  have : pyKeywords.all (fun x => match x.1 with | c :: _ => !('\x00' :: gapChars).contains c | [] => false) = true := by decide
  have := List.all_eq_true.1 this x hx
  split at this
  · rename_i c r e; exact ⟨c, r, e, by simpa using this⟩
  · cases this

theorem operators_start : ∀ x ∈ operators, ∃ c r, x.1 = c :: r ∧ c ∉ '\x00' :: gapChars := by
  intro x hx
  have : operators.all (fun x => match x.1 with | c :: _ => !('\x00' :: gapChars).contains c | [] => false) = true := by decide
  have := List.all_eq_true.1 this x hx
  split at this
  · rename_i c r e; exact ⟨c, r, e, by simpa using this⟩
  · cases this

theorem prefixes_start : ∀ x ∈ pyPrefixes, ∃ c r, x = c :: r ∧ c ∉ '\x00' :: gapChars := by
  intro x hx
  have : pyPrefixes.all (fun x => match x with | c :: _ => !('\x00' :: gapChars).contains c | [] => false) = true := by decide
  have := List.all_eq_true.1 this x hx
  split at this
  · rename_i c r; exact ⟨c, r, rfl, by simpa using this⟩
  · cases this

/-- The first character of a symbol, in the text and in its spelling. -/
theorem Word.start [Uni] {st cs t st' r} (h : Word st cs t st' r) (ht : Solid t) :
    (∃ c r0, cs = c :: r0 ∧ c ∉ '\x00' :: gapChars) ∧ ∃ c r0, t.spelling = c :: r0 ∧ c ∉ '\x00' :: gapChars := by
  have hstr : ∀ {cs txt}, StrLit cs txt → (∃ c r0, cs = c :: r0 ∧ c ∉ '\x00' :: gapChars) ∧ ∃ c r0, txt = c :: r0 ∧ c ∉ '\x00' :: gapChars := by
    intro cs txt h
    cases h with
    | empty hq => rcases hq with rfl | rfl <;> exact ⟨⟨_, _, rfl, by decide⟩, _, _, rfl, by decide⟩
    | line hq => rcases hq with rfl | rfl <;> exact ⟨⟨_, _, rfl, by decide⟩, _, _, rfl, by decide⟩
    | triple hq => rcases hq with rfl | rfl <;> exact ⟨⟨_, _, rfl, by decide⟩, _, _, rfl, by decide⟩
  cases h with
  | eof => exact absurd ht (by simp [Solid, Token.kind])
  | typeComment => exact absurd ht (by simp [Solid, Token.kind])
  | operator h1 h2 h3 =>
    obtain ⟨c, r0, e, hc⟩ := operators_start _ h1.1
    refine ⟨⟨c, r0 ++ r, by simp at e; simp [e], hc⟩, ?_⟩
    obtain ⟨c, r0, e, hc⟩ := operators_start _ (spelling_operators _ h1.1)
    exact ⟨c, r0, e, hc⟩
  | @keyword w k _ h1 h2 =>
    obtain ⟨c, r0, e, hc⟩ := keywords_start _ h1
    refine ⟨⟨c, r0 ++ r, by simp at e; simp [e], hc⟩, ?_⟩
    exact ⟨c, r0, (spelling_keywords _ h1).trans e, hc⟩
  | @name c w _ h1 h2 h3 h4 h5 =>
    have hc : c ∉ '\x00' :: gapChars := by
      intro hc
      simp only [gapChars, List.mem_cons, List.not_mem_nil, or_false] at hc
      rcases hc with rfl | rfl | rfl | rfl | rfl | rfl | rfl <;> revert h1 <;> simp [isNameStart, isAlphabetic] <;> decide
    exact ⟨⟨c, _, rfl, hc⟩, c, _, rfl, hc⟩
  | @string cs txt h => exact ⟨(hstr h).1, by simpa [Token.spelling] using (hstr h).2⟩
  | @prefixed pfx cs txt h0 h =>
    obtain ⟨c, r0, rfl, hc⟩ := prefixes_start _ h0
    exact ⟨⟨c, _, rfl, hc⟩, c, _, rfl, hc⟩
  | number h =>
    cases h with
    | decimal h => exact ⟨⟨_, _, rfl, isDec_notGap h⟩, _, _, rfl, isDec_notGap h⟩
    | point h => exact ⟨⟨_, _, rfl, by decide⟩, _, _, rfl, by decide⟩
    | radix h => exact ⟨⟨_, _, rfl, by decide⟩, _, _, rfl, by decide⟩
    | zero h => exact ⟨⟨_, _, rfl, by decide⟩, _, _, rfl, by decide⟩

/-! ### The symbols of a text that is read to its end -/

/-- The last symbol is the end of the text, and no other one is. -/
inductive UpToEof : List Token → Prop
  | last {e} : e.kind = .EOF → UpToEof [e]
  | cons {t us} : t.kind ≠ .EOF → UpToEof us → UpToEof (t :: us)

theorem UpToEof.tail {t us} (h : UpToEof (t :: us)) (hu : us ≠ []) : UpToEof us := by
  generalize e : t :: us = ts at h
  cases h with
  | last => cases e; exact absurd rfl hu
  | cons _ h => cases e; exact h

theorem Code.skips {z cs : List Char} (h : Code z) (hs : Skips false z cs) : cs = z := by
  cases z with
  | nil => exact skips_nil hs
  | cons c r =>
    have := h c rfl
    simp [gapChars] at this
    exact AtCode.skips ⟨c, r, rfl, by simp [this]⟩ hs

theorem Code.endsLine {z r : List Char} (h : Code z) (hl : EndsLine z r) : False := by
  cases hl <;> exact absurd (h _ rfl) (by decide)

theorem Code.noTypeComment {z txt rest : List Char} (h : Code z) (h1 : RestOfLine z txt rest) (h2 : cs! "# type:" <+: txt) : False := by
  obtain ⟨rfl, -⟩ := h1
  obtain ⟨y, rfl⟩ := h2
  exact absurd (h _ rfl) (by decide)

theorem margin_code {p cs : List Char} {col : Nat} (h : LG.margin 0 p = (col, cs)) (hn : ¬ NoCode cs) : Code cs := by
  intro c hc hg
  have := margin_stops h c hc
  simp [gapChars] at hg
  simp [NoCode] at hn
  rcases hg with rfl | rfl | rfl | rfl | rfl | rfl <;> simp_all

/-- The next symbol in the middle of a line. -/
theorem Next.inLine [Uni] {p t q} (h : Next p t q) (hf : p.fresh = false) (ho : p.owed = 0) :
    (t = .newline 0 0 none ' ' ' ' ∧ p.closers = [] ∧ ∃ cs r, Skips false p.text cs ∧ EndsLine cs r ∧ q = { p with fresh := true, text := r }) ∨
    ∃ cs st r, Skips (!p.closers.isEmpty) p.text cs ∧ Word p.closers cs t st r ∧ q = { p with closers := st, text := r } := by
  have hm : ∀ {b q0}, Enter p b q0 → b = false ∧ q0 = p := by
    intro b q0 he
    cases he with
    | mid => exact ⟨rfl, rfl⟩
    | _ => simp_all
  cases h with
  | dedent he h => obtain ⟨rfl, rfl⟩ := hm he; omega
  | indent he h => obtain ⟨rfl, rfl⟩ := hm he; omega
  | newline he _ h1 h2 h3 => obtain ⟨-, rfl⟩ := hm he; exact .inl ⟨rfl, h1, _, _, h2, h3, rfl⟩
  | word he _ h1 h2 => obtain ⟨rfl, rfl⟩ := hm he; exact .inr ⟨_, _, _, by simpa using h1, h2, rfl⟩

/-- After the ends of blocks: the first symbol of the line. -/
theorem dedents_split [Uni] {p q : Place} : ∀ {n : Nat} {ts}, Run p ts q → UpToEof ts → p.fresh = false → p.closers = [] → p.owed = -(n : Int) → Code p.text →
    ∃ w us st r, ts = List.replicate n (.dedent none) ++ w :: us ∧ Word [] p.text w st r ∧
      Run { p with closers := st, owed := 0, text := r } us q := by
  intro n
  induction n generalizing p with
  | zero =>
    intro ts h he hf hc ho hz
    have ho : p.owed = 0 := by simpa using ho
    cases h with
    | nil => cases he
    | @cons _ t q1 us _ h1 h2 =>
      rcases h1.inLine hf ho with ⟨_, _, cs, r, h3, h4, _⟩ | ⟨cs, st, r, h3, h4, rfl⟩
      · rw [hz.skips h3] at h4; exact (hz.endsLine h4).elim
      · rw [hc] at h3 h4
        have := hz.skips h3
        subst this
        refine ⟨t, us, st, r, rfl, h4, ?_⟩
        rw [← ho]; exact h2
  | succ n ih =>
    intro ts h he hf hc ho hz
    cases h with
    | nil => cases he
    | @cons _ t q1 us _ h1 h2 =>
      have hm : ∀ {b q0}, Enter p b q0 → q0 = p := by
        intro b q0 he
        cases he with
        | mid => rfl
        | _ => simp_all
      cases h1 with
      | dedent he' h =>
        have := hm he'
        subst this
        cases he with
        | last h => cases h
        | cons _ he =>
          obtain ⟨w, us', st, r, rfl, h3, h4⟩ := ih h2 he hf hc (by dsimp only; omega) hz
          exact ⟨w, us', st, r, rfl, h3, h4⟩
      | indent he' h => have := hm he'; subst this; omega
      | newline he' h => have := hm he'; subst this; omega
      | word he' h => have := hm he'; subst this; omega

/-- The symbols at the start of a line: perhaps the start of a block or ends of blocks, and then a symbol that is no line
end. -/
theorem fresh_split [Uni] {p q : Place} {ts : List Token} {d : Nat} (h : Run p ts q) (he : UpToEof ts) (hf : p.fresh = true) (hc : p.closers = [])
    (ho : p.owed = 0) (hl : p.levels.length = d + 1) :
    ∃ L w us cs st r d' m, ts = L ++ w :: us ∧ Word [] cs w st r ∧ Run m us q ∧ m.fresh = false ∧ m.closers = st ∧ m.owed = 0 ∧
      m.levels.length = d' + 1 ∧ m.text = r ∧
      ((L = [] ∧ d' = d) ∨ (L = [.indent none] ∧ d' = d + 1 ∧ w.kind ≠ .TypeComment) ∨
        ∃ n, L = List.replicate (n + 1) (.dedent none) ∧ d = d' + (n + 1) ∧ w.kind ≠ .TypeComment) := by
  have notc : ∀ {z w st r}, Code z → Word [] z w st r → w.kind ≠ .TypeComment := by
    intro z w st r hz hw hk
    cases hw with
    | typeComment h1 h2 => exact hz.noTypeComment h1 h2
    | operator h => exact absurd hk (by have := solid_operators _ h.1; simp [Solid] at this; exact this.2.2.2.2)
    | keyword h => exact absurd hk (by have := solid_keywords _ h; simp [Solid] at this; exact this.2.2.2.2)
    | _ => cases hk
  cases h with
  | nil => cases he
  | @cons _ t q1 us _ h1 h2 =>
    cases h1 with
    | word hen hw1 hs hw =>
      cases hen with
      | mid h => rw [hf] at h; cases h
      | brackets _ _ _ h => exact absurd hc h
      | noCode _ h3 h4 => exact ⟨[], t, us, _, _, _, d, _, rfl, hc ▸ hw, h2, rfl, rfl, ho, hl, rfl, .inl ⟨rfl, rfl⟩⟩
      | same _ h3 h4 => exact ⟨[], t, us, _, _, _, d, _, rfl, hc ▸ hw, h2, rfl, rfl, ho, hl, rfl, .inl ⟨rfl, rfl⟩⟩
      | deeper => cases hw1
      | @shallower _ _ out _ _ _ h1 _ _ _ h3 =>
        cases out with
        | nil => exact absurd rfl h3
        | cons => simp at hw1; omega
    | newline hen hw1 hcl hs hle =>
      cases hen with
      | mid h => rw [hf] at h; cases h
      | brackets _ _ _ h => exact absurd hc h
      | same _ h3 h4 => have hz := margin_code h3 h4; rw [hz.skips hs] at hle; exact (hz.endsLine hle).elim
      | deeper => cases hw1
      | @shallower _ _ out _ _ _ h1 _ _ _ h3 =>
        cases out with
        | nil => exact absurd rfl h3
        | cons => simp at hw1; omega
    | indent hen hw1 =>
      cases hen with
      | mid h => rw [hf] at h; cases h
      | brackets _ _ _ h => exact absurd hc h
      | noCode => simp [ho] at hw1
      | same => simp [ho] at hw1
      | @deeper col z top _ h3 h4 =>
        cases he with
        | last h => cases h
        | cons _ he =>
          obtain ⟨w, us', st, r, e, h5, h6⟩ := dedents_split (n := 0) h2 he rfl hc (by simp) (margin_code h3 h4)
          subst e
          exact ⟨[.indent none], w, us', z, st, r, d + 1, _, rfl, h5, h6, rfl, rfl, rfl, by simp [hl], rfl,
            .inr (.inl ⟨rfl, rfl, notc (margin_code h3 h4) h5⟩)⟩
      | @shallower _ _ out _ _ _ h1 _ _ _ h3 => simp at hw1; omega
    | dedent hen hw1 =>
      cases hen with
      | mid h => rw [hf] at h; cases h
      | brackets _ _ _ h => exact absurd hc h
      | noCode => simp [ho] at hw1
      | same => simp [ho] at hw1
      | deeper => simp at hw1
      | @shallower col z out keep top _ h3 h4 _ h5 h6 _ h7 =>
        cases out with
        | nil => exact absurd rfl h6
        | cons a out =>
          cases he with
          | last h => cases h
          | cons _ he =>
            obtain ⟨w, us', st, r, e, h8, h9⟩ := dedents_split (n := out.length) h2 he rfl hc (by simp; omega) (margin_code h3 h4)
            subst e
            have hk : keep ≠ [] := by rintro rfl; cases h7
            have hk' : 0 < keep.length := List.length_pos_iff.2 hk
            refine ⟨List.replicate (out.length + 1) (.dedent none), w, us', z, st, r, keep.length - 1, _, rfl, h8, h9, rfl, rfl, rfl,
              by simp; omega, rfl, .inr (.inr ⟨out.length, rfl, ?_, notc (margin_code h3 h4) h8⟩)⟩
            rw [h5] at hl; simp at hl; omega

/-! ### The canonical text -/

/-- The columns of `d` blocks, each one blank deeper than the one around it. -/
def downTo : Nat → List Nat
  | 0 => [0]
  | d + 1 => (d + 1) :: downTo d

theorem downTo_head (d : Nat) : (downTo d).head? = some d := by cases d <;> rfl

theorem downTo_split (d n : Nat) : ∃ out, downTo (d + n) = out ++ downTo d ∧ out.length = n ∧ ∀ x ∈ out, d < x := by
  induction n with
  | zero => exact ⟨[], rfl, rfl, by simp⟩
  | succ n ih =>
    obtain ⟨out, h1, h2, h3⟩ := ih
    refine ⟨(d + n + 1) :: out, by rw [← Nat.add_assoc, downTo, h1]; rfl, by simp [h2], ?_⟩
    intro x hx
    rcases List.mem_cons.1 hx with rfl | hx
    · omega
    · exact h3 x hx

/-- The line feed after a type comment inside brackets. -/
def afterComment (t : Token) (st : List Char) : List Char := if t.kind = .TypeComment ∧ st ≠ [] then ['\n'] else []

theorem keywords_brStep : ∀ x ∈ pyKeywords, ∀ st, brStep st x.2 = some st := by
  intro x hx st
  simp [pyKeywords] at hx
  rcases hx with rfl | rfl | rfl | rfl | rfl | rfl | rfl | rfl | rfl | rfl | rfl | rfl | rfl | rfl | rfl | rfl | rfl | rfl | rfl |
    rfl | rfl | rfl | rfl | rfl | rfl | rfl | rfl | rfl | rfl | rfl | rfl | rfl | rfl | rfl | rfl <;> rfl

theorem Word.brStep_eq [Uni] {st cs t st' r} (h : Word st cs t st' r) : brStep st t.kind = some st' := by
  cases h with
  | operator _ _ h => exact h
  | keyword h => exact keywords_brStep _ h _
  | _ => rfl

theorem Word.sort [Uni] {st cs t st' r} (h : Word st cs t st' r) : t.kind = .EOF ∨ t.kind = .TypeComment ∨ Solid t := by
  cases h with
  | eof => exact .inl rfl
  | typeComment => exact .inr (.inl rfl)
  | operator h => exact .inr (.inr (solid_operators _ h.1))
  | keyword h => exact .inr (.inr (solid_keywords _ h))
  | _ => exact .inr (.inr (by simp [Solid, Token.kind]))

theorem render_word {t : Token} {f d st us} (h : t.kind = .TypeComment ∨ Solid t) :
    render f d st (t :: us) = (if f then List.replicate d ' ' else [' ']) ++ (t.spelling ++
      (afterComment t st ++ render false d ((brStep st t.kind).getD st) us)) := by
  have hk : t.kind ≠ .Newline ∧ t.kind ≠ .Indent ∧ t.kind ≠ .Dedent ∧ t.kind ≠ .EOF := by
    rcases h with h | h
    · simp [h]
    · simp [Solid] at h; simp [h]
  rw [render]
  split
  · exact absurd ‹_› hk.1
  · exact absurd ‹_› hk.2.1
  · exact absurd ‹_› hk.2.2.1
  · exact absurd ‹_› hk.2.2.2
  · rfl

theorem render_gap {ts : List Token} : ∀ {d st}, Gap (render false d st ts) := by
  induction ts with
  | nil => intro d st; simp [render, Gap]
  | cons t ts ih =>
    intro d st
    rw [render]
    split
    · simp [Gap, gapChars]
    · exact ih
    · exact ih
    · simp [Gap]
    · simp [Gap, gapChars]

theorem Word.ofTypeComment [Uni] {st cs t st' r} (h : Word st cs t st' r) (hk : t.kind = .TypeComment) :
    ∃ txt, t = .typeComment 0 0 none txt ∧ RestOfLine cs txt r ∧ cs! "# type:" <+: txt ∧ st' = st := by
  cases h with
  | typeComment h1 h2 => exact ⟨_, rfl, h1, h2, rfl⟩
  | operator h => exact absurd hk (by have := solid_operators _ h.1; simp [Solid] at this; exact this.2.2.2.2)
  | keyword h => exact absurd hk (by have := solid_keywords _ h; simp [Solid] at this; exact this.2.2.2.2)
  | _ => cases hk

/-- After a type comment outside brackets the line ends. -/
theorem render_afterComment [Uni] {m q us} {d : Nat} (h : Run m us q) (he : UpToEof us) (hf : m.fresh = false) (ho : m.owed = 0) (hc : m.closers = [])
    (ht : ∀ c, m.text.head? = some c → c = '\r' ∨ c = '\n' ∨ c = '\x00') :
    ∀ c, (render false d [] us).head? = some c → c = '\r' ∨ c = '\n' ∨ c = '\x00' := by
  cases h with
  | nil => cases he
  | @cons _ t q1 us _ h1 h2 =>
    rcases h1.inLine hf ho with ⟨rfl, _⟩ | ⟨cs, st, r, h3, h4, rfl⟩
    · intro c hc; simp [render, Token.kind] at hc; exact .inr (.inl hc.symm)
    · rw [hc] at h3 h4
      have hcs : cs = m.text := by
        generalize m.text = z at ht h3
        cases h3 with
        | done => rfl
        | blank hc => rcases hc with rfl | rfl <;> simp at ht
        | @comment _ txt _ _ h1 h2 =>
          obtain ⟨rfl, -⟩ := h1
          cases txt with
          | nil => cases h2
          | cons d txt => cases h2; simp at ht
        | continuation => simp at ht
        | line h => cases h
      subst hcs
      have : t.kind = .EOF := by
        rcases h4.sort with h | h | h
        · exact h
        · obtain ⟨txt, -, ⟨e, -⟩, ⟨y, rfl⟩, -⟩ := h4.ofTypeComment h
          rw [e] at ht; simp at ht
        · obtain ⟨⟨c, r0, e, hcg⟩, -⟩ := h4.start h
          rw [e] at ht
          have := ht c rfl
          rcases this with rfl | rfl | rfl <;> exact absurd hcg (by decide)
      intro c hc
      rw [render] at hc
      simp [this] at hc

/-- The next symbol of the canonical text. -/
theorem Word.rendered [Uni] {st cs w st' r us m q} {d : Nat} (hw : Word st cs w st' r) (hk : w.kind ≠ .EOF) (h : Run m us q) (he : UpToEof us)
    (hf : m.fresh = false) (hc : m.closers = st') (ho : m.owed = 0) (ht : m.text = r) :
    Word st (w.spelling ++ (afterComment w st ++ render false d st' us)) w st' (afterComment w st ++ render false d st' us) := by
  rcases hw.sort with h1 | h1 | h1
  · exact absurd h1 hk
  · obtain ⟨txt, rfl, ⟨e, h2, h3⟩, h4, rfl⟩ := hw.ofTypeComment h1
    refine .typeComment ⟨rfl, h2, ?_⟩ h4
    by_cases hst : st' = []
    · subst hst
      have := render_afterComment (d := d) h he hf ho hc (ht ▸ h3)
      simpa [afterComment] using this
    · simp [afterComment, hst, Token.kind]
  · have : afterComment w st = [] := by
      have : w.kind ≠ .TypeComment := by simp [Solid] at h1; exact h1.2.2.2.2
      simp [afterComment, this]
    rw [this]
    exact hw.retext h1 render_gap

theorem run_dedents [Uni] {p : Place} (hf : p.fresh = false) : ∀ (n : Nat) {ts q}, Run { p with owed := 0 } ts q →
    Run { p with owed := -(n : Int) } (List.replicate n (.dedent none) ++ ts) q := by
  intro n
  induction n with
  | zero => intro ts q h; simpa using h
  | succ n ih =>
    intro ts q h
    rw [List.replicate_succ, List.cons_append]
    refine .cons (q := { p with owed := -(n : Int) }) ?_ (ih h)
    have := Next.dedent (p := { p with owed := -((n + 1 : Nat) : Int) }) (.mid hf) (by dsimp only; omega)
    dsimp only at this
    rw [show -((n + 1 : Nat) : Int) + 1 = -(n : Int) by omega] at this
    exact this

theorem render_layout {L : List Token} {d d' : Nat} {us : List Token} (h : (L = [] ∧ d' = d) ∨ (L = [.indent none] ∧ d' = d + 1) ∨
    ∃ n, L = List.replicate (n + 1) (.dedent none) ∧ d = d' + (n + 1)) : render true d [] (L ++ us) = render true d' [] us := by
  rcases h with ⟨rfl, rfl⟩ | ⟨rfl, rfl⟩ | ⟨n, rfl, rfl⟩
  · rfl
  · rfl
  · induction n generalizing d' with
    | zero => rfl
    | succ n ih =>
      rw [List.replicate_succ, List.cons_append, render]
      exact ih

theorem margin_blanks_code {d : Nat} {z : List Char} (hz : ∀ c, z.head? = some c → c ≠ ' ' ∧ c ≠ '\t') : ∀ k,
    LG.margin k (List.replicate d ' ' ++ z) = (k + d, z) := by
  induction d with
  | zero =>
    intro k
    unfold LG.margin
    split
    · rename_i e; simp at e; exact absurd rfl (hz ' ' (by rw [e]; rfl)).1
    · rename_i e; simp at e; exact absurd rfl (hz '\t' (by rw [e]; rfl)).2
    · rfl
  | succ d ih =>
    intro k
    rw [List.replicate_succ, List.cons_append, LG.margin, ih]
    simp; omega

theorem canon [Uni] : ∀ (n : Nat) (ts : List Token), ts.length ≤ n → UpToEof ts →
    (∀ p q d, Run p ts q → p.fresh = true → p.closers = [] → p.owed = 0 → p.levels.length = d + 1 →
      ∃ q', Run ⟨true, [], downTo d, 0, render true d [] ts⟩ ts q') ∧
    (∀ p q d x, Run p ts q → p.fresh = false → p.owed = 0 → p.levels.length = d + 1 → (x = [] ∨ (x = ['\n'] ∧ p.closers ≠ [])) →
      ∃ q', Run ⟨false, p.closers, downTo d, 0, x ++ render false d p.closers ts⟩ ts q') := by
  intro n
  induction n with
  | zero => intro ts hn he; cases he <;> simp at hn
  | succ n ih =>
    intro ts hn he
    -- a symbol with a text, and what follows it
    have step : ∀ {st cs w st' r us m q d}, Word st cs w st' r → Run m us q → m.fresh = false → m.closers = st' → m.owed = 0 →
        m.levels.length = d + 1 → m.text = r → us.length ≤ n → UpToEof (w :: us) → ∃ z r' q',
          (∀ f, render f d st (w :: us) = (if f then List.replicate d ' ' else if w.kind = .EOF then [] else [' ']) ++ z) ∧
          Word st z w st' r' ∧ Run ⟨false, st', downTo d, 0, r'⟩ us q' ∧ (Code z ∨ ('#' :: z.tail = z)) := by
      intro st cs w st' r us m q d hw hr h1 h2 h3 h4 h5 hlen hends
      cases hends with
      | last hk =>
        have : st' = st ∧ w = .eof 0 none := by
          cases hw with
          | eof => exact ⟨rfl, rfl⟩
          | operator h => exact absurd hk (by have := solid_operators _ h.1; simp [Solid] at this; exact this.2.2.2.1)
          | keyword h => exact absurd hk (by have := solid_keywords _ h; simp [Solid] at this; exact this.2.2.2.1)
          | _ => cases hk
        obtain ⟨rfl, rfl⟩ := this
        refine ⟨[], [], _, ?_, .eof (.inl rfl), .nil, .inl (by simp [Code])⟩
        intro f; cases f <;> simp [render, Token.kind]
      | cons hk hends =>
        obtain ⟨q', h6⟩ := (ih us hlen hends).2 m q d (afterComment w st) hr h1 h3 h4 (by
          unfold afterComment
          split
          · rename_i h
            obtain ⟨txt, -, -, -, rfl⟩ := hw.ofTypeComment h.1
            exact .inr ⟨rfl, h2 ▸ h.2⟩
          · exact .inl rfl)
        rw [h2] at h6
        refine ⟨_, _, q', ?_, hw.rendered hk hr hends h1 h2 h3 h5, h6, ?_⟩
        · intro f
          rw [render_word (hw.sort.resolve_left hk), hw.brStep_eq]
          simp [hk]
        · rcases hw.sort with h | h | h
          · exact absurd h hk
          · obtain ⟨txt, rfl, -, ⟨y, rfl⟩, -⟩ := hw.ofTypeComment h
            exact .inr rfl
          · obtain ⟨-, c, r0, e, hc⟩ := hw.start h
            left
            intro c' hc'
            rw [e] at hc'
            cases hc'
            exact fun h => hc (List.mem_cons_of_mem _ h)
    constructor
    · intro p q d hrun hf hc ho hl
      obtain ⟨L, w, us, cs, st, r, d', m, rfl, hw, hr, h1, h2, h3, h4, h5, hL⟩ := fresh_split hrun he hf hc ho hl
      have hends : UpToEof (w :: us) := by
        rcases hL with ⟨rfl, -⟩ | ⟨rfl, -, -⟩ | ⟨k, rfl, -, -⟩
        · exact he
        · cases he with | cons _ h => exact h
        · generalize k + 1 = k' at he
          clear hrun hn
          induction k' with
          | zero => simpa using he
          | succ k ih => exact ih (by rw [List.replicate_succ, List.cons_append] at he; exact he.tail (by simp))
      obtain ⟨z, r', q', e, hw', hr', hz⟩ := step (d := d') hw hr h1 h2 h3 h4 h5 (by simp at hn; omega) hends
      have hz' : ∀ c, z.head? = some c → c ≠ ' ' ∧ c ≠ '\t' := by
        intro c hc
        rcases hz with hz | hz
        · have := hz c hc
          exact ⟨fun h => this (by rw [h]; decide), fun h => this (by rw [h]; decide)⟩
        · rw [← hz] at hc; cases hc; decide
      have hm : LG.margin 0 (List.replicate d' ' ' ++ z) = (d', z) := by simpa using margin_blanks_code (d := d') hz' 0
      have hnc' : Code z → ¬ NoCode z := by
        intro h hn
        rcases hn with hn | hn | hn | hn <;> exact absurd (h _ hn) (by decide)
      have hword : Run ⟨false, [], downTo d', 0, z⟩ (w :: us) q' :=
        .cons (Next.word (p := ⟨false, [], downTo d', 0, z⟩) (.mid rfl) rfl .done hw') hr'
      have htext : render true d [] (L ++ w :: us) = List.replicate d' ' ' ++ z := by
        rw [render_layout (d' := d'), e]
        · simp
        · rcases hL with ⟨h, h'⟩ | ⟨h, h', -⟩ | ⟨k, h, h', -⟩
          · exact .inl ⟨h, h'⟩
          · exact .inr (.inl ⟨h, h'⟩)
          · exact .inr (.inr ⟨k, h, h'⟩)
      rw [htext]
      have hcode : w.kind ≠ .TypeComment → Code z := by
        intro hk
        rcases hz with hz | hz
        · exact hz
        · exfalso
          rcases hw'.sort with h | h | h
          · cases hw' with
            | eof ha => rw [← hz] at ha; simp [AtEnd] at ha
            | operator h' => exact absurd h (by have := solid_operators _ h'.1; simp [Solid] at this; exact this.2.2.2.1)
            | keyword h' => exact absurd h (by have := solid_keywords _ h'; simp [Solid] at this; exact this.2.2.2.1)
            | _ => cases h
          · exact hk h
          · obtain ⟨⟨c, r0, e, hc⟩, -⟩ := hw'.start h
            rw [← hz] at e
            cases e
            exact hc (by decide)
      refine ⟨q', ?_⟩
      rcases hL with ⟨rfl, rfl⟩ | ⟨rfl, rfl, hk⟩ | ⟨k, rfl, rfl, hk⟩
      · by_cases hnc : NoCode z
        · exact .cons (Next.word (p := ⟨true, [], downTo d', 0, List.replicate d' ' ' ++ z⟩) (q := ⟨false, [], downTo d', 0, z⟩)
            (.noCode rfl hm hnc) rfl .done hw') hr'
        · exact .cons (Next.word (p := ⟨true, [], downTo d', 0, List.replicate d' ' ' ++ z⟩) (q := ⟨false, [], downTo d', 0, z⟩)
            (.same rfl hm hnc rfl (downTo_head _)) rfl .done hw') hr'
      · exact .cons (Next.indent (p := ⟨true, [], downTo d, 0, List.replicate (d + 1) ' ' ++ z⟩) (q := ⟨false, [], downTo (d + 1), 1, z⟩)
          (.deeper rfl hm (hnc' (hcode hk)) rfl (downTo_head d) (by omega)) (Int.zero_lt_one)) hword
      · obtain ⟨out, h6, h7, h8⟩ := downTo_split d' (k + 1)
        rw [List.replicate_succ, List.cons_append]
        have := Next.dedent (p := ⟨true, [], downTo (d' + (k + 1)), 0, List.replicate d' ' ' ++ z⟩)
          (q := ⟨false, [], downTo d', -(out.length : Int), z⟩)
          (.shallower rfl hm (hnc' (hcode hk)) rfl h6 (by intro e; rw [e] at h7; cases h7) h8 (downTo_head _) (Nat.le_refl _))
          (by dsimp only; omega)
        refine .cons this ?_
        dsimp only
        rw [h7, show -((k + 1 : Nat) : Int) + 1 = -(k : Int) by omega]
        exact run_dedents (p := ⟨false, [], downTo d', 0, z⟩) rfl k hword
    · intro p q d x hrun hf ho hl hx
      cases hrun with
      | nil => cases he
      | @cons _ w q1 us _ h1 h2 =>
        rcases h1.inLine hf ho with ⟨rfl, hc, cs, r, h3, h4, rfl⟩ | ⟨cs, st, r, h3, h4, rfl⟩
        · have hends : UpToEof us := by cases he with | last h => cases h | cons _ h => exact h
          obtain ⟨q', h5⟩ := (ih us (by simp at hn; omega) hends).1 _ q d h2 rfl hc ho hl
          have hx : x = [] := hx.resolve_right fun h => h.2 hc
          subst hx
          refine ⟨q', .cons (q := ⟨true, [], downTo d, 0, render true d [] us⟩) ?_ h5⟩
          rw [hc]
          exact Next.newline (p := ⟨false, [], downTo d, 0, '\n' :: render true d [] us⟩) (.mid rfl) rfl rfl .done .lf
        · obtain ⟨z, r', q', e, hw', hr', hz⟩ := step (d := d) h4 h2 hf rfl ho hl rfl (by simp at hn; omega) he
          refine ⟨q', .cons (q := ⟨false, st, downTo d, 0, r'⟩) ?_ hr'⟩
          rw [e false]
          refine Next.word (p := ⟨false, p.closers, downTo d, 0, _⟩) (q := ⟨false, p.closers, downTo d, 0, _⟩) (.mid rfl) rfl ?_ hw'
          dsimp only
          have hb : ∀ b, Skips b ((if w.kind = .EOF then [] else [' ']) ++ z) z := by
            intro b
            split
            · exact .done
            · exact .blank (.inl rfl) .done
          rcases hx with rfl | ⟨rfl, hx⟩
          · simpa using hb _
          · exact .line (by simpa using hx) .lf (by simpa using hb _)

end LG
end Verif
