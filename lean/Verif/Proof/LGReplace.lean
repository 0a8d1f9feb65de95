import Verif.Proof.LGInsert

/-!
# The text from a symbol on can be replaced

If symbols are read from `y ++ b`, and `b` is what is left, then the same symbols are read from `y ++ b'`, as long as the
last symbol is not continued by `b'`.
-/

set_option linter.unusedSimpArgs false

namespace Verif
namespace LG

/-- Characters that continue no symbol. -/
def sepChars : List Char := cs! " \t#\\\r\n(),:;]}"

theorem isDec_sep : ∀ c ∈ sepChars, isDec c = false := by decide

theorem ext {P : Prop} {w x : List Char} (h : x = [] → P) : w ++ x = [] → P := fun e => h (List.append_eq_nil_iff.1 e).2

section
variable {b b' : List Char}

theorem Stops.edit {P : Char → Prop} {x : List Char} (hb' : x = [] → ∀ c, b'.head? = some c → c ∈ sepChars) (h : Stops P (x ++ b)) (hP : ∀ c ∈ sepChars, ¬ P c) :
    Stops P (x ++ b') := by
  cases x with
  | cons a x => intro c hc; exact h c (by simpa using hc)
  | nil =>
    intro d hd
    exact hP d (hb' rfl d hd)

theorem Digits.edit {d : Char → Bool} {cs txt x : List Char} (hb' : x = [] → ∀ c, b'.head? = some c → c ∈ sepChars)
    (hd : ∀ c ∈ sepChars, d c = false) (h : Digits d cs txt (x ++ b)) :
    cs = txt ++ x ++ b ∧ Digits d (txt ++ x ++ b') txt (x ++ b') := by
  obtain ⟨h1, h2, h3⟩ := h
  refine ⟨by simp [h1], by simp, h2, h3.edit hb' ?_⟩
  intro c hc h
  rcases h with h | rfl
  · rw [hd c hc] at h; cases h
  · revert hc; decide

theorem Fraction.edit {cs txt x : List Char} (hb' : x = [] → ∀ c, b'.head? = some c → c ∈ sepChars) (h : Fraction cs txt (x ++ b)) :
    cs = txt ++ x ++ b ∧ Fraction (txt ++ x ++ b') txt (x ++ b') := by
  generalize hr : x ++ b = r at h
  cases h with
  | no h => subst hr; exact ⟨by simp, .no (h.edit hb' (by decide))⟩
  | yes h1 h2 =>
    subst hr
    obtain ⟨rfl, h3⟩ := h2.edit hb' isDec_sep
    exact ⟨by simp, .yes (h1.edit (ext hb') (by decide)) h3⟩

theorem Power.edit {cs txt x : List Char} (hb' : x = [] → ∀ c, b'.head? = some c → c ∈ sepChars) (h : Power cs txt (x ++ b)) :
    cs = txt ++ x ++ b ∧ Power (txt ++ x ++ b') txt (x ++ b') := by
  generalize hr : x ++ b = r at h
  cases h with
  | no h => subst hr; exact ⟨by simp, .no (h.edit hb' (by decide))⟩
  | plain h0 h1 h2 =>
    subst hr
    obtain ⟨rfl, h3⟩ := h2.edit hb' isDec_sep
    exact ⟨by simp, .plain h0 (h1.edit (ext hb') (by decide)) h3⟩
  | signed h0 h1 h2 =>
    subst hr
    obtain ⟨rfl, h3⟩ := h2.edit hb' isDec_sep
    exact ⟨by simp, .signed h0 h1 h3⟩

theorem Suffix.edit {cs txt x : List Char} (hb' : x = [] → ∀ c, b'.head? = some c → c ∈ sepChars) (h : Suffix cs txt (x ++ b)) :
    cs = txt ++ x ++ b ∧ Suffix (txt ++ x ++ b') txt (x ++ b') := by
  generalize hr : x ++ b = r at h
  cases h with
  | no h => subst hr; exact ⟨by simp, .no (h.edit hb' (by decide))⟩
  | yes h => subst hr; exact ⟨by simp, .yes h⟩

theorem Number.edit {cs txt x : List Char} (hb' : x = [] → ∀ c, b'.head? = some c → c ∈ sepChars) (hb : x ++ b ≠ [] ∨ cs ≠ ['0']) (h : Number cs txt (x ++ b)) :
    cs = txt ++ x ++ b ∧ txt ≠ [] ∧ Number (txt ++ x ++ b') txt (x ++ b') := by
  generalize hr : x ++ b = r at h
  cases h with
  | @decimal c cs ds a fr b0 ex x0 im _ h1 h2 h3 h4 h5 h6 =>
    subst hr
    obtain ⟨rfl, g6⟩ := h6.edit hb'
    obtain ⟨rfl, g5⟩ := h5.edit (ext hb')
    rw [← List.append_assoc] at h4
    obtain ⟨rfl, g4⟩ := h4.edit (ext hb')
    simp only [← List.append_assoc] at h3
    obtain ⟨rfl, g3⟩ := h3.edit (ext hb') isDec_sep
    simp only [← List.append_assoc] at *
    refine ⟨by simp, by simp, ?_⟩
    have := Number.decimal h1 h2 g3 g4 g5 g6
    simpa using this
  | @point c cs ds a ex x0 im _ h1 h3 h5 h6 =>
    subst hr
    obtain ⟨rfl, g6⟩ := h6.edit hb'
    obtain ⟨rfl, g5⟩ := h5.edit (ext hb')
    simp only [← List.append_assoc] at h3
    obtain ⟨rfl, g3⟩ := h3.edit (ext hb') isDec_sep
    simp only [← List.append_assoc] at *
    refine ⟨by simp, by simp, ?_⟩
    have := Number.point h1 g3 g5 g6
    simpa using this
  | @radix x0 d cs ds _ h1 h2 h3 =>
    subst hr
    obtain ⟨rfl, g2⟩ := h2.edit hb' (by cases h1 <;> decide)
    refine ⟨by simp, by simp, ?_⟩
    have := Number.radix h1 g2 h3
    simpa using this
  | @zero c cs ds a fr b0 ex x0 im _ h1 h2 h3 h4 h5 h6 h7 h8 h9 =>
    subst hr
    obtain ⟨rfl, g8⟩ := h8.edit hb'
    obtain ⟨rfl, g7⟩ := h7.edit (ext hb')
    rw [← List.append_assoc] at h6
    obtain ⟨rfl, g6⟩ := h6.edit (ext hb')
    simp only [← List.append_assoc] at h3 h5
    have g5 := h5.edit (ext hb') (fun c hc h => by rw [isDec_sep c hc] at h; cases h)
    cases cs with
    | nil => simp at h3; exact (hb.elim (fun h => h (by simp [h3])) (fun h => h rfl)).elim
    | cons c0 cs =>
      simp at h1 h3
      subst h1 h3
      refine ⟨by simp, by simp, ?_⟩
      simp only [← List.append_assoc] at *
      have := Number.zero (c := c0) (cs := c0 :: (ds ++ fr ++ ex ++ im ++ x ++ b')) rfl h2 (by simp) h4 g5 g6 g7 g8 h9
      simpa using this

theorem prefix_edit (hop : ∀ w k, (w, k) ∈ operators → ∀ c ∈ w.tail, b'.head? ≠ some c) {w y : List Char} {k : Kind}
    (hk : (w, k) ∈ operators) (h : w <+: y ++ b') (hy : y ≠ []) : w <+: y := by
  by_cases hl : w.length ≤ y.length
  · exact List.prefix_of_prefix_length_le h (List.prefix_append _ _) hl
  · exfalso
    cases b' with
    | nil => have := h.length_le; simp at this; omega
    | cons c r =>
    have h2 : y ++ [c] <+: w := List.prefix_of_prefix_length_le (l₃ := y ++ c :: r) ⟨r, by simp⟩ h (by simp; omega)
    obtain ⟨z, rfl⟩ := h2
    cases y with
    | nil => exact hy rfl
    | cons a y => exact hop _ _ hk c (by simp) rfl

theorem nameChar_sep [Uni] : ∀ c ∈ sepChars, ¬ isNameChar c = true := by
  intro c hc
  simp only [sepChars, List.mem_cons, List.not_mem_nil, or_false] at hc
  rcases hc with rfl | rfl | rfl | rfl | rfl | rfl | rfl | rfl | rfl | rfl | rfl | rfl | rfl <;> simp [isNameChar, isAlphanumeric] <;> decide

theorem StrLit.edit {cs txt x : List Char} (hb' : x = [] → ∀ c, b'.head? = some c → c ∈ sepChars) (h : StrLit cs txt) (hx : cs.drop txt.length = x ++ b) :
    cs = txt ++ x ++ b ∧ txt ≠ [] ∧ StrLit (txt ++ x ++ b') txt := by
  cases h with
  | @empty q rest hq h =>
    simp at hx; subst hx
    refine ⟨by simp, by simp, ?_⟩
    have := StrLit.empty (rest := x ++ b') hq (fun hh => Stops.edit (P := (· = q)) (x := x) (b := b) hb'
      (fun c hc e => h (e ▸ hc)) (by rcases hq with rfl | rfl <;> decide) q hh rfl)
    simpa using this
  | @line q body rest hq h1 h2 h3 h4 h5 =>
    simp at hx; subst hx
    refine ⟨by simp, by simp, ?_⟩
    have := StrLit.line (rest := x ++ b') hq h1 h2 h3 h4 h5
    simpa using this
  | @triple q body rest hq h1 h2 =>
    simp at hx; subst hx
    refine ⟨by simp, by simp, ?_⟩
    have := StrLit.triple (rest := x ++ b') hq h1 (fun j hj hp => h2 j hj ?_)
    · simpa using this
    · rw [List.drop_append_of_le_length (by omega)] at hp ⊢
      have hl : 1 ≤ (body.drop j).length := by simp; omega
      have e : ∀ z : List Char, body.drop j ++ q :: q :: q :: z = (body.drop j ++ [q, q, q]) ++ z := by simp
      rw [e] at hp ⊢
      have hp2 : [q, q, q] <+: body.drop j ++ [q, q, q] := List.prefix_of_prefix_length_le hp (List.prefix_append _ _) (by simp)
      exact hp2.trans (List.prefix_append _ _)

theorem Word.edit [Uni]
    (hop : ∀ w k, (w, k) ∈ operators → ∀ c ∈ w.tail, b'.head? ≠ some c) {st cs t st'} {x : List Char} (hb' : x = [] → ∀ c, b'.head? = some c → c ∈ sepChars) (h : Word st cs t st' (x ++ b))
    (hb : x ++ b ≠ [] ∨ cs ≠ ['0']) (hx : x ≠ [] ∨ Solid t) :
    ∃ w, cs = w ++ (x ++ b) ∧ (x ≠ [] ∨ w ≠ []) ∧ Word st (w ++ (x ++ b')) t st' (x ++ b') := by
  generalize hr : x ++ b = r at h
  have hx' : ¬ Solid t → x ≠ [] := fun hs => hx.resolve_right hs
  have head : ∀ {c : Char}, x ≠ [] → (x ++ b).head? = some c → (x ++ b').head? = some c := by
    intro c hx h
    cases x with
    | nil => exact absurd rfl hx
    | cons => simpa using h
  have head' : ∀ {c : Char}, x ≠ [] → (x ++ b').head? = some c → (x ++ b).head? = some c := by
    intro c hx h
    cases x with
    | nil => exact absurd rfl hx
    | cons => simpa using h
  cases h with
  | eof h =>
    subst hr
    have hx := hx' (by simp [Solid, Token.kind])
    refine ⟨[], by simp, .inl hx, .eof (.inr (head hx (h.resolve_left (by simp [hx]))))⟩
  | typeComment h h2 =>
    subst hr
    have hx := hx' (by simp [Solid, Token.kind])
    obtain ⟨rfl, h3, h4⟩ := h
    exact ⟨_, rfl, .inl hx, .typeComment ⟨rfl, h3, fun c hc => h4 c (head' hx hc)⟩ h2⟩
  | @operator w k st' rest h1 h2 h3 =>
    subst hr
    obtain ⟨g1, g2, g3⟩ := h1
    refine ⟨w, rfl, .inr ?_, .operator ⟨g1, List.prefix_append _ _, fun w' k' h hp => g3 w' k' h ?_⟩ ?_ h3⟩
    · intro e; subst e; revert g1; simp [operators]
    · rw [← List.append_assoc] at hp ⊢
      exact (prefix_edit hop h hp (by intro e; simp at e; rw [e.1] at g1; revert g1; simp [operators])).trans (List.prefix_append _ _)
    · rintro ⟨e, d, r, h4, h5⟩
      refine Stops.edit (P := fun c => isDec c = true) (x := x) (b := b) hb' ?_ (fun c hc h => by rw [isDec_sep c hc] at h; cases h) d
        (by rw [h4]; rfl) h5
      intro c hc h6
      refine h2 ⟨e, c, (x ++ b).tail, ?_, h6⟩
      cases hz : x ++ b with
      | nil => rw [hz] at hc; cases hc
      | cons a r => rw [hz] at hc; simp at hc; subst hc; rfl
  | keyword h1 h2 =>
    subst hr
    refine ⟨_, rfl, .inr ?_, .keyword h1 (h2.edit hb' nameChar_sep)⟩
    intro e; subst e; revert h1; simp [pyKeywords]
  | name h1 h2 h3 h4 h5 =>
    subst hr
    refine ⟨_, rfl, .inr (by simp), .name h1 h2 (h3.edit hb' nameChar_sep) h4 ?_⟩
    rintro ⟨e, h⟩
    have : Stops (fun c => c = '\'' ∨ c = '"') (x ++ b') := by
      refine Stops.edit (b := b) hb' ?_ (by decide)
      rintro c hc (rfl | rfl)
      · exact h5 ⟨e, .inl hc⟩
      · exact h5 ⟨e, .inr hc⟩
    rcases h with h | h
    · exact this _ h (.inl rfl)
    · exact this _ h (.inr rfl)
  | string h =>
    obtain ⟨h1, h2, h3⟩ := StrLit.edit hb' h hr.symm
    refine ⟨_, by rw [← hr, h1]; simp, .inr h2, ?_⟩
    have := Word.string (st := st) h3
    simpa using this
  | @prefixed pfx cs txt h0 h =>
    obtain ⟨h1, h2, h3⟩ := StrLit.edit hb' h hr.symm
    refine ⟨pfx ++ txt, by rw [← hr, h1]; simp, .inr (by simp [h2]), ?_⟩
    have := Word.prefixed (st := st) h0 h3
    simpa using this
  | number h =>
    subst hr
    obtain ⟨h1, h2, h3⟩ := Number.edit hb' hb h
    refine ⟨_, by rw [h1]; simp, .inr h2, ?_⟩
    have := Word.number (st := st) h3
    simpa using this


/-- The text goes on with code. -/
def Codes (b : List Char) : Prop := ∃ c r, b = c :: r ∧ c ∉ cs! " \t\r\n#\\\x00"

theorem Codes.ne (h : Codes b) : b ≠ [] := by obtain ⟨c, r, rfl, _⟩ := h; simp

theorem Codes.head (h : Codes b) {c : Char} (hc : b.head? = some c) : c ∉ cs! " \t\r\n#\\\x00" := by
  obtain ⟨d, r, rfl, hd⟩ := h
  cases hc; exact hd

theorem EndsLine.edit (hb : Codes b) (hb' : Codes b') {cs x} (h : EndsLine cs (x ++ b)) :
    ∃ w, w ≠ [] ∧ cs = w ++ (x ++ b) ∧ EndsLine (w ++ (x ++ b')) (x ++ b') := by
  have hne : x ++ b ≠ [] := by simp [hb.ne]
  generalize hr : x ++ b = r at h hne
  cases h with
  | lf => subst hr; exact ⟨['\n'], by simp, rfl, .lf⟩
  | cr h =>
    subst hr
    refine ⟨['\r'], by simp, rfl, .cr ?_⟩
    cases x with
    | cons => simpa using h
    | nil => intro e; exact absurd (hb'.head e) (by decide)
  | @crlf cs =>
    cases cs with
    | nil => simp at hne
    | cons c cs => simp at hr; subst hr; exact ⟨['\r', '\n', c], by simp, rfl, EndsLine.crlf (cs := c :: _)⟩

theorem head_edit (hb' : Codes b') {x : List Char} {c : Char} (h : (x ++ b').head? = some c)
    (hc : c ∈ cs! " \t\r\n#\\\x00") : (x ++ b).head? = some c := by
  cases x with
  | cons => simpa using h
  | nil => exact absurd hc (hb'.head h)

theorem Skips.edit (hb : Codes b) (hb' : Codes b') {lines cs x} (h : Skips lines cs (x ++ b)) :
    ∃ w, cs = w ++ (x ++ b) ∧ Skips lines (w ++ (x ++ b')) (x ++ b') := by
  generalize hr : x ++ b = r at h
  induction h with
  | done => subst hr; exact ⟨[], rfl, .done⟩
  | @blank c cs r hc _ ih =>
    obtain ⟨w, rfl, h⟩ := ih hr
    exact ⟨c :: w, rfl, .blank hc h⟩
  | @comment cs txt rest r h1 h2 h3 _ ih =>
    obtain ⟨w, rfl, h⟩ := ih hr
    obtain ⟨rfl, h4, h5⟩ := h1
    subst hr
    refine ⟨txt ++ w, by simp, .comment (txt := txt) (rest := w ++ (x ++ b')) ⟨by simp, h4, fun c hc => ?_⟩ h2 h3 h⟩
    rw [← List.append_assoc] at h5 hc
    cases hwx : w ++ x with
    | cons a y => rw [hwx] at h5 hc; exact h5 c (by simpa using hc)
    | nil =>
      rw [hwx] at h5
      obtain ⟨d, r, rfl, hd⟩ := hb
      have := h5 d rfl
      exfalso; apply hd
      rcases this with rfl | rfl | rfl <;> decide
  | @continuation eol cs r he _ ih =>
    obtain ⟨w, rfl, h⟩ := ih hr
    subst hr
    refine ⟨'\\' :: (eol ++ w), by simp, ?_⟩
    have := Skips.continuation (eol := eol) (cs := w ++ (x ++ b')) (by
      rcases he with h | h | ⟨h, h'⟩
      · exact .inl h
      · exact .inr (.inl h)
      · refine .inr (.inr ⟨h, fun e => h' ?_⟩)
        rw [← List.append_assoc] at e ⊢
        exact head_edit hb' e (by decide)) h
    simpa using this
  | @line cs cs' r hl he _ ih =>
    obtain ⟨w, rfl, h⟩ := ih hr
    subst hr
    rw [← List.append_assoc] at he
    obtain ⟨w', -, rfl, he'⟩ := he.edit hb hb'
    exact ⟨w' ++ w, by simp, .line hl (by simpa using he') h⟩

theorem Codes.margin (h : Codes b) (k : Nat) : margin k b = (k, b) := by
  obtain ⟨c, r, rfl, hc⟩ := h
  rw [LG.margin]
  · intro _ e; simp at e; rw [e.1] at hc; simp at hc
  · intro _ e; simp at e; rw [e.1] at hc; simp at hc

theorem Codes.notNoCode (h : Codes b) : ¬ NoCode b := by
  obtain ⟨c, r, rfl, hc⟩ := h
  simp only [NoCode, List.head?_cons, Option.some.injEq]
  rintro (rfl | rfl | rfl | rfl) <;> simp at hc

theorem margin_codes (hb : Codes b) (hb' : Codes b') {cs : List Char} : ∀ {k col}, LG.margin k cs = (col, b) →
    ∃ w, cs = w ++ b ∧ LG.margin k (w ++ b') = (col, b') := by
  induction cs with
  | nil =>
    intro k col h
    simp [LG.margin] at h
    exact absurd h.2 hb.ne
  | cons c cs ih =>
    intro k col h
    by_cases h1 : c = ' '
    · subst h1
      obtain ⟨w, rfl, h'⟩ := ih h
      exact ⟨' ' :: w, rfl, h'⟩
    · by_cases h2 : c = '\t'
      · subst h2
        obtain ⟨w, rfl, h'⟩ := ih h
        exact ⟨'\t' :: w, rfl, h'⟩
      · have e : ∀ r : List Char, LG.margin k (c :: r) = (k, c :: r) := by
          intro r
          rw [LG.margin]
          · intro _ h; exact h1 (List.cons.inj h).1
          · intro _ h; exact h2 (List.cons.inj h).1
        rw [e] at h
        simp only [Prod.mk.injEq] at h
        obtain ⟨rfl, rfl⟩ := h
        exact ⟨[], rfl, hb'.margin _⟩

theorem Enter.edit (hb : Codes b) (hb' : Codes b') {p bl q x} (h : Enter p bl q) (hq : q.text = x ++ b) :
    ∃ y, (x ≠ [] → y ≠ []) ∧ p.text = y ++ b ∧ Enter (p.setText (y ++ b')) bl (q.setText (x ++ b')) := by
  by_cases hx : x = []
  · subst hx
    have hn := hb.notNoCode
    have hn' := hb'.notNoCode
    cases h with
    | mid h => exact ⟨[], by simp, hq, .mid h⟩
    | noCode h hm hn1 => dsimp only at hq; subst hq; exact absurd hn1 hn
    | brackets h hm _ hc =>
      dsimp only at hq; subst hq
      obtain ⟨y, e, hm'⟩ := margin_codes hb hb' hm
      exact ⟨y, by simp, e, .brackets (p := p.setText (y ++ b')) h hm' hn' hc⟩
    | same h hm _ hc hl =>
      dsimp only at hq; subst hq
      obtain ⟨y, e, hm'⟩ := margin_codes hb hb' hm
      exact ⟨y, by simp, e, .same (p := p.setText (y ++ b')) h hm' hn' hc hl⟩
    | deeper h hm _ hc hl ht =>
      dsimp only at hq; subst hq
      obtain ⟨y, e, hm'⟩ := margin_codes hb hb' hm
      exact ⟨y, by simp, e, .deeper (p := p.setText (y ++ b')) h hm' hn' hc hl ht⟩
    | shallower h hm _ hc hl ho ho2 hk ht =>
      dsimp only at hq; subst hq
      obtain ⟨y, e, hm'⟩ := margin_codes hb hb' hm
      exact ⟨y, by simp, e, .shallower (p := p.setText (y ++ b')) h hm' hn' hc hl ho ho2 hk ht⟩
  · obtain ⟨y, hy, e, h'⟩ := h.swap (b' := b') hq hx
    exact ⟨y, fun _ => hy, e, h'⟩

/-- A symbol in front of `b` is the same in front of `b'`. -/
def Fits [Uni] (b b' : List Char) (t : Token) : Prop :=
  ∀ st cs st', Word st cs t st' b → ∃ w, w ≠ [] ∧ cs = w ++ b ∧ Word st (w ++ b') t st' b'

theorem Next.edit [Uni] (hb : Codes b) (hb' : Codes b') (hop : ∀ w k, (w, k) ∈ operators → ∀ c ∈ w.tail, b'.head? ≠ some c)
    {p t q x} (h : Next p t q) (hq : q.text = x ++ b) (hx : x = [] → Fits b b' t) :
    ∃ y, p.text = y ++ b ∧ Next (p.setText (y ++ b')) t (q.setText (x ++ b')) := by
  cases h with
  | dedent he ho =>
    obtain ⟨y, -, e, he'⟩ := he.edit hb hb' hq
    exact ⟨y, e, .dedent he' ho⟩
  | indent he ho =>
    obtain ⟨y, -, e, he'⟩ := he.edit hb hb' hq
    exact ⟨y, e, .indent he' ho⟩
  | @newline q cs r he ho hc hs hl =>
    dsimp only at hq; subst hq
    obtain ⟨w, -, rfl, hl'⟩ := hl.edit hb hb'
    rw [← List.append_assoc] at hs
    obtain ⟨w', e1, hs'⟩ := hs.edit hb hb'
    rw [← List.append_assoc] at e1 hs'
    obtain ⟨y, -, e, he'⟩ := he.edit hb hb' e1
    exact ⟨y, e, Next.newline (p := p.setText (y ++ b')) (q := q.setText (w' ++ (w ++ x) ++ b')) he' ho hc
      (by simpa using hs') (by simpa using hl')⟩
  | @word bl q cs t st r he ho hs hw =>
    dsimp only at hq; subst hq
    obtain ⟨w, rfl, hw'⟩ : ∃ w, cs = w ++ (x ++ b) ∧ Word q.closers (w ++ (x ++ b')) t st (x ++ b') := by
      by_cases h : x = []
      · subst h
        obtain ⟨w, -, e, h⟩ := hx rfl _ _ _ hw
        exact ⟨w, e, h⟩
      · obtain ⟨w, e, -, h⟩ := hw.edit hop (fun e => absurd e h) (.inl (by simp [h])) (.inl h)
        exact ⟨w, e, h⟩
    rw [← List.append_assoc] at hs
    obtain ⟨w', e1, hs'⟩ := hs.edit hb hb'
    rw [← List.append_assoc] at e1 hs'
    obtain ⟨y, -, e, he'⟩ := he.edit hb hb' e1
    exact ⟨y, e, Next.word (p := p.setText (y ++ b')) (q := q.setText (w' ++ (w ++ x) ++ b')) he' ho
      (by simpa using hs') (by simpa using hw')⟩

/-- Symbols do not depend on the text `b` after them, as long as `b'` does not continue the last one. -/
theorem Run.edit [Uni] (hb : Codes b) (hb' : Codes b') (hop : ∀ w k, (w, k) ∈ operators → ∀ c ∈ w.tail, b'.head? ≠ some c)
    {q x} (hq : q.text = x ++ b) : ∀ {ts p}, Run p ts q →
    (∀ ts1 t ts2 r, ts = ts1 ++ t :: ts2 → Run p (ts1 ++ [t]) r → r.text = b → Fits b b' t) →
    ∃ y, p.text = y ++ b ∧ Run (p.setText (y ++ b')) ts (q.setText (x ++ b')) := by
  intro ts
  induction ts with
  | nil =>
    intro p h _
    cases h
    exact ⟨x, hq, .nil⟩
  | cons u ts ih =>
    intro p h hf
    cases h with
    | cons h h' =>
      obtain ⟨y1, e1, h1⟩ := ih h' (fun ts1 t ts2 r e hr ht => hf (u :: ts1) t ts2 r (by simp [e]) (.cons h hr) ht)
      obtain ⟨y, e, h⟩ := h.edit hb hb' hop e1 (fun e => hf [] u ts _ rfl (.cons h .nil) (by simp [e1, e]))
      exact ⟨y, e, .cons h h1⟩

theorem run_append [Uni] {p ts q us r} (h : Run p ts q) (h' : Run q us r) : Run p (ts ++ us) r := by
  induction h with
  | nil => exact h'
  | cons h _ ih => exact .cons h (ih h')

theorem fits_sep [Uni] (hb : Codes b) (hop : ∀ w k, (w, k) ∈ operators → ∀ c ∈ w.tail, b'.head? ≠ some c)
    (hs : ∀ c, b'.head? = some c → c ∈ sepChars) (t : Token) : Fits b b' t := by
  intro st cs st' h
  by_cases ht : Solid t
  · obtain ⟨w, e, hne, h'⟩ := h.edit (x := []) hop (fun _ => hs) (.inl hb.ne) (.inr ht)
    exact ⟨w, by simpa using hne, e, h'⟩
  · exfalso
    generalize hr : b = r at h
    cases h with
    | eof h =>
      subst hr
      rcases h with h | h
      · exact hb.ne h
      · exact hb.head h (by decide)
    | typeComment h =>
      subst hr
      obtain ⟨c, r, rfl, hc⟩ := hb
      rcases h.2.2 c rfl with rfl | rfl | rfl <;> exact hc (by decide)
    | operator h1 _ h2 =>
      have : ∀ x ∈ operators, Solid (.sym x.2 0 0 none) := by unfold Solid Token.kind; decide
      exact ht (this _ h1.1)
    | keyword h1 =>
      have : ∀ x ∈ pyKeywords, Solid (.sym x.2 0 0 none) := by unfold Solid Token.kind; decide
      exact ht (this _ h1)
    | name => exact ht (by simp [Solid, Token.kind])
    | string => exact ht (by simp [Solid, Token.kind])
    | prefixed => exact ht (by simp [Solid, Token.kind])
    | number => exact ht (by simp [Solid, Token.kind])

theorem nameStart_code [Uni] {c : Char} (h : isNameStart c = true) : c ∉ cs! " \t\r\n#\\\x00" := by
  intro hc
  simp only [List.mem_cons, List.not_mem_nil, or_false] at hc
  revert h
  rcases hc with rfl | rfl | rfl | rfl | rfl | rfl | rfl <;> simp [isNameStart, isAlphabetic] <;> decide

theorem nameStart_op [Uni] {c : Char} (h : isNameStart c = true) : ∀ w k, (w, k) ∈ operators → c ∉ w := by
  have key : operators.all (fun x => x.1.all (fun c => decide (c.toNat < 128) && !(isAsciiLetter c || c == '_'))) = true := by decide
  intro w k hw hc
  have := List.all_eq_true.mp (List.all_eq_true.mp key _ hw) c hc
  simp only [Bool.and_eq_true, decide_eq_true_eq, Bool.not_eq_true', Bool.or_eq_false_iff] at this
  simp only [isNameStart, isAlphabetic, this.1, if_true, Bool.or_eq_true] at h
  rw [this.2.1, this.2.2] at h
  simp at h

theorem nameStart_char [Uni] {c : Char} (h : isNameStart c = true) : isNameChar c = true := by
  simp only [isNameStart, isNameChar, isAlphabetic, isAlphanumeric, Bool.or_eq_true] at *
  rcases h with h | h
  · left
    split at h <;> rename_i hc
    · rw [if_pos hc, h]; rfl
    · rw [if_neg hc, h]; rfl
  · exact .inr h

/-- A symbol other than a number is not continued by the beginning of another name. -/
theorem fits_name [Uni] {c c' : Char} {r r' : List Char} (hc : isNameStart c = true) (hc' : isNameStart c' = true) {t : Token}
    (ht : t.kind ≠ .AtomNumber) : Fits (c :: r) (c' :: r') t := by
  intro st cs st' h
  have hq : ∀ {q : Char}, q = '\'' ∨ q = '"' → c' ≠ q := by
    rintro q hq rfl
    revert hc'
    rcases hq with rfl | rfl <;> simp [isNameStart, isAlphabetic] <;> decide
  have str : ∀ {cs txt : List Char}, StrLit cs txt → cs.drop txt.length = c :: r →
      cs = txt ++ c :: r ∧ txt ≠ [] ∧ StrLit (txt ++ c' :: r') txt := by
    intro cs txt h hx
    cases h with
    | @empty q rest h1 h2 =>
      simp at hx; subst hx
      exact ⟨by simp, by simp, StrLit.empty (rest := c' :: r') h1 (by simpa using hq h1)⟩
    | @line q body rest hq h1 h2 h3 h4 h5 =>
      simp at hx; subst hx
      refine ⟨by simp, by simp, ?_⟩
      have := StrLit.line (rest := c' :: r') hq h1 h2 h3 h4 h5
      simpa using this
    | @triple q body rest hq h1 h2 =>
      simp at hx; subst hx
      refine ⟨by simp, by simp, ?_⟩
      have := StrLit.triple (rest := c' :: r') hq h1 (fun j hj hp => h2 j hj ?_)
      · simpa using this
      · rw [List.drop_append_of_le_length (by omega)] at hp ⊢
        have e : ∀ z : List Char, body.drop j ++ q :: q :: q :: z = (body.drop j ++ [q, q, q]) ++ z := by simp
        rw [e] at hp ⊢
        have hp2 : [q, q, q] <+: body.drop j ++ [q, q, q] := List.prefix_of_prefix_length_le hp (List.prefix_append _ _) (by simp)
        exact hp2.trans (List.prefix_append _ _)
  generalize hr : c :: r = b at h
  cases h with
  | eof h =>
    subst hr
    rcases h with h | h
    · cases h
    · simp at h; subst h; exact absurd (nameStart_code hc) (by simp)
  | typeComment h =>
    subst hr
    exfalso
    rcases h.2.2 c rfl with rfl | rfl | rfl <;> exact nameStart_code hc (by decide)
  | @operator w k st' rest h1 h2 h3 =>
    subst hr
    obtain ⟨g1, g2, g3⟩ := h1
    have hne : w ≠ [] := by intro e; subst e; revert g1; simp [operators]
    refine ⟨w, hne, rfl, .operator ⟨g1, List.prefix_append _ _, fun w' k' h hp => ?_⟩ ?_ h3⟩
    · refine g3 w' k' h ?_
      exact (prefix_edit (fun v k hv d hd e => by
        simp at e; subst e; exact nameStart_op hc' v k hv (List.mem_of_mem_tail hd)) h hp hne).trans (List.prefix_append _ _)
    · rintro ⟨e, d, s, h4, h5⟩
      simp at h4
      obtain ⟨rfl, rfl⟩ := h4
      revert hc' h5
      simp only [isNameStart, isAlphabetic]
      intro h5 h6
      simp only [isDec, List.contains_eq_mem, decide_eq_true_eq, List.mem_cons, List.not_mem_nil, or_false] at h6
      rcases h6 with rfl | rfl | rfl | rfl | rfl | rfl | rfl | rfl | rfl | rfl <;> revert h5 <;> simp <;> decide
  | keyword h1 h2 => subst hr; exact absurd (nameStart_char hc) (h2 c rfl)
  | name h1 h2 h3 h4 h5 => subst hr; exact absurd (nameStart_char hc) (h3 c rfl)
  | string h =>
    obtain ⟨h1, h2, h3⟩ := str h hr.symm
    refine ⟨_, h2, by rw [← hr, ← h1], ?_⟩
    have := Word.string (st := st) h3
    simpa using this
  | @prefixed pfx cs txt h0 h =>
    obtain ⟨h1, h2, h3⟩ := str h hr.symm
    refine ⟨pfx ++ txt, by simp [h2], by rw [← hr, List.append_assoc, ← h1], ?_⟩
    have := Word.prefixed (st := st) h0 h3
    simpa using this
  | number h => exact absurd rfl ht

end
end LG
end Verif
