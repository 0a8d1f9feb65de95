import Verif.Proof.LGWord
import Verif.Spec.Insert

/-!
# The text after a symbol can be replaced

If symbols are read from `y ++ b`, and `b` is what is left, then the same symbols are read from `y ++ b'` for every `b'` that
is empty or starts with a blank, a comment, a backslash or a line end.
-/

set_option linter.unusedSimpArgs false

namespace Verif
namespace LG

/-- Characters a gap can start with. -/
def gapChars : List Char := cs! " \t#\\\r\n"

theorem isDec_gap : ∀ c ∈ gapChars, isDec c = false := by decide

section
variable {b b' : List Char} (hb' : ∀ c, b'.head? = some c → c ∈ gapChars)
include hb'

theorem Stops.swap {P : Char → Prop} {x : List Char} (h : Stops P (x ++ b)) (hP : ∀ c ∈ gapChars, ¬ P c) :
    Stops P (x ++ b') := by
  cases x with
  | cons a x => intro c hc; exact h c (by simpa using hc)
  | nil =>
    intro d hd
    exact hP d (hb' d hd)

theorem Digits.swap {d : Char → Bool} (hd : ∀ c ∈ gapChars, d c = false) {cs txt x} (h : Digits d cs txt (x ++ b)) :
    cs = txt ++ x ++ b ∧ Digits d (txt ++ x ++ b') txt (x ++ b') := by
  obtain ⟨h1, h2, h3⟩ := h
  refine ⟨by simp [h1], by simp, h2, h3.swap hb' ?_⟩
  intro c hc h
  rcases h with h | rfl
  · rw [hd c hc] at h; cases h
  · revert hc; decide

theorem Fraction.swap {cs txt x} (h : Fraction cs txt (x ++ b)) :
    cs = txt ++ x ++ b ∧ Fraction (txt ++ x ++ b') txt (x ++ b') := by
  generalize hr : x ++ b = r at h
  cases h with
  | no h => subst hr; exact ⟨by simp, .no (h.swap hb' (by decide))⟩
  | yes h1 h2 =>
    subst hr
    obtain ⟨rfl, h3⟩ := h2.swap hb' isDec_gap
    exact ⟨by simp, .yes (h1.swap hb' (by decide)) h3⟩

theorem Power.swap {cs txt x} (h : Power cs txt (x ++ b)) :
    cs = txt ++ x ++ b ∧ Power (txt ++ x ++ b') txt (x ++ b') := by
  generalize hr : x ++ b = r at h
  cases h with
  | no h => subst hr; exact ⟨by simp, .no (h.swap hb' (by decide))⟩
  | plain h0 h1 h2 =>
    subst hr
    obtain ⟨rfl, h3⟩ := h2.swap hb' isDec_gap
    exact ⟨by simp, .plain h0 (h1.swap hb' (by decide)) h3⟩
  | signed h0 h1 h2 =>
    subst hr
    obtain ⟨rfl, h3⟩ := h2.swap hb' isDec_gap
    exact ⟨by simp, .signed h0 h1 h3⟩

theorem Suffix.swap {cs txt x} (h : Suffix cs txt (x ++ b)) :
    cs = txt ++ x ++ b ∧ Suffix (txt ++ x ++ b') txt (x ++ b') := by
  generalize hr : x ++ b = r at h
  cases h with
  | no h => subst hr; exact ⟨by simp, .no (h.swap hb' (by decide))⟩
  | yes h => subst hr; exact ⟨by simp, .yes h⟩

theorem Number.swap (hb : b ≠ []) {cs txt x} (h : Number cs txt (x ++ b)) :
    cs = txt ++ x ++ b ∧ txt ≠ [] ∧ Number (txt ++ x ++ b') txt (x ++ b') := by
  generalize hr : x ++ b = r at h
  cases h with
  | @decimal c cs ds a fr b0 ex x0 im _ h1 h2 h3 h4 h5 h6 =>
    subst hr
    obtain ⟨rfl, g6⟩ := h6.swap hb'
    obtain ⟨rfl, g5⟩ := h5.swap hb'
    rw [← List.append_assoc] at h4
    obtain ⟨rfl, g4⟩ := h4.swap hb'
    simp only [← List.append_assoc] at h3
    obtain ⟨rfl, g3⟩ := h3.swap hb' isDec_gap
    simp only [← List.append_assoc] at *
    refine ⟨by simp, by simp, ?_⟩
    have := Number.decimal h1 h2 g3 g4 g5 g6
    simpa using this
  | @point c cs ds a ex x0 im _ h1 h3 h5 h6 =>
    subst hr
    obtain ⟨rfl, g6⟩ := h6.swap hb'
    obtain ⟨rfl, g5⟩ := h5.swap hb'
    simp only [← List.append_assoc] at h3
    obtain ⟨rfl, g3⟩ := h3.swap hb' isDec_gap
    simp only [← List.append_assoc] at *
    refine ⟨by simp, by simp, ?_⟩
    have := Number.point h1 g3 g5 g6
    simpa using this
  | @radix x0 d cs ds _ h1 h2 h3 =>
    subst hr
    obtain ⟨rfl, g2⟩ := h2.swap hb' (by cases h1 <;> decide)
    refine ⟨by simp, by simp, ?_⟩
    have := Number.radix h1 g2 h3
    simpa using this
  | @zero c cs ds a fr b0 ex x0 im _ h1 h2 h3 h4 h5 h6 h7 h8 h9 =>
    subst hr
    obtain ⟨rfl, g8⟩ := h8.swap hb'
    obtain ⟨rfl, g7⟩ := h7.swap hb'
    rw [← List.append_assoc] at h6
    obtain ⟨rfl, g6⟩ := h6.swap hb'
    simp only [← List.append_assoc] at h3 h5
    have g5 := h5.swap hb' (fun c hc h => by rw [isDec_gap c hc] at h; cases h)
    cases cs with
    | nil => simp at h3; exact absurd h3.2.2.2.2.2 hb
    | cons c0 cs =>
      simp at h1 h3
      subst h1 h3
      refine ⟨by simp, by simp, ?_⟩
      simp only [← List.append_assoc] at *
      have := Number.zero (c := c0) (cs := c0 :: (ds ++ fr ++ ex ++ im ++ x ++ b')) rfl h2 (by simp) h4 g5 g6 g7 g8 h9
      simpa using this

omit hb' in
theorem op_gap : ∀ w k, (w, k) ∈ operators → ∀ c ∈ w, c ∉ gapChars := by
  have : operators.all (fun x => x.1.all (fun c => !gapChars.contains c)) = true := by decide
  intro w k h c hc
  have := List.all_eq_true.mp (List.all_eq_true.mp this _ h) c hc
  simpa using this

theorem prefix_swap {w y : List Char} (h : w <+: y ++ b') (hw : ∀ c ∈ w, c ∉ gapChars) : w <+: y := by
  by_cases hl : w.length ≤ y.length
  · exact List.prefix_of_prefix_length_le h (List.prefix_append _ _) hl
  · exfalso
    cases b' with
    | nil => have := h.length_le; simp at this; omega
    | cons c r =>
    have hc := hb' c rfl
    have h2 : y ++ [c] <+: w := List.prefix_of_prefix_length_le (l₃ := y ++ c :: r) ⟨r, by simp⟩ h (by simp; omega)
    obtain ⟨z, rfl⟩ := h2
    exact hw c (by simp) hc

omit hb' in
theorem nameChar_gap [Uni] : ∀ c ∈ gapChars, ¬ isNameChar c = true := by
  intro c hc
  simp only [gapChars, List.mem_cons, List.not_mem_nil, or_false] at hc
  rcases hc with rfl | rfl | rfl | rfl | rfl | rfl <;> simp [isNameChar, isAlphanumeric] <;> decide

theorem StrLit.swap {cs txt x} (h : StrLit cs txt) (hx : cs.drop txt.length = x ++ b) :
    cs = txt ++ x ++ b ∧ txt ≠ [] ∧ StrLit (txt ++ x ++ b') txt := by
  cases h with
  | @empty q rest hq h =>
    simp at hx; subst hx
    refine ⟨by simp, by simp, ?_⟩
    have := StrLit.empty (rest := x ++ b') hq (fun hh => Stops.swap hb' (P := (· = q)) (x := x) (b := b)
      (fun c hc e => h (e ▸ hc)) (by rcases hq with rfl | rfl <;> decide) q hh rfl)
    simpa using this
  | @line q body rest hq h1 h2 h3 h4 h5 =>
    simp at hx; subst hx
    refine ⟨by simp, by simp, ?_⟩
    have := StrLit.line (rest := x ++ b') hq h1 h2 h3 h4 h5
    simpa using this
  | @triple q body rest hq h1 h2 =>
    simp at hx; subst hx
    refine ⟨by simp, by simp, ?_⟩
    have := StrLit.triple (rest := x ++ b') hq h1 (fun j hj hp => h2 j hj ?_)
    · simpa using this
    · rw [List.drop_append_of_le_length (by omega)] at hp ⊢
      have hl : 1 ≤ (body.drop j).length := by simp; omega
      have e : ∀ z : List Char, body.drop j ++ q :: q :: q :: z = (body.drop j ++ [q, q, q]) ++ z := by simp
      rw [e] at hp ⊢
      have hp2 : [q, q, q] <+: body.drop j ++ [q, q, q] := List.prefix_of_prefix_length_le hp (List.prefix_append _ _) (by simp)
      exact hp2.trans (List.prefix_append _ _)

theorem Word.swap [Uni] (hb : b ≠ []) {st cs t st' x} (h : Word st cs t st' (x ++ b)) (hx : x ≠ [] ∨ Solid t) :
    ∃ w, cs = w ++ (x ++ b) ∧ (x ≠ [] ∨ w ≠ []) ∧ Word st (w ++ (x ++ b')) t st' (x ++ b') := by
  generalize hr : x ++ b = r at h
  have hx' : ¬ Solid t → x ≠ [] := fun hs => hx.resolve_right hs
  have head : ∀ {c : Char}, x ≠ [] → (x ++ b).head? = some c → (x ++ b').head? = some c := by
    intro c hx h
    cases x with
    | nil => exact absurd rfl hx
    | cons => simpa using h
  have head' : ∀ {c : Char}, x ≠ [] → (x ++ b').head? = some c → (x ++ b).head? = some c := by
    intro c hx h
    cases x with
    | nil => exact absurd rfl hx
    | cons => simpa using h
  cases h with
  | eof h =>
    subst hr
    have hx := hx' (by simp [Solid, Token.kind])
    refine ⟨[], by simp, .inl hx, .eof (.inr (head hx (h.resolve_left (by simp [hx]))))⟩
  | typeComment h h2 =>
    subst hr
    have hx := hx' (by simp [Solid, Token.kind])
    obtain ⟨rfl, h3, h4⟩ := h
    exact ⟨_, rfl, .inl hx, .typeComment ⟨rfl, h3, fun c hc => h4 c (head' hx hc)⟩ h2⟩
  | @operator w k st' rest h1 h2 h3 =>
    subst hr
    obtain ⟨g1, g2, g3⟩ := h1
    refine ⟨w, rfl, .inr ?_, .operator ⟨g1, List.prefix_append _ _, fun w' k' h hp => g3 w' k' h ?_⟩ ?_ h3⟩
    · intro e; subst e; revert g1; simp [operators]
    · rw [← List.append_assoc] at hp ⊢
      exact (prefix_swap hb' hp (op_gap _ _ h)).trans (List.prefix_append _ _)
    · rintro ⟨e, d, r, h4, h5⟩
      refine Stops.swap hb' (P := fun c => isDec c = true) (x := x) (b := b) ?_ (fun c hc h => by rw [isDec_gap c hc] at h; cases h) d
        (by rw [h4]; rfl) h5
      intro c hc h6
      refine h2 ⟨e, c, (x ++ b).tail, ?_, h6⟩
      cases hz : x ++ b with
      | nil => rw [hz] at hc; cases hc
      | cons a r => rw [hz] at hc; simp at hc; subst hc; rfl
  | keyword h1 h2 =>
    subst hr
    refine ⟨_, rfl, .inr ?_, .keyword h1 (h2.swap hb' nameChar_gap)⟩
    intro e; subst e; revert h1; simp [pyKeywords]
  | name h1 h2 h3 h4 h5 =>
    subst hr
    refine ⟨_, rfl, .inr (by simp), .name h1 h2 (h3.swap hb' nameChar_gap) h4 ?_⟩
    rintro ⟨e, h⟩
    have : Stops (fun c => c = '\'' ∨ c = '"') (x ++ b') := by
      refine Stops.swap hb' (b := b) ?_ (by decide)
      rintro c hc (rfl | rfl)
      · exact h5 ⟨e, .inl hc⟩
      · exact h5 ⟨e, .inr hc⟩
    rcases h with h | h
    · exact this _ h (.inl rfl)
    · exact this _ h (.inr rfl)
  | string h =>
    obtain ⟨h1, h2, h3⟩ := StrLit.swap hb' h hr.symm
    refine ⟨_, by rw [← hr, h1]; simp, .inr h2, ?_⟩
    have := Word.string (st := st) h3
    simpa using this
  | @prefixed pfx cs txt h0 h =>
    obtain ⟨h1, h2, h3⟩ := StrLit.swap hb' h hr.symm
    refine ⟨pfx ++ txt, by rw [← hr, h1]; simp, .inr (by simp [h2]), ?_⟩
    have := Word.prefixed (st := st) h0 h3
    simpa using this
  | number h =>
    subst hr
    obtain ⟨h1, h2, h3⟩ := Number.swap hb' hb h
    refine ⟨_, by rw [h1]; simp, .inr h2, ?_⟩
    have := Word.number (st := st) h3
    simpa using this

omit hb' in
theorem EndsLine.swap {cs x} (h : EndsLine cs (x ++ b)) (hx : x ≠ []) :
    ∃ w, cs = w ++ (x ++ b) ∧ EndsLine (w ++ (x ++ b')) (x ++ b') := by
  cases x with
  | nil => exact absurd rfl hx
  | cons a x =>
    generalize hr : a :: x ++ b = r at h
    cases h with
    | lf => subst hr; exact ⟨['\n'], rfl, .lf⟩
    | cr h => subst hr; exact ⟨['\r'], rfl, .cr (by simpa using h)⟩
    | @crlf cs =>
      cases cs with
      | nil => simp at hr
      | cons c cs => simp at hr; subst hr; exact ⟨['\r', '\n', c], rfl, EndsLine.crlf (cs := c :: _)⟩

omit hb' in
theorem Skips.swap {lines cs x} (h : Skips lines cs (x ++ b)) (hx : x ≠ []) :
    ∃ w, cs = w ++ (x ++ b) ∧ Skips lines (w ++ (x ++ b')) (x ++ b') := by
  generalize hr : x ++ b = r at h
  have head' : ∀ {w : List Char} {c : Char}, (w ++ (x ++ b')).head? = some c → (w ++ (x ++ b)).head? = some c := by
    intro w c h
    cases w with
    | cons => simpa using h
    | nil =>
      cases x with
      | nil => exact absurd rfl hx
      | cons => simpa using h
  induction h with
  | done => subst hr; exact ⟨[], rfl, .done⟩
  | @blank c cs r hc _ ih =>
    obtain ⟨w, rfl, h⟩ := ih hr
    exact ⟨c :: w, rfl, .blank hc h⟩
  | @comment cs txt rest r h1 h2 h3 _ ih =>
    obtain ⟨w, rfl, h⟩ := ih hr
    obtain ⟨rfl, h4, h5⟩ := h1
    refine ⟨txt ++ w, by simp, .comment (txt := txt) (rest := w ++ (x ++ b')) ⟨by simp, h4, fun c hc => h5 c (hr ▸ head' hc)⟩ h2 h3 h⟩
  | @continuation eol cs r he _ ih =>
    obtain ⟨w, rfl, h⟩ := ih hr
    refine ⟨'\\' :: (eol ++ w), by simp, ?_⟩
    have := Skips.continuation (eol := eol) (cs := w ++ (x ++ b')) (by
      rcases he with h | h | ⟨h, h'⟩
      · exact .inl h
      · exact .inr (.inl h)
      · exact .inr (.inr ⟨h, fun e => h' (hr ▸ head' e)⟩)) h
    simpa using this
  | @line cs cs' r hl he _ ih =>
    obtain ⟨w, rfl, h⟩ := ih hr
    subst hr
    rw [← List.append_assoc] at he
    obtain ⟨w', rfl, he'⟩ := he.swap (b' := b') (by simp [hx])
    exact ⟨w' ++ w, by simp, .line hl (by simpa using he') h⟩

omit hb' in
theorem margin_swap {cs x} : ∀ {k col}, margin k cs = (col, x ++ b) → x ≠ [] →
    ∃ w, cs = w ++ (x ++ b) ∧ margin k (w ++ (x ++ b')) = (col, x ++ b') := by
  induction cs with
  | nil =>
    intro k col h hx
    simp [margin] at h
    exact absurd h.2.1 hx
  | cons c cs ih =>
    intro k col h hx
    by_cases h1 : c = ' '
    · subst h1
      obtain ⟨w, rfl, h'⟩ := ih h hx
      exact ⟨' ' :: w, rfl, h'⟩
    · by_cases h2 : c = '\t'
      · subst h2
        obtain ⟨w, rfl, h'⟩ := ih h hx
        exact ⟨'\t' :: w, rfl, h'⟩
      · have e : ∀ r : List Char, margin k (c :: r) = (k, c :: r) := by
          intro r
          rw [margin]
          · intro _ h; exact h1 (List.cons.inj h).1
          · intro _ h; exact h2 (List.cons.inj h).1
        rw [e] at h
        simp at h
        obtain ⟨rfl, h⟩ := h
        cases x with
        | nil => exact absurd rfl hx
        | cons a x =>
          simp at h
          obtain ⟨rfl, rfl⟩ := h
          exact ⟨[], rfl, e _⟩

omit hb' in
theorem NoCode.swap {x : List Char} (hx : x ≠ []) : NoCode (x ++ b) ↔ NoCode (x ++ b') := by
  cases x with
  | nil => exact absurd rfl hx
  | cons a x => simp [NoCode]

/-- The place with another text. -/
abbrev Place.setText (p : Place) (cs : List Char) : Place := { p with text := cs }

omit hb' in
theorem Enter.swap {p bl q x} (h : Enter p bl q) (hq : q.text = x ++ b) (hx : x ≠ []) :
    ∃ y, y ≠ [] ∧ p.text = y ++ b ∧ Enter (p.setText (y ++ b')) bl (q.setText (x ++ b')) := by
  have fin : ∀ {cs col}, margin 0 p.text = (col, cs) → cs = x ++ b →
      ∃ y, y ≠ [] ∧ p.text = y ++ b ∧ margin 0 (y ++ b') = (col, x ++ b') := by
    rintro cs col hm rfl
    obtain ⟨w, e, h⟩ := margin_swap (b' := b') hm hx
    exact ⟨w ++ x, by simp [hx], by simp [e], by simpa using h⟩
  cases h with
  | mid h => exact ⟨x, hx, hq, .mid h⟩
  | noCode h hm hn =>
    obtain ⟨y, hy, e, hm'⟩ := fin hm hq
    dsimp only at hq; subst hq
    exact ⟨y, hy, e, .noCode (p := p.setText (y ++ b')) h hm' ((NoCode.swap hx).1 hn)⟩
  | brackets h hm hn hc =>
    obtain ⟨y, hy, e, hm'⟩ := fin hm hq
    dsimp only at hq; subst hq
    exact ⟨y, hy, e, .brackets (p := p.setText (y ++ b')) h hm' (fun hh => hn ((NoCode.swap hx).2 hh)) hc⟩
  | same h hm hn hc hl =>
    obtain ⟨y, hy, e, hm'⟩ := fin hm hq
    dsimp only at hq; subst hq
    exact ⟨y, hy, e, .same (p := p.setText (y ++ b')) h hm' (fun hh => hn ((NoCode.swap hx).2 hh)) hc hl⟩
  | deeper h hm hn hc hl ht =>
    obtain ⟨y, hy, e, hm'⟩ := fin hm hq
    dsimp only at hq; subst hq
    exact ⟨y, hy, e, .deeper (p := p.setText (y ++ b')) h hm' (fun hh => hn ((NoCode.swap hx).2 hh)) hc hl ht⟩
  | shallower h hm hn hc hl ho ho2 hk ht =>
    obtain ⟨y, hy, e, hm'⟩ := fin hm hq
    dsimp only at hq; subst hq
    exact ⟨y, hy, e, .shallower (p := p.setText (y ++ b')) h hm' (fun hh => hn ((NoCode.swap hx).2 hh)) hc hl ho ho2 hk ht⟩

theorem Next.swap [Uni] (hb : b ≠ []) {p t q x} (h : Next p t q) (hq : q.text = x ++ b) (hx : x ≠ [] ∨ Solid t) :
    ∃ y, y ≠ [] ∧ p.text = y ++ b ∧ Next (p.setText (y ++ b')) t (q.setText (x ++ b')) := by
  have hx' : ¬ Solid t → x ≠ [] := fun hs => hx.resolve_right hs
  cases h with
  | dedent he ho =>
    have hx := hx' (by simp [Solid, Token.kind])
    obtain ⟨y, hy, e, he'⟩ := he.swap (b' := b') hq hx
    exact ⟨y, hy, e, .dedent he' ho⟩
  | indent he ho =>
    have hx := hx' (by simp [Solid, Token.kind])
    obtain ⟨y, hy, e, he'⟩ := he.swap (b' := b') hq hx
    exact ⟨y, hy, e, .indent he' ho⟩
  | @newline q cs r he ho hc hs hl =>
    have hx := hx' (by simp [Solid, Token.kind])
    dsimp only at hq; subst hq
    obtain ⟨w, rfl, hl'⟩ := hl.swap (b' := b') hx
    rw [← List.append_assoc] at hs
    obtain ⟨w', e1, hs'⟩ := hs.swap (b' := b') (by simp [hx])
    rw [← List.append_assoc] at e1 hs'
    obtain ⟨y, hy, e, he'⟩ := he.swap (b' := b') e1 (by simp [hx])
    exact ⟨y, hy, e, Next.newline (p := p.setText (y ++ b')) (q := q.setText (w' ++ (w ++ x) ++ b')) he' ho hc
      (by simpa using hs') (by simpa using hl')⟩
  | @word bl q cs t st r he ho hs hw =>
    dsimp only at hq; subst hq
    obtain ⟨w, rfl, hne, hw'⟩ := hw.swap hb' hb hx
    have hne : w ++ x ≠ [] := by
      rcases hne with h | h <;> simp [h]
    rw [← List.append_assoc] at hs
    obtain ⟨w', e1, hs'⟩ := hs.swap (b' := b') hne
    rw [← List.append_assoc] at e1 hs'
    obtain ⟨y, hy, e, he'⟩ := he.swap (b' := b') e1 (by simpa using fun h => by simpa using hne)
    exact ⟨y, hy, e, Next.word (p := p.setText (y ++ b')) (q := q.setText (w' ++ (w ++ x) ++ b')) he' ho
      (by simpa using hs') (by simpa using hw')⟩

/-- Symbols up to a symbol with a text of its own do not depend on the text after them, as long as that starts like a gap. -/
theorem Run.swap [Uni] (hb : b ≠ []) {t q} (ht : Solid t) (hq : q.text = b) : ∀ {ts p}, Run p (ts ++ [t]) q →
    ∃ y, y ≠ [] ∧ p.text = y ++ b ∧ Run (p.setText (y ++ b')) (ts ++ [t]) (q.setText b') := by
  intro ts
  induction ts with
  | nil =>
    intro p h
    cases h with
    | cons h h' =>
      cases h'
      obtain ⟨y, hy, e, h⟩ := h.swap hb' hb (x := []) (by simpa using hq) (.inr ht)
      exact ⟨y, hy, e, .cons h .nil⟩
  | cons u ts ih =>
    intro p h
    cases h with
    | cons h h' =>
      obtain ⟨y1, hy1, e1, h1⟩ := ih h'
      obtain ⟨y, hy, e, h⟩ := h.swap hb' hb e1 (.inl hy1)
      exact ⟨y, hy, e, .cons h h1⟩

end

end LG
end Verif
