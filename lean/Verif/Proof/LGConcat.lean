import Verif.Proof.LGJoin
import Verif.Proof.LGWord

/-!
# The symbols of two texts, one after the other

The first text ends with a line end, the second starts with a symbol at the left margin.
-/

set_option linter.unusedSimpArgs false

namespace Verif
attribute [-simp] List.drop_one List.tail_drop
namespace LG

/-! ### What is left of a text -/

theorem Skips.suffix {l cs r} (h : Skips l cs r) : ∃ w, cs = w ++ r := by
  by_cases hr : r = []
  · exact ⟨cs, by simp [hr]⟩
  · obtain ⟨w, e, -⟩ := Skips.swap (b := []) (b' := []) (x := r) (by simpa using h) hr
    exact ⟨w, by simpa using e⟩

theorem EndsLine.suffix {cs r} (h : EndsLine cs r) : ∃ w, cs = w ++ r := by
  cases h with
  | lf => exact ⟨['\n'], rfl⟩
  | cr => exact ⟨['\r'], rfl⟩
  | @crlf cs => exact ⟨'\r' :: '\n' :: cs.take 1, by simp [List.take_append_drop]⟩

theorem Fraction.suffix {cs t r} (h : Fraction cs t r) : ∃ w, cs = w ++ r := by
  cases h with
  | no => exact ⟨[], rfl⟩
  | yes _ h => exact ⟨'.' :: _, congrArg _ h.1⟩
theorem Power.suffix {cs t r} (h : Power cs t r) : ∃ w, cs = w ++ r := by
  cases h with
  | no => exact ⟨[], rfl⟩
  | plain _ _ h => exact ⟨_ :: _, congrArg _ h.1⟩
  | signed _ _ h => exact ⟨_ :: _ :: _, congrArg _ (congrArg _ h.1)⟩
theorem Suffix.suffix {cs t r} (h : Suffix cs t r) : ∃ w, cs = w ++ r := by
  cases h with
  | no => exact ⟨[], rfl⟩
  | yes => exact ⟨[_], rfl⟩
theorem Number.suffix {cs t r} (h : Number cs t r) : ∃ w, cs = w ++ r := by
  cases h with
  | decimal _ _ h1 h2 h3 h4 =>
    obtain ⟨w2, rfl⟩ := h2.suffix; obtain ⟨w3, rfl⟩ := h3.suffix; obtain ⟨w4, rfl⟩ := h4.suffix
    exact ⟨_ :: (_ ++ (w2 ++ (w3 ++ w4))), by rw [h1.1]; simp; exact ⟨rfl, rfl⟩⟩
  | point _ h1 h3 h4 =>
    obtain ⟨w3, rfl⟩ := h3.suffix; obtain ⟨w4, rfl⟩ := h4.suffix
    exact ⟨'.' :: _ :: (_ ++ (w3 ++ w4)), by rw [h1.1]; simp; exact ⟨rfl, rfl⟩⟩
  | radix _ h => exact ⟨'0' :: _ :: _, by rw [h.1]; rfl⟩
  | @zero c cs ds _ _ _ _ _ _ _ _ _ h1 _ _ h2 h3 h4 _ =>
    obtain ⟨w2, rfl⟩ := h2.suffix; obtain ⟨w3, rfl⟩ := h3.suffix; obtain ⟨w4, rfl⟩ := h4.suffix
    refine ⟨'0' :: (cs.take 1 ++ (ds ++ (w2 ++ (w3 ++ w4)))), ?_⟩
    conv => lhs; rw [← List.take_append_drop 1 cs, h1]
    simp

theorem Word.suffix [Uni] {st cs t st' r} (h : Word st cs t st' r) : ∃ w, cs = w ++ r := by
  cases h with
  | eof => exact ⟨[], rfl⟩
  | typeComment h => exact ⟨_, h.1⟩
  | operator | keyword | name => exact ⟨_, rfl⟩
  | string => exact ⟨_, (List.take_append_drop _ _).symm⟩
  | @prefixed pfx cs txt => exact ⟨pfx ++ cs.take txt.length, by simp [List.take_append_drop]⟩
  | number h => exact h.suffix

theorem Next.suffix [Uni] {p t q} (h : Next p t q) : ∃ w, p.text = w ++ q.text := by
  cases h with
  | dedent h | indent h => exact h.suffix
  | newline h _ _ h2 h3 =>
    obtain ⟨w1, e1⟩ := h.suffix; obtain ⟨w2, e2⟩ := h2.suffix; obtain ⟨w3, e3⟩ := h3.suffix
    exact ⟨w1 ++ (w2 ++ w3), by rw [e1, e2, e3]; simp⟩
  | word h _ h2 h3 =>
    obtain ⟨w1, e1⟩ := h.suffix; obtain ⟨w2, e2⟩ := h2.suffix; obtain ⟨w3, e3⟩ := h3.suffix
    exact ⟨w1 ++ (w2 ++ w3), by rw [e1, e2, e3]; simp⟩

/-- The end of a text that ends with a line feed, and not with a carriage return and a line feed. -/
def Tail (cs : List Char) : Prop := cs = [] ∨ ∃ x, cs = x ++ ['\n'] ∧ x.getLast? ≠ some '\r'

theorem Tail.suffix {w cs} (h : Tail (w ++ cs)) : Tail cs := by
  rcases List.eq_nil_or_concat cs with rfl | ⟨x, c, rfl⟩
  · exact .inl rfl
  · rw [List.concat_eq_append] at h ⊢
    rcases h with h | ⟨y, h1, h2⟩
    · simp at h
    · rw [← List.append_assoc] at h1
      obtain ⟨rfl, e⟩ := List.append_inj' h1 rfl
      cases e
      refine .inr ⟨x, rfl, fun h => h2 ?_⟩
      rw [List.getLast?_append, h]; rfl

variable {b : List Char}

theorem EndsLine.join {cs} (h : EndsLine cs []) (ht : Tail cs) : EndsLine (cs ++ b) b := by
  rcases ht with rfl | ⟨x, hx, hr⟩
  · cases h
  generalize hz : ([] : List Char) = z at h
  cases h with
  | lf => subst hz; exact .lf
  | cr => subst hz; exact absurd (congrArg List.getLast? hx) (by simp)
  | @crlf cs =>
    match cs, hz with
    | [], _ =>
      have : x = ['\r'] := (List.append_inj' (s₁ := ['\r']) (t₁ := ['\n']) hx rfl).1.symm
      subst this
      exact absurd rfl hr
    | [c], _ => exact EndsLine.crlf (cs := c :: b)
    | c :: d :: cs, h => simp at h

theorem tail_ne_of_append {w cs : List Char} (h : Tail (w ++ cs)) (hw : '\n' ∉ w) (hw' : w ≠ []) : cs ≠ [] := by
  rintro rfl
  rcases h with h | ⟨x, h, -⟩
  · simp [hw'] at h
  · rw [List.append_nil] at h; subst h; simp at hw

theorem Skips.join {l cs} (h : Skips l cs []) (ht : Tail cs) : Skips l (cs ++ b) b := by
  generalize hz : ([] : List Char) = z at h
  induction h with
  | done => subst hz; exact .done
  | blank hc _ ih => exact .blank hc (ih (Tail.suffix (w := [_]) ht) hz)
  | @comment cs txt rest r h1 h2 h3 _ ih =>
    obtain ⟨rfl, h4, h5⟩ := h1
    have hne := tail_ne_of_append ht (fun h => (h4 _ h).2.1 rfl) (by rintro rfl; cases h2)
    refine .comment (txt := txt) (rest := rest ++ b) ⟨by simp, h4, fun c hc => h5 c ?_⟩ h2 h3 (ih ht.suffix hz)
    cases rest with
    | nil => exact absurd rfl hne
    | cons => simpa using hc
  | @continuation eol cs r he hs ih =>
    have h1 : Tail cs := Tail.suffix (w := '\\' :: eol) (by simpa using ht)
    have := Skips.continuation (eol := eol) (cs := cs ++ b) ?_ (ih h1 hz)
    · simpa using this
    rcases he with rfl | rfl | ⟨rfl, h⟩
    · exact .inl rfl
    · exact .inr (.inl rfl)
    · refine .inr (.inr ⟨rfl, ?_⟩)
      have hne := tail_ne_of_append (w := ['\\', '\r']) (cs := cs) (by simpa using ht) (by decide) (by simp)
      cases cs with
      | nil => exact absurd rfl hne
      | cons => simpa using h
  | @line cs cs' r hl he hs ih =>
    obtain ⟨w, e⟩ := he.suffix
    have h1 : Tail cs' := Tail.suffix (e ▸ ht)
    refine .line hl ?_ (ih h1 hz)
    by_cases hc : cs' = []
    · subst hc; exact he.join ht
    · obtain ⟨w', e', h2⟩ := EndsLine.swap (b := []) (b' := b) (x := cs') (by simpa using he) hc
      simp at e'
      rw [e', List.append_assoc]
      exact h2

/-! ### The end of the first text -/

/-- The text starts with a symbol at the left margin. -/
def AtCode (b : List Char) : Prop := ∃ c r, b = c :: r ∧ c ∉ cs! " \t\r\n#\\"

theorem AtCode.margin (h : AtCode b) (k : Nat) : margin k b = (k, b) := by
  obtain ⟨c, r, rfl, h⟩ := h
  simp at h
  rw [LG.margin]
  · intro _ e; exact h.1 (List.cons.inj e).1
  · intro _ e; exact h.2.1 (List.cons.inj e).1

theorem AtCode.notNoCode (h : AtCode b) : ¬ NoCode b := by
  obtain ⟨c, r, rfl, h⟩ := h
  simp at h
  simp [NoCode, h]

theorem AtCode.skips (h : AtCode b) {cs} (hs : Skips false b cs) : cs = b := by
  obtain ⟨c, r, rfl, h⟩ := h
  simp at h
  cases hs with
  | done => rfl
  | blank hc => rcases hc with rfl | rfl <;> simp at h
  | comment h1 h2 =>
    obtain ⟨e, -⟩ := h1
    rename_i txt _ _ _
    cases txt with
    | nil => cases h2
    | cons d txt => cases h2; cases e; simp at h
  | continuation => simp at h
  | line h => cases h

/-- The first symbol of the second text. -/
theorem AtCode.first [Uni] (h : AtCode b) {u q} (hn : Next (.start b) u q) :
    ∃ st r, Word [] b u st r ∧ q = ⟨false, st, [0], 0, r⟩ := by
  have key : ∀ {bl q0}, Enter (.start b) bl q0 → bl = false ∧ q0 = ⟨false, [], [0], 0, b⟩ := by
    intro bl q0 he
    have hm := h.margin 0
    have conv : ∀ {col cs}, LG.margin 0 (Place.start b).text = (col, cs) → col = 0 ∧ cs = b := by
      intro col cs e
      rw [show (Place.start b).text = b from rfl, hm] at e
      simp at e
      exact ⟨e.1.symm, e.2.symm⟩
    cases he with
    | mid h => cases h
    | noCode _ h1 h2 => obtain ⟨rfl, rfl⟩ := conv h1; exact absurd h2 h.notNoCode
    | brackets _ _ _ h2 => exact absurd rfl h2
    | same _ h1 => obtain ⟨rfl, rfl⟩ := conv h1; exact ⟨rfl, rfl⟩
    | deeper _ h1 _ _ h2 h3 => obtain ⟨rfl, rfl⟩ := conv h1; simp [Place.start] at h2; omega
    | @shallower _ _ out keep _ _ h1 _ _ h2 h3 h4 =>
      obtain ⟨rfl, rfl⟩ := conv h1
      cases out with
      | nil => exact absurd rfl h3
      | cons o out =>
        have := h4 o (by simp)
        simp [Place.start] at h2
        omega
  cases hn with
  | dedent he ho => obtain ⟨-, rfl⟩ := key he; simp at ho
  | indent he ho => obtain ⟨-, rfl⟩ := key he; simp at ho
  | newline he _ _ hs hl =>
    obtain ⟨-, rfl⟩ := key he
    have := h.skips hs
    subst this
    obtain ⟨c, r, rfl, h⟩ := h
    simp at h
    cases hl <;> simp at h
  | word he _ hs hw =>
    obtain ⟨rfl, rfl⟩ := key he
    have := h.skips hs
    subst this
    exact ⟨_, _, hw, rfl⟩

/-- In front of the second text: its first symbol is the next one. -/
theorem AtCode.next [Uni] (h : AtCode b) {u q} (hn : Next (.start b) u q) {p bl q0} (he : Enter p bl q0) (hf : q0.fresh = false)
    (hc : q0.closers = []) (hl : q0.levels = [0]) (ho : q0.owed = 0) (hs : Skips bl q0.text b) : Next p u q := by
  obtain ⟨st, r, hw, rfl⟩ := h.first hn
  obtain ⟨f, c, l, o, t⟩ := q0
  dsimp only at hf hc hl ho hs
  subst hf hc hl ho
  exact Next.word he rfl (by simpa using hs) hw

theorem Enter.notFresh {p bl q} (h : Enter p bl q) : q.fresh = false := by
  cases h <;> first | rfl | assumption

theorem Enter.closers {p bl q} (h : Enter p bl q) : q.closers = p.closers := by cases h <;> rfl

/-- At the end of the first text. -/
theorem Enter.atEnd {p bl q} (h : Enter p bl q) (hp : p.text = []) (hb : AtCode b) : Enter (p.setText b) bl (q.setText b) := by
  have conv : ∀ {col cs}, LG.margin 0 p.text = (col, cs) → cs = [] ∧ LG.margin 0 (p.setText b).text = (col, b) := by
    intro col cs e
    rw [hp] at e
    simp [LG.margin] at e
    obtain ⟨rfl, rfl⟩ := e
    exact ⟨rfl, hb.margin 0⟩
  cases h with
  | mid h => exact .mid (p := p.setText b) h
  | noCode _ h1 h2 => obtain ⟨rfl, -⟩ := conv h1; simp [NoCode] at h2
  | brackets h0 h1 h2 h3 => exact .brackets (p := p.setText b) h0 (conv h1).2 hb.notNoCode h3
  | same h0 h1 h2 h3 h4 => exact .same (p := p.setText b) h0 (conv h1).2 hb.notNoCode h3 h4
  | deeper h0 h1 h2 h3 h4 h5 => exact .deeper (p := p.setText b) h0 (conv h1).2 hb.notNoCode h3 h4 h5
  | shallower h0 h1 h2 h3 h4 h5 h6 h7 h8 =>
    exact .shallower (p := p.setText b) h0 (conv h1).2 hb.notNoCode h3 h4 h5 h6 h7 h8

theorem Enter.text_nil {p bl q} (h : Enter p bl q) (hp : p.text = []) : q.text = [] := by
  obtain ⟨w, e⟩ := h.suffix
  rw [hp] at e
  exact (List.append_eq_nil_iff.1 e.symm).2

theorem skips_nil {l cs} (h : Skips l [] cs) : cs = [] := by
  obtain ⟨w, e⟩ := h.suffix
  exact (List.append_eq_nil_iff.1 e.symm).2

theorem Word.nil [Uni] {st t st' r} (h : Word st [] t st' r) : t = .eof 0 none ∧ st' = st ∧ r = [] := by
  rcases h.first with ⟨h1, rfl, rfl, rfl⟩ | ⟨txt, h1, h2, rfl, rfl⟩ | h1
  · exact ⟨rfl, rfl, rfl⟩
  · obtain ⟨e, -⟩ := h1
    rw [(List.append_eq_nil_iff.1 e.symm).1] at h2
    simp at h2
  · simp [hd] at h1

theorem Word.notLayout [Uni] {st cs t st' r} (h : Word st cs t st' r) : t.kind ≠ .Newline ∧ t.kind ≠ .Dedent := by
  cases h with
  | @operator w k _ _ h =>
    have := solid_operators _ h.1
    simp [Solid] at this
    exact ⟨this.1, this.2.2.1⟩
  | @keyword w k _ h =>
    have := solid_keywords _ h
    simp [Solid] at this
    exact ⟨this.1, this.2.2.1⟩
  | _ => simp [Token.kind]

/-- The rest of the symbols, after the end of the first text. -/
theorem Run.joinEnd [Uni] (hb : AtCode b) {u qb us q2} (h1 : Next (.start b) u q2) (h2 : Run q2 us qb) {e : Token} (he : e.kind = .EOF) :
    ∀ {ts p q}, Run p (ts ++ [e]) q → p.text = [] → (∀ t ∈ ts, t.kind ≠ .EOF) → q.closers = [] → q.levels = [0] →
      Run (p.setText b) (ts ++ u :: us) qb := by
  intro ts
  induction ts with
  | nil =>
    intro p q h hp _ hc hl
    cases h with
    | cons h h' =>
      cases h'
      refine .cons ?_ h2
      cases h with
      | dedent | indent => cases he
      | newline => cases he
      | @word bl q0 cs t st r hen ho hs hw =>
        have h0 := hen.text_nil hp
        rw [h0] at hs
        have := skips_nil hs
        subst this
        obtain ⟨-, rfl, rfl⟩ := hw.nil
        exact hb.next h1 (hen.atEnd hp hb) hen.notFresh hc hl ho .done
  | cons t ts ih =>
    intro p q h hp hne hc hl
    cases h with
    | @cons _ _ q1 _ _ h h' =>
      have ih' := ih h'
      cases h with
      | dedent hen ho => exact .cons (.dedent (hen.atEnd hp hb) ho) (ih' (hen.text_nil hp) (fun t h => hne t (by simp [h])) hc hl)
      | indent hen ho => exact .cons (.indent (hen.atEnd hp hb) ho) (ih' (hen.text_nil hp) (fun t h => hne t (by simp [h])) hc hl)
      | newline hen _ _ hs hl =>
        rw [hen.text_nil hp] at hs
        have := skips_nil hs
        subst this
        cases hl
      | word hen _ hs hw =>
        rw [hen.text_nil hp] at hs
        have := skips_nil hs
        subst this
        obtain ⟨rfl, -, -⟩ := hw.nil
        exact absurd rfl (hne (.eof 0 none) (by simp))

theorem Word.atEof [Uni] {st cs t st' r} (h : Word st cs t st' r) (ht : t.kind = .EOF) : AtEnd cs ∧ st' = st ∧ r = cs := by
  cases h with
  | eof h => exact ⟨h, rfl, rfl⟩
  | @operator w k _ _ h =>
    have := solid_operators _ h.1
    simp [Solid] at this
    exact absurd ht this.2.2.2.1
  | @keyword w k _ h =>
    have := solid_keywords _ h
    simp [Solid] at this
    exact absurd ht this.2.2.2.1
  | _ => cases ht

theorem margin_ne {x : List Char} : ∀ {k col cs}, LG.margin k (x ++ ['\n']) = (col, cs) → cs ≠ [] := by
  induction x with
  | nil => rintro k col cs h rfl; simp [LG.margin] at h
  | cons c x ih =>
    intro k col cs h
    rw [List.cons_append] at h
    unfold LG.margin at h
    split at h
    · rename_i e; cases e; exact ih h
    · rename_i e; cases e; exact ih h
    · simp at h; rw [← h.2]; simp

theorem Enter.text_ne {p bl q} (h : Enter p bl q) (hp : Tail p.text) (hne : p.text ≠ []) : q.text ≠ [] := by
  obtain ⟨x, hx, -⟩ := hp.resolve_left hne
  cases h with
  | mid => exact hne
  | noCode _ hm | brackets _ hm | same _ hm | deeper _ hm | shallower _ hm =>
    rw [hx] at hm; exact margin_ne hm

/-- Two texts, one after the other. -/
theorem Run.join [Uni] (hb : AtCode b) {u qb us q2} (h1 : Next (.start b) u q2) (h2 : Run q2 us qb) {e : Token} (he : e.kind = .EOF) :
    ∀ {ts p q}, Run p (ts ++ [e]) q → Tail p.text → '\x00' ∉ p.text →
      (∀ t ∈ ts, t.kind ≠ .EOF) → (∀ t, ts.getLast? = some t → t.kind = .Newline ∨ t.kind = .Dedent) →
      q.closers = [] → q.levels = [0] → Run (p.setText (p.text ++ b)) (ts ++ u :: us) qb := by
  intro ts
  induction ts with
  | nil =>
    intro p q h hp h0 _ _ hc hl
    by_cases hpe : p.text = []
    · rw [hpe]; exact Run.joinEnd hb h1 h2 he (ts := []) h hpe (by simp) hc hl
    cases h with
    | cons h h' =>
      cases h'
      refine .cons ?_ h2
      cases h with
      | dedent | indent => cases he
      | newline => cases he
      | @word bl q0 cs t st r hen ho hs hw =>
        obtain ⟨w0, e0⟩ := hen.suffix
        obtain ⟨w1, e1⟩ := hs.suffix
        obtain ⟨ha, rfl, rfl⟩ := hw.atEof he
        have hr : r = [] := by
          refine ha.resolve_right fun h => h0 ?_
          rw [e0, e1]
          cases r with
          | nil => cases h
          | cons c r => cases h; simp
        subst hr
        dsimp only at hc hl
        rw [hc] at hs
        obtain ⟨y, -, e2, hen'⟩ := hen.swap (b := []) (b' := b) (x := q0.text) (by simp) (hen.text_ne hp hpe)
        rw [List.append_nil] at e2
        rw [e2]
        refine hb.next h1 hen' hen.notFresh hc hl ho ?_
        have ht : Tail q0.text := Tail.suffix (e0 ▸ hp)
        simpa using Skips.join (b := b) hs ht
  | cons t ts ih =>
    intro p q h hp h0 hne hlast hc hl
    by_cases hpe : p.text = []
    · rw [hpe]; exact Run.joinEnd hb h1 h2 he h hpe hne hc hl
    cases h with
    | @cons _ _ q1 _ _ h h' =>
      obtain ⟨w0, e0⟩ := h.suffix
      have ht1 : Tail q1.text := Tail.suffix (e0 ▸ hp)
      by_cases hq : q1.text = []
      · have hj := Run.joinEnd hb h1 h2 he h' hq (fun t h => hne t (by simp [h])) hc hl
        cases h with
        | dedent hen => exact absurd hq (hen.text_ne hp hpe)
        | indent hen => exact absurd hq (hen.text_ne hp hpe)
        | @newline q0 cs r hen ho hcl hs hel =>
          dsimp only at hq
          subst hq
          obtain ⟨w1, e1⟩ := hen.suffix
          obtain ⟨w2, e2⟩ := hs.suffix
          have htc : Tail cs := Tail.suffix (w := w1 ++ w2) (by rw [List.append_assoc, ← e2, ← e1]; exact hp)
          have hcne : cs ≠ [] := by rintro rfl; cases hel
          obtain ⟨x, hx, hxr⟩ := htc.resolve_left hcne
          have hel' := EndsLine.join (b := b) hel htc
          subst hx
          obtain ⟨w3, e3, hs'⟩ := hs.swapLine (r' := b)
          rw [← List.append_assoc] at e3 hs'
          obtain ⟨y, e4, hen'⟩ := hen.swapLine (r' := b) e3
          rw [e4]
          have e5 : y ++ ['\n'] ++ b = y ++ '\n' :: b := by simp
          rw [e5]
          exact .cons (Next.newline hen' ho hcl (by simpa using hs') (by simpa using hel')) hj
        | @word bl q0 cs t st r hen ho hs hw =>
          exfalso
          cases ts with
          | nil => rcases hlast t rfl with h | h; exact hw.notLayout.1 h; exact hw.notLayout.2 h
          | cons t' ts =>
            have hmid : ∀ {bl q3}, Enter { q0 with closers := st, text := r } bl q3 → q3 = { q0 with closers := st, text := r } := by
              intro bl q3 h
              have hf := hen.notFresh
              cases h with
              | mid => rfl
              | noCode h | brackets h | same h | deeper h | shallower h => dsimp only at h; rw [hf] at h; cases h
            dsimp only at hq
            subst hq
            cases h' with
            | cons h' _ =>
              cases h' with
              | dedent h ho' => rw [hmid h] at ho'; dsimp only at ho'; omega
              | indent h ho' => rw [hmid h] at ho'; dsimp only at ho'; omega
              | newline h _ _ h2 h3 =>
                rw [hmid h] at h2
                have := skips_nil h2
                subst this
                cases h3
              | word h _ h2 h3 =>
                rw [hmid h] at h2
                have := skips_nil h2
                subst this
                obtain ⟨rfl, -, -⟩ := h3.nil
                exact absurd rfl (hne (.eof 0 none) (by simp))
      · obtain ⟨x, hx, -⟩ := ht1.resolve_left hq
        obtain ⟨y, e1, hn⟩ := h.swapLine (r := []) (r' := b) hx
        have hj := ih h' ht1 (fun h => h0 (by rw [e0]; simp [h])) (fun t h => hne t (by simp [h]))
          (fun t' h => hlast t' (by cases ts with | nil => cases h | cons => simpa using h)) hc hl
        rw [hx] at hj
        rw [e1]
        have e5 : ∀ y : List Char, y ++ ['\n'] ++ b = y ++ '\n' :: b := by simp
        rw [e5] at hj ⊢
        exact .cons hn hj

end LG
end Verif
