import Verif.Props.Gaps
import Verif.Proof.LGNumber

/-!
# Line starts and gaps as in the lexical grammar
-/

set_option linter.unusedSimpArgs false

namespace Verif
attribute [-simp] List.drop_one List.tail_drop

namespace LG

theorem head?_iff {cs : List Char} {c : Char} (hc : c ≠ '\x00') : cs.head? = some c ↔ hd cs = c := by
  cases cs with
  | nil => simp [Ne.symm hc]
  | cons a r => simp

theorem margin_eq (cs : List Char) (col : Nat) :
    margin col cs = (columnOf 4 col (cs.takeWhile isBlank), cs.drop (cs.takeWhile isBlank).length) := by
  induction cs generalizing col with
  | nil => simp [margin, columnOf]
  | cons c cs ih =>
    by_cases h1 : c = ' '
    · subst h1
      simp only [margin, ih]
      simp [isBlank, columnOf]
    · by_cases h2 : c = '\t'
      · subst h2
        simp only [margin, ih]
        simp [isBlank, columnOf]
      · have : isBlank c = false := by simp [isBlank, h1, h2]
        rw [margin]
        · simp [this, columnOf]
        · intro _ h; exact h1 (List.cons.inj h).1
        · intro _ h; exact h2 (List.cons.inj h).1

theorem noCode_iff {cs : List Char} : NoCode cs ↔ isSkipChar (hd cs) = true := by
  simp only [NoCode, isSkipChar, Bool.or_eq_true, beq_iff_eq]
  rw [head?_iff (by decide), head?_iff (by decide), head?_iff (by decide), head?_iff (by decide)]
  constructor
  · rintro (h | h | h | h) <;> simp [h]
  · rintro (((h | h) | h) | h) <;> simp [h]

theorem dropWhile_out {col : Nat} {out keep : List Nat} {top : Nat} (h1 : ∀ x ∈ out, col < x) (h2 : keep.head? = some top)
    (h3 : top ≤ col) : (out ++ keep).dropWhile (fun x => decide (col < x)) = keep ∧
      (out ++ keep).takeWhile (fun x => decide (col < x)) = out := by
  induction out with
  | nil =>
    cases keep with
    | nil => simp at h2
    | cons k ks => simp at h2; subst h2; simp [Nat.not_lt.2 h3]
  | cons o out ih =>
    obtain ⟨i1, i2⟩ := ih (fun x hx => h1 x (by simp [hx]))
    have ho := h1 o (by simp)
    simp [ho, i1, i2]

theorem enter_of {src l} (hi : Inv src l) : Enter l.place (bolState false (l.at l.pos)).1 (bolState false (l.at l.pos)).2.place := by
  have hcol : (l.at l.pos).col = (margin 0 l.rest).1 := by
    rw [margin_eq]; simp only [Lexer.col, Lexer.blanks, tabSize_at, rest_at, hi.tab]
  have hbl : l.rest.drop (l.at l.pos).blanks.length = (margin 0 l.rest).2 := by
    rw [margin_eq]; simp only [Lexer.blanks, rest_at]
  obtain ⟨col, cs, hm⟩ : ∃ col cs, margin 0 l.rest = (col, cs) := ⟨_, _, rfl⟩
  rw [hm] at hcol hbl
  dsimp only at hcol hbl
  have hfw : ∀ (b : Bool) (i : List Nat) (p : Int), Lexer.place { (l.at l.pos).fwd (l.at l.pos).blanks.length with
      bol := b, indents := i, pending := p } = ⟨b, l.parens, i, p, cs⟩ := by
    intro b i p
    have h1 : ((l.at l.pos).fwd (l.at l.pos).blanks.length).rest = cs := by rw [rest_fwd, rest_at, hbl]
    have h2 : ((l.at l.pos).fwd (l.at l.pos).blanks.length).parens = l.parens := rfl
    rw [← h1, ← h2]
    rfl
  unfold bolState
  simp only [bol_at, parens_at, rest_at, hbl, hcol]
  by_cases hb : l.bol = true
  · have hp0 := hi.bolp hb
    rw [if_pos hb]
    by_cases hn : NoCode cs
    · rw [noCode_iff.1 hn]
      rw [if_neg (by simp)]
      have := Enter.noCode (p := l.place) hb hm hn
      exact (hfw false l.indents l.pending).symm ▸ this
    · have hn' : isSkipChar (hd cs) = false := by
        cases h : isSkipChar (hd cs) with
        | false => rfl
        | true => exact absurd (noCode_iff.2 h) hn
      rw [hn']
      by_cases hc : l.parens = []
      · rw [if_pos (by simp [hc])]
        dsimp only
        rw [hfw]
        simp only [Bool.or_false, indents_at, pending_at]
        have hne : ∃ top, l.indents.head? = some top ∧ topIndent l.indents = top := by
          have := hi.ind
          cases h : l.indents with
          | nil => rw [h] at this; cases this
          | cons a r => exact ⟨a, rfl, rfl⟩
        obtain ⟨top, ht, ht'⟩ := hne
        unfold adjust
        rw [ht']
        by_cases e1 : col = top
        · rw [if_pos e1]
          exact Enter.same (p := l.place) hb hm hn hc (by rw [e1]; exact ht)
        · rw [if_neg e1]
          by_cases e2 : col > top
          · rw [if_pos e2]
            have := Enter.deeper (p := l.place) hb hm hn hc ht e2
            rw [hp0]
            exact this
          · rw [if_neg e2, hp0]
            have hdw := hi.ind.dropWhile (col := col)
            have hk : ∃ k, (l.indents.dropWhile (fun x => decide (col < x))).head? = some k ∧ k ≤ col := by
              cases h : l.indents.dropWhile (fun x => decide (col < x)) with
              | nil => rw [h] at hdw; cases hdw.1
              | cons a r =>
                have := List.head?_dropWhile_not (fun x => decide (col < x)) l.indents
                rw [h] at this
                exact ⟨a, rfl, by simpa using this⟩
            obtain ⟨k, hk1, hk2⟩ := hk
            have := Enter.shallower (p := l.place) (col := col) (cs := cs)
              (out := l.indents.takeWhile (fun x => decide (col < x)))
              (keep := l.indents.dropWhile (fun x => decide (col < x))) hb hm hn hc
              List.takeWhile_append_dropWhile.symm
              (by
                cases h : l.indents with
                | nil => rw [h] at ht; cases ht
                | cons a r => rw [h] at ht; simp at ht; subst ht; simp only [List.takeWhile_cons]; rw [if_pos (by simp; omega)]; simp)
              (by
                intro x hx
                have := List.all_eq_true.mp (List.all_takeWhile (p := fun x => decide (col < x)) (l := l.indents)) x hx
                simpa using this) hk1 hk2
            rw [Int.zero_sub]; exact this
      · rw [if_neg (by simp [hc])]
        have := Enter.brackets (p := l.place) hb hm hn hc
        exact (hfw false l.indents l.pending).symm ▸ this
  · rw [if_neg hb]
    exact Enter.mid (p := l.place) (by simpa [Lexer.place] using hb)

/-- `Enter` as a function. -/
def enterFun (p : Place) : Bool × Place :=
  if p.fresh then
    if isSkipChar (hd (margin 0 p.text).2) then (true, { p with fresh := false, text := (margin 0 p.text).2 })
    else if p.closers = [] then
      (false, { p with fresh := false, text := (margin 0 p.text).2, levels := (adjust (margin 0 p.text).1 p.levels p.owed).1,
                       owed := (adjust (margin 0 p.text).1 p.levels p.owed).2 })
    else (false, { p with fresh := false, text := (margin 0 p.text).2 })
  else (false, p)

theorem Enter.eq {p b q} (h : Enter p b q) (h0 : p.fresh = true → p.owed = 0) : enterFun p = (b, q) := by
  have nc : ∀ {cs}, ¬ NoCode cs → isSkipChar (hd cs) = false := by
    intro cs hn
    cases h : isSkipChar (hd cs) with
    | false => rfl
    | true => exact absurd (noCode_iff.2 h) hn
  have hd1 : ∀ {ind : List Nat} {top}, ind.head? = some top → topIndent ind = top := by
    intro ind top h
    cases ind with
    | nil => cases h
    | cons a r => simpa [topIndent] using h
  unfold enterFun
  cases h with
  | mid h => rw [if_neg (by simp [h])]
  | noCode hf hm hn => rw [if_pos hf, hm, if_pos (noCode_iff.1 hn)]
  | brackets hf hm hn hc => rw [if_pos hf, hm, if_neg (by simp [nc hn]), if_neg hc]
  | same hf hm hn hc hl =>
    rw [if_pos hf, hm, if_neg (by simp [nc hn]), if_pos hc]
    dsimp only
    rw [adjust, if_pos (hd1 hl).symm]
  | deeper hf hm hn hc hl hgt =>
    rw [if_pos hf, hm, if_neg (by simp [nc hn]), if_pos hc]
    dsimp only
    rw [adjust, hd1 hl, if_neg (by omega), if_pos hgt, h0 hf]
    rfl
  | @shallower col cs out keep top hf hm hn hc hl hne ho hk ht =>
    rw [if_pos hf, hm, if_neg (by simp [nc hn]), if_pos hc]
    dsimp only
    have : col < topIndent p.levels := by
      rw [hl]
      cases out with
      | nil => exact absurd rfl hne
      | cons o out => exact ho o (by simp)
    rw [adjust, if_neg (by omega), if_neg (by omega), hl, (dropWhile_out ho hk ht).1, (dropWhile_out ho hk ht).2, h0 hf,
      Int.zero_sub]

/-- The line start step of the tokenizer is that of the grammar. -/
theorem enter_iff {src l b q} (hi : Inv src l) :
    Enter l.place b q ↔ ∃ l1, bolState false (l.at l.pos) = (b, l1) ∧ l1.place = q := by
  constructor
  · intro h
    have e1 := h.eq hi.bolp
    have e2 := (enter_of hi).eq hi.bolp
    rw [e1] at e2
    simp only [Prod.mk.injEq] at e2
    exact ⟨_, by rw [e2.1], e2.2.symm⟩
  · rintro ⟨l1, h, rfl⟩
    have := enter_of hi
    rw [h] at this
    exact this

/-! ### Line ends and gaps -/

theorem endsLine_of {cs m} (h : LineEnd cs m) : EndsLine cs (cs.drop m) := by
  cases h with
  | crlf h1 h2 =>
    obtain ⟨r, rfl⟩ := (hd_eq_iff (by decide)).mp h1
    rw [List.drop_succ_cons, List.drop_zero] at h2
    obtain ⟨r, rfl⟩ := (hd_eq_iff (by decide)).mp h2
    exact .crlf
  | cr h1 h2 =>
    obtain ⟨r, rfl⟩ := (hd_eq_iff (by decide)).mp h1
    rw [List.drop_succ_cons, List.drop_zero] at h2 ⊢
    exact .cr (by rw [Ne, head?_iff (by decide)]; exact h2)
  | lf h1 =>
    obtain ⟨r, rfl⟩ := (hd_eq_iff (by decide)).mp h1
    exact .lf

theorem EndsLine.lineEnd {cs r} (h : EndsLine cs r) : ∃ m, LineEnd cs m ∧ r = cs.drop m := by
  cases h with
  | lf => exact ⟨1, .lf rfl, rfl⟩
  | cr h => exact ⟨1, .cr rfl (by rw [Ne, head?_iff (by decide)] at h; exact h), rfl⟩
  | crlf => exact ⟨3, .crlf rfl rfl, rfl⟩

theorem skips_blanks {b : Bool} (cs : List Char) {r} (P : Char → Bool) (hP : ∀ c, P c = true → c = ' ' ∨ c = '\t')
    (h : Skips b (cs.drop (cs.takeWhile P).length) r) : Skips b cs r := by
  induction cs with
  | nil => simpa using h
  | cons c cs ih =>
    by_cases hc : P c = true
    · simp only [List.takeWhile_cons, hc, if_true, List.length_cons, List.drop_succ_cons] at h
      exact .blank (hP c hc) (ih h)
    · simpa [List.takeWhile_cons, hc] using h

theorem skips_of_item {b : Bool} {pos cs t n r} (h : HTrivia pos cs t n) (hs : Skips b (cs.drop n) r) : Skips b cs r := by
  cases h with
  | spaces h => exact skips_blanks cs _ (by intro c hc; simp at hc; exact .inl hc) hs
  | tab h =>
    obtain ⟨r, rfl⟩ := (hd_eq_iff (by decide)).mp h
    exact .blank (.inr rfl) hs
  | comment h1 h2 =>
    refine .comment (restOfLine_lineText cs) ?_ ?_ hs
    · obtain ⟨r, rfl⟩ := (hd_eq_iff (by decide)).mp h1
      simp [lineText]
    · intro h; rw [(isTypeComment_iff _).2 h] at h2; cases h2
  | cont3 h1 h2 h3 =>
    obtain ⟨r, rfl⟩ := (hd_eq_iff (by decide)).mp h1
    obtain ⟨r, rfl⟩ := (hd_eq_iff (by decide)).mp h2
    obtain ⟨r, rfl⟩ := (hd_eq_iff (by decide)).mp h3
    exact .continuation (eol := cs! "\r\n") (.inr (.inl rfl)) hs
  | contCR h1 h2 h3 =>
    obtain ⟨r, rfl⟩ := (hd_eq_iff (by decide)).mp h1
    obtain ⟨r, rfl⟩ := (hd_eq_iff (by decide)).mp h2
    exact .continuation (eol := cs! "\r") (.inr (.inr ⟨rfl, by rw [Ne, head?_iff (by decide)]; exact h3⟩)) hs
  | contLF h1 h2 =>
    obtain ⟨r, rfl⟩ := (hd_eq_iff (by decide)).mp h1
    obtain ⟨r, rfl⟩ := (hd_eq_iff (by decide)).mp h2
    exact .continuation (eol := cs! "\n") (.inl rfl) hs

theorem skips_of_gap {b pos cs ts n} (h : Gap b pos cs ts n) : Skips b cs (cs.drop n) := by
  induction h with
  | nil => exact .done
  | item h _ ih => rw [List.drop_drop] at ih; exact skips_of_item h ih
  | @line pos cs n ts m hq h _ ih =>
    refine .line hq (endsLine_of h) (skips_blanks _ isBlank (by simp [isBlank]) ?_)
    rw [List.drop_drop] at ih ⊢
    exact ih

/-- One step of `Skips`, if there is one. -/
def skip1 (b : Bool) (cs : List Char) : Option (List Char) :=
  if hd cs = ' ' ∨ hd cs = '\t' then some (cs.drop 1)
  else if hd cs = '#' then if isTypeComment (lineText cs) then none else some (cs.drop (lineText cs).length)
  else if hd cs = '\\' then
    if hd (cs.drop 1) = '\r' then some (if hd (cs.drop 2) = '\n' then cs.drop 3 else cs.drop 2)
    else if hd (cs.drop 1) = '\n' then some (cs.drop 2) else none
  else if b = true then
    if hd cs = '\r' then some (if hd (cs.drop 1) = '\n' then cs.drop 3 else cs.drop 1)
    else if hd cs = '\n' then some (cs.drop 1) else none
  else none

theorem skip1_none {b cs} (h : Stop b cs) : skip1 b cs = none := by
  obtain ⟨h1, h2⟩ := h
  have n1 : hd cs ≠ ' ' := fun h => h1 0 _ _ (.spaces h)
  have n2 : hd cs ≠ '\t' := fun h => h1 0 _ _ (.tab h)
  unfold skip1
  rw [if_neg (by simp [n1, n2])]
  by_cases n3 : hd cs = '#'
  · rw [if_pos n3]
    cases ht : isTypeComment (lineText cs) with
    | true => rfl
    | false => exact absurd (.comment n3 ht) (h1 0 _ _)
  rw [if_neg n3]
  by_cases n4 : hd cs = '\\'
  · rw [if_pos n4, if_neg, if_neg]
    · intro h; exact h1 0 _ _ (.contLF n4 h)
    · intro h
      by_cases h' : hd (cs.drop 2) = '\n'
      · exact h1 0 _ _ (.cont3 n4 h h')
      · exact h1 0 _ _ (.contCR n4 h h')
  rw [if_neg n4]
  by_cases hb : b = true
  · rw [if_pos hb, if_neg, if_neg]
    · intro h; exact h2 hb _ (.lf h)
    · intro h
      by_cases h' : hd (cs.drop 1) = '\n'
      · exact h2 hb _ (.crlf h h')
      · exact h2 hb _ (.cr h h')
  · rw [if_neg hb]

theorem skip1_blank {b c cs} (h : c = ' ' ∨ c = '\t') : skip1 b (c :: cs) = some cs := by simp [skip1, h]

theorem skip1_comment {b cs txt rest} (hr : RestOfLine cs txt rest) (hh : txt.head? = some '#')
    (ht : ¬ cs! "# type:" <+: txt) : skip1 b cs = some rest := by
  have e := lineText_eq hr
  obtain ⟨hcs, _, _⟩ := hr
  have hc : hd cs = '#' := by
    rw [hcs]
    cases txt with
    | nil => simp at hh
    | cons a t => simpa using hh
  have ht' : isTypeComment (lineText cs) = false := by
    rw [e]
    cases h : isTypeComment txt with
    | false => rfl
    | true => exact absurd ((isTypeComment_iff _).1 h) ht
  unfold skip1
  rw [if_neg (by rw [hc]; decide), if_pos hc, ht', e]
  simp [hcs]

theorem skip1_cont {b eol cs} (he : eol = cs! "\n" ∨ eol = cs! "\r\n" ∨ (eol = cs! "\r" ∧ cs.head? ≠ some '\n')) :
    skip1 b ('\\' :: (eol ++ cs)) = some cs := by
  rcases he with rfl | rfl | ⟨rfl, he⟩
  · simp [skip1]
  · simp [skip1]
  · rw [Ne, head?_iff (by decide)] at he
    simp [skip1, he]

theorem skip1_line {cs r} (he : EndsLine cs r) : skip1 true cs = some r := by
  cases he with
  | lf => simp [skip1]
  | cr he =>
    rw [Ne, head?_iff (by decide)] at he
    simp [skip1, he]
  | crlf => simp [skip1]

theorem Skips.step {b cs r} (h : Skips b cs r) : r = cs ∨ ∃ cs', skip1 b cs = some cs' ∧ Skips b cs' r := by
  cases h with
  | done => exact .inl rfl
  | blank hc h => exact .inr ⟨_, skip1_blank hc, h⟩
  | comment hr hh ht h => exact .inr ⟨_, skip1_comment hr hh ht, h⟩
  | continuation he h => exact .inr ⟨_, skip1_cont he, h⟩
  | line hb he h => subst hb; exact .inr ⟨_, skip1_line he, h⟩

theorem Skips.det {b cs r r'} (h : Skips b cs r) (hs : Stop b r) (h' : Skips b cs r') (hs' : Stop b r') : r = r' := by
  have key : ∀ {cs cs' : List Char}, skip1 b cs = some cs' → Skips b cs r' → Skips b cs' r' := by
    intro cs cs' e h
    rcases h.step with rfl | ⟨c, e', h⟩
    · rw [skip1_none hs'] at e; cases e
    · rw [e] at e'; cases e'; exact h
  induction h with
  | done =>
    rcases h'.step with rfl | ⟨c, e, _⟩
    · rfl
    · rw [skip1_none hs] at e; cases e
  | blank hc _ ih => exact ih hs (key (skip1_blank hc) h')
  | comment hr hh ht _ ih => exact ih hs (key (skip1_comment hr hh ht) h')
  | continuation he _ ih => exact ih hs (key (skip1_cont he) h')
  | line hb he _ ih => subst hb; exact ih hs (key (skip1_line he) h')

/-- There is a gap up to a place where nothing can be skipped. -/
theorem gap_exists (b : Bool) : ∀ (N pos : Nat) (cs : List Char), cs.length ≤ N →
    ∃ ts n, Gap b pos cs ts n ∧ Stop b (cs.drop n) := by
  intro N
  induction N with
  | zero =>
    intro pos cs h
    have : cs = [] := List.length_eq_zero_iff.1 (by omega)
    subst this
    exact ⟨[], 0, .nil, .of_eof rfl⟩
  | succ N ih =>
    intro pos cs h
    by_cases hs : Stop b cs
    · exact ⟨[], 0, .nil, hs⟩
    · by_cases h1 : ∃ t n, HTrivia pos cs t n
      · obtain ⟨t, n, ht⟩ := h1
        have := ht.pos_of
        obtain ⟨ts, m, hg, hst⟩ := ih (pos + n) (cs.drop n) (by simp; omega)
        exact ⟨_, _, .item ht hg, by rw [← List.drop_drop]; exact hst⟩
      · by_cases h2 : b = true ∧ ∃ m, LineEnd cs m
        · obtain ⟨hb, m, hm⟩ := h2
          have := hm.bound
          obtain ⟨ts, k, hg, hst⟩ := ih (pos + m + ((cs.drop m).takeWhile isBlank).length)
            (cs.drop (m + ((cs.drop m).takeWhile isBlank).length)) (by simp; omega)
          exact ⟨_, _, .line hb hm hg, by rw [← List.drop_drop]; exact hst⟩
        · exfalso
          apply hs
          refine ⟨fun p t n ht => h1 ?_, fun hb m hm => h2 ⟨hb, m, hm⟩⟩
          cases ht with
          | spaces h => exact ⟨_, _, .spaces h⟩
          | tab h => exact ⟨_, _, .tab h⟩
          | comment h h' => exact ⟨_, _, .comment h h'⟩
          | cont3 h h' h'' => exact ⟨_, _, .cont3 h h' h''⟩
          | contCR h h' h'' => exact ⟨_, _, .contCR h h' h''⟩
          | contLF h h' => exact ⟨_, _, .contLF h h'⟩

theorem Skips.gap {b cs r} (pos : Nat) (h : Skips b cs r) (hs : Stop b r) : ∃ ts n, Gap b pos cs ts n ∧ r = cs.drop n := by
  obtain ⟨ts, n, hg, hst⟩ := gap_exists b cs.length pos cs (Nat.le_refl _)
  exact ⟨ts, n, hg, h.det hs (skips_of_gap hg) hst⟩

end LG
end Verif
