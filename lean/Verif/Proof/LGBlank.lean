import Verif.Proof.LGConcat
import Verif.Spec.BlankLines

/-!
# Lines without code between two lines
-/

set_option linter.unusedSimpArgs false

namespace Verif
attribute [-simp] List.drop_one List.tail_drop
namespace LG

theorem Skips.append {l cs r s} (h : Skips l cs r) (h' : Skips l r s) : Skips l cs s := by
  induction h with
  | done => exact h'
  | blank hc _ ih => exact .blank hc (ih h')
  | comment h1 h2 h3 _ ih => exact .comment h1 h2 h3 (ih h')
  | continuation he _ ih => exact .continuation he (ih h')
  | line hl he _ ih => exact .line hl he (ih h')

theorem Skips.inLines {l cs r} (h : Skips l cs r) : Skips true cs r := by
  induction h with
  | done => exact .done
  | blank hc _ ih => exact .blank hc ih
  | comment h1 h2 h3 _ ih => exact .comment h1 h2 h3 ih
  | continuation he _ ih => exact .continuation he ih
  | line hl he _ ih => exact .line rfl he ih

theorem skips_indent {l} {w r : List Char} (h : ∀ c ∈ w, c = ' ' ∨ c = '\t') : Skips l (w ++ r) r := by
  induction w with
  | nil => exact .done
  | cons c w ih => exact .blank (h c (by simp)) (ih fun d hd => h d (by simp [hd]))

theorem margin_blanks {cs z : List Char} : ∀ {k col}, LG.margin k cs = (col, z) → ∀ {l}, Skips l cs z := by
  induction cs with
  | nil => intro k col h l; simp [LG.margin] at h; rw [h.2]; exact .done
  | cons c cs ih =>
    intro k col h l
    unfold LG.margin at h
    split at h
    · rename_i e; cases e; exact .blank (.inl rfl) (ih h)
    · rename_i e; cases e; exact .blank (.inr rfl) (ih h)
    · simp at h; rw [h.2]; exact .done

theorem margin_stops {cs z : List Char} : ∀ {k col}, LG.margin k cs = (col, z) → ∀ c, z.head? = some c → c ≠ ' ' ∧ c ≠ '\t' := by
  induction cs with
  | nil => intro k col h c hc; simp [LG.margin] at h; rw [h.2] at hc; cases hc
  | cons d cs ih =>
    intro k col h c hc
    unfold LG.margin at h
    split at h
    · rename_i e; cases e; exact ih h c hc
    · rename_i e; cases e; exact ih h c hc
    · rename_i h1 h2
      simp at h
      rw [← h.2] at hc
      cases hc
      exact ⟨fun e => h1 cs (by rw [e]), fun e => h2 cs (by rw [e])⟩

/-- A line without code: its blanks, and what follows them. -/
theorem margin_noCode {w r : List Char} (hw : ∀ c ∈ w, c = ' ' ∨ c = '\t') (hr : NoCode r) : ∀ k, ∃ col, LG.margin k (w ++ r) = (col, r) := by
  induction w with
  | nil =>
    intro k
    refine ⟨k, ?_⟩
    unfold LG.margin
    rw [List.nil_append]
    split
    · simp [NoCode] at hr
    · simp [NoCode] at hr
    · rfl
  | cons c w ih =>
    intro k
    rcases hw c (by simp) with rfl | rfl
    · exact ih (fun d hd => hw d (by simp [hd])) _
    · exact ih (fun d hd => hw d (by simp [hd])) _

theorem blankLine_skips {w r : List Char} (h : BlankLine w) :
    ∃ col z, LG.margin 0 (w ++ r) = (col, z) ∧ NoCode z ∧ Skips true z r ∧ Skips true (w ++ r) r := by
  cases h with
  | @blank w hw =>
    have hn : NoCode ('\n' :: r) := by simp [NoCode]
    obtain ⟨col, e⟩ := margin_noCode hw hn 0
    have hs : Skips true ('\n' :: r) r := .line rfl .lf .done
    refine ⟨col, _, by simpa using e, hn, hs, ?_⟩
    simpa using (skips_indent (l := true) hw).append hs
  | @comment w txt hw h1 h2 h3 =>
    have hn : NoCode (txt ++ '\n' :: r) := by
      cases txt with
      | nil => cases h1
      | cons c txt => cases h1; simp [NoCode]
    obtain ⟨col, e⟩ := margin_noCode hw hn 0
    have hs : Skips true (txt ++ '\n' :: r) r :=
      .comment (txt := txt) (rest := '\n' :: r) ⟨rfl, h3, by simp⟩ h1 h2 (.line rfl .lf .done)
    refine ⟨col, _, by simpa using e, hn, hs, ?_⟩
    simpa using (skips_indent (l := true) hw).append hs

theorem blankLines_skips {w r : List Char} (h : BlankLines w) :
    ∃ col z, LG.margin 0 (w ++ r) = (col, z) ∧ NoCode z ∧ Skips true z r := by
  have key : ∀ {w}, BlankLines w → Skips true (w ++ r) r := by
    intro w h
    induction h with
    | one h => obtain ⟨_, _, _, _, _, h⟩ := blankLine_skips (r := r) h; exact h
    | @more w v h _ ih =>
      obtain ⟨_, _, _, _, _, h⟩ := blankLine_skips (r := v ++ r) h
      rw [List.append_assoc]
      exact h.append ih
  cases h with
  | one h => obtain ⟨a, b, c, d, e, _⟩ := blankLine_skips (r := r) h; exact ⟨a, b, c, d, e⟩
  | @more w v h h' =>
    obtain ⟨a, b, c, d, e, _⟩ := blankLine_skips (r := v ++ r) h
    rw [List.append_assoc]
    exact ⟨a, b, c, d, e.append (key h')⟩

theorem Next.blankLines [Uni] {p t q w} (hf : p.fresh = true) (hc : p.closers = []) (h : Next p t q) (hw : BlankLines w)
    (ht : t.kind ≠ .Indent ∧ t.kind ≠ .Dedent) : Next (p.setText (w ++ p.text)) t q := by
  obtain ⟨col, z, hm, hn, hs⟩ := blankLines_skips (r := p.text) hw
  have code : ∀ {q0 cs}, Enter p false q0 → Skips false q0.text cs → ∀ r, EndsLine cs r → False := by
    intro q0 cs he hs r hl
    have hno : ∀ {col z}, LG.margin 0 p.text = (col, z) → ¬ NoCode z → Skips false z cs → False := by
      intro col z hm hn hs
      have hb : ∀ c, z.head? = some c → c ≠ ' ' ∧ c ≠ '\t' := margin_stops hm
      cases hs with
      | done =>
        cases hl <;> simp [NoCode] at hn
      | blank hc => rcases hc with rfl | rfl <;> simp at hb
      | @comment _ txt _ _ h1 h2 =>
        obtain ⟨rfl, -⟩ := h1
        cases txt with
        | nil => cases h2
        | cons d txt => cases h2; simp [NoCode] at hn
      | continuation => simp [NoCode] at hn
      | line h => cases h
    cases he with
    | mid h => rw [hf] at h; cases h
    | brackets _ _ _ h => exact h hc
    | same _ h1 h2 => exact hno h1 h2 hs
    | deeper _ h1 h2 => exact hno h1 h2 hs
    | shallower _ h1 h2 => exact hno h1 h2 hs
  cases h with
  | dedent => exact absurd rfl ht.2
  | indent => exact absurd rfl ht.1
  | newline he _ _ hs hl => exact (code he hs _ hl).elim
  | @word bl q0 cs t st r he ho hs2 hw =>
    have hen : Enter (p.setText (w ++ p.text)) true { p with fresh := false, text := z } := Enter.noCode hf hm hn
    have fin : ∀ {z2}, Skips true p.text z2 → Skips (bl || !q0.closers.isEmpty) z2 cs → Skips true z cs :=
      fun h1 h2 => (hs.append h1).append h2.inLines
    cases he with
    | mid h => rw [hf] at h; cases h
    | brackets _ _ _ h => exact absurd hc h
    | noCode _ h1 =>
      have hx := fin (margin_blanks h1) hs2
      exact Next.word (p := p.setText (w ++ p.text)) (q := { p with fresh := false, text := z }) hen ho hx hw
    | same _ h1 =>
      have hx := fin (margin_blanks h1) hs2
      exact Next.word (p := p.setText (w ++ p.text)) (q := { p with fresh := false, text := z }) hen ho hx hw
    | deeper _ h1 => cases ho
    | @shallower _ _ out _ _ _ h1 _ _ _ h3 =>
      cases out with
      | nil => exact absurd rfl h3
      | cons => simp at ho; omega

/-- A line end that is a symbol does not depend on the text after it, if it is a line feed and not a part of CR LF. -/
theorem Next.newlineSwap [Uni] {p t q} {b r r' : List Char} (h : Next p t q) (ht : t.kind = .Newline) (hp : p.text = b ++ '\n' :: r)
    (hb : b.getLast? ≠ some '\r') (hq : q.text = r) :
    q.fresh = true ∧ q.closers = [] ∧ Next (p.setText (b ++ '\n' :: r')) t (q.setText r') := by
  cases h with
  | dedent => cases ht
  | indent => cases ht
  | word _ _ _ hw => exact absurd ht hw.notLayout.1
  | @newline q cs _ he ho hc hs hl =>
    dsimp only at hq
    have hq' := hq.symm
    subst hq'
    refine ⟨rfl, hc, ?_⟩
    obtain ⟨w1, e1⟩ := he.suffix
    obtain ⟨w2, e2⟩ := hs.suffix
    have key : ∃ x, cs = x ++ '\n' :: r ∧ EndsLine (x ++ '\n' :: r') r' := by
      rw [hp, e2] at e1
      cases hl with
      | lf => exact ⟨[], rfl, .lf⟩
      | cr =>
        have := congrArg List.reverse e1
        simp at this
      | @crlf cs =>
        cases cs with
        | nil =>
          have e3 : b ++ ['\n'] = (w1 ++ (w2 ++ ['\r'])) ++ ['\n'] := by simpa using e1
          have h2 : b.getLast? = some '\r' := by rw [List.append_cancel_right e3]; simp
          exact absurd h2 hb
        | cons c cs =>
          have h2 : (b ++ ['\n']) = (w1 ++ w2 ++ ['\r', '\n', c]) := by
            apply List.append_cancel_right (bs := cs)
            simpa using e1
          have h3 := congrArg List.getLast? h2
          simp at h3
          subst h3
          exact ⟨['\r', '\n'], rfl, .crlf⟩
    obtain ⟨x, rfl, hl'⟩ := key
    obtain ⟨w', e3, hs'⟩ := hs.swapLine (r' := r')
    rw [← List.append_assoc] at e3 hs'
    obtain ⟨y, e4, he'⟩ := he.swapLine (r' := r') e3
    have : y = b := by
      rw [hp] at e4
      exact (List.append_cancel_right e4).symm
    subst this
    exact Next.newline (p := p.setText (y ++ '\n' :: r')) (q := q.setText (w' ++ x ++ '\n' :: r')) he' ho hc
      (by simpa using hs') hl'

theorem Next.newline_lt [Uni] {p t q} (h : Next p t q) (ht : t.kind = .Newline) : q.text.length < p.text.length := by
  cases h with
  | dedent => cases ht
  | indent => cases ht
  | word _ _ _ hw => exact absurd ht hw.notLayout.1
  | newline he _ _ hs hl =>
    obtain ⟨w1, e1⟩ := he.suffix
    obtain ⟨w2, e2⟩ := hs.suffix
    have h1 := congrArg List.length e1
    have h2 := congrArg List.length e2
    cases hl <;> simp at h1 h2 ⊢ <;> omega

theorem Run.snoc [Uni] {ts : List Token} {t : Token} : ∀ {p q}, Run p (ts ++ [t]) q → ∃ q', Run p ts q' ∧ Next q' t q := by
  induction ts with
  | nil => intro p q h; cases h with | cons h1 h2 => cases h2; exact ⟨_, .nil, h1⟩
  | cons u ts ih =>
    intro p q h
    cases h with
    | cons h1 h2 => obtain ⟨q', h3, h4⟩ := ih h2; exact ⟨q', .cons h1 h3, h4⟩

theorem Run.concat [Uni] {ts : List Token} {t : Token} : ∀ {p q r}, Run p ts q → Next q t r → Run p (ts ++ [t]) r := by
  induction ts with
  | nil => intro p q r h h'; cases h; exact .cons h' .nil
  | cons u ts ih =>
    intro p q r h h'
    cases h with
    | cons h1 h2 => exact .cons h1 (ih h2 h')

theorem Run.suffix [Uni] {ts : List Token} : ∀ {p q}, Run p ts q → ∃ w, p.text = w ++ q.text := by
  induction ts with
  | nil => intro p q h; cases h; exact ⟨[], rfl⟩
  | cons u ts ih =>
    intro p q h
    cases h with
    | cons h1 h2 =>
      obtain ⟨w, e⟩ := h1.suffix
      obtain ⟨v, e'⟩ := ih h2
      exact ⟨w ++ v, by rw [e, e', List.append_assoc]⟩

/-- The symbols up to the start of a line do not depend on the text after it. -/
theorem Run.lineSwap [Uni] {ts : List Token} {p q} {a r r' : List Char} (h : Run p ts q) (ha : BeforeLine a ts) (hp : p.text = a ++ r)
    (hq : q.text = r) (hf : p.fresh = true) (hc : p.closers = []) :
    q.fresh = true ∧ q.closers = [] ∧ Run (p.setText (a ++ r')) ts (q.setText r') := by
  rcases ha with ⟨rfl, rfl⟩ | ⟨b, us, t, rfl, h1, rfl, h2⟩
  · cases h
    exact ⟨hf, hc, .nil⟩
  · obtain ⟨q', h3, h4⟩ := h.snoc
    obtain ⟨v, e⟩ := h3.suffix
    obtain ⟨w, e'⟩ := h4.suffix
    have : ∃ x, q'.text = x ++ '\n' :: r ∧ x.getLast? ≠ some '\r' := by
      rw [hp, e', hq] at e
      have e2 : v ++ w = b ++ ['\n'] := by
        apply List.append_cancel_right (bs := r)
        simpa using e.symm
      have hw : w ≠ [] := by
        rintro rfl
        have := h4.newline_lt h2
        rw [e'] at this
        simp at this
      obtain ⟨x, c, rfl⟩ : ∃ x c, w = x ++ [c] := ⟨_, _, (List.dropLast_concat_getLast hw).symm⟩
      rw [← List.append_assoc] at e2
      obtain ⟨rfl, e5⟩ := List.append_inj' e2 rfl
      cases e5
      refine ⟨x, by rw [e', hq]; simp, fun hx => h1 ?_⟩
      rw [List.getLast?_append, hx]
      rfl
    obtain ⟨x, e2, hx⟩ := this
    obtain ⟨g1, g2, g3⟩ := h4.newlineSwap (r' := r') h2 e2 hx hq
    refine ⟨g1, g2, ?_⟩
    obtain ⟨y, e3, h5⟩ := h3.swapLine (r' := r') e2
    have : y = b := by
      rw [hp] at e3
      apply (List.append_cancel_right (bs := '\n' :: r) (by simpa using e3)).symm
    subst this
    have := h5.concat g3
    simpa using this

end LG
end Verif
