import Verif.Proof.Balance

/-!
# Where the sentence of a statement can be cut

`XC` are the derivations in which an arbitrary token (the second colon of a slice) is no line structure symbol; the
sentences of accepted files have such derivations.  In the sentence of a statement, after the end of a line or of a block
that is at the level of the statement, there comes an indent, a type comment, or `elif`, `else`, `except` or `finally`.
-/

namespace Verif
open XR X

/-- Derivations without the state and the tests, and with no line structure symbol for an arbitrary token. -/
inductive XC : XR → List Token → Prop
  | eps : XC .eps []
  | k {K t} : t.kind = K → XC (.k K) [t]
  | any {t} : t.kind.isLayout = false → XC .any [t]
  | n {p ts} : XC (pRule p) ts → XC (.n p) ts
  | seq {a b ts us} : XC a ts → XC b us → XC (a ⬝ b) (ts ++ us)
  | left {a b ts} : XC a ts → XC (a ∥ b) ts
  | right {a b ts} : XC b ts → XC (a ∥ b) ts
  | absent {a} : XC (.opt a) []
  | present {a ts} : XC a ts → XC (.opt a) ts
  | stop {a} : XC (.star a) []
  | more {a ts us} : XC a ts → XC (.star a) us → XC (.star a) (ts ++ us)
  | only {p a ts} : XC a ts → XC (.only p a) ts
  | mark {m} : XC (.mark m) []

/-- Line structure symbols occur only outside brackets, if `d` are open before `ts`. -/
def Outside (d : Int) (ts : List Token) : Prop := ∀ p t s, ts = p ++ t :: s → t.kind.isLayout = true → d + brSum p = 0

theorem Outside.left {d ts us} (h : Outside d (ts ++ us)) : Outside d ts := by
  rintro p t s rfl ht
  exact h p t (s ++ us) (by simp) ht

theorem Outside.right {d ts us} (h : Outside d (ts ++ us)) : Outside (d + brSum ts) us := by
  rintro p t s rfl ht
  have := h (ts ++ p) t s (by simp) ht
  rw [brSum_append] at this
  omega

theorem XN.toXC {h r x ts y} (d : XN h r x ts y) :
    (r.fine = true → r.Tests → ∀ e, brSum ts = r.ub → r.ok e = true → Outside e ts → XC r ts) ∧
      ∀ a, r = .seq a .any → ∃ us t, ts = us ++ [t] ∧ (us = [] → a.null = true) ∧ (a.fine = true → a.Tests → Bal a us) ∧
      (a.fine = true → a.Tests → ∀ e, brSum us = a.ub → a.ok e = true → Outside e us → XC a us) := by
  induction d with
  | eps => exact ⟨fun _ _ _ _ _ _ => .eps, by simp⟩
  | mark => exact ⟨fun _ _ _ _ _ _ => .mark, by simp⟩
  | k hk => exact ⟨fun _ _ _ _ _ _ => .k hk, by simp⟩
  | @any _ t _ =>
    refine ⟨fun _ _ e _ ho hl => .any ?_, by simp⟩
    simp only [XR.ok, decide_eq_true_eq] at ho
    cases hk : t.kind.isLayout with
    | false => rfl
    | true =>
      have := hl [] t [] rfl hk
      simp [brSum] at this
      omega
  | @n _ p _ ts _ d ih =>
    refine ⟨fun _ _ e he ho hl => ?_, by simp⟩
    obtain ⟨f1, f2, f3, f4⟩ := p.table_fine
    obtain ⟨h1, -⟩ := d.balance.1 f1 p.table_tests
    rw [XR.ub] at he
    simp only [XR.ok, decide_eq_true_eq] at ho
    exact .n (ih.1 f1 p.table_tests e (by omega) (XR.ok_mono _ ho f4) hl)
  | @seq _ a b _ ts' _ us' _ d1 d2 ih1 ih2 =>
    refine ⟨fun hf ht e he ho hl => ?_, ?_⟩
    · simp only [XR.fine, Bool.and_eq_true] at hf
      obtain ⟨b1, -⟩ := d1.balance.1 hf.1 ht.1
      obtain ⟨b2, -⟩ := d2.balance.1 hf.2 ht.2
      simp only [XR.ok, Bool.and_eq_true] at ho
      rw [brSum_append, XR.ub] at he
      have e1 : brSum ts' = a.ub := by omega
      refine .seq (ih1.1 hf.1 ht.1 e e1 ho.1 hl.left) (ih2.1 hf.2 ht.2 (e + a.ub) (by omega) ho.2 ?_)
      rw [← e1]; exact hl.right
    · rintro a he
      cases he
      cases d2
      exact ⟨_, _, rfl, d1.null, d1.balance.1, ih1.1⟩
  | left d ih =>
    refine ⟨fun hf ht e he ho hl => ?_, by simp⟩
    simp only [XR.fine, Bool.and_eq_true, beq_iff_eq] at hf
    simp only [XR.ok, Bool.and_eq_true] at ho
    obtain ⟨h1, -⟩ := d.balance.1 hf.1.1 ht.1
    rw [XR.ub] at he
    exact .left (ih.1 hf.1.1 ht.1 e (by omega) ho.1 hl)
  | right d ih =>
    refine ⟨fun hf ht e he ho hl => ?_, by simp⟩
    simp only [XR.fine, Bool.and_eq_true, beq_iff_eq] at hf
    simp only [XR.ok, Bool.and_eq_true] at ho
    obtain ⟨h1, -⟩ := d.balance.1 hf.1.2 ht.2
    rw [XR.ub] at he
    exact .right (ih.1 hf.1.2 ht.2 e (by omega) ho.2 hl)
  | absent => exact ⟨fun _ _ _ _ _ _ => .absent, by simp⟩
  | present d ih =>
    refine ⟨fun hf ht e he ho hl => ?_, by simp⟩
    simp only [XR.fine, Bool.and_eq_true, beq_iff_eq] at hf
    obtain ⟨h1, -⟩ := d.balance.1 hf.1 ht
    rw [XR.ub] at he
    exact .present (ih.1 hf.1 ht e (by omega) ho hl)
  | stop => exact ⟨fun _ _ _ _ _ _ => .stop, by simp⟩
  | @more _ a _ ts' _ us' _ d1 d2 ih1 ih2 =>
    refine ⟨fun hf ht e he ho hl => ?_, by simp⟩
    obtain ⟨b2, -⟩ := d2.balance.1 hf ht
    have hf' := hf
    simp only [XR.fine, Bool.and_eq_true, beq_iff_eq] at hf
    obtain ⟨b1, -⟩ := d1.balance.1 hf.1.1 ht
    rw [brSum_append] at he
    rw [XR.ub] at he b2
    have hu := hf.2
    have e1 : brSum ts' = 0 := by omega
    refine .more (ih1.1 hf.1.1 ht e (by omega) ho hl.left) (ih2.1 hf' ht e (by rw [XR.ub]; omega) ho ?_)
    have := hl.right
    rw [e1, Int.add_zero] at this
    exact this
  | @only _ p a _ ts _ d hp ih =>
    refine ⟨fun hf ht e he ho hl => ?_, by simp⟩
    rcases only_cases p a with ⟨b, rfl⟩ | ⟨e1, e2⟩
    · obtain ⟨us, t, rfl, hn, ib, ic⟩ := ih.2 b rfl
      obtain ⟨rfl, hnull, hb⟩ := ht
      simp only [XR.fine, Bool.and_eq_true] at hf
      obtain ⟨h1, -⟩ := ib hf.1 hb
      have hu : us ≠ [] := by
        intro e
        rw [hn e] at hnull
        cases hnull
      have ht := separate_last hu hp
      have e1 : brSum (us ++ [t]) = brSum us + t.kind.br := by simp [brSum]
      rw [XR.ub, e1] at he
      simp only [XR.ok, Bool.and_eq_true, decide_eq_true_eq] at ho
      refine .only (.seq (ic hf.1 hb e (by omega) ho.1 hl.left) (.any ?_))
      cases hk : t.kind.isLayout with
      | false => rfl
      | true =>
        have := hl us t [] rfl hk
        omega
    · rw [e2] at ht
      rw [e1] at he
      exact .only (ih.1 hf ht e he ho hl)

theorem XC.null {r ts} (d : XC r ts) (e : ts = []) : r.null = true := by
  induction d with
  | eps | absent | stop | mark => rfl
  | k | any => cases e
  | n _ ih => have := ih e; rw [PN.null_table] at this; cases this
  | seq _ _ ih1 ih2 =>
    obtain ⟨e1, e2⟩ := List.append_eq_nil_iff.1 e
    simp [XR.null, ih1 e1, ih2 e2]
  | left _ ih | right _ ih => simp [XR.null, ih e]
  | present | more => rfl
  | only _ ih => exact ih e

theorem XC.first {r ts} (d : XC r ts) : ∀ t us, ts = t :: us → r.first t.kind = true := by
  induction d with
  | eps | absent | stop | mark => intro t us e; cases e
  | k hk => intro t us e; cases e; simp [XR.first, hk]
  | any => intro t us e; rfl
  | n _ ih => intro t us e; exact PN.first_table _ _ (ih t us e)
  | @seq _ _ ts' _ d1 _ ih1 ih2 =>
    intro t us e
    cases ts' with
    | nil => simp [XR.first, d1.null rfl, ih2 t us e]
    | cons s ts' => cases e; simp [XR.first, ih1 _ _ rfl]
  | left _ ih | right _ ih => intro t us e; simp [XR.first, ih t us e]
  | present _ ih | only _ ih => intro t us e; exact ih t us e
  | @more _ ts' _ d1 _ ih1 ih2 =>
    intro t us e
    cases ts' with
    | nil => exact ih2 t us e
    | cons s ts' => cases e; exact ih1 _ _ rfl

/-- The end of a line or of a block. -/
def Kind.lineEnd (k : Kind) : Bool := k == .Newline || k == .Dedent

/-- What comes after the end of a line or block inside a statement. -/
def Kind.inside (k : Kind) : Bool := [Kind.Indent, .TypeComment, .PyElif, .PyElse, .PyExcept, .PyFinally].contains k

def PN.input : PN → Bool
  | .file_input | .eval_input | .single_input | .func_type_input => true
  | _ => false

/-- The sentences do not end with the end of a line or block. -/
def XR.noEnd : XR → Bool
  | .eps | .mark _ | .any => true
  | .k x => !x.lineEnd
  | .n p => !p.closed && !p.input
  | .seq a b => b.noEnd && (a.noEnd || !b.null)
  | .alt a b => a.noEnd && b.noEnd
  | .opt a | .star a | .only _ a => a.noEnd

theorem PN.noEnd_table : ∀ p : PN, (!p.closed && !p.input) = true → (pRule p).noEnd = true := by decide +kernel

theorem XC.noEnd {r ts} (d : XC r ts) : r.noEnd = true → ∀ l, ts.getLast? = some l → l.kind.lineEnd = false := by
  induction d with
  | eps | absent | stop | mark => intro _ l e; cases e
  | k hk =>
    intro hr l e; cases e; simp only [List.getLast_singleton, hk]
    simpa [XR.noEnd] using hr
  | @any t ht =>
    intro _ l e; cases e
    simp only [List.getLast_singleton]
    generalize t.kind = k at ht
    revert ht; revert k; decide +kernel
  | n d ih => intro hr; exact ih (PN.noEnd_table _ hr)
  | seq d1 d2 ih1 ih2 | more d1 d2 ih1 ih2 =>
    rename_i u v
    intro hr l e
    rw [List.getLast?_append] at e
    cases hv : v.getLast? with
    | some l' =>
      rw [hv] at e; cases e
      first | exact ih2 hr _ hv | exact ih2 (by simp only [XR.noEnd, Bool.and_eq_true] at hr; exact hr.1) _ hv
    | none =>
      rw [hv] at e
      have hn := d2.null (List.getLast?_eq_none_iff.1 hv)
      first
        | exact ih1 hr _ e
        | (refine ih1 ?_ _ e
           simp only [XR.noEnd, hn, Bool.and_eq_true, Bool.not_true, Bool.or_false] at hr
           exact hr.2)
  | left d ih => intro hr; exact ih (by simp only [XR.noEnd, Bool.and_eq_true] at hr; exact hr.1)
  | right d ih => intro hr; exact ih (by simp only [XR.noEnd, Bool.and_eq_true] at hr; exact hr.2)
  | present d ih => intro hr; exact ih hr
  | only d ih => intro hr; exact ih hr

/-- Each kind `r` may start with comes after the end of a line or block inside a statement. -/
def XR.firstInside (r : XR) : Bool := Kind.all.all fun x => !r.first x || x.inside

theorem XR.firstInside_spec {r : XR} (h : r.firstInside = true) {x : Kind} (hx : r.first x = true) : x.inside = true := by
  have := List.all_eq_true.1 h x x.mem_all
  simpa [hx] using this

/-- The static check: `c` blocks are open before `r`. -/
def XR.cut : Int → XR → Bool
  | _, .eps | _, .mark _ | _, .any => true
  | c, .k x => 0 ≤ c + x.ind
  | _, .n p => !p.input
  | c, .seq a b => a.cut c && b.cut (c + a.net) && (0 < c + a.net || a.noEnd || b.firstInside)
  | c, .alt a b => a.cut c && b.cut c && a.net == b.net
  | c, .opt a => a.cut c && a.net == 0
  | c, .star a => a.cut c && a.net == 0 && (0 < c || a.noEnd || a.firstInside)
  | c, .only _ a => a.cut c

theorem PN.cut_table : ∀ p : PN, p.input = false → (pRule p).cut 0 = true ∧ (pRule p).net = 0 := by decide +kernel

/-- With `c` blocks open before `ts`: none of those before is closed, and after the end of a line or block with none open
there comes something that belongs inside a statement. -/
def Cut (c : Int) (ts : List Token) : Prop :=
  ∀ u v, ts = u ++ v → 0 ≤ c + indSum u ∧
    (c + indSum u = 0 → ∀ t, u.getLast? = some t → t.kind.lineEnd = true → ∀ w, v.head? = some w → w.kind.inside = true)

theorem Cut.mono {c d : Int} {ts} (h : Cut c ts) (hd : c ≤ d) : Cut d ts := by
  intro u v e
  obtain ⟨h1, h2⟩ := h u v e
  refine ⟨by omega, fun h0 => h2 (by omega)⟩

theorem Cut.append {c : Int} {ts us} (h1 : Cut c ts) (h2 : Cut (c + indSum ts) us)
    (hb : c + indSum ts = 0 → ∀ t, ts.getLast? = some t → t.kind.lineEnd = true → ∀ w, us.head? = some w → w.kind.inside = true) :
    Cut c (ts ++ us) := by
  intro u v e
  rcases List.append_eq_append_iff.1 e with ⟨as, rfl, rfl⟩ | ⟨bs, rfl, rfl⟩
  · obtain ⟨g1, g2⟩ := h2 as v rfl
    rw [indSum_append]
    refine ⟨by omega, fun h0 t ht hk w hw => ?_⟩
    cases as with
    | nil =>
      simp only [List.append_nil] at ht
      exact hb (by simpa [indSum] using h0) t ht hk w (by simpa using hw)
    | cons a as =>
      rw [List.getLast?_append] at ht
      cases hl : (a :: as).getLast? with
      | none => simp at hl
      | some y =>
        rw [hl] at ht
        exact g2 (by omega) t (by rw [hl]; simpa using ht) hk w hw
  · obtain ⟨g1, g2⟩ := h1 u bs rfl
    refine ⟨g1, fun h0 t ht hk w hw => ?_⟩
    cases bs with
    | nil =>
      simp only [List.append_nil] at hb
      exact hb h0 t ht hk w (by simpa using hw)
    | cons b bs => exact g2 h0 t ht hk w (by simpa using hw)

theorem XC.cutNet {r ts} (d : XC r ts) : ∀ c : Int, 0 ≤ c → r.cut c = true → Cut c ts ∧ indSum ts = r.net := by
  have nil : ∀ c : Int, 0 ≤ c → Cut c [] := by
    intro c hc u v e
    obtain ⟨rfl, rfl⟩ := List.append_eq_nil_iff.1 e.symm
    exact ⟨by simpa [indSum] using hc, by simp⟩
  have one : ∀ (c : Int) (t : Token), 0 ≤ c → 0 ≤ c + t.kind.ind → Cut c [t] := by
    intro c t hc ht u v e
    cases u with
    | nil => exact ⟨by simpa [indSum] using hc, by simp⟩
    | cons x u =>
      simp only [List.cons_append, List.cons.injEq] at e
      obtain ⟨rfl, e⟩ := e
      obtain ⟨rfl, rfl⟩ := List.append_eq_nil_iff.1 e.symm
      exact ⟨by simpa [indSum] using ht, by simp⟩
  induction d with
  | eps | mark => intro c hc _; exact ⟨nil c hc, rfl⟩
  | @k K t hk =>
    intro c hc h
    simp only [XR.cut, decide_eq_true_eq] at h
    exact ⟨one c t hc (by rw [hk]; exact h), by simp [indSum, XR.net, hk]⟩
  | @any t ht =>
    intro c hc _
    have := ind_of_not_layout _ ht
    exact ⟨one c t hc (by omega), by simp [indSum, XR.net, this]⟩
  | @n p ts d ih =>
    intro c hc h
    simp only [XR.cut, Bool.not_eq_true'] at h
    obtain ⟨t1, t2⟩ := p.cut_table h
    obtain ⟨i1, i2⟩ := ih 0 (by omega) t1
    exact ⟨i1.mono hc, by rw [i2, t2]; rfl⟩
  | @seq a b ts us d1 d2 ih1 ih2 =>
    intro c hc h
    simp only [XR.cut, Bool.and_eq_true, Bool.or_eq_true, decide_eq_true_eq] at h
    obtain ⟨⟨h1, h2⟩, h3⟩ := h
    obtain ⟨i1, i2⟩ := ih1 c hc h1
    have hc' := (i1 ts [] (by simp)).1
    rw [i2] at hc'
    obtain ⟨j1, j2⟩ := ih2 (c + a.net) hc' h2
    refine ⟨i1.append (by rw [i2]; exact j1) (fun h0 t ht hk w hw => ?_), by rw [indSum_append, i2, j2]; rfl⟩
    rw [i2] at h0
    rcases h3 with (h3 | h3) | h3
    · omega
    · rw [d1.noEnd h3 t ht] at hk; cases hk
    · cases us with
      | nil => cases hw
      | cons w' us => cases hw; exact XR.firstInside_spec h3 (d2.first _ _ rfl)
  | left _ ih =>
    intro c hc h
    simp only [XR.cut, Bool.and_eq_true, beq_iff_eq] at h
    exact ih c hc h.1.1
  | right _ ih =>
    intro c hc h
    simp only [XR.cut, Bool.and_eq_true, beq_iff_eq] at h
    obtain ⟨i1, i2⟩ := ih c hc h.1.2
    exact ⟨i1, by rw [i2, ← h.2]; rfl⟩
  | absent => intro c hc _; exact ⟨nil c hc, rfl⟩
  | present _ ih =>
    intro c hc h
    simp only [XR.cut, Bool.and_eq_true, beq_iff_eq] at h
    obtain ⟨i1, i2⟩ := ih c hc h.1
    exact ⟨i1, by rw [i2, h.2]; rfl⟩
  | stop => intro c hc _; exact ⟨nil c hc, rfl⟩
  | @more a ts us d1 d2 ih1 ih2 =>
    intro c hc h
    obtain ⟨j1, j2⟩ := ih2 c hc h
    simp only [XR.cut, Bool.and_eq_true, beq_iff_eq, Bool.or_eq_true, decide_eq_true_eq] at h
    obtain ⟨⟨h1, h2⟩, h3⟩ := h
    obtain ⟨i1, i2⟩ := ih1 c hc h1
    rw [h2] at i2
    refine ⟨i1.append (by rw [i2, Int.add_zero]; exact j1) (fun h0 t ht hk w hw => ?_), by rw [indSum_append, i2, j2]; rfl⟩
    rcases h3 with (h3 | h3) | h3
    · omega
    · rw [d1.noEnd h3 t ht] at hk; cases hk
    · cases us with
      | nil => cases hw
      | cons w' us =>
        cases hw
        have := d2.first _ _ rfl
        exact XR.firstInside_spec (r := a) h3 this
  | only _ ih => intro c hc h; exact ih c hc h

/-- Items of a list, each of which is a line end or a statement, can be cut where a line or block ends and the next token does
not belong inside a statement. -/
theorem XN.starCut {h x as y} (d : XN h (star (.k .Newline ∥ .n .stmt)) x as y) :
    brSum as = 0 → Outside 0 as → ∀ ts us, as = ts ++ us → indSum ts = 0 → (∀ t, ts.getLast? = some t → t.kind.lineEnd = true) →
      (∀ w, us.head? = some w → w.kind.inside = false) →
      ∃ z, XN h (star (.k .Newline ∥ .n .stmt)) x ts z ∧ XN h (star (.k .Newline ∥ .n .stmt)) z us y := by
  refine XN.star_ind (P := fun x as y => brSum as = 0 → Outside 0 as → ∀ ts us, as = ts ++ us → indSum ts = 0 →
      (∀ t, ts.getLast? = some t → t.kind.lineEnd = true) → (∀ w, us.head? = some w → w.kind.inside = false) →
      ∃ z, XN h (star (.k .Newline ∥ .n .stmt)) x ts z ∧ XN h (star (.k .Newline ∥ .n .stmt)) z us y) ?_ ?_ d
  · intro x _ _ ts us e _ _ _
    obtain ⟨rfl, rfl⟩ := List.append_eq_nil_iff.1 e.symm
    exact ⟨x, .stop, .stop⟩
  · intro x p z q y d1 d2 ih hbr ho ts us e hi hl hu
    have hf : (XR.k .Newline ∥ XR.n .stmt).fine = true := by decide
    have ht : (XR.k .Newline ∥ XR.n .stmt).Tests := ⟨trivial, trivial⟩
    obtain ⟨b1, -⟩ := d1.balance.1 hf ht
    obtain ⟨b2, -⟩ := d2.balance.1 (by decide) ht
    have u1 : (XR.k .Newline ∥ XR.n .stmt).ub = 0 := by decide
    have u2 : (star (XR.k .Newline ∥ XR.n .stmt)).ub = 0 := rfl
    rw [u1] at b1
    rw [u2] at b2
    rw [brSum_append] at hbr
    have e1 : brSum p = 0 := by omega
    have xl := d1.toXC.1 hf ht 0 (by rw [u1]; exact e1) (by decide) ho.left
    obtain ⟨c1, c2⟩ := xl.cutNet 0 (by omega) (by decide)
    rw [show (XR.k .Newline ∥ XR.n .stmt).net = 0 by decide] at c2
    have ho' := ho.right
    rw [e1, Int.add_zero] at ho'
    rcases List.append_eq_append_iff.1 e with ⟨as, rfl, rfl⟩ | ⟨bs, rfl, rfl⟩
    · rw [indSum_append, c2, Int.zero_add] at hi
      obtain ⟨w, g1, g2⟩ := ih (by omega) ho' as us rfl hi (fun t ht => hl t (by rw [List.getLast?_append, ht]; rfl)) hu
      exact ⟨w, .more d1 g1, g2⟩
    · rcases List.eq_nil_or_concat ts with rfl | ⟨ts, t, rfl⟩
      · exact ⟨x, .stop, by simpa using XN.more d1 d2⟩
      · rw [List.concat_eq_append] at *
        cases bs with
        | nil =>
          rw [List.append_nil] at d1
          exact ⟨z, by simpa using XN.more d1 .stop, by simpa using d2⟩
        | cons b bs =>
          have := (c1 (ts ++ [t]) (b :: bs) rfl).2 (by omega) t (by simp) (hl t (by simp)) b rfl
          rw [hu b (by simp)] at this
          cases this

end Verif
