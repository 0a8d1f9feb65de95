import Verif.Proof.Cut
import Verif.Props.Concat

/-!
# Replacing the body of a block inside a sentence of the exact grammar
-/

namespace Verif
open XR X

/-- Derivations with no line structure symbol for an arbitrary token. -/
inductive XS : XR → ExcStatus → List Token → ExcStatus → Prop
  | eps {x} : XS .eps x [] x
  | k {K t x} : t.kind = K → XS (.k K) x [t] x
  | any {t x} : t.kind.isLayout = false → XS .any x [t] x
  | n {p x ts y} : XS (pRule p) x ts y → XS (.n p) x ts y
  | seq {a b x ts z us y} : XS a x ts z → XS b z us y → XS (a ⬝ b) x (ts ++ us) y
  | left {a b x ts y} : XS a x ts y → XS (a ∥ b) x ts y
  | right {a b x ts y} : XS b x ts y → XS (a ∥ b) x ts y
  | absent {a x} : XS (.opt a) x [] x
  | present {a x ts y} : XS a x ts y → XS (.opt a) x ts y
  | stop {a x} : XS (.star a) x [] x
  | more {a x ts z us y} : XS a x ts z → XS (.star a) z us y → XS (.star a) x (ts ++ us) y
  | only {p a x ts y} : XS a x ts y → p ts = true → XS (.only p a) x ts y
  | mark {m x y} : m.act x = some y → XS (.mark m) x [] y

theorem XN.toXS {h r x ts y} (d : XN h r x ts y) :
    (r.fine = true → r.Tests → ∀ e, brSum ts = r.ub → r.ok e = true → Outside e ts → XS r x ts y) ∧
      ∀ a, r = .seq a .any → ∃ us t z, ts = us ++ [t] ∧ z = y ∧ (us = [] → a.null = true) ∧ (a.fine = true → a.Tests → Bal a us) ∧
      (a.fine = true → a.Tests → ∀ e, brSum us = a.ub → a.ok e = true → Outside e us → XS a x us z) := by
  induction d with
  | eps => exact ⟨fun _ _ _ _ _ _ => .eps, by simp⟩
  | mark => exact ⟨fun _ _ _ _ _ _ => .mark ‹_›, by simp⟩
  | k hk => exact ⟨fun _ _ _ _ _ _ => .k hk, by simp⟩
  | @any _ t _ =>
    refine ⟨fun _ _ e _ ho hl => .any ?_, by simp⟩
    simp only [XR.ok, decide_eq_true_eq] at ho
    cases hk : t.kind.isLayout with
    | false => rfl
    | true =>
      have := hl [] t [] rfl hk
      simp [brSum] at this
      omega
  | @n _ p _ ts _ d ih =>
    refine ⟨fun _ _ e he ho hl => ?_, by simp⟩
    obtain ⟨f1, f2, f3, f4⟩ := p.table_fine
    obtain ⟨h1, -⟩ := d.balance.1 f1 p.table_tests
    rw [XR.ub] at he
    simp only [XR.ok, decide_eq_true_eq] at ho
    exact .n (ih.1 f1 p.table_tests e (by omega) (XR.ok_mono _ ho f4) hl)
  | @seq _ a b _ ts' _ us' _ d1 d2 ih1 ih2 =>
    refine ⟨fun hf ht e he ho hl => ?_, ?_⟩
    · simp only [XR.fine, Bool.and_eq_true] at hf
      obtain ⟨b1, -⟩ := d1.balance.1 hf.1 ht.1
      obtain ⟨b2, -⟩ := d2.balance.1 hf.2 ht.2
      simp only [XR.ok, Bool.and_eq_true] at ho
      rw [brSum_append, XR.ub] at he
      have e1 : brSum ts' = a.ub := by omega
      refine .seq (ih1.1 hf.1 ht.1 e e1 ho.1 hl.left) (ih2.1 hf.2 ht.2 (e + a.ub) (by omega) ho.2 ?_)
      rw [← e1]; exact hl.right
    · rintro a he
      cases he
      cases d2
      exact ⟨_, _, _, rfl, rfl, d1.null, d1.balance.1, ih1.1⟩
  | left d ih =>
    refine ⟨fun hf ht e he ho hl => ?_, by simp⟩
    simp only [XR.fine, Bool.and_eq_true, beq_iff_eq] at hf
    simp only [XR.ok, Bool.and_eq_true] at ho
    obtain ⟨h1, -⟩ := d.balance.1 hf.1.1 ht.1
    rw [XR.ub] at he
    exact .left (ih.1 hf.1.1 ht.1 e (by omega) ho.1 hl)
  | right d ih =>
    refine ⟨fun hf ht e he ho hl => ?_, by simp⟩
    simp only [XR.fine, Bool.and_eq_true, beq_iff_eq] at hf
    simp only [XR.ok, Bool.and_eq_true] at ho
    obtain ⟨h1, -⟩ := d.balance.1 hf.1.2 ht.2
    rw [XR.ub] at he
    exact .right (ih.1 hf.1.2 ht.2 e (by omega) ho.2 hl)
  | absent => exact ⟨fun _ _ _ _ _ _ => .absent, by simp⟩
  | present d ih =>
    refine ⟨fun hf ht e he ho hl => ?_, by simp⟩
    simp only [XR.fine, Bool.and_eq_true, beq_iff_eq] at hf
    obtain ⟨h1, -⟩ := d.balance.1 hf.1 ht
    rw [XR.ub] at he
    exact .present (ih.1 hf.1 ht e (by omega) ho hl)
  | stop => exact ⟨fun _ _ _ _ _ _ => .stop, by simp⟩
  | @more _ a _ ts' _ us' _ d1 d2 ih1 ih2 =>
    refine ⟨fun hf ht e he ho hl => ?_, by simp⟩
    obtain ⟨b2, -⟩ := d2.balance.1 hf ht
    have hf' := hf
    simp only [XR.fine, Bool.and_eq_true, beq_iff_eq] at hf
    obtain ⟨b1, -⟩ := d1.balance.1 hf.1.1 ht
    rw [brSum_append] at he
    rw [XR.ub] at he b2
    have hu := hf.2
    have e1 : brSum ts' = 0 := by omega
    refine .more (ih1.1 hf.1.1 ht e (by omega) ho hl.left) (ih2.1 hf' ht e (by rw [XR.ub]; omega) ho ?_)
    have := hl.right
    rw [e1, Int.add_zero] at this
    exact this
  | @only _ p a _ ts _ d hp ih =>
    refine ⟨fun hf ht e he ho hl => ?_, by simp⟩
    rcases only_cases p a with ⟨b, rfl⟩ | ⟨e1, e2⟩
    · obtain ⟨us, t, z, rfl, rfl, hn, ib, ic⟩ := ih.2 b rfl
      obtain ⟨rfl, hnull, hb⟩ := ht
      simp only [XR.fine, Bool.and_eq_true] at hf
      obtain ⟨h1, -⟩ := ib hf.1 hb
      have hu : us ≠ [] := by
        intro e
        rw [hn e] at hnull
        cases hnull
      have ht := separate_last hu hp
      have e1 : brSum (us ++ [t]) = brSum us + t.kind.br := by simp [brSum]
      rw [XR.ub, e1] at he
      simp only [XR.ok, Bool.and_eq_true, decide_eq_true_eq] at ho
      refine .only (.seq (ic hf.1 hb e (by omega) ho.1 hl.left) (.any ?_)) hp
      cases hk : t.kind.isLayout with
      | false => rfl
      | true =>
        have := hl us t [] rfl hk
        omega
    · rw [e2] at ht
      rw [e1] at he
      exact .only (ih.1 hf ht e he ho hl) hp

theorem XS.xder {r x ts y} (d : XS r x ts y) : XDer pRule r x ts y := by
  induction d with
  | eps => exact .eps
  | k e => exact .k e
  | any => exact .any
  | n _ ih => exact .n ih
  | seq _ _ ih1 ih2 => exact .seq ih1 ih2
  | left _ ih => exact .left ih
  | right _ ih => exact .right ih
  | absent => exact .absent
  | present _ ih => exact .present ih
  | stop => exact .stop
  | more _ _ ih1 ih2 => exact .more ih1 ih2
  | only _ e ih => exact .only ih e
  | mark e => exact .mark e

/-! ### Counting indents -/

/-- With `c` blocks open before, none of those is closed. -/
def XR.pre : Int → XR → Bool
  | _, .eps | _, .mark _ | _, .any | _, .n _ => true
  | c, .k x => 0 ≤ c + x.ind
  | c, .seq a b => a.pre c && b.pre (c + a.net)
  | c, .alt a b => a.pre c && b.pre c
  | c, .opt a => a.pre c
  | c, .star a => a.pre c
  | c, .only _ a => a.pre c

theorem PN.pre_table : ∀ p : PN, (pRule p).pre 0 = true := by decide +kernel

theorem XS.net {r x ts y} (d : XS r x ts y) : r.fine = true → indSum ts = r.net := by
  induction d with
  | eps | mark | absent | stop => intro _; rfl
  | k hk => intro _; simp [indSum, XR.net, hk]
  | any ht => intro _; simp [indSum, XR.net, ind_of_not_layout _ ht]
  | @n p _ _ _ _ ih =>
    intro _
    obtain ⟨f1, -, f3, -⟩ := p.table_fine
    rw [ih f1, f3]; rfl
  | seq _ _ ih1 ih2 =>
    intro h
    simp only [XR.fine, Bool.and_eq_true] at h
    rw [indSum_append, ih1 h.1, ih2 h.2]; rfl
  | left _ ih => intro h; simp only [XR.fine, Bool.and_eq_true, beq_iff_eq] at h; exact ih h.1.1
  | right _ ih => intro h; simp only [XR.fine, Bool.and_eq_true, beq_iff_eq] at h; rw [ih h.1.2, ← h.2]; rfl
  | present _ ih => intro h; simp only [XR.fine, Bool.and_eq_true, beq_iff_eq] at h; rw [ih h.1, h.2]; rfl
  | more _ _ ih1 ih2 =>
    intro h
    rw [indSum_append, ih2 h]
    simp only [XR.fine, Bool.and_eq_true, beq_iff_eq] at h
    rw [ih1 h.1.1, h.1.2]; rfl
  | only _ _ ih => intro h; exact ih h

theorem XS.pre {r x ts y} (d : XS r x ts y) : r.fine = true → ∀ c : Int, 0 ≤ c → r.pre c = true →
    ∀ u v, ts = u ++ v → 0 ≤ c + indSum u := by
  have nil : ∀ c : Int, 0 ≤ c → ∀ u v : List Token, [] = u ++ v → 0 ≤ c + indSum u := by
    intro c hc u v e
    obtain ⟨rfl, rfl⟩ := List.append_eq_nil_iff.1 e.symm
    simpa [indSum] using hc
  have one : ∀ (c : Int) (t : Token), 0 ≤ c → 0 ≤ c + t.kind.ind → ∀ u v : List Token, [t] = u ++ v → 0 ≤ c + indSum u := by
    intro c t hc ht u v e
    cases u with
    | nil => simpa [indSum] using hc
    | cons x u =>
      simp only [List.cons_append, List.cons.injEq] at e
      obtain ⟨rfl, e⟩ := e
      obtain ⟨rfl, rfl⟩ := List.append_eq_nil_iff.1 e.symm
      simpa [indSum] using ht
  induction d with
  | eps | mark | absent | stop => intro _ c hc _; exact nil c hc
  | k hk => intro _ c hc h; simp only [XR.pre, decide_eq_true_eq] at h; exact one c _ hc (by rw [hk]; exact h)
  | any ht => intro _ c hc h; exact one c _ hc (by rw [ind_of_not_layout _ ht]; omega)
  | @n p _ _ _ _ ih =>
    intro _ c hc _ u v e
    have := ih p.table_fine.1 0 (by omega) p.pre_table u v e
    omega
  | seq d1 d2 ih1 ih2 =>
    intro hf c hc h u v e
    simp only [XR.fine, Bool.and_eq_true] at hf
    simp only [XR.pre, Bool.and_eq_true] at h
    rcases List.append_eq_append_iff.1 e with ⟨as, rfl, rfl⟩ | ⟨bs, rfl, rfl⟩
    · have h0 := ih1 hf.1 c hc h.1 _ [] (List.append_nil _).symm
      rw [d1.net hf.1] at h0
      have := ih2 hf.2 _ h0 h.2 as v rfl
      rw [indSum_append, d1.net hf.1]
      omega
    · exact ih1 hf.1 c hc h.1 u bs rfl
  | left _ ih =>
    intro hf c hc h
    simp only [XR.fine, Bool.and_eq_true] at hf
    simp only [XR.pre, Bool.and_eq_true] at h
    exact ih hf.1.1 c hc h.1
  | right _ ih =>
    intro hf c hc h
    simp only [XR.fine, Bool.and_eq_true] at hf
    simp only [XR.pre, Bool.and_eq_true] at h
    exact ih hf.1.2 c hc h.2
  | present _ ih => intro hf c hc h; simp only [XR.fine, Bool.and_eq_true] at hf; exact ih hf.1 c hc h
  | more d1 d2 ih1 ih2 =>
    intro hf c hc h u v e
    have h2 := ih2 hf c hc h
    simp only [XR.fine, Bool.and_eq_true, beq_iff_eq] at hf
    rcases List.append_eq_append_iff.1 e with ⟨as, rfl, rfl⟩ | ⟨bs, rfl, rfl⟩
    · have := h2 as v rfl
      rw [indSum_append, d1.net hf.1.1, hf.1.2]
      omega
    · exact ih1 hf.1.1 c hc h u bs rfl
  | only _ _ ih => intro hf c hc h; exact ih hf c hc h

/-! ### Where there are no indents -/

def PN.flat : PN → Bool
  | .file_input | .single_input | .stmt | .compound_stmt | .async_stmt | .if_stmt | .elif_part | .else_part | .while_stmt | .for_stmt
  | .try_stmt | .except_part | .finally_part | .with_stmt | .suite | .funcdef | .func_body_suite | .classdef => false
  | _ => true

def XR.flat : XR → Bool
  | .eps | .mark _ | .any => true
  | .k x => x != .Indent
  | .n p => p.flat
  | .seq a b | .alt a b => a.flat && b.flat
  | .opt a | .star a | .only _ a => a.flat

theorem PN.flat_table : ∀ p : PN, p.flat = true → (pRule p).flat = true := by decide +kernel

theorem XS.flat {r x ts y} (d : XS r x ts y) : r.flat = true → ∀ t ∈ ts, t.kind ≠ .Indent := by
  induction d with
  | eps | mark | absent | stop => intro _ t ht; cases ht
  | k hk => intro h t ht; cases List.mem_singleton.1 ht; rw [hk]; simpa [XR.flat] using h
  | any hk => intro _ t ht; cases List.mem_singleton.1 ht; rintro e; rw [e] at hk; cases hk
  | n _ ih => intro h; exact ih (PN.flat_table _ h)
  | seq _ _ ih1 ih2 =>
    intro h t ht
    simp only [XR.flat, Bool.and_eq_true] at h
    rcases List.mem_append.1 ht with ht | ht
    · exact ih1 h.1 t ht
    · exact ih2 h.2 t ht
  | left _ ih => intro h; simp only [XR.flat, Bool.and_eq_true] at h; exact ih h.1
  | right _ ih => intro h; simp only [XR.flat, Bool.and_eq_true] at h; exact ih h.2
  | present _ ih | only _ _ ih => intro h; exact ih h
  | more _ _ ih1 ih2 =>
    intro h t ht
    rcases List.mem_append.1 ht with ht | ht
    · exact ih1 h t ht
    · exact ih2 h t ht

/-! ### Without `try` the state does not change -/

def XR.calm : XR → Bool
  | .eps | .k _ | .any => true
  | .n p => match p with
    | .except_part | .except_clause => false
    | _ => true
  | .seq (.k .PyTry) _ => true
  | .seq a b => a.calm && b.calm
  | .alt a b => a.calm && b.calm
  | .opt a | .star a | .only _ a => a.calm
  | .mark _ => false

theorem XR.calm_table : ∀ p : PN, (XR.n p).calm = true → (pRule p).calm = true := by decide +kernel

theorem seq_calm {a b : XR} (h : (a ⬝ b).calm = true) : a = .k .PyTry ∨ (a.calm = true ∧ b.calm = true) := by
  cases a with
  | k K => by_cases hK : K = .PyTry
           · exact .inl (by rw [hK])
           · refine .inr ⟨rfl, ?_⟩
             cases K <;> first | exact absurd rfl hK | exact (Bool.and_eq_true_iff.1 h).2
  | _ => exact .inr (by simpa [XR.calm] using h)

theorem XS.calm {r x ts y} (d : XS r x ts y) : r.calm = true → (∀ t ∈ ts, t.kind ≠ .PyTry) → y = x := by
  induction d with
  | eps | k | any | absent | stop => intro _ _; rfl
  | n _ ih => intro h; exact ih (XR.calm_table _ h)
  | seq d1 d2 ih1 ih2 =>
    intro h ht
    rcases seq_calm h with rfl | ⟨h1, h2⟩
    · cases d1 with
      | k hk => exact absurd hk (ht _ (by simp))
    · rw [ih2 h2 fun t h => ht t (List.mem_append_right _ h), ih1 h1 fun t h => ht t (List.mem_append_left _ h)]
  | left _ ih => intro h; simp only [XR.calm, Bool.and_eq_true] at h; exact ih h.1
  | right _ ih => intro h; simp only [XR.calm, Bool.and_eq_true] at h; exact ih h.2
  | present _ ih | only _ _ ih => intro h; exact ih h
  | more _ _ ih1 ih2 =>
    intro h ht
    rw [ih2 h fun t h => ht t (List.mem_append_right _ h), ih1 h fun t h => ht t (List.mem_append_left _ h)]
  | mark => intro h; cases h

/-! ### The body of a block -/

/-- The blocks opened in `ts` are closed in it, and no others. -/
def Blocks (ts : List Token) : Prop := indSum ts = 0 ∧ ∀ u v, ts = u ++ v → 0 ≤ indSum u

def XR.blockRest : XR → Bool
  | .seq (.seq (.n .stmt) (.star (.n .stmt))) (.k .Dedent) => true
  | _ => false
def XR.isIndent : XR → Bool
  | .k .Indent => true
  | _ => false

theorem blockRest_eq {r : XR} (h : r.blockRest = true) : r = plus (.n .stmt) ⬝ .k .Dedent := by
  unfold XR.blockRest at h
  split at h
  · rfl
  · cases h

theorem isIndent_eq {r : XR} (h : r.isIndent = true) : r = .k .Indent := by
  unfold XR.isIndent at h
  split at h
  · rfl
  · cases h

def XR.sane : XR → Bool
  | .eps | .k _ | .any | .n _ | .mark _ => true
  | .seq a b => a.sane && b.sane && (a.net == 0 && a.pre 0 || a.isIndent && b.blockRest)
  | .alt a b => a.sane && b.sane
  | .opt a => a.sane
  | .star a => a.sane && a.pre 0
  | .only _ a => a.flat

theorem PN.sane_table : ∀ p : PN, (pRule p).sane = true := by decide +kernel

/-- Two ways to cut a list. -/
theorem cut_segment {ts us a m b : List Token} (h : ts ++ us = a ++ (m ++ b)) :
    (∃ b', ts = a ++ (m ++ b') ∧ b = b' ++ us) ∨ (∃ a', a = ts ++ a' ∧ us = a' ++ (m ++ b)) ∨
      ∃ m1 m2, m1 ≠ [] ∧ m2 ≠ [] ∧ m = m1 ++ m2 ∧ ts = a ++ m1 ∧ us = m2 ++ b := by
  rcases List.append_eq_append_iff.1 h with ⟨as, rfl, rfl⟩ | ⟨bs, rfl, hb⟩
  · exact .inr (.inl ⟨as, rfl, rfl⟩)
  · rcases List.append_eq_append_iff.1 hb with ⟨cs, rfl, rfl⟩ | ⟨ds, rfl, rfl⟩
    · exact .inl ⟨cs, rfl, rfl⟩
    · by_cases h1 : bs = []
      · subst h1; exact .inr (.inl ⟨[], by simp, by simp⟩)
      · by_cases h2 : ds = []
        · subst h2; exact .inl ⟨[], by simp, by simp⟩
        · exact .inr (.inr ⟨bs, ds, h1, h2, rfl, rfl, rfl⟩)

/-- The body of a block can be replaced: neither the old one nor the new one has a `try`. -/
theorem XS.block {body body' : List Token} (hb : Blocks body) (ht : ∀ t ∈ body, t.kind ≠ .PyTry)
    (hb' : ∀ x, XDer pRule (plus (.n .stmt)) x body' x) {i o : Token} (hi : i.kind = .Indent) (ho : o.kind = .Dedent)
    {r x ts y} (d : XS r x ts y) :
    r.fine = true → r.sane = true → ∀ a b, ts = a ++ ((i :: (body ++ [o])) ++ b) → XDer pRule r x (a ++ ((i :: (body' ++ [o])) ++ b)) y := by
  have hne : ∀ a b : List Token, [] ≠ a ++ ((i :: (body ++ [o])) ++ b) := by intro a b h; simp at h
  have hone : ∀ (t : Token) (a b : List Token), [t] ≠ a ++ ((i :: (body ++ [o])) ++ b) := by
    intro t a b h
    have := congrArg List.length h
    simp at this
    omega
  -- a part with the indent and without the dedent has more indents than dedents
  have hpart : ∀ {r x ts y}, XS r x ts y → r.fine = true → r.net = 0 → r.pre 0 = true → ∀ a m1 m2, m1 ≠ [] → m2 ≠ [] →
      i :: (body ++ [o]) = m1 ++ m2 → ts = a ++ m1 → False := by
    intro r x ts y d hf hn hp a m1 m2 h1 h2 e e'
    subst e'
    cases m1 with
    | nil => exact h1 rfl
    | cons i' m1 =>
      simp only [List.cons_append, List.cons.injEq] at e
      obtain ⟨rfl, e⟩ := e
      have hm : ∃ m2', body = m1 ++ m2' := by
        rcases List.append_eq_append_iff.1 e with ⟨as, e1, e2⟩ | ⟨bs, e1, e2⟩
        · cases as with
          | nil => exact ⟨[], by simpa using e1.symm⟩
          | cons z as =>
            simp only [List.cons_append, List.cons.injEq] at e2
            exact absurd (List.append_eq_nil_iff.1 e2.2.symm).2 h2
        · exact ⟨bs, e1⟩
      obtain ⟨m2', e⟩ := hm
      have g1 := d.net hf
      have g2 := d.pre hf 0 (by omega) hp a (i :: m1) rfl
      have g3 := hb.2 m1 m2' e
      rw [hn, indSum_append] at g1
      have g4 : indSum (i :: m1) = 1 + indSum m1 := by simp [indSum, hi, Kind.ind]
      omega
  induction d with
  | eps | mark | absent | stop => intro _ _ a b e; exact absurd e (hne a b)
  | k | any => intro _ _ a b e; exact absurd e (hone _ a b)
  | @n p _ _ _ _ ih => intro _ _ a b e; exact .n (ih p.table_fine.1 p.sane_table a b e)
  | @seq ra rb x ts z us y d1 d2 ih1 ih2 =>
    intro hf hs a b e
    simp only [XR.fine, Bool.and_eq_true] at hf
    simp only [XR.sane, Bool.and_eq_true, Bool.or_eq_true, beq_iff_eq] at hs
    rcases cut_segment e with ⟨b', e1, rfl⟩ | ⟨a', rfl, e2⟩ | ⟨m1, m2, h1, h2, e1, e2, e3⟩
    · have := XDer.seq (ih1 hf.1 hs.1.1 a b' e1) d2.xder
      simpa using this
    · have := XDer.seq d1.xder (ih2 hf.2 hs.1.2 a' b e2)
      simpa using this
    · rcases hs.2 with ⟨hn, hp⟩ | ⟨hk, hr⟩
      · exact (hpart d1 hf.1 hn hp a m1 m2 h1 h2 e1 e2).elim
      · have := isIndent_eq hk; subst this
        have := blockRest_eq hr; subst this
        cases d1 with
        | @k _ t _ htk =>
          have ha : a = [] ∧ m1 = [t] := by
            cases a with
            | nil => exact ⟨rfl, e2.symm⟩
            | cons w a =>
              simp only [List.cons_append, List.cons.injEq] at e2
              exact absurd (List.append_eq_nil_iff.1 e2.2.symm).2 h1
          obtain ⟨rfl, rfl⟩ := ha
          simp only [List.cons_append, List.nil_append, List.cons.injEq] at e1
          obtain ⟨rfl, rfl⟩ := e1
          cases d2 with
          | @seq _ _ _ ss z' os _ d3 d4 =>
            cases d4 with
            | @k _ o' _ ho' =>
              have g1 : Blocks ss := ⟨by rw [d3.net (by decide)]; decide,
                fun u v e => by simpa using d3.pre (by decide) 0 (by omega) (by decide) u v e⟩
              -- the statements are the body
              have : ss = body ∧ o' = o ∧ b = [] := by
                have e4 : ss ++ [o'] = body ++ (o :: b) := by simpa using e3
                rcases List.append_eq_append_iff.1 e4 with ⟨as, rfl, e5⟩ | ⟨bs, rfl, e5⟩
                · cases as with
                  | nil => simp only [List.nil_append, List.cons.injEq] at e5; exact ⟨by simp, e5.1, e5.2.symm⟩
                  | cons w as =>
                    have := congrArg List.length e5
                    simp at this
                · cases bs with
                  | nil => simp only [List.nil_append, List.cons.injEq] at e5; exact ⟨by simp, e5.1.symm, e5.2⟩
                  | cons w bs =>
                    simp only [List.cons_append, List.cons.injEq] at e5
                    obtain ⟨rfl, rfl⟩ := e5
                    have := g1.2 (body ++ [o]) bs (by simp)
                    rw [indSum_append, hb.1] at this
                    simp [indSum, ho, Kind.ind] at this
              obtain ⟨rfl, rfl, rfl⟩ := this
              have hz := d3.calm (by decide) ht
              subst hz
              have := XDer.seq (rule := pRule) (XDer.k htk (x := _)) (XDer.seq (hb' _) (XDer.k ho' (x := y)))
              simpa using this
  | left _ ih =>
    intro hf hs a b e
    simp only [XR.fine, Bool.and_eq_true] at hf
    simp only [XR.sane, Bool.and_eq_true] at hs
    exact .left (ih hf.1.1 hs.1 a b e)
  | right _ ih =>
    intro hf hs a b e
    simp only [XR.fine, Bool.and_eq_true] at hf
    simp only [XR.sane, Bool.and_eq_true] at hs
    exact .right (ih hf.1.2 hs.2 a b e)
  | present _ ih =>
    intro hf hs a b e
    simp only [XR.fine, Bool.and_eq_true] at hf
    exact .present (ih hf.1 hs a b e)
  | @more ra x ts z us y d1 d2 ih1 ih2 =>
    intro hf hs a b e
    have g2 := ih2 hf hs
    simp only [XR.fine, Bool.and_eq_true, beq_iff_eq] at hf
    simp only [XR.sane, Bool.and_eq_true] at hs
    rcases cut_segment e with ⟨b', e1, rfl⟩ | ⟨a', rfl, e2⟩ | ⟨m1, m2, h1, h2, e1, e2, e3⟩
    · have := XDer.more (ih1 hf.1.1 hs.1 a b' e1) d2.xder
      simpa using this
    · have := XDer.more d1.xder (g2 a' b e2)
      simpa using this
    · exact (hpart d1 hf.1.1 hf.1.2 hs.2 a m1 m2 h1 h2 e1 e2).elim
  | only d _ _ =>
    intro hf hs a b e
    exact absurd hi (d.flat hs i (by rw [e]; simp))

end Verif
