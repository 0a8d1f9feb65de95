import Verif.Proof.GraftBody
import Verif.Proof.PlugSound

/-!
# The parser of the text with the other body does what the first one does
-/

namespace Verif
open Prog Graft

section
variable [Uni]

/-- The current symbols are alike. -/
def SymB (c d : PSt) : Prop :=
  match c.symbol, d.symbol with
  | .ok t, .ok u => t.bare = u.bare
  | .error _, .error _ => True
  | _, _ => False

/-- At the indent of the block whose line end is the current symbol of `cA`. -/
def Spot (cA c : PSt) : Prop := c.lex = cA.advance.lex ∧ ∃ v, c.symbol = .ok v ∧ v.kind = .Indent

theorem Consumed.lexIndex {c ts c'} (h : Consumed c ts c') : c'.lex = (c.ahead ts.length).lex := by
  induction h with
  | done h _ => exact h
  | step _ _ ih => exact ih

variable [Graft]

/-- Behind the block. -/
structure PostG (cA c d : PSt) : Prop where
  exc : c.exc = d.exc
  sym : ∀ j, SymB (c.ahead j) (d.ahead j)
  ne : ∀ j, (c.ahead j).symbol ≠ .ok nl
  uniq : ∀ j, ¬ Spot cA (c.ahead j)

/-- At the indent. -/
structure IndG (cA c d : PSt) : Prop where
  exc : c.exc = d.exc
  sym : SymB c d
  spot : Spot cA c
  uniq : ∀ j, Spot cA (c.ahead j) → j = 0

/-- Before the block: its line end is `k` symbols away. -/
structure PreG (cA dB : PSt) (k : Nat) (c d : PSt) : Prop where
  exc : c.exc = d.exc
  sym : ∀ j, j ≤ k → SymB (c.ahead j) (d.ahead j)
  left : c.ahead k = { cA with exc := c.exc }
  right : d.ahead k = { dB with exc := c.exc }
  ne : ∀ j, j < k → (c.ahead j).symbol ≠ .ok nl
  tc : ∀ j, j + 1 = k → ∀ t, (c.ahead j).symbol = .ok t → t.kind ≠ .TypeComment
  uniq : ∀ j, Spot cA (c.ahead j) → j = k + 1

/-- The two states at the line end, and what the functions that read a block do there. -/
structure HoleG (cA dB : PSt) : Prop where
  kind : nl.kind = .Newline
  here : cA.symbol = .ok nl
  ind : ∃ v, cA.advance.symbol = .ok v ∧ v.kind = .Indent
  sym : SymB cA.advance dB.advance
  suite : ∀ x n a c', run n .suite { cA with exc := x } = .ok a c' →
    ∃ b d', Ev .suite { dB with exc := x } b d' ∧ GT a b ∧ PostG cA c' d'
  func : ∀ x n a c', run n .funcBodySuite { cA with exc := x } = .ok a c' →
    ∃ b d', Ev .funcBodySuite { dB with exc := x } b d' ∧ GT a b ∧ PostG cA c' d'

structure StG (cA dB : PSt) (w : Bool) (o : Option Token) (c d : PSt) : Prop where
  known : ∀ t, o = some t → c.symbol = .ok t
  place : (∃ k, PreG cA dB k c d) ∨ (w = false ∧ IndG cA c d) ∨ PostG cA c d

theorem Spot.exc {cA c : PSt} {x} (h : Spot cA { c with exc := x }) : Spot cA c := h

theorem PostG.adv {cA c d} (h : PostG cA c d) : PostG cA c.advance d.advance :=
  ⟨by rw [advance_exc_eq, advance_exc_eq, h.exc], fun j => h.sym (j + 1), fun j => h.ne (j + 1), fun j => h.uniq (j + 1)⟩
theorem PostG.setExc {cA c d} (h : PostG cA c d) (x) : PostG cA { c with exc := x } { d with exc := x } :=
  ⟨rfl, fun j => by rw [ahead_exc j c x, ahead_exc j d x]; exact h.sym j, fun j => by rw [ahead_exc j c x]; exact h.ne j,
    fun j hj => h.uniq j (by rw [ahead_exc j c x] at hj; exact hj)⟩
theorem IndG.setExc {cA c d} (h : IndG cA c d) (x) : IndG cA { c with exc := x } { d with exc := x } :=
  ⟨rfl, h.sym, h.spot, fun j hj => h.uniq j (by rw [ahead_exc j c x] at hj; exact hj)⟩
theorem PreG.setExc {cA dB k c d} (h : PreG cA dB k c d) (x) : PreG cA dB k { c with exc := x } { d with exc := x } :=
  ⟨rfl, fun j hj => by rw [ahead_exc j c x, ahead_exc j d x]; exact h.sym j hj, by rw [ahead_exc k c x, h.left],
    by rw [ahead_exc k d x, h.right], fun j hj => by rw [ahead_exc j c x]; exact h.ne j hj,
    fun j hj t ht => h.tc j hj t (by rw [ahead_exc j c x] at ht; exact ht),
    fun j hj => h.uniq j (by rw [ahead_exc j c x] at hj; exact hj)⟩
theorem StG.setExc {cA dB w o c d} (h : StG cA dB w o c d) (x) : StG cA dB w o { c with exc := x } { d with exc := x } :=
  ⟨h.known, by
    rcases h.place with ⟨k, h⟩ | ⟨hw, h⟩ | h
    · exact .inl ⟨k, h.setExc x⟩
    · exact .inr (.inl ⟨hw, h.setExc x⟩)
    · exact .inr (.inr (h.setExc x))⟩
theorem StG.exc {cA dB w o c d} (h : StG cA dB w o c d) : c.exc = d.exc := by
  rcases h.place with ⟨k, h⟩ | ⟨hw, h⟩ | h <;> exact h.exc
theorem StG.sym {cA dB w o c d} (h : StG cA dB w o c d) : SymB c d := by
  rcases h.place with ⟨k, h⟩ | ⟨hw, h⟩ | h
  · exact h.sym 0 (Nat.zero_le _)
  · exact h.sym
  · exact h.sym 0
theorem StG.forget {cA dB w o c d} (h : StG cA dB w o c d) : StG cA dB false none c d := by
  refine ⟨by simp, ?_⟩
  rcases h.place with h | ⟨hw, h⟩ | h
  · exact .inl h
  · exact .inr (.inl ⟨rfl, h⟩)
  · exact .inr (.inr h)
theorem StG.unknown {cA dB w o c d} (h : StG cA dB w o c d) : StG cA dB w none c d := ⟨by simp, h.place⟩
theorem StG.know {cA dB w o c d t} (h : StG cA dB w o c d) (ht : c.symbol = .ok t) : StG cA dB w (some t) c d :=
  ⟨by rintro _ ⟨⟩; exact ht, h.place⟩

theorem PreG.zero {cA dB c d} (hH : HoleG cA dB) (h : PreG cA dB 0 c d) : c.symbol = .ok nl := by
  have := h.left
  simp only [PSt.ahead] at this
  rw [this]; exact hH.here

theorem PreG.adv {cA dB k c d} (hH : HoleG cA dB) (h : PreG cA dB k c d) :
    (k ≠ 0 ∧ PreG cA dB (k - 1) c.advance d.advance) ∨ (k = 0 ∧ IndG cA c.advance d.advance) := by
  cases k with
  | zero =>
    refine .inr ⟨rfl, by rw [advance_exc_eq, advance_exc_eq, h.exc], ?_, ?_, fun j hj => by have := h.uniq (j + 1) hj; omega⟩
    · have h1 := h.left; have h2 := h.right
      simp only [PSt.ahead] at h1 h2
      have e1 := ahead_exc 1 cA c.exc
      have e2 := ahead_exc 1 dB c.exc
      simp only [PSt.ahead] at e1 e2
      rw [h1, h2] at *
      rw [e1, e2]; exact hH.sym
    · have h1 := h.left
      simp only [PSt.ahead] at h1
      have e1 := ahead_exc 1 cA c.exc
      simp only [PSt.ahead] at e1
      rw [h1, e1]
      exact ⟨rfl, hH.ind⟩
  | succ k =>
    refine .inl ⟨by omega, by rw [advance_exc_eq, advance_exc_eq, h.exc], fun j hj => h.sym (j + 1) (by omega), ?_, ?_,
      fun j hj => h.ne (j + 1) (by omega), fun j hj t ht => h.tc (j + 1) (by omega) t ht,
      fun j hj => by have := h.uniq (j + 1) hj; omega⟩
    · have := h.left; simp only [PSt.ahead] at this; rw [advance_exc_eq]; exact this
    · have := h.right; simp only [PSt.ahead] at this; rw [advance_exc_eq]; exact this

/-- One step, not past the indent of the block. -/
theorem StG.adv {cA dB w t c d} (hH : HoleG cA dB) (h : StG cA dB w (some t) c d) (hk : t.kind ≠ .Indent ∨ w = true) :
    StG cA dB false none c.advance d.advance := by
  refine ⟨by simp, ?_⟩
  rcases h.place with ⟨k, h⟩ | ⟨hw, hi⟩ | h
  · rcases h.adv hH with ⟨_, h⟩ | ⟨_, h⟩
    · exact .inl ⟨_, h⟩
    · exact .inr (.inl ⟨rfl, h⟩)
  · exfalso
    obtain ⟨-, v, h1, h2⟩ := hi.spot
    rw [h.known t rfl] at h1
    cases h1
    rcases hk with hk | hk
    · exact hk h2
    · rw [hk] at hw; cases hw
  · exact .inr (.inr h.adv)

theorem StG.advNe {cA dB w t c d} (hH : HoleG cA dB) (h : StG cA dB w (some t) c d) (hk : t.kind ≠ .Indent) (hn : t ≠ nl) :
    StG cA dB true none c.advance d.advance := by
  refine ⟨by simp, ?_⟩
  rcases h.place with ⟨k, hp⟩ | ⟨hw, hi⟩ | hp
  · rcases hp.adv hH with ⟨_, h⟩ | ⟨rfl, -⟩
    · exact .inl ⟨_, h⟩
    · have := hp.zero hH
      rw [h.known t rfl] at this
      cases this
      exact absurd rfl hn
  · exfalso
    obtain ⟨-, v, h1, h2⟩ := hi.spot
    rw [h.known t rfl] at h1
    cases h1
    exact hk h2
  · exact .inr (.inr hp.adv)

/-- The results of two runs. -/
theorem relg_exec {α : Type} [LkG α] {cA dB : PSt} (hH : HoleG cA dB) {n}
    (ih : ∀ f g w o c d t c', Fn.LikeG f g → StG cA dB w o c d → (FnLooks f = true ∨ f.input = false ∧ ∃ t, c.symbol = .ok t ∧ t.kind ≠ .Indent) →
      run n f c = .ok t c' → ∃ u d', Ev g d u d' ∧ GT t u ∧ StG cA dB false none c' d')
    {w o} {p q : Prog α} (h : RelG w o p q) : ∀ {c d a c'}, StG cA dB w o c d → p.exec (run n) c = .ok a c' →
      ∃ b d', EvP q d b d' ∧ LkG.rel a b ∧ StG cA dB false none c' d' := by
  induction h with
  | ret h => intro c d a c' hs e; cases e; exact ⟨_, d, ⟨0, rfl⟩, h, hs.forget⟩
  | fail | panic => intro c d a c' hs e; simp [Prog.exec] at e
  | getPos _ ih =>
    intro c d a c' hs e
    obtain ⟨b, d', ⟨k, h1⟩, h2⟩ := ih _ d.lex.tokStart hs e
    exact ⟨b, d', ⟨k, h1⟩, h2⟩
  | sym _ _ ih1 ih2 =>
    intro c d a c' hs e
    have h0 := hs.sym
    simp only [SymB] at h0
    simp only [Prog.exec] at e
    cases hc : c.symbol <;> cases hd : d.symbol <;> simp only [hc, hd] at h0 e
    · obtain ⟨b, d', ⟨k, h1⟩, h2⟩ := ih2 (d := d) hs.unknown e
      exact ⟨b, d', ⟨k, by simp only [Prog.exec, hd]; exact h1⟩, h2⟩
    · obtain ⟨b, d', ⟨k, h1⟩, h2⟩ := ih1 _ _ h0 (d := d) (hs.know hc) e
      exact ⟨b, d', ⟨k, by simp only [Prog.exec, hd]; exact h1⟩, h2⟩
  | symAgain _ ih1 =>
    intro c d a c' hs e
    have h0 := hs.sym
    simp only [SymB] at h0
    have hc := hs.known _ rfl
    simp only [Prog.exec, hc] at e h0
    cases hd : d.symbol <;> simp only [hd] at h0
    obtain ⟨b, d', ⟨k, h1⟩, h2⟩ := ih1 _ h0 (d := d) hs e
    exact ⟨b, d', ⟨k, by simp only [Prog.exec, hd]; exact h1⟩, h2⟩
  | adv hk _ ih1 =>
    intro c d a c' hs e
    obtain ⟨b, d', ⟨k, h1⟩, h2⟩ := ih1 (d := d.advance) (hs.adv hH (.inl hk)) e
    exact ⟨b, d', ⟨k, h1⟩, h2⟩
  | advN hk hk' _ ih1 =>
    intro c d a c' hs e
    obtain ⟨b, d', ⟨k, h1⟩, h2⟩ := ih1 (d := d.advance) (hs.advNe hH hk (by rintro rfl; exact hk' hH.kind)) e
    exact ⟨b, d', ⟨k, h1⟩, h2⟩
  | advNe hk hk' _ ih1 =>
    intro c d a c' hs e
    obtain ⟨b, d', ⟨k, h1⟩, h2⟩ := ih1 (d := d.advance) (hs.advNe hH hk hk') e
    exact ⟨b, d', ⟨k, h1⟩, h2⟩
  | @advTC w t k l p s y hk _ ih1 =>
    intro c d a c' hs e
    have ht : t ≠ nl := by rintro rfl; rw [hH.kind] at hk; cases hk
    have hs' := hs.advNe hH (by rw [hk]; decide) ht
    have h0 := hs'.sym
    simp only [SymB] at h0
    simp only [Prog.exec] at e
    cases hc : c.advance.symbol <;> cases hd : d.advance.symbol <;> simp only [hc, hd, reduceCtorEq] at h0 e
    have hn : c.advance.symbol ≠ .ok nl := by
      rcases hs.place with ⟨k, hp⟩ | ⟨hw, hi⟩ | hp
      · match k, hp with
        | 0, hp =>
          have := hp.zero hH
          rw [hs.known t rfl] at this
          cases this
          exact absurd rfl ht
        | 1, hp => exact absurd hk (hp.tc 0 rfl t (hs.known t rfl))
        | k + 2, hp => exact hp.ne 1 (by omega)
      · obtain ⟨-, v, h1, h2⟩ := hi.spot
        rw [hs.known t rfl] at h1
        cases h1
        rw [h2] at hk; cases hk
      · exact hp.ne 1
    obtain ⟨b, d', ⟨k, h1⟩, h2⟩ := ih1 _ _ h0 (by rintro rfl; exact hn hc) (d := d.advance) (hs'.know hc) e
    exact ⟨b, d', ⟨k, by simp only [Prog.exec, hd]; exact h1⟩, h2⟩
  | advT _ ih1 =>
    intro c d a c' hs e
    obtain ⟨b, d', ⟨k, h1⟩, h2⟩ := ih1 (d := d.advance) (hs.adv hH (.inr rfl)) e
    exact ⟨b, d', ⟨k, h1⟩, h2⟩
  | @callEnds w o f g k l hf he hl h ih1 =>
    intro c d a c' hs e
    simp only [Prog.exec] at e
    cases hr : run n f c with
    | ok t c1 =>
      rw [hr] at e
      obtain ⟨u, d1, g1, g2, g3⟩ := ih _ _ _ _ _ _ _ _ hl hs (.inl hf) hr
      have g4 : StG cA dB true none c1 d1 := by
        refine ⟨by simp, ?_⟩
        rcases g3.place with g3 | ⟨_, hi⟩ | g3
        · exact .inl g3
        · exfalso
          obtain ⟨ts, k1, k2, k3⟩ := fn_ends he hr
          have hsp : Spot cA (c.ahead ts.length) := by
            rw [Spot, ← k1.lexIndex, ← k1.index.1]; exact hi.spot
          rcases hs.place with ⟨k, hp⟩ | ⟨_, hp⟩ | hp
          · have hi := hp.uniq _ hsp
            obtain ⟨w, v, rfl⟩ := List.eq_nil_or_concat ts |>.resolve_left k2
            have h1 := k1.index.2 v (by simp)
            rw [hi] at h1
            have h2 : (c.ahead k).symbol = .ok nl := by rw [hp.left]; exact hH.here
            simp only [Nat.add_sub_cancel] at h1
            rw [h1] at h2
            cases h2
            have := k3 nl (by simp)
            rw [hH.kind] at this
            cases this
          · exact k2 (List.length_eq_zero_iff.1 (hp.uniq _ hsp))
          · exact hp.uniq _ hsp
        · exact .inr (.inr g3)
      obtain ⟨b, d', h1, h2⟩ := ih1 _ _ g2 (d := d1) g4 e
      exact ⟨b, d', evp_bind (evp_parse g1) h1, h2⟩
    | _ => rw [hr] at e; simp only [reduceCtorEq] at e
  | @call w o f g k l hf hl h ih1 =>
    intro c d a c' hs e
    simp only [Prog.exec] at e
    cases hr : run n f c <;> rw [hr] at e <;> simp only [reduceCtorEq] at e
    obtain ⟨u, d1, g1, g2, g3⟩ := ih _ _ _ _ _ _ _ _ hl hs (.inl hf) hr
    obtain ⟨b, d', h1, h2⟩ := ih1 _ _ g2 (d := d1) g3 e
    exact ⟨b, d', evp_bind (evp_parse g1) h1, h2⟩
  | @callAt w t f g k l hf hk hl h ih1 =>
    intro c d a c' hs e
    simp only [Prog.exec] at e
    cases hr : run n f c <;> rw [hr] at e <;> simp only [reduceCtorEq] at e
    obtain ⟨u, d1, g1, g2, g3⟩ := ih _ _ _ _ _ _ _ _ hl hs (.inr ⟨hf, t, hs.known t rfl, hk⟩) hr
    obtain ⟨b, d', h1, h2⟩ := ih1 _ _ g2 (d := d1) g3 e
    exact ⟨b, d', evp_bind (evp_parse g1) h1, h2⟩
  | getExc _ ih =>
    intro c d a c' hs e
    obtain ⟨b, d', ⟨k, h1⟩, h2⟩ := ih _ (d := d) hs e
    exact ⟨b, d', ⟨k, by simp only [Prog.exec]; rw [← hs.exc]; exact h1⟩, h2⟩
  | setExc _ ih =>
    intro c d a c' hs e
    obtain ⟨b, d', ⟨k, h1⟩, h2⟩ := ih (hs.setExc _) e
    exact ⟨b, d', ⟨k, h1⟩, h2⟩

/-- A function that reads a block. -/
theorem StG.block {cA dB w o c d} (hH : HoleG cA dB) (hs : StG cA dB w o c d) :
    (c = { cA with exc := c.exc } ∧ d = { dB with exc := c.exc }) ∨ (∃ t, c.symbol = .ok t ∧ t ≠ nl) ∨ ∃ e, c.symbol = .error e := by
  rcases hs.place with ⟨k, hp⟩ | ⟨_, hi⟩ | hp
  · cases k with
    | zero => exact .inl ⟨hp.left, hp.right⟩
    | succ k =>
      have := hp.ne 0 (by omega)
      cases hc : c.symbol with
      | ok t => exact .inr (.inl ⟨t, rfl, by rintro rfl; exact this hc⟩)
      | error e => exact .inr (.inr ⟨e, rfl⟩)
  · obtain ⟨-, v, h1, h2⟩ := hi.spot
    refine .inr (.inl ⟨v, h1, ?_⟩)
    rintro rfl
    rw [hH.kind] at h2; cases h2
  · have := hp.ne 0
    cases hc : c.symbol with
    | ok t => exact .inr (.inl ⟨t, rfl, by rintro rfl; exact this hc⟩)
    | error e => exact .inr (.inr ⟨e, rfl⟩)

theorem run_graft {cA dB : PSt} (hH : HoleG cA dB) : ∀ n f g w o c d t c', Fn.LikeG f g → StG cA dB w o c d →
    (FnLooks f = true ∨ f.input = false ∧ ∃ t, c.symbol = .ok t ∧ t.kind ≠ .Indent) →
    run n f c = .ok t c' → ∃ u d', Ev g d u d' ∧ GT t u ∧ StG cA dB false none c' d'
  | 0, _, _, _, _, _, _, _, _, _, _, _, h => by simp [run] at h
  | n + 1, f, g, w, o, c, d, t, c', hl, hs, hf, h => by
    by_cases h1 : f = .suite
    · subst h1
      cases hl
      rcases hs.block hH with ⟨e1, e2⟩ | ⟨v, e1, e2⟩ | ⟨e, e1⟩
      · rw [e1] at h
        obtain ⟨b, d', h1, h2, h3⟩ := hH.suite _ _ _ _ h
        rw [← e2] at h1
        exact ⟨b, d', h1, h2, by simp, .inr (.inr h3)⟩
      · obtain ⟨b, d', h1, h2⟩ := relg_exec hH (run_graft hH n) (g_suite e2) (hs.know e1) h
        exact ⟨b, d', ev_body h1, h2⟩
      · have h : (suiteBody).exec (run n) c = .ok t c' := h
        unfold suiteBody at h
        simp [Prog.exec, bind, Prog.bind, here, symAt, e1] at h
    by_cases h2 : f = .funcBodySuite
    · subst h2
      cases hl
      rcases hs.block hH with ⟨e1, e2⟩ | ⟨v, e1, e2⟩ | ⟨e, e1⟩
      · rw [e1] at h
        obtain ⟨b, d', h1, h2, h3⟩ := hH.func _ _ _ _ h
        rw [← e2] at h1
        exact ⟨b, d', h1, h2, by simp, .inr (.inr h3)⟩
      · obtain ⟨b, d', h1, h2⟩ := relg_exec hH (run_graft hH n) (g_funcBodySuite e2) (hs.know e1) h
        exact ⟨b, d', ev_body h1, h2⟩
      · have h : (funcBodySuiteBody).exec (run n) c = .ok t c' := h
        unfold funcBodySuiteBody at h
        simp [Prog.exec, bind, Prog.bind, here, symAt, e1] at h
    by_cases h3 : FnLooks f = true
    · obtain ⟨b, d', h1, h2⟩ := relg_exec hH (run_graft hH n) (g_body hl h3 h1 h2) hs h
      exact ⟨b, d', ev_body h1, h2⟩
    · obtain ⟨h4, v, h5, h6⟩ := hf.resolve_left h3
      cases hl <;> first | exact absurd rfl h3 | (cases h4; done) | skip
      obtain ⟨b, d', h1, h2⟩ := relg_exec hH (run_graft hH n) (g_lambdaDef h6 _) (hs.know h5) h
      exact ⟨b, d', ev_body h1, h2⟩

end
end Verif
