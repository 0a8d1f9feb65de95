import Verif.Proof.PlugBody
import Verif.Props.Layout

/-!
# The second parser does what the first one does
-/

namespace Verif
open Prog Plug

section
variable [Uni] [Plug]

/-- The current symbols are alike, and not the number. -/
def SymR (c d : PSt) : Prop :=
  match c.symbol, d.symbol with
  | .ok t, .ok u => TT t u
  | .error _, .error _ => True
  | _, _ => False

/-- Behind the number. -/
def PostR (c d : PSt) : Prop := c.exc = d.exc ∧ ∀ j, SymR (c.ahead j) (d.ahead j)

/-- At the number, which is `M` symbols in the second text. -/
structure AtR (M : Nat) (c d : PSt) : Prop where
  exc : c.exc = d.exc
  left : c.symbol = .ok Plug.num
  right : d.symbol = .ok lp
  post : ∀ j, SymR (c.ahead (j + 1)) (d.ahead (M + j))
  atom : ∀ x, ∃ u, Ev .atom { d with exc := x } u (PSt.ahead M { d with exc := x }) ∧ r = u.erase Token.bare

/-- Before the number. -/
structure PreR (M k : Nat) (c d : PSt) : Prop where
  exc : c.exc = d.exc
  pos : 0 < k
  sym : ∀ j, j < k → SymR (c.ahead j) (d.ahead j)
  here_ : AtR M (c.ahead k) (d.ahead k)
  prev : ∀ t, (c.ahead (k - 1)).symbol = .ok t → lastOf t.kind = false

def St (M : Nat) : PMode → PSt → PSt → Prop
  | .pre none, c, d => ∃ k, PreR M k c d
  | .pre (some t), c, d => c.symbol = .ok t ∧ ∃ k, PreR M k c d
  | .at, c, d => AtR M c d
  | .post, c, d => PostR c d

omit [Uni] [Plug] in
def PMode.rank : PMode → Nat
  | .pre _ => 0
  | .at => 1
  | .post => 2

theorem ahead_keeps (k : Nat) (c : PSt) : (c.ahead k).exc = c.exc := by
  induction k generalizing c with
  | zero => rfl
  | succ k ih => exact (ih _).trans (advance_exc_eq c)

theorem SymR.ne {c d : PSt} (h : SymR c d) : c.symbol ≠ .ok num := by
  intro e
  unfold SymR at h
  rw [e] at h
  cases hd : d.symbol <;> rw [hd] at h
  · exact h
  · exact h.2 rfl

theorem PostR.adv {c d} (h : PostR c d) : PostR c.advance d.advance :=
  ⟨by rw [advance_exc_eq, advance_exc_eq, h.1], fun j => h.2 (j + 1)⟩
theorem PostR.setExc {c d} (h : PostR c d) (x) : PostR { c with exc := x } { d with exc := x } :=
  ⟨rfl, fun j => by rw [ahead_exc j c x, ahead_exc j d x]; exact h.2 j⟩
theorem AtR.setExc {M c d} (h : AtR M c d) (x) : AtR M { c with exc := x } { d with exc := x } :=
  ⟨rfl, h.left, h.right, fun j => by rw [ahead_exc _ c x, ahead_exc _ d x]; exact h.post j, fun y => h.atom y⟩
theorem PreR.setExc {M k c d} (h : PreR M k c d) (x) : PreR M k { c with exc := x } { d with exc := x } :=
  ⟨rfl, h.pos, fun j hj => by rw [ahead_exc j c x, ahead_exc j d x]; exact h.sym j hj,
    by rw [ahead_exc k c x, ahead_exc k d x]; exact h.here_.setExc x, fun t ht => h.prev t (by rw [ahead_exc _ c x] at ht; exact ht)⟩
theorem St.setExc {M m c d} (h : St M m c d) (x) : St M m { c with exc := x } { d with exc := x } := by
  match m, h with
  | .pre none, ⟨k, h⟩ => exact ⟨k, h.setExc x⟩
  | .pre (some _), ⟨h0, k, h⟩ => exact ⟨h0, k, h.setExc x⟩
  | .at, h => exact AtR.setExc h x
  | .post, h => exact PostR.setExc h x

theorem St.exc {M m c d} (h : St M m c d) : c.exc = d.exc := by
  match m, h with
  | .pre none, ⟨k, h⟩ => exact h.exc
  | .pre (some _), ⟨h0, k, h⟩ => exact h.exc
  | .at, h => exact AtR.exc h
  | .post, h => exact h.1

theorem St.pre {M o c d} (h : St M (.pre o) c d) : ∃ k, PreR M k c d := by
  cases o with
  | none => exact h
  | some t => exact h.2

/-- One step ahead. -/
theorem PreR.adv {M k c d} (h : PreR M k c d) : (∃ k, PreR M k c.advance d.advance) ∨
    AtR M c.advance d.advance ∧ ∀ t, c.symbol = .ok t → lastOf t.kind = false := by
  obtain ⟨k, rfl⟩ : ∃ j, k = j + 1 := ⟨k - 1, by have := h.pos; omega⟩
  cases k with
  | zero => exact .inr ⟨h.here_, h.prev⟩
  | succ k =>
    exact .inl ⟨k + 1, by rw [advance_exc_eq, advance_exc_eq, h.exc], by omega, fun j hj => h.sym (j + 1) (by omega), h.here_, h.prev⟩

/-- The symbols that are not the number. -/
theorem PreR.notNum {M k c d} (h : PreR M k c d) (j : Nat) (hj : (c.ahead j).symbol = .ok Plug.num) : j = k := by
  rcases Nat.lt_trichotomy j k with hlt | rfl | hgt
  · exact absurd hj (h.sym j hlt).ne
  · rfl
  · obtain ⟨i, rfl⟩ := Nat.exists_eq_add_of_lt hgt
    have := (h.here_.post i).ne
    rw [← ahead_add, ← Nat.add_assoc] at this
    exact absurd hj this
theorem AtR.notNum {M c d} (h : AtR M c d) (j : Nat) (hj : (c.ahead j).symbol = .ok Plug.num) : j = 0 := by
  cases j with
  | zero => rfl
  | succ j => exact absurd hj (h.post j).ne

omit [Plug] in
theorem Consumed.index {c ts c'} (h : Consumed c ts c') : c'.symbol = (c.ahead ts.length).symbol ∧
    ∀ v, ts.getLast? = some v → (c.ahead (ts.length - 1)).symbol = .ok v := by
  induction h with
  | done _ h => exact ⟨h, by simp⟩
  | @step c t ts c' h1 _ ih =>
    refine ⟨ih.1, fun v hv => ?_⟩
    cases ts with
    | nil => simp at hv; subst hv; exact h1
    | cons u ts =>
      have := ih.2 v (by simpa using hv)
      simpa [PSt.ahead] using this

omit [Plug] in
/-- A function whose sentences end like an expression. -/
theorem fn_ends {n f c t c'} (he : FnEnds f = true) (h : run n f c = .ok t c') :
    ∃ ts, Consumed c ts c' ∧ ts ≠ [] ∧ ∀ v, ts.getLast? = some v → lastOf v.kind = true := by
  have key : ∀ p : PN, exprPN p = true → XG (.n p) c c' → ∃ ts, Consumed c ts c' ∧ ts ≠ [] ∧ ∀ v, ts.getLast? = some v → lastOf v.kind = true := by
    rintro p hp ⟨ts, h1, h2⟩
    refine ⟨ts, h1, ?_, fun v hv => XR.endsIn_sound exprPN_ends h2 hp v hv⟩
    obtain ⟨h, h2⟩ := XN.of h2
    exact h2.ne
  have hx := run_exact h
  cases f <;> first | (simp [FnEnds] at he; done) | skip
  all_goals first
    | exact key _ rfl ⟨_, hx.choose_spec.1, hx.choose_spec.2.1⟩
    | exact key _ rfl hx

/-- A body that fails at the number. -/
theorem dead_exec {α : Type} {n} (ih : ∀ f c t c', NumFails f = true → c.symbol = .ok Plug.num → run n f c ≠ .ok t c') {p : Prog α} (h : DeadAt p) :
    ∀ {c a c'}, c.symbol = .ok Plug.num → p.exec (run n) c ≠ .ok a c' := by
  induction h with
  | fail | panic => intro c a c' _ e; simp [Prog.exec] at e
  | getPos _ ih => intro c a c' hc; exact ih _ hc
  | sym _ ih => intro c a c' hc; simp only [Prog.exec, hc]; exact ih hc
  | call hf =>
    intro c a c' hc e
    simp only [Prog.exec] at e
    split at e <;> first | (cases e; done) | skip
    exact ih _ _ _ _ hf hc (by assumption)

theorem dead_body {f} (h : NumFails f = true) : DeadAt (body f) := by
  have hn := Plug.hn
  cases f <;> first | (simp [NumFails] at h; done) | skip
  case importAsNames => exact .getPos fun _ => .call rfl
  all_goals
    refine DeadAt.getPos fun _ => d_symAt ?_
    rw [if_neg (by rw [hn]; decide)]
    exact .fail

theorem num_fails : ∀ n f c t c', NumFails f = true → c.symbol = .ok Plug.num → run n f c ≠ .ok t c'
  | 0, _, _, _, _, _, _ => by simp [run]
  | n + 1, f, c, t, c', h, hc => dead_exec (num_fails n) (dead_body h) hc

theorem relq_post {α : Type} [LkQ α] {n} (ih : ∀ f g c d t c', Fn.LikeQ f g → PostR c d →
      run n f c = .ok t c' → ∃ u d', Ev g d u d' ∧ PT t u ∧ PostR c' d')
    {m} {p q : Prog α} (h : RelQ m p q) (hm : m = .post) : ∀ {c d a c'}, PostR c d → p.exec (run n) c = .ok a c' →
      ∃ b d', EvP q d b d' ∧ LkQ.rel a b ∧ PostR c' d' := by
  induction h with
  | dead | sym | symAt | adv | advLast | callEnds | call | callAtEnds | callAt => cases hm
  | ret h => intro c d a c' hs e; cases e; exact ⟨_, d, ⟨0, rfl⟩, h, hs⟩
  | fail | panic => intro c d a c' hs e; simp [Prog.exec] at e
  | getPos _ ih =>
    intro c d a c' hs e
    obtain ⟨b, d', ⟨k, h1⟩, h2⟩ := ih _ d.lex.tokStart hm hs e
    exact ⟨b, d', ⟨k, h1⟩, h2⟩
  | symPost _ _ ih1 ih2 =>
    intro c d a c' hs e
    have h0 := hs.2 0
    simp only [PSt.ahead, SymR] at h0
    simp only [Prog.exec] at e
    cases hc : c.symbol <;> cases hd : d.symbol <;> simp only [hc, hd] at h0 e
    · obtain ⟨b, d', ⟨k, h1⟩, h2⟩ := ih2 hm (d := d) hs e
      exact ⟨b, d', ⟨k, by simp only [Prog.exec, hd]; exact h1⟩, h2⟩
    · obtain ⟨b, d', ⟨k, h1⟩, h2⟩ := ih1 _ _ h0 hm (d := d) hs e
      exact ⟨b, d', ⟨k, by simp only [Prog.exec, hd]; exact h1⟩, h2⟩
  | advPost _ ih1 =>
    intro c d a c' hs e
    obtain ⟨b, d', ⟨k, h1⟩, h2⟩ := ih1 hm (d := d.advance) (PostR.adv hs) e
    exact ⟨b, d', ⟨k, h1⟩, h2⟩
  | @callPost f g k l hl h ih1 =>
    intro c d a c' hs e
    simp only [Prog.exec] at e
    cases hr : run n f c <;> rw [hr] at e <;> simp only [reduceCtorEq] at e
    obtain ⟨u, d1, g1, g2, g3⟩ := ih _ _ _ _ _ _ hl hs hr
    obtain ⟨b, d', h1, h2⟩ := ih1 _ _ g2 hm (d := d1) g3 e
    exact ⟨b, d', evp_bind (evp_parse g1) h1, h2⟩
  | getExc _ ih =>
    intro c d a c' hs e
    obtain ⟨b, d', ⟨k, h1⟩, h2⟩ := ih _ hm (d := d) hs e
    exact ⟨b, d', ⟨k, by simp only [Prog.exec]; rw [← hs.1]; exact h1⟩, h2⟩
  | setExc _ ih =>
    intro c d a c' hs e
    obtain ⟨b, d', ⟨k, h1⟩, h2⟩ := ih hm (hs.setExc _) e
    exact ⟨b, d', ⟨k, h1⟩, h2⟩

theorem run_post : ∀ n f g c d t c', Fn.LikeQ f g → PostR c d → run n f c = .ok t c' → ∃ u d', Ev g d u d' ∧ PT t u ∧ PostR c' d'
  | 0, _, _, _, _, _, _, _, _, h => by simp [run] at h
  | n + 1, f, g, c, d, t, c', hl, hs, h => by
    obtain ⟨b, d', h1, h2⟩ := relq_post (run_post n) ((q_body (o := none) hl).post rfl) rfl hs h
    exact ⟨b, d', ev_body h1, h2⟩

theorem relq_exec {α : Type} [LkQ α] {M n} (ih : ∀ f g m c d t c', Fn.LikeQ f g → St M m c d → (m = .at → FnSafe f = true) →
      run n f c = .ok t c' → ∃ u d' m', Ev g d u d' ∧ PT t u ∧ m.rank ≤ m'.rank ∧ St M m' c' d')
    {m} {p q : Prog α} (h : RelQ m p q) : ∀ {c d a c'}, St M m c d → p.exec (run n) c = .ok a c' →
      ∃ b d' m', EvP q d b d' ∧ LkQ.rel a b ∧ m.rank ≤ m'.rank ∧ St M m' c' d' := by
  induction h with
  | ret h => intro c d a c' hs e; cases e; exact ⟨_, d, _, ⟨0, rfl⟩, h, Nat.le_refl _, hs⟩
  | fail | panic => intro c d a c' hs e; simp [Prog.exec] at e
  | dead h => intro c d a c' hs e; exact absurd e (dead_exec (num_fails n) h (AtR.left hs))
  | getPos _ ih =>
    intro c d a c' hs e
    obtain ⟨b, d', m', ⟨k, h1⟩, h2⟩ := ih _ d.lex.tokStart hs e
    exact ⟨b, d', m', ⟨k, h1⟩, h2⟩
  | @sym o _ _ _ _ _ _ ih1 ih2 =>
    intro c d a c' hs e
    obtain ⟨k, hp⟩ := hs.pre
    have h0 := hp.sym 0 hp.pos
    simp only [PSt.ahead, SymR] at h0
    simp only [Prog.exec] at e
    cases hc : c.symbol <;> cases hd : d.symbol <;> simp only [hc, hd] at h0 e
    · obtain ⟨b, d', m', ⟨k, h1⟩, h2⟩ := ih2 (d := d) ⟨k, hp⟩ e
      exact ⟨b, d', m', ⟨k, by simp only [Prog.exec, hd]; exact h1⟩, h2⟩
    · obtain ⟨b, d', m', ⟨k, h1⟩, h2⟩ := ih1 _ _ h0 (d := d) ⟨hc, k, hp⟩ e
      exact ⟨b, d', m', ⟨k, by simp only [Prog.exec, hd]; exact h1⟩, h2⟩
  | symAt _ ih =>
    intro c d a c' hs e
    have hc := AtR.left hs
    have hd := AtR.right hs
    simp only [Prog.exec, hc] at e
    obtain ⟨b, d', m', ⟨k, h1⟩, h2⟩ := ih hs e
    exact ⟨b, d', m', ⟨k, by simp only [Prog.exec, hd]; exact h1⟩, h2⟩
  | symPost _ _ ih1 ih2 =>
    intro c d a c' hs e
    have h0 := hs.2 0
    simp only [PSt.ahead, SymR] at h0
    simp only [Prog.exec] at e
    cases hc : c.symbol <;> cases hd : d.symbol <;> simp only [hc, hd] at h0 e
    · obtain ⟨b, d', m', ⟨k, h1⟩, h2⟩ := ih2 (d := d) hs e
      exact ⟨b, d', m', ⟨k, by simp only [Prog.exec, hd]; exact h1⟩, h2⟩
    · obtain ⟨b, d', m', ⟨k, h1⟩, h2⟩ := ih1 _ _ h0 (d := d) hs e
      exact ⟨b, d', m', ⟨k, by simp only [Prog.exec, hd]; exact h1⟩, h2⟩
  | adv _ _ ih1 ih2 =>
    intro c d a c' hs e
    obtain ⟨k, hp⟩ := hs.pre
    rcases hp.adv with hp | ⟨hp, -⟩
    · obtain ⟨b, d', m', ⟨k, h1⟩, h2, h3, h4⟩ := ih1 (d := d.advance) hp e
      exact ⟨b, d', m', ⟨k, h1⟩, h2, Nat.zero_le _, h4⟩
    · obtain ⟨b, d', m', ⟨k, h1⟩, h2, h3, h4⟩ := ih2 (d := d.advance) hp e
      exact ⟨b, d', m', ⟨k, h1⟩, h2, Nat.zero_le _, h4⟩
  | advLast hl _ ih1 =>
    intro c d a c' hs e
    obtain ⟨k, hp⟩ := hs.pre
    rcases hp.adv with hp | ⟨-, hp⟩
    · obtain ⟨b, d', m', ⟨k, h1⟩, h2, h3, h4⟩ := ih1 (d := d.advance) hp e
      exact ⟨b, d', m', ⟨k, h1⟩, h2, Nat.zero_le _, h4⟩
    · rw [hp _ hs.1] at hl; cases hl
  | advPost _ ih1 =>
    intro c d a c' hs e
    obtain ⟨b, d', m', ⟨k, h1⟩, h2⟩ := ih1 (d := d.advance) (PostR.adv hs) e
    exact ⟨b, d', m', ⟨k, h1⟩, h2⟩
  | @callEnds o f g k l hf hl h ih1 =>
    intro c d a c' hs e
    simp only [Prog.exec] at e
    cases hr : run n f c <;> rw [hr] at e <;> simp only [reduceCtorEq] at e
    obtain ⟨u, d1, m1, g1, g2, g3, g4⟩ := ih _ _ _ _ _ _ _ hl hs (by intro h; cases h) hr
    obtain ⟨j, hp⟩ := hs.pre
    match m1, g4 with
    | .pre o1, g4 =>
      obtain ⟨b, d', m', h1, h2, h3, h4⟩ := ih1 _ _ g2 (d := d1) g4.pre e
      exact ⟨b, d', m', evp_bind (evp_parse g1) h1, h2, Nat.zero_le _, h4⟩
    | .at, g4 =>
      exfalso
      obtain ⟨ts, k1, k2, k3⟩ := fn_ends hf hr
      have hi := hp.notNum _ (k1.index.1 ▸ AtR.left g4)
      obtain ⟨w, v, rfl⟩ := List.eq_nil_or_concat ts |>.resolve_left k2
      have h1 := k1.index.2 v (by simp)
      have h2 := hp.prev v (by rw [← hi]; exact h1)
      rw [k3 v (by simp)] at h2
      cases h2
    | .post, g4 =>
      obtain ⟨b, d', h1, h2, h3⟩ := relq_post (run_post n) ((h _ _ g2).post rfl) rfl (d := d1) g4 e
      exact ⟨b, d', .post, evp_bind (evp_parse g1) h1, h2, Nat.zero_le _, h3⟩
  | @call o f g k l hl h _ ih1 ih2 =>
    intro c d a c' hs e
    simp only [Prog.exec] at e
    cases hr : run n f c <;> rw [hr] at e <;> simp only [reduceCtorEq] at e
    obtain ⟨u, d1, m1, g1, g2, g3, g4⟩ := ih _ _ _ _ _ _ _ hl hs (by intro h; cases h) hr
    match m1, g4 with
    | .pre o1, g4 =>
      obtain ⟨b, d', m', h1, h2, h3, h4⟩ := ih1 _ _ g2 (d := d1) g4.pre e
      exact ⟨b, d', m', evp_bind (evp_parse g1) h1, h2, Nat.zero_le _, h4⟩
    | .at, g4 =>
      obtain ⟨b, d', m', h1, h2, h3, h4⟩ := ih2 _ _ g2 (d := d1) g4 e
      exact ⟨b, d', m', evp_bind (evp_parse g1) h1, h2, Nat.zero_le _, h4⟩
    | .post, g4 =>
      obtain ⟨b, d', h1, h2, h3⟩ := relq_post (run_post n) ((h _ _ g2).post rfl) rfl (d := d1) g4 e
      exact ⟨b, d', .post, evp_bind (evp_parse g1) h1, h2, Nat.zero_le _, h3⟩
  | @callAtEnds f g k l hf hsf hl h ih1 =>
    intro c d a c' hs e
    simp only [Prog.exec] at e
    cases hr : run n f c <;> rw [hr] at e <;> simp only [reduceCtorEq] at e
    obtain ⟨u, d1, m1, g1, g2, g3, g4⟩ := ih _ _ _ _ _ _ _ hl hs (fun _ => hsf) hr
    match m1, g3, g4 with
    | .pre o1, g3, g4 => exact absurd g3 (by simp [PMode.rank])
    | .at, g3, g4 =>
      exfalso
      obtain ⟨ts, k1, k2, k3⟩ := fn_ends hf hr
      have hi := AtR.notNum hs _ (k1.index.1 ▸ AtR.left g4)
      exact k2 (List.length_eq_zero_iff.1 hi)
    | .post, g3, g4 =>
      obtain ⟨b, d', m', h1, h2, h3, h4⟩ := ih1 _ _ g2 (d := d1) g4 e
      exact ⟨b, d', m', evp_bind (evp_parse g1) h1, h2, Nat.le_trans g3 h3, h4⟩
  | @callAt f g k l hsf hl h _ ih1 ih2 =>
    intro c d a c' hs e
    simp only [Prog.exec] at e
    cases hr : run n f c <;> rw [hr] at e <;> simp only [reduceCtorEq] at e
    obtain ⟨u, d1, m1, g1, g2, g3, g4⟩ := ih _ _ _ _ _ _ _ hl hs (fun _ => hsf) hr
    match m1, g3, g4 with
    | .pre o1, g3, g4 => exact absurd g3 (by simp [PMode.rank])
    | .at, g3, g4 =>
      obtain ⟨b, d', m', h1, h2, h3, h4⟩ := ih2 _ _ g2 (d := d1) g4 e
      exact ⟨b, d', m', evp_bind (evp_parse g1) h1, h2, h3, h4⟩
    | .post, g3, g4 =>
      obtain ⟨b, d', m', h1, h2, h3, h4⟩ := ih1 _ _ g2 (d := d1) g4 e
      exact ⟨b, d', m', evp_bind (evp_parse g1) h1, h2, Nat.le_trans g3 h3, h4⟩
  | @callPost f g k l hl h ih1 =>
    intro c d a c' hs e
    obtain ⟨b, d', h1, h2, h3⟩ := relq_post (run_post n) (.callPost hl h) rfl (d := d) hs e
    exact ⟨b, d', .post, h1, h2, Nat.le_refl _, h3⟩
  | getExc _ ih =>
    intro c d a c' hs e
    obtain ⟨b, d', m', ⟨k, h1⟩, h2⟩ := ih _ (d := d) hs e
    exact ⟨b, d', m', ⟨k, by simp only [Prog.exec]; rw [← hs.exc]; exact h1⟩, h2⟩
  | setExc _ ih =>
    intro c d a c' hs e
    obtain ⟨b, d', m', ⟨k, h1⟩, h2⟩ := ih (hs.setExc _) e
    exact ⟨b, d', m', ⟨k, h1⟩, h2⟩

/-- The atom at the number. -/
theorem atom_num {n c t c'} (hc : c.symbol = .ok Plug.num) (h : run n .atom c = .ok t c') :
    t.plug Plug.num Plug.r = Plug.r ∧ c' = c.advance := by
  cases n with
  | zero => simp [run] at h
  | succ n =>
    have hn := Plug.hn
    have h : (atomBody).exec (run n) c = .ok t c' := h
    unfold atomBody at h
    simp [Prog.exec, bind, Prog.bind, here, symAt, next, Prog.mk, hc, hn] at h
    obtain ⟨rfl, rfl⟩ := h
    simp [Tree.plug, isLeaf]

theorem run_plug {M : Nat} : ∀ n f g m c d t c', Fn.LikeQ f g → St M m c d → (m = .at → FnSafe f = true) →
    run n f c = .ok t c' → ∃ u d' m', Ev g d u d' ∧ PT t u ∧ m.rank ≤ m'.rank ∧ St M m' c' d'
  | 0, _, _, _, _, _, _, _, _, _, _, h => by simp [run] at h
  | n + 1, f, g, m, c, d, t, c', hl, hs, hsf, h => by
    match m, hs, hsf with
    | .pre o, hs, _ =>
      obtain ⟨b, d', m', h1, h2⟩ := relq_exec (run_plug n) (q_body hl) hs h
      exact ⟨b, d', m', ev_body h1, h2⟩
    | .at, hs, hsf =>
      by_cases ha : f = .atom
      · subst ha
        cases hl
        obtain ⟨h1, rfl⟩ := atom_num (AtR.left hs) h
        obtain ⟨u, h2, h3⟩ := AtR.atom hs d.exc
        refine ⟨u, d.ahead M, .post, h2, by rw [PT, h1, h3], by simp [PMode.rank], ?_, fun j => ?_⟩
        · rw [advance_exc_eq, ahead_keeps, AtR.exc hs]
        · have := AtR.post hs j
          rwa [ahead_add d] at this
      · obtain ⟨b, d', m', h1, h2⟩ := relq_exec (run_plug n) (qa_body hl (hsf rfl) ha) hs h
        exact ⟨b, d', m', ev_body h1, h2⟩
    | .post, hs, _ =>
      obtain ⟨b, d', h1, h2, h3⟩ := relq_post (run_post n) ((q_body (o := none) hl).post rfl) rfl hs h
      exact ⟨b, d', .post, ev_body h1, h2, Nat.le_refl _, h3⟩

end
end Verif
