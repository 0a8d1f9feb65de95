import Verif.Proof.Wp
import Verif.Proof.Complete
import Verif.Proof.SimpSets

/-!
# Which tokens expressions start with and which tokens can follow them
-/

namespace Verif
section
variable [Uni]

omit [Uni] in
/-- The current symbol is a token that can start an expression of level `n`. -/
def First (n : Nat) (c : PSt) : Prop := ∃ u m, c.symbol = .ok u ∧ u.kind.starts = some m ∧ m ≤ n

omit [Uni] in
/-- The current symbol does not continue an expression of level `n`. -/
def Follow (n : Nat) (c : PSt) : Prop :=
  (∀ u, c.symbol = .ok u → ∀ m, u.kind.continues = some m → m = 0 ∨ n < m) ∧ (3 ≤ n → ∃ u, c.symbol = .ok u)

/-- What is proved of each parse function. -/
def ΦF : Fn → PSt → Tree → PSt → Prop
  | .atom, c, _, _ => First 0 c
  | .trailerLoop .., _, _, c' => Follow 1 c'
  | .atomExpr, c, _, c' => First 2 c ∧ Follow 1 c'
  | .power, c, _, c' => First 3 c ∧ Follow 3 c'
  | .factor, c, _, c' => First 4 c ∧ Follow 4 c'
  | .term, c, _, c' => First 5 c ∧ Follow 5 c'
  | .termLoop .., c, _, c' => Follow 4 c → Follow 5 c'
  | .arith, c, _, c' => First 6 c ∧ Follow 6 c'
  | .arithLoop .., c, _, c' => Follow 5 c → Follow 6 c'
  | .shift, c, _, c' => First 7 c ∧ Follow 7 c'
  | .shiftLoop .., c, _, c' => Follow 6 c → Follow 7 c'
  | .andExpr, c, _, c' => First 8 c ∧ Follow 8 c'
  | .andExprLoop .., c, _, c' => Follow 7 c → Follow 8 c'
  | .xorExpr, c, _, c' => First 9 c ∧ Follow 9 c'
  | .xorExprLoop .., c, _, c' => Follow 8 c → Follow 9 c'
  | .expr, c, _, c' => First 10 c ∧ Follow 10 c'
  | .exprLoop .., c, _, c' => Follow 9 c → Follow 10 c'
  | .starExpr, _, _, c' => Follow 10 c'
  | .comparison, c, _, c' => First 11 c ∧ Follow 11 c'
  | .comparisonLoop .., c, _, c' => Follow 10 c → Follow 11 c'
  | .notTest, c, _, c' => First 12 c ∧ Follow 12 c'
  | .andTest, c, _, c' => First 13 c ∧ Follow 13 c'
  | .andTestLoop .., c, _, c' => Follow 12 c → Follow 13 c'
  | .orTest, c, _, c' => First 14 c ∧ Follow 14 c'
  | .orTestLoop .., c, _, c' => Follow 13 c → Follow 14 c'
  | .lambdaDef b, _, _, c' => Follow 14 c' ∧ (b = true → Follow 15 c')
  | .noCondTest, c, _, c' => First 15 c ∧ Follow 14 c'
  | .test, c, _, c' => First 15 c ∧ Follow 15 c'
  | .namedExpression, c, _, c' => First 16 c ∧ Follow 15 c'
  | _, _, _, _ => True

omit [Uni] in
theorem First.mono {n m c} (h : First n c) (hm : n ≤ m) : First m c := by
  obtain ⟨u, k, h1, h2, h3⟩ := h
  exact ⟨u, k, h1, h2, by omega⟩

omit [Uni] in
theorem first_of {n c t m} (h : c.symbol = .ok t) (hk : t.kind.starts = some m) (hm : m ≤ n) : First n c := ⟨t, m, h, hk, hm⟩

omit [Uni] in
theorem Follow.mono {n m c} (h : Follow n c) (hm : m ≤ n) : Follow m c :=
  ⟨fun u hu k hk => by have := h.1 u hu k hk; omega, fun h3 => h.2 (by omega)⟩

omit [Uni] in
theorem Follow.step {n c t} (h : Follow (n - 1) c) (ht : c.symbol = .ok t) (hk : t.kind.continues ≠ some n) (hn : 0 < n) : Follow n c := by
  refine ⟨fun u hu k hk' => ?_, fun _ => ⟨t, ht⟩⟩
  have := h.1 u hu k hk'
  rw [ht] at hu
  cases hu
  have : k ≠ n := fun e => hk (e ▸ hk')
  omega

theorem wp_leftLoop {Φ : Fn → PSt → Tree → PSt → Prop} {op operand self msg s left c Q}
    (h1 : ∀ t, c.symbol = .ok t → op t.kind = none → Q left c)
    (h2 : ∀ t tag r c1, c.symbol = .ok t → op t.kind = some tag → Φ operand c.advance r c1 →
      ∀ y c', Φ (self s (.node tag s c1.lex.tokStart [left, .tok t, r])) c1 y c' → Q y c') :
    WP Φ (leftLoopBody op operand self msg s left) c Q := by
  unfold leftLoopBody
  simp only [wp_bind, wp_symAt]
  intro t ht
  cases ho : op t.kind with
  | none => simp only [wp_pure]; exact h1 t ht ho
  | some tag =>
    simp only [wp_bind, wp_next, wp_parse, wp_mk]
    exact fun r c1 hr y c' hy => h2 t tag r c1 ht ho hr y c' hy

theorem sound_follow (f : Fn) (c : PSt) : WP ΦF (body f) c (ΦF f c) := by
  cases f
  case atom =>
    simp only [body, atomBody, wp_bind, wp_here, wp_symAt]
    intro t ht
    have key : ∀ m, t.kind.starts = some m → m = 0 → ∀ p : Prog Tree, WP ΦF p c (ΦF .atom c) :=
      fun m hm h0 p => wp_any p (fun _ _ => first_of ht hm (by omega))
    repeat' (first
      | (rw [wp_ite]; refine ⟨fun hk => ?_, fun _ => ?_⟩; · exact key 0 (by rw [hk]; rfl) rfl _)
      | exact trivial)
  case trailerLoop s a r l =>
    have fin : ∀ c : PSt, (∀ u, c.symbol = .ok u → ¬ (u.kind = .PyLeftParen ∨ u.kind = .PyLeftBracket ∨ u.kind = .PyDot)) →
        WP ΦF (trailerLoopBody.fin s a r l) c (fun _ c' => Follow 1 c') := by
      intro c hc
      have hf : Follow 1 c := by
        refine ⟨fun u hu m hm => ?_, fun h => by omega⟩
        have := hc u hu
        revert hm this
        cases u.kind <;> simp [Kind.continues] <;> omega
      unfold trailerLoopBody.fin
      split
      · simpa only [wp_pure] using hf
      · simpa only [wp_mk] using hf
    simp only [body, trailerLoopBody, wp_bind, wp_sym?]
    refine ⟨fun t ht => ?_, fun x hx => fin c (fun u hu => by rw [hx] at hu; cases hu)⟩
    rw [wp_ite]
    refine ⟨fun _ => ?_, fun hk => fin c (fun u hu => by rw [ht] at hu; cases hu; exact hk)⟩
    simp only [wp_bind, wp_parse]
    exact fun _ _ _ _ _ h => h
  case atomExpr =>
    simp only [body, atomExprBody, wp_bind, wp_here, wp_symAt, wp_ite, wp_next, wp_pure, wp_parse]
    exact fun t ht => ⟨fun hk _ _ _ _ _ h => ⟨first_of ht (m := 2) (by rw [hk]; rfl) (by omega), h⟩,
      fun _ _ _ h1 _ _ h => ⟨h1.mono (by omega), h⟩⟩
  case power =>
    simp only [body, powerBody, wp_bind, wp_here, wp_symAt, wp_ite, wp_next, wp_pure, wp_parse, wp_mk]
    refine fun r c1 h1 t ht => ⟨fun _ _ _ h2 => ⟨h1.1.mono (by omega), h2.2.mono (by omega)⟩, fun hk => ⟨h1.1.mono (by omega), ?_⟩⟩
    refine ⟨fun u hu k hk' => ?_, fun _ => ⟨t, ht⟩⟩
    have := h1.2.1 u hu k hk'
    rw [ht] at hu
    cases hu
    revert this hk' hk
    cases t.kind <;> simp [Kind.continues] <;> omega
  case factor =>
    simp only [body, factorBody, wp_bind, wp_here, wp_symAt, wp_ite, wp_next, wp_parse, wp_mk]
    refine fun t ht => ⟨fun hk _ _ h => ⟨first_of ht (m := 4) (by rw [hk]; rfl) (by omega), h.2⟩, fun _ =>
      ⟨fun hk _ _ h => ⟨first_of ht (m := 4) (by rw [hk]; rfl) (by omega), h.2⟩, fun _ =>
        ⟨fun hk _ _ h => ⟨first_of ht (m := 4) (by rw [hk]; rfl) (by omega), h.2⟩, fun _ _ _ h => ⟨h.1.mono (by omega), ?_⟩⟩⟩⟩
    obtain ⟨u, hu⟩ := h.2.2 (by omega)
    refine Follow.step h.2 hu ?_ (by omega)
    cases u.kind <;> simp [Kind.continues]
  case term | arith | shift | andExpr | xorExpr | expr | comparison | andTest | orTest =>
    simp only [body, termBody, arithBody, shiftBody, andExprBody, xorExprBody, exprBody, comparisonBody, andTestBody, orTestBody,
      wp_bind, wp_here, wp_parse]
    exact fun _ _ h _ _ h' => ⟨h.1.mono (by omega), h' h.2⟩
  case termLoop | arithLoop | shiftLoop | andExprLoop | xorExprLoop | exprLoop | andTestLoop | orTestLoop =>
    refine wp_leftLoop (fun t ht hn h => ?_) (fun t tag r c1 ht ho hr y c' hy h => hy hr.2)
    refine Follow.step h ht ?_ (by omega)
    revert hn
    cases t.kind <;> simp [Kind.continues, termOp, arithOp, shiftOp, andExprOp, xorExprOp, exprOp, andTestOp, orTestOp]
  case starExpr =>
    simp only [body, starExprBody, wp_bind, wp_here, wp_symAt, wp_ite, wp_next, wp_parse, wp_mk, wp_fail]
    exact fun t ht => ⟨fun hk _ _ h => h.2, fun _ => trivial⟩
  case comparisonLoop =>
    simp only [body, comparisonLoopBody, wp_bind, wp_symAt]
    intro t ht
    cases ho : compOp t.kind with
    | some tag =>
      simp only [wp_bind, wp_next, wp_parse, wp_mk]
      exact fun r c1 hr y c' hy _ => hy hr.2
    | none =>
      simp only [wp_bind, wp_next, wp_parse, wp_mk, wp_ite, wp_symAt, wp_fail, wp_pure]
      refine ⟨fun _ t2 _ => ⟨fun _ r c1 hr y c' hy _ => hy hr.2, fun _ r c1 hr y c' hy _ => hy hr.2⟩, fun hi =>
        ⟨fun _ t2 _ => ⟨fun _ r c1 hr y c' hy _ => hy hr.2, fun _ => trivial⟩, fun hn h => ?_⟩⟩
      refine Follow.step h ht ?_ (by omega)
      revert ho hi hn
      cases t.kind <;> simp [Kind.continues, compOp]
  case notTest =>
    simp only [body, notTestBody, wp_bind, wp_here, wp_symAt, wp_ite, wp_next, wp_parse, wp_mk]
    refine fun t ht => ⟨fun hk _ _ h => ⟨first_of ht (m := 12) (by rw [hk]; rfl) (by omega), h.2⟩, fun _ _ _ h => ⟨h.1.mono (by omega), ?_⟩⟩
    obtain ⟨u, hu⟩ := h.2.2 (by omega)
    refine Follow.step h.2 hu ?_ (by omega)
    cases u.kind <;> simp [Kind.continues]
  case lambdaDef b =>
    simp only [body, lambdaDefBody, wp_bind, wp_here, wp_symHere, wp_ite, wp_next, wp_parse, wp_mk, wp_pure, wp_failHere]
    refine fun t ht t2 ht2 => ⟨fun _ t3 _ => ⟨fun _ => ⟨fun hb _ _ h => ⟨h.2.mono (by omega), fun _ => h.2⟩, fun hb _ _ h => ⟨h.2, fun h' => absurd h' hb⟩⟩, fun _ => trivial⟩,
      fun _ _ _ _ t3 _ => ⟨fun _ => ⟨fun hb _ _ h => ⟨h.2.mono (by omega), fun _ => h.2⟩, fun hb _ _ h => ⟨h.2, fun h' => absurd h' hb⟩⟩, fun _ => trivial⟩⟩
  case noCondTest =>
    simp only [body, noCondTestBody, wp_bind, wp_symHere, wp_ite, wp_parse]
    exact fun t ht => ⟨fun hk _ _ h => ⟨first_of ht (m := 15) (by rw [hk]; rfl) (by omega), h.1⟩, fun _ _ _ h => ⟨h.1.mono (by omega), h.2⟩⟩
  case test =>
    simp only [body, testBody, wp_bind, wp_here, wp_symHere, wp_ite, wp_next, wp_parse, wp_mk, wp_pure, wp_failHere]
    refine fun t ht => ⟨fun hk _ _ h => ⟨first_of ht (m := 15) (by rw [hk]; rfl) (by omega), h.2 rfl⟩, fun _ l c1 h1 t1 ht1 =>
      ⟨fun _ r c2 h2 t2 ht2 => ⟨fun _ n c3 h3 => ⟨h1.1.mono (by omega), h3.2⟩, fun _ => trivial⟩, fun hk => ⟨h1.1.mono (by omega), ?_⟩⟩⟩
    refine Follow.step h1.2 ht1 ?_ (by omega)
    revert hk
    cases t1.kind <;> simp [Kind.continues]
  case namedExpression =>
    simp only [body, namedExpressionBody, wp_bind, wp_here, wp_symHere, wp_ite, wp_next, wp_parse, wp_mk, wp_pure]
    refine fun l c1 h1 t ht => ⟨fun _ r c2 h2 => ⟨h1.1.mono (by omega), h2.2⟩, fun hk => ⟨h1.1.mono (by omega), h1.2⟩⟩
  all_goals exact wp_any _ (fun _ _ => trivial)

theorem ev_follow {f c t c'} (h : Ev f c t c') : ΦF f c t c' := by
  obtain ⟨n, h⟩ := h
  exact run_sound sound_follow n f c t c' h

/-! ### Inversion of successful runs -/

/-- What the body of a function guarantees, if its calls are runs. -/
theorem ev_inv {f c t c'} {Q : Tree → PSt → Prop} (h : Ev f c t c') (hq : WP Ev (body f) c Q) : Q t c' := by
  obtain ⟨n, h⟩ := h
  cases n with
  | zero => simp [run] at h
  | succ n => exact wp_sound (fun f c t c' hr => ⟨n, hr⟩) (body f) c Q hq t c' h

/-- An invariant of the bodies, which may use that calls are runs, holds for all runs. -/
theorem ev_sound {Ψ : Fn → PSt → Tree → PSt → Prop}
    (hs : ∀ f c, WP (fun f c t c' => Ev f c t c' ∧ Ψ f c t c') (body f) c (Ψ f c)) {f c t c'} (h : Ev f c t c') :
    Ψ f c t c' := by
  obtain ⟨n, h⟩ := h
  induction n generalizing f c t c' with
  | zero => simp [run] at h
  | succ n ih => exact wp_sound (fun f c t c' hr => ⟨⟨n, hr⟩, ih hr⟩) (body f) c _ (hs f c) t c' h

/-! ### Runs that never succeed -/

/-- `f` is never accepted in the state `c`. -/
def Never (f : Fn) (c : PSt) : Prop := ∀ n t c', run n f c ≠ .ok t c'

def NeverP {α : Type} (p : Prog α) (c : PSt) : Prop := ∀ n a c', p.exec (run n) c ≠ .ok a c'

theorem never_ev {f c} (h : ∀ t c', ¬ Ev f c t c') : Never f c := fun n t c' hr => h t c' ⟨n, hr⟩

theorem never_body {f c} (h : NeverP (body f) c) : Never f c := by
  intro n t c' hr
  cases n with
  | zero => simp [run] at hr
  | succ n => exact h n t c' hr

theorem evp_det {α : Type} {p : Prog α} {c a a' d d'} (h : EvP p c a d) (h' : EvP p c a' d') : a = a' ∧ d = d' := by
  obtain ⟨n, h⟩ := h
  obtain ⟨m, h'⟩ := h'
  have h1 := exec_ok_mono h (Nat.le_max_left n m)
  have h2 := exec_ok_mono h' (Nat.le_max_right n m)
  rw [h1] at h2
  cases h2
  exact ⟨rfl, rfl⟩

theorem ev_det {f c t t' d d'} (h : Ev f c t d) (h' : Ev f c t' d') : t = t' ∧ d = d' := evp_det (evp_parse h) (evp_parse h')

theorem exec_bind_ok {α β : Type} (r : Fn → PSt → Res Tree) (p : Prog α) (f : α → Prog β) (c : PSt) {b c'} :
    (p >>= f).exec r c = .ok b c' → ∃ a d, p.exec r c = .ok a d ∧ (f a).exec r d = .ok b c' := by
  change (p.bind f).exec r c = .ok b c' → _
  induction p generalizing c with
  | ret a => exact fun h => ⟨a, c, rfl, h⟩
  | fail | panic => intro h; cases h
  | getPos k ih | getExc k ih => exact ih _ _
  | adv k ih | setExc x k ih => exact ih _
  | sym k e ih1 ih2 =>
    simp only [Prog.bind, Prog.exec]
    cases hs : c.symbol with
    | ok t => exact ih1 _ _
    | error x => exact ih2 _
  | call g k ih =>
    simp only [Prog.bind, Prog.exec]
    cases hr : r g c with
    | ok t c1 => exact ih _ _
    | err | panic | diverge => intro h; cases h

theorem neverp_bind {α β : Type} {p : Prog α} {f : α → Prog β} {c a d} (h1 : EvP p c a d) (h2 : NeverP (f a) d) :
    NeverP (p >>= f) c := by
  intro n b c' hr
  obtain ⟨a', d', h3, h4⟩ := exec_bind_ok _ _ _ _ hr
  obtain ⟨rfl, rfl⟩ := evp_det h1 ⟨n, h3⟩
  exact h2 n b c' h4

theorem neverp_left {α β : Type} {p : Prog α} {f : α → Prog β} {c} (h : NeverP p c) : NeverP (p >>= f) c := by
  intro n b c' hr
  obtain ⟨a', d', h3, h4⟩ := exec_bind_ok _ _ _ _ hr
  exact h _ _ _ h3

theorem neverp_any {α β : Type} {p : Prog α} {f : α → Prog β} {c} (h : ∀ a d, EvP p c a d → NeverP (f a) d) : NeverP (p >>= f) c := by
  intro n b c' hr
  obtain ⟨a', d', h3, h4⟩ := exec_bind_ok _ _ _ _ hr
  exact h a' d' ⟨n, h3⟩ _ _ _ h4

theorem neverp_fail {α : Type} {p m c} : NeverP (.fail p m : Prog α) c := fun n a c' h => by cases h
theorem neverp_failHere {α : Type} {m c} : NeverP (Prog.failHere m : Prog α) c := fun n a c' h => by cases h
theorem neverp_parse {f c} (h : Never f c) : NeverP (Prog.parse f) c := by
  intro n a c' hr
  simp only [Prog.parse, Prog.exec] at hr
  cases hf : run n f c with
  | ok t d => exact h _ _ _ hf
  | err | panic | diverge => rw [hf] at hr; simp at hr

theorem evp_of_parse {f c t c'} (h : EvP (Prog.parse f) c t c') : Ev f c t c' := by
  obtain ⟨n, h⟩ := h
  simp only [Prog.parse, Prog.exec] at h
  cases hf : run n f c with
  | ok t d => rw [hf] at h; simp only [Res.ok.injEq] at h; obtain ⟨rfl, rfl⟩ := h; exact ⟨n, hf⟩
  | err | panic | diverge => rw [hf] at h; simp at h

theorem evp_ite_bind {α β : Type} {b : Prop} [Decidable b] {p q : Prog α} {k : α → Prog β} {c a d x c'}
    (h : EvP (if b then p else q) c a d) (hk : EvP (k a) d x c') : EvP (if b then p >>= k else q >>= k) c x c' := by
  by_cases hb : b
  · simp only [hb, if_true] at h ⊢
    exact evp_bind h hk
  · simp only [hb, if_false] at h ⊢
    exact evp_bind h hk

theorem neverp_ite_bind {α β : Type} {b : Prop} [Decidable b] {p q : Prog α} {k : α → Prog β} {c a d}
    (h : EvP (if b then p else q) c a d) (hk : NeverP (k a) d) : NeverP (if b then p >>= k else q >>= k) c := by
  by_cases hb : b
  · simp only [hb, if_true] at h ⊢
    exact neverp_bind h hk
  · simp only [hb, if_false] at h ⊢
    exact neverp_bind h hk

end
end Verif
