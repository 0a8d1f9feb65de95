import Verif.Spec.Viable
import Verif.Spec.Position
import Verif.Proof.ExactSoundStmt3
import Verif.Proof.ReadsStmt

/-!
# Failing runs: the tokens taken before an error can be completed
-/

namespace Verif
open Prog XR
set_option linter.unusedVariables false

/-! ### Reasoning about failing runs -/

/-- `WF Φ Ψ E p c Q`: if all calls that succeed satisfy `Φ`, and all calls that fail in a state `d` satisfy `Ψ`, then the body `p`,
started in `c`, ends with a result and a state that satisfy `Q`, or fails in a state that satisfies `E`. -/
def WF [Uni] {α : Type} (Φ : Fn → PSt → Tree → PSt → Prop) (Ψ : Fn → PSt → PSt → Prop) (E : PSt → Prop) :
    Prog α → PSt → (α → PSt → Prop) → Prop
  | .ret a, c, Q => Q a c
  | .fail .., c, _ => E c
  | .panic, _, _ => True
  | .getPos g, c, Q => WF Φ Ψ E (g c.lex.tokStart) c Q
  | .sym g e, c, Q => (∀ t, c.symbol = .ok t → WF Φ Ψ E (g t) c Q) ∧ (∀ x, c.symbol = .error x → WF Φ Ψ E e c Q)
  | .adv g, c, Q => WF Φ Ψ E g c.advance Q
  | .call f g, c, Q => (∀ d, Ψ f c d → E d) ∧ ∀ t c1, Φ f c t c1 → WF Φ Ψ E (g t) c1 Q
  | .getExc g, c, Q => WF Φ Ψ E (g c.exc) c Q
  | .setExc x g, c, Q => WF Φ Ψ E g { c with exc := x } Q

section
variable [Uni] {α β : Type} {Φ : Fn → PSt → Tree → PSt → Prop} {Ψ : Fn → PSt → PSt → Prop} {E : PSt → Prop}

theorem wf_sound {rec : Fn → PSt → Res Tree} {recS : Fn → PSt → PSt} (hrec : ∀ f c t c', rec f c = .ok t c' → Φ f c t c')
    (hrecS : ∀ f c p m, rec f c = .err p m → Ψ f c (recS f c))
    (p : Prog α) (c : PSt) (Q : α → PSt → Prop) (h : WF Φ Ψ E p c Q) (pos : Nat) (m : String)
    (hr : p.exec rec c = .err pos m) : E (p.stop rec recS c) := by
  induction p generalizing c with
  | ret a => simp [Prog.exec] at hr
  | fail => exact h
  | panic => simp [Prog.exec] at hr
  | getPos k ih => exact ih _ _ h hr
  | sym k e ih1 ih2 =>
    simp only [Prog.exec] at hr
    simp only [Prog.stop]
    cases hs : c.symbol with
    | ok t => rw [hs] at hr; exact ih1 _ _ (h.1 t hs) hr
    | error x => rw [hs] at hr; exact ih2 _ (h.2 x hs) hr
  | adv k ih => exact ih _ h hr
  | call f k ih =>
    simp only [Prog.exec] at hr
    simp only [Prog.stop]
    cases hf : rec f c with
    | ok t c1 => rw [hf] at hr; exact ih _ _ (h.2 t c1 (hrec _ _ _ _ hf)) hr
    | err p m => exact h.1 _ (hrecS _ _ _ _ hf)
    | panic => rw [hf] at hr; simp at hr
    | diverge => rw [hf] at hr; simp at hr
  | getExc k ih => exact ih _ _ h hr
  | setExc x k ih => exact ih _ h hr

/-- The induction principle: an invariant of the failing bodies holds for all failing runs. -/
theorem run_fails (hΦ : ∀ n f c t c', run n f c = .ok t c' → Φ f c t c')
    (h : ∀ f c, WF Φ Ψ (Ψ f c) (body f) c (fun _ _ => True)) (n : Nat) (f : Fn) (c : PSt) (p : Nat) (m : String)
    (hr : run n f c = .err p m) : Ψ f c (runStop n f c) := by
  induction n generalizing f c p m with
  | zero => simp [run] at hr
  | succ n ih => exact wf_sound (hΦ n) (fun f c p m => ih f c p m) (body f) c _ (h f c) p m hr

theorem wf_mono (p : Prog α) {c : PSt} {E' : PSt → Prop} {Q Q' : α → PSt → Prop} (h : ∀ a c', Q a c' → Q' a c')
    (hE : ∀ d, E d → E' d) (hp : WF Φ Ψ E p c Q) : WF Φ Ψ E' p c Q' := by
  induction p generalizing c with
  | ret a => exact h _ _ hp
  | fail => exact hE _ hp
  | panic => trivial
  | getPos k ih | getExc k ih => exact ih _ hp
  | adv k ih | setExc x k ih => exact ih hp
  | sym k e ih1 ih2 => exact ⟨fun t ht => ih1 t (hp.1 t ht), fun x hx => ih2 (hp.2 x hx)⟩
  | call f k ih => exact ⟨fun d hd => hE _ (hp.1 d hd), fun t c1 hf => ih t (hp.2 t c1 hf)⟩

theorem wf_calls (p : Prog α) {c : PSt} {Φ' : Fn → PSt → Tree → PSt → Prop} {Q : α → PSt → Prop}
    (h : ∀ f c t c', Φ' f c t c' → Φ f c t c') (hp : WF Φ Ψ E p c Q) : WF Φ' Ψ E p c Q := by
  induction p generalizing c with
  | ret a => exact hp
  | fail => exact hp
  | panic => trivial
  | getPos k ih | getExc k ih => exact ih _ hp
  | adv k ih | setExc x k ih => exact ih hp
  | sym k e ih1 ih2 => exact ⟨fun t ht => ih1 t (hp.1 t ht), fun x hx => ih2 (hp.2 x hx)⟩
  | call f k ih => exact ⟨hp.1, fun t c1 hf => ih t (hp.2 t c1 (h _ _ _ _ hf))⟩

theorem wf_bind (p : Prog α) (k : α → Prog β) (c Q) :
    WF Φ Ψ E (p >>= k) c Q = WF Φ Ψ E p c (fun a c' => WF Φ Ψ E (k a) c' Q) := by
  show WF Φ Ψ E (p.bind k) c Q = _
  induction p generalizing c with
  | ret | fail | panic => rfl
  | getPos k ih | adv k ih | getExc k ih | setExc x k ih => simp only [Prog.bind, WF, ih]
  | sym k e ih1 ih2 => simp only [Prog.bind, WF, ih1, ih2]
  | call f k ih => simp only [Prog.bind, WF, ih]

theorem wf_pure (a : α) (c Q) : WF Φ Ψ E (pure a : Prog α) c Q = Q a c := rfl
theorem wf_ret (a : α) (c Q) : WF Φ Ψ E (.ret a) c Q = Q a c := rfl
theorem wf_fail (p m c Q) : WF Φ Ψ E (.fail p m : Prog α) c Q = E c := rfl
theorem wf_panic (c Q) : WF Φ Ψ E (.panic : Prog α) c Q = True := rfl
theorem wf_failHere (m c Q) : WF Φ Ψ E (Prog.failHere m : Prog α) c Q = E c := rfl
theorem wf_here (c Q) : WF Φ Ψ E Prog.here c Q = Q c.lex.tokStart c := rfl
theorem wf_next (c Q) : WF Φ Ψ E Prog.next c Q = Q () c.advance := rfl
theorem wf_parse (f c Q) : WF Φ Ψ E (Prog.parse f) c Q = ((∀ d, Ψ f c d → E d) ∧ ∀ t c1, Φ f c t c1 → Q t c1) := rfl
theorem wf_symAt (p m c) (Q : Token → PSt → Prop) :
    WF Φ Ψ E (Prog.symAt p m) c Q = ((∀ t, c.symbol = .ok t → Q t c) ∧ (∀ x, c.symbol = .error x → E c)) := rfl
theorem wf_symHere (m c) (Q : Token → PSt → Prop) :
    WF Φ Ψ E (Prog.symHere m) c Q = ((∀ t, c.symbol = .ok t → Q t c) ∧ (∀ x, c.symbol = .error x → E c)) := rfl
theorem wf_sym? (c Q) :
    WF Φ Ψ E Prog.sym? c Q = ((∀ t, c.symbol = .ok t → Q (some t) c) ∧ ∀ x, c.symbol = .error x → Q none c) := by
  simp [Prog.sym?, WF]
theorem wf_mk (tag s l c Q) : WF Φ Ψ E (Prog.mk tag s l) c Q = Q (.node tag s c.lex.tokStart l) c := rfl
theorem wf_getExc (k : ExcStatus → Prog α) (c Q) : WF Φ Ψ E (.getExc k) c Q = WF Φ Ψ E (k c.exc) c Q := rfl
theorem wf_setExc (x) (k : Prog α) (c Q) :
    WF Φ Ψ E (.setExc x k) c Q = WF Φ Ψ E k { c with exc := x } Q := rfl
theorem wf_ite (b : Prop) [Decidable b] (p q : Prog α) (c Q) :
    WF Φ Ψ E (if b then p else q) c Q = ((b → WF Φ Ψ E p c Q) ∧ (¬ b → WF Φ Ψ E q c Q)) := by
  by_cases h : b <;> simp [h]

end

/-! ### Every right hand side has sentences -/

/-- The right hand side has a sentence in every state, if the nonterminals that satisfy `R` have. -/
def XR.prod (R : PN → Bool) : XR → Bool
  | .eps | .k _ | .any | .opt _ | .star _ => true
  | .n p => R p
  | .seq a b => a.prod R && b.prod R
  | .alt (.mark .plain) (.seq (.k _) (.mark .starred)) => true
  | .alt a b => a.prod R || b.prod R
  | .only _ _ => false
  | .mark .newTry => true
  | .mark _ => false

def Kind.sample (K : Kind) : Token := .sym K 0 0 none

/-- A token of every kind. -/
theorem kind_token (K : Kind) : ∃ t : Token, t.kind = K := ⟨.sym K 0 0 none, rfl⟩

theorem prod_sound {R : PN → Bool} (hR : ∀ p, R p = true → ∀ x, ∃ us y, XDer pRule (.n p) x us y) :
    ∀ r : XR, r.prod R = true → ∀ x, ∃ us y, XDer pRule r x us y := by
  intro r
  fun_induction XR.prod R r with
  | case1 => exact fun _ x => ⟨[], x, .eps⟩
  | case2 K => exact fun _ x => (kind_token K).elim fun t ht => ⟨[t], x, .k ht⟩
  | case3 => exact fun _ x => ⟨[.eof 0 none], x, .any⟩
  | case4 => exact fun _ x => ⟨[], x, .absent⟩
  | case5 => exact fun _ x => ⟨[], x, .stop⟩
  | case6 p => exact fun h x => hR p h x
  | case7 a b iha ihb =>
    intro h x
    rw [Bool.and_eq_true] at h
    obtain ⟨u, z, ha⟩ := iha h.1 x
    obtain ⟨v, y, hb⟩ := ihb h.2 z
    exact ⟨_, y, .seq ha hb⟩
  | case8 K =>
    intro _ x
    obtain ⟨t, ht⟩ := kind_token K
    cases x with
    | «except» => exact ⟨[], _, .left (.mark rfl)⟩
    | exceptMul => exact ⟨[t], _, .right (.seq (ts := [t]) (.k ht) (.mark rfl))⟩
    | exceptNone => exact ⟨[], _, .left (.mark rfl)⟩
  | case9 a b _ iha ihb =>
    intro h x
    rw [Bool.or_eq_true] at h
    rcases h with h | h
    · obtain ⟨u, y, ha⟩ := iha h x; exact ⟨u, y, .left ha⟩
    · obtain ⟨u, y, hb⟩ := ihb h x; exact ⟨u, y, .right hb⟩
  | case10 => intro h; cases h
  | case11 => exact fun _ x => ⟨[], _, .mark rfl⟩
  | case12 => intro h; cases h

/-- An order in which the nonterminals have sentences. -/
def PN.rank : PN → Nat
  | .file_input | .single_input | .pass_stmt | .break_stmt | .continue_stmt | .return_stmt | .raise_stmt | .import_as_name
  | .dotted_name | .global_stmt | .nonlocal_stmt | .except_clause | .parameters | .vfpdef | .atom | .trailer | .subscript_open => 0
  | .atom_expr | .vararg | .subscriptlist_open | .flow_stmt | .import_as_names | .small_stmt => 1
  | .power | .varargslist | .import_from | .simple_stmt => 2
  | .factor | .suite | .func_body_suite | .import_stmt => 3
  | .term | .else_part | .finally_part | .except_part | .funcdef | .classdef => 4
  | .arith_expr | .try_stmt | .compound_stmt => 5
  | .shift_expr | .stmt => 6
  | .and_expr => 7
  | .xor_expr => 8
  | .expr => 9
  | .comparison | .star_expr => 10
  | .not_test => 11
  | .and_test => 12
  | .or_test => 13
  | .test => 14
  | .namedexpr_test | .test_nocond | .testlist | .testlist_tr | .star_list | .star_list_tr | .subscript | .assert_stmt
  | .elif_part | .if_stmt | .while_stmt | .with_item | .func_type | .typelist => 15
  | .lambdef | .lambdef_nocond | .exprlist | .exprlist_in | .testlist_comp | .subscriptlist | .dictorsetmaker | .comp_if
  | .yield_expr | .yield_expr_tr | .expr_stmt | .with_stmt | .eval_input | .func_type_input => 16
  | .sync_comp_for | .yield_stmt | .del_stmt | .for_stmt => 17
  | .comp_for | .async_stmt => 18
  | .comp_iter => 19

theorem rank_prod (p : PN) : (pRule p).prod (fun q => Nat.blt q.rank p.rank) = true := by cases p <;> rfl

theorem prod_n (p : PN) (x) : ∃ us y, XDer pRule (.n p) x us y := by
  generalize hk : p.rank = m
  induction m using Nat.strongRecOn generalizing p x with
  | _ m ih =>
    obtain ⟨us, y, h⟩ := prod_sound (R := fun q => Nat.blt q.rank p.rank)
      (fun q hq x => ih q.rank (by rw [← hk]; exact Nat.le_of_ble_eq_true hq) q x rfl) _ (rank_prod p) x
    exact ⟨us, y, .n h⟩

/-- The right hand sides all have sentences. -/
def prodK (rs : List XR) : Bool := rs.all (fun r => r.prod (fun _ => true))

theorem prodK_sound : ∀ {rs}, prodK rs = true → ∀ x, ∃ us y, XDK rs x us y
  | [], _, x => ⟨[], x, .nil⟩
  | r :: rs, h, x => by
    simp only [prodK, List.all_cons, Bool.and_eq_true] at h
    obtain ⟨u, z, h1⟩ := prod_sound (fun p _ x => prod_n p x) r h.1 x
    obtain ⟨v, y, h2⟩ := prodK_sound (rs := rs) h.2 z
    exact ⟨u ++ v, y, .of h1 h2⟩

/-! ### Sentences that end with the end of a line -/

/-- For a right hand side: every sentence is empty or ends a line; no sentence is empty. -/
def XR.lineEnd (R : PN → Bool × Bool) : XR → Bool × Bool
  | .eps | .mark _ => (true, false)
  | .k K => (lineEdge.contains K, true)
  | .any => (false, true)
  | .n p => R p
  | .seq a b => ((b.lineEnd R).1 && ((a.lineEnd R).1 || (b.lineEnd R).2), (a.lineEnd R).2 || (b.lineEnd R).2)
  | .alt a b => ((a.lineEnd R).1 && (b.lineEnd R).1, (a.lineEnd R).2 && (b.lineEnd R).2)
  | .opt a | .star a => ((a.lineEnd R).1, false)
  | .only _ a => a.lineEnd R
def PN.lineEnd : Nat → PN → Bool × Bool
  | 0 => fun _ => (false, false)
  | m + 1 => fun p => (pRule p).lineEnd (PN.lineEnd m)

def EndsLine (ts : List Token) : Prop := ∃ l, ts.getLast? = some l ∧ lineEdge.contains l.kind = true

theorem EndsLine.app {a b} (h : EndsLine b) : EndsLine (a ++ b) := by
  obtain ⟨l, h1, h2⟩ := h
  exact ⟨l, by rw [List.getLast?_append, h1]; rfl, h2⟩

theorem lineEnd_sound {r x ts y} (h : XDer pRule r x ts y) : ∀ m,
    ((r.lineEnd (PN.lineEnd m)).1 = true → ts = [] ∨ EndsLine ts) ∧ ((r.lineEnd (PN.lineEnd m)).2 = true → ts ≠ []) := by
  induction h with
  | eps => exact fun m => ⟨fun _ => .inl rfl, fun h => by cases h⟩
  | mark _ => exact fun m => ⟨fun _ => .inl rfl, fun h => by cases h⟩
  | @k K t x hk => exact fun m => ⟨fun h => .inr ⟨t, rfl, by rw [hk]; exact h⟩, fun _ => by simp⟩
  | any => exact fun m => ⟨fun h => (by cases h), fun _ => by simp⟩
  | n h ih =>
    intro m
    cases m with
    | zero => exact ⟨fun h => (by cases h), fun h => by cases h⟩
    | succ m => exact ih m
  | @seq a b x ts z us y h1 h2 ih1 ih2 =>
    intro m
    obtain ⟨p1, q1⟩ := ih1 m
    obtain ⟨p2, q2⟩ := ih2 m
    simp only [XR.lineEnd, Bool.and_eq_true, Bool.or_eq_true]
    refine ⟨fun ⟨hb, ha⟩ => ?_, fun h => ?_⟩
    · rcases p2 hb with rfl | h
      · rcases ha with ha | ha
        · simpa using p1 ha
        · exact absurd rfl (q2 ha)
      · exact .inr h.app
    · intro he
      rw [List.append_eq_nil_iff] at he
      rcases h with h | h
      · exact q1 h he.1
      · exact q2 h he.2
  | left h ih =>
    intro m
    simp only [XR.lineEnd, Bool.and_eq_true]
    exact ⟨fun h => (ih m).1 h.1, fun h => (ih m).2 h.1⟩
  | right h ih =>
    intro m
    simp only [XR.lineEnd, Bool.and_eq_true]
    exact ⟨fun h => (ih m).1 h.2, fun h => (ih m).2 h.2⟩
  | absent => exact fun m => ⟨fun _ => .inl rfl, fun h => by cases h⟩
  | present h ih => exact fun m => ⟨(ih m).1, fun h => by cases h⟩
  | stop => exact fun m => ⟨fun _ => .inl rfl, fun h => by cases h⟩
  | more h1 h2 ih1 ih2 =>
    refine fun m => ⟨fun h => ?_, fun h => by cases h⟩
    rcases (ih2 m).1 h with rfl | h'
    · simpa using (ih1 m).1 h
    · exact .inr h'.app
  | only h _ ih => exact fun m => ih m

theorem stmt_endsLine {x ts y} (h : XDer pRule (.n .stmt) x ts y) : EndsLine ts := by
  obtain ⟨h1, h2⟩ := lineEnd_sound h 8
  exact (h1 (by decide)).resolve_left (h2 (by decide))

/-! ### Tokens taken by a failing function -/

/-- After `a`, the tokens `b` were taken too late. -/
def Tail (a b : List Token) : Prop :=
  b = [] ∨ (∃ l u, a.getLast? = some l ∧ b = [u] ∧
    (l.kind = .PyLeftCurly ∧ u.kind = .PyRightCurly ∨ l.kind = .PyExcept ∧ u.kind = .PyMul)) ∨
  (EndsLine a ∧ ∃ u b', b = u :: b' ∧ u.kind = .PyMatrice)

theorem Tail.app {a b} (p) (h : Tail a b) : Tail (p ++ a) b := by
  rcases h with h | ⟨l, u, h1, h2⟩ | ⟨h1, h2⟩
  · exact .inl h
  · exact .inr (.inl ⟨l, u, by rw [List.getLast?_append, h1]; rfl, h2⟩)
  · exact .inr (.inr ⟨h1.app, h2⟩)

/-- The tokens can be completed, apart from those at the end that were taken too late. -/
def Pre (r : XR) (x : ExcStatus) (ts : List Token) : Prop := ∃ a b, ts = a ++ b ∧ Viable r x a ∧ Tail a b
def PreK (rs : List XR) (x : ExcStatus) (ts : List Token) : Prop :=
  ∃ a b vs y, ts = a ++ b ∧ XDK rs x (a ++ vs) y ∧ Tail a b

theorem PreK.nil {rs x} (h : prodK rs = true) : PreK rs x [] := by
  obtain ⟨us, y, d⟩ := prodK_sound h x
  exact ⟨[], [], us, y, rfl, d, .inl rfl⟩
theorem PreK.of {r u rs v x z} (h : XDer pRule r x u z) (h' : PreK rs z v) : PreK (r :: rs) x (u ++ v) := by
  obtain ⟨a, b, vs, y, rfl, d, t⟩ := h'
  exact ⟨u ++ a, b, vs, y, by rw [List.append_assoc], by rw [List.append_assoc]; exact .of h d, t.app u⟩
theorem PreK.k {K t rs v x} (h : t.kind = K) (h' : PreK rs x v) : PreK (.k K :: rs) x (t :: v) := PreK.of (u := [t]) (.k h) h'
theorem PreK.any {t rs v x} (h' : PreK rs x v) : PreK (.any :: rs) x (t :: v) := PreK.of (u := [t]) .any h'
theorem PreK.eps {rs v x} (h' : PreK rs x v) : PreK (.eps :: rs) x v := PreK.of (u := []) .eps h'
theorem PreK.mark {m rs v x z} (h : Mark.act m x = some z) (h' : PreK rs z v) : PreK (.mark m :: rs) x v :=
  PreK.of (u := []) (.mark h) h'
theorem PreK.map {rs rs' x ts} (f : ∀ us y, XDK rs x us y → XDK rs' x us y) (h : PreK rs x ts) : PreK rs' x ts := by
  obtain ⟨a, b, vs, y, e, d, t⟩ := h
  exact ⟨a, b, vs, y, e, f _ _ d, t⟩
theorem PreK.seq {a b rs x ts} (h : PreK (a :: b :: rs) x ts) : PreK ((a ⬝ b) :: rs) x ts := h.map fun _ _ d => d.seq
theorem PreK.left {a b rs x ts} (h : PreK (a :: rs) x ts) : PreK ((a ∥ b) :: rs) x ts := h.map fun _ _ d => d.left
theorem PreK.right {a b rs x ts} (h : PreK (b :: rs) x ts) : PreK ((a ∥ b) :: rs) x ts := h.map fun _ _ d => d.right
theorem PreK.present {a rs x ts} (h : PreK (a :: rs) x ts) : PreK (.opt a :: rs) x ts := h.map fun _ _ d => d.present
theorem PreK.absent {a rs x ts} (h : PreK rs x ts) : PreK (.opt a :: rs) x ts := h.map fun _ _ d => d.absent
theorem PreK.stop {a rs x ts} (h : PreK rs x ts) : PreK (.star a :: rs) x ts := h.map fun _ _ d => d.stop
theorem PreK.more {a rs x ts} (h : PreK (a :: .star a :: rs) x ts) : PreK (.star a :: rs) x ts := h.map fun _ _ d => d.more
theorem PreK.n {p rs x ts} (h : PreK (pRule p :: rs) x ts) : PreK (.n p :: rs) x ts := h.map fun _ _ d => d.n
theorem PreK.out {r x ts} (h : PreK [r] x ts) : Pre r x ts := by
  obtain ⟨a, b, vs, y, e, d, t⟩ := h
  exact ⟨a, b, e, ⟨vs, y, d.out⟩, t⟩
theorem Pre.k1 {r x ts} (h : Pre r x ts) : PreK [r] x ts := by
  obtain ⟨a, b, e, ⟨vs, y, d⟩, t⟩ := h
  exact ⟨a, b, vs, y, e, .of1 d, t⟩
/-- The last piece is itself only begun. -/
theorem PreK.vi {r rs x u} (h : Pre r x u) (hp : prodK rs = true) : PreK (r :: rs) x (u ++ []) := by
  obtain ⟨a, b, e, ⟨vs, y, d⟩, t⟩ := h
  obtain ⟨ws, z, d'⟩ := prodK_sound hp y
  exact ⟨a, b, vs ++ ws, z, by rw [List.append_nil, e], by rw [← List.append_assoc]; exact .of d d', t⟩
theorem XDK.unseq {a b rs x ts y} (h : XDK ((a ⬝ b) :: rs) x ts y) : XDK (a :: b :: rs) x ts y := by
  obtain ⟨u, v, z, rfl, h1, h3⟩ := h
  cases h1 with
  | seq h1 h2 => rw [List.append_assoc]; exact .of h1 (.of h2 h3)
theorem PreK.unseq {a b rs x ts} (h : PreK ((a ⬝ b) :: rs) x ts) : PreK (a :: b :: rs) x ts := h.map fun _ _ d => d.unseq
theorem PreK.vi2 {r1 r2 rs x u} (h : Pre (r1 ⬝ r2) x u) (hp : prodK rs = true) : PreK (r1 :: r2 :: rs) x (u ++ []) :=
  (PreK.vi h hp).unseq
theorem XDK.unseq2 {a b c rs x ts y} (h : XDK (a :: (b ⬝ c) :: rs) x ts y) : XDK (a :: b :: c :: rs) x ts y := by
  obtain ⟨u, v, z, rfl, h1, h3⟩ := h
  exact .of h1 (XDK.unseq h3)
theorem XDK.unseq3 {a b c d rs x ts y} (h : XDK (a :: b :: (c ⬝ d) :: rs) x ts y) : XDK (a :: b :: c :: d :: rs) x ts y := by
  obtain ⟨u, v, z, rfl, h1, h3⟩ := h
  exact .of h1 (XDK.unseq2 h3)
theorem PreK.vi3 {r1 r2 r3 rs x u} (h : Pre (r1 ⬝ r2 ⬝ r3) x u) (hp : prodK rs = true) : PreK (r1 :: r2 :: r3 :: rs) x (u ++ []) :=
  (PreK.vi2 h hp).map fun _ _ d => d.unseq2
theorem PreK.vi4 {r1 r2 r3 r4 rs x u} (h : Pre (r1 ⬝ r2 ⬝ r3 ⬝ r4) x u) (hp : prodK rs = true) :
    PreK (r1 :: r2 :: r3 :: r4 :: rs) x (u ++ []) := (PreK.vi3 h hp).map fun _ _ d => d.unseq3
/-- `{}` -/
theorem PreK.curly {rs x t t'} (h : t.kind = .PyLeftCurly) (h' : t'.kind = .PyRightCurly) (hp : prodK rs = true) :
    PreK (.k .PyLeftCurly :: rs) x [t, t'] := by
  obtain ⟨us, y, d⟩ := prodK_sound hp x
  exact ⟨[t], [t'], us, y, rfl, .k h d, .inr (.inl ⟨t, t', rfl, rfl, .inl ⟨h, h'⟩⟩)⟩

/-! ### Changing the rule -/

theorem Pre.map {r r' x ts} (f : ∀ us y, XDer pRule r x us y → ∃ vs z, XDer pRule r' x (us ++ vs) z) (h : Pre r x ts) : Pre r' x ts := by
  obtain ⟨a, b, e, ⟨vs, y, d⟩, t⟩ := h
  obtain ⟨ws, z, d'⟩ := f _ _ d
  exact ⟨a, b, e, ⟨vs ++ ws, z, by rw [← List.append_assoc]; exact d'⟩, t⟩
theorem Pre.sub {r r' x ts} (f : ∀ us y, XDer pRule r x us y → XDer pRule r' x us y) (h : Pre r x ts) : Pre r' x ts :=
  h.map fun us y d => ⟨[], y, by rw [List.append_nil]; exact f us y d⟩
theorem Pre.ofDer {r r' x ts y} (h : XDer pRule r x ts y) (f : ∃ vs z, XDer pRule r' x (ts ++ vs) z) : Pre r' x ts :=
  ⟨ts, [], by rw [List.append_nil], f, .inl rfl⟩
theorem Pre.of {r x ts y} (h : XDer pRule r x ts y) : Pre r x ts := .ofDer h ⟨[], y, by rw [List.append_nil]; exact h⟩

theorem Pre.testlist_tr {x ts} (h : Pre (.n .testlist) x ts) : Pre (.n .testlist_tr) x ts := h.sub fun _ _ d => d.testlist_tr
theorem Pre.star_list_tr {x ts} (h : Pre (.n .star_list) x ts) : Pre (.n .star_list_tr) x ts := h.sub fun _ _ d => d.star_list_tr
theorem Pre.yield_tr {x ts} (h : Pre (.n .yield_expr) x ts) : Pre (.n .yield_expr_tr) x ts := h.sub fun _ _ d => d.yield_tr

theorem XDer.starSnoc {a x us z vs y} (h : XDer pRule (.star a) x us z) (h' : XDer pRule a z vs y) : XDer pRule (.star a) x (us ++ vs) y := by
  generalize hr : XR.star a = r at h
  induction h with
  | stop => cases hr; simpa using XDer.more h' .stop
  | more h1 h2 _ ih => cases hr; rw [List.append_assoc]; exact .more h1 (ih h' rfl)
  | _ => cases hr

theorem XDer.unTr {r x ts y} (hr : ∀ x, ∃ us y, XDer pRule r x us y) (h : XDer pRule (X.listTr r) x ts y) :
    ∃ vs z, XDer pRule (X.list r) x (ts ++ vs) z := by
  cases h with
  | seq h1 h2 =>
    cases h2 with
    | seq h2 h3 =>
      cases h3 with
      | absent => exact ⟨[], _, by rw [List.append_nil, List.append_nil]; exact .seq h1 h2⟩
      | present h3 =>
        obtain ⟨us, z, d⟩ := hr _
        refine ⟨us, z, ?_⟩
        have := XDer.seq h1 (h2.starSnoc (.seq h3 d))
        simpa only [X.list, List.append_assoc] using this

theorem prod_of {r : XR} (h : r.prod (fun _ => true) = true) (x) : ∃ us y, XDer pRule r x us y :=
  prod_sound (fun p _ x => prod_n p x) r h x

theorem XDer.un_testlist_tr {x ts y} (h : XDer pRule (.n .testlist_tr) x ts y) : Pre (.n .testlist) x ts := by
  refine .ofDer h ?_
  cases h with
  | n h => obtain ⟨vs, z, d⟩ := h.unTr (prod_of rfl); exact ⟨vs, z, .n d⟩
theorem XDer.un_star_list_tr {x ts y} (h : XDer pRule (.n .star_list_tr) x ts y) : Pre (.n .star_list) x ts := by
  refine .ofDer h ?_
  cases h with
  | n h => obtain ⟨vs, z, d⟩ := h.unTr (prod_of rfl); exact ⟨vs, z, .n d⟩
theorem XDer.un_yield_tr {x ts y} (h : XDer pRule (.n .yield_expr_tr) x ts y) : Pre (.n .yield_expr) x ts := by
  cases h with
  | n h =>
    cases h with
    | seq h1 h2 =>
      cases h2 with
      | left h2 => exact .of (.n (.seq h1 (.left h2)))
      | right h2 =>
        obtain ⟨a, b, e, ⟨vs, y, d⟩, t⟩ := h2.un_star_list_tr
        refine ⟨_ ++ a, b, by rw [e, List.append_assoc], ⟨vs, y, ?_⟩, t.app _⟩
        rw [List.append_assoc]; exact .n (.seq h1 (.right d))

theorem XDer.un_open {x ts y} (h : XDer pRule (.n .subscript_open) x ts y) : Pre (.n .subscript) x ts := by
  refine .ofDer h ?_
  cases h with
  | n h => obtain ⟨vs, z, d⟩ := prod_n .test y; exact ⟨vs, z, .n (.right (.seq h d))⟩

/-- `(a sep)* a` and `a (sep a)*` are the same. -/
theorem XDer.toList {a x us z vs y} (h : XDer pRule (.star (a ⬝ X.comma)) x us z) (h' : XDer pRule (X.list a) z vs y) :
    XDer pRule (X.list a) x (us ++ vs) y := by
  generalize hr : XR.star (a ⬝ X.comma) = r at h
  induction h with
  | stop => exact h'
  | more h1 h2 _ ih =>
    cases hr
    cases h1 with
    | seq h1 h3 =>
      cases h3 with
      | k hk =>
        rw [List.append_assoc, List.append_assoc]
        exact XDer.consList h1 hk (ih h' rfl)
  | _ => cases hr

theorem XDer.un_list_open {x ts y} (h : XDer pRule (.n .subscriptlist_open) x ts y) : Pre (.n .subscriptlist) x ts := by
  refine .ofDer h ?_
  cases h with
  | n h =>
    cases h with
    | seq h1 h2 =>
      obtain ⟨vs, z, d⟩ := prod_n .test y
      cases h2 with
      | n h2 =>
        refine ⟨vs, z, .n ?_⟩
        rw [List.append_assoc]
        exact h1.toList (XDer.single (.n (.right (.seq h2 d))))

/-- `exprlist` and `exprlist_in` have the same beginnings. -/
theorem XDer.un_in {x ts y} (h : XDer pRule (.n .exprlist_in) x ts y) : Pre (.n .exprlist) x ts := by
  refine .ofDer h ?_
  cases h with
  | n h =>
    cases h with
    | seq h1 h2 =>
      cases h2 with
      | left h2 => exact ⟨[], _, by rw [List.append_nil]; exact .n (h1.toList (XDer.single (.right h2)))⟩
      | right h2 =>
        obtain ⟨vs, z, d⟩ := prod_of (r := X.elem) rfl y
        refine ⟨vs, z, .n ?_⟩
        rw [List.append_assoc]
        cases h2 with
        | seq h2 h3 =>
          cases h3 with
          | k hk =>
            refine h1.toList ?_
            rw [List.append_assoc]
            exact XDer.consList h2 hk d.single

theorem XDer.fromList {a x us y} (h : XDer pRule (X.list a) x us y) {t : Token} (ht : t.kind = .PyComa) :
    XDer pRule (.star (a ⬝ X.comma) ⬝ a ⬝ X.comma) x (us ++ [t]) y := by
  cases h with
  | @seq _ _ _ us z vs _ h1 h2 =>
    generalize hr : XR.star (X.comma ⬝ a) = r at h2
    induction h2 generalizing us x with
    | stop => rw [List.append_nil]; exact .seq (ts := []) .stop (.seq h1 (.k ht))
    | more h3 h4 _ ih =>
      cases hr
      cases h3 with
      | seq h3 h5 =>
        have := ih h5 rfl
        have := XDer.round (.seq h1 h3) this
        simpa [List.append_assoc] using this
    | _ => cases hr

theorem Pre.exprlist_in {x ts} (h : Pre (.n .exprlist) x ts) : Pre (.n .exprlist_in) x ts := by
  refine h.map fun us y d => ?_
  obtain ⟨t, ht⟩ := kind_token .PyComa
  cases d with
  | n d =>
    refine ⟨[t], y, .n ?_⟩
    have := d.fromList ht
    generalize us ++ [t] = vs at this ⊢
    cases this with
    | seq h1 h2 => exact .seq h1 (.right h2)

/-! ### What is known when a function fails -/

section
variable [Uni]
/-- The tokens taken before the failure can be completed. -/
def XV (r : XR) (c d : PSt) : Prop := ∃ ts, Consumed c ts d ∧ Pre r c.exc ts
/-- The same, or there is a decorator. -/
def XVD (r : XR) (c d : PSt) : Prop := XV r c d ∨ (SymIn [.PyMatrice] c ∧ ∃ ts, Consumed c ts d)
/-- The rest of a list. -/
def XVL (r : XR) (c d : PSt) : Prop := ∃ ts, Consumed c ts d ∧ (NoCont [.PyComa] c → ts = []) ∧ ∀ x a, XDer pRule r x a c.exc → Pre (X.list r) x (a ++ ts)

theorem XV.mk {r c d ts} (h : Consumed c ts d) (h' : PreK [r] c.exc ts) : XV r c d := ⟨ts, h, h'.out⟩
theorem XV.elim {r c d} (h : XV r c d) : ∃ ts, Consumed c ts d ∧ Pre r c.exc ts := h
theorem xv_imp {r c d} {P : Prop} : (XV r c d → P) ↔ ∀ ts, Consumed c ts d → Pre r c.exc ts → P :=
  ⟨fun h ts a b => h ⟨ts, a, b⟩, fun h ⟨ts, a, b⟩ => h ts a b⟩

/-- What is known after a failing call of each function. -/
def ΨV : Fn → PSt → PSt → Prop
  | .atomStrLoop _ _, c, d => XV (star (k .AtomString)) c d
  | .trailerLoop _ _ _ _, c, d => XV (star (n .trailer)) c d
  | .termLoop _ _, c, d => XV (star (X.term_op ⬝ n .factor)) c d
  | .arithLoop _ _, c, d => XV (star ((k .PyPlus ∥ k .PyMinus) ⬝ n .term)) c d
  | .shiftLoop _ _, c, d => XV (star ((k .PyShiftLeft ∥ k .PyShiftRight) ⬝ n .arith_expr)) c d
  | .andExprLoop _ _, c, d => XV (star (k .PyBitAnd ⬝ n .shift_expr)) c d
  | .xorExprLoop _ _, c, d => XV (star (k .PyBitXor ⬝ n .and_expr)) c d
  | .exprLoop _ _, c, d => XV (star (k .PyBitOr ⬝ n .xor_expr)) c d
  | .comparisonLoop _ _, c, d => XV (star (X.comp_op ⬝ n .expr)) c d
  | .andTestLoop _ _, c, d => XV (star (k .PyAnd ⬝ n .not_test)) c d
  | .orTestLoop _ _, c, d => XV (star (k .PyOr ⬝ n .and_test)) c d
  | .lambdaDef b, c, d => ∃ ts, Consumed c ts d ∧ (ts = [] ∨ ∃ u ts', ts = u :: ts' ∧
      Pre (opt (n .varargslist) ⬝ X.colon ⬝ n (if b then .test else .or_test)) c.exc ts')
  | .testlistCompLoop _ _ _, c, d => XV (star (X.comma ⬝ X.elem)) c d
  | .subscript, c, d => XV (n .subscript) c d
  | .subscriptListLoop _ _ _, c, d => ∃ ts, Consumed c ts d ∧ ∀ x a, SubItem x a c → Pre (n .subscriptlist) x (a ++ ts)
  | .subscriptList, c, d => XV (n .subscriptlist) c d
  | .exprlistLoop _ _ _, c, d => XVL X.elem c d
  | .exprlist, c, d => XV (n .exprlist) c d
  | .testlistLoop _ _ _, c, d => XVL (n .test) c d
  | .testlist, c, d => XV (n .testlist) c d
  | .setLoop _ _ _, c, d => XVL X.starOrTest c d
  | .testlistStarExprLoop _ _ _, c, d => XVL X.starOrTest c d
  | .testlistStarExpr, c, d => XV (n .star_list) c d
  | .yieldExpr, c, d => XV (n .yield_expr) c d
  | .yieldStmt, c, d => XV (n .yield_stmt) c d
  | .varArgsMainLoop _ _, c, d => XV xVarargs c d
  | .varArgsStarLoop _ _, c, d => XV (star (X.comma ⬝ n .vararg) ⬝ opt (X.comma ⬝ X.kwargs)) c d
  | .varArgsDivLoop _ _, c, d => XV (star (X.comma ⬝ n .vararg) ⬝ opt (X.comma ⬝ (X.starargs ∥ X.kwargs))) c d
  | .varArgsAssignments, c, d => XV (n .vararg) c d
  | .delStmt, c, d => XV (n .del_stmt) c d
  | .smallStmt, c, d => XV (n .small_stmt) c d
  | .simpleStmtLoop _ _ _, c, d => XV (star (k .PySemiColon ⬝ n .small_stmt) ⬝ opt (k .PySemiColon) ⬝ k .Newline) c d ∧ (SymIn [.PyIn] c → d = c)
  | .assignLoop _ _ _, c, d => ∃ ts, Consumed c ts d ∧ (ts = [] ∨ (SymIn [.PyAssign] c ∧ Pre xAssigns c.exc ts))
  | .annAssign _ _, c, d => XV (X.colon ⬝ n .test ⬝ opt (k .PyAssign ⬝ X.rhs_tr)) c d
  | .importDotLoop _ _ ds, c, d => if ds = [] then XV ((star X.dots ⬝ n .dotted_name ∥ plus X.dots) ⬝ xImport) c d
    else XV ((star X.dots ⬝ n .dotted_name ∥ star X.dots) ⬝ xImport) c d
  | .importAsNamesLoop _ _ _, c, d => XV (star (X.comma ⬝ n .import_as_name)) c d
  | .dottedNameLoop _ _ _, c, d => XV (star (k .PyDot ⬝ X.name)) c d
  | .globalLoop _ _ _ _, c, d => XV (star (X.comma ⬝ X.name)) c d
  | .nonlocalLoop _ _ _ _, c, d => XV (star (X.comma ⬝ X.name)) c d
  | .ifLoop _ _ _ _ _ _, c, d => XV (star (n .elif_part) ⬝ opt (n .else_part)) c d
  | .elifStmt, c, d => XV (n .elif_part) c d
  | .elseStmt, c, d => XV (n .else_part) c d
  | .tryLoop _ _ _ _ _, c, d => XV (star (n .except_part) ⬝ opt (n .else_part) ⬝ opt (n .finally_part)) c d
  | .finallyStmt, c, d => XV (n .finally_part) c d
  | .withParenLoop _ _ _ _ _, c, d => XV ((star (X.comma ⬝ n .with_item) ⬝ opt X.comma) ⬝ k .PyRightParen ⬝ X.colon ⬝ n .suite) c d
  | .withLoop _ _ _ _, c, d => XV (star (X.comma ⬝ n .with_item) ⬝ X.colon ⬝ n .suite) c d
  | .exceptStmt, c, d => XV (n .except_part) c d
  | .suiteLoop _ _ _ _, c, d => XVD (star (n .stmt) ⬝ k .Dedent) c d
  | .evalInput, c, d => XV (n .eval_input) c.advance d
  | .evalLoop _ _ _, c, d => XV (star (k .Newline) ⬝ k .EOF) c d
  | .fileInput, c, d => XVD (n .file_input) c.advance d
  | .fileLoop _ _ _, c, d => XVD (star (k .Newline ∥ n .stmt) ⬝ k .EOF) c d
  | .singleInput, c, d => XVD (n .single_input) c.advance d
  | .funcTypeInput, c, d => XV (n .func_type_input) c.advance d
  | .funcTypeLoop _ _ _, c, d => XV (star (k .Newline) ⬝ k .EOF) c d
  | .decorator, c, d => ∃ ts, Consumed c ts d
  | .decorators, c, d => ∃ ts, Consumed c ts d
  | .decoratorsLoop _ _, c, d => SymIn [.Newline] c → False
  | .decorated, c, d => ∃ ts, Consumed c ts d
  | .typedArgsList, c, d => False
  | .funcBodyLoop _ _ _ _ _ _, c, d => XVD (star (n .stmt) ⬝ k .Dedent) c d
  | .classDef, c, d => XV (n .classdef) c d ∧ (SymIn [.PyDef] c → d = c)
  | .typeListMainLoop _ _, c, d => XV (star (X.comma ⬝ n .test) ⬝ opt (X.comma ⬝ (X.typeStar ∥ X.typeKw))) c d
  | .typeListStarLoop _ _, c, d => XV (star (X.comma ⬝ n .test) ⬝ opt (X.comma ⬝ X.typeKw)) c d
  | .patternsMatch, c, d => False
  | .atom, c, d => XV (n .atom) c d
  | .atomExpr, c, d => XV (n .atom_expr) c d
  | .power, c, d => XV (n .power) c d
  | .factor, c, d => XV (n .factor) c d
  | .term, c, d => XV (n .term) c d
  | .arith, c, d => XV (n .arith_expr) c d
  | .shift, c, d => XV (n .shift_expr) c d
  | .andExpr, c, d => XV (n .and_expr) c d
  | .xorExpr, c, d => XV (n .xor_expr) c d
  | .expr, c, d => XV (n .expr) c d
  | .starExpr, c, d => XV (n .star_expr) c d
  | .comparison, c, d => XV (n .comparison) c d
  | .notTest, c, d => XV (n .not_test) c d
  | .andTest, c, d => XV (n .and_test) c d
  | .orTest, c, d => XV (n .or_test) c d
  | .noCondTest, c, d => XV (n .test_nocond) c d
  | .test, c, d => XV (n .test) c d
  | .namedExpression, c, d => XV (n .namedexpr_test) c d
  | .testlistComp, c, d => XV (n .testlist_comp) c d
  | .trailer, c, d => XV (n .trailer) c d
  | .dictorsetMaker, c, d => XV (n .dictorsetmaker) c d
  | .compIter, c, d => XV (n .comp_iter) c d
  | .syncCompFor, c, d => XV (n .sync_comp_for) c d
  | .compFor, c, d => XV (n .comp_for) c d
  | .compIf, c, d => XV (n .comp_if) c d
  | .varArgsList, c, d => XV (n .varargslist) c d
  | .vfpDef, c, d => XV (n .vfpdef) c d
  | .stmt, c, d => XVD (n .stmt) c d
  | .simpleStmt, c, d => XV (n .simple_stmt) c d
  | .exprStmt, c, d => XV (n .expr_stmt) c d
  | .passStmt, c, d => XV (n .pass_stmt) c d
  | .flowStmt, c, d => XV (n .flow_stmt) c d
  | .breakStmt, c, d => XV (n .break_stmt) c d
  | .continueStmt, c, d => XV (n .continue_stmt) c d
  | .returnStmt, c, d => XV (n .return_stmt) c d
  | .raiseStmt, c, d => XV (n .raise_stmt) c d
  | .importStmt, c, d => XV (n .import_stmt) c d
  | .importFrom, c, d => XV (n .import_from) c d
  | .importAsName, c, d => XV (n .import_as_name) c d
  | .importAsNames, c, d => XV (n .import_as_names) c d
  | .dottedName, c, d => XV (n .dotted_name) c d
  | .globalStmt, c, d => XV (n .global_stmt) c d
  | .nonlocalStmt, c, d => XV (n .nonlocal_stmt) c d
  | .assertStmt, c, d => XV (n .assert_stmt) c d
  | .compoundStmt, c, d => XVD (n .compound_stmt) c d
  | .asyncStmt, c, d => XV (n .async_stmt) c d
  | .ifStmt, c, d => XV (n .if_stmt) c d
  | .whileStmt, c, d => XV (n .while_stmt) c d
  | .forStmt, c, d => XV (n .for_stmt) c d
  | .tryStmt, c, d => XV (n .try_stmt) c d
  | .withStmt, c, d => XV (n .with_stmt) c d
  | .withItem, c, d => XV (n .with_item) c d
  | .exceptClause, c, d => XV (n .except_clause) c d
  | .suite, c, d => XV (n .suite) c d
  | .funcDef, c, d => XV (n .funcdef) c d
  | .parameters, c, d => XV (n .parameters) c d
  | .funcBodySuite, c, d => XV (n .func_body_suite) c d
  | .funcType, c, d => XV (n .func_type) c d
  | .typeList, c, d => XV (n .typelist) c d
  | .arglist, c, d | .arglistLoop _ _ _, c, d | .argument, c, d => ∃ ts, Consumed c ts d
  | .importName, _, _ | .dottedAsName, _, _ | .dottedAsNames, _, _ | .dottedAsNamesLoop _ _ _, _, _
  | .tfpDefAssign, _, _ | .tfpDef, _, _ | .asyncFuncDef, _, _ => True
end

syntax "pder" : tactic
macro_rules
  | `(tactic| pder) => `(tactic| first
    | with_reducible exact PreK.nil (by with_unfolding_all exact rfl)
    | with_reducible exact PreK.curly (by assumption) (by assumption) (by with_unfolding_all exact rfl)
    | (refine PreK.k (by assumption) ?_; pder)
    | with_reducible exact PreK.vi (by assumption) (by with_unfolding_all exact rfl)
    | with_reducible exact PreK.vi2 (by assumption) (by with_unfolding_all exact rfl)
    | with_reducible exact PreK.vi3 (by assumption) (by with_unfolding_all exact rfl)
    | with_reducible exact PreK.vi4 (by assumption) (by with_unfolding_all exact rfl)
    | with_reducible exact PreK.vi (Pre.testlist_tr (by assumption)) (by with_unfolding_all exact rfl)
    | with_reducible exact PreK.vi (Pre.star_list_tr (by assumption)) (by with_unfolding_all exact rfl)
    | with_reducible exact PreK.vi (Pre.yield_tr (by assumption)) (by with_unfolding_all exact rfl)
    | with_reducible exact PreK.vi (Pre.exprlist_in (by assumption)) (by with_unfolding_all exact rfl)
    | with_reducible exact PreK.vi (XDer.un_testlist_tr (by assumption)) (by with_unfolding_all exact rfl)
    | with_reducible exact PreK.vi (XDer.un_star_list_tr (by assumption)) (by with_unfolding_all exact rfl)
    | with_reducible exact PreK.vi (XDer.un_yield_tr (by assumption)) (by with_unfolding_all exact rfl)
    | with_reducible exact PreK.vi (XDer.un_open (by assumption)) (by with_unfolding_all exact rfl)
    | with_reducible exact PreK.vi (XDer.un_list_open (by assumption)) (by with_unfolding_all exact rfl)
    | with_reducible exact PreK.vi (XDer.un_in (by assumption)) (by with_unfolding_all exact rfl)
    | ((with_reducible refine PreK.of (by assumption) ?_); pder)
    | ((with_reducible refine PreK.of (XDer.testlist_tr (by assumption)) ?_); pder)
    | ((with_reducible refine PreK.of (XDer.star_list_tr (by assumption)) ?_); pder)
    | ((with_reducible refine PreK.of (XDer.yield_tr (by assumption)) ?_); pder)
    | (refine PreK.seq ?_; pder)
    | (refine PreK.present ?_; pder)
    | (refine PreK.absent ?_; pder)
    | (refine PreK.left ?_; pder)
    | (refine PreK.right ?_; pder)
    | (refine PreK.more ?_; pder)
    | (refine PreK.stop ?_; pder)
    | (refine PreK.any ?_; pder)
    | (refine PreK.eps ?_; pder)
    | (refine PreK.n (p := .star_expr) ?_; pder))

macro "pend" : tactic => `(tactic| ((try simp only [advance_exc_eq]); first | pder | (refine PreK.n ?_; pder) | (refine PreK.n ?_; simp only [pRule]; pder)))
macro "vf_close" : tactic => `(tactic| ((try simp only [ΨV]); first
  | ((with_reducible apply XV.mk); (consume); (pend))
  | xe_no
  | exact True.intro
  | contradiction
  | (exfalso; simp_all only [Except.ok.injEq, reduceCtorEq, not_true_eq_false, not_false_eq_true]; done)))

syntax "vf_simp" (" [" Lean.Parser.Tactic.simpLemma,* "]")? : tactic
macro_rules
  | `(tactic| vf_simp) => `(tactic| vf_simp [])
  | `(tactic| vf_simp [$ls,*]) => `(tactic| simp only [wf_bind, wf_here, wf_symAt, wf_symHere, wf_sym?, wf_ite,
  wf_next, wf_mk, wf_parse, wf_fail, wf_failHere, wf_panic, wf_pure, wf_ret, wf_getExc, wf_setExc,
  implies_true, and_true, true_and, ΦEx, ΨV, advance_exc, advance_exc_eq, consumed_exc, true_implies, imp_self, xg_imp, xe_imp, xl_imp,
  xt_imp, xv_imp, and_imp, forall_const, false_implies, $ls,*])

macro "vf_auto" : tactic => `(tactic| (wp_paths <;> (try casesm* _ ∨ _) <;> vf_close))

/-- The body of `f`, called in `c`, fails only as `ΨV` says. -/
abbrev VF [Uni] (p : Prog Tree) (f : Fn) (c : PSt) : Prop := WF ΦEx ΨV (ΨV f c) p c (fun _ _ => True)

end Verif
