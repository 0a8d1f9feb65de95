import Verif.Spec.Cost
import Verif.Proof.TermAll
import Verif.Proof.Panic

/-!
# A logic for the number of steps

`KWP E p c v Q`: `v` is a bound for the steps so far, beyond `costA` for every token that was read; whenever the body
fails, that is at most `E`.
-/

namespace Verif
section
variable [Uni]

-- steps per token
local notation "costA" => (100 : Int)
/-- steps of a call that fails, beyond `costA` for every token left -/
def Fn.failCost (f : Fn) : Int := (f.rank : Int) + 1
/-- steps of a call that succeeds, beyond `costA` for every token read -/
def Fn.okCost (f : Fn) : Int := if f.moves then 3 * (f.rank : Int) + 4 - costA else 1

def KWP {α : Type} (E : Int) : Prog α → PSt → Int → (α → PSt → Int → Prop) → Prop
  | .ret a, c, v, Q => Q a c v
  | .fail .., _, v, _ => v ≤ E
  | .panic, _, v, _ => v ≤ E
  | .getPos k, c, v, Q => ∀ p, KWP E (k p) c v Q
  | .sym k e, c, v, Q => (∀ t, c.symbol = .ok t → KWP E (k t) c v Q) ∧ (∀ x, c.symbol = .error x → KWP E e c v Q)
  | .adv k, c, v, Q => ∃ t, c.symbol = .ok t ∧ ∀ (d : PSt) (w : Int), w ≤ v + 1 → (t.kind ≠ .EOF → w ≤ v + 1 - costA) → KWP E k d w Q
  | .call f k, c, v, Q => ((f.input = false ∧ v + 1 + f.failCost ≤ E) ∨ Stuck f c) ∧
      (¬ Stuck f c → ∀ (t : Tree) (d : PSt) (w : Int), w ≤ v + 1 + f.okCost → KWP E (k t) d w Q)
  | .getExc k, c, v, Q => ∀ x, KWP E (k x) c v Q
  | .setExc _ k, c, v, Q => ∀ d : PSt, d.symbol = c.symbol → KWP E k d v Q

variable {α β : Type} {E : Int}

theorem kwp_bind (p : Prog α) (k : α → Prog β) (c v Q) :
    KWP E (p >>= k) c v Q = KWP E p c v (fun a c' w => KWP E (k a) c' w Q) := by
  show KWP E (p.bind k) c v Q = _
  induction p generalizing c v with
  | ret | fail | panic => rfl
  | getPos k ih | adv k ih | getExc k ih | setExc x k ih => simp only [Prog.bind, KWP, ih]
  | sym k e ih1 ih2 => simp only [Prog.bind, KWP, ih1, ih2]
  | call f k ih => simp only [Prog.bind, KWP, ih]

theorem kwp_pure (a : α) (c v Q) : KWP E (pure a : Prog α) c v Q = Q a c v := rfl
theorem kwp_ret (a : α) (c v Q) : KWP E (.ret a) c v Q = Q a c v := rfl
theorem kwp_fail (p m c v Q) : KWP E (.fail p m : Prog α) c v Q = (v ≤ E) := rfl
theorem kwp_panic (c v Q) : KWP E (.panic : Prog α) c v Q = (v ≤ E) := rfl
theorem kwp_failHere (m c v Q) : KWP E (Prog.failHere m : Prog α) c v Q = (v ≤ E) := by
  simp [Prog.failHere, KWP]
theorem kwp_here (c v Q) : KWP E Prog.here c v Q = ∀ p, Q p c v := rfl
theorem kwp_next (c v Q) : KWP E Prog.next c v Q =
    ∃ t, c.symbol = .ok t ∧ ∀ (d : PSt) (w : Int), w ≤ v + 1 → (t.kind ≠ .EOF → w ≤ v + 1 - costA) → Q () d w := rfl
theorem kwp_parse (f c v Q) : KWP E (Prog.parse f) c v Q =
    (((f.input = false ∧ v + 1 + f.failCost ≤ E) ∨ Stuck f c) ∧
      (¬ Stuck f c → ∀ (t : Tree) (d : PSt) (w : Int), w ≤ v + 1 + f.okCost → Q t d w)) := rfl
theorem kwp_symAt (p m c v Q) : KWP E (Prog.symAt p m) c v Q =
    ((∀ t, c.symbol = .ok t → Q t c v) ∧ ∀ x, c.symbol = .error x → v ≤ E) := by
  simp [Prog.symAt, KWP]
theorem kwp_symHere (m c v Q) : KWP E (Prog.symHere m) c v Q =
    ((∀ t, c.symbol = .ok t → Q t c v) ∧ ∀ x, c.symbol = .error x → v ≤ E) := by
  simp [Prog.symHere, Prog.failHere, KWP]
theorem kwp_sym? (c v Q) : KWP E Prog.sym? c v Q =
    ((∀ t, c.symbol = .ok t → Q (some t) c v) ∧ ∀ x, c.symbol = .error x → Q none c v) := by
  simp [Prog.sym?, KWP]
theorem kwp_mk (tag s l c v Q) : KWP E (Prog.mk tag s l) c v Q = ∀ p, Q (.node tag s p l) c v := rfl
theorem kwp_getExc (k : ExcStatus → Prog α) (c v Q) : KWP E (.getExc k) c v Q = ∀ x, KWP E (k x) c v Q := rfl
theorem kwp_setExc (x) (k : Prog α) (c v Q) : KWP E (.setExc x k) c v Q =
    ∀ d : PSt, d.symbol = c.symbol → KWP E k d v Q := rfl
theorem kwp_ite (b : Prop) [Decidable b] (p q : Prog α) (c v Q) :
    KWP E (if b then p else q) c v Q = ((b → KWP E p c v Q) ∧ (¬ b → KWP E q c v Q)) := by
  by_cases h : b <;> simp [h]

/-- The body of `f` obeys the logic. -/
def KOk (f : Fn) : Prop := ∀ c, KWP f.failCost (body f) c 0 (fun _ _ w => w ≤ f.okCost)

/-- Soundness. `m0` steps were made so far, from a state with `L` tokens left. -/
theorem kwp_sound {src : List Char} {rec : Fn → PSt → Res Tree × Nat} {L : Nat}
    (hgood : ∀ f c t d, f.input = false → Good src c → (rec f c).1 = .ok t d → Good src d ∧ d.left ≤ c.left)
    (hstuck : ∀ f c, Stuck f c → (rec f c).1 = .diverge)
    (hrec : ∀ f c, f.input = false → Good src c → 
      (∀ t d, (rec f c).1 = .ok t d → ((rec f c).2 : Int) + costA * d.left ≤ costA * c.left + f.okCost) ∧
      ((rec f c).1 ≠ .diverge → (∀ t d, (rec f c).1 ≠ .ok t d) → ((rec f c).2 : Int) ≤ costA * c.left + f.failCost))
    (p : Prog α) (c : PSt) (hc : Good src c) (v : Int) (Q : α → PSt → Int → Prop) (h : KWP E p c v Q) (m0 : Int)
    (hm : m0 + costA * c.left ≤ costA * L + v) :
    (∀ a d, (p.execC rec c).1 = .ok a d → ∃ w, Q a d w ∧ m0 + (p.execC rec c).2 + costA * d.left ≤ costA * L + w) ∧
    ((p.execC rec c).1 ≠ .diverge → (∀ a d, (p.execC rec c).1 ≠ .ok a d) → m0 + (p.execC rec c).2 ≤ costA * L + E) := by

  induction p generalizing c v m0 with
  | ret a =>
    refine ⟨fun a' d hr => ?_, fun _ hn => absurd rfl (hn a c)⟩
    simp only [Prog.execC, Res.ok.injEq] at hr
    obtain ⟨rfl, rfl⟩ := hr
    exact ⟨v, h, by simp only [Prog.execC]; omega⟩
  | fail =>
    refine ⟨fun a' d hr => by simp [Prog.execC] at hr, fun _ _ => ?_⟩
    have : v ≤ E := h
    simp only [Prog.execC]; omega
  | panic =>
    refine ⟨fun a' d hr => by simp [Prog.execC] at hr, fun _ _ => ?_⟩
    have : v ≤ E := h
    simp only [Prog.execC]; omega
  | getPos k ih => exact ih _ _ hc _ (h _) _ hm
  | getExc k ih => exact ih _ _ hc _ (h _) _ hm
  | setExc x k ih => exact ih _ (hc.exc x) _ (h _ rfl) _ hm
  | sym k e ih1 ih2 =>
    simp only [Prog.execC]
    cases hs : c.symbol with
    | ok t => simp only; exact ih1 _ _ hc _ (h.1 t hs) _ hm
    | error x => simp only; exact ih2 _ hc _ (h.2 x hs) _ hm
  | adv k ih =>
    obtain ⟨t, ht, h⟩ := h
    have h1 := hc.advance_le ht
    simp only [Prog.execC]
    have key : ∃ w, (w ≤ v + 1 ∧ (t.kind ≠ .EOF → w ≤ v + 1 - costA)) ∧ (m0 + 1) + costA * c.advance.left ≤ costA * L + w := by
      by_cases hk : t.kind = .EOF
      · exact ⟨v + 1, ⟨by omega, fun h => absurd hk h⟩, by omega⟩
      · have := advance_left hc.inv t ht hk
        exact ⟨v + 1 - costA, ⟨by omega, fun _ => by omega⟩, by omega⟩
    obtain ⟨w, ⟨w1, w2⟩, hm'⟩ := key
    obtain ⟨i1, i2⟩ := ih _ hc.advance w (h _ w w1 w2) _ hm'
    refine ⟨fun a d hr => ?_, fun hd hn => ?_⟩
    · obtain ⟨w, q, hq⟩ := i1 a d hr
      exact ⟨w, q, by push_cast; omega⟩
    · have := i2 hd hn
      push_cast; omega
  | call f k ih =>
    simp only [Prog.execC]
    rcases h.1 with hw | hw
    · have hr := hrec f c hw.1 hc
      cases hf : (rec f c).1 with
      | ok t c1 =>
        obtain ⟨g1, g2⟩ := hgood _ _ _ _ hw.1 hc hf
        have hns : ¬ Stuck f c := fun h => by rw [hstuck f c h] at hf; simp at hf
        have hr1 := hr.1 t c1 hf
        obtain ⟨i1, i2⟩ := ih t c1 g1 _ (h.2 hns t c1 _ (Int.le_refl _)) (m0 + ((rec f c).2 + 1 : Int)) (by omega)
        simp only
        refine ⟨fun a d hr => ?_, fun hd hn => ?_⟩
        · obtain ⟨w, q, hq⟩ := i1 a d hr
          exact ⟨w, q, by push_cast; omega⟩
        · have := i2 hd hn
          push_cast; omega
      | err =>
        have := hr.2 (by simp [hf]) (by simp [hf])
        simp only
        refine ⟨fun a d hr => by simp at hr, fun _ _ => ?_⟩
        push_cast; omega
      | panic =>
        have := hr.2 (by simp [hf]) (by simp [hf])
        simp only
        refine ⟨fun a d hr => by simp at hr, fun _ _ => ?_⟩
        push_cast; omega
      | diverge => simp
    · simp [hstuck f c hw]

/-- All functions obey the logic, so all runs are bounded. -/
theorem kok_run {src : List Char} (h : ∀ f, f.input = false → KOk f) (n f c) (hf : f.input = false) (hc : Good src c) :
    (∀ t d, (runC n f c).1 = .ok t d → ((runC n f c).2 : Int) + costA * d.left ≤ costA * c.left + f.okCost) ∧
    ((runC n f c).1 ≠ .diverge → (∀ t d, (runC n f c).1 ≠ .ok t d) → ((runC n f c).2 : Int) ≤ costA * c.left + f.failCost) := by
  induction n generalizing f c with
  | zero => simp [runC]
  | succ n ih =>
    have := kwp_sound (src := src) (rec := runC n) (L := c.left)
      (fun f c t d hf hc hr => by
        rw [runC_fst] at hr
        have := tok_run (t_all src) n f c t d hf hc hr
        exact ⟨this.1, by omega⟩)
      (fun f c hs => by rw [runC_fst]; exact stuck_diverges hs n)
      (fun f c hf hc => ih f c hf hc) (body f) c hc 0 _ (h f hf c) 0 (by omega)
    simp only [Int.zero_add] at this
    refine ⟨fun t d hr => ?_, this.2⟩
    obtain ⟨w, h1, h2⟩ := this.1 t d hr
    show (((body f).execC (runC n) c).2 : Int) + _ ≤ _
    omega

end
end Verif
