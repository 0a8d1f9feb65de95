import Verif.Proof.Position
import Verif.Props.Spans
import Verif.Props.Kinds

/-!
# C54: syntax errors point at a symbol that was read

The position in an error message is the start of a symbol that the parser has read: not after the symbol at which it
stopped, and never outside of the text.
-/

namespace Verif
set_option linter.unusedVariables false
section
variable [Uni]

/-- Every parse function ends in the state it would have reached by calling `advance` a number of times, up to the `except`
status. -/
def Later (c d : PSt) : Prop := ∃ j x, d = { c.ahead j with exc := x }

theorem Later.refl (c : PSt) : Later c c := ⟨0, c.exc, rfl⟩
theorem later_exc {c d : PSt} {x} (h : Later { c with exc := x } d) : Later c d := by
  obtain ⟨j, y, rfl⟩ := h
  exact ⟨j, y, by rw [ahead_exc j c x]⟩
theorem later_adv {c d : PSt} (h : Later c.advance d) : Later c d := by
  obtain ⟨j, y, rfl⟩ := h; exact ⟨j + 1, y, rfl⟩
theorem ahead_plus (c : PSt) (i j : Nat) : c.ahead (i + j) = (c.ahead i).ahead j := by
  induction i generalizing c with
  | zero => rw [Nat.zero_add]; rfl
  | succ i ih => rw [Nat.succ_add]; exact ih _
theorem Later.trans {a b c : PSt} (h : Later a b) (h' : Later b c) : Later a c := by
  obtain ⟨i, x, rfl⟩ := h
  obtain ⟨j, y, rfl⟩ := later_exc h'
  exact ⟨i + j, y, by rw [ahead_plus]⟩

theorem later_exec {α : Type} {r : Fn → PSt → Res Tree} {s : Fn → PSt → PSt}
    (hr : ∀ f c, Later c (s f c) ∧ ∀ t c', r f c = .ok t c' → c' = s f c) (p : Prog α) :
    ∀ c, Later c (p.stop r s c) ∧ ∀ a c', p.exec r c = .ok a c' → c' = p.stop r s c := by
  induction p with
  | ret a => exact fun c => ⟨.refl c, fun a c' h => by cases h; rfl⟩
  | fail | panic => exact fun c => ⟨.refl c, fun a c' h => by cases h⟩
  | getPos k ih | getExc k ih => exact fun c => ih _ c
  | adv k ih => exact fun c => ⟨later_adv (ih _).1, (ih _).2⟩
  | setExc x k ih => exact fun c => ⟨later_exc (ih _).1, (ih _).2⟩
  | sym k x ih1 ih2 =>
    intro c
    simp only [Prog.stop, Prog.exec]
    cases c.symbol
    · exact ih2 c
    · exact ih1 _ c
  | call f k ih =>
    intro c
    obtain ⟨h1, h2⟩ := hr f c
    simp only [Prog.stop, Prog.exec]
    cases he : r f c with
    | ok t c1 => exact ⟨(h2 t c1 he ▸ h1).trans (ih t c1).1, (ih t c1).2⟩
    | err | panic | diverge => exact ⟨h1, fun a c' h => by cases h⟩

theorem later_run : ∀ n f c, Later c (runStop n f c) ∧ ∀ t c', run n f c = .ok t c' → c' = runStop n f c
  | 0, f, c => ⟨.refl c, fun t c' h => by cases h⟩
  | n + 1, f, c => later_exec (later_run n) (body f) c

/-! ### Positions do not go back -/

theorem advance_start {src} {c : PSt} (h : Inv src c.lex) : c.lex.tokStart ≤ c.advance.lex.tokStart := by
  refine Nat.le_trans h.start ?_
  unfold PSt.advance
  cases hr : getSymbol c.lex with
  | err e l => exact (err_facts h hr).startGe
  | ok t' l => exact (ok_facts h hr).startGe

theorem ahead_inv {src} : ∀ j {c : PSt}, Inv src c.lex → Inv src (c.ahead j).lex
  | 0, _, h => h
  | j + 1, _, h => ahead_inv j (advance_inv h)
theorem ahead_preach {src} : ∀ j {c : PSt}, PReach src c → PReach src (c.ahead j)
  | 0, _, h => h
  | j + 1, _, h => ahead_preach j h.adv
theorem ahead_start {src} : ∀ j {c : PSt}, Inv src c.lex → c.lex.tokStart ≤ (c.ahead j).lex.tokStart
  | 0, _, _ => Nat.le_refl _
  | j + 1, _, h => Nat.le_trans (advance_start h) (ahead_start j (advance_inv h))
theorem ahead_start_le {src} {c : PSt} (h : Inv src c.lex) {i j} (hij : i ≤ j) :
    (c.ahead i).lex.tokStart ≤ (c.ahead j).lex.tokStart := by
  obtain ⟨k, rfl⟩ := Nat.exists_eq_add_of_le hij
  rw [ahead_plus]
  exact ahead_start k (ahead_inv i h)

theorem Later.start {src} {c d : PSt} (h : Later c d) (hc : Inv src c.lex) : c.lex.tokStart ≤ d.lex.tokStart := by
  obtain ⟨j, x, rfl⟩ := h; exact ahead_start j hc
theorem Later.inv {src} {c d : PSt} (h : Later c d) (hc : Inv src c.lex) : Inv src d.lex := by
  obtain ⟨j, x, rfl⟩ := h; exact ahead_inv j hc

/-- All positions up to `B`. -/
def UpTo (B : Nat) (r : Res Tree) : Prop :=
  match r with
  | .ok t _ => t.AllPos (· ≤ B)
  | .err p _ => p ≤ B
  | _ => True

def UpToN (B : Nat) {α : Type} [Ps (· ≤ B) α] (r : Res α) : Prop :=
  match r with
  | .ok t _ => Ps.ok (· ≤ B) t
  | .err p _ => p ≤ B
  | _ => True

theorem upTo_exec {α : Type} {src : List Char} {B : Nat} [Ps (· ≤ B) α] {r : Fn → PSt → Res Tree} {s : Fn → PSt → PSt}
    (hr : ∀ f c, Later c (s f c) ∧ ∀ t c', r f c = .ok t c' → c' = s f c)
    (hu : ∀ f c, Inv src c.lex → (s f c).lex.tokStart ≤ B → f.AllPos (· ≤ B) → UpTo B (r f c)) {p : Prog α} (h : PosP (· ≤ B) p) :
    ∀ c, Inv src c.lex → (p.stop r s c).lex.tokStart ≤ B → UpToN B (p.exec r c) := by
  induction p with
  | ret a => exact fun c _ _ => h
  | fail => exact fun c _ _ => h
  | panic => exact fun c _ _ => trivial
  | getPos k ih => exact fun c hc hB => ih _ (h _ (Nat.le_trans ((later_exec hr (.getPos k) c).1.start hc) hB)) c hc hB
  | getExc k ih => exact fun c hc hB => ih _ (h _) c hc hB
  | adv k ih => exact fun c hc hB => ih h _ (advance_inv hc) hB
  | setExc x k ih => exact fun c hc hB => ih h _ hc hB
  | sym k x ih1 ih2 =>
    intro c hc hB
    simp only [Prog.stop, Prog.exec] at hB ⊢
    cases hs : c.symbol <;> rw [hs] at hB
    · exact ih2 h.2 c hc hB
    · exact ih1 _ (h.1 _) c hc hB
  | call f k ih =>
    intro c hc hB
    obtain ⟨h1, h2⟩ := hr f c
    simp only [Prog.stop, Prog.exec] at hB ⊢
    cases he : r f c <;> simp only [he] at hB ⊢
    · rename_i t c1
      have e := h2 _ _ he
      have hc1 : Inv src c1.lex := e ▸ h1.inv hc
      have := hu f c hc (e ▸ Nat.le_trans ((later_exec hr (k t) c1).1.start hc1) hB) h.1
      rw [he] at this
      exact ih t (h.2 t this) c1 hc1 hB
    · have := hu f c hc hB h.1
      rw [he] at this
      exact this
    all_goals trivial

theorem upTo_run {src : List Char} {B : Nat} : ∀ n f c, Inv src c.lex → (runStop n f c).lex.tokStart ≤ B → f.AllPos (· ≤ B) →
    UpTo B (run n f c)
  | 0, f, c, _, _, _ => trivial
  | n + 1, f, c, hc, hB, hf => by
    have := upTo_exec (later_run n) (upTo_run n) (ps_body hf) c hc hB
    change UpTo B ((body f).exec (run n) c)
    revert this
    cases (body f).exec (run n) c <;> exact id

theorem posOut_run {Q : Nat → Prop} : ∀ n f, f.AllPos Q → ∀ c : PSt, (∀ i, Q (c.ahead i).lex.tokStart) → PosOut Q (run n f c)
  | 0, _, _, _, _ => trivial
  | n + 1, _, hf, _, hc => pos_exec (posOut_run n) (ps_body hf) hc

end

/-- The functions called without positions or trees as arguments. -/
theorem allPos_plain {f : Fn} (hf : f ∈ Fn.decorated :: spanFns) (Q : Nat → Prop) : f.AllPos Q := by
  simp only [spanFns, ruleFns, List.cons_append, List.nil_append, List.mem_cons, List.not_mem_nil, or_false] at hf
  repeat' (first | exact trivial | (rcases hf with rfl | hf) | subst hf)

/-- C54: when a parse function fails in a reachable state `c`, the position `p` in the error is where a symbol starts: the
current symbol of `c` or the `i`th one after it.  The parser stops at the `j`th symbol after that of `c`, and `i ≤ j`: the
error never points at something that has not been read.  `p` is in the text or at its end (`src.length + 1`: the end of the text
counts as one character, C04). -/
theorem C54_error_position [Uni] (src : List Char) (n : Nat) (f : Fn) (c : PSt) (hc : PReach src c)
    (hf : f ∈ Fn.decorated :: spanFns) (p : Nat) (m : String) (h : run n f c = .err p m) :
    ∃ i j x, i ≤ j ∧ runStop n f c = { c.ahead j with exc := x } ∧ (c.ahead i).startsAt p ∧ p ≤ src.length + 1 := by
  have hi : Inv src c.lex := hc.good.inv
  have h1 := posOut_run (Q := fun q => ∃ i, q = (c.ahead i).lex.tokStart) n f (allPos_plain hf _) c (fun i => ⟨i, rfl⟩)
  have h2 := upTo_run (src := src) n f c hi (Nat.le_refl _) (allPos_plain hf _)
  rw [h] at h1 h2
  obtain ⟨i, rfl⟩ := h1
  obtain ⟨j, x, hj⟩ := (later_run n f c).1
  have h3 : (c.ahead i).lex.tokStart ≤ (c.ahead j).lex.tokStart := by rw [hj] at h2; exact h2
  have hb : (c.ahead i).lex.tokStart ≤ src.length + 1 := Nat.le_trans (ahead_inv i hi).start (ahead_inv i hi).pos
  by_cases hij : i ≤ j
  · exact ⟨i, j, x, hij, hj, (ahead_preach i hc).startsAt, hb⟩
  · have := ahead_start_le hi (Nat.le_of_lt (Nat.lt_of_not_le hij))
    have e : (c.ahead i).lex.tokStart = (c.ahead j).lex.tokStart := Nat.le_antisymm h3 this
    refine ⟨j, j, x, Nat.le_refl _, hj, ?_, hb⟩
    rw [e]
    exact (ahead_preach j hc).startsAt

/-- C54 for a whole text. -/
theorem C54_error_in_text [Uni] (src : List Char) (n : Nat) (e : Fn)
    (he : e = .evalInput ∨ e = .fileInput ∨ e = .singleInput ∨ e = .funcTypeInput) (p : Nat) (m : String)
    (h : run n e (PSt.new (Lexer.new src)) = .err p m) :
    ∃ i j x, i ≤ j ∧ runStop n e (PSt.new (Lexer.new src)) = { (PSt.new (Lexer.new src)).ahead j with exc := x } ∧
      ((PSt.new (Lexer.new src)).ahead i).startsAt p ∧ p ≤ src.length + 1 :=
  C54_error_position src n e _ .new (by rcases he with rfl | rfl | rfl | rfl <;> simp [spanFns]) p m h

/-- The run ends with an error at `p`. -/
def Res.errAt {α : Type} (p : Nat) : Res α → Bool
  | .err q _ => q == p
  | _ => false
theorem Res.errAt_spec {α : Type} {r : Res α} {p} (h : r.errAt p = true) : ∃ m, r = .err p m := by
  cases r <;> simp [Res.errAt] at h
  exact ⟨_, by rw [h]⟩

/-- `x = (a b)`: the error points at the parenthesis, the third symbol, and the parser has stopped at `b`, the fifth. -/
example : let _ := asciiUni
    (∃ m, run 80 .fileInput (PSt.new (Lexer.new (cs! "x = (a b)\n"))) = .err 4 m) ∧
    ((PSt.new (Lexer.new (cs! "x = (a b)\n"))).ahead 3).lex.tokStart = 4 ∧
    ((PSt.new (Lexer.new (cs! "x = (a b)\n"))).ahead 5).lex.tokStart = 7 ∧
    (runStop 80 .fileInput (PSt.new (Lexer.new (cs! "x = (a b)\n")))).lex.tokStart = 7 := by
  intro _
  exact ⟨Res.errAt_spec (by decide +kernel), by decide +kernel, by decide +kernel, by decide +kernel⟩

end Verif
