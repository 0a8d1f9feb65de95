import Verif.Spec.Ast
import Verif.Proof.Term

/-!
# Successful runs, step by step
-/

namespace Verif
section
variable [Uni]

/-- `f`, started in `c`, returns `t` and leaves the parser in `c'`. -/
def Ev (f : Fn) (c : PSt) (t : Tree) (c' : PSt) : Prop := ∃ n, run n f c = .ok t c'

def EvP {α : Type} (p : Prog α) (c : PSt) (a : α) (c' : PSt) : Prop := ∃ n, p.exec (run n) c = .ok a c'

theorem exec_ok_mono {α : Type} {p : Prog α} {n m c a c'} (h : p.exec (run n) c = .ok a c') (hm : n ≤ m) :
    p.exec (run m) c = .ok a c' := by
  rw [← h]
  exact exec_mono (fun f c hd => run_mono hd m hm) p c (by rw [h]; simp)

theorem ev_body {f c t c'} (h : EvP (body f) c t c') : Ev f c t c' := by
  obtain ⟨n, h⟩ := h
  exact ⟨n + 1, h⟩

omit [Uni] in
theorem pure_bindP {α β : Type} (a : α) (f : α → Prog β) : ((pure a : Prog α) >>= f) = f a := rfl

theorem exec_bind {α β : Type} (r : Fn → PSt → Res Tree) (p : Prog α) (f : α → Prog β) (c : PSt) {a d} :
    p.exec r c = .ok a d → (p >>= f).exec r c = (f a).exec r d := by
  change p.exec r c = .ok a d → (p.bind f).exec r c = (f a).exec r d
  induction p generalizing c with
  | ret b => intro h; cases h; rfl
  | fail | panic => intro h; cases h
  | getPos k ih | getExc k ih => exact ih _ _
  | adv k ih | setExc x k ih => exact ih _
  | sym k e ih1 ih2 =>
    simp only [Prog.bind, Prog.exec]
    cases hs : c.symbol with
    | ok t => exact ih1 _ _
    | error x => exact ih2 _
  | call g k ih =>
    simp only [Prog.bind, Prog.exec]
    cases hr : r g c with
    | ok t c1 => exact ih _ _
    | err | panic | diverge => intro h; cases h

theorem evp_bind {α β : Type} {p : Prog α} {f : α → Prog β} {c a d b c'} (h1 : EvP p c a d)
    (h2 : EvP (f a) d b c') : EvP (p >>= f) c b c' := by
  obtain ⟨n, h1⟩ := h1
  obtain ⟨m, h2⟩ := h2
  refine ⟨max n m, ?_⟩
  rw [exec_bind _ _ _ _ (exec_ok_mono h1 (Nat.le_max_left _ _))]
  exact exec_ok_mono h2 (Nat.le_max_right _ _)

theorem evp_pure {α : Type} {a : α} {c} : EvP (pure a) c a c := ⟨0, rfl⟩
theorem evp_here {c} : EvP Prog.here c c.lex.tokStart c := ⟨0, rfl⟩
theorem evp_next {c} : EvP Prog.next c () c.advance := ⟨0, rfl⟩
theorem evp_symAt {c t p m} (h : c.symbol = .ok t) : EvP (Prog.symAt p m) c t c :=
  ⟨0, by simp only [Prog.symAt, Prog.exec, h]⟩
theorem evp_symHere {c t m} (h : c.symbol = .ok t) : EvP (Prog.symHere m) c t c :=
  ⟨0, by simp only [Prog.symHere, Prog.exec, h]⟩
theorem evp_sym? {c t} (h : c.symbol = .ok t) : EvP Prog.sym? c (some t) c :=
  ⟨0, by simp only [Prog.sym?, Prog.exec, h]⟩
theorem evp_mk {tag s l c} : EvP (Prog.mk tag s l) c (.node tag s c.lex.tokStart l) c := ⟨0, rfl⟩
theorem evp_parse {f c t c'} (h : Ev f c t c') : EvP (Prog.parse f) c t c' := by
  obtain ⟨n, h⟩ := h
  exact ⟨n, by simp only [Prog.parse, Prog.exec, h]⟩

/-! ### Words -/

omit [Uni] in
theorem Token.leaf_kind (t : Token) : t.leaf.kind = t.kind := by cases t <;> rfl

omit [Uni] in
theorem kind_of_leaf {t : Token} {x : Lexeme} (h : t.leaf = x.leaf) : t.kind = x.leaf.kind := by
  rw [← t.leaf_kind, h]

theorem fed_cons {c x xs c'} (h : Fed c (x :: xs) c') :
    ∃ t, c.symbol = .ok t ∧ t.leaf = x.leaf ∧ Fed c.advance xs c' := by
  cases h with
  | cons h1 h2 h3 => exact ⟨_, h1, h2, h3⟩

theorem fed_nil {c c'} (h : Fed c [] c') : c' = c := by cases h; rfl

theorem fed_append {c xs ys c'} : Fed c (xs ++ ys) c' ↔ ∃ d, Fed c xs d ∧ Fed d ys c' := by
  induction xs generalizing c with
  | nil =>
    refine ⟨fun h => ⟨c, .nil, h⟩, fun ⟨d, h1, h2⟩ => ?_⟩
    cases fed_nil h1; exact h2
  | cons x xs ih =>
    refine ⟨fun h => ?_, fun ⟨d, h1, h2⟩ => ?_⟩
    · obtain ⟨t, h1, h2, h3⟩ := fed_cons h
      obtain ⟨d, h4, h5⟩ := ih.1 h3
      exact ⟨d, .cons h1 h2 h4, h5⟩
    · obtain ⟨t, h3, h4, h5⟩ := fed_cons h1
      exact .cons h3 h4 (ih.2 ⟨d, h5, h2⟩)

end
end Verif
