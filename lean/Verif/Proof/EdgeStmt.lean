import Verif.Proof.Edge

/-!
# Statements up to the end of the text
-/

namespace Verif
open Prog
variable {e : Token → Token} [Uni] {B : PSt}

/-! ### Functions that do not succeed at the end -/

theorem xg_edge {r : XR} {c c' : PSt} (h : XG r c c') (hn : r.null = false) (hf : r.first .EOF = false) (he : Edge c) : False := by
  obtain ⟨ts, h1, h2⟩ := h
  obtain ⟨_, d⟩ := XN.of h2
  cases ts with
  | nil => have := d.null rfl; rw [hn] at this; cases this
  | cons t ts =>
    obtain ⟨u, hu, hk⟩ := he.sym
    have := d.first t ts rfl
    have h3 := h1.head
    rw [hu] at h3; cases h3
    rw [hk, hf] at this; cases this

/-- The functions that parse statements and parts of compound statements. -/
def Fn.isS : Fn → Bool
  | .stmt | .simpleStmt | .simpleStmtLoop .. | .compoundStmt | .asyncStmt | .ifStmt | .ifLoop .. | .elifStmt | .elseStmt
  | .whileStmt | .forStmt | .tryStmt | .tryLoop .. | .finallyStmt | .withStmt | .withParenLoop .. | .withLoop .. | .exceptStmt
  | .suite | .suiteLoop .. | .decorated | .funcDef | .funcBodySuite | .funcBodyLoop .. | .classDef | .patternsMatch => true
  | _ => false
/-- Those of them that may consume nothing. -/
def Fn.isOpt : Fn → Bool
  | .ifLoop .. | .tryLoop .. => true
  | _ => false

theorem ΦEx.edge {f c t c'} (h : ΦEx f c t c') (hs : f.isS = true) (ho : f.isOpt = false) (he : Edge c) : False := by
  cases f <;> first
    | (cases hs; done)
    | (cases ho; done)
    | exact h
    | exact xg_edge h (by decide) (by decide) he
    | exact xg_edge h.1 (by decide) (by decide) he

/-! ### The logic -/

/-- Where two parsers are. -/
inductive Mode
  | mid | cur (t : Token) | edge

def Mode.At (e : Token → Token) (B : PSt) : Mode → PSt → PSt → Prop
  | .mid, c, d => ∃ k, Off e B (k + 1) c d
  | .cur t, c, d => c.symbol = .ok t ∧ ∃ k, Off e B (k + 1) c d
  | .edge, c, d => Off e B 0 c d

/-- If the first succeeds, so does the second. -/
def OkTo (e : Token → Token) (B : PSt) {α : Type} [Lk e α] (x y : Res α) : Prop :=
  ∀ a c', x = .ok a c' → ∃ b d' k, y = .ok b d' ∧ Lk.rel e a b ∧ Off e B k c' d'

/-- What is known about calls. -/
structure Rec (e : Token → Token) (B : PSt) (r : Fn → PSt → Res Tree) : Prop where
  off : ∀ f g, Fn.Like e f g → ∀ k c d, Off e B (k + 1) c d → ∀ t c', r f c = .ok t c' →
    Edge c' ∨ ∃ u d' k', r g d = .ok u d' ∧ t.erase e = u.erase e ∧ Off e B (k' + 1) c' d'
  stmt : ∀ f g, Fn.Like e f g → f.isS = true → ∀ k c d, Off e B k c d → OkTo e B (r f c) (r g d)
  dead : ∀ f, f.isS = true → f.isOpt = false → ∀ c, Edge c → ∀ t c', r f c ≠ .ok t c'

variable (r : Fn → PSt → Res Tree)

def J (e : Token → Token) (B : PSt) {α : Type} [Lk e α] (m : Mode) (p q : Prog α) : Prop :=
  ∀ c d, m.At e B c d → OkTo e B (p.exec r c) (q.exec r d)

/-- Does not succeed at the end. -/
def Dead {α : Type} (p : Prog α) : Prop := ∀ c, Edge c → ∀ a c', p.exec r c ≠ .ok a c'

variable {r}

section
variable {α : Type} [Lk e α]

omit [Uni] in
theorem prog_assoc {α β γ : Type} (p : Prog α) (f : α → Prog β) (g : β → Prog γ) : (p >>= f) >>= g = p >>= fun a => f a >>= g := by
  show (p.bind f).bind g = p.bind fun a => (f a).bind g
  induction p with
  | ret | fail | panic => rfl
  | getPos k ih | getExc k ih | call f k ih => simp only [Prog.bind, ih]
  | sym k x ih1 ih2 => simp only [Prog.bind, ih1, ih2]
  | adv k ih | setExc x k ih => simp only [Prog.bind, ih]

theorem At.off {m : Mode} {c d : PSt} (h : m.At e B c d) : ∃ k, Off e B k c d := by
  cases m with
  | mid => exact ⟨_, h.choose_spec⟩
  | cur t => exact ⟨_, h.2.choose_spec⟩
  | edge => exact ⟨0, h⟩

theorem Dead.fail {p m} : Dead r (Prog.fail p m : Prog α) := fun _ _ _ _ h => by cases h
theorem Dead.parse {β : Type} (hr : Rec e B r) {f : Fn} {F : Tree → Prog β} (h1 : f.isS = true) (h2 : f.isOpt = false) : Dead r (parse f >>= F) := by
  intro c hc a c' h
  change (Prog.call f F).exec r c = _ at h
  simp only [Prog.exec] at h
  split at h
  · rename_i t c1 hx; exact hr.dead f h1 h2 c hc t c1 hx
  all_goals cases h
theorem Dead.parse' (hr : Rec e B r) {f : Fn} (h1 : f.isS = true) (h2 : f.isOpt = false) : Dead r (Prog.parse f) :=
  Dead.parse hr (F := .ret) h1 h2
theorem Dead.symAt {β : Type} {p m} {F : Token → Prog β} (h : ∀ t, t.kind = .EOF → Dead r (F t)) : Dead r (Prog.symAt p m >>= F) := by
  intro c hc a c' hx
  obtain ⟨t, ht, hk⟩ := hc.sym
  change (Prog.sym F (.fail p m)).exec r c = _ at hx
  simp only [Prog.exec, ht] at hx
  exact h t hk c hc a c' hx
theorem Dead.next {β : Type} {F : Unit → Prog β} (h : Dead r (F ())) : Dead r (Prog.next >>= F) := fun _ hc => h _ hc.advance
theorem Dead.pure_bind {β γ : Type} {a : γ} {F : γ → Prog β} (h : Dead r (F a)) : Dead r (pure a >>= F) := h

theorem J.of_mid {t} {p q : Prog α} (h : J r e B .mid p q) : J r e B (.cur t) p q := fun c d hc => h c d hc.2
theorem J.fail {m p s q} : J r e B m (Prog.fail p s : Prog α) q := fun _ _ _ _ _ h => by cases h
theorem J.panic {m q} : J r e B m (Prog.panic : Prog α) q := fun _ _ _ _ _ h => by cases h
theorem J.ret {m} {a b : α} (h : Lk.rel e a b) : J r e B m (Prog.ret a) (Prog.ret b) := by
  intro c d hm a' c' hx
  cases hx
  obtain ⟨k, hk⟩ := At.off hm
  exact ⟨b, d, k, rfl, h, hk⟩
theorem J.here {m} {F G : Nat → Prog α} (h : ∀ p q, J r e B m (F p) (G q)) : J r e B m (Prog.here >>= F) (Prog.here >>= G) :=
  fun c d hm => h _ _ c d hm
theorem J.mk {m tag s s' l l'} (hl : eraseList e l = eraseList e l') : J r e B m (Prog.mk tag s l) (Prog.mk tag s' l') := by
  intro c d hm
  exact J.ret (r := r) (e := e) (B := B) (m := m) (by show Tree.erase e _ = Tree.erase e _; simp [Tree.erase, hl]) c d hm
theorem J.ite {m} {b b' : Prop} [Decidable b] [Decidable b'] {p q p' q' : Prog α} (hb : b ↔ b') (h1 : b → J r e B m p p')
    (h2 : ¬ b → J r e B m q q') : J r e B m (if b then p else q) (if b' then p' else q') := by
  by_cases h : b
  · rw [if_pos h, if_pos (hb.mp h)]; exact h1 h
  · rw [if_neg h, if_neg (fun x => h (hb.mpr x))]; exact h2 h
theorem J.ite_bind {γ : Type} {m} {b b' : Prop} [Decidable b] [Decidable b'] {p q p' q' : Prog γ} {F G : γ → Prog α} (hb : b ↔ b')
    (h1 : b → J r e B m (p >>= F) (p' >>= G)) (h2 : ¬ b → J r e B m (q >>= F) (q' >>= G)) :
    J r e B m ((if b then p else q) >>= F) ((if b' then p' else q') >>= G) := by
  by_cases h : b
  · rw [if_pos h, if_pos (hb.mp h)]; exact h1 h
  · rw [if_neg h, if_neg (fun x => h (hb.mpr x))]; exact h2 h
theorem J.pure_bind {γ : Type} {m} {a b : γ} {F G : γ → Prog α} (h : J r e B m (F a) (G b)) : J r e B m (pure a >>= F) (pure b >>= G) := h
theorem J.assoc {γ δ : Type} {m} {p p' : Prog γ} {f f' : γ → Prog δ} {F G : δ → Prog α} (h : J r e B m (p >>= fun a => f a >>= F) (p' >>= fun a => f' a >>= G)) :
    J r e B m ((p >>= f) >>= F) ((p' >>= f') >>= G) := by rw [prog_assoc, prog_assoc]; exact h
theorem J.setExc {x} {F G : Unit → Prog α} (h : J r e B .mid (F ()) (G ())) :
    J r e B .mid ((Prog.setExc x (pure ())) >>= F) ((Prog.setExc x (pure ())) >>= G) := by
  intro c d ⟨k, hk⟩
  exact h _ _ ⟨k, hk.setExc x⟩

theorem J.symAt [Keeps e] {p q m} {F G : Token → Prog α}
    (h : ∀ t u, e t = e u → u.kind = t.kind → u.isMatchName = t.isMatchName → J r e B (.cur t) (F t) (G u)) :
    J r e B .mid (Prog.symAt p m >>= F) (Prog.symAt q m >>= G) := by
  intro c d ⟨k, hk⟩ a c' hx
  have h0 := hk.same 0 (by omega)
  simp only [PSt.ahead, SymLike] at h0
  change (Prog.sym F (.fail p m)).exec r c = _ at hx
  change ∃ b d' k, (Prog.sym G (.fail q m)).exec r d = _ ∧ _
  simp only [Prog.exec] at hx ⊢
  cases hc : c.symbol <;> cases hd : d.symbol <;> simp only [hc, hd] at h0 hx ⊢
  · cases hx
  · exact h _ _ h0 (Keeps.kind h0).symm (Keeps.isMatch h0).symm c d ⟨hc, k, hk⟩ a c' hx
theorem J.symAtE {p q m} {F G : Token → Prog α}
    (h : ∀ t u, t.kind = .EOF → Starts u.kind → J r e B .edge (F t) (G u)) :
    J r e B .edge (Prog.symAt p m >>= F) (Prog.symAt q m >>= G) := by
  intro c d hk a c' hx
  obtain ⟨t, ht, hkt⟩ := hk.zero.sym
  obtain ⟨u, hu, hku⟩ := hk.start
  simp only [PSt.ahead] at hu
  change (Prog.sym F (.fail p m)).exec r c = _ at hx
  change ∃ b d' k, (Prog.sym G (.fail q m)).exec r d = _ ∧ _
  simp only [Prog.exec, ht, hu] at hx ⊢
  exact h t u hkt hku c d hk a c' hx
theorem J.next {t : Token} {F G : Unit → Prog α} (h : J r e B .mid (F ()) (G ()))
    (h' : t.kind = .Newline ∨ t.kind = .Dedent → J r e B .edge (F ()) (G ())) : J r e B (.cur t) (Prog.next >>= F) (Prog.next >>= G) := by
  intro c d ⟨hc, k, hk⟩
  cases k with
  | zero =>
    obtain ⟨t', ht, hk'⟩ := hk.last 0 rfl
    simp only [PSt.ahead, hc] at ht
    cases ht
    exact h' hk' _ _ hk.advance
  | succ k => exact h _ _ ⟨k, hk.advance⟩
theorem J.out {m} {p q : Prog α} (h : J r e B m p q) : ∀ c d, m.At e B c d → OkTo e B (p.exec r c) (q.exec r d) := h
theorem J.of_dead {p q : Prog α} (h : Dead r p) : J r e B .edge p q := fun c _ hc a c' hx => (h c hc.zero a c' hx).elim
/-- A call in the middle of a line. -/
theorem J.expr (hr : Rec e B r) {f g : Fn} {F G : Tree → Prog α} (hl : Fn.Like e f g)
    (h : ∀ t u : Tree, t.erase e = u.erase e → J r e B .mid (F t) (G u)) (hd : ∀ t, Dead r (F t)) :
    J r e B .mid (Prog.parse f >>= F) (Prog.parse g >>= G) := by
  intro c d ⟨k, hk⟩ a c' hx
  change (Prog.call f F).exec r c = _ at hx
  change ∃ b d' k, (Prog.call g G).exec r d = _ ∧ _
  simp only [Prog.exec] at hx
  split at hx
  · rename_i t c1 hc
    rcases hr.off f g hl k c d hk t c1 hc with he | ⟨u, d', k', h1, h2, h3⟩
    · exact (hd t c1 he a c' hx).elim
    · simp only [Prog.exec, h1]
      exact h t u h2 c1 d' ⟨k', h3⟩ a c' hx
  all_goals cases hx
/-- A call of a statement. -/
theorem J.stmt (hr : Rec e B r) {m} {f g : Fn} {F G : Tree → Prog α} (hs : f.isS = true) (hl : Fn.Like e f g)
    (h : ∀ t u : Tree, t.erase e = u.erase e → J r e B .mid (F t) (G u)) (h' : ∀ t u : Tree, t.erase e = u.erase e → J r e B .edge (F t) (G u)) :
    J r e B m (Prog.parse f >>= F) (Prog.parse g >>= G) := by
  intro c d hm a c' hx
  obtain ⟨k, hk⟩ := At.off hm
  change (Prog.call f F).exec r c = _ at hx
  change ∃ b d' k, (Prog.call g G).exec r d = _ ∧ _
  simp only [Prog.exec] at hx
  split at hx
  · rename_i t c1 hc
    obtain ⟨u, d', k', h1, h2, h3⟩ := hr.stmt f g hl hs k c d hk t c1 hc
    simp only [Prog.exec, h1]
    cases k' with
    | zero => exact h' t u h2 c1 d' h3 a c' hx
    | succ k' => exact h t u h2 c1 d' ⟨k', h3⟩ a c' hx
  all_goals cases hx
theorem J.stmt' (hr : Rec e B r) {m} {f g : Fn} (hs : f.isS = true) (hl : Fn.Like e f g) : J r e B m (Prog.parse f) (Prog.parse g) :=
  J.stmt hr (F := .ret) (G := .ret) hs hl (fun _ _ h => J.ret h) (fun _ _ h => J.ret h)
end
end Verif
