import Verif.Proof.Ins

/-!
# A statement depends on what it reads up to positions
-/

namespace Verif
open Prog

section
variable {e : Token → Token} [Keeps e] [Uni]

omit [Keeps e] in
theorem SeenLike.exc {k c d} (h : SeenLike e k c d) (x) : SeenLike e k c { d with exc := x } := fun i hi => by
  rw [ahead_exc i d x]; exact h i hi
omit [Keeps e] in
theorem SeenLike.excL {k c d} (h : SeenLike e k c d) (x) : SeenLike e k { c with exc := x } d := fun i hi => by
  rw [ahead_exc i c x]; exact h i hi

/-- A successful run that consumes `ts`, and what another program does where the symbols are alike.  `b`: the `except`
status has to be the same. -/
def LikeAt (e : Token → Token) {α : Type} [Lk e α] (b : Bool) (c : PSt) (a : α) (c' : PSt) (R : Prog α → Prop) : Prop :=
  ∃ ts, Consumed c ts c' ∧ ∀ q, R q → ∀ m d, (b = true → d.exc = c.exc) → SeenLike e (ts.length + m) c d →
    ∃ v y, EvP q d v { d.ahead ts.length with exc := y } ∧ Lk.rel e a v ∧ SeenLike e m c' (d.ahead ts.length) ∧
      (y = c'.exc ∨ y = d.exc ∧ c'.exc = c.exc)

omit [Keeps e] in
theorem twp_likeAt {α : Type} [Lk e α] {src B} {n : Nat}
    (hrec : ∀ f c t d, f.input = false → Good src c → run n f c = .ok t d → Good src d ∧ d.left + f.step ≤ c.left)
    (hloc : ∀ f c t d, f.input = false → Good src c → run n f c = .ok t d →
      LikeAt e f.looks c t d (fun q => ∃ g, Fn.Like e f g ∧ q = parse g))
    (p : Prog α) : ∀ (b : Bool) (_ : Ins b p) (c : PSt) (_ : Good src c) (Q : α → PSt → Prop) (_ : TWP src B p c Q) (a : α) (c' : PSt)
    (_ : p.exec (run n) c = .ok a c'), LikeAt e b c a c' (fun q => RelP e p q) := by
  induction p with
  | ret a =>
    intro b _ c hc Q h a c' hr
    simp only [Prog.exec, Res.ok.injEq] at hr; obtain ⟨rfl, rfl⟩ := hr
    refine ⟨[], .refl _, fun q hq m d _ hv => ?_⟩
    cases q <;> first | exact hq.elim | skip
    exact ⟨_, d.exc, ⟨0, rfl⟩, hq, by simpa [PSt.ahead] using hv, .inr ⟨rfl, rfl⟩⟩
  | fail | panic => intro b _ c hc Q h a c' hr; simp [Prog.exec] at hr
  | getPos k ih =>
    intro b hb c hc Q h a c' hr
    obtain ⟨ts, h1, h2⟩ := ih _ b (hb _) _ hc _ (h _) _ _ hr
    refine ⟨ts, h1, fun q hq m d hx hv => ?_⟩
    cases q <;> first | exact hq.elim | skip
    obtain ⟨v, y, ⟨k, h3⟩, h4⟩ := h2 _ (hq _ d.lex.tokStart) m d hx hv
    exact ⟨v, y, ⟨k, h3⟩, h4⟩
  | getExc k ih =>
    intro b hb c hc Q h a c' hr
    obtain ⟨ts, h1, h2⟩ := ih _ b (hb.2 _) _ hc _ (h _) _ _ hr
    refine ⟨ts, h1, fun q hq m d hx hv => ?_⟩
    cases q <;> first | exact hq.elim | skip
    obtain ⟨v, y, ⟨k, h3⟩, h4⟩ := h2 _ (hq _) m d hx hv
    exact ⟨v, y, ⟨k, by simp only [Prog.exec, hx hb.1]; exact h3⟩, h4⟩
  | setExc x k ih =>
    intro b hb c hc Q h a c' hr
    obtain ⟨ts, h1, h2⟩ := ih true hb { c with exc := x } (hc.exc x) _ (h _ (hc.exc x) rfl rfl) _ _ hr
    refine ⟨ts, h1.exc, fun q hq m d hx hv => ?_⟩
    cases q <;> first | exact hq.elim | skip
    obtain ⟨rfl, hq⟩ := hq
    obtain ⟨v, y, ⟨k, h3⟩, h4, h5, h6⟩ := h2 _ hq m { d with exc := x } (fun _ => rfl) ((hv.exc x).excL x)
    rw [ahead_exc ts.length d x] at h3 h5
    exact ⟨v, y, ⟨k, h3⟩, h4, fun i hi => by have := h5 i hi; rw [ahead_exc i _ x] at this; exact this,
      .inl (h6.elim id fun h => h.1.trans h.2.symm)⟩
  | sym k x ih1 ih2 =>
    intro b hb c hc Q h a c' hr
    simp only [Prog.exec] at hr
    cases hs : c.symbol with
    | ok t =>
      rw [hs] at hr
      obtain ⟨ts, h1, h2⟩ := ih1 _ b (hb.1 _) _ hc _ (h.1 t hs) _ _ hr
      refine ⟨ts, h1, fun q hq m d hx hv => ?_⟩
      cases q <;> first | exact hq.elim | skip
      have h0 := hv 0 (by omega)
      simp only [PSt.ahead, SymLike, hs] at h0
      cases hd : d.symbol with
      | error => rw [hd] at h0; exact h0.elim
      | ok u =>
        rw [hd] at h0
        obtain ⟨v, y, ⟨k, h3⟩, h4⟩ := h2 _ (hq.1 _ _ h0) m d hx hv
        exact ⟨v, y, ⟨k, by simp only [Prog.exec, hd]; exact h3⟩, h4⟩
    | error x =>
      rw [hs] at hr
      obtain ⟨ts, h1, h2⟩ := ih2 b hb.2 _ hc _ (h.2 x hs) _ _ hr
      refine ⟨ts, h1, fun q hq m d hx hv => ?_⟩
      cases q <;> first | exact hq.elim | skip
      have h0 := hv 0 (by omega)
      simp only [PSt.ahead, SymLike, hs] at h0
      cases hd : d.symbol with
      | ok => rw [hd] at h0; exact h0.elim
      | error u =>
        obtain ⟨v, y, ⟨k, h3⟩, h4⟩ := h2 _ hq.2 m d hx hv
        exact ⟨v, y, ⟨k, by simp only [Prog.exec, hd]; exact h3⟩, h4⟩
  | adv k ih =>
    intro b hb c hc Q h a c' hr
    obtain ⟨t, ht, h⟩ := h
    obtain ⟨ts, h1, h2⟩ := ih b hb _ hc.advance _ (h _ hc.advance (hc.advance_le ht) (advance_left hc.inv t ht)) _ _ hr
    refine ⟨t :: ts, .step ht h1, fun q hq m d hx hv => ?_⟩
    cases q <;> first | exact hq.elim | skip
    have he : ∀ c : PSt, c.advance.exc = c.exc := fun c => by unfold PSt.advance; split <;> rfl
    obtain ⟨v, y, ⟨k, h3⟩, h4, h5, h6⟩ := h2 _ hq m d.advance (fun hb => by rw [he, he]; exact hx hb)
      (SeenLike.adv (hv.mono (by simp only [List.length_cons]; omega)))
    exact ⟨v, y, ⟨k, h3⟩, h4, h5, by rw [he, he] at h6; exact h6⟩
  | call f k ih =>
    intro b hb c hc Q h a c' hr
    simp only [Prog.exec] at hr
    cases hfr : run n f c with
    | ok t c1 =>
      rw [hfr] at hr
      have hi : f.input = false := by
        rcases h.1 with h | ⟨rfl, -⟩
        · exact h.1
        · rfl
      obtain ⟨h1, h2⟩ := hrec _ _ _ _ hi hc hfr
      obtain ⟨ts, e1, e2⟩ := hloc _ _ _ _ hi hc hfr
      obtain ⟨us, e3, e4⟩ := ih _ b (hb.2 t) _ h1 _ (h.2 t c1 h1 h2) _ _ hr
      refine ⟨ts ++ us, e1.trans e3, fun q hq m d hx hv => ?_⟩
      cases q <;> first | exact hq.elim | skip
      obtain ⟨u, y, e5, e6, e7, e11⟩ := e2 _ ⟨_, hq.1, rfl⟩ (us.length + m) d
        (fun hl => hx (hb.1.resolve_right (by rw [hl]; simp))) (hv.mono (by simp only [List.length_append]; omega))
      obtain ⟨v, z, e8, e9, e10, e12⟩ := e4 _ (hq.2 _ _ e6) m _
        (fun hb => e11.elim id fun h => by rw [h.2, ← hx hb]; exact h.1) (e7.exc y)
      rw [ahead_exc us.length _ y] at e8 e10
      rw [List.length_append, ahead_add]
      refine ⟨v, z, evp_bind e5 e8, e9, fun i hi => by have := e10 i hi; rw [ahead_exc i _ y] at this; exact this, ?_⟩
      rcases e12 with e12 | ⟨e12, e13⟩
      · exact .inl e12
      · rcases e11 with e11 | ⟨e11, e14⟩
        · exact .inl (e12.trans (e11.trans e13.symm))
        · exact .inr ⟨e12.trans e11, e13.trans e14⟩
    | err => rw [hfr] at hr; simp at hr
    | panic => rw [hfr] at hr; simp at hr
    | diverge => rw [hfr] at hr; simp at hr

theorem run_likeAt {src} (n f c t d) (hf : f.input = false) (hc : Good src c) (hr : run n f c = .ok t d) :
    LikeAt e f.looks c t d (fun q => ∃ g, Fn.Like e f g ∧ q = parse g) := by
  induction n generalizing f c t d with
  | zero => simp [run] at hr
  | succ n ih =>
    obtain ⟨ts, h1, h2⟩ := twp_likeAt (e := e) (tok_run (t_all src) n) (fun f c t d hf hc hr => ih f c t d hf hc hr) (body f) _ (ins_all f)
      c hc _ (t_all src f hf c hc) t d hr
    refine ⟨ts, h1, ?_⟩
    rintro _ ⟨g, hg, rfl⟩ m d hx hv
    obtain ⟨b, y, h3, h4⟩ := h2 _ (al_body hg) m d hx hv
    exact ⟨b, y, evp_parse (ev_body h3), h4⟩

end
end Verif
