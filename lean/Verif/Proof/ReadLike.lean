import Verif.Proof.Clean
import Verif.Proof.Follow

/-!
# An expression depends on what it reads up to positions
-/

namespace Verif
open Prog

section
variable {e : Token → Token} [Keeps e] [Uni]

/-- The current symbol and the next `k` ones are alike. -/
def SeenLike (e : Token → Token) (k : Nat) (c d : PSt) : Prop := ∀ i, i ≤ k → SymLike e (c.ahead i) (d.ahead i)

omit [Keeps e] in
theorem SeenLike.mono {k m c d} (h : SeenLike e k c d) (hm : m ≤ k) : SeenLike e m c d := fun i hi => h i (Nat.le_trans hi hm)
omit [Keeps e] in
theorem SeenLike.adv {k c d} (h : SeenLike e (k + 1) c d) : SeenLike e k c.advance d.advance := fun i hi => h (i + 1) (by omega)

/-- A successful run that consumes `ts`, and what another program does where the symbols are alike. -/
def LikeOk (e : Token → Token) {α : Type} [Lk e α] (c : PSt) (a : α) (c' : PSt) (R : Prog α → Prop) : Prop :=
  ∃ ts, Consumed c ts c' ∧ ∀ q, R q → ∀ m d, SeenLike e (ts.length + m) c d →
    ∃ b, EvP q d b (d.ahead ts.length) ∧ Lk.rel e a b ∧ SeenLike e m c' (d.ahead ts.length)

omit [Keeps e] in
theorem twp_like {α : Type} [Lk e α] {src B} {n : Nat}
    (hrec : ∀ f c t d, f.input = false → Good src c → run n f c = .ok t d → Good src d ∧ d.left + f.step ≤ c.left)
    (hloc : ∀ f c t d, f.isExpr = true → Good src c → run n f c = .ok t d →
      LikeOk e c t d (fun q => ∃ g, Fn.Like e f g ∧ q = parse g))
    (p : Prog α) (hcl : Clean Fn.isExpr p) : ∀ (c : PSt) (_ : Good src c) (Q : α → PSt → Prop) (_ : TWP src B p c Q) (a : α) (c' : PSt)
    (_ : p.exec (run n) c = .ok a c'), LikeOk e c a c' (fun q => RelP e p q) := by
  induction hcl with
  | ret =>
    intro c hc Q h a c' hr
    simp only [Prog.exec, Res.ok.injEq] at hr; obtain ⟨rfl, rfl⟩ := hr
    refine ⟨[], .refl _, fun q hq m d hv => ?_⟩
    cases q <;> first | exact hq.elim | skip
    exact ⟨_, ⟨0, rfl⟩, hq, by simpa [PSt.ahead] using hv⟩
  | fail | panic => intro c hc Q h a c' hr; simp [Prog.exec] at hr
  | getPos _ ih =>
    intro c hc Q h a c' hr
    obtain ⟨ts, h1, h2⟩ := ih _ _ hc _ (h _) _ _ hr
    refine ⟨ts, h1, fun q hq m d hv => ?_⟩
    cases q <;> first | exact hq.elim | skip
    obtain ⟨b, ⟨k, h3⟩, h4⟩ := h2 _ (hq _ d.lex.tokStart) m d hv
    exact ⟨b, ⟨k, h3⟩, h4⟩
  | sym _ _ ih1 ih2 =>
    intro c hc Q h a c' hr
    simp only [Prog.exec] at hr
    cases hs : c.symbol with
    | ok t =>
      rw [hs] at hr
      obtain ⟨ts, h1, h2⟩ := ih1 _ _ hc _ (h.1 t hs) _ _ hr
      refine ⟨ts, h1, fun q hq m d hv => ?_⟩
      cases q <;> first | exact hq.elim | skip
      have h0 := hv 0 (by omega)
      simp only [PSt.ahead, SymLike, hs] at h0
      cases hd : d.symbol with
      | error => rw [hd] at h0; exact h0.elim
      | ok u =>
        rw [hd] at h0
        obtain ⟨b, ⟨k, h3⟩, h4⟩ := h2 _ (hq.1 _ _ h0) m d hv
        exact ⟨b, ⟨k, by simp only [Prog.exec, hd]; exact h3⟩, h4⟩
    | error x =>
      rw [hs] at hr
      obtain ⟨ts, h1, h2⟩ := ih2 _ hc _ (h.2 x hs) _ _ hr
      refine ⟨ts, h1, fun q hq m d hv => ?_⟩
      cases q <;> first | exact hq.elim | skip
      have h0 := hv 0 (by omega)
      simp only [PSt.ahead, SymLike, hs] at h0
      cases hd : d.symbol with
      | ok => rw [hd] at h0; exact h0.elim
      | error u =>
        obtain ⟨b, ⟨k, h3⟩, h4⟩ := h2 _ hq.2 m d hv
        exact ⟨b, ⟨k, by simp only [Prog.exec, hd]; exact h3⟩, h4⟩
  | adv _ ih =>
    intro c hc Q h a c' hr
    obtain ⟨t, ht, h⟩ := h
    obtain ⟨ts, h1, h2⟩ := ih _ hc.advance _ (h _ hc.advance (hc.advance_le ht) (advance_left hc.inv t ht)) _ _ hr
    refine ⟨t :: ts, .step ht h1, fun q hq m d hv => ?_⟩
    cases q <;> first | exact hq.elim | skip
    obtain ⟨b, ⟨k, h3⟩, h4, h5⟩ := h2 _ hq m d.advance (SeenLike.adv (hv.mono (by simp only [List.length_cons]; omega)))
    exact ⟨b, ⟨k, h3⟩, h4, h5⟩
  | @call f k hf _ ih =>
    intro c hc Q h a c' hr
    simp only [Prog.exec] at hr
    cases hfr : run n f c with
    | ok t c1 =>
      rw [hfr] at hr
      have hi : f.input = false := by
        rcases h.1 with h | ⟨rfl, -⟩
        · exact h.1
        · rfl
      obtain ⟨h1, h2⟩ := hrec _ _ _ _ hi hc hfr
      obtain ⟨ts, e1, e2⟩ := hloc _ _ _ _ hf hc hfr
      obtain ⟨us, e3, e4⟩ := ih _ _ h1 _ (h.2 t c1 h1 h2) _ _ hr
      refine ⟨ts ++ us, e1.trans e3, fun q hq m d hv => ?_⟩
      cases q <;> first | exact hq.elim | skip
      obtain ⟨u, e5, e6, e7⟩ := e2 _ ⟨_, hq.1, rfl⟩ (us.length + m) d (hv.mono (by simp only [List.length_append]; omega))
      obtain ⟨b, e8, e9, e10⟩ := e4 _ (hq.2 _ _ e6) m _ e7
      rw [List.length_append, ahead_add]
      exact ⟨b, evp_bind e5 e8, e9, e10⟩
    | err => rw [hfr] at hr; simp at hr
    | panic => rw [hfr] at hr; simp at hr
    | diverge => rw [hfr] at hr; simp at hr

omit [Uni] in
theorem isExpr_input {f : Fn} (h : f.isExpr = true) : f.input = false := by
  cases f <;> first | rfl | simp [Fn.isExpr] at h

theorem run_likeOk {src} (n f c t d) (hf : f.isExpr = true) (hc : Good src c) (hr : run n f c = .ok t d) :
    LikeOk e c t d (fun q => ∃ g, Fn.Like e f g ∧ q = parse g) := by
  induction n generalizing f c t d with
  | zero => simp [run] at hr
  | succ n ih =>
    obtain ⟨ts, h1, h2⟩ := twp_like (e := e) (tok_run (t_all src) n) (fun f c t d hf hc hr => ih f c t d hf hc hr) (body f) (clean_body hf)
      c hc _ (t_all src f (isExpr_input hf) c hc) t d hr
    refine ⟨ts, h1, ?_⟩
    rintro _ ⟨g, hg, rfl⟩ m d hv
    obtain ⟨b, h3, h4⟩ := h2 _ (al_body hg) m d hv
    exact ⟨b, evp_parse (ev_body h3), h4⟩

end

section
variable [Uni]

theorem evp_parse_inv {f c t c'} (h : EvP (parse f) c t c') : Ev f c t c' := by
  obtain ⟨n, h⟩ := h
  refine ⟨n, ?_⟩
  simp only [Prog.parse, Prog.exec] at h
  cases hr : run n f c <;> rw [hr] at h <;> first | exact h | (cases h; done)

/-- What is between parentheses. -/
def parenInner (t2 : Token) : Prog Tree :=
  if t2.kind = .PyYield then parse .yieldExpr else if t2.kind = .PyRightParen then pure .none else parse .testlistComp

/-- The branch of `atom` at an opening parenthesis. -/
def parenAtom (s : Nat) (t : Token) : Prog Tree := do
  next
  let t2 ← symAt s "Expecting symbol in atom expression!"
  let right ← parenInner t2
  let t3 ← symAt s "Expecting symbol in atom expression!"
  if t3.kind = .PyRightParen then do next; mk .AtomTuple s [.tok t, right, .tok t3]
  else fail s "Expecting ')' in tuple atom expression!"

theorem atom_paren {n : Nat} {c : PSt} {l : Token} (hl : c.symbol = .ok l) (hk : l.kind = .PyLeftParen) :
    (body .atom).exec (run n) c = (parenAtom c.lex.tokStart l).exec (run n) c := by
  show atomBody.exec (run n) c = _
  unfold atomBody
  rw [exec_bind _ _ _ _ (show here.exec (run n) c = .ok c.lex.tokStart c from rfl),
    exec_bind _ _ _ _ (show (symAt _ _).exec (run n) c = .ok l c by simp only [Prog.symAt, Prog.exec, hl])]
  simp only [hk, reduceCtorEq, if_true, if_false]
  unfold parenAtom
  congr 1
  refine congrArg (next >>= ·) (funext fun _ => congrArg (symAt _ _ >>= ·) (funext fun t2 => ?_))
  unfold parenInner
  split
  · rfl
  · split <;> rfl

theorem symAt_ok {n : Nat} {c : PSt} {p m t c'} (h : (symAt p m).exec (run n) c = .ok t c') : c.symbol = .ok t ∧ c' = c := by
  simp only [Prog.symAt, Prog.exec] at h
  cases hs : c.symbol <;> rw [hs] at h <;> cases h
  exact ⟨rfl, rfl⟩

theorem SymLike.bare {c d : PSt} {t : Token} (h : SymLike Token.bare c d) (hc : c.symbol = .ok t) :
    ∃ u, d.symbol = .ok u ∧ t.bare = u.bare := by
  unfold SymLike at h
  rw [hc] at h
  cases hd : d.symbol with
  | error => rw [hd] at h; exact h.elim
  | ok u => rw [hd] at h; exact ⟨u, rfl, h⟩

/-- What is read between two parentheses: what `atom` does there, and does elsewhere. -/
theorem paren_like {src n c t c'} (hc : Good src c) {l : Token} (hl : c.symbol = .ok l) (hk : l.kind = .PyLeftParen)
    (h : run n .atom c = .ok t c') : ∃ ts rp, Consumed c (l :: ts ++ [rp]) c' ∧ rp.kind = .PyRightParen ∧ t.tag? = some .AtomTuple ∧
      ∀ d, SeenLike Token.bare (ts.length + 1) c d → ∃ u, Ev .atom d u (d.ahead (ts.length + 2)) ∧ t.erase Token.bare = u.erase Token.bare := by
  cases n with
  | zero => simp [run] at h
  | succ n =>
  have h : (body .atom).exec (run n) c = .ok t c' := h
  rw [atom_paren hl hk] at h
  unfold parenAtom at h
  obtain ⟨_, _, h1, k1⟩ := exec_bind_ok _ _ _ _ h
  cases h1
  obtain ⟨t2, c0, h2', k2⟩ := exec_bind_ok _ _ _ _ k1
  obtain ⟨h2, e2⟩ := symAt_ok h2'
  rw [e2] at k2
  obtain ⟨v, c1, h3, k3⟩ := exec_bind_ok _ _ _ _ k2
  obtain ⟨rp, c2, h4', k4⟩ := exec_bind_ok _ _ _ _ k3
  obtain ⟨h4, e4⟩ := symAt_ok h4'
  rw [e4] at k4
  split at k4 <;> first | (cases k4; done) | skip
  rename_i hrp
  obtain ⟨_, _, h5, k5⟩ := exec_bind_ok _ _ _ _ k4
  cases h5
  cases k5
  clear h k1 k2 k3 k4 h2' h4' e2 e4
  have inner : ∃ ts, Consumed c.advance ts c1 ∧ ∀ m d u2, t2.kind = u2.kind → SeenLike Token.bare (ts.length + m) c.advance d →
      ∃ b, EvP (parenInner u2) d b (d.ahead ts.length) ∧ v.erase Token.bare = b.erase Token.bare ∧ SeenLike Token.bare m c1 (d.ahead ts.length) := by
    unfold parenInner at h3
    have key : ∀ f : Fn, f.isExpr = true → (parse f).exec (run n) c.advance = .ok v c1 → (∀ u2, t2.kind = u2.kind → parenInner u2 = parse f) →
        ∃ ts, Consumed c.advance ts c1 ∧ ∀ m d u2, t2.kind = u2.kind → SeenLike Token.bare (ts.length + m) c.advance d →
      ∃ b, EvP (parenInner u2) d b (d.ahead ts.length) ∧ v.erase Token.bare = b.erase Token.bare ∧ SeenLike Token.bare m c1 (d.ahead ts.length) := by
      intro f hf h3 hi
      obtain ⟨k, h3⟩ := evp_parse_inv ⟨n, h3⟩
      obtain ⟨ts, g1, g2⟩ := run_likeOk (e := Token.bare) _ _ _ _ _ hf hc.advance h3
      refine ⟨ts, g1, fun m d u2 hu hv => ?_⟩
      rw [hi u2 hu]
      exact g2 _ ⟨f, like_refl f, rfl⟩ m d hv
    split at h3
    · rename_i hy
      exact key _ rfl h3 (fun u2 hu => by unfold parenInner; rw [← hu, if_pos hy])
    · rename_i hy
      split at h3
      · rename_i hy2
        cases h3
        refine ⟨[], .refl _, fun m d u2 hu hv => ⟨.none, ?_, rfl, by simpa [PSt.ahead] using hv⟩⟩
        simp only [parenInner, ← hu, hy2, reduceCtorEq, if_true, if_false]
        exact evp_pure
      · rename_i hy2
        exact key _ rfl h3 (fun u2 hu => by unfold parenInner; rw [← hu, if_neg hy, if_neg hy2])
  obtain ⟨ts, g1, g2⟩ := inner
  refine ⟨ts, rp, .step hl (g1.trans (.step h4 (.refl _))), hrp, rfl, fun d hv => ?_⟩
  have bk : ∀ {a b : Token}, a.bare = b.bare → a.kind = b.kind := fun {a b} h => Keeps.kind h
  obtain ⟨l', e1, e2⟩ := (hv 0 (by omega)).bare hl
  have e1 : d.symbol = .ok l' := e1
  obtain ⟨t2', e3, e4⟩ := (hv 1 (by omega)).bare h2
  obtain ⟨b, e5, e6, e7⟩ := g2 0 d.advance t2' (bk e4) (SeenLike.adv hv)
  obtain ⟨rp', e8, e9⟩ := (e7 0 (Nat.le_refl _)).bare h4
  have hah : (d.advance.ahead ts.length).advance = d.ahead (ts.length + 2) := by
    rw [show ts.length + 2 = (1 + ts.length) + 1 by omega, ahead_add, ahead_add]; rfl
  refine ⟨.node .AtomTuple d.lex.tokStart (d.ahead (ts.length + 2)).lex.tokStart [.tok l', b, .tok rp'], ev_body ?_, ?_⟩
  · have : EvP (parenAtom d.lex.tokStart l') d (.node .AtomTuple d.lex.tokStart (d.ahead (ts.length + 2)).lex.tokStart [.tok l', b, .tok rp'])
        (d.ahead (ts.length + 2)) := by
      refine evp_bind evp_next (evp_bind (evp_symAt e3) (evp_bind e5 (evp_bind (evp_symAt e8) ?_)))
      rw [if_pos ((bk e9).symm.trans hrp)]
      refine evp_bind evp_next ?_
      rw [hah]
      exact evp_mk
    obtain ⟨k, hk'⟩ := this
    exact ⟨k, by rw [atom_paren e1 ((bk e2).symm.trans hk)]; exact hk'⟩
  · simp only [Tree.erase, eraseList, e2, e6, e9]

end
end Verif
