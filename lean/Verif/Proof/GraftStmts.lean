import Verif.Proof.GraftSound
import Verif.Props.JoinTrees
import Verif.Props.StmtAnywhere
import Verif.Proof.Block

/-!
# The statements of a file, read elsewhere
-/

namespace Verif
open Prog

section
variable [Uni]

theorem Consumed.eq {c ts c'} (h : Consumed c ts c') : c' = { c.ahead ts.length with exc := c'.exc } := by
  have h1 := h.lexIndex
  have h2 := h.index.1
  cases c'
  simp only at h1 h2
  rw [h1, h2]

theorem Consumed.seen {c ts c'} (h : Consumed c ts c') : ∀ t ∈ ts, ∃ i, i < ts.length ∧ (c.ahead i).symbol = .ok t := by
  induction h with
  | done => intro t ht; cases ht
  | @step c t ts c' h1 _ ih =>
    intro u hu
    rcases List.mem_cons.1 hu with rfl | hu
    · exact ⟨0, by simp, h1⟩
    · obtain ⟨i, h2, h3⟩ := ih u hu
      exact ⟨i + 1, by simpa using h2, h3⟩

omit [Uni] in
theorem XDer.calm {r x ts y} (d : XDer pRule r x ts y) : r.calm = true → (∀ t ∈ ts, t.kind ≠ .PyTry) → y = x := by
  induction d with
  | eps | k | any | absent | stop => intro _ _; rfl
  | n _ ih => intro h; exact ih (XR.calm_table _ h)
  | seq d1 d2 ih1 ih2 =>
    intro h ht
    rcases seq_calm h with rfl | ⟨h1, h2⟩
    · cases d1 with
      | k hk => exact absurd hk (ht _ (by simp))
    · rw [ih2 h2 fun t h => ht t (List.mem_append_right _ h), ih1 h1 fun t h => ht t (List.mem_append_left _ h)]
  | left _ ih => intro h; simp only [XR.calm, Bool.and_eq_true] at h; exact ih h.1
  | right _ ih => intro h; simp only [XR.calm, Bool.and_eq_true] at h; exact ih h.2
  | present _ ih | only _ _ ih => intro h; exact ih h
  | more _ _ ih1 ih2 =>
    intro h ht
    rw [ih2 h fun t h => ht t (List.mem_append_right _ h), ih1 h fun t h => ht t (List.mem_append_left _ h)]
  | mark => intro h; cases h

/-- No `try` from here on. -/
def NoTry (c : PSt) : Prop := ∀ i t, (c.ahead i).symbol = .ok t → t.kind ≠ .PyTry

theorem stmt_calm {n c t c'} (h : run n .stmt c = .ok t c') (hn : NoTry c) : c'.exc = c.exc := by
  obtain ⟨ts, h1, h2⟩ : XG (.n .stmt) c c' := run_exact h
  refine h2.calm (by decide +kernel) fun t ht => ?_
  obtain ⟨i, -, h3⟩ := h1.seen t ht
  exact hn i t h3

theorem stmt_head {n c t c'} (h : run n .stmt c = .ok t c') : ∃ v, c.symbol = .ok v ∧ v.kind ≠ .Dedent := by
  obtain ⟨ts, h1, h2⟩ : XG (.n .stmt) c c' := run_exact h
  obtain ⟨m, h3⟩ := XN.of h2
  obtain ⟨v, us, rfl, h4⟩ := h3.head
  cases h1 with
  | step h5 _ => exact ⟨v, h5, by rintro he; rw [he] at h4; exact absurd h4 (by decide +kernel)⟩

/-- The end of the text is `N` symbols away. -/
structure EofAt (N : Nat) (c : PSt) : Prop where
  no : ∀ i < N, ∀ t, (c.ahead i).symbol = .ok t → t.kind ≠ .EOF
  edge : Edge (c.ahead N)

theorem EofAt.uniq {N M c} (h : EofAt N c) (h' : EofAt M c) : N = M := by
  obtain ⟨t, h1, h2⟩ := h.edge.sym
  obtain ⟨u, h3, h4⟩ := h'.edge.sym
  rcases Nat.lt_trichotomy N M with hl | he | hl
  · exact absurd h2 (h'.no _ hl _ h1)
  · exact he
  · exact absurd h4 (h.no _ hl _ h3)

theorem EofAt.ahead {N c} (h : EofAt N c) (j : Nat) : EofAt (N - j) (c.ahead j) := by
  refine ⟨fun i hi t ht => h.no (j + i) (by omega) t (by rw [ahead_add]; exact ht), fun i => ?_⟩
  rw [← ahead_add, ← ahead_add]
  have := h.edge ((j + (N - j + i)) - N)
  rw [← ahead_add] at this
  rwa [show N + (j + (N - j + i) - N) = j + (N - j + i) by omega] at this

theorem EofAt.exc {N c} (h : EofAt N c) (x) : EofAt N { c with exc := x } :=
  ⟨fun i hi t ht => h.no i hi t (by rw [ahead_exc i c x] at ht; exact ht), by rw [ahead_exc N c x]; exact h.edge.exc x⟩

theorem Off.eofAt {B : PSt} {k M c d} (h : Off Token.bare B k c d) (hB : EofAt M B) : EofAt (k + M) d := by
  refine ⟨fun i hi t ht => ?_, fun i => ?_⟩
  · by_cases hk : i < k
    · have := h.same i hk
      unfold SymLike at this
      rw [ht] at this
      cases hc : (c.ahead i).symbol with
      | error e => rw [hc] at this; exact this.elim
      | ok v =>
        rw [hc] at this
        rw [← Keeps.kind (e := Token.bare) this]
        exact h.noEof i hk v hc
    · obtain ⟨j, rfl⟩ := Nat.exists_eq_add_of_le (Nat.le_of_not_lt hk)
      rw [ahead_add] at ht
      have := h.tail j
      unfold SymLike at this
      rw [ht] at this
      cases hc : (B.ahead j).symbol with
      | error e => rw [hc] at this; exact this.elim
      | ok v =>
        rw [hc] at this
        rw [Keeps.kind (e := Token.bare) this]
        exact hB.no j (by omega) v hc
  · rw [← ahead_add]
    have := h.tail (M + i)
    obtain ⟨v, hv1, hv2⟩ := hB.edge i
    rw [← ahead_add] at hv1
    unfold SymLike at this
    rw [hv1, ← ahead_add, ← Nat.add_assoc] at this
    cases hc : (d.ahead (k + M + i)).symbol with
    | error e => rw [hc] at this; exact this.elim
    | ok w =>
      rw [hc] at this
      exact ⟨w, rfl, (Keeps.kind (e := Token.bare) this).trans hv2⟩

/-- Statements one after the other. -/
inductive Stmts : PSt → List Tree → PSt → Prop
  | nil {c} : Stmts c [] c
  | cons {c t y c1 ys c2} : c.symbol = .ok t → t.kind ≠ .Dedent → Ev .stmt c y c1 → Stmts c1 ys c2 → Stmts c (y :: ys) c2

theorem ahead_excEq : ∀ k (c : PSt), (c.ahead k).exc = c.exc
  | 0, _ => rfl
  | k + 1, c => (ahead_excEq k c.advance).trans (advance_exc_eq c)

theorem good_ahead {src} : ∀ j {c : PSt}, Good src c → Good src (c.ahead j)
  | 0, _, h => h
  | j + 1, _, h => good_ahead j h.advance

omit [Uni] in
theorem symLike_refl (e : Token → Token) (c : PSt) : SymLike e c c := by
  unfold SymLike
  cases c.symbol <;> trivial

/-- What the loop over the statements of a file does at the current symbol. -/
theorem fileLoop_step {n s nodes seps y} {c : PSt} (hc : c.symbol = .ok y) : run (n + 1) (.fileLoop s nodes seps) c =
    (if y.kind = .EOF then Prog.mk .FileInput s [.seq nodes.reverse, .toks seps.reverse, .tok y]
      else if y.kind = .Newline then do
        Prog.next
        Prog.parse (.fileLoop s nodes (seps ++ [y]))
      else do
        let x ← Prog.parse .stmt
        Prog.parse (.fileLoop s (nodes ++ [x]) seps)).exec (run n) c := by
  change (fileLoopBody s nodes seps).exec (run n) c = _
  unfold fileLoopBody
  change (Prog.sym _ (.fail s _)).exec (run n) c = _
  simp only [Prog.exec, hc]
  rfl

theorem parse_exec (m f) (c : PSt) : (Prog.parse f).exec (run m) c = run m f c := by
  change (Prog.call f .ret).exec (run m) c = _
  simp only [Prog.exec]
  cases run m f c <;> rfl

/-- The statements of a file without `try` are read in the same way where what follows them is something that starts a
statement or ends a block, whatever the `except` status. -/
theorem stmts_of_file {F : List Char} {B : PSt} {M : Nat} (hB : EofAt M B) (hM : 0 < M) (x : ExcStatus) (n : Nat) :
    ∀ k c d s nodes p v u c', Good F c → NoTry c → Off Token.bare B k { c with exc := x } d →
      run n (.fileLoop s nodes []) c = .ok (.node .FileInput s p [v, .seq [], .tok u]) c' →
      ∃ xs ys, v = .seq (nodes ++ xs).reverse ∧ eraseList Token.bare ys = eraseList Token.bare xs ∧ Stmts d ys (d.ahead k) := by
  induction n with
  | zero => intro k c d s nodes p v u c' _ _ _ h; cases h
  | succ n ih =>
    intro k c d s nodes p v u c' hg hn ho h
    cases hc : c.symbol with
    | error err =>
      change (Prog.sym _ (.fail s _)).exec (run n) c = _ at h
      simp only [Prog.exec, hc] at h
      cases h
    | ok z =>
    rw [fileLoop_step hc] at h
    by_cases he : z.kind = .EOF
    · rw [if_pos he] at h
      have hk : k = 0 := by
        apply Classical.byContradiction
        intro hk
        exact ho.noEof 0 (by omega) z hc he
      subst hk
      cases h
      exact ⟨[], [], by simp, rfl, .nil⟩
    · rw [if_neg he] at h
      by_cases hnl : z.kind = .Newline
      · rw [if_pos hnl] at h
        change (Prog.parse (.fileLoop s nodes ([] ++ [z]))).exec (run n) c.advance = _ at h
        rw [parse_exec] at h
        obtain ⟨xs, ss, u', p', h1, -⟩ := fileLoop_acc _ _ _ _ _ _ _ h
        simp [Tree.toks] at h1
      · rw [if_neg hnl] at h
        change (Prog.call .stmt _).exec (run n) c = _ at h
        simp only [Prog.exec] at h
        split at h
        · rename_i x1 c1 hx1
          change (Prog.parse (.fileLoop s (nodes ++ [x1]) [])).exec (run n) c1 = _ at h
          rw [parse_exec] at h
          obtain ⟨ts, g1, g2⟩ := run_likeAt (e := Token.bare) _ _ _ _ _ rfl hg hx1
          obtain ⟨b, y, k1, k2, -, k3⟩ := g2 _ ⟨.stmt, like_refl _, rfl⟩ 0 { c with exc := x } (by intro h; cases h)
            (fun i _ => by rw [ahead_exc i c x]; exact symLike_refl _ _)
          obtain ⟨m, hm⟩ := evp_parse_inv k1
          have hy := stmt_calm hm (fun i t ht => hn i t (by rw [ahead_exc i c x] at ht; exact ht))
          simp only at hy
          subst hy
          have hc1 := g1.eq
          have e1 : ({ PSt.ahead ts.length { c with exc := y } with exc := y } : PSt) = { c1 with exc := y } := by
            rw [hc1, ahead_exc ts.length c y]
          rw [e1] at hm
          obtain ⟨y1, d1, q, f1, f2, f3⟩ := (rec_run (e := Token.bare) (B := B) m).stmt .stmt .stmt (like_refl _) rfl _ _ d ho b _ hm
          obtain ⟨us, i1, -⟩ : XG (.n .stmt) d d1 := run_exact f1
          have hd1 := i1.eq
          have hx : d1.exc = d.exc := by rw [← f3.exc, ← ho.exc]
          have hd2 : d1 = d.ahead us.length := by
            rw [hd1, hx]
            have := ahead_excEq us.length d
            rw [← this]
          have hq : us.length + q = k := by
            have j1 := (ho.eofAt hB).ahead us.length
            have j2 := f3.eofAt hB
            rw [hd2] at j2
            have := j1.uniq j2
            omega
          have hg1 : Good F c1 := by rw [hc1]; exact (good_ahead _ hg).exc _
          have hn1 : NoTry c1 := by
            intro i t ht
            rw [hc1, ahead_exc i (c.ahead ts.length) c1.exc] at ht
            exact hn (ts.length + i) t (by rw [ahead_add]; exact ht)
          obtain ⟨xs, ys, l1, l2, l3⟩ := ih q c1 d1 s (nodes ++ [x1]) p v u c' hg1 hn1 f3 h
          obtain ⟨w, w1, w2⟩ := stmt_head f1
          refine ⟨x1 :: xs, y1 :: ys, by simpa using l1, ?_, .cons w1 w2 ⟨_, f1⟩ ?_⟩
          · simp only [eraseList, l2]
            have : b.erase Token.bare = y1.erase Token.bare := f2
            rw [← this, ← k2]
          · rw [← hq, ahead_add, ← hd2]; exact l3
        all_goals cases h

theorem suiteLoop_stmts {s t t2} {d ys d'} (h : Stmts d ys d') : ∀ {nodes o}, d'.symbol = .ok o → o.kind = .Dedent →
    ∃ p, Ev (.suiteLoop s t t2 nodes) d (.node .SuiteStmt s p [.tok t, .tok t2, .seq (nodes ++ ys).reverse, .tok o]) d'.advance := by
  induction h with
  | @nil c =>
    intro nodes o h1 h2
    refine ⟨c.advance.lex.tokStart, ev_body (show EvP (suiteLoopBody s t t2 nodes) _ _ _ from evp_bind (evp_symAt h1) ?_)⟩
    rw [if_pos h2]
    simp only [List.append_nil]
    exact evp_bind evp_next evp_mk
  | @cons c v y c1 ys c2 g1 g2 g3 g4 ih =>
    intro nodes o h1 h2
    obtain ⟨p, hp⟩ := ih (nodes := nodes ++ [y]) h1 h2
    refine ⟨p, ev_body (show EvP (suiteLoopBody s t t2 nodes) _ _ _ from evp_bind (evp_symAt g1) ?_)⟩
    rw [if_neg g2]
    rw [List.append_assoc] at hp
    exact evp_bind (evp_parse g3) (evp_parse hp)

theorem funcLoop_stmts {s t a b t2} {d ys d'} (h : Stmts d ys d') : ∀ {nodes o}, d'.symbol = .ok o → o.kind = .Dedent →
    ∃ p, Ev (.funcBodyLoop s t a b t2 nodes) d
      (.node .FuncBodySuite s p [.tok t, a, b, .tok t2, .seq (nodes ++ ys).reverse, .tok o]) d'.advance := by
  induction h with
  | @nil c =>
    intro nodes o h1 h2
    refine ⟨c.advance.lex.tokStart, ev_body (show EvP (funcBodyLoopBody s t a b t2 nodes) _ _ _ from evp_bind (evp_symAt h1) ?_)⟩
    rw [if_pos h2]
    simp only [List.append_nil]
    exact evp_bind evp_next evp_mk
  | @cons c v y c1 ys c2 g1 g2 g3 g4 ih =>
    intro nodes o h1 h2
    obtain ⟨p, hp⟩ := ih (nodes := nodes ++ [y]) h1 h2
    refine ⟨p, ev_body (show EvP (funcBodyLoopBody s t a b t2 nodes) _ _ _ from evp_bind (evp_symAt g1) ?_)⟩
    rw [if_neg g2]
    rw [List.append_assoc] at hp
    exact evp_bind (evp_parse g3) (evp_parse hp)

theorem suite_stmts {c : PSt} {t i o ys d} (h1 : c.symbol = .ok t) (h2 : t.kind = .Newline) (h3 : c.advance.symbol = .ok i)
    (h4 : i.kind = .Indent) (h5 : Stmts c.advance.advance ys d) (h6 : ys ≠ []) (h7 : d.symbol = .ok o) (h8 : o.kind = .Dedent) :
    ∃ s p, Ev .suite c (.node .SuiteStmt s p [.tok t, .tok i, .seq ys.reverse, .tok o]) d.advance := by
  cases h5 with
  | nil => exact absurd rfl h6
  | @cons _ _ y _ _ _ g1 g2 g3 g4 =>
    obtain ⟨p, hp⟩ := suiteLoop_stmts (s := c.lex.tokStart) (t := t) (t2 := i) g4 (nodes := [y]) h7 h8
    refine ⟨c.lex.tokStart, p, ev_body (show EvP suiteBody _ _ _ from evp_bind evp_here (evp_bind (evp_symAt h1) ?_))⟩
    rw [if_pos h2]
    refine evp_bind evp_next (evp_bind (evp_symAt h3) ?_)
    rw [if_pos h4]
    exact evp_bind evp_next (evp_bind (evp_parse g3) (evp_parse hp))

theorem func_stmts {c : PSt} {t i o ys d} (h1 : c.symbol = .ok t) (h2 : t.kind = .Newline) (h3 : c.advance.symbol = .ok i)
    (h4 : i.kind = .Indent) (h5 : Stmts c.advance.advance ys d) (h6 : ys ≠ []) (h7 : d.symbol = .ok o) (h8 : o.kind = .Dedent) :
    ∃ s p, Ev .funcBodySuite c (.node .FuncBodySuite s p [.tok t, .none, .none, .tok i, .seq ys.reverse, .tok o]) d.advance := by
  cases h5 with
  | nil => exact absurd rfl h6
  | @cons _ _ y _ _ _ g1 g2 g3 g4 =>
    obtain ⟨p, hp⟩ := funcLoop_stmts (s := c.lex.tokStart) (t := t) (a := .none) (b := .none) (t2 := i) g4 (nodes := [y]) h7 h8
    refine ⟨c.lex.tokStart, p, ev_body (show EvP funcBodySuiteBody _ _ _ from evp_bind evp_here (evp_bind (evp_symAt h1) ?_))⟩
    rw [if_pos h2]
    refine evp_bind evp_next (evp_bind (evp_symAt h3) ?_)
    rw [if_neg (by rw [h4]; decide)]
    refine evp_bind (evp_symAt h3) ?_
    rw [if_pos h4]
    exact evp_bind evp_next (evp_bind (evp_parse g3) (evp_parse hp))

end

end Verif
