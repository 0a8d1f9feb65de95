import Verif.Spec.FileTree
import Verif.Proof.EdgeAll
import Verif.Props.Concat
import Verif.Props.Inject

/-!
# C62 The tree of two files put one after the other
-/

namespace Verif
section
variable [Uni]

/-- The statements up to the end of the text, in both parsers. -/
theorem fileLoop_off {e : Token → Token} [Keeps e] {B : PSt} (n : Nat) : ∀ k c d s nodes seps t c', Off e B k c d →
    run n (.fileLoop s nodes seps) c = .ok t c' →
    ∃ xs xs' ss ss' u p d', t = .node .FileInput s p [.seq (nodes ++ xs).reverse, .toks (seps ++ ss).reverse, .tok u] ∧
      eraseList e xs' = eraseList e xs ∧ SeesLike e d' B ∧
      ∀ m s' nodes' seps' v d2, run m (.fileLoop s' (nodes' ++ xs') (seps' ++ ss')) d' = .ok v d2 →
        ∃ m', run m' (.fileLoop s' nodes' seps') d = .ok v d2 := by
  induction n with
  | zero => intro k c d s nodes seps t c' _ h; cases h
  | succ n ih =>
    intro k c d s nodes seps t c' ho h
    change (fileLoopBody s nodes seps).exec (run n) c = _ at h
    unfold fileLoopBody at h
    change (Prog.sym _ (.fail s _)).exec (run n) c = _ at h
    simp only [Prog.exec] at h
    cases k with
    | zero =>
      obtain ⟨x, hx, hk⟩ := ho.zero.sym
      simp only [hx] at h
      change (if x.kind = .EOF then _ else _ : Prog Tree).exec (run n) c = _ at h
      rw [if_pos hk] at h
      cases h
      exact ⟨[], [], [], [], x, c.lex.tokStart, d, by simp, rfl, ho.tail, fun m s' ns' ss' v d2 hh => ⟨m, by simpa using hh⟩⟩
    | succ k =>
      have h0 := ho.same 0 (by omega)
      simp only [PSt.ahead, SymLike] at h0
      cases hc : c.symbol with
      | error err => simp only [hc] at h; cases h
      | ok x =>
      cases hd : d.symbol with
      | error err => simp only [hc, hd] at h0
      | ok y =>
      simp only [hc, hd] at h0 h
      have hk := Keeps.kind h0
      have hne := ho.noEof 0 (by omega) x hc
      change (if x.kind = .EOF then _ else if x.kind = .Newline then _ else _ : Prog Tree).exec (run n) c = _ at h
      rw [if_neg hne] at h
      have hstep : ∀ m s' ns' ss', run (m + 1) (.fileLoop s' ns' ss') d =
          (if y.kind = .EOF then Prog.mk .FileInput s' [.seq ns'.reverse, .toks ss'.reverse, .tok y]
            else if y.kind = .Newline then do
              Prog.next
              Prog.parse (.fileLoop s' ns' (ss' ++ [y]))
            else do
              let x ← Prog.parse .stmt
              Prog.parse (.fileLoop s' (ns' ++ [x]) ss')).exec (run m) d := by
        intro m s' ns' ss'
        change (fileLoopBody s' ns' ss').exec (run m) d = _
        unfold fileLoopBody
        change (Prog.sym _ (.fail s' _)).exec (run m) d = _
        simp only [Prog.exec, hd]
        rfl
      have hpar : ∀ m f c, (Prog.parse f).exec (run m) c = run m f c := by
        intro m f c
        change (Prog.call f .ret).exec (run m) c = _
        simp only [Prog.exec]
        cases run m f c <;> rfl
      by_cases hnl : x.kind = .Newline
      · rw [if_pos hnl] at h
        change (Prog.parse (.fileLoop s nodes (seps ++ [x]))).exec (run n) c.advance = _ at h
        rw [hpar] at h
        obtain ⟨xs, xs', ss, ss', u, p, d', h1, h2, h3, h4⟩ := ih k _ _ _ _ _ _ _ ho.advance h
        refine ⟨xs, xs', x :: ss, y :: ss', u, p, d', by simpa using h1, h2, h3, fun m s' ns' sp' v d2 hh => ?_⟩
        obtain ⟨m', hm'⟩ := h4 m s' ns' (sp' ++ [y]) v d2 (by simpa using hh)
        refine ⟨m' + 1, ?_⟩
        rw [hstep, if_neg (hk ▸ hne), if_pos (hk ▸ hnl)]
        change (Prog.parse (.fileLoop s' ns' (sp' ++ [y]))).exec (run m') d.advance = _
        rw [hpar]; exact hm'
      · rw [if_neg hnl] at h
        change (Prog.call .stmt _).exec (run n) c = _ at h
        simp only [Prog.exec] at h
        split at h
        · rename_i x1 c1 hx1
          obtain ⟨y1, d1, k1, g1, g2, g3⟩ := (rec_run (e := e) (B := B) n).stmt .stmt .stmt .stmt rfl _ c d ho x1 c1 hx1
          change (Prog.parse (.fileLoop s (nodes ++ [x1]) seps)).exec (run n) c1 = _ at h
          rw [hpar] at h
          obtain ⟨xs, xs', ss, ss', u, p, d', h1, h2, h3, h4⟩ := ih k1 _ _ _ _ _ _ _ g3 h
          refine ⟨x1 :: xs, y1 :: xs', ss, ss', u, p, d', by simpa using h1, ?_, h3, fun m s' ns' sp' v d2 hh => ?_⟩
          · simp only [eraseList, h2]; rw [show x1.erase e = y1.erase e from g2]
          obtain ⟨m', hm'⟩ := h4 m s' (ns' ++ [y1]) sp' v d2 (by simpa using hh)
          refine ⟨max n m' + 1, ?_⟩
          rw [hstep, if_neg (hk ▸ hne), if_neg (hk ▸ hnl)]
          change (Prog.call .stmt _).exec (run (max n m')) d = _
          simp only [Prog.exec, run_ok_mono g1 (Nat.le_max_left n m')]
          change (Prog.parse (.fileLoop s' (ns' ++ [y1]) sp')).exec (run (max n m')) d1 = _
          rw [hpar]
          exact run_ok_mono hm' (Nat.le_max_right n m')
        all_goals cases h

/-- The lists with which the loop starts are not looked at. -/
theorem fileLoop_acc (n : Nat) : ∀ c s nodes seps t c', run n (.fileLoop s nodes seps) c = .ok t c' →
    ∃ xs ss u p, t = .node .FileInput s p [.seq (nodes ++ xs).reverse, .toks (seps ++ ss).reverse, .tok u] ∧
      ∀ s' nodes' seps', run n (.fileLoop s' nodes' seps') c =
        .ok (.node .FileInput s' p [.seq (nodes' ++ xs).reverse, .toks (seps' ++ ss).reverse, .tok u]) c' := by
  induction n with
  | zero => intro c s nodes seps t c' h; cases h
  | succ n ih =>
    intro c s nodes seps t c' h
    cases hc : c.symbol with
    | error err =>
      change (Prog.sym _ (.fail s _)).exec (run n) c = _ at h
      simp only [Prog.exec, hc] at h
      cases h
    | ok y =>
    have hstep : ∀ s' ns' ss', run (n + 1) (.fileLoop s' ns' ss') c =
        (if y.kind = .EOF then Prog.mk .FileInput s' [.seq ns'.reverse, .toks ss'.reverse, .tok y]
          else if y.kind = .Newline then do
            Prog.next
            Prog.parse (.fileLoop s' ns' (ss' ++ [y]))
          else do
            let x ← Prog.parse .stmt
            Prog.parse (.fileLoop s' (ns' ++ [x]) ss')).exec (run n) c := by
      intro s' ns' ss'
      change (fileLoopBody s' ns' ss').exec (run n) c = _
      unfold fileLoopBody
      change (Prog.sym _ (.fail s' _)).exec (run n) c = _
      simp only [Prog.exec, hc]
      rfl
    have hpar : ∀ m f c, (Prog.parse f).exec (run m) c = run m f c := by
      intro m f c
      change (Prog.call f .ret).exec (run m) c = _
      simp only [Prog.exec]
      cases run m f c <;> rfl
    rw [hstep] at h
    by_cases he : y.kind = .EOF
    · simp only [if_pos he] at h hstep
      cases h
      refine ⟨[], [], y, c.lex.tokStart, by simp, fun s' ns' ss' => ?_⟩
      rw [hstep]
      simp
      rfl
    · by_cases hnl : y.kind = .Newline
      · simp only [if_neg he, if_pos hnl] at h hstep
        change (Prog.parse (.fileLoop s nodes (seps ++ [y]))).exec (run n) c.advance = _ at h
        rw [hpar] at h
        obtain ⟨xs, ss, u, p, h1, h2⟩ := ih _ _ _ _ _ _ h
        refine ⟨xs, y :: ss, u, p, by simpa using h1, fun s' ns' ss' => ?_⟩
        rw [hstep]
        change (Prog.parse (.fileLoop s' ns' (ss' ++ [y]))).exec (run n) c.advance = _
        rw [hpar, h2]
        simp
      · simp only [if_neg he, if_neg hnl] at h hstep
        change (Prog.call .stmt _).exec (run n) c = _ at h
        simp only [Prog.exec] at h
        split at h
        · rename_i x1 c1 hx1
          change (Prog.parse (.fileLoop s (nodes ++ [x1]) seps)).exec (run n) c1 = _ at h
          rw [hpar] at h
          obtain ⟨xs, ss, u, p, h1, h2⟩ := ih _ _ _ _ _ _ h
          refine ⟨x1 :: xs, ss, u, p, by simpa using h1, fun s' ns' ss' => ?_⟩
          rw [hstep]
          change (Prog.call .stmt _).exec (run n) c = _
          simp only [Prog.exec, hx1]
          change (Prog.parse (.fileLoop s' (ns' ++ [x1]) ss')).exec (run n) c1 = _
          rw [hpar, h2]
          simp
        all_goals cases h

theorem fileInput_loop {n : Nat} {c : PSt} : run (n + 1) .fileInput c = run n (.fileLoop c.advance.lex.tokStart [] []) c.advance := by
  change (Prog.parse (.fileLoop c.advance.lex.tokStart [] [])).exec (run n) c.advance = _
  change (Prog.call _ .ret).exec (run n) c.advance = _
  simp only [Prog.exec]
  cases run n (.fileLoop c.advance.lex.tokStart [] []) c.advance <;> rfl

/-- The symbols of a text after its last one. -/
theorem Tokens.after_eof {src ts l} (h : Tokens (Lexer.new src) ts l) (he : ∃ t ∈ ts, t.kind = .EOF) (j : Nat) :
    ∃ p tr, ((PSt.new (Lexer.new src)).ahead (ts.length + (j + 1))).symbol = .ok (.eof p tr) := by
  obtain ⟨p, tr, s1⟩ := h.eof_last (Inv.new src) he
  exact ⟨p, tr, by rw [ahead_add]; exact stuck_ahead s1 j (h.left_state rfl)⟩

theorem off_start {a b j : List Char} {ts us vs : List Token} {x u : Token} {l l' l'' : Lexer}
    (ha : Tokens (Lexer.new a) (ts ++ [x]) l) (hx : x.kind = .EOF) (hne : ∀ t ∈ ts, t.kind ≠ .EOF)
    (hlast : ∀ t, ts.getLast? = some t → t.kind = .Newline ∨ t.kind = .Dedent)
    (hb : Tokens (Lexer.new b) (u :: us) l') (hu : Starts u.kind) (hbe : ∃ t ∈ u :: us, t.kind = .EOF)
    (hj : Tokens (Lexer.new j) vs l'') (hv : vs.map Token.bare = (ts ++ u :: us).map Token.bare) :
    Off Token.bare (PSt.new (Lexer.new b)).advance ts.length (PSt.new (Lexer.new a)).advance (PSt.new (Lexer.new j)).advance := by
  have hlen : vs.length = ts.length + (us.length + 1) := by simpa using congrArg List.length hv
  have hje : ∃ t ∈ vs, t.kind = .EOF := by
    obtain ⟨t, ht, hk⟩ := hbe
    have : t.bare ∈ vs.map Token.bare := by rw [hv]; exact List.mem_map_of_mem (List.mem_append_right _ ht)
    obtain ⟨w, hw, hk'⟩ := List.mem_map.mp this
    exact ⟨w, hw, (Keeps.kind hk').trans hk⟩
  have sa : ∀ i (hi : i < ts.length), ((PSt.new (Lexer.new a)).advance.ahead i).symbol = .ok ts[i] := by
    intro i hi
    have := ha.seen (c := PSt.new (Lexer.new a)) rfl i (by simp; omega)
    rw [List.getElem_append_left hi] at this
    exact this
  have sj : ∀ i (hi : i < vs.length), ((PSt.new (Lexer.new j)).advance.ahead i).symbol = .ok vs[i] :=
    fun i hi => hj.seen (c := PSt.new (Lexer.new j)) rfl i hi
  have sb : ∀ i (hi : i < (u :: us).length), ((PSt.new (Lexer.new b)).advance.ahead i).symbol = .ok (u :: us)[i] :=
    fun i hi => hb.seen (c := PSt.new (Lexer.new b)) rfl i hi
  have hget : ∀ i : Nat, (vs.map Token.bare)[i]? = ((ts ++ u :: us).map Token.bare)[i]? := fun i => by rw [hv]
  constructor
  · rw [advance_exc_eq, advance_exc_eq]; rfl
  · intro i hi
    unfold SymLike
    rw [sa i hi, sj i (by omega)]
    have := hget i
    rw [List.getElem?_map, List.getElem?_map, List.getElem?_append_left hi, List.getElem?_eq_getElem hi,
      List.getElem?_eq_getElem (by omega)] at this
    simpa using this.symm
  · intro i hi
    refine ⟨ts[i], sa i (by omega), hlast _ ?_⟩
    rw [List.getLast?_eq_getElem?, List.getElem?_eq_getElem (by omega)]
    simp [show ts.length - 1 = i by omega]
  · intro i
    rw [← ahead_add]
    cases i with
    | zero =>
      refine ⟨x, ?_, hx⟩
      have := ha.seen (c := PSt.new (Lexer.new a)) rfl ts.length (by simp)
      rw [List.getElem_append_right (Nat.le_refl _)] at this
      simp only [Nat.sub_self, List.getElem_cons_zero] at this
      exact this
    | succ i =>
      obtain ⟨p, tr, h⟩ := ha.after_eof ⟨x, by simp, hx⟩ i
      refine ⟨.eof p tr, ?_, rfl⟩
      have e1 : (ts ++ [x]).length + (i + 1) = (ts.length + (i + 1)) + 1 := by simp; omega
      rw [e1] at h
      exact h
  · refine ⟨vs[ts.length]'(by omega), sj _ _, ?_⟩
    have := hget ts.length
    rw [List.getElem?_map, List.getElem?_map, List.getElem?_append_right (Nat.le_refl _), Nat.sub_self,
      List.getElem?_eq_getElem (by omega)] at this
    simp at this
    rw [Keeps.kind this]
    exact hu
  · intro i hi t ht
    rw [sa i hi] at ht
    cases ht
    exact hne _ (List.getElem_mem hi)
  · intro i
    rw [← ahead_add]
    unfold SymLike
    by_cases hi : i < us.length + 1
    · rw [sj (ts.length + i) (by omega), sb i (by simpa using hi)]
      have := hget (ts.length + i)
      rw [List.getElem?_map, List.getElem?_map, List.getElem?_append_right (by omega), Nat.add_sub_cancel_left,
        List.getElem?_eq_getElem (by omega), List.getElem?_eq_getElem (by simpa using hi)] at this
      simpa using this
    · obtain ⟨k, rfl⟩ := Nat.exists_eq_add_of_le (Nat.le_of_not_lt hi)
      obtain ⟨p, tr, h⟩ := hj.after_eof hje k
      obtain ⟨p', tr', h'⟩ := hb.after_eof hbe k
      have e1 : vs.length + (k + 1) = (ts.length + (us.length + 1 + k)) + 1 := by omega
      have e2 : (u :: us).length + (k + 1) = (us.length + 1 + k) + 1 := by simp; omega
      rw [e1] at h
      rw [e2] at h'
      change ((PSt.new (Lexer.new j)).advance.ahead (ts.length + (us.length + 1 + k))).symbol = _ at h
      change ((PSt.new (Lexer.new b)).advance.ahead (us.length + 1 + k)).symbol = _ at h'
      rw [h, h']
      rfl

end

/-- C62: if two texts are accepted as files, the first ends with a line feed (and not with a carriage return before it) and
has no NUL character, and the second starts with a symbol at the left margin, then the statements of the first followed by
the second are the statements of the first and then those of the second, apart from positions and trivia. -/
theorem C62_tree_of_joined_files [Uni] (a b : List Char) (n m : Nat) (t u : Tree) (c d : PSt)
    (ha : run n .fileInput (PSt.new (Lexer.new (a ++ ['\n']))) = .ok t c)
    (hb : run m .fileInput (PSt.new (Lexer.new b)) = .ok u d)
    (h0 : '\x00' ∉ a) (hcr : a.getLast? ≠ some '\r') (hc : ∃ x r, b = x :: r ∧ x ∉ cs! " \t\r\n#\\") :
    ∃ k v c', run k .fileInput (PSt.new (Lexer.new (a ++ '\n' :: b))) = .ok v c' ∧
      (fileStatements v).map (Tree.erase Token.bare) =
        (fileStatements t).map (Tree.erase Token.bare) ++ (fileStatements u).map (Tree.erase Token.bare) := by
  obtain ⟨ts, x, l, y, h1, h2, h3, h4, h5, h6, h7⟩ := accepted_symbols ⟨n, t, c, ha⟩
  obtain ⟨us, f, l', z, g1, g2, -, -, -, -, g7⟩ := accepted_symbols ⟨m, u, d, hb⟩
  have : ∃ w us', us ++ [f] = w :: us' := by cases us with | nil => exact ⟨_, _, rfl⟩ | cons w us => exact ⟨w, us ++ [f], rfl⟩
  obtain ⟨w, us', e'⟩ := this
  have hbe : ∃ q ∈ w :: us', q.kind = .EOF := ⟨f, by rw [← e']; simp, g2⟩
  rw [e'] at g1 g7
  obtain ⟨vs, l'', k1, k2⟩ := C59_symbols_of_joined_texts a b ts us' x w l l' h1 h2 h3 h4 h5 h6 h0 hcr g1 hc
  have hst : Starts w.kind := by
    obtain ⟨_, dn⟩ := XN.of g7
    have := dn.first w us' rfl
    have key : ∀ K, (XR.n .file_input).first K = true → K ≠ .PyElif ∧ K ≠ .PyElse ∧ K ≠ .PyExcept ∧ K ≠ .PyFinally := by
      decide +kernel
    exact key _ this
  have ho := off_start h1 h2 h3 h4 g1 hst hbe k1 k2
  cases n with
  | zero => cases ha
  | succ n =>
  cases m with
  | zero => cases hb
  | succ m =>
  have sa := C57_file_structure _ _ _ _ ha
  have sb := C57_file_structure _ _ _ _ hb
  rw [fileInput_loop] at ha hb
  obtain ⟨xs, xs', ss, ss', q, p, d', e1, e2, e3, e4⟩ := fileLoop_off n _ _ _ _ _ _ _ _ ho ha
  obtain ⟨ys, sy, q', p', f1, f2⟩ := fileLoop_acc m _ _ _ _ _ _ hb
  have hs := outSees_run m (.fileLoop (PSt.new (Lexer.new (a ++ '\n' :: b))).advance.lex.tokStart xs' ss') _ (like_refl (e := Token.bare) _) rfl
    d' _ e3
  rw [f2] at hs
  generalize hr : run m (.fileLoop (PSt.new (Lexer.new (a ++ '\n' :: b))).advance.lex.tokStart xs' ss') d' = r at hs
  cases r with
  | ok v d2 =>
    obtain ⟨k', hk'⟩ := e4 m _ [] [] v d2 (by simpa using hr)
    rw [← fileInput_loop] at hk'
    refine ⟨k' + 1, v, d2, hk', ?_⟩
    obtain ⟨zs, _, w', s3, p3, j1, -⟩ := C57_file_structure _ _ _ _ hk'
    have hs1 : v.erase Token.bare = _ := hs.1
    rw [j1] at hs1 ⊢
    rw [e1, f1]
    simp only [Tree.erase, eraseList, eraseList_reverse, eraseList_append, Tree.node.injEq, List.cons.injEq, Tree.seq.injEq,
      List.reverse_inj, true_and] at hs1
    simp only [fileStatements, List.reverse_reverse, List.nil_append, ← eraseList_eq_map]
    rw [hs1.1, e2]
  | _ => exact hs.elim

/-- C62 for a given result: whatever tree the joined text is given, its statements are those of the two texts in order. -/
theorem C62_joined_files_only [Uni] (a b : List Char) (n m k : Nat) (t u v : Tree) (c d c' : PSt)
    (ha : run n .fileInput (PSt.new (Lexer.new (a ++ ['\n']))) = .ok t c)
    (hb : run m .fileInput (PSt.new (Lexer.new b)) = .ok u d)
    (h0 : '\x00' ∉ a) (hcr : a.getLast? ≠ some '\r') (hc : ∃ x r, b = x :: r ∧ x ∉ cs! " \t\r\n#\\")
    (hv : run k .fileInput (PSt.new (Lexer.new (a ++ '\n' :: b))) = .ok v c') :
    (fileStatements v).map (Tree.erase Token.bare) =
      (fileStatements t).map (Tree.erase Token.bare) ++ (fileStatements u).map (Tree.erase Token.bare) := by
  obtain ⟨k', v', c2, h1, h2⟩ := C62_tree_of_joined_files a b n m t u c d ha hb h0 hcr hc
  have := run_det (n := k) (m := k') (f := .fileInput) (c := PSt.new (Lexer.new (a ++ '\n' :: b)))
    (by rw [hv]; simp) (by rw [h1]; simp)
  rw [hv, h1] at this
  cases this
  exact h2

/-- Two files with two statements each (a `try`, an expression; a loop, an import), and the four statements of the text. -/
example : let _ := asciiUni
    ∃ n m t u c d, run n .fileInput (PSt.new (Lexer.new (cs! "try:\n  b\nexcept:\n  c\nx + 1" ++ ['\n']))) = .ok t c ∧
      run m .fileInput (PSt.new (Lexer.new (cs! "for *d in (\n e): f\nfrom g import h\n"))) = .ok u d ∧
      (fileStatements t).length = 2 ∧ (fileStatements u).length = 2 ∧
      ∃ k v c', run k .fileInput
          (PSt.new (Lexer.new (cs! "try:\n  b\nexcept:\n  c\nx + 1\nfor *d in (\n e): f\nfrom g import h\n"))) = .ok v c' ∧
        (fileStatements v).length = 4 := by
  intro _
  obtain ⟨t, c, ha, h2⟩ := Res.shows (P := fun t => (fileStatements t).length = 2)
    (r := run 200 .fileInput (PSt.new (Lexer.new (cs! "try:\n  b\nexcept:\n  c\nx + 1" ++ ['\n'])))) (by decide +kernel)
  obtain ⟨u, d, hb, h3⟩ := Res.shows (P := fun t => (fileStatements t).length = 2)
    (r := run 200 .fileInput (PSt.new (Lexer.new (cs! "for *d in (\n e): f\nfrom g import h\n")))) (by decide +kernel)
  obtain ⟨k, v, c', h4, h5⟩ := C62_tree_of_joined_files (cs! "try:\n  b\nexcept:\n  c\nx + 1")
    (cs! "for *d in (\n e): f\nfrom g import h\n") _ _ _ _ _ _ ha hb (by decide) (by decide) ⟨_, _, rfl, by decide⟩
  refine ⟨_, _, t, u, c, d, ha, hb, h2, h3, k, v, c', h4, ?_⟩
  simpa [h2, h3] using congrArg List.length h5

end Verif
