import Verif.Proof.GraftStmts
import Verif.Props.PlugText

/-!
# C78: when the body of a block is replaced, only that body changes in the tree
-/

namespace Verif
open Prog

/-- The symbols of a text: what the calls of `get_symbol` return before the first `EOF`. -/
def AllSymbols [Uni] (src : List Char) (ts : List Token) : Prop :=
  ∃ e l, Tokens (Lexer.new src) (ts ++ [e]) l ∧ e.kind = .EOF ∧ ∀ t ∈ ts, t.kind ≠ .EOF

section
variable [Uni]

theorem AllSymbols.sym {src ts} (h : AllSymbols src ts) (i : Nat) (hi : i < ts.length) : ((started src).ahead i).symbol = .ok ts[i] := by
  obtain ⟨e, l, h1, -, -⟩ := h
  have := h1.seen (c := PSt.new (Lexer.new src)) rfl i (by simp; omega)
  rw [List.getElem_append_left hi] at this
  exact this

theorem AllSymbols.eofAt {src ts} (h : AllSymbols src ts) : EofAt ts.length (started src) := by
  refine ⟨fun i hi t ht => ?_, fun i => ?_⟩
  · rw [h.sym i hi] at ht
    cases ht
    obtain ⟨e, l, -, -, h3⟩ := h
    exact h3 _ (List.getElem_mem hi)
  · obtain ⟨e, l, h1, h2, -⟩ := h
    rw [← ahead_add]
    cases i with
    | zero =>
      refine ⟨e, ?_, h2⟩
      have := h1.seen (c := PSt.new (Lexer.new src)) rfl ts.length (by simp)
      rw [List.getElem_append_right (Nat.le_refl _)] at this
      simp only [Nat.sub_self, List.getElem_cons_zero] at this
      exact this
    | succ i =>
      obtain ⟨p, tr, h⟩ := h1.after_eof ⟨e, by simp, h2⟩ i
      refine ⟨.eof p tr, ?_, rfl⟩
      have e1 : (ts ++ [e]).length + (i + 1) = (ts.length + (i + 1)) + 1 := by simp; omega
      rw [e1] at h
      exact h

theorem AllSymbols.uniq {src ts us} (h : AllSymbols src ts) (h' : AllSymbols src us) : ts = us := by
  have hl := h.eofAt.uniq h'.eofAt
  refine List.ext_getElem hl fun i h1 h2 => ?_
  have := h.sym i h1
  rw [h'.sym i h2] at this
  exact (Except.ok.inj this).symm

theorem tokens_eof {src : List Char} {l ts l'} (hl : Inv src l) (h : Tokens l ts l') :
    ∀ t ∈ ts, t.kind = .EOF → t.bare = .eof 0 none := by
  induction h with
  | nil => intro t ht; cases ht
  | cons h1 _ ih =>
    intro t ht hk
    rcases List.mem_cons.1 ht with rfl | ht
    · obtain ⟨tr, rfl⟩ := eof_of_kind hl h1 hk
      rfl
    · exact ih (ok_facts hl h1).inv t ht hk

theorem AllSymbols.sees {src ts} (h : AllSymbols src ts) (i : Nat) :
    ∃ t, ((started src).ahead i).symbol = .ok t ∧ t.bare = (ts.map Token.bare)[i]?.getD (.eof 0 none) := by
  by_cases hi : i < ts.length
  · exact ⟨_, h.sym i hi, by simp [hi]⟩
  · obtain ⟨e, l, h1, h2, -⟩ := h
    obtain ⟨t, h3, h4, -⟩ := h1.sees ⟨e, by simp, h2⟩ i
    refine ⟨t, h3, h4.trans ?_⟩
    rw [List.map_append, List.getElem?_append_right (by simp; omega), List.getElem?_eq_none (l := ts.map Token.bare) (by simp; omega)]
    have he := tokens_eof (Inv.new src) h1 e (by simp) h2
    simp only [List.map_cons, List.map_nil, he]
    cases i - (ts.map Token.bare).length <;> rfl

/-- Where the symbols of two texts are the same, the parsers see the same. -/
theorem AllSymbols.like {A B : List Char} {ts us} (hA : AllSymbols A ts) (hB : AllSymbols B us) {i j : Nat}
    (h : (ts.map Token.bare)[i]? = (us.map Token.bare)[j]?) (x y) :
    SymB { (started A).ahead i with exc := x } { (started B).ahead j with exc := y } := by
  obtain ⟨t, h1, h2⟩ := hA.sees i
  obtain ⟨u, h3, h4⟩ := hB.sees j
  simp only [SymB, h1, h3, h2, h4, h]

theorem good_started (src : List Char) : Good src (started src) := (PReach.adv .new).good

theorem ahead_left {src ts} (h : AllSymbols src ts) {i j : Nat} (hij : i < j) (hj : j ≤ ts.length) :
    ((started src).ahead j).left < ((started src).ahead i).left := by
  induction j with
  | zero => omega
  | succ j ih =>
    have hs := h.sym j (by omega)
    have hl := advance_left (good_ahead j (good_started src)).inv _ hs (h.eofAt.no j (by omega) _ hs)
    have e1 : (started src).ahead (j + 1) = ((started src).ahead j).advance := by rw [ahead_add]; rfl
    rw [e1]
    rcases Nat.lt_or_eq_of_le (Nat.le_of_lt_succ hij) with h1 | rfl
    · exact Nat.lt_trans hl (ih h1 (by omega))
    · exact hl

/-- The state of the tokenizer tells at which symbol the parser is. -/
theorem place_of_lex {src ts} (h : AllSymbols src ts) {i j : Nat} (hi : i < ts.length) (hj : j < ts.length)
    (he : ((started src).ahead i).lex = ((started src).ahead j).lex) : i = j := by
  have key : ∀ k, k < ts.length → ((started src).ahead k).left = ((started src).ahead k).lex.todo + 1 := by
    intro k hk
    have := h.eofAt.no k hk _ (h.sym k hk)
    simp [PSt.left, h.sym k hk, this]
  have := key i hi
  have h2 := key j hj
  rw [he, ← h2] at this
  rcases Nat.lt_trichotomy i j with hl | he | hl
  · have := ahead_left h hl (by omega); omega
  · exact he
  · have := ahead_left h hl (by omega); omega

theorem tokens_span {src : List Char} {l ts l'} (hl : Inv src l) (h : Tokens l ts l') :
    ∀ t ∈ ts, t.kind ≠ .Indent → t.kind ≠ .Dedent → t.kind ≠ .EOF → ∃ s e, t.span? = some (s, e) ∧ s < e := by
  induction h with
  | nil => intro t ht; cases ht
  | cons h1 _ ih =>
    have f := ok_facts hl h1
    intro t ht k1 k2 k3
    rcases List.mem_cons.1 ht with rfl | ht
    · exact ⟨_, _, by rw [f.span, if_neg (by simp [k1, k2])], f.nonempty k1 k2 k3⟩
    · exact ih f.inv t ht k1 k2 k3

/-- A symbol with a position is there once. -/
theorem symbol_once {src : List Char} {ts i t j} (h : AllSymbols src ts) (hi : ts[i]? = some t) (h1 : t.kind ≠ .Indent) (h2 : t.kind ≠ .Dedent)
    (hj : ((started src).ahead j).symbol = .ok t) : j = i := by
  obtain ⟨hi1, hi2⟩ := List.getElem?_eq_some_iff.1 hi
  have hne := h.eofAt.no i hi1 t (by rw [h.sym i hi1, hi2])
  have hjl : j < ts.length := by
    apply Classical.byContradiction
    intro hc
    obtain ⟨k, rfl⟩ := Nat.exists_eq_add_of_le (Nat.le_of_not_lt hc)
    obtain ⟨u, k1, k2⟩ := h.eofAt.edge k
    rw [← ahead_add, hj] at k1
    cases k1
    exact hne k2
  have hj2 : ts[j] = t := by
    have := h.sym j hjl
    rw [hj] at this
    exact (Except.ok.inj this).symm
  obtain ⟨e, l, g1, -, -⟩ := h
  obtain ⟨s, p, hs, hlt⟩ := tokens_span (Inv.new src) g1 t (List.mem_append_left _ (List.mem_of_getElem? hi)) h1 h2 hne
  have ho := List.pairwise_iff_getElem.1 (C05_spans_ordered _ _ _ g1.returned)
  have a1 : (ts ++ [e])[i]'(by simp; omega) = t := by rw [List.getElem_append_left hi1]; exact hi2
  have a2 : (ts ++ [e])[j]'(by simp; omega) = t := by rw [List.getElem_append_left hjl]; exact hj2
  rcases Nat.lt_trichotomy j i with hl | he | hl
  · have := ho j i (by simp; omega) (by simp; omega) hl s p s p (by rw [a2, hs]) (by rw [a1, hs])
    omega
  · exact he
  · have := ho i j (by simp; omega) (by simp; omega) hl s p s p (by rw [a1, hs]) (by rw [a2, hs])
    omega

theorem Stmts.inv_nil {c d : PSt} (h : Stmts c [] d) : c = d := by
  cases h; rfl

/-- The statements of a file where they stand in another text. -/
theorem body_stmts {A F : List Char} {pre fs fs' : List Token} {o : Token} {vs : List Token} {m : Nat} {v : Tree} {cv : PSt}
    (hA : AllSymbols A (pre ++ (fs ++ o :: vs))) (ho : o.kind = .Dedent) (hF : AllSymbols F fs') (hb : fs'.map Token.bare = fs.map Token.bare)
    (ht : ∀ t ∈ fs, t.kind ≠ .PyTry) (hne : fs ≠ []) (hv : run m .fileInput (PSt.new (Lexer.new F)) = .ok v cv) (x : ExcStatus) :
    ∃ ys, eraseList Token.bare ys = eraseList Token.bare (fileStatements v) ∧ ys ≠ [] ∧
      Stmts { (started A).ahead pre.length with exc := x } ys { (started A).ahead (pre.length + fs.length) with exc := x } := by
  have hlen : fs'.length = fs.length := by simpa using congrArg List.length hb
  have hlast : ∀ u, fs'.getLast? = some u → u.kind = .Newline ∨ u.kind = .Dedent := by
    obtain ⟨ts, e, l, y, h1, h2, h3, h4, -⟩ := accepted_symbols ⟨m, v, cv, hv⟩
    have : AllSymbols F ts := ⟨e, l, h1, h2, h3⟩
    rw [hF.uniq this]
    exact h4
  have hsymA : ∀ i (hi : i < fs.length), ((started A).ahead (pre.length + i)).symbol = .ok fs[i] := by
    intro i hi
    rw [hA.sym _ (by simp; omega)]
    simp [hi]
  have hend : ((started A).ahead (pre.length + fs.length)).symbol = .ok o := by
    rw [hA.sym _ (by simp)]
    simp
  have hbi : ∀ i (hi : i < fs.length), (fs'[i]'(by omega)).bare = fs[i].bare := by
    intro i hi
    have : (fs'.map Token.bare)[i]? = (fs.map Token.bare)[i]? := by rw [hb]
    simpa [hlen, hi] using this
  have ea : ∀ i, PSt.ahead i { (started A).ahead pre.length with exc := x } = { (started A).ahead (pre.length + i) with exc := x } := by
    intro i
    rw [ahead_exc i ((started A).ahead pre.length) x, ← ahead_add]
  have hoff : Off Token.bare { (started A).ahead (pre.length + fs.length) with exc := x } fs.length { started F with exc := x }
      { (started A).ahead pre.length with exc := x } := by
    constructor
    · rfl
    · intro i hi
      rw [ea, ahead_exc i (started F) x]
      simp only [SymLike, hsymA i hi, hF.sym i (by omega)]
      exact hbi i hi
    · intro i hi
      rw [ahead_exc i (started F) x]
      refine ⟨fs'[i]'(by omega), hF.sym i (by omega), hlast _ ?_⟩
      rw [List.getLast?_eq_getElem?, List.getElem?_eq_getElem (by omega)]
      simp [show fs'.length - 1 = i by omega]
    · rw [ahead_exc fs.length (started F) x, ← hlen]
      exact hF.eofAt.edge.exc x
    · rw [ea]
      exact ⟨o, hend, by rw [ho]; exact ⟨by decide, by decide, by decide, by decide⟩⟩
    · intro i hi t h
      rw [ahead_exc i (started F) x] at h
      exact hF.eofAt.no i (by omega) t h
    · intro i
      rw [ea]
      exact symLike_refl _ _
  have hB : EofAt (vs.length + 1) { (started A).ahead (pre.length + fs.length) with exc := x } := by
    have := (hA.eofAt.ahead (pre.length + fs.length)).exc x
    rwa [show (pre ++ (fs ++ o :: vs)).length - (pre.length + fs.length) = vs.length + 1 by simp; omega] at this
  have hnt : NoTry (started F) := by
    intro i t h hk
    by_cases hi : i < fs'.length
    · rw [hF.sym i hi] at h
      cases h
      have := hbi i (by omega)
      have h2 := Keeps.kind (e := Token.bare) this
      rw [hk] at h2
      exact ht _ (List.getElem_mem _) h2.symm
    · obtain ⟨j, rfl⟩ := Nat.exists_eq_add_of_le (Nat.le_of_not_lt hi)
      obtain ⟨u, h1, h2⟩ := hF.eofAt.edge j
      rw [← ahead_add, h] at h1
      cases h1
      rw [hk] at h2
      cases h2
  obtain ⟨xs, _, u, s, e, h1, -⟩ := C57_file_structure _ _ _ _ hv
  cases m with
  | zero => cases hv
  | succ m =>
  rw [fileInput_loop] at hv
  subst h1
  have hs : s = (PSt.new (Lexer.new F)).advance.lex.tokStart := by
    obtain ⟨_, _, _, _, h, -⟩ := fileLoop_acc _ _ _ _ _ _ _ hv
    injection h with _ h
  subst hs
  obtain ⟨xs', ys, g1, g2, g3⟩ := stmts_of_file hB (by omega) x m _ _ _ _ _ _ _ _ _ (good_started F) hnt hoff hv
  rw [ea] at g3
  refine ⟨ys, ?_, ?_, g3⟩
  · simp only [fileStatements]
    injection g1 with g1
    rw [g1, List.reverse_reverse, List.nil_append]
    exact g2
  · rintro rfl
    have h1 := congrArg PSt.lex g3.inv_nil
    have h2 := place_of_lex hA (i := pre.length) (j := pre.length + fs.length) (by simp; omega) (by simp) h1
    exact hne (List.eq_nil_of_length_eq_zero (by omega))

omit [Uni] in
theorem graft_suite {nl i o : Token} {zs xs : List Tree} {s p : Nat} : (Tree.node .SuiteStmt s p [.tok nl, .tok i, .seq zs, .tok o]).graft nl xs =
    .node .SuiteStmt 0 0 [.tok nl.bare, .tok i.bare, .seq xs, .tok o.bare] := by
  simp [Tree.graft, graftList, isBlock, withBody]

omit [Uni] in
theorem graft_func {nl i o : Token} {zs xs : List Tree} {s p : Nat} :
    (Tree.node .FuncBodySuite s p [.tok nl, .none, .none, .tok i, .seq zs, .tok o]).graft nl xs =
    .node .FuncBodySuite 0 0 [.tok nl.bare, .none, .none, .tok i.bare, .seq xs, .tok o.bare] := by
  simp [Tree.graft, graftList, isBlock, withBody]

/-- Two texts that differ in the body of one block. -/
theorem only_body {A B F G : List Char} {us us' fs f gs gs' vs vs' : List Token} {nl nl' i i' o o' : Token} {n m k : Nat}
    {t v w : Tree} {ct cv cw : PSt}
    (hA : AllSymbols A (us ++ nl :: i :: (fs ++ o :: vs))) (hB : AllSymbols B (us' ++ nl' :: i' :: (gs' ++ o' :: vs')))
    (hF : AllSymbols F f) (hf : f.map Token.bare = fs.map Token.bare)
    (hG : AllSymbols G gs) (hg : gs.map Token.bare = gs'.map Token.bare)
    (hus : us'.map Token.bare = us.map Token.bare) (hnl : nl'.bare = nl.bare) (hi : i'.bare = i.bare) (ho : o'.bare = o.bare)
    (hvs : vs'.map Token.bare = vs.map Token.bare)
    (knl : nl.kind = .Newline) (ki : i.kind = .Indent) (ko : o.kind = .Dedent)
    (htc : ∀ u, us.getLast? = some u → u.kind ≠ .TypeComment)
    (hft : ∀ u ∈ fs, u.kind ≠ .PyTry) (hgt : ∀ u ∈ gs', u.kind ≠ .PyTry) (hfn : fs ≠ []) (hgn : gs' ≠ [])
    (ht : run n .fileInput (PSt.new (Lexer.new A)) = .ok t ct)
    (hw : run k .fileInput (PSt.new (Lexer.new F)) = .ok w cw)
    (hv : run m .fileInput (PSt.new (Lexer.new G)) = .ok v cv) :
    ∃ k' u c', run k' .fileInput (PSt.new (Lexer.new B)) = .ok u c' ∧
      u.erase Token.bare = t.graft nl (eraseList Token.bare (fileStatements v).reverse) := by
  have lus : us'.length = us.length := by simpa using congrArg List.length hus
  have lvs : vs'.length = vs.length := by simpa using congrArg List.length hvs
  let _ : Graft := ⟨nl, eraseList Token.bare (fileStatements v).reverse⟩
  have en : Graft.nl = nl := rfl
  have ex : Graft.xs = eraseList Token.bare (fileStatements v).reverse := rfl
  -- the symbols of the first text
  have a0 : ((started A).ahead us.length).symbol = .ok nl := by rw [hA.sym _ (by simp)]; simp
  have a1 : ((started A).ahead (us.length + 1)).symbol = .ok i := by rw [hA.sym _ (by simp)]; simp
  have a2 : ((started A).ahead (us.length + 2 + fs.length)).symbol = .ok o := by
    rw [hA.sym _ (by simp; omega)]
    congr 1
    simp only [List.getElem_append_right (show us.length ≤ us.length + 2 + fs.length by omega),
      show us.length + 2 + fs.length - us.length = fs.length + 2 by omega, List.getElem_cons_succ]
    simp
  have b0 : ((started B).ahead us.length).symbol = .ok nl' := by rw [← lus, hB.sym _ (by simp)]; simp
  have b1 : ((started B).ahead (us.length + 1)).symbol = .ok i' := by rw [← lus, hB.sym _ (by simp)]; simp
  have b2 : ((started B).ahead (us.length + 2 + gs'.length)).symbol = .ok o' := by
    rw [← lus, hB.sym _ (by simp; omega)]
    congr 1
    simp only [List.getElem_append_right (show us'.length ≤ us'.length + 2 + gs'.length by omega),
      show us'.length + 2 + gs'.length - us'.length = gs'.length + 2 by omega, List.getElem_cons_succ]
    simp
  have knl' : nl'.kind = .Newline := (Keeps.kind (e := Token.bare) hnl).trans knl
  have ki' : i'.kind = .Indent := (Keeps.kind (e := Token.bare) hi).trans ki
  have ko' : o'.kind = .Dedent := (Keeps.kind (e := Token.bare) ho).trans ko
  have before : ∀ j, j ≤ us.length + 1 → ∀ x y, SymB { (started A).ahead j with exc := x } { (started B).ahead j with exc := y } := by
    intro j hj x y
    refine hA.like hB ?_ x y
    simp only [List.map_append, List.map_cons, hus, hnl, hi]
    by_cases h : j < us.length
    · simp [List.getElem?_append, h]
    · obtain rfl | rfl : j = us.length ∨ j = us.length + 1 := by omega
      · simp
      · simp
  have after : ∀ j x y, SymB { (started A).ahead (us.length + 2 + fs.length + 1 + j) with exc := x }
      { (started B).ahead (us.length + 2 + gs'.length + 1 + j) with exc := y } := by
    intro j x y
    refine hA.like hB ?_ x y
    have e1 : us ++ nl :: i :: (fs ++ o :: vs) = (us ++ nl :: i :: (fs ++ [o])) ++ vs := by simp
    have e2 : us' ++ nl' :: i' :: (gs' ++ o' :: vs') = (us' ++ nl' :: i' :: (gs' ++ [o'])) ++ vs' := by simp
    rw [e1, e2, List.map_append (l₁ := us ++ nl :: i :: (fs ++ [o])), List.map_append (l₁ := us' ++ nl' :: i' :: (gs' ++ [o'])),
      List.getElem?_append_right (by simp; omega), List.getElem?_append_right (by simp; omega), hvs]
    congr 1
    simp
    omega
  have spot : ∀ j x, Spot ((started A).ahead us.length) { (started A).ahead j with exc := x } → j = us.length + 1 := by
    rintro j x ⟨h1, z, h2, h3⟩
    have e1 : ((started A).ahead us.length).advance = (started A).ahead (us.length + 1) := by rw [ahead_add]; rfl
    rw [e1] at h1
    refine place_of_lex hA ?_ (by simp) h1
    apply Classical.byContradiction
    intro hc
    obtain ⟨q, rfl⟩ := Nat.exists_eq_add_of_le (Nat.le_of_not_lt hc)
    obtain ⟨u, k1, k2⟩ := hA.eofAt.edge q
    rw [← ahead_add] at k1
    simp only [k1, Except.ok.injEq] at h2
    subst h2
    rw [h3] at k2
    cases k2
  have once : ∀ j, ((started A).ahead j).symbol = .ok nl → j = us.length :=
    fun j hj => symbol_once hA (i := us.length) (t := nl) (by simp) (by rw [knl]; decide) (by rw [knl]; decide) hj
  have eA : us ++ nl :: i :: (fs ++ o :: vs) = (us ++ [nl, i]) ++ (fs ++ o :: vs) := by simp
  have eB : us' ++ nl' :: i' :: (gs' ++ o' :: vs') = (us' ++ [nl', i']) ++ (gs' ++ o' :: vs') := by simp
  have post : ∀ x, PostG ((started A).ahead us.length) { (started A).ahead (us.length + 2 + fs.length + 1) with exc := x }
      { (started B).ahead (us.length + 2 + gs'.length + 1) with exc := x } := by
    intro x
    refine ⟨rfl, fun j => ?_, fun j h => ?_, fun j h => ?_⟩
    · rw [ahead_exc j ((started A).ahead _) x, ahead_exc j ((started B).ahead _) x, ← ahead_add, ← ahead_add]
      exact after j x x
    · rw [ahead_exc j ((started A).ahead _) x, ← ahead_add] at h
      have := once _ h
      omega
    · rw [ahead_exc j ((started A).ahead _) x, ← ahead_add] at h
      have := spot _ _ h
      omega
  have adv : ∀ (T : List Char) q x, PSt.advance { (started T).ahead q with exc := x } = { (started T).ahead (q + 1) with exc := x } := by
    intro T q x
    have := ahead_exc 1 ((started T).ahead q) x
    rw [← ahead_add] at this
    exact this
  have bodyA : ∀ x, ∃ ys, eraseList Token.bare ys = eraseList Token.bare (fileStatements w) ∧ ys ≠ [] ∧
      Stmts { (started A).ahead (us.length + 2) with exc := x } ys { (started A).ahead (us.length + 2 + fs.length) with exc := x } := by
    intro x
    rw [eA] at hA
    have := body_stmts hA ko hF hf hft hfn hw x
    simpa using this
  have bodyB : ∀ x, ∃ ys, eraseList Token.bare ys = eraseList Token.bare (fileStatements v) ∧ ys ≠ [] ∧
      Stmts { (started B).ahead (us.length + 2) with exc := x } ys { (started B).ahead (us.length + 2 + gs'.length) with exc := x } := by
    intro x
    rw [eB] at hB
    have := body_stmts hB ko' hG hg hgt hgn hv x
    rw [← lus]
    simpa using this
  have hole : HoleG ((started A).ahead us.length) ((started B).ahead us.length) := by
    refine ⟨knl, a0, ⟨i, ?_, ki⟩, ?_, ?_, ?_⟩
    · have : ((started A).ahead us.length).advance = (started A).ahead (us.length + 1) := by rw [ahead_add]; rfl
      rw [this]; exact a1
    · have e1 : ((started A).ahead us.length).advance = (started A).ahead (us.length + 1) := by rw [ahead_add]; rfl
      have e2 : ((started B).ahead us.length).advance = (started B).ahead (us.length + 1) := by rw [ahead_add]; rfl
      rw [e1, e2]
      exact before _ (Nat.le_refl _) _ _
    · intro x q a c' hq
      obtain ⟨ys, g1, g2, g3⟩ := bodyA x
      obtain ⟨zs, g4, g5, g6⟩ := bodyB x
      obtain ⟨s, p, q', h1⟩ := suite_stmts (c := { (started A).ahead us.length with exc := x })
        (d := { (started A).ahead (us.length + 2 + fs.length) with exc := x }) (t := nl) (i := i) (o := o) a0 knl
        (by rw [adv]; exact a1) ki (by rw [adv, adv]; exact g3) g2 a2 ko
      obtain ⟨s', p', h2⟩ := suite_stmts (c := { (started B).ahead us.length with exc := x })
        (d := { (started B).ahead (us.length + 2 + gs'.length) with exc := x }) (t := nl') (i := i') (o := o') b0 knl'
        (by rw [adv]; exact b1) ki' (by rw [adv, adv]; exact g6) g5 b2 ko'
      have := run_det (n := q) (m := q') (f := .suite) (by rw [hq]; simp) (by rw [h1]; simp)
      rw [hq, h1] at this
      obtain ⟨rfl, rfl⟩ := Res.ok.inj this
      refine ⟨_, _, h2, ?_, ?_⟩
      · show Tree.graft _ _ _ = _
        rw [en, ex, graft_suite]
        simp [Tree.erase, eraseList, eraseList_reverse, g4, hnl, hi, ho]
      · rw [adv, adv]
        exact post x
    · intro x q a c' hq
      obtain ⟨ys, g1, g2, g3⟩ := bodyA x
      obtain ⟨zs, g4, g5, g6⟩ := bodyB x
      obtain ⟨s, p, q', h1⟩ := func_stmts (c := { (started A).ahead us.length with exc := x })
        (d := { (started A).ahead (us.length + 2 + fs.length) with exc := x }) (t := nl) (i := i) (o := o) a0 knl
        (by rw [adv]; exact a1) ki (by rw [adv, adv]; exact g3) g2 a2 ko
      obtain ⟨s', p', h2⟩ := func_stmts (c := { (started B).ahead us.length with exc := x })
        (d := { (started B).ahead (us.length + 2 + gs'.length) with exc := x }) (t := nl') (i := i') (o := o') b0 knl'
        (by rw [adv]; exact b1) ki' (by rw [adv, adv]; exact g6) g5 b2 ko'
      have := run_det (n := q) (m := q') (f := .funcBodySuite) (by rw [hq]; simp) (by rw [h1]; simp)
      rw [hq, h1] at this
      obtain ⟨rfl, rfl⟩ := Res.ok.inj this
      refine ⟨_, _, h2, ?_, ?_⟩
      · show Tree.graft _ _ _ = _
        rw [en, ex, graft_func]
        simp [Tree.erase, eraseList, eraseList_reverse, g4, hnl, hi, ho]
      · rw [adv, adv]
        exact post x
  have exA : (started A).exc = .exceptNone := advance_exc_eq _
  have exB : (started B).exc = .exceptNone := advance_exc_eq _
  have self : ∀ c : PSt, c = { c with exc := c.exc } := fun c => rfl
  have pre : PreG ((started A).ahead us.length) ((started B).ahead us.length) us.length (started A) (started B) := by
    refine ⟨by rw [exA, exB], fun j hj => before j (by omega) ((started A).ahead j).exc ((started B).ahead j).exc, ?_, ?_, fun j hj h => ?_,
      fun j hj u hu => ?_, fun j hj => spot j ((started A).ahead j).exc hj⟩
    · have := ahead_excEq us.length (started A)
      rw [← this]
    · have := ahead_excEq us.length (started B)
      rw [exA, ← exB, ← this]
    · have := once j h
      omega
    · refine htc u ?_
      rw [hA.sym j (by simp; omega)] at hu
      rw [List.getLast?_eq_getElem?, show us.length - 1 = j by omega, List.getElem?_eq_getElem (by omega)]
      rw [List.getElem_append_left (by omega)] at hu
      exact congrArg some (Except.ok.inj hu)
  cases n with
  | zero => cases ht
  | succ n =>
  rw [fileInput_loop] at ht
  obtain ⟨u, d', ⟨q, g1⟩, g2, -⟩ := run_graft hole n (.fileLoop (started A).lex.tokStart [] []) (.fileLoop (started B).lex.tokStart [] []) false none
    (started A) (started B) t ct (by constructor <;> rfl) ⟨by simp, .inl ⟨_, pre⟩⟩ (.inl rfl) ht
  exact ⟨q + 1, u, d', by rw [fileInput_loop]; exact g1, g2.symm⟩

end

/-- C78: let a text `A` be accepted as a file, and let `nl`, `i` and `o` be the line end, the indent and the dedent around the body
of a block in it, `us` the symbols before the block, `fs` those of its body and `vs` those after it.  If the symbols of the
body are those of a text `F` that is a file by itself, the text `G` is a file, and the symbols of a text `B` are those of
`A` with the symbols of `G` in the place of `fs`, then `B` is accepted, and its tree is that of `A` with the statements of
`G` as the body of that block and nothing else changed, apart from positions and trivia.  (Both bodies are not empty and have
no `try`, which is needed: `C72_try_in_body`.  The symbol before the block is not a type comment; a type comment before the
body of a function belongs to the block.) -/
theorem C78_only_the_body [Uni] (A B F G : List Char) (us fs gs vs f bs : List Token) (nl i o : Token)
    (hA : AllSymbols A (us ++ nl :: i :: (fs ++ o :: vs)))
    (hB : AllSymbols B bs) (hbs : bs.map Token.bare = (us ++ nl :: i :: (gs ++ o :: vs)).map Token.bare)
    (hF : AllSymbols F f) (hf : f.map Token.bare = fs.map Token.bare) (hG : AllSymbols G gs)
    (knl : nl.kind = .Newline) (ki : i.kind = .Indent) (ko : o.kind = .Dedent)
    (htc : ∀ u, us.getLast? = some u → u.kind ≠ .TypeComment)
    (hft : ∀ u ∈ fs, u.kind ≠ .PyTry) (hgt : ∀ u ∈ gs, u.kind ≠ .PyTry) (hfn : fs ≠ []) (hgn : gs ≠ [])
    (n m : Nat) (t v : Tree) (c d : PSt)
    (ht : run n .fileInput (PSt.new (Lexer.new A)) = .ok t c)
    (aF : Accepts .fileInput F)
    (hv : run m .fileInput (PSt.new (Lexer.new G)) = .ok v d) :
    ∃ k u c', run k .fileInput (PSt.new (Lexer.new B)) = .ok u c' ∧
      u.erase Token.bare = t.graft nl (eraseList Token.bare (fileStatements v).reverse) := by
  obtain ⟨k, w, cw, hw⟩ := aF
  rw [List.map_append] at hbs
  obtain ⟨us', r1, rfl, e1, h1⟩ := List.map_eq_append_iff.1 hbs
  rw [List.map_cons] at h1
  obtain ⟨nl', r2, rfl, e2, h2⟩ := List.map_eq_cons_iff.1 h1
  rw [List.map_cons] at h2
  obtain ⟨i', r3, rfl, e3, h3⟩ := List.map_eq_cons_iff.1 h2
  rw [List.map_append] at h3
  obtain ⟨gs', r4, rfl, e4, h4⟩ := List.map_eq_append_iff.1 h3
  rw [List.map_cons] at h4
  obtain ⟨o', vs', rfl, e5, e6⟩ := List.map_eq_cons_iff.1 h4
  refine only_body hA hB hF hf hG e4.symm e1 e2 e3 e5 e6 knl ki ko htc hft ?_ hfn ?_ ht hw hv
  · intro u hu hk
    have : u.bare ∈ gs.map Token.bare := by rw [← e4]; exact List.mem_map_of_mem hu
    obtain ⟨z, hz, hz'⟩ := List.mem_map.1 this
    exact hgt z hz ((Keeps.kind (e := Token.bare) hz').trans hk)
  · rintro rfl
    simp only [List.map_nil] at e4
    exact hgn (List.map_eq_nil_iff.1 e4.symm)

/-- The same for any result: whatever tree the text `B` is given is that one. -/
theorem C78_only_the_body_result [Uni] (A B F G : List Char) (us fs gs vs f bs : List Token) (nl i o : Token)
    (hA : AllSymbols A (us ++ nl :: i :: (fs ++ o :: vs)))
    (hB : AllSymbols B bs) (hbs : bs.map Token.bare = (us ++ nl :: i :: (gs ++ o :: vs)).map Token.bare)
    (hF : AllSymbols F f) (hf : f.map Token.bare = fs.map Token.bare) (hG : AllSymbols G gs)
    (knl : nl.kind = .Newline) (ki : i.kind = .Indent) (ko : o.kind = .Dedent)
    (htc : ∀ u, us.getLast? = some u → u.kind ≠ .TypeComment)
    (hft : ∀ u ∈ fs, u.kind ≠ .PyTry) (hgt : ∀ u ∈ gs, u.kind ≠ .PyTry) (hfn : fs ≠ []) (hgn : gs ≠ [])
    (n m k : Nat) (t u v : Tree) (c d c' : PSt)
    (ht : run n .fileInput (PSt.new (Lexer.new A)) = .ok t c)
    (aF : Accepts .fileInput F)
    (hv : run m .fileInput (PSt.new (Lexer.new G)) = .ok v d)
    (hu : run k .fileInput (PSt.new (Lexer.new B)) = .ok u c') :
    u.erase Token.bare = t.graft nl (eraseList Token.bare (fileStatements v).reverse) := by
  obtain ⟨k', u', c2, h1, h2⟩ := C78_only_the_body A B F G us fs gs vs f bs nl i o hA hB hbs hF hf hG knl ki ko htc hft hgt hfn hgn
    n m t v c d ht aF hv
  have := run_det (n := k) (m := k') (f := .fileInput) (c := PSt.new (Lexer.new B)) (by rw [hu]; simp) (by rw [h1]; simp)
  rw [hu, h1] at this
  cases this
  exact h2

/-! ### The hypotheses are met -/

namespace BodyExample

theorem symbols_of [Uni] {src : List Char} {n ts e} (h : (StmtExample.lexed n (Lexer.new src) == ts ++ [e] && e.kind == .EOF &&
    ts.all (fun t => t.kind != .EOF)) = true) : AllSymbols src ts := by
  simp only [Bool.and_eq_true, beq_iff_eq, List.all_eq_true, bne_iff_ne] at h
  obtain ⟨⟨h1, h2⟩, h3⟩ := h
  obtain ⟨l, h4⟩ := StmtExample.lexed_tokens n (Lexer.new src)
  rw [h1] at h4
  exact ⟨e, l, h4, h2, h3⟩

/-- A block in the body of a function. -/
def old : List Char := cs! "def f():\n  if a:\n    b\n  c\nd\n"
/-- Other statements in that block, in another column. -/
def new : List Char := cs! "def f():\n  if a:\n      while x: y\n      z\n  c\nd\n"

def us : List Token := [.sym .PyDef 0 3 none, .name 4 5 (some [.whiteSpace 3 4 ' ']) (cs! "f"), .sym .PyLeftParen 5 6 none, .sym .PyRightParen 6 7 none, .sym .PyColon 7 8 none, .newline 8 9 none '\n' ' ', .indent none, .sym .PyIf 11 13 none, .name 14 15 (some [.whiteSpace 13 14 ' ']) (cs! "a"), .sym .PyColon 15 16 none]
def nl : Token := .newline 16 17 none '\n' ' '
def fs : List Token := [.name 21 22 none (cs! "b"), .newline 22 23 none '\n' ' ']
def vs : List Token := [.name 25 26 none (cs! "c"), .newline 26 27 none '\n' ' ', .dedent none, .name 27 28 none (cs! "d"), .newline 28 29 none '\n' ' ']
def gs : List Token := [.sym .PyWhile 0 5 none, .name 6 7 (some [.whiteSpace 5 6 ' ']) (cs! "x"), .sym .PyColon 7 8 none, .name 9 10 (some [.whiteSpace 8 9 ' ']) (cs! "y"), .newline 10 11 none '\n' ' ', .name 11 12 none (cs! "z"), .newline 12 13 none '\n' ' ']
def f : List Token := [.name 0 1 none (cs! "b"), .newline 1 2 none '\n' ' ']

theorem symA : @AllSymbols asciiUni old (us ++ nl :: .indent none :: (fs ++ .dedent none :: vs)) := by
  let _ := asciiUni
  exact symbols_of (n := 21) (e := .eof 29 none) (by decide +kernel)
theorem symF : @AllSymbols asciiUni (cs! "b\n") f := by
  let _ := asciiUni
  exact symbols_of (n := 3) (e := .eof 2 none) (by decide +kernel)
theorem symG : @AllSymbols asciiUni (cs! "while x: y\nz\n") gs := by
  let _ := asciiUni
  exact symbols_of (n := 8) (e := .eof 13 none) (by decide +kernel)
theorem symB : let _ := asciiUni; ∃ bs, AllSymbols new bs ∧ bs.map Token.bare = (us ++ nl :: .indent none :: (gs ++ .dedent none :: vs)).map Token.bare := by
  let _ := asciiUni
  have key : (let ts := StmtExample.lexed 26 (Lexer.new new)
      ts.dropLast.map Token.bare == (us ++ nl :: .indent none :: (gs ++ .dedent none :: vs)).map Token.bare &&
      ts == ts.dropLast ++ [.eof 48 none] && ts.dropLast.all (fun t => t.kind != .EOF)) = true := by decide +kernel
  simp only [Bool.and_eq_true, beq_iff_eq] at key
  obtain ⟨⟨h1, h2⟩, h3⟩ := key
  exact ⟨_, symbols_of (n := 26) (e := .eof 48 none) (by simp only [Bool.and_eq_true, beq_iff_eq]; exact ⟨⟨h2, rfl⟩, h3⟩), h1⟩

end BodyExample

open BodyExample in
/-- The body of the `if` in the function is replaced: the tree of the new text is that of the old one with two other
statements in the block. -/
example : let _ := asciiUni
    ∃ n m t v c d k u c', run n .fileInput (PSt.new (Lexer.new old)) = .ok t c ∧
      run m .fileInput (PSt.new (Lexer.new (cs! "while x: y\nz\n"))) = .ok v d ∧
      run k .fileInput (PSt.new (Lexer.new new)) = .ok u c' ∧ t.tokens.length = 21 ∧ u.tokens.length = 26 ∧
      u.erase Token.bare = t.graft nl (eraseList Token.bare (fileStatements v).reverse) := by
  intro _
  obtain ⟨t, c, ht, h1⟩ := Res.shows (P := fun t => t.tokens.length = 21)
    (r := run 200 .fileInput (PSt.new (Lexer.new old))) (by decide +kernel)
  obtain ⟨u, c', hu, h2⟩ := Res.shows (P := fun t => t.tokens.length = 26)
    (r := run 200 .fileInput (PSt.new (Lexer.new new))) (by decide +kernel)
  obtain ⟨v, d, hv, -⟩ := Res.shows (P := fun t => (fileStatements t).length = 2)
    (r := run 200 .fileInput (PSt.new (Lexer.new (cs! "while x: y\nz\n")))) (by decide +kernel)
  obtain ⟨bs, h3, h4⟩ := symB
  exact ⟨_, _, t, v, c, d, _, u, c', ht, hv, hu, h1, h2, C78_only_the_body_result _ _ _ _ us fs gs vs f bs nl _ _ symA h3 h4 symF rfl symG
    rfl rfl rfl (by decide) (by decide) (by decide) (by decide) (by decide) _ _ _ _ _ _ _ _ _ ht
    (Res.accepts (m := 100) (by decide +kernel)) hv hu⟩

end Verif
