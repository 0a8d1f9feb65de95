import Verif.Proof.PlugSound
import Verif.Proof.ReadLike
import Verif.Props.ReplaceText

/-!
# C74: a number that is replaced by an expression in parentheses is replaced in the tree, and nothing else is
-/

namespace Verif
open LG

/-- The symbols of a text in parentheses. -/
theorem paren_text [Uni] {e : List Char} {es nls : List Token} {nl x : Token} {le : Lexer}
    (hes : Tokens (Lexer.new (e ++ ['\n'])) (es ++ nl :: (nls ++ [x])) le) (hx : x.kind = .EOF)
    (hnl : nl.kind = .Newline) (hnls : ∀ v ∈ nls, v.kind = .Newline)
    (hlay : ∀ v ∈ es, v.kind ∉ [Kind.Newline, .Indent, .Dedent, .EOF]) (h0 : '\x00' ∉ e) (hcr : e.getLast? ≠ some '\r') :
    ∃ us l, Tokens (Lexer.new ('(' :: e ++ ['\n', ')'])) us l ∧
      us.map Token.bare = (.sym .PyLeftParen 0 0 none) :: es.map Token.bare ++ [.sym .PyRightParen 0 0 none, .eof 0 none] := by
  have r1 : Next (.start ('(' :: e ++ ['\n', ')'])) (.sym .PyLeftParen 0 0 none) ⟨false, [')'], [0], 0, (e ++ ['\n']) ++ [')']⟩ := by
    refine .word (b := false) (q := ⟨false, [], [0], 0, '(' :: ((e ++ ['\n']) ++ [')'])⟩) ?_ rfl .done (paren_word _ _).1
    have : '(' :: e ++ ['\n', ')'] = '(' :: ((e ++ ['\n']) ++ [')']) := by simp
    rw [this]
    exact .same (col := 0) rfl (by simp [Place.start, margin]) (by simp [NoCode]) rfl rfl
  have r2 := inside_parens (q := []) (closers := []) (levels := [0]) hes hx hnl hnls hlay h0 hcr
  have r3 : Next ⟨false, [], [0], 0, []⟩ (.eof 0 none) ⟨false, [], [0], 0, []⟩ := .word (.mid rfl) rfl .done (.eof (.inl rfl))
  obtain ⟨us, l, k1, k2, -⟩ := (C55_symbols _ _ _).2 (run_append (.cons r1 r2) (.cons r3 .nil))
  exact ⟨us, l, k1, by rw [k2]; simp⟩

/-- The symbols a parser sees, without positions. -/
theorem Tokens.sees [Uni] {src ts l} (h : Tokens (Lexer.new src) ts l) (he : ∃ t ∈ ts, t.kind = .EOF) (i : Nat) :
    ∃ t, ((PSt.new (Lexer.new src)).ahead (i + 1)).symbol = .ok t ∧ t.bare = (ts.map Token.bare)[i]?.getD (.eof 0 none) ∧
      (ts[i]? = some t ∨ t.kind = .EOF) := by
  by_cases hi : i < ts.length
  · exact ⟨_, h.seen rfl i hi, by simp [hi], .inl (by simp [hi])⟩
  · obtain ⟨j, rfl⟩ := Nat.exists_eq_add_of_le (Nat.le_of_not_lt hi)
    obtain ⟨p, tr, s⟩ := h.eof_last (Inv.new src) he
    exact ⟨_, by rw [Nat.add_assoc, ahead_add, stuck_ahead s j (h.left_state rfl)], by simp [Token.bare], .inr rfl⟩

theorem plug_kind_bare (v : Token) : v.bare.kind = v.kind := by cases v <;> rfl

theorem eof_of_bare {ts : List Token} {ws : List Token} (h : ts.map Token.bare = ws) (he : ∃ t ∈ ws, t.kind = .EOF) :
    ∃ t ∈ ts, t.kind = .EOF := by
  subst h
  obtain ⟨t, ht, hk⟩ := he
  obtain ⟨v, hv, rfl⟩ := List.mem_map.1 ht
  exact ⟨v, hv, by rw [← plug_kind_bare, hk]⟩

/-- The number is there once. -/
theorem number_once [Uni] {src : List Char} {a after : List Token} {l : Lexer} {i j k : Nat} {tr : Trivs} {n : List Char} (hij : i < j)
    (h : Tokens (Lexer.new src) (a ++ .number i j tr n :: after) l)
    (hk : (a ++ .number i j tr n :: after)[k]? = some (.number i j tr n)) : k = a.length := by
  have ho := List.pairwise_iff_getElem.1 (C05_spans_ordered _ _ _ h.returned)
  obtain ⟨hk1, hk2⟩ := List.getElem?_eq_some_iff.1 hk
  have ha : a.length < (a ++ .number i j tr n :: after).length := by simp
  have hb : (a ++ .number i j tr n :: after)[a.length] = .number i j tr n := by simp
  rcases Nat.lt_trichotomy k a.length with hlt | he | hgt
  · have := ho _ _ hk1 ha hlt i j i j (by rw [hk2]; rfl) (by rw [hb]; rfl)
    omega
  · exact he
  · have := ho _ _ ha hk1 hgt i j i j (by rw [hb]; rfl) (by rw [hk2]; rfl)
    omega

theorem erase_tag' (e : Token → Token) (t : Tree) : (t.erase e).tag? = t.tag? := by
  cases t <;> simp [Tree.erase, Tree.tag?]

/-- What `atom` reads of a text in parentheses that it reads as a whole. -/
theorem paren_whole [Uni] {e : List Char} {es us : List Token} {l : Lexer} {m : Nat} {v : Tree} {cv : PSt} {y : Token}
    (hu : Tokens (Lexer.new ('(' :: e ++ ['\n', ')'])) us l)
    (hb : us.map Token.bare = (.sym .PyLeftParen 0 0 none) :: es.map Token.bare ++ [.sym .PyRightParen 0 0 none, .eof 0 none])
    (hlay : ∀ v ∈ es, v.kind ≠ .EOF)
    (hv : run m .atom (started ('(' :: e ++ ['\n', ')'])) = .ok v cv) (hy : cv.symbol = .ok y) (hk : y.kind = .EOF) :
    v.tag? = some .AtomTuple ∧ ∀ d, SeenLike Token.bare (es.length + 1) (started ('(' :: e ++ ['\n', ')'])) d →
      ∃ u, Ev .atom d u (d.ahead (es.length + 2)) ∧ v.erase Token.bare = u.erase Token.bare := by
  have he := eof_of_bare hb ⟨.eof 0 none, by simp, rfl⟩
  have seen : ∀ i, ∃ t, ((started ('(' :: e ++ ['\n', ')'])).ahead i).symbol = .ok t ∧
      t.bare = ((.sym .PyLeftParen 0 0 none) :: es.map Token.bare ++ [.sym .PyRightParen 0 0 none, .eof 0 none])[i]?.getD (.eof 0 none) := by
    intro i
    obtain ⟨t, h1, h2, -⟩ := hu.sees he i
    exact ⟨t, h1, by rw [← hb]; exact h2⟩
  obtain ⟨lp, hl, hlb⟩ := seen 0
  have hlk : lp.kind = .PyLeftParen := by rw [← plug_kind_bare, hlb]; rfl
  have hg : Good ('(' :: e ++ ['\n', ')']) (started ('(' :: e ++ ['\n', ')'])) := (PReach.adv .new).good
  obtain ⟨ts, rp, g1, g2, g3, g4⟩ := paren_like hg hl hlk hv
  have hlen : ts.length = es.length := by
    obtain ⟨i1, i2⟩ := g1.index
    rw [hy] at i1
    have i2 := i2 rp (List.getLast?_concat (l := lp :: ts))
    simp only [List.length_cons, List.length_append, List.length_nil, Nat.zero_add, Nat.add_sub_cancel] at i1 i2
    rcases Nat.lt_trichotomy ts.length es.length with hlt | heq | hgt
    · obtain ⟨t, h1, h2⟩ := seen (ts.length + 1 + 1)
      rw [← i1] at h1
      cases h1
      exfalso
      have hkb : y.bare.kind = .EOF := by rw [plug_kind_bare, hk]
      rw [h2] at hkb
      by_cases hlt' : ts.length + 1 < es.length
      · have : ((Token.sym .PyLeftParen 0 0 none) :: es.map Token.bare ++ [.sym .PyRightParen 0 0 none, .eof 0 none])[ts.length + 1 + 1]? =
            some es[ts.length + 1].bare := by
          simp [List.getElem?_append, hlt']
        rw [this] at hkb
        simp only [Option.getD_some, plug_kind_bare] at hkb
        exact hlay _ (List.getElem_mem hlt') hkb
      · have : ts.length + 1 = es.length := by omega
        rw [this] at hkb
        simp [Token.kind] at hkb
    · exact heq
    · obtain ⟨t, h1, h2⟩ := seen (ts.length + 1)
      rw [i2] at h1
      cases h1
      exfalso
      have hkb : rp.bare.kind = .PyRightParen := by rw [plug_kind_bare, g2]
      rw [h2] at hkb
      obtain ⟨i, hi⟩ := Nat.exists_eq_add_of_lt hgt
      have : ((Token.sym .PyLeftParen 0 0 none) :: es.map Token.bare ++ [.sym .PyRightParen 0 0 none, .eof 0 none])[ts.length + 1]?.getD
          (.eof 0 none) = .eof 0 none := by
        rw [hi]
        simp only [List.cons_append, List.getElem?_cons_succ]
        rw [List.getElem?_append_right (by simp; omega)]
        rw [show es.length + i + 1 - (es.map Token.bare).length = i + 1 by simp; omega]
        cases i <;> simp
      rw [this] at hkb
      cases hkb
  rw [hlen] at g4
  exact ⟨g3, g4⟩

/-- C74: if a number in an accepted text is replaced by an expression in parentheses, the tree of the new text is, up to
positions and trivia, the tree of the old one with the tree of the expression in the place of the number. -/
theorem C74_only_the_number [Uni] (f : Fn) (hf : f ∈ [Fn.fileInput, .evalInput, .funcTypeInput, .singleInput])
    (p n q e : List Char) (a after es nls : List Token) (nl x y : Token) (l l1 l2 le : Lexer) (j : Nat) (tr : Trivs)
    (h : Tokens (Lexer.new (p ++ (n ++ q))) a l) (ht : getSymbol l = .ok (.number p.length j tr n) l1) (hn : '\x00' ∉ n)
    (hafter : Tokens l1 (after ++ [y]) l2) (hy : y.kind = .EOF)
    (hp : ∀ v, a.getLast? = some v → v.kind ∉ endsExpression ∧ v.kind ≠ .PyWith)
    (hes : Tokens (Lexer.new (e ++ ['\n'])) (es ++ nl :: (nls ++ [x])) le) (hx : x.kind = .EOF)
    (hnl : nl.kind = .Newline) (hnls : ∀ v ∈ nls, v.kind = .Newline)
    (hlay : ∀ v ∈ es, v.kind ∉ [Kind.Newline, .Indent, .Dedent, .EOF]) (h0 : '\x00' ∉ e) (hcr : e.getLast? ≠ some '\r')
    (m : Nat) (v : Tree) (cv : PSt) (z : Token) (hv : run m .atom (started ('(' :: e ++ ['\n', ')'])) = .ok v cv)
    (hz : cv.symbol = .ok z) (hzk : z.kind = .EOF)
    (k : Nat) (t : Tree) (c : PSt) (hr : run k f (PSt.new (Lexer.new (p ++ (n ++ q)))) = .ok t c) :
    ∃ k' u c', run k' f (PSt.new (Lexer.new (p ++ ('(' :: e ++ '\n' :: ')' :: q)))) = .ok u c' ∧
      u.erase Token.bare = t.plug (.number p.length j tr n) (v.erase Token.bare) := by
  obtain ⟨us, l3, hu, hub⟩ := C70_symbols p n q e a (after ++ [y]) es nls nl x l l1 l2 le j tr h ht hn hafter hes hx hnl hnls hlay h0 hcr
  obtain ⟨vs, l4, hw, hwb⟩ := paren_text hes hx hnl hnls hlay h0 hcr
  have hlay' : ∀ v ∈ es, v.kind ≠ .EOF := fun v hv hk => hlay v hv (by simp [hk])
  obtain ⟨htag, hatom⟩ := paren_whole hw hwb hlay' hv hz hzk
  have hold := h.append (.cons ht hafter)
  have hij : p.length < j := by
    have hf := ok_facts (h.reach .new).inv ht
    have h1 := hf.span
    have h2 := hf.nonempty (by simp [Token.kind]) (by simp [Token.kind]) (by simp [Token.kind])
    simp [Token.span?, Token.kind] at h1
    omega
  have heo : ∃ t ∈ a ++ .number p.length j tr n :: (after ++ [y]), t.kind = .EOF := ⟨y, by simp, hy⟩
  have hen : ∃ t ∈ us, t.kind = .EOF := eof_of_bare hub ⟨y.bare, by simp, by rw [plug_kind_bare, hy]⟩
  have hea := eof_of_bare hwb ⟨.eof 0 none, by simp, rfl⟩
  obtain ⟨lp, hl1, hl2, -⟩ := hu.sees hen a.length
  rw [hub] at hl2
  have hlpk : lp.kind = .PyLeftParen := by
    rw [← plug_kind_bare, hl2]
    simp [Token.kind]
  let P : Plug := { num := .number p.length j tr n, lp := lp, r := v.erase Token.bare, hn := rfl, hl := hlpk, hr := by rw [erase_tag', htag] }
  -- symbols before and after the number
  have sym : ∀ i i', i ≠ a.length → ((a ++ .number p.length j tr n :: (after ++ [y])).map Token.bare)[i]?.getD (.eof 0 none) =
      (us.map Token.bare)[i']?.getD (.eof 0 none) →
      SymR ((PSt.new (Lexer.new (p ++ (n ++ q)))).ahead (i + 1)) ((PSt.new (Lexer.new (p ++ ('(' :: e ++ '\n' :: ')' :: q)))).ahead (i' + 1)) := by
    intro i i' hi hb
    obtain ⟨t1, a1, a2, a3⟩ := hold.sees heo i
    obtain ⟨t2, b1, b2, -⟩ := hu.sees hen i'
    unfold SymR
    rw [a1, b1]
    refine ⟨by rw [a2, b2, hb], fun he => ?_⟩
    rcases a3 with a3 | a3
    · rw [he] at a3
      exact hi (number_once hij hold a3)
    · rw [he] at a3; cases a3
  have hpre : PreR (es.length + 2) (a.length + 1) (PSt.new (Lexer.new (p ++ (n ++ q)))) (PSt.new (Lexer.new (p ++ ('(' :: e ++ '\n' :: ')' :: q)))) := by
    refine ⟨rfl, Nat.succ_pos _, fun i hi => ?_, ⟨?_, ?_, hl1, fun i => ?_, fun w => ?_⟩, fun t ht => ?_⟩
    · cases i with
      | zero => exact trivial
      | succ i =>
        refine sym i i (by omega) ?_
        rw [hub]
        have : i < a.length := by omega
        simp [List.getElem?_append, this]
    · rw [ahead_keeps, ahead_keeps]; rfl
    · rw [hold.seen rfl a.length (by simp)]
      simp [P, Plug.num]
    · rw [← ahead_add, ← ahead_add]
      rw [show a.length + 1 + (i + 1) = (a.length + (i + 1)) + 1 by omega,
        show a.length + 1 + (es.length + 2 + i) = (a.length + (es.length + 2 + i)) + 1 by omega]
      refine sym _ _ (by omega) ?_
      rw [hub]
      congr 1
      rw [List.map_append, List.getElem?_append_right (by simp), List.append_assoc, List.getElem?_append_right (by simp)]
      rw [show a.length + (i + 1) - (a.map Token.bare).length = i + 1 by simp,
        show a.length + (es.length + 2 + i) - (a.map Token.bare).length = (es.length + (i + 1)) + 1 by simp; omega]
      rw [List.map_cons, List.getElem?_cons_succ, List.cons_append, List.getElem?_cons_succ, List.getElem?_append_right (by simp)]
      rw [show es.length + (i + 1) - (es.map Token.bare).length = i + 1 by simp, List.getElem?_cons_succ]
    · obtain ⟨u, hu1, hu2⟩ := hatom { PSt.ahead (a.length + 1) (PSt.new (Lexer.new (p ++ ('(' :: e ++ '\n' :: ')' :: q)))) with exc := w } (by
        intro i hi
        rw [ahead_exc i (PSt.ahead (a.length + 1) (PSt.new (Lexer.new (p ++ ('(' :: e ++ '\n' :: ')' :: q))))) w, ← ahead_add]
        obtain ⟨t1, a1, a2, -⟩ := hw.sees hea i
        obtain ⟨t2, b1, b2, -⟩ := hu.sees hen (a.length + i)
        rw [show a.length + 1 + i = a.length + i + 1 by omega]
        unfold SymLike
        have a1 : ((started ('(' :: e ++ ['\n', ')'])).ahead i).symbol = .ok t1 := a1
        simp only [a1, b1]
        rw [a2, b2, hub, hwb]
        congr 1
        rw [List.append_assoc, List.getElem?_append_right (l₁ := a.map Token.bare) (by simp)]
        rw [show a.length + i - (a.map Token.bare).length = i by simp]
        rw [List.getElem?_append, List.getElem?_append]
        split
        · rfl
        · have : i = es.length + 1 := by rename_i h; simp at h; omega
          subst this
          simp)
      exact ⟨u, hu1, hu2⟩
    · cases ha : a.getLast? with
      | none =>
        have : a = [] := by simpa using ha
        subst this
        simp [PSt.ahead, PSt.new] at ht
      | some w =>
        have hw' := hp w ha
        obtain ⟨b, rfl⟩ : ∃ b, a = b ++ [w] := by
          obtain ⟨ys, hys⟩ := List.getLast?_eq_some_iff.1 ha
          exact ⟨ys, hys⟩
        have := hold.seen (c := PSt.new (Lexer.new (p ++ (n ++ q)))) rfl b.length (by simp)
        simp only [List.length_append, List.length_cons, List.length_nil, Nat.zero_add, Nat.add_sub_cancel] at ht
        rw [this] at ht
        simp at ht
        subst ht
        revert hw'
        generalize w.kind = K
        intro hK
        simp [endsExpression] at hK
        simp [lastOf, hK]
  have hq : Fn.LikeQ f f := by
    simp only [List.mem_cons, List.not_mem_nil, or_false] at hf
    rcases hf with rfl | rfl | rfl | rfl <;> constructor
  obtain ⟨u, d', m', ⟨k', hk'⟩, hpt, -, -⟩ := run_plug (m := .pre none) k f f _ _ _ _ hq ⟨_, hpre⟩ (fun h => by cases h) hr
  exact ⟨k', u, d', hk', hpt.symm⟩

/-! ### The hypotheses are met -/

def Res.whole [Uni] (r : Res Tree) : Bool :=
  match r with
  | .ok _ c => match c.symbol with
    | .ok z => z.kind == .EOF
    | _ => false
  | _ => false

theorem Res.whole_ok [Uni] {r : Res Tree} (h : r.whole = true) : ∃ t c z, r = .ok t c ∧ c.symbol = .ok z ∧ z.kind = .EOF := by
  unfold Res.whole at h
  split at h
  · split at h
    · exact ⟨_, _, _, rfl, by assumption, by simpa using h⟩
    · cases h
  · cases h

/-- In `x = 1 + 1` the second number becomes `(a or b # why` and, on the next line, `)`. -/
example : let _ := asciiUni
    ∃ t c v cv k u c', run 100 .fileInput (PSt.new (Lexer.new (cs! "x = 1 + 1\n"))) = .ok t c ∧
      run 100 .atom (started (cs! "(a or b # why\n)")) = .ok v cv ∧
      run k .fileInput (PSt.new (Lexer.new (cs! "x = 1 + (a or b # why\n)\n"))) = .ok u c' ∧
      u.erase Token.bare = t.plug (.number 8 9 (some [.whiteSpace 7 8 ' ']) (cs! "1")) (v.erase Token.bare) := by
  let _ := asciiUni
  obtain ⟨v, cv, z, hv, hz, hzk⟩ := Res.whole_ok (r := run 100 .atom (started (cs! "(a or b # why\n)"))) (by decide +kernel)
  obtain ⟨t, c, _, ht, -, -⟩ := Res.whole_ok (r := run 100 .fileInput (PSt.new (Lexer.new (cs! "x = 1 + 1\n")))) (by decide +kernel)
  obtain ⟨k, u, c', h1, h2⟩ := C74_only_the_number .fileInput (by simp) (cs! "x = 1 + ") (cs! "1") (cs! "\n") (cs! "a or b # why")
    [.name 0 1 none (cs! "x"), .sym .PyAssign 2 3 _, .number _ _ _ _, .sym .PyPlus _ _ _] [.newline _ _ _ _ _]
    [.name _ _ _ (cs! "a"), .sym .PyOr _ _ _, .name _ _ _ (cs! "b")] []
    (.newline _ _ _ _ _) (.eof _ _) (.eof _ _) _ _ _ _ _ _
    (.cons rfl (.cons rfl (.cons rfl (.cons rfl .nil)))) rfl (by decide) (.cons rfl (.cons rfl .nil)) rfl
    (by simp [endsExpression, Token.kind]) (.cons rfl (.cons rfl (.cons rfl (.cons rfl (.cons rfl .nil))))) rfl rfl (by simp)
    (by simp [Token.kind]) (by decide) (by decide) 100 v cv z hv hz hzk 100 t c ht
  exact ⟨t, c, v, cv, k, u, c', ht, hv, h1, h2⟩

/-- Only the leaf at the place of the number is replaced, not one with the same text. -/
example (r : Tree) :
    (Tree.node .PlusArithExpr 0 5 [.node .AtomNumber 0 2 [.tok (.number 0 1 none (cs! "1"))], .tok (.sym .PyPlus 2 3 none),
      .node .AtomNumber 4 5 [.tok (.number 4 5 none (cs! "1"))]]).plug (.number 4 5 none (cs! "1")) r =
    .node .PlusArithExpr 0 0 [.node .AtomNumber 0 0 [.tok (.number 0 0 none (cs! "1"))], .tok (.sym .PyPlus 0 0 none), r] := by
  simp [Tree.plug, plugList, isLeaf, Token.bare]

end Verif
