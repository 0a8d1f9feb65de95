import Verif.Proof.PlaceAlikeAll
import Verif.Props.Layout
import Verif.Props.ErrorPos

/-!
# C82: a syntax error is reported at the same symbol, however the text is laid out

C53 says that the layout does not change the message of an error, and C54 that an error points at some symbol.  Here: the
error points at the same symbol in both texts.
-/

namespace Verif
set_option linter.unusedVariables false

section
variable [Uni] {e : Token → Token} [Keeps e]

theorem outAt_run {a b : PSt} (hab : ViewLike e a b) : ∀ n f g, FnAt e (SamePlace a b) f g → ∀ c d, Sync a b c d →
    OutAt e (SamePlace a b) a b (run n f c) (run n g d)
  | 0, _, _, _, _, _, _ => trivial
  | n + 1, _, _, h, _, _, hv => rat_exec hab (outAt_run hab n) (ala_body h) hv

omit [Uni] [Keeps e] in
/-- The functions called without positions or trees as arguments. -/
theorem fnAt_plain {P : Nat → Nat → Prop} {f : Fn} (hf : f ∈ Fn.decorated :: spanFns) : FnAt e P f f := by
  simp only [spanFns, ruleFns, List.cons_append, List.nil_append, List.mem_cons, List.not_mem_nil, or_false] at hf
  repeat' (first | constructor | (rcases hf with rfl | hf))

/-- The input rules begin at the first symbol. -/
theorem outAt_first {c d : PSt} (h : ViewLike e c d) (n : Nat) {f : Fn} (hf : f ∈ Fn.decorated :: spanFns) :
    OutAt e (SamePlace (f.first c) (f.first d)) (f.first c) (f.first d) (run n f c) (run n f d) := by
  have hs : ∀ a b : PSt, a.exc = b.exc → Sync a b a b := fun a b hx => ⟨0, a.exc, rfl, by rw [hx]; rfl⟩
  cases n with
  | zero => exact trivial
  | succ n =>
    have hfirst : ViewLike e (f.first c) (f.first d) := by
      cases f <;> first | exact h | exact h.advance
    have hb := ala_body (fnAt_plain (e := e) (P := SamePlace (f.first c) (f.first d)) hf)
    have hx := hs _ _ hfirst.1
    show OutAt e _ _ _ ((body f).exec (run n) c) ((body f).exec (run n) d)
    cases f
    case evalInput =>
      obtain ⟨k, hk⟩ : ∃ k, body .evalInput = .adv k := ⟨_, rfl⟩
      rw [hk] at hb ⊢
      exact rat_exec (p := k) (q := k) hfirst (outAt_run hfirst n) hb hx
    case fileInput =>
      obtain ⟨k, hk⟩ : ∃ k, body .fileInput = .adv k := ⟨_, rfl⟩
      rw [hk] at hb ⊢
      exact rat_exec (p := k) (q := k) hfirst (outAt_run hfirst n) hb hx
    case singleInput =>
      obtain ⟨k, hk⟩ : ∃ k, body .singleInput = .adv k := ⟨_, rfl⟩
      rw [hk] at hb ⊢
      exact rat_exec (p := k) (q := k) hfirst (outAt_run hfirst n) hb hx
    case funcTypeInput =>
      obtain ⟨k, hk⟩ : ∃ k, body .funcTypeInput = .adv k := ⟨_, rfl⟩
      rw [hk] at hb ⊢
      exact rat_exec (p := k) (q := k) hfirst (outAt_run hfirst n) hb hx
    all_goals exact rat_exec hfirst (outAt_run hfirst n) hb hx

end

/-- C82, from any two reachable states that see symbols alike (with the same kinds, and the name `match` at the same places,
for `e = Token.form`): if a parse function fails for one, it fails for the other with the same message, and the two errors
point at the same symbol, the `i`th from where the function begins.  The input rules begin at the first symbol of the text
(`Fn.first`). -/
theorem C82_same_symbol [Uni] {e : Token → Token} [Keeps e] (src1 src2 : List Char) (n : Nat) (f : Fn) (c d : PSt)
    (hc : PReach src1 c) (hd : PReach src2 d) (hf : f ∈ Fn.decorated :: spanFns) (h : ViewLike e c d) (p : Nat) (m : String)
    (hr : run n f c = .err p m) :
    ∃ q i, run n f d = .err q m ∧ ((f.first c).ahead i).startsAt p ∧ ((f.first d).ahead i).startsAt q := by
  have h0 := outAt_first h n hf
  rw [hr] at h0
  have r1 : PReach src1 (f.first c) := by cases f <;> first | exact hc | exact ahead_preach 1 hc
  have r2 : PReach src2 (f.first d) := by cases f <;> first | exact hd | exact ahead_preach 1 hd
  cases hq : run n f d with
  | err q m' =>
    rw [hq] at h0
    obtain ⟨⟨i, rfl, rfl⟩, rfl⟩ := h0
    exact ⟨_, i, rfl, (ahead_preach i r1).startsAt, (ahead_preach i r2).startsAt⟩
  | _ => rw [hq] at h0; exact h0.elim

section
variable [Uni]

theorem stuck_lex {l : Lexer} {t} (h : getSymbol l = .ok t l) : ∀ j {c : PSt}, c.lex = l → (c.ahead j).lex = l
  | 0, c, hc => hc
  | j + 1, c, hc => by
    refine stuck_lex h j (c := c.advance) ?_
    unfold PSt.advance; rw [hc, h]

end

/-- C82 for whole texts: two texts whose tokens have the same kinds (and the name `match` at the same places), whatever the
blanks, comments, names and numbers, fail with the same message at the same token.  `p` is where the `i`th token of the
first text starts, and `q` where the `i`th token of the second starts. -/
theorem C82_same_token [Uni] (src1 src2 : List Char) (ts1 ts2 : List Token) (l1 l2 : Lexer)
    (h1 : Tokens (Lexer.new src1) ts1 l1) (h2 : Tokens (Lexer.new src2) ts2 l2) (he : ∃ t ∈ ts1, t.kind = .EOF)
    (ha : ts1.map (fun t => (t.kind, t.isMatch)) = ts2.map (fun t => (t.kind, t.isMatch)))
    (f : Fn) (hf : f = .evalInput ∨ f = .fileInput ∨ f = .singleInput ∨ f = .funcTypeInput) (n p : Nat) (m : String)
    (hr : run n f (PSt.new (Lexer.new src1)) = .err p m) :
    ∃ q i t u, run n f (PSt.new (Lexer.new src2)) = .err q m ∧ ts1[i]? = some t ∧ ts2[i]? = some u ∧
      ((PSt.new (Lexer.new src1)).ahead (i + 1)).symbol = .ok t ∧ ((PSt.new (Lexer.new src1)).ahead (i + 1)).startsAt p ∧
      ((PSt.new (Lexer.new src2)).ahead (i + 1)).symbol = .ok u ∧ ((PSt.new (Lexer.new src2)).ahead (i + 1)).startsAt q := by
  have ha' : ts1.map Token.form = ts2.map Token.form := by
    have := congrArg (List.map fun p : Kind × Bool => if p.2 then Token.name 0 0 none (cs! "match") else .sym p.1 0 0 none) ha
    rw [List.map_map, List.map_map] at this
    exact this
  have hlen : ts1.length = ts2.length := by simpa using congrArg List.length ha
  have hpos : 0 < ts1.length := by obtain ⟨t, ht, _⟩ := he; exact List.length_pos_of_mem ht
  have he2 : ∃ t ∈ ts2, t.kind = .EOF := by
    obtain ⟨t, ht, hk⟩ := he
    have : (t.kind, t.isMatch) ∈ ts2.map (fun t => (t.kind, t.isMatch)) := ha ▸ List.mem_map_of_mem ht
    obtain ⟨u, hu, hk'⟩ := List.mem_map.mp this
    exact ⟨u, hu, (congrArg Prod.fst hk').trans hk⟩
  have hm : f ∈ Fn.decorated :: spanFns := by rcases hf with rfl | rfl | rfl | rfl <;> simp [spanFns]
  obtain ⟨q, i, hq, s1, s2⟩ := C82_same_symbol (e := Token.form) src1 src2 n f _ _ .new .new hm
    (viewLike_new (fun _ _ _ _ => rfl) h1 h2 he ha') p m hr
  have e0 : ∀ c : PSt, f.first c = c.advance := by intro c; rcases hf with rfl | rfl | rfl | rfl <;> rfl
  rw [e0] at s1 s2
  have key : ∃ j, j < ts1.length ∧ ((PSt.new (Lexer.new src1)).ahead (j + 1)).lex = ((PSt.new (Lexer.new src1)).ahead (i + 1)).lex ∧
      ((PSt.new (Lexer.new src2)).ahead (j + 1)).lex = ((PSt.new (Lexer.new src2)).ahead (i + 1)).lex := by
    by_cases hi : i < ts1.length
    · exact ⟨i, hi, rfl, rfl⟩
    · obtain ⟨k, hk⟩ := Nat.exists_eq_add_of_le (show ts1.length ≤ i + 1 by omega)
      obtain ⟨_, _, t1⟩ := h1.eof_last (Inv.new src1) he
      obtain ⟨_, _, t2⟩ := h2.eof_last (Inv.new src2) he2
      refine ⟨ts1.length - 1, by omega, ?_, ?_⟩ <;> rw [Nat.sub_add_cancel hpos, hk]
      · rw [ahead_add, stuck_lex t1 k (h1.left_state rfl)]; exact h1.left_state rfl
      · rw [hlen, ahead_add, stuck_lex t2 k (h2.left_state rfl)]; exact h2.left_state rfl
  obtain ⟨j, hj, k1, k2⟩ := key
  have w1 : ((PSt.new (Lexer.new src1)).ahead (j + 1)).startsAt p := by
    have := (ahead_preach (j + 1) (PReach.new (src := src1))).startsAt
    unfold PSt.pos at this
    rw [k1] at this
    have hp : p = ((PSt.new (Lexer.new src1)).ahead (i + 1)).lex.tokStart := by
      have := s1.1; simp only [getPosition, LexRes.ok.injEq, and_true] at this; exact this.symm
    rw [hp]; exact this
  have w2 : ((PSt.new (Lexer.new src2)).ahead (j + 1)).startsAt q := by
    have := (ahead_preach (j + 1) (PReach.new (src := src2))).startsAt
    unfold PSt.pos at this
    rw [k2] at this
    have hp : q = ((PSt.new (Lexer.new src2)).ahead (i + 1)).lex.tokStart := by
      have := s2.1; simp only [getPosition, LexRes.ok.injEq, and_true] at this; exact this.symm
    rw [hp]; exact this
  exact ⟨q, j, ts1[j], ts2[j]'(hlen ▸ hj), hq, List.getElem?_eq_getElem hj, List.getElem?_eq_getElem (hlen ▸ hj),
    h1.seen rfl j hj, w1, h2.seen rfl j (hlen ▸ hj), w2⟩

/-! ### The hypotheses are met -/

/-- Other names, blanks, a line end inside the parentheses and a comment: the error is at the parenthesis in both texts, at 4
in the first and at 8 in the second. -/
example : let _ := asciiUni
    (∃ m, run 80 .fileInput (PSt.new (Lexer.new (cs! "x = (a b)\n"))) = .err 4 m ∧
      run 80 .fileInput (PSt.new (Lexer.new (cs! "xyz  =  (a\n  long) # why\n"))) = .err 8 m) ∧
    ∃ ts1 ts2 l1 l2, Tokens (Lexer.new (cs! "x = (a b)\n")) ts1 l1 ∧
      Tokens (Lexer.new (cs! "xyz  =  (a\n  long) # why\n")) ts2 l2 ∧ (∃ t ∈ ts1, t.kind = .EOF) ∧
      ts1.map Token.form = ts2.map Token.form := by
  intro _
  have hs : ∃ ts1 ts2 l1 l2, Tokens (Lexer.new (cs! "x = (a b)\n")) ts1 l1 ∧
      Tokens (Lexer.new (cs! "xyz  =  (a\n  long) # why\n")) ts2 l2 ∧ (∃ t ∈ ts1, t.kind = .EOF) ∧
      ts1.map Token.form = ts2.map Token.form := sameUpTo_spec (n := 8) (by decide +kernel)
  refine ⟨?_, hs⟩
  obtain ⟨m, hm⟩ := Res.errAt_spec (r := run 80 .fileInput (PSt.new (Lexer.new (cs! "x = (a b)\n")))) (p := 4) (by decide +kernel)
  obtain ⟨m', hm'⟩ := Res.errAt_spec (r := run 80 .fileInput (PSt.new (Lexer.new (cs! "xyz  =  (a\n  long) # why\n")))) (p := 8)
    (by decide +kernel)
  obtain ⟨ts1, ts2, l1, l2, h1, h2, he, ha⟩ := hs
  obtain ⟨q, i, hq, _⟩ := C82_same_symbol (e := Token.form) _ _ 80 .fileInput _ _ .new .new (by simp [spanFns])
    (viewLike_new (fun _ _ _ _ => rfl) h1 h2 he ha) 4 m hm
  rw [hm'] at hq
  cases hq
  exact ⟨m, hm, hm'⟩

end Verif
