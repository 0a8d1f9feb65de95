import Verif.Proof.Subst
import Verif.Spec.Replace

/-!
# C68: a number can be replaced by an expression in brackets
-/

namespace Verif
open XR X

/-- The nonterminals whose sentences leave the state alone. -/
def freePN : PN → Bool
  | .file_input | .eval_input | .single_input | .func_type_input
  | .stmt | .simple_stmt | .small_stmt | .expr_stmt | .del_stmt | .pass_stmt | .flow_stmt | .break_stmt
  | .continue_stmt | .return_stmt | .yield_stmt | .raise_stmt | .import_stmt | .import_from | .import_as_name | .import_as_names
  | .dotted_name | .global_stmt | .nonlocal_stmt | .assert_stmt | .compound_stmt | .async_stmt | .if_stmt | .elif_part | .else_part
  | .while_stmt | .for_stmt | .try_stmt | .except_part | .except_clause | .finally_part | .with_stmt | .with_item | .suite
  | .funcdef | .parameters | .func_body_suite | .classdef => false
  | _ => true

/-- No marks. -/
def XR.stateless : XR → Bool
  | .n x => freePN x
  | .seq a b | .alt a b => a.stateless && b.stateless
  | .opt a | .star a | .only _ a => a.stateless
  | .mark _ => false
  | _ => true

theorem freePN_rule (p : PN) (h : freePN p = true) : (pRule p).stateless = true := by
  cases p <;> first | rfl | simp [freePN] at h

theorem XDer.stateless {r x ts y} (d : XDer pRule r x ts y) : r.stateless = true → y = x ∧ ∀ z, XDer pRule r z ts z := by
  induction d with
  | eps => intro _; exact ⟨rfl, fun _ => .eps⟩
  | absent => intro _; exact ⟨rfl, fun _ => .absent⟩
  | stop => intro _; exact ⟨rfl, fun _ => .stop⟩
  | mark => intro h; simp [XR.stateless] at h
  | k hk => intro _; exact ⟨rfl, fun _ => .k hk⟩
  | any => intro _; exact ⟨rfl, fun _ => .any⟩
  | n _ ih => intro h; obtain ⟨h1, h2⟩ := ih (freePN_rule _ h); exact ⟨h1, fun z => .n (h2 z)⟩
  | seq _ _ ih1 ih2 =>
    intro h
    simp only [XR.stateless, Bool.and_eq_true] at h
    obtain ⟨h1, h2⟩ := ih1 h.1
    obtain ⟨h3, h4⟩ := ih2 h.2
    exact ⟨by rw [h3, h1], fun z => .seq (h2 z) (h4 z)⟩
  | left _ ih =>
    intro h
    simp only [XR.stateless, Bool.and_eq_true] at h
    obtain ⟨h1, h2⟩ := ih h.1
    exact ⟨h1, fun z => .left (h2 z)⟩
  | right _ ih =>
    intro h
    simp only [XR.stateless, Bool.and_eq_true] at h
    obtain ⟨h1, h2⟩ := ih h.2
    exact ⟨h1, fun z => .right (h2 z)⟩
  | present _ ih => intro h; obtain ⟨h1, h2⟩ := ih h; exact ⟨h1, fun z => .present (h2 z)⟩
  | only _ hp ih => intro h; obtain ⟨h1, h2⟩ := ih h; exact ⟨h1, fun z => .only (h2 z) hp⟩
  | more _ _ ih1 ih2 =>
    intro h
    obtain ⟨h1, h2⟩ := ih1 h
    obtain ⟨h3, h4⟩ := ih2 h
    exact ⟨by rw [h3, h1], fun z => .more (h2 z) (h4 z)⟩

theorem star_kind {K x ts y} (d : XDer pRule (.star (.k K)) x ts y) : ∀ v ∈ ts, v.kind = K := by
  generalize hr : XR.star (.k K) = r at d
  induction d with
  | stop => simp
  | more d1 _ _ ih =>
    injection hr with hr
    subst hr
    cases d1 with
    | k hk =>
      intro v hv
      rcases List.mem_append.1 hv with hv | hv
      · simp only [List.mem_singleton] at hv; rw [hv]; exact hk
      · exact ih rfl v hv
  | _ => cases hr

/-- The nonterminals of expressions, and lists of expressions. -/
def testlistPN (p : PN) : Bool := exprPN p || match p with | .testlist_tr => true | _ => false

theorem testlistPN_ends (x : PN) (h : testlistPN x = true) :
    (pRule x).endsIn testlistPN (fun x => lastOf x || x == .PyComa) = true ∧ (pRule x).solid testlistPN = true := by
  cases x <;> first | exact ⟨rfl, rfl⟩ | simp [testlistPN, exprPN] at h

/-- The symbols of an expression that is accepted and does not end with a comma are a list of expressions. -/
theorem SymbolsOf.list [Uni] {e es} (h : SymbolsOf e es) (ha : Accepts .evalInput e) (z : ExcStatus) :
    XDer pRule (X.list (.n .test)) z es z := by
  obtain ⟨nls, x, l, ht, hx, hn, he, hl⟩ := h
  have hne : ∀ v ∈ es ++ nls, v.kind ≠ .EOF := by
    intro v hv
    rcases List.mem_append.1 hv with hv | hv
    · exact he v hv
    · rw [hn v hv]; decide
  obtain ⟨y, d⟩ := (C50_accepted_iff_sentence .evalInput .eval_input e _ x l (by simp) ht hx hne).1 ha
  cases d with
  | n d =>
  simp only [pRule] at d
  generalize hw : es ++ nls ++ [x] = w at d
  cases d with
  | @seq _ _ _ t1 _ r1 _ d1 d2 =>
  cases d2 with
  | @seq _ _ _ n1 _ r2 _ d2 d3 =>
  cases d3 with
  | @k _ x' _ hx' =>
  have h1 : es ++ nls = t1 ++ n1 := by
    rw [← List.append_assoc] at hw
    exact (List.append_inj' hw rfl).1
  have hn1 : ∀ v ∈ n1, v.kind = .Newline := star_kind d2
  have ht1 := XR.endsIn_sound (S := fun x => lastOf x || x == .PyComa) testlistPN_ends d1 rfl
  have hes : es = t1 := by
    have key : ∀ {p q r s : List Token}, p ++ q = r ++ s → (∀ v ∈ q, v.kind = .Newline) → (∀ v, r.getLast? = some v → v.kind ≠ .Newline) →
        ∃ m, p = r ++ m := by
      intro p q r s e hq hr
      rcases List.append_eq_append_iff.1 e with ⟨m, rfl, e2⟩ | ⟨m, rfl, e2⟩
      · rcases List.eq_nil_or_concat m with rfl | ⟨m, v, rfl⟩
        · exact ⟨[], by simp⟩
        · exact absurd (hq v (by rw [e2]; simp)) (hr v (by simp))
      · exact ⟨m, rfl⟩
    obtain ⟨m, h2⟩ := key h1 hn (by
      intro v hv hk
      have := ht1 v hv
      rw [hk] at this
      exact absurd this (by decide))
    obtain ⟨m', h3⟩ := key h1.symm hn1 (fun v hv => (hl v hv).1)
    have := congrArg List.length h2
    have h4 := congrArg List.length h3
    simp only [List.length_append] at this h4
    have : m = [] := List.length_eq_zero_iff.1 (by omega)
    rw [h2, this, List.append_nil]
  subst hes
  have d1 := (d1.stateless rfl).2 z
  cases d1 with
  | n d1 =>
  simp only [pRule, X.listTr] at d1
  generalize hw : es = w at d1
  cases d1 with
  | seq d1 d4 =>
  cases d4 with
  | seq d4 d5 =>
  cases d5 with
  | absent =>
    have e1 := (d1.stateless rfl).1
    subst e1
    have := XDer.seq d1 d4
    rw [List.append_nil]
    exact this
  | present d5 =>
    cases d5 with
    | @k _ c _ hc =>
      exact absurd hc (hl c (by rw [hw]; simp)).2

theorem star_comma {a b : XR} (hab : ∀ {x ts y}, XDer pRule a x ts y → XDer pRule b x ts y) {x ts y}
    (d : XDer pRule (.star (comma ⬝ a)) x ts y) : XDer pRule (.star (comma ⬝ b)) x ts y := by
  generalize hr : XR.star (comma ⬝ a) = r at d
  induction d with
  | stop => exact .stop
  | more d1 _ _ ih =>
    injection hr with hr
    subst hr
    refine .more ?_ (ih rfl)
    cases d1 with
    | seq d1 d2 => exact .seq d1 (hab d2)
  | _ => cases hr

/-- A list of expressions in brackets stands for a number. -/
theorem stands_of_list {es : List Token} (h : ∀ z, XDer pRule (X.list (.n .test)) z es z) {lp rp : Token}
    (hb : (lp.kind, rp.kind) ∈ bracketPairs) : Stands (lp :: es ++ [rp]) := by
  have hmatch : notMatch (lp :: es ++ [rp]) = true := by
    cases lp with
    | name s e tr txt => simp [bracketPairs, Token.kind] at hb
    | _ => rfl
  have hlast : rp.kind ≠ .AtomString ∧ continues.contains rp.kind = false := by
    simp only [bracketPairs, List.mem_cons, Prod.mk.injEq, List.not_mem_nil, or_false] at hb
    rcases hb with ⟨-, h⟩ | ⟨-, h⟩ | ⟨-, h⟩ <;> rw [h] <;> decide
  have named : ∀ {x ts y}, XDer pRule (.n .test) x ts y → XDer pRule elem x ts y := fun d =>
    .left (.n (by have := XDer.seq (b := .opt (k .PyColonAssign ⬝ n .test)) d .absent; rw [List.append_nil] at this; exact this))
  have comp : ∀ z, XDer pRule (.n .testlist_comp) z es z := by
    intro z
    refine .n ?_
    have d := h z
    unfold X.list at d
    cases d with
    | seq d1 d2 => exact XDer.seq (named d1) (.right (star_comma named d2))
  have set : ∀ z, XDer pRule (.n .dictorsetmaker) z es z := by
    intro z
    refine .n (.right ?_)
    have d := h z
    unfold X.list at d
    cases d with
    | seq d1 d2 =>
      have := XDer.seq (XDer.left (b := n .star_expr) d1) (XDer.seq (star_comma (b := starOrTest) (fun d => .left d) d2) (.absent (a := comma)))
      rw [List.append_nil] at this
      exact this
  refine ⟨fun x => .n ?_, hmatch, _, rp, rfl, hlast⟩
  simp only [bracketPairs, List.mem_cons, Prod.mk.injEq, List.not_mem_nil, or_false] at hb
  rcases hb with ⟨h1, h2⟩ | ⟨h1, h2⟩ | ⟨h1, h2⟩
  · exact .left (.seq (ts := [lp]) (.k h1) (.seq (.present (.right (comp x))) (.k h2)))
  · exact .right (.left (.seq (ts := [lp]) (.k h1) (.seq (.present (comp x)) (.k h2))))
  · exact .right (.right (.left (.seq (ts := [lp]) (.k h1) (.seq (set x) (.k h2)))))

/-- What a text is accepted as. -/
def langs : List (Fn × PN) := [(.fileInput, .file_input), (.evalInput, .eval_input), (.funcTypeInput, .func_type_input), (.singleInput, .single_input)]

theorem accepts_lang [Uni] {f p} (h : (f, p) ∈ langs) (src : List Char) : Accepts f src ↔ InLanguage p src := by
  simp only [langs, List.mem_cons, List.not_mem_nil, or_false, Prod.mk.injEq] at h
  rcases h with ⟨rfl, rfl⟩ | ⟨rfl, rfl⟩ | ⟨rfl, rfl⟩ | ⟨rfl, rfl⟩
  · exact C50_file_input_exact src
  · exact C50_eval_input_exact src
  · exact C50_func_type_input_exact src
  · exact C50_single_input_exact src

/-- The last symbol but one of a sentence is not the end of the text. -/
theorem lang_ends {f p} (h : (f, p) ∈ langs) {x us v w y} (d : XDer pRule (.n p) x (us ++ [v, w]) y) : v.kind ≠ .EOF ∨ w.kind ≠ .EOF := by
  simp only [langs, List.mem_cons, List.not_mem_nil, or_false, Prod.mk.injEq] at h
  have whole : p = .file_input ∨ p = .eval_input ∨ p = .func_type_input → v.kind ≠ .EOF ∨ w.kind ≠ .EOF := by
    intro hp
    obtain ⟨vs, g, h1, -, h3⟩ := sentence_ends hp d
    have h1 : (us ++ [v]) ++ [w] = vs ++ [g] := by simpa using h1
    have := (List.append_inj' h1 rfl).1
    exact .inl (h3 v (by rw [← this]; simp))
  rcases h with ⟨-, rfl⟩ | ⟨-, rfl⟩ | ⟨-, rfl⟩ | ⟨-, rfl⟩
  · exact whole (by simp)
  · exact whole (by simp)
  · exact whole (by simp)
  · have := XR.endsIn_sound innerPN_ends d rfl w (by simp)
    exact .inr (by simpa [notEof] using this)

theorem replaced [Uni] {f p} (hf : (f, p) ∈ langs) {src src' : List Char} {a b ts' w : List Token} {u x : Token} {l l' : Lexer}
    (hw : Stands w) (hs : Tokens (Lexer.new src) (a ++ u :: (b ++ [x])) l) (hx : x.kind = .EOF) (hu : u.kind = .AtomNumber)
    (hp : PrevOk a) (hs' : Tokens (Lexer.new src') ts' l') (ha : Alike (a ++ w ++ (b ++ [x])) ts') (hacc : Accepts f src) :
    Accepts f src' := by
  rw [accepts_lang hf] at hacc ⊢
  obtain ⟨us, l1, y, h1, d⟩ := hacc
  have finish : ∀ vs vs', XDer pRule (.n p) .exceptNone vs y → vs ++ vs' = a ++ w ++ (b ++ [x]) → InLanguage p src' := by
    intro vs vs' d e
    rw [← e] at ha
    obtain ⟨t1, t2, rfl, i1, -⟩ := ha.split
    obtain ⟨l2, h2⟩ := hs'.take
    exact ⟨t1, l2, y, h2, d.alike _ i1 trivial⟩
  rcases Nat.le_total us.length a.length with hl | hl
  · obtain ⟨m, hm⟩ := h1.det hs (by simp; omega)
    obtain ⟨k, hk⟩ : ∃ k, a = us ++ k := by
      rcases List.append_eq_append_iff.1 hm with ⟨k, hk, -⟩ | ⟨k, hk, -⟩
      · exact ⟨k, hk⟩
      · have := congrArg List.length hk
        simp only [List.length_append] at this
        have : k = [] := List.length_eq_zero_iff.1 (by omega)
        exact ⟨[], by rw [hk, this]; simp⟩
    exact finish us (k ++ w ++ (b ++ [x])) d (by rw [hk]; simp)
  · rcases Nat.le_total us.length (a ++ u :: (b ++ [x])).length with hl2 | hl2
    · obtain ⟨m, hm⟩ := h1.det hs hl2
      rcases List.append_eq_append_iff.1 hm with ⟨k, hk, e⟩ | ⟨k, hk, e⟩
      · have := congrArg List.length hk
        simp only [List.length_append] at this
        have : k = [] := List.length_eq_zero_iff.1 (by omega)
        subst this
        rw [List.append_nil] at hk
        exact finish us (w ++ (b ++ [x])) d (by rw [← hk]; simp)
      · cases k with
        | nil =>
          rw [List.append_nil] at hk
          exact finish us (w ++ (b ++ [x])) d (by rw [← hk]; simp)
        | cons v k =>
          simp only [List.cons_append, List.cons.injEq] at e
          obtain ⟨rfl, e⟩ := e
          rcases d.subst hw a u k hk hu hp trivial (fun _ => trivial) with d' | ⟨h, -⟩
          · exact finish (a ++ w ++ k) m d' (by rw [e]; simp)
          · cases h
    · obtain ⟨m, hm⟩ := hs.det h1 hl2
      rcases List.eq_nil_or_concat m with rfl | ⟨m, z, rfl⟩
      · rw [List.append_nil] at hm
        rcases d.subst hw a u (b ++ [x]) hm.symm hu hp trivial (fun _ => trivial) with d' | ⟨h, -⟩
        · exact finish _ [] d' (by simp)
        · cases h
      · exfalso
        rw [List.concat_eq_append] at hm
        have hz : ∀ v ∈ x :: (m ++ [z]), v.kind = .EOF :=
          h1.all_eof (Inv.new src) hx (a := a ++ u :: b) (by rw [← hm]; simp)
        have : ∃ q v, us = q ++ [v, z] ∧ v.kind = .EOF := by
          rcases List.eq_nil_or_concat m with rfl | ⟨m, v, rfl⟩
          · exact ⟨a ++ u :: b, x, by rw [← hm]; simp, hx⟩
          · rw [List.concat_eq_append] at hm hz
            exact ⟨a ++ u :: (b ++ [x]) ++ m, v, by rw [← hm]; simp, hz v (by simp)⟩
        obtain ⟨q, v, rfl, hv⟩ := this
        rcases lang_ends hf d with h | h
        · exact h hv
        · exact h (hz z (by simp))

/-- C68: let `src` be a text whose symbols are `a`, a number, `b` and the end, where the number does not directly follow the end
of an expression or the word `with`, and let `e` be a text that is accepted as an expression, with symbols `es` of which the last
is no comma.  If `src` is accepted, then so is every text whose symbols are, apart from positions and spelling, `a`, a left bracket,
`es`, the matching right bracket, and `b`. -/
theorem C68_number_replaced [Uni] (f : Fn) (hf : f ∈ [Fn.fileInput, .evalInput, .funcTypeInput, .singleInput])
    (src src' e : List Char) (a b es ts' : List Token) (u x lp rp : Token) (l l' : Lexer)
    (hs : Tokens (Lexer.new src) (a ++ u :: (b ++ [x])) l) (hx : x.kind = .EOF) (hu : u.kind = .AtomNumber)
    (hp : ∀ v, a.getLast? = some v → v.kind ∉ endsExpression ∧ v.kind ≠ .PyWith)
    (he : Accepts .evalInput e) (hes : SymbolsOf e es) (hb : (lp.kind, rp.kind) ∈ bracketPairs)
    (hs' : Tokens (Lexer.new src') ts' l') (ha : Alike (a ++ (lp :: es ++ [rp]) ++ (b ++ [x])) ts')
    (hacc : Accepts f src) : Accepts f src' := by
  have : ∃ p, (f, p) ∈ langs := by
    simp only [List.mem_cons, List.not_mem_nil, or_false] at hf
    rcases hf with rfl | rfl | rfl | rfl <;> simp [langs]
  obtain ⟨p, hf⟩ := this
  refine replaced hf (stands_of_list (hes.list he) hb) hs hx hu ?_ hs' ha hacc
  intro v hv
  obtain ⟨h1, h2⟩ := hp v hv
  cases hc : lastOf v.kind with
  | false => rfl
  | true =>
    exfalso
    simp only [lastOf, endsExpression, List.contains_eq_mem, List.mem_cons, List.not_mem_nil, or_false, decide_eq_true_eq, not_or] at hc h1
    obtain ⟨g1, g2, g3, g4, g5, g6, g7, g8, g9, g10⟩ := h1
    rcases hc with h | h | h | h | h | h | h | h | h | h | h <;> contradiction

/-! ### The hypotheses are met, and needed -/

theorem firstTokens_length [Uni] : ∀ {n l ts}, firstTokens n l = some ts → ts.length = n
  | 0, l, ts, h => by cases h; rfl
  | m + 1, l, ts, h => by
    unfold firstTokens at h
    split at h
    · rename_i t l1 hg
      cases hr : firstTokens m l1 with
      | none => simp [hr] at h
      | some us => simp [hr] at h; subst h; simp [firstTokens_length hr]
    · simp at h

/-- A check of the hypotheses: the texts have `n + 1`, `m + 1` and `k` symbols, the number is the one after the first `i`, and the
last symbol of the expression that is neither a line end nor the end of the text is the one after the first `j`. -/
def replaceable [Uni] (n i m j k : Nat) (src src' e : List Char) : Bool :=
  match firstTokens (n + 1) (Lexer.new src), firstTokens (m + 1) (Lexer.new e), firstTokens k (Lexer.new src') with
  | some ts, some us, some vs =>
    (ts[n]?.any (·.kind == .EOF)) && (ts[i]?.any (·.kind == .AtomNumber)) && i < n &&
    ((ts.take i).getLast?.all fun v => !endsExpression.contains v.kind && v.kind != .PyWith) &&
    (us[m]?.any (·.kind == .EOF)) && j < m && ((us.take m).drop (j + 1)).all (·.kind == .Newline) &&
    (us.take (j + 1)).all (·.kind != .EOF) && (us[j]?.any fun v => v.kind != .Newline && v.kind != .PyComa) &&
    (vs.map fun t => (t.kind, t.isMatch)) ==
      (ts.take i ++ (Token.sym .PyLeftParen 0 0 none :: us.take (j + 1) ++ [Token.sym .PyRightParen 0 0 none]) ++
        ((ts.drop (i + 1)).take (n - i - 1) ++ ts.drop n)).map fun t => (t.kind, t.isMatch)
  | _, _, _ => false

theorem replaceable_spec [Uni] {n i m j k src src' e f} (h : replaceable n i m j k src src' e = true) (he : Accepts .evalInput e)
    (hf : f ∈ [Fn.fileInput, .evalInput, .funcTypeInput, .singleInput]) (ha : Accepts f src) : Accepts f src' := by
  unfold replaceable at h
  split at h
  · rename_i ts us vs h1 h2 h3
    obtain ⟨l1, t1⟩ := firstTokens_spec _ _ _ h1
    obtain ⟨l2, t2⟩ := firstTokens_spec _ _ _ h2
    obtain ⟨l3, t3⟩ := firstTokens_spec _ _ _ h3
    have lts := firstTokens_length h1
    have lus := firstTokens_length h2
    simp only [Bool.and_eq_true, decide_eq_true_eq, beq_iff_eq] at h
    obtain ⟨⟨⟨⟨⟨⟨⟨⟨⟨g1, g2⟩, g3⟩, g4⟩, g5⟩, g6⟩, g7⟩, g8⟩, g9⟩, g10⟩ := h
    have hi : i < ts.length := by omega
    have hn : n < ts.length := by omega
    have hm : m < us.length := by omega
    have hj : j < us.length := by omega
    have en : ts.drop n = [ts[n]] := by rw [List.drop_eq_getElem_cons hn, List.drop_eq_nil_iff.2 (by omega)]
    have e1 : ts = ts.take i ++ ts[i] :: ((ts.drop (i + 1)).take (n - i - 1) ++ [ts[n]]) := by
      conv => lhs; rw [← List.take_append_drop i ts, List.drop_eq_getElem_cons hi,
        ← List.take_append_drop (n - i - 1) (ts.drop (i + 1)), List.drop_drop, show i + 1 + (n - i - 1) = n by omega, en]
    have em : us.drop m = [us[m]] := by rw [List.drop_eq_getElem_cons hm, List.drop_eq_nil_iff.2 (by omega)]
    have e2 : us = us.take (j + 1) ++ (us.take m).drop (j + 1) ++ [us[m]] := by
      conv => lhs; rw [← List.take_append_drop m us, em, ← List.take_append_drop (j + 1) (us.take m), List.take_take,
        show min (j + 1) m = j + 1 by omega]
    rw [e1] at t1
    rw [e2] at t2
    rw [en] at g10
    rw [List.getElem?_eq_getElem hn, Option.any_some, beq_iff_eq] at g1
    rw [List.getElem?_eq_getElem hi, Option.any_some, beq_iff_eq] at g2
    rw [List.getElem?_eq_getElem hm, Option.any_some, beq_iff_eq] at g5
    rw [List.getElem?_eq_getElem hj, Option.any_some] at g9
    refine C68_number_replaced f hf src src' e _ _ (us.take (j + 1)) vs _ _ (.sym .PyLeftParen 0 0 none) (.sym .PyRightParen 0 0 none)
      _ _ t1 g1 g2 ?_ he ⟨_, _, _, t2, g5, ?_, ?_, ?_⟩ (by simp [bracketPairs, Token.kind]) t3 (Alike.of_map g10.symm) ha
    · intro v hv
      rw [hv] at g4
      simpa using g4
    · intro v hv
      simpa using List.all_eq_true.1 g7 v hv
    · intro v hv
      simpa using List.all_eq_true.1 g8 v hv
    · intro v hv
      rw [List.take_succ_eq_append_getElem hj, List.getLast?_concat] at hv
      injection hv with hv
      subst hv
      simpa using g9
  · cases h

/-- The number in `x = 1 + y⏎` is replaced by `a or b` in parentheses. -/
example : @Accepts asciiUni .fileInput (cs! "x = (a or b) + y\n") := by
  let _ := asciiUni
  exact replaceable_spec (n := 6) (i := 2) (m := 3) (j := 2) (k := 11) (src := cs! "x = 1 + y\n") (e := cs! "a or b") (by decide +kernel)
    (Res.accepts (m := 100) (by decide +kernel)) (by simp) (Res.accepts (m := 100) (by decide +kernel))

theorem Res.rejects [Uni] {m f src} (h : (run m f (PSt.new (Lexer.new src))).isErr = true) : ¬ Accepts f src := by
  rintro ⟨n, t, c, h2⟩
  obtain ⟨p, e, h1⟩ := Res.of_isErr h
  have := run_det (n := m) (m := n) (f := f) (c := PSt.new (Lexer.new src)) (by rw [h1]; simp) (by rw [h2]; simp)
  rw [h1, h2] at this
  cases this

/-- C68, the exceptions: a number after `with`, a number that the parser takes for the second colon of a slice, and an expression
that ends with a comma. -/
theorem C68_exceptions :
    let _ := asciiUni
    (Accepts .fileInput (cs! "with 1, 2: a\n") ∧ ¬ Accepts .fileInput (cs! "with (1), 2: a\n")) ∧
    (Accepts .fileInput (cs! "a[1:2 3]\n") ∧ ¬ Accepts .fileInput (cs! "a[1:2 (3)]\n")) ∧
    (Accepts .evalInput (cs! "1,") ∧ Accepts .fileInput (cs! "a + 1\n") ∧ ¬ Accepts .fileInput (cs! "a + (1,)\n")) := by
  intro _
  exact ⟨⟨Res.accepts (m := 100) (by decide +kernel), Res.rejects (m := 100) (by decide +kernel)⟩,
    ⟨Res.accepts (m := 100) (by decide +kernel), Res.rejects (m := 100) (by decide +kernel)⟩,
    ⟨Res.accepts (m := 100) (by decide +kernel), Res.accepts (m := 100) (by decide +kernel), Res.rejects (m := 100) (by decide +kernel)⟩⟩

end Verif
