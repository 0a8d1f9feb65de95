import Verif.Proof.Block
import Verif.Proof.LGIndent
import Verif.Props.Split
import Verif.Props.Replace

/-!
# C72 The body of a block can be replaced by the statements of a file
-/

namespace Verif
open XR LG

theorem bare_kind (t : Token) : t.bare.kind = t.kind := by cases t <;> rfl

/-- Symbols before the end of the text. -/
theorem tokens_cmp [Uni] {l xs l1 ys e l2} (h : Tokens l xs l1) (hx : ∀ t ∈ xs, t.kind ≠ .EOF) (h' : Tokens l (ys ++ [e]) l2)
    (he : e.kind = .EOF) : ∃ zs, ys = xs ++ zs ∧ Tokens l1 (zs ++ [e]) l2 := by
  have hlen : xs.length ≤ (ys ++ [e]).length := by
    rcases Nat.le_total xs.length (ys ++ [e]).length with h1 | h1
    · exact h1
    · obtain ⟨zs, rfl, -⟩ := tokens_rest h' h h1
      exact absurd he (hx e (by simp))
  obtain ⟨zs, hz, h3⟩ := tokens_rest h h' hlen
  rcases List.eq_nil_or_concat zs with rfl | ⟨us, f, rfl⟩
  · exact absurd he (hx e (by rw [List.append_nil] at hz; rw [← hz]; simp))
  · rw [List.concat_eq_append] at hz h3
    rw [← List.append_assoc] at hz
    obtain ⟨e1, e2⟩ := List.append_inj' hz rfl
    cases e2
    exact ⟨us, e1, h3⟩

/-- No line end symbol comes first, or after a line end or the end of a block. -/
def NoBlank (ts : List Token) : Prop :=
  ∀ p v s, ts = p ++ v :: s → (∀ u, p.getLast? = some u → u.kind = .Newline ∨ u.kind = .Dedent) → v.kind ≠ .Newline

theorem tokens_noBlank [Uni] {src ts l} (h : Tokens (Lexer.new src) ts l) : NoBlank ts := by
  rintro p v s rfl hp
  obtain ⟨l1, h1, h2⟩ := tokens_split h
  cases h2 with
  | cons h2 _ =>
    refine not_newline (h1.reach .new) ?_ h2
    rcases List.eq_nil_or_concat p with rfl | ⟨us, f, rfl⟩
    · cases h1; exact .inl rfl
    · rw [List.concat_eq_append] at h1 hp
      obtain ⟨l0, h3, h4⟩ := h1.snoc
      exact after_layout (h3.reach .new) h4 (hp f (by simp))

theorem star_stmts {h x ts y} (d : XN h (star (.k .Newline ∥ .n .stmt)) x ts y) : NoBlank ts → XN h (star (.n .stmt)) x ts y := by
  refine XN.star_ind (P := fun x ts y => NoBlank ts → XN h (star (.n .stmt)) x ts y) (fun _ _ => .stop) ?_ d
  intro x ts z us y d1 d2 ih hb
  cases d1 with
  | left d1 =>
    obtain ⟨t, rfl, ht, -⟩ := xn_k.1 d1
    exact absurd ht (hb [] t us rfl (by simp))
  | right d1 =>
    refine .more d1 (ih ?_)
    rintro p v s rfl hp
    refine hb (ts ++ p) v s (by simp) ?_
    intro u hu
    rw [List.getLast?_append] at hu
    cases hl : p.getLast? with
    | some w => rw [hl] at hu; simp at hu; subst hu; exact hp _ hl
    | none =>
      rw [hl] at hu
      have := d1.closed (by decide +kernel) u (by simpa using hu)
      simpa using this

/-- What follows at the end of a text. -/
theorem end_kinds [Uni] : ∀ {ts : List Token} {p q}, Run p ts q → p.text = [] → p.owed ≤ 0 → p.closers = [] →
    (∀ t ∈ ts, t.kind ≠ .EOF) → ts = List.replicate ts.length (.dedent none) := by
  intro ts
  induction ts with
  | nil => intros; rfl
  | cons t ts ih =>
    intro p q h hp ho hc hne
    cases h with
    | cons h1 h2 =>
      have key : ∀ {bl q0}, Enter p bl q0 → q0.owed ≤ 0 ∧ q0.text = [] ∧ q0.closers = [] := by
        intro bl q0 he
        refine ⟨?_, he.text_nil hp, he.closers.trans hc⟩
        cases he with
        | deeper _ h1 _ _ _ h2 => rw [hp] at h1; simp [LG.margin] at h1; omega
        | @shallower _ _ out => dsimp only; omega
        | _ => exact ho
      cases h1 with
      | indent he h => obtain ⟨k1, -⟩ := key he; omega
      | newline he _ _ hs hl =>
        obtain ⟨-, k2, -⟩ := key he
        rw [k2] at hs
        cases skips_nil hs
        cases hl
      | word he _ hs hw =>
        obtain ⟨-, k2, -⟩ := key he
        rw [k2] at hs
        cases skips_nil hs
        obtain ⟨rfl, -⟩ := hw.nil
        exact absurd rfl (hne _ List.mem_cons_self)
      | dedent he h =>
        obtain ⟨k1, k2, k3⟩ := key he
        have := ih h2 k2 (by dsimp only; omega) k3 (fun t ht => hne t (List.mem_cons_of_mem _ ht))
        rw [List.length_cons, List.replicate_succ, ← this]

theorem indSum_bare (ts : List Token) : indSum (ts.map Token.bare) = indSum ts := by
  simp [indSum, Function.comp_def, bare_kind]

theorem indSum_dedents (n : Nat) : indSum (List.replicate n (Token.dedent none)) = - (n : Int) := by
  induction n with
  | zero => rfl
  | succ n ih =>
    have : indSum (List.replicate (n + 1) (Token.dedent none)) = -1 + indSum (List.replicate n (Token.dedent none)) := by
      simp [List.replicate_succ, indSum, Token.kind, Kind.ind]
    rw [this, ih]; omega

theorem Alike.refl : ∀ a, Alike a a
  | [] => .nil
  | _ :: a => .cons ⟨rfl, rfl⟩ (Alike.refl a)

theorem Alike.trans {a b c} (h : Alike a b) (h' : Alike b c) : Alike a c := by
  induction h generalizing c with
  | nil => exact h'
  | cons h1 _ ih => cases h' with | cons h2 h3 => exact .cons ⟨h1.1.trans h2.1, h1.2.trans h2.2⟩ (ih h3)

theorem Alike.kinds {a b} (h : Alike a b) : a.map Token.kind = b.map Token.kind := by
  induction h with
  | nil => rfl
  | cons h _ ih => simp [h.1, ih]

theorem Alike.indSum {a b} (h : Alike a b) : indSum a = indSum b := by
  have : ∀ xs : List Token, Verif.indSum xs = ((xs.map Token.kind).map Kind.ind).sum := by intro xs; simp [Verif.indSum, Function.comp_def]
  rw [this, this, h.kinds]

theorem Alike.all {a b} (h : Alike a b) {P : Kind → Prop} (ha : ∀ t ∈ a, P t.kind) : ∀ t ∈ b, P t.kind := by
  induction h with
  | nil => intro t ht; cases ht
  | cons h _ ih =>
    intro t ht
    rcases List.mem_cons.1 ht with rfl | ht
    · rw [← h.1]; exact ha _ (by simp)
    · exact ih (fun t ht => ha t (List.mem_cons_of_mem _ ht)) t ht

theorem Alike.blocks {a b} (h : Alike a b) (ha : Blocks a) : Blocks b := by
  refine ⟨by rw [← h.indSum]; exact ha.1, ?_⟩
  rintro u v rfl
  obtain ⟨u', v', rfl, h1, -⟩ := h.symm.split
  rw [h1.indSum]
  exact ha.2 u' v' rfl

/-- After the end of the text there is no line end. -/
theorem eof_last [Uni] {p q : Place} {ts us : List Token} {t n : Token} (h : Run p (ts ++ t :: (us ++ [n])) q) (h0 : '\x00' ∉ p.text)
    (ht : t.kind = .EOF) : n.kind ≠ .Newline := by
  intro hn
  have e : ts ++ t :: (us ++ [n]) = (ts ++ [t]) ++ (us ++ [n]) := by simp
  rw [e] at h
  obtain ⟨q1, h1, h2⟩ : ∃ q1, Run p (ts ++ [t]) q1 ∧ Run q1 (us ++ [n]) q := by
    generalize ts ++ [t] = xs at h
    clear h0 e
    induction xs generalizing p with
    | nil => exact ⟨p, .nil, h⟩
    | cons x xs ih => cases h with | cons h1 h2 => obtain ⟨q1, a, b⟩ := ih h2; exact ⟨q1, .cons h1 a, b⟩
  obtain ⟨w, e1⟩ := h1.suffix
  obtain ⟨q0, -, h3⟩ := h1.snoc
  have hq1 : q1.text = [] := by
    cases h3 with
    | dedent => cases ht
    | indent => cases ht
    | newline => cases ht
    | word _ _ _ hw =>
      obtain ⟨h4, -, rfl⟩ := hw.atEof ht
      rcases h4 with h4 | h4
      · exact h4
      · refine absurd ?_ h0
        rw [e1]
        exact List.mem_append_right _ (List.mem_of_mem_head? (by rw [h4]; rfl))
  obtain ⟨q2, h5, h6⟩ := h2.snoc
  obtain ⟨w', e2⟩ := h5.suffix
  rw [hq1] at e2
  have := h6.newline_lt hn
  rw [(List.append_eq_nil_iff.1 e2.symm).2] at this
  simp at this

theorem newline_place [Uni] {p q : Place} {n : Token} (h : Next p n q) (hn : n.kind = .Newline) :
    q.fresh = true ∧ q.closers = [] ∧ q.owed = 0 := by
  cases h with
  | dedent => cases hn
  | indent => cases hn
  | word _ _ _ hw => exact absurd hn hw.notLayout.1
  | newline _ ho hc => exact ⟨rfl, hc, ho⟩

/-- The symbols of the body. -/
structure BodySymbols [Uni] (F : List Char) (gs : List Token) (n : Token) (q : Place) : Prop where
  run : Run (.start F) (gs ++ [n]) q
  newline : n.kind = .Newline
  text : q.text = []
  last : q.levels.getLast? = some 0
  num : ∀ txt, Token.number 0 0 none txt ∈ gs → '\n' ∉ txt
  noEof : ∀ t ∈ gs, t.kind ≠ .EOF
  noTry : ∀ t ∈ gs, t.kind ≠ .PyTry
  blocks : Blocks (gs ++ n :: List.replicate (q.levels.length - 1) (.dedent none))
  stmts : ∀ x, XDer pRule (plus (.n .stmt)) x (gs ++ n :: List.replicate (q.levels.length - 1) (.dedent none)) x
  all : ∃ f e l, Tokens (Lexer.new F) (f ++ [e]) l ∧ e.kind = .EOF ∧ (∀ t ∈ f, t.kind ≠ .EOF) ∧
    f.map Token.bare = gs ++ n :: List.replicate (q.levels.length - 1) (.dedent none)

theorem body_symbols [Uni] {F : List Char} (ha : Accepts .fileInput F) (hF : BodyText F) : ∃ gs n q, BodySymbols F gs n q := by
  obtain ⟨hc, hcr, h0, ts, n, l, h1, hn, hi, hnum, htry⟩ := hF
  obtain ⟨fs, e, le, y, g1, g2, g3, g4, g5, g6, g7⟩ := accepted_symbols ha
  have hreach := h1.reach .new
  have htext : l.place.text = [] := by
    show l.buf.chars.drop l.buf.index = _
    rw [hreach.inv.chars, hi, List.drop_length]
  have hrun := (C55_symbols F _ _).1 ⟨_, _, h1, rfl, rfl⟩
  rw [List.map_append] at hrun
  -- the end of the text is not among the symbols
  have hne : ∀ t ∈ ts, t.kind ≠ .EOF := by
    intro t ht hk
    obtain ⟨p, s, rfl⟩ := List.append_of_mem ht
    refine eof_last (ts := p.map Token.bare) (t := t.bare) (us := s.map Token.bare) (n := n.bare) (by simpa using hrun) h0
      ((bare_kind t).trans hk) ((bare_kind n).trans hn)
  have hne' : ∀ t ∈ ts ++ [n], t.kind ≠ .EOF := by
    intro t ht
    rcases List.mem_append.1 ht with ht | ht
    · exact hne t ht
    · rw [List.mem_singleton.1 ht, hn]; decide
  obtain ⟨ds, rfl, hd⟩ := tokens_cmp h1 hne' g1 g2
  have hbol : l.place.fresh = true ∧ l.place.closers = [] ∧ l.place.owed = 0 := by
    obtain ⟨q', -, h2⟩ := hrun.snoc
    exact newline_place h2 ((bare_kind n).trans hn)
  have hlen : (l.place.levels.length - 1 : Int) = indSum (ts ++ [n]) ∧ l.place.levels.getLast? = some 0 := by
    obtain ⟨c1, -, -, c4⟩ := C10_indent_dedent_balance _ _ _ h1.returned
    have : l.pending = 0 := hbol.2.2
    rw [← indSum_count, this] at c1
    exact ⟨by rw [c1]; show (l.indents.length - 1 : Int) = _; omega, c4⟩
  have hds : ds.map Token.bare = List.replicate (l.place.levels.length - 1) (.dedent none) := by
    have hr := run_of_tokens hreach hd
    rw [List.map_append] at hr
    obtain ⟨q', hr, -⟩ := hr.snoc
    have hk := end_kinds hr htext (by rw [hbol.2.2]; omega) hbol.2.1 (by
      intro t ht
      obtain ⟨t', h, rfl⟩ := List.mem_map.1 ht
      rw [bare_kind]
      exact g3 t' (List.mem_append_right _ h))
    have hs : indSum (ts ++ [n] ++ ds) = 0 := by rw [indSum_count, g6]; omega
    rw [indSum_append, ← hlen.1, ← indSum_bare ds, hk, indSum_dedents] at hs
    rw [hk]
    congr 1
    omega
  have halike : Alike ((ts ++ [n]) ++ ds) (ts.map Token.bare ++ n.bare :: List.replicate (l.place.levels.length - 1) (.dedent none)) := by
    rw [← hds]
    have := alike_bare ((ts ++ [n]) ++ ds)
    simpa using this
  obtain ⟨j, d, hf⟩ := file_open g7
  have hdk : ∀ t ∈ ds, t.kind = .Dedent := by
    intro t ht
    have : t.bare ∈ ds.map Token.bare := List.mem_map_of_mem ht
    rw [hds] at this
    rw [← bare_kind, List.eq_of_mem_replicate this]; rfl
  have htry' : ∀ t ∈ (ts ++ [n]) ++ ds, t.kind ≠ .PyTry := by
    intro t ht
    simp only [List.mem_append, List.mem_singleton] at ht
    rcases ht with (ht | rfl) | ht
    · exact htry t ht
    · rw [hn]; decide
    · rw [hdk t ht]; decide
  have hbr : brSum (ts ++ [n] ++ ds) = 0 := by simpa using br_run g5
  have hout : Outside 0 (ts ++ [n] ++ ds) := by
    rintro p t s e ht
    rw [e, List.append_assoc] at g1
    simpa using br_run (layout_outside g1 ht)
  have hS := d.toXS.1 (by decide) ⟨trivial, trivial⟩ 0 hbr (by decide) hout
  have hB : Blocks (ts ++ [n] ++ ds) := ⟨by rw [hS.net (by decide)]; rfl,
    fun u v e => by simpa using hS.pre (by decide) 0 (by omega) (by decide) u v e⟩
  have hst := star_stmts d (fun p v s e' => tokens_noBlank g1 p v (s ++ [e]) (by rw [e']; simp))
  refine ⟨ts.map Token.bare, n.bare, l.place, hrun, (bare_kind n).trans hn, htext, hlen.2, ?_, ?_, ?_, halike.blocks hB, ?_,
    _, e, le, g1, g2, g3, by rw [← hds]; simp⟩
  · intro txt hm
    obtain ⟨t, ht, e⟩ := List.mem_map.1 hm
    cases t with
    | number s e' tr txt' => cases e; exact hnum s e' tr _ ht
    | _ => cases e
  · intro t ht
    obtain ⟨t', h, rfl⟩ := List.mem_map.1 ht
    rw [bare_kind]; exact hne t' h
  · intro t ht
    obtain ⟨t', h, rfl⟩ := List.mem_map.1 ht
    rw [bare_kind]; exact htry t' h
  · intro x
    obtain ⟨z, d'⟩ := hst.anyState (by decide) x
    have hS' := d'.toXS.1 (by decide) trivial 0 hbr (by decide) hout
    have := hS'.calm (by decide) htry'
    subst this
    generalize hfs : ts ++ [n] ++ ds = fs at *
    cases d' with
    | stop => simp at hfs
    | more d1 d2 => exact (XDer.seq d1.xder d2.xder).alike _ halike ⟨trivial, trivial⟩

theorem LG.Word.notIndent [Uni] {st cs t st' r} (h : Word st cs t st' r) : t.kind ≠ .Indent := by
  cases h with
  | operator h =>
    have : ∀ p ∈ operators, p.2 ≠ Kind.Indent := by decide
    exact this _ h.1
  | keyword h =>
    have : ∀ p ∈ pyKeywords, p.2 ≠ Kind.Indent := by decide
    exact this _ h
  | _ => simp [Token.kind]

theorem BodyText.lines [Uni] {F : List Char} (h : BodyText F) : Lines F := by
  obtain ⟨-, h1, h2, ts, n, l, h3, h4, h5, -⟩ := h
  refine ⟨?_, h1, h2⟩
  have hrun := (C55_symbols F _ _).1 ⟨_, _, h3, rfl, rfl⟩
  rw [List.map_append] at hrun
  have htext : l.place.text = [] := by
    show l.buf.chars.drop l.buf.index = _
    rw [(h3.reach .new).inv.chars, h5, List.drop_length]
  obtain ⟨q', g1, g2⟩ := hrun.snoc
  obtain ⟨w, e⟩ := g1.suffix
  have hk := (bare_kind n).trans h4
  generalize n.bare = m at *
  generalize l.place = q at *
  cases g2 with
  | dedent => cases hk
  | indent => cases hk
  | word _ _ _ hw => exact absurd hk hw.notLayout.1
  | @newline _ cs _ he _ _ hs hl =>
    obtain ⟨w2, e2⟩ := he.suffix
    obtain ⟨w3, e3⟩ := hs.suffix
    dsimp only at htext
    subst htext
    have e : F = w ++ (w2 ++ w3) ++ cs := by
      rw [show F = (Place.start F).text from rfl, e, e2, e3]; simp
    generalize hr : ([] : List Char) = r at hl
    cases hl with
    | lf => subst hr; exact ⟨_, e⟩
    | cr => exact absurd (by rw [e]; simp) h1
    | crlf => exact absurd (by rw [e]; simp) h1

theorem body_swap [Uni] {a F G b : List Char} {k : Nat} {as : List Token} {L : List Nat} {top col : Nat} {cs : List Char}
    (hF : BodyText F) (hG : BodyText G) (aF : Accepts .fileInput F) (aG : Accepts .fileInput G)
    (tF : '\t' ∉ F ∨ k % 4 = 0) (tG : '\t' ∉ G ∨ k % 4 = 0)
    (rF : Run (.start (a ++ (indentLines k F ++ b))) as ⟨true, [], L, 0, indentLines k F ++ b⟩)
    (rG : Run (.start (a ++ (indentLines k G ++ b))) as ⟨true, [], L, 0, indentLines k G ++ b⟩)
    (hne : ∀ t ∈ as, t.kind ≠ .EOF) (hL : L.head? = some top) (hL0 : L.getLast? = some 0) (htop : top < k)
    (hb : LG.margin 0 b = (col, cs)) (hn : ¬ NoCode cs) (hk : col < k)
    (h : Accepts .fileInput (a ++ (indentLines k F ++ b))) : Accepts .fileInput (a ++ (indentLines k G ++ b)) := by
  obtain ⟨gsF, nF, qF, bF⟩ := body_symbols aF hF
  obtain ⟨gsG, nG, qG, bG⟩ := body_symbols aG hG
  obtain ⟨q, hq⟩ := after_of (k := k) hb hn hk hL0
  obtain ⟨gsF', alF, -, xF⟩ := body_run hF.1 hF.lines tF bF.run bF.newline bF.text bF.last bF.num bF.noEof hL htop hq
  obtain ⟨gsG', alG, -, xG⟩ := body_run hG.1 hG.lines tG bG.run bG.newline bG.text bG.last bG.num bG.noEof hL htop hq
  have xF := run_follow rF xF
  have xG := run_follow rG xG
  -- the symbols of the first text
  obtain ⟨vs, lv, v1, v2, v3⟩ := (C55_symbols _ _ _).2 xF
  obtain ⟨ws, e, lw, y, w1, w2, w3, w4, w5, w6, w7⟩ := accepted_symbols h
  have hvs : ∀ t ∈ vs, t.kind ≠ .EOF := by
    intro t ht
    have : t.bare ∈ vs.map Token.bare := List.mem_map_of_mem ht
    rw [v2] at this
    rw [← bare_kind]
    simp only [List.mem_append, List.mem_cons, List.not_mem_nil, or_false, List.cons_append] at this
    rcases this with h | h | (h | h | h) | h
    · exact hne _ h
    · rw [h]; decide
    · exact alF.all (P := (· ≠ .EOF)) bF.noEof _ h
    · rw [h, bF.newline]; decide
    · rw [List.eq_of_mem_replicate h]; decide
    · rw [h]; decide
  obtain ⟨zs, rfl, hz⟩ := tokens_cmp v1 hvs w1 w2
  have hrz := run_of_tokens (v1.reach .new) hz
  rw [v3] at hrz
  -- the symbols of the second text
  obtain ⟨us, lu, u1, u2, -⟩ := (C55_symbols _ _ _).2 (run_follow xG hrz)
  -- the derivation
  obtain ⟨j, d, hf⟩ := file_open w7
  have hbr : brSum (vs ++ zs) = 0 := by simpa using br_run w5
  have hout : Outside 0 (vs ++ zs) := by
    rintro p t s e ht
    rw [e, List.append_assoc] at w1
    simpa using br_run (layout_outside w1 ht)
  have hS := d.toXS.1 (by decide) ⟨trivial, trivial⟩ 0 hbr (by decide) hout
  have hvb := alike_bare vs
  rw [v2] at hvb
  obtain ⟨asF, xs1, e1, al1, al2⟩ := hvb.symm.split
  cases al2 with
  | @cons _ i _ xs2 hi al2 =>
    obtain ⟨body, xs3, e2, al3, al4⟩ := al2.split
    cases al4 with
    | @cons _ o _ xs4 ho al4 =>
      cases al4
      subst e2
      have alb : Alike (gsF ++ nF :: List.replicate (qF.levels.length - 1) (.dedent none)) body := by
        have := (alF.append (Alike.refl _)).trans al3
        exact this
      have dG := hS.block (body := body) (body' := gsG ++ nG :: List.replicate (qG.levels.length - 1) (.dedent none))
        (alb.blocks bF.blocks) (alb.all (P := (· ≠ .PyTry)) (by
          intro t ht
          simp only [List.mem_append, List.mem_cons] at ht
          rcases ht with h | rfl | h
          · exact bF.noTry t h
          · rw [bF.newline]; decide
          · rw [List.eq_of_mem_replicate h]; decide)) bG.stmts (i := i) (o := o) hi.1.symm ho.1.symm (by decide) (by decide) asF zs
        (by rw [e1]; simp)
      obtain ⟨j', dG'⟩ := XN.of dG
      refine (C50_file_input_exact _).2 ⟨us, lu, y, u1, ?_⟩
      refine (file_close dG' hf).alike _ ?_ trivial
      refine Alike.trans ?_ (alike_bare us).symm
      rw [u2, List.map_append]
      have a1 : Alike (asF ++ ((i :: ((gsG ++ nG :: List.replicate (qG.levels.length - 1) (.dedent none)) ++ [o])) ++ zs) ++ [e])
          (as ++ ((.indent none :: (((gsG' ++ nG :: List.replicate (qG.levels.length - 1) (.dedent none)) ++ [.dedent none]))) ++ zs.map Token.bare) ++ [e].map Token.bare) :=
        ((al1.symm.append ((Alike.cons ⟨hi.1.symm, hi.2.symm⟩ ((alG.append (Alike.refl _)).append (.cons ⟨ho.1.symm, ho.2.symm⟩ .nil))).append
          (alike_bare zs))).append (alike_bare [e]))
      simpa using a1

/-- The place in front of a block, and the same place in the text with another body. -/
theorem block_place [Uni] {a F G b : List Char} {k : Nat} {ts : List Token} {i : Token} {l l1 : Lexer}
    (h : Tokens (Lexer.new (a ++ (indentLines k F ++ b))) ts l) (hpos : l.buf.index = a.length) (ha : BeforeLine a ts)
    (hi : getSymbol l = .ok i l1) (hk : i.kind = .Indent) (hF : BodyText F) (tF : '\t' ∉ F ∨ k % 4 = 0) :
    ∃ L top, Run (.start (a ++ (indentLines k F ++ b))) (ts.map Token.bare) ⟨true, [], L, 0, indentLines k F ++ b⟩ ∧
      Run (.start (a ++ (indentLines k G ++ b))) (ts.map Token.bare) ⟨true, [], L, 0, indentLines k G ++ b⟩ ∧
      (∀ t ∈ ts.map Token.bare, t.kind ≠ .EOF) ∧ L.head? = some top ∧ L.getLast? = some 0 ∧ top < k := by
  have hreach := h.reach .new
  have hrest : l.place.text = indentLines k F ++ b := by
    show l.buf.chars.drop l.buf.index = _
    rw [hreach.inv.chars, hpos, List.drop_left]
  have hrun := (C55_symbols _ _ _).1 ⟨_, _, h, rfl, rfl⟩
  have ha' : BeforeLine a (ts.map Token.bare) := by
    rcases ha with ⟨rfl, rfl⟩ | ⟨b, us, t, h1, h2, rfl, h3⟩
    · exact .inl ⟨rfl, rfl⟩
    · exact .inr ⟨b, us.map Token.bare, t.bare, h1, h2, by simp, (bare_kind t).trans h3⟩
  obtain ⟨f1, f2, rG⟩ := hrun.lineSwap (r' := indentLines k G ++ b) ha' rfl hrest rfl rfl
  have hown : l.place.owed = 0 := hreach.inv.bolp f1
  have hlast : l.place.levels.getLast? = some 0 := (C10_indent_dedent_balance _ _ _ h.returned).2.2.2
  have hne : ∀ t ∈ ts.map Token.bare, t.kind ≠ .EOF := by
    intro t ht he
    obtain ⟨t', ht', rfl⟩ := List.mem_map.1 ht
    rw [bare_kind] at he
    obtain ⟨p, s, rfl⟩ := List.append_of_mem ht'
    have := (h.append (.cons hi .nil)).all_eof (Inv.new _) he (a := p) (b := s ++ [i]) (by simp) i (by simp)
    rw [hk] at this
    cases this
  have hnext := (C55_next_symbol _ _ _ _ hreach).1 ⟨i, l1, hi, rfl, rfl⟩
  have hm : LG.margin 0 (indentLines k F ++ b) = (0 + k, LG.out k b F) := by
    have hl := hF.lines
    simp only [indentLines, hl.ne, if_false, List.append_assoc]
    rw [margin_replicate]
    exact (margin_out (k := k) (b := b) tF hl (AtCode.margin hF.1 0)).2
  obtain ⟨top, hL, htop⟩ : ∃ top, l.place.levels.head? = some top ∧ top < k := by
    have hk' := (bare_kind i).trans hk
    generalize i.bare = j at *
    generalize l1.place = p1 at *
    generalize l.place = p at *
    cases hnext with
    | dedent => cases hk'
    | newline => cases hk'
    | word _ _ _ hw =>
      exact absurd hk' hw.notIndent
    | indent he ho =>
      cases he with
      | mid h => rw [f1] at h; cases h
      | noCode => rw [show (_ : Int) = p.owed from rfl, hown] at ho; omega
      | brackets _ _ _ h => exact absurd f2 h
      | same => rw [show (_ : Int) = p.owed from rfl, hown] at ho; omega
      | deeper _ h1 _ _ h2 h3 =>
        rw [hrest, hm] at h1
        cases h1
        exact ⟨_, h2, by omega⟩
      | shallower => dsimp only at ho; omega
  have e1 : l.place = ⟨true, [], l.place.levels, 0, indentLines k F ++ b⟩ := by
    rw [← f1, ← f2, ← hown, ← hrest]
  have e2 : l.place.setText (indentLines k G ++ b) = ⟨true, [], l.place.levels, 0, indentLines k G ++ b⟩ := by
    rw [← f1, ← f2, ← hown]
  rw [e2] at rG
  rw [e1] at hrun
  exact ⟨_, _, hrun, rG, hne, hL, hlast, htop⟩

/-- C72: let `a` be a text up to the start of a line, after which a block starts: the next symbol is an indent.  Let its
body be the text `F`, moved `k` columns to the right, and let the text `b` after it be empty or start with a line that has
code, less than `k` columns from the margin.  Let `F` and `G` be two texts that are accepted as files and can be the body of
a block.  The whole text is accepted with the body `F` if and only if it is accepted with the body `G`. -/
theorem C72_body_replaced [Uni] (a F G b : List Char) (k : Nat) (ts : List Token) (i : Token) (l l1 : Lexer)
    (h : Tokens (Lexer.new (a ++ (indentLines k F ++ b))) ts l) (hpos : l.buf.index = a.length) (ha : BeforeLine a ts)
    (hi : getSymbol l = .ok i l1) (hk : i.kind = .Indent)
    (hb : (LG.margin 0 b).1 < k ∧ ¬ LG.NoCode (LG.margin 0 b).2)
    (hF : BodyText F) (hG : BodyText G) (htab : ('\t' ∉ F ∧ '\t' ∉ G) ∨ k % 4 = 0)
    (aF : Accepts .fileInput F) (aG : Accepts .fileInput G) :
    Accepts .fileInput (a ++ (indentLines k F ++ b)) ↔ Accepts .fileInput (a ++ (indentLines k G ++ b)) := by
  have tF : '\t' ∉ F ∨ k % 4 = 0 := htab.imp_left And.left
  have tG : '\t' ∉ G ∨ k % 4 = 0 := htab.imp_left And.right
  obtain ⟨L, top, hrun, rG, hne, hL, hlast, htop⟩ := block_place (G := G) h hpos ha hi hk hF tF
  exact ⟨body_swap hF hG aF aG tF tG hrun rG hne hL hlast htop rfl hb.2 hb.1,
    body_swap hG hF aG aF tG tF rG hrun hne hL hlast htop rfl hb.2 hb.1⟩

/-! ### Examples -/

/-- Being a body can be computed. -/
def bodyIn [Uni] (len : Nat) : Nat → Lexer → Bool
  | 0, _ => false
  | j + 1, l => match getSymbol l with
    | .err _ _ => false
    | .ok t l' => t.kind == .Newline && l'.buf.index == len ||
        (match t with | .number _ _ _ txt => !txt.contains '\n' | _ => true) && t.kind != .PyTry && bodyIn len j l'

theorem bodyIn_spec [Uni] {len : Nat} : ∀ {j l}, bodyIn len j l = true →
    ∃ ts n l', Tokens l (ts ++ [n]) l' ∧ n.kind = .Newline ∧ l'.buf.index = len ∧
      (∀ s e tr txt, Token.number s e tr txt ∈ ts → '\n' ∉ txt) ∧ ∀ t ∈ ts, t.kind ≠ .PyTry := by
  intro j
  induction j with
  | zero => intro l h; cases h
  | succ j ih =>
    intro l h
    simp only [bodyIn] at h
    split at h
    · cases h
    · rename_i t l' hg
      simp only [Bool.or_eq_true, Bool.and_eq_true, beq_iff_eq, bne_iff_ne] at h
      rcases h with h | h
      · exact ⟨[], t, l', .cons hg .nil, h.1, h.2, by simp, by simp⟩
      · obtain ⟨ts, n, l2, g1, g2, g3, g4, g5⟩ := ih h.2
        refine ⟨t :: ts, n, l2, .cons hg g1, g2, g3, ?_, ?_⟩
        · intro s e tr txt hm
          rcases List.mem_cons.1 hm with rfl | hm
          · simpa using h.1.1
          · exact g4 s e tr txt hm
        · intro u hu
          rcases List.mem_cons.1 hu with rfl | hu
          · exact h.1.2
          · exact g5 u hu

theorem bodyText_of [Uni] {c : Char} {r : List Char} (n : Nat) (hc : c ∉ cs! " \t\r\n#\\") (h1 : '\r' ∉ c :: r) (h0 : '\x00' ∉ c :: r)
    (h : bodyIn (c :: r).length n (Lexer.new (c :: r)) = true) : BodyText (c :: r) :=
  ⟨⟨c, r, rfl, hc⟩, h1, h0, bodyIn_spec h⟩

/-- A body with a block in it, and with a string and brackets that go over more than one line. -/
example : @Accepts asciiUni .fileInput
    (cs! "while a:\n   for *x in (\n    y):\n     z\n   w = '''p\n    q'''\nelse: b\n") := by
  let _ := asciiUni
  have := (C72_body_replaced (cs! "while a:\n") (cs! "pass\n") (cs! "for *x in (\n y):\n  z\nw = '''p\n q'''\n") (cs! "else: b\n") 3
    [_, _, _, _] _ _ _ (.cons rfl (.cons rfl (.cons rfl (.cons rfl .nil)))) rfl
    (.inr ⟨cs! "while a:", [_, _, _], _, rfl, by decide, rfl, rfl⟩) rfl rfl (by simp only [LG.NoCode]; decide)
    (bodyText_of 10 (by decide) (by decide) (by decide) (by decide +kernel))
    (bodyText_of 30 (by decide) (by decide) (by decide) (by decide +kernel)) (.inl (by decide))
    (Res.accepts (m := 100) (by decide +kernel)) (Res.accepts (m := 200) (by decide +kernel))).1
    (Res.accepts (m := 200) (by decide +kernel))
  exact this

/-- With a `try` in the body this is false: the `try` statement around it takes the `except` inside it for one of its own. -/
theorem C72_try_in_body :
    @Accepts asciiUni .fileInput (cs! "pass\n") ∧ @Accepts asciiUni .fileInput (cs! "try: p\nexcept: q\n") ∧
    @Accepts asciiUni .fileInput (cs! "try: a\nexcept* b:\n  " ++ cs! "pass\n" ++ cs! "except* c: d\n") ∧
    ¬ @Accepts asciiUni .fileInput (cs! "try: a\nexcept* b:\n" ++ indentLines 2 (cs! "try: p\nexcept: q\n") ++ cs! "except* c: d\n") := by
  let _ := asciiUni
  refine ⟨Res.accepts (m := 100) (by decide +kernel), Res.accepts (m := 200) (by decide +kernel),
    Res.accepts (m := 200) (by decide +kernel), Res.rejects (m := 200) (by decide +kernel)⟩

/-- With a blank line at the end of the body it is false: then the end of the block is not noticed. -/
theorem C72_blank_last_line :
    @Accepts asciiUni .fileInput (cs! "b\n") ∧ @Accepts asciiUni .fileInput (cs! "b\n\n") ∧
    @Accepts asciiUni .fileInput (cs! "if a:\n" ++ indentLines 2 (cs! "b\n")) ∧
    ¬ @Accepts asciiUni .fileInput (cs! "if a:\n" ++ indentLines 2 (cs! "b\n\n")) := by
  let _ := asciiUni
  refine ⟨Res.accepts (m := 100) (by decide +kernel), Res.accepts (m := 100) (by decide +kernel),
    Res.accepts (m := 100) (by decide +kernel), Res.rejects (m := 100) (by decide +kernel)⟩

/-- With a tab in the body and a column that is no multiple of 4 it is false. -/
theorem C72_tab_in_body :
    @Accepts asciiUni .fileInput (cs! "if a:\n\tb\n    c\n") ∧
    @Accepts asciiUni .fileInput (cs! "if x:\n" ++ indentLines 4 (cs! "if a:\n\tb\n    c\n")) ∧
    ¬ @Accepts asciiUni .fileInput (cs! "if x:\n" ++ indentLines 6 (cs! "if a:\n\tb\n    c\n")) := by
  let _ := asciiUni
  refine ⟨Res.accepts (m := 200) (by decide +kernel), Res.accepts (m := 200) (by decide +kernel), Res.rejects (m := 200) (by decide +kernel)⟩

end Verif
