import Verif.Spec.Pieces
import Verif.Proof.Cut
import Verif.Props.LocalEdit

/-!
# C65 A file is accepted if and only if its parts are
-/

namespace Verif
open XR LG

theorem tokens_rest [Uni] {l xs l1} (h : Tokens l xs l1) : ∀ {ys l2}, Tokens l ys l2 → xs.length ≤ ys.length →
    ∃ zs, ys = xs ++ zs ∧ Tokens l1 zs l2 := by
  induction h with
  | nil => intro ys l2 h _; exact ⟨ys, rfl, h⟩
  | cons h1 _ ih =>
    intro ys l2 h2 hl
    cases h2 with
    | nil => simp at hl
    | cons h3 h4 =>
      rw [h1] at h3
      injection h3 with a b
      subst a b
      obtain ⟨zs, rfl, h5⟩ := ih h4 (by simpa using hl)
      exact ⟨zs, rfl, h5⟩

/-- A symbol at the left margin is no indent, dedent or type comment. -/
theorem AtCode.kind [Uni] {b : List Char} (h : AtCode b) {u q} (hn : Next (.start b) u q) : u.kind ≠ .Indent ∧ u.kind ≠ .TypeComment := by
  obtain ⟨st, r, hw, -⟩ := h.first hn
  cases hw with
  | typeComment h1 h2 =>
    obtain ⟨c, r', e, hc⟩ := h
    obtain ⟨x, hx⟩ := h2
    have := h1.1
    rw [← hx, e] at this
    simp only [List.cons_append, List.cons.injEq, List.append_assoc] at this
    rw [this.1] at hc
    exact absurd (by decide) hc
  | operator h1 =>
    have : ∀ p ∈ operators, p.2 ≠ Kind.Indent ∧ p.2 ≠ Kind.TypeComment := by decide
    exact this _ h1.1
  | keyword h1 =>
    have : ∀ p ∈ pyKeywords, p.2 ≠ Kind.Indent ∧ p.2 ≠ Kind.TypeComment := by decide
    exact this _ h1
  | _ => exact ⟨by simp [Token.kind], by simp [Token.kind]⟩

/-- The derivation of a file. -/
theorem file_open {as f x y} (d : XDer pRule (.n .file_input) x (as ++ [f]) y) :
    ∃ h, XN h (star (.k .Newline ∥ .n .stmt)) x as y ∧ f.kind = .EOF := by
  obtain ⟨j, d⟩ := XN.of d
  obtain ⟨j', _, d0⟩ := xn_n d
  simp only [pRule] at d0
  obtain ⟨a, z, b, d1, d2, h⟩ := xn_seq.1 d0
  obtain ⟨f', rfl, hf, rfl⟩ := xn_k.1 d2
  obtain ⟨rfl, e⟩ := List.append_inj' h rfl
  cases e
  exact ⟨_, d1, hf⟩

theorem file_close {h as f x y} (d : XN h (star (.k .Newline ∥ .n .stmt)) x as y) (hf : f.kind = .EOF) :
    XDer pRule (.n .file_input) x (as ++ [f]) y :=
  (XN.n (h := h) (by simp only [pRule]; exact .seq d (.k hf))).xder

/-- The symbols of a closed text followed by another start with those of the first text and the first of the second. -/
theorem joined_symbols [Uni] {a b : List Char} {ts : List Token} {e : Token} {l : Lexer} (h1 : Tokens (Lexer.new (a ++ ['\n'])) (ts ++ [e]) l)
    (h2 : e.kind = .EOF) (h3 : ∀ t ∈ ts, t.kind ≠ .EOF) (h4 : ∀ t, ts.getLast? = some t → t.kind = .Newline ∨ t.kind = .Dedent)
    (h5 : brRun [] ts = some []) (h6 : ts.countP (fun t => t.kind == .Indent) = ts.countP (fun t => t.kind == .Dedent))
    (h0 : '\x00' ∉ a) (hcr : a.getLast? ≠ some '\r') (hc : ∃ c r, b = c :: r ∧ c ∉ cs! " \t\r\n#\\") {u : Token} {q2 : Place}
    (hn : Next (.start b) u.bare q2) :
    ∃ vs lv, Tokens (Lexer.new (a ++ '\n' :: b)) vs lv ∧ vs.map Token.bare = (ts ++ [u]).map Token.bare ∧ lv.place = q2 := by
  have hk' : ∀ t : Token, t.bare.kind = t.kind := fun t => by cases t <;> rfl
  have hra := (C55_symbols _ _ _).1 ⟨_, _, h1, rfl, rfl⟩
  rw [List.map_append] at hra
  have hcl : l.place.closers = [] := by
    have := returned_brackets (Inv.new _) h1.returned
    rw [show (Lexer.new (a ++ ['\n'])).parens = [] from rfl, brRun_append, h5] at this
    simp only [Option.bind_some, brRun, brStep_layout (.inr h2), Option.some.injEq] at this
    exact this.symm
  have hlv : l.place.levels = [0] := by
    obtain ⟨c1, -, -, c4⟩ := C10_indent_dedent_balance _ _ _ h1.returned
    obtain ⟨l1, h3, h4⟩ := h1.snoc
    have hp := ((ok_facts (h3.reach .new).inv h4).atEof h2).2.2.1
    have c0 : ∀ k, k ≠ .EOF → countKind k (ts ++ [e]) = countKind k ts := by
      intro k hne
      simp [countKind, h2, Ne.symm hne]
    have h6' : countKind .Indent ts = countKind .Dedent ts := h6
    rw [c0 _ (by decide), c0 _ (by decide), hp] at c1
    have hlen : l.indents.length = 1 := by omega
    show l.indents = [0]
    match hi : l.indents, hlen with
    | [x], _ => rw [hi] at c4; simp at c4; rw [c4]
  have := Run.join hc hn .nil ((hk' e).trans h2) hra (.inr ⟨a, rfl, hcr⟩) (by simpa [Place.start] using h0)
    (by intro t ht; obtain ⟨t', h, rfl⟩ := List.mem_map.1 ht; rw [hk']; exact h3 t' h)
    (by
      intro t ht
      rw [List.getLast?_map] at ht
      obtain ⟨t', h, rfl⟩ := Option.map_eq_some_iff.1 ht
      rw [hk']; exact h4 t' h) hcl hlv
  have e2 : (Place.start (a ++ ['\n'])).setText ((Place.start (a ++ ['\n'])).text ++ b) = .start (a ++ '\n' :: b) := by
    simp [Place.start]
  rw [e2] at this
  obtain ⟨vs, l'', h1, h2, h3⟩ := (C55_symbols _ _ _).2 this
  exact ⟨vs, l'', h1, by rw [h2]; simp, h3⟩

/-- C65: let `a` be a text that ends with a line feed, has no NUL character, is read by the tokenizer without an error and
closes all its brackets and blocks, and `b` a text that starts at the left margin with a symbol other than `elif`, `else`,
`except` and `finally`.  The first followed by the second is accepted as a file if and only if both are. -/
theorem C65_accepted_iff_parts [Uni] (a b : List Char) (ha : Closed (a ++ ['\n'])) (h0 : '\x00' ∉ a) (hcr : a.getLast? ≠ some '\r')
    (hc : ∃ c r, b = c :: r ∧ c ∉ cs! " \t\r\n#\\") (hb : StartsStatement b) :
    Accepts .fileInput (a ++ '\n' :: b) ↔ Accepts .fileInput (a ++ ['\n']) ∧ Accepts .fileInput b := by
  refine ⟨fun h => ?_, fun h => C59_files_can_be_joined a b h.1 h.2 h0 hcr hc⟩
  obtain ⟨as, f, lw, y, w1, w2, w3, w4, w5, w6, w7⟩ := accepted_symbols h
  obtain ⟨ts, e, l, h1, h2, h3, h4, h5, h6⟩ := ha
  obtain ⟨u, l1, hu, hk⟩ := hb
  have hk' : ∀ t : Token, t.bare.kind = t.kind := fun t => by cases t <;> rfl
  -- the symbols of the whole text start with those of `a` and the first of `b`
  obtain ⟨q2, hn⟩ : ∃ q2, Next (.start b) u.bare q2 :=
    ⟨_, (C55_next_symbol b (Lexer.new b) _ _ .new).1 ⟨u, l1, hu, rfl, rfl⟩⟩
  obtain ⟨vs, lv, v1, v2, v3⟩ := joined_symbols h1 h2 h3 h4 h5 h6 h0 hcr hc hn
  rw [List.map_append] at v2
  obtain ⟨ts', us', rfl, g1, g0⟩ := List.map_eq_append_iff.1 v2
  obtain ⟨u', rfl, g2⟩ : ∃ x, us' = [x] ∧ x.bare = u.bare := by
    cases us' with
    | nil => simp at g0
    | cons x xs => simp at g0; exact ⟨x, by rw [g0.2], g0.1⟩
  have kinds : ∀ {xs ys : List Token}, xs.map Token.bare = ys.map Token.bare → xs.map Token.kind = ys.map Token.kind := by
    intro xs ys h
    have := congrArg (List.map Token.kind) h
    simpa [Function.comp_def, hk'] using this
  have gk := kinds g1
  -- the whole text is at least as long
  have hlen : (ts' ++ [u']).length ≤ (as ++ [f]).length := by
    rcases Nat.le_total (ts' ++ [u']).length (as ++ [f]).length with h | h
    · exact h
    · obtain ⟨zs, hz, -⟩ := tokens_rest w1 v1 h
      cases zs with
      | nil => rw [hz]; simp
      | cons z zs =>
        exfalso
        rcases List.eq_nil_or_concat (z :: zs) with h | ⟨zs', z', h⟩
        · cases h
        · rw [h, List.concat_eq_append, ← List.append_assoc] at hz
          obtain ⟨hz, -⟩ := List.append_inj' hz rfl
          have : f.kind ∈ ts'.map Token.kind := by rw [hz]; simp
          rw [gk] at this
          obtain ⟨t, ht, hft⟩ := List.mem_map.1 this
          exact h3 t ht (hft.trans w2)
  obtain ⟨zs, hz, z1⟩ := tokens_rest v1 w1 hlen
  -- the symbols of `b`
  have hrz := run_of_tokens (v1.reach .new) z1
  rw [v3] at hrz
  obtain ⟨bs, lb, b1, b2, -⟩ := (C55_symbols b _ _).2 (.cons hn hrz)
  -- the end of the text
  obtain ⟨us, hus⟩ : ∃ us, u' :: zs = us ++ [f] := by
    rcases List.eq_nil_or_concat (u' :: zs) with h | ⟨us, f', h⟩
    · cases h
    · rw [List.concat_eq_append] at h
      refine ⟨us, ?_⟩
      rw [h]
      rw [List.append_assoc, List.singleton_append, h, ← List.append_assoc] at hz
      rw [(List.append_inj' hz rfl).2]
  have has : as = ts' ++ us := by
    rw [List.append_assoc, List.singleton_append, hus, ← List.append_assoc] at hz
    exact (List.append_inj' hz rfl).1
  -- the derivation is cut
  obtain ⟨j, d, hf⟩ := file_open w7
  have hbr : brSum as = 0 := by simpa using br_run w5
  have hout : Outside 0 as := by
    rintro p t s rfl ht
    rw [List.append_assoc] at w1
    simpa using br_run (layout_outside w1 ht)
  have hind : indSum ts' = 0 := by
    have : ∀ xs : List Token, indSum xs = ((xs.map Token.kind).map Kind.ind).sum := by intro xs; simp [indSum, Function.comp_def]
    rw [this, gk, ← this, indSum_count]
    have h6' : countKind .Indent ts = countKind .Dedent ts := h6
    omega
  obtain ⟨z, d1, d2⟩ := d.starCut hbr hout ts' us has hind
    (by
      intro t ht
      have : (ts'.map Token.kind).getLast? = some t.kind := by rw [List.getLast?_map, ht]; rfl
      rw [gk, List.getLast?_map] at this
      obtain ⟨t', h, e⟩ := Option.map_eq_some_iff.1 this
      rw [← e]
      rcases h4 t' h with h | h <;> rw [h] <;> rfl)
    (by
      intro w hw
      have hwu : w = u' := by
        cases us with
        | nil => cases hw
        | cons x us => cases hw; exact (List.cons.inj hus).1.symm
      have hkw : w.kind = u.kind := by rw [hwu, ← hk', g2, hk']
      have hni := AtCode.kind hc hn
      rw [hk'] at hni
      rw [hkw]
      simp only [Kind.inside, List.contains_eq_mem, decide_eq_false_iff_not]
      intro hm
      simp only [List.mem_cons, List.not_mem_nil, or_false, not_or] at hk hm
      rcases hm with h | h | h | h | h | h
      · exact hni.1 h
      · exact hni.2 h
      · exact hk.1 h
      · exact hk.2.1 h
      · exact hk.2.2.1 h
      · exact hk.2.2.2 h)
  constructor
  · refine (C50_file_input_exact _).2 ⟨ts ++ [e], l, z, h1, ?_⟩
    have d3 := (file_close d1 (f := e) h2).alike _ (alike_bare _) trivial
    rw [List.map_append, g1, ← List.map_append] at d3
    exact d3.alike _ (alike_bare _).symm trivial
  · obtain ⟨y', d3⟩ := d2.anyState (by decide) .exceptNone
    refine (C50_file_input_exact _).2 ⟨bs, lb, y', b1, ?_⟩
    have d4 := (file_close d3 (f := f) w2).alike _ (alike_bare _) trivial
    rw [← hus, List.map_cons, g2, ← b2] at d4
    exact d4.alike _ (alike_bare _).symm trivial

/-- C65: and the statements of an accepted file are those of its two parts. -/
theorem C65_statements_of_parts [Uni] (a b : List Char) (ha : Closed (a ++ ['\n'])) (h0 : '\x00' ∉ a) (hcr : a.getLast? ≠ some '\r')
    (hc : ∃ c r, b = c :: r ∧ c ∉ cs! " \t\r\n#\\") (hb : StartsStatement b) (n : Nat) (v : Tree) (c : PSt)
    (h : run n .fileInput (PSt.new (Lexer.new (a ++ '\n' :: b))) = .ok v c) :
    ∃ m k t u d d', run m .fileInput (PSt.new (Lexer.new (a ++ ['\n']))) = .ok t d ∧
      run k .fileInput (PSt.new (Lexer.new b)) = .ok u d' ∧
      (fileStatements v).map (Tree.erase Token.bare) =
        (fileStatements t).map (Tree.erase Token.bare) ++ (fileStatements u).map (Tree.erase Token.bare) := by
  obtain ⟨⟨m, t, d, h1⟩, k, u, d', h2⟩ := (C65_accepted_iff_parts a b ha h0 hcr hc hb).1 ⟨n, v, c, h⟩
  exact ⟨m, k, t, u, d, d', h1, h2, C62_joined_files_only a b m k n t u v d d' c h1 h2 h0 hcr hc h⟩

/-- Reading a text to its end can be computed. -/
def closedIn [Uni] : Nat → Lexer → List Token → Bool
  | 0, _, _ => false
  | j + 1, l, acc => match getSymbol l with
    | .err _ _ => false
    | .ok t l' => if t.kind = .EOF then
        (match acc.getLast? with | none => true | some u => u.kind == .Newline || u.kind == .Dedent) &&
          brRun [] acc == some [] && acc.countP (fun t => t.kind == .Indent) == acc.countP (fun t => t.kind == .Dedent)
      else closedIn j l' (acc ++ [t])

theorem closedIn_spec [Uni] {n : Nat} : ∀ {l l0 : Lexer} {acc}, closedIn n l acc = true → Tokens l0 acc l → (∀ t ∈ acc, t.kind ≠ .EOF) →
    ∃ ts e l', Tokens l0 (ts ++ [e]) l' ∧ e.kind = .EOF ∧ (∀ t ∈ ts, t.kind ≠ .EOF) ∧
      (∀ t, ts.getLast? = some t → t.kind = .Newline ∨ t.kind = .Dedent) ∧ brRun [] ts = some [] ∧
      ts.countP (fun t => t.kind == .Indent) = ts.countP (fun t => t.kind == .Dedent) := by
  induction n with
  | zero => intro l l0 acc h; cases h
  | succ j ih =>
    intro l l0 acc h ht hne
    simp only [closedIn] at h
    split at h
    · cases h
    · rename_i t l' hg
      have ht' : Tokens l0 (acc ++ [t]) l' := ht.append (.cons hg .nil)
      split at h
      · rename_i hk
        simp only [Bool.and_eq_true, beq_iff_eq] at h
        refine ⟨acc, t, l', ht', hk, hne, ?_, h.1.2, h.2⟩
        intro u hu
        rw [hu] at h
        simpa using h.1.1
      · rename_i hk
        exact ih h ht' (by
          intro u hu
          rcases List.mem_append.1 hu with hu | hu
          · exact hne u hu
          · rw [List.mem_singleton.1 hu]; exact hk)

theorem closed_of [Uni] {w : List Char} (n : Nat) (h : closedIn n (Lexer.new w) [] = true) : Closed w :=
  closedIn_spec h .nil (by simp)

/-- A text with a block, a bracket over two lines and a comment, before a statement that is not accepted: then the whole is
not accepted either.  And before one that is. -/
example : let _ := asciiUni
    Closed (cs! "if a: # b\n  c(\nd)" ++ ['\n']) ∧ StartsStatement (cs! "for x in y: z\n") ∧ StartsStatement (cs! "x = y\n") ∧
      Accepts .fileInput (cs! "if a: # b\n  c(\nd)" ++ '\n' :: cs! "x = y\n") ∧
      ¬ Accepts .fileInput (cs! "if a: # b\n  c(\nd)" ++ '\n' :: cs! "for x in y: z\n") := by
  intro _
  refine ⟨closed_of 100 (by decide +kernel), ⟨_, _, rfl, by decide⟩, ⟨_, _, rfl, by decide⟩, Res.accepts (m := 200) (by decide +kernel), ?_⟩
  intro h
  obtain ⟨-, n, t, c, h⟩ := (C65_accepted_iff_parts _ _ (closed_of 100 (by decide +kernel)) (by decide) (by decide)
    ⟨_, _, rfl, by decide⟩ ⟨_, _, rfl, by decide⟩).1 h
  have h2 : (run 200 .fileInput (PSt.new (Lexer.new (cs! "for x in y: z\n")))).isErr = true := by decide +kernel
  obtain ⟨p, m, h2⟩ := Res.of_isErr h2
  have := run_det (n := n) (m := 200) (f := .fileInput) (c := PSt.new (Lexer.new (cs! "for x in y: z\n"))) (by rw [h]; simp) (by rw [h2]; simp)
  rw [h, h2] at this
  cases this

/-- The condition on the second part is needed: `else` goes on with the statement before it. -/
theorem C65_else :
    let _ := asciiUni
    Closed (cs! "if a:\n  b" ++ ['\n']) ∧ Accepts .fileInput (cs! "if a:\n  b" ++ '\n' :: cs! "else:\n  c\n") ∧
      ¬ Accepts .fileInput (cs! "else:\n  c\n") := by
  intro _
  refine ⟨closed_of 100 (by decide +kernel), Res.accepts (m := 200) (by decide +kernel), ?_⟩
  rintro ⟨n, t, c, h⟩
  have h2 : (run 200 .fileInput (PSt.new (Lexer.new (cs! "else:\n  c\n")))).isErr = true := by decide +kernel
  obtain ⟨p, m, h2⟩ := Res.of_isErr h2
  have := run_det (n := n) (m := 200) (f := .fileInput) (c := PSt.new (Lexer.new (cs! "else:\n  c\n"))) (by rw [h]; simp) (by rw [h2]; simp)
  rw [h, h2] at this
  cases this

end Verif
