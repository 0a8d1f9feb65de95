import Verif.Proof.LGCanon
import Verif.Props.BlankLines
import Verif.Props.Inject

/-!
# C61: every text can be written in one layout
-/

namespace Verif
open LG

theorem spelling_bare (t : Token) : t.bare.spelling = t.spelling := by cases t <;> rfl
theorem kind_bare (t : Token) : t.bare.kind = t.kind := by cases t <;> rfl

theorem render_bare {ts : List Token} : ∀ {f d st}, render f d st (ts.map Token.bare) = render f d st ts := by
  induction ts with
  | nil => intro f d st; rfl
  | cons t ts ih =>
    intro f d st
    rw [List.map_cons, render, render, kind_bare, spelling_bare]
    split <;> simp [ih]

theorem canonical_bare (ts : List Token) : canonical (ts.map Token.bare) = canonical ts := render_bare

theorem LG.UpToEof.of {ts : List Token} {e : Token} (he : e.kind = .EOF) (hne : ∀ t ∈ ts, t.kind ≠ .EOF) : UpToEof (ts ++ [e]) := by
  induction ts with
  | nil => exact .last he
  | cons t ts ih => exact .cons (hne t (by simp)) (ih fun u hu => hne u (by simp [hu]))

theorem LG.UpToEof.bare {ts : List Token} (h : UpToEof ts) : UpToEof (ts.map Token.bare) := by
  induction h with
  | last h => exact .last ((kind_bare _).trans h)
  | cons h _ ih => exact .cons (fun h' => h ((kind_bare _).symm.trans h')) ih

theorem LG.UpToEof.of_bare {ts : List Token} (h : UpToEof (ts.map Token.bare)) : UpToEof ts := by
  induction ts with
  | nil => cases h
  | cons t ts ih =>
    rw [List.map_cons] at h
    generalize hy : ts.map Token.bare = y at h ih
    cases h with
    | last h => rw [List.map_eq_nil_iff] at hy; subst hy; exact .last ((kind_bare t).symm.trans h)
    | cons h1 h2 => exact .cons (fun h => h1 ((kind_bare t).trans h)) (ih h2)

/-- The symbols up to the end are the start of every longer list of symbols. -/
theorem LG.UpToEof.isPrefix [Uni] {l : Lexer} {a b : List Token} {l1 l2} (h : Tokens l a l1) (h' : Tokens l b l2) (ha : UpToEof a)
    (hb : ∃ u ∈ b, u.kind = .EOF) : a <+: b := by
  induction h generalizing b with
  | nil => cases ha
  | cons g1 g2 ih =>
    cases h' with
    | nil => simp at hb
    | cons g3 g4 =>
      rw [g1] at g3; cases g3
      cases ha with
      | last => exact ⟨_, rfl⟩
      | cons k ha =>
        obtain ⟨u, hu, hk⟩ := hb
        rcases List.mem_cons.1 hu with rfl | hu
        · exact absurd hk k
        · obtain ⟨z, rfl⟩ := ih g4 ha ⟨u, hu, hk⟩
          exact ⟨z, rfl⟩

theorem LG.UpToEof.eof {a : List Token} (h : UpToEof a) : ∃ u ∈ a, u.kind = .EOF := by
  induction h with
  | last h => exact ⟨_, by simp, h⟩
  | cons _ _ ih => obtain ⟨u, h, k⟩ := ih; exact ⟨u, by simp [h], k⟩

theorem LG.UpToEof.unique {c a b : List Token} (ha : UpToEof a) (hb : UpToEof b) (h1 : a <+: c) (h2 : b <+: c) : a = b := by
  induction ha generalizing b c with
  | last k =>
    obtain ⟨z, rfl⟩ := h1
    obtain ⟨y, e⟩ := h2
    cases hb with
    | last => simp at e; simp [e.1]
    | cons k' => simp at e; rw [e.1] at k'; exact absurd k k'
  | cons k ha ih =>
    obtain ⟨z, rfl⟩ := h1
    obtain ⟨y, e⟩ := h2
    cases hb with
    | last k' => simp at e; rw [e.1] at k'; exact absurd k' k
    | cons _ hb =>
      simp at e
      rw [e.1, ih hb (List.prefix_append _ z) ⟨y, e.2⟩]

/-- C61, symbols: let `ts` be the symbols of a text, up to its end.  Their canonical text has the same symbols, apart from
positions and trivia. -/
theorem C61_canonical_symbols [Uni] (src : List Char) (ts : List Token) (e : Token) (l : Lexer)
    (h : Tokens (Lexer.new src) (ts ++ [e]) l) (he : e.kind = .EOF) (hne : ∀ t ∈ ts, t.kind ≠ .EOF) :
    ∃ us l', Tokens (Lexer.new (canonical (ts ++ [e]))) us l' ∧ us.map Token.bare = (ts ++ [e]).map Token.bare := by
  have hrun := (C55_symbols _ _ _).1 ⟨_, _, h, rfl, rfl⟩
  have hends := (UpToEof.of he hne).bare
  obtain ⟨q', h'⟩ := (canon _ _ (Nat.le_refl _) hends).1 (.start src) _ 0 hrun rfl rfl rfl rfl
  rw [render_bare] at h'
  obtain ⟨us, l', h1, h2, -⟩ := (C55_symbols (canonical (ts ++ [e])) _ q').2 h'
  exact ⟨us, l', h1, h2⟩

/-- C61: a text and its canonical text have the same outcome with every entry point: the same tree up to positions and
trivia, or the same error message. -/
theorem C61_canonical_tree [Uni] (src : List Char) (ts : List Token) (e : Token) (l : Lexer)
    (h : Tokens (Lexer.new src) (ts ++ [e]) l) (he : e.kind = .EOF) (hne : ∀ t ∈ ts, t.kind ≠ .EOF) (n : Nat) (f : Fn) :
    ResLike Token.bare (run n f (PSt.new (Lexer.new src))) (run n f (PSt.new (Lexer.new (canonical (ts ++ [e]))))) := by
  obtain ⟨us, l', h1, h2⟩ := C61_canonical_symbols src ts e l h he hne
  exact C53_layout f src _ (ts ++ [e]) us l l' h h1 ⟨e, by simp, he⟩ h2.symm n

/-- C61: acceptance of a text and of its canonical text is the same. -/
theorem C61_canonical_accepted [Uni] (src : List Char) (ts : List Token) (e : Token) (l : Lexer)
    (h : Tokens (Lexer.new src) (ts ++ [e]) l) (he : e.kind = .EOF) (hne : ∀ t ∈ ts, t.kind ≠ .EOF) (f : Fn) :
    Accepts f src ↔ Accepts f (canonical (ts ++ [e])) :=
  accepts_of_like fun n => C61_canonical_tree src ts e l h he hne n f

/-- C61: the canonical text of a canonical text is that text itself. -/
theorem C61_canonical_idempotent [Uni] (src : List Char) (ts us : List Token) (e u : Token) (l l' : Lexer)
    (h : Tokens (Lexer.new src) (ts ++ [e]) l) (he : e.kind = .EOF) (hne : ∀ t ∈ ts, t.kind ≠ .EOF)
    (h' : Tokens (Lexer.new (canonical (ts ++ [e]))) (us ++ [u]) l') (hu : u.kind = .EOF) (hun : ∀ t ∈ us, t.kind ≠ .EOF) :
    canonical (us ++ [u]) = canonical (ts ++ [e]) := by
  obtain ⟨vs, l2, h1, h2⟩ := C61_canonical_symbols src ts e l h he hne
  have hv : UpToEof vs := .of_bare (h2 ▸ (UpToEof.of he hne).bare)
  have hw := UpToEof.of hu hun
  rw [hw.unique hv (hw.isPrefix h' h1 hv.eof) (List.prefix_refl _), ← canonical_bare, h2, canonical_bare]

/-- C61: two texts have the same canonical text exactly if they have the same symbols, apart from positions and trivia. -/
theorem C61_canonical_iff [Uni] (src src' : List Char) (ts us : List Token) (e u : Token) (l l' : Lexer)
    (h : Tokens (Lexer.new src) (ts ++ [e]) l) (he : e.kind = .EOF) (hne : ∀ t ∈ ts, t.kind ≠ .EOF)
    (h' : Tokens (Lexer.new src') (us ++ [u]) l') (hu : u.kind = .EOF) (hun : ∀ t ∈ us, t.kind ≠ .EOF) :
    canonical (ts ++ [e]) = canonical (us ++ [u]) ↔ (ts ++ [e]).map Token.bare = (us ++ [u]).map Token.bare := by
  constructor
  · intro hc
    obtain ⟨vs, l1, h1, h2⟩ := C61_canonical_symbols src ts e l h he hne
    obtain ⟨ws, l2, h3, h4⟩ := C61_canonical_symbols src' us u l' h' hu hun
    rw [hc] at h1
    rw [← h2, ← h4]
    have hv : UpToEof vs := .of_bare (h2 ▸ (UpToEof.of he hne).bare)
    have hw : UpToEof ws := .of_bare (h4 ▸ (UpToEof.of hu hun).bare)
    rw [hv.unique hw (hv.isPrefix h1 h3 hw.eof) (List.prefix_refl _)]
  · intro hb
    rw [← canonical_bare, hb, canonical_bare]

/-- C61: of two accepted texts, the trees are the same up to positions and trivia exactly if the canonical texts are the same
(provided that the tree has no parameter list of a lambda or class and no list of types, see C57). -/
theorem C61_tree_iff_text [Uni] (f : Fn) (hf : f = .evalInput ∨ f = .fileInput ∨ f = .funcTypeInput)
    (src src' : List Char) (n : Nat) (t t' : Tree) (c c' : PSt) (ts us : List Token) (e u : Token) (l l' : Lexer)
    (hr : run n f (PSt.new (Lexer.new src)) = .ok t c) (hr' : run n f (PSt.new (Lexer.new src')) = .ok t' c')
    (hs : ∀ g s e fs, Inside (.node g s e fs) t → g ≠ .VarArgsList ∧ g ≠ .TypeList)
    (h : Tokens (Lexer.new src) (ts ++ [e]) l) (he : e.kind = .EOF) (hne : ∀ t ∈ ts, t.kind ≠ .EOF)
    (h' : Tokens (Lexer.new src') (us ++ [u]) l') (hu : u.kind = .EOF) (hun : ∀ t ∈ us, t.kind ≠ .EOF) :
    t.erase Token.bare = t'.erase Token.bare ↔ canonical (ts ++ [e]) = canonical (us ++ [u]) := by
  rw [C61_canonical_iff src src' ts us e u l l' h he hne h' hu hun, C57_up_to_layout_iff f hf src src' n t t' c c' hr hr' hs]
  constructor
  · rintro ⟨vs, ws, l1, l2, h1, h2, h3, h4⟩
    have p1 := (UpToEof.of he hne).isPrefix h h1 h3
    have p2 := (UpToEof.of hu hun).isPrefix h' h2 (by
      obtain ⟨x, hx, hk⟩ := h3
      have : x.bare ∈ ws.map Token.bare := h4 ▸ List.mem_map_of_mem hx
      obtain ⟨y, hy, e⟩ := List.mem_map.1 this
      exact ⟨y, hy, by rw [← kind_bare, e, kind_bare, hk]⟩)
    exact (UpToEof.of he hne).bare.unique (UpToEof.of hu hun).bare (p1.map _) (h4 ▸ p2.map _)
  · intro hb
    exact ⟨_, _, _, _, h, h', ⟨e, by simp, he⟩, hb⟩

/-- The first `n` symbols end with the end of the text, and `out` is their canonical text. -/
def canonIs [Uni] (n : Nat) (src out : List Char) : Bool :=
  match firstTokens n (Lexer.new src) with
  | some ts => (match ts.getLast? with | some e => e.kind == .EOF | none => false) && ts.dropLast.all (fun t => t.kind != .EOF) &&
      canonical ts == out
  | none => false

theorem canonIs_spec [Uni] {n src out} (h : canonIs n src out = true) : ∃ ts e l, Tokens (Lexer.new src) (ts ++ [e]) l ∧ e.kind = .EOF ∧
    (∀ t ∈ ts, t.kind ≠ .EOF) ∧ canonical (ts ++ [e]) = out := by
  unfold canonIs at h
  split at h
  · rename_i ts hts
    obtain ⟨l, hl⟩ := firstTokens_spec _ _ _ hts
    simp only [Bool.and_eq_true, List.all_eq_true, bne_iff_ne, ne_eq, beq_iff_eq] at h
    obtain ⟨⟨h1, h2⟩, h3⟩ := h
    split at h1
    · rename_i e he
      have e1 : ts.dropLast ++ [e] = ts := by
        have hne : ts ≠ [] := by rintro rfl; cases he
        rw [List.getLast?_eq_some_getLast hne] at he
        cases he
        exact List.dropLast_concat_getLast hne
      exact ⟨ts.dropLast, e, l, by rw [e1]; exact hl, by simpa using h1, h2, by rw [e1]; exact h3⟩
    · cases h1
  · cases h

/-- The hypotheses are met: a program with a block, a tab, a continuation, brackets over two lines, a comment and a type
comment. -/
example : ∃ ts e l, @Tokens asciiUni (Lexer.new (cs! "if a: # type: int\n\tb =( \\\n1,\n  2)# c\n\n")) (ts ++ [e]) l ∧ e.kind = .EOF ∧
    (∀ t ∈ ts, t.kind ≠ .EOF) ∧ canonical (ts ++ [e]) = cs! "if a : # type: int\n b = ( 1 , 2 )\n " := by
  let _ := asciiUni
  exact canonIs_spec (n := 15) (by decide +kernel)

/-- A text that is accepted, and so is its canonical text. -/
example : @Accepts asciiUni .fileInput (cs! "if a :\n b = ( 1 , 2 )\n else_\n") := by
  let _ := asciiUni
  obtain ⟨ts, e, l, h1, h2, h3, h4⟩ := canonIs_spec (n := 17) (src := cs! "if a:\n\tb=(1,2)# c\n    else_\n")
    (out := cs! "if a :\n b = ( 1 , 2 )\n else_\n") (by decide +kernel)
  rw [← h4]
  exact (C61_canonical_accepted _ ts e l h1 h2 h3 .fileInput).1 (Res.accepts (m := 100) (by decide +kernel))

end Verif
