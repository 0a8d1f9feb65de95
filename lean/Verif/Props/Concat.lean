import Verif.Proof.LGConcat
import Verif.Props.Balance
import Verif.Props.ErrorPos

/-!
# Files can be put one after the other (C59)
-/

namespace Verif
open XR LG

/-- Can `r` be read in any state?  The first thing a `try` statement does is to forget the state. -/
def XR.free : XR → Bool
  | .eps | .k _ | .any => true
  | .n p => match p with
    | .except_part | .except_clause => false
    | _ => true
  | .seq (.mark .newTry) _ => true
  | .seq a b => a.free && b.free
  | .alt a b => a.free && b.free
  | .opt a | .star a | .only _ a => a.free
  | .mark _ => false

theorem XR.free_table : ∀ p : PN, (XR.n p).free = true → (pRule p).free = true := by decide +kernel

theorem seq_free {a b : XR} (h : (a ⬝ b).free = true) : a = .mark .newTry ∨ (a.free = true ∧ b.free = true) := by
  cases a with
  | mark m => cases m <;> simp [XR.free] at h <;> exact .inl rfl
  | _ => exact .inr (by simpa [XR.free] using h)

theorem XN.anyState {h r x ts y} (d : XN h r x ts y) : r.free = true → ∀ x', ∃ y', XN h r x' ts y' := by
  induction d with
  | eps => intro _ x'; exact ⟨x', .eps⟩
  | k e => intro _ x'; exact ⟨x', .k e⟩
  | any => intro _ x'; exact ⟨x', .any⟩
  | n _ ih =>
    intro hr x'
    obtain ⟨y', d⟩ := ih (XR.free_table _ hr) x'
    exact ⟨y', .n d⟩
  | seq d1 d2 ih1 ih2 =>
    intro hr x'
    rcases seq_free hr with rfl | ⟨h1, h2⟩
    · cases d1 with
      | mark e =>
        simp only [Mark.act, Option.some.injEq] at e
        subst e
        exact ⟨_, .seq (.mark rfl) d2⟩
    · obtain ⟨z, d1⟩ := ih1 h1 x'
      obtain ⟨y', d2⟩ := ih2 h2 z
      exact ⟨y', .seq d1 d2⟩
  | left d ih =>
    intro hr x'
    simp only [XR.free, Bool.and_eq_true] at hr
    obtain ⟨y', d⟩ := ih hr.1 x'
    exact ⟨y', .left d⟩
  | right d ih =>
    intro hr x'
    simp only [XR.free, Bool.and_eq_true] at hr
    obtain ⟨y', d⟩ := ih hr.2 x'
    exact ⟨y', .right d⟩
  | absent => intro _ x'; exact ⟨x', .absent⟩
  | present _ ih => intro hr x'; obtain ⟨y', d⟩ := ih hr x'; exact ⟨y', .present d⟩
  | stop => intro _ x'; exact ⟨x', .stop⟩
  | more d1 d2 ih1 ih2 =>
    intro hr x'
    obtain ⟨z, d1⟩ := ih1 hr x'
    obtain ⟨y', d2⟩ := ih2 hr z
    exact ⟨y', .more d1 d2⟩
  | only _ e ih => intro hr x'; obtain ⟨y', d⟩ := ih hr x'; exact ⟨y', .only d e⟩
  | mark e => intro hr; cases hr

theorem XN.star_append {h a x ts z us y} (d : XN h (.star a) x ts z) (d' : XN h (.star a) z us y) : XN h (.star a) x (ts ++ us) y :=
  XN.star_ind (P := fun x ts z => XN h (.star a) z us y → XN h (.star a) x (ts ++ us) y) (fun _ d => d)
    (fun _ _ _ _ _ d1 _ ih d => by rw [List.append_assoc]; exact .more d1 (ih d)) d d'

theorem XN.xder {h r x ts y} (d : XN h r x ts y) : XDer pRule r x ts y := by
  induction d with
  | eps => exact .eps
  | k e => exact .k e
  | any => exact .any
  | n _ ih => exact .n ih
  | seq _ _ ih1 ih2 => exact .seq ih1 ih2
  | left _ ih => exact .left ih
  | right _ ih => exact .right ih
  | absent => exact .absent
  | present _ ih => exact .present ih
  | stop => exact .stop
  | more _ _ ih1 ih2 => exact .more ih1 ih2
  | only _ e ih => exact .only ih e
  | mark e => exact .mark e

/-- The sentences of `file_input` can be put one after the other. -/
theorem files_append {ts e us f y z} (h1 : XDer pRule (.n .file_input) .exceptNone (ts ++ [e]) y)
    (h2 : XDer pRule (.n .file_input) .exceptNone (us ++ [f]) z) : ∃ w, XDer pRule (.n .file_input) .exceptNone (ts ++ (us ++ [f])) w := by
  have open' : ∀ {ts e y}, XDer pRule (.n .file_input) .exceptNone (ts ++ [e]) y →
      ∃ h z, XN h (star (.k .Newline ∥ .n .stmt)) .exceptNone ts z ∧ e.kind = .EOF := by
    intro ts e y d
    obtain ⟨j, d⟩ := XN.of d
    obtain ⟨j', _, d0⟩ := xn_n d
    simp only [pRule] at d0
    obtain ⟨a, z, b, d1, d2, h⟩ := xn_seq.1 d0
    obtain ⟨f, rfl, hf, rfl⟩ := xn_k.1 d2
    obtain ⟨rfl, e⟩ := List.append_inj' h rfl
    cases e
    exact ⟨_, _, d1, hf⟩
  obtain ⟨i, z1, d1, -⟩ := open' h1
  obtain ⟨j, z2, d2, hf⟩ := open' h2
  obtain ⟨w, d3⟩ := d2.anyState (by decide) z1
  have d4 := (d1.mono (max i j) (Nat.le_max_left _ _)).star_append (d3.mono (max i j) (Nat.le_max_right _ _))
  refine ⟨w, ?_⟩
  rw [← List.append_assoc]
  exact (XN.n (h := max i j) (by simp only [pRule]; exact .seq d4 (.k hf))).xder

/-- What is known about the symbols of a file that is accepted. -/
theorem accepted_symbols [Uni] {src : List Char} (h : Accepts .fileInput src) :
    ∃ ts e l y, Tokens (Lexer.new src) (ts ++ [e]) l ∧ e.kind = .EOF ∧ (∀ v ∈ ts, v.kind ≠ .EOF) ∧
      (∀ u, ts.getLast? = some u → u.kind = .Newline ∨ u.kind = .Dedent) ∧ brRun [] ts = some [] ∧
      countKind .Indent ts = countKind .Dedent ts ∧ XDer pRule (.n .file_input) .exceptNone (ts ++ [e]) y := by
  obtain ⟨us, l, y, h1, d⟩ := (C50_file_input_exact src).1 h
  obtain ⟨j, d'⟩ := XN.of d
  obtain ⟨a, e, rfl, hk, hne, hb, hc⟩ := sentence_balanced h1 d'
  refine ⟨a, e, l, y, h1, hk, hne, ?_, hb, hc, d⟩
  intro u hu
  have ⟨j', _, d0⟩ := xn_n d'
  simp only [pRule] at d0
  obtain ⟨a', z, b, d1, d2, h⟩ := xn_seq.1 d0
  obtain ⟨f, rfl, hf, rfl⟩ := xn_k.1 d2
  obtain ⟨rfl, -⟩ := List.append_inj' h rfl
  have := d1.closed (by decide +kernel) u hu
  simpa using this

/-- C59: let `a` be a text that ends with a line end, whose symbols leave no bracket and no block open and end with a line end
or a block end (as those of an accepted file do, C49 and C58), and `b` a text that starts with a symbol at the left margin.
Then the symbols of `a` followed by `b` are those of `a`, without the end of the text, and then those of `b`, apart from
positions and trivia. -/
theorem C59_symbols_of_joined_texts [Uni] (a b : List Char) (ts us : List Token) (e u : Token) (l l' : Lexer)
    (ha : Tokens (Lexer.new (a ++ ['\n'])) (ts ++ [e]) l) (he : e.kind = .EOF) (hne : ∀ t ∈ ts, t.kind ≠ .EOF)
    (hlast : ∀ t, ts.getLast? = some t → t.kind = .Newline ∨ t.kind = .Dedent) (hbr : brRun [] ts = some [])
    (hbl : countKind .Indent ts = countKind .Dedent ts) (h0 : '\x00' ∉ a) (hcr : a.getLast? ≠ some '\r')
    (hb : Tokens (Lexer.new b) (u :: us) l') (hc : ∃ c r, b = c :: r ∧ c ∉ cs! " \t\r\n#\\") :
    ∃ vs l'', Tokens (Lexer.new (a ++ '\n' :: b)) vs l'' ∧ vs.map Token.bare = (ts ++ u :: us).map Token.bare := by
  have hra := (C55_symbols _ _ _).1 ⟨_, _, ha, rfl, rfl⟩
  have hrb := (C55_symbols _ _ _).1 ⟨_, _, hb, rfl, rfl⟩
  rw [List.map_append] at hra
  have hk : ∀ t : Token, t.bare.kind = t.kind := fun t => by cases t <;> rfl
  have hcl : l.place.closers = [] := by
    have := returned_brackets (Inv.new _) ha.returned
    rw [show (Lexer.new (a ++ ['\n'])).parens = [] from rfl, brRun_append, hbr] at this
    simp only [Option.bind_some, brRun, brStep_layout (.inr he), Option.some.injEq] at this
    exact this.symm
  have hlv : l.place.levels = [0] := by
    obtain ⟨c1, -, -, c4⟩ := C10_indent_dedent_balance _ _ _ ha.returned
    obtain ⟨l1, h3, h4⟩ := ha.snoc
    have hp := ((ok_facts (h3.reach .new).inv h4).atEof he).2.2.1
    have c0 : ∀ k, k ≠ .EOF → countKind k (ts ++ [e]) = countKind k ts := by
      intro k hne
      simp [countKind, he, Ne.symm hne]
    rw [c0 _ (by decide), c0 _ (by decide), hp] at c1
    have hlen : l.indents.length = 1 := by omega
    show l.indents = [0]
    match hi : l.indents, hlen with
    | [x], _ => rw [hi] at c4; simp at c4; rw [c4]
  cases hrb with
  | cons hn hr =>
    have := Run.join hc hn hr ((hk e).trans he) hra (.inr ⟨a, rfl, hcr⟩) (by simpa [Place.start] using h0)
      (by intro t ht; obtain ⟨t', h, rfl⟩ := List.mem_map.1 ht; rw [hk]; exact hne t' h)
      (by
        intro t ht
        rw [List.getLast?_map] at ht
        obtain ⟨t', h, rfl⟩ := Option.map_eq_some_iff.1 ht
        rw [hk]; exact hlast t' h) hcl hlv
    have e2 : (Place.start (a ++ ['\n'])).setText ((Place.start (a ++ ['\n'])).text ++ b) = .start (a ++ '\n' :: b) := by
      simp [Place.start]
    rw [e2] at this
    obtain ⟨vs, l'', h1, h2, -⟩ := (C55_symbols _ _ _).2 this
    exact ⟨vs, l'', h1, by rw [h2]; simp⟩

/-- C59: if two texts are accepted as files, the first ends with a line feed (and not with a carriage return before it) and
has no NUL character, and the second starts with a symbol at the left margin, then the first followed by the second is
accepted. -/
theorem C59_files_can_be_joined [Uni] (a b : List Char) (ha : Accepts .fileInput (a ++ ['\n'])) (hb : Accepts .fileInput b)
    (h0 : '\x00' ∉ a) (hcr : a.getLast? ≠ some '\r') (hc : ∃ c r, b = c :: r ∧ c ∉ cs! " \t\r\n#\\") :
    Accepts .fileInput (a ++ '\n' :: b) := by
  obtain ⟨ts, e, l, y, h1, h2, h3, h4, h5, h6, h7⟩ := accepted_symbols ha
  obtain ⟨us, f, l', z, g1, -, -, -, -, -, g7⟩ := accepted_symbols hb
  obtain ⟨w, d⟩ := files_append h7 g7
  have : ∃ u us', us ++ [f] = u :: us' := by cases us with | nil => exact ⟨_, _, rfl⟩ | cons u us => exact ⟨u, us ++ [f], rfl⟩
  obtain ⟨u, us', e'⟩ := this
  rw [e'] at g1 d
  obtain ⟨vs, l'', k1, k2⟩ := C59_symbols_of_joined_texts a b ts us' e u l l' h1 h2 h3 h4 h5 h6 h0 hcr g1 hc
  refine (C50_file_input_exact _).2 ⟨vs, l'', w, k1, ?_⟩
  have d1 := d.alike _ (alike_bare _) trivial
  rw [← k2] at d1
  exact d1.alike _ (alike_bare vs).symm trivial

/-- A block, and after it a statement. -/
example : @Accepts asciiUni .fileInput (cs! "try:\n  b\nexcept:\n  c\nfor *d in (\n e): f\n") := by
  let _ := asciiUni
  exact C59_files_can_be_joined (cs! "try:\n  b\nexcept:\n  c") (cs! "for *d in (\n e): f\n")
    (Res.accepts (m := 100) (by decide +kernel)) (Res.accepts (m := 200) (by decide +kernel)) (by decide) (by decide)
    ⟨_, _, rfl, by decide⟩

/-- The condition on the second text is needed: before a blank line the end of the block is not noticed. -/
theorem C59_blank_line_between :
    @Accepts asciiUni .fileInput (cs! "if a:\n  b\n") ∧ @Accepts asciiUni .fileInput (cs! "\n") ∧
      ¬ @Accepts asciiUni .fileInput (cs! "if a:\n  b\n\n") := by
  let _ := asciiUni
  refine ⟨Res.accepts (m := 100) (by decide +kernel), Res.accepts (m := 100) (by decide +kernel), ?_⟩
  rintro ⟨n, t, c', h⟩
  exact C58_blank_last_line.2 n t c' h

/-- So is the one on carriage returns: the character after them is lost. -/
theorem C59_carriage_return_between :
    @Accepts asciiUni .fileInput (cs! "a\r\n") ∧ @Accepts asciiUni .fileInput (cs! "b + c\n") ∧
      ¬ @Accepts asciiUni .fileInput (cs! "a\r\nb + c\n") := by
  let _ := asciiUni
  refine ⟨Res.accepts (m := 100) (by decide +kernel), Res.accepts (m := 100) (by decide +kernel), ?_⟩
  rintro ⟨n, t, c', h⟩
  obtain ⟨m, hm⟩ : ∃ m, run 100 .fileInput (PSt.new (Lexer.new (cs! "a\r\nb + c\n"))) = .err 4 m :=
    Res.errAt_spec (by decide +kernel)
  have := run_det (n := n) (m := 100) (by rw [h]; simp) (by rw [hm]; simp)
  rw [h, hm] at this
  cases this

end Verif
