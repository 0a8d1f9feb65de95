import Verif.Proof.LGReplace
import Verif.Proof.LGConcat
import Verif.Spec.Rename
import Verif.Props.Insert
import Verif.Props.Replace

/-!
# C69: a name can be replaced by another one
-/

set_option linter.unusedSimpArgs false

namespace Verif
open LG

theorem Tokens.unique [Uni] {l ts l'} (h : Tokens l ts l') : ∀ {us l''}, Tokens l us l'' → ts.length = us.length →
    ts = us ∧ l' = l'' := by
  induction h with
  | nil => intro us l'' h hl; cases h with | nil => exact ⟨rfl, rfl⟩ | cons => simp at hl
  | cons h1 _ ih =>
    intro us l'' h2 hl
    cases h2 with
    | nil => simp at hl
    | cons h3 h4 =>
      rw [h1] at h3
      injection h3 with a b
      subst a b
      obtain ⟨rfl, rfl⟩ := ih h4 (by simpa using hl)
      exact ⟨rfl, rfl⟩

/-- The symbols before a symbol do not depend on it, as long as it is separated from them; `b` is the text from this symbol
on, and `b'` is what it is replaced by. -/
theorem spliced [Uni] {p b b' : List Char} {ts : List Token} {t : Token} {l l1 : Lexer}
    (h : Tokens (Lexer.new (p ++ b)) ts l) (ht : getSymbol l = .ok t l1)
    (hk : t.kind ∉ [Kind.Newline, .Indent, .Dedent])
    (hb : Codes b) (hb' : Codes b') (hop : ∀ w k, (w, k) ∈ operators → ∀ c ∈ w.tail, b'.head? ≠ some c)
    (hfit : ∀ u ∈ ts, (∃ s, u.span? = some (s, p.length)) → LG.Fits b b' u.bare)
    (hcs : ∀ st cs st', Word st cs t.bare st' l1.rest → cs = b) :
    ∃ q : Place, ∃ st, q.fresh = false ∧ q.owed = 0 ∧ Word q.closers b t.bare st l1.rest ∧
      l1.place = { q with closers := st, text := l1.rest } ∧
      ∀ u st' r', Word q.closers b' u st' r' →
        Run (.start (p ++ b')) (ts.map Token.bare ++ [u]) { q with closers := st', text := r' } := by
  have hreach := h.reach .new
  have hrun := run_of_tokens .new h
  have hnext := (C55_next_symbol _ _ _ _ hreach).1 ⟨_, _, ht, rfl, rfl⟩
  generalize hw : t.bare = w at hnext hcs
  generalize hQ : l1.place = Q at hnext
  have hkw : w.kind = t.kind := by rw [← hw]; cases t <;> rfl
  cases hnext with
  | dedent => exact absurd hkw.symm (by intro e; apply hk; rw [e]; simp [Token.kind])
  | indent => exact absurd hkw.symm (by intro e; apply hk; rw [e]; simp [Token.kind])
  | newline => exact absurd hkw.symm (by intro e; apply hk; rw [e]; simp [Token.kind])
  | @word bl q cs w st r he ho hs hwd =>
    have hr : r = l1.rest := by rw [place_eq] at hQ; simp only [Place.mk.injEq] at hQ; exact hQ.2.2.2.2.symm
    subst hr
    have hcb := hcs _ _ _ hwd
    subst hcb
    obtain ⟨z, e1, hs'⟩ := Skips.edit (x := []) hb hb' (by simpa using hs)
    simp only [List.nil_append] at e1 hs'
    obtain ⟨y, -, e2, he'⟩ := he.edit hb hb' e1
    have hfit' : ∀ ts1 u ts2 r, ts.map Token.bare = ts1 ++ u :: ts2 →
        Run (Lexer.new (p ++ cs)).place (ts1 ++ [u]) r → r.text = cs → LG.Fits cs b' u := by
      intro ts1 u ts2 r e hr hrt
      obtain ⟨us1, us2, rfl, rfl, e'⟩ := List.map_eq_append_iff.1 e
      obtain ⟨v, us2, rfl, rfl, rfl⟩ := List.map_eq_cons_iff.1 e'
      obtain ⟨vs, l2, hv, ev, el⟩ := (C55_symbols _ _ _).2 hr
      -- the same calls
      have hpre : ∃ l3, Tokens (Lexer.new (p ++ cs)) (us1 ++ [v]) l3 := by
        refine Tokens.take (b := us2) (l' := l) ?_
        simpa using h
      obtain ⟨l3, h3⟩ := hpre
      have hlen : vs.length = (us1 ++ [v]).length := by
        have := congrArg List.length ev; simpa using this
      obtain ⟨rfl, rfl⟩ : vs = us1 ++ [v] ∧ l2 = l3 := hv.unique h3 hlen
      obtain ⟨l4, h4, h5⟩ := h3.snoc
      have hf := ok_facts (h4.reach .new).inv h5
      by_cases hlay : v.kind = .Indent ∨ v.kind = .Dedent
      · have hsp := hf.span
        rw [if_pos hlay] at hsp
        intro st cs' st' hW
        cases v <;> simp [Token.span?] at hsp <;> simp only [Token.bare] at hW <;> cases hW
      · refine hfit v (by simp) ⟨l2.tokStart, ?_⟩
        rw [hf.span, if_neg hlay]
        have hpos : l2.rest = cs := by rw [place_eq] at el; rw [← hrt, ← el]
        have hle := hf.inv.rest_eq
        rw [hpos] at hle
        have hne := hb.ne
        have := congrArg List.length hle
        have h0 : 0 < cs.length := List.length_pos_iff.2 hne
        simp at this
        have hp : l2.pos = p.length := by omega
        rw [hp]
    obtain ⟨y', e3, hrun'⟩ := hrun.edit hb hb' hop (x := y) (by rw [e2]) hfit'
    have ey : y' = p := (List.append_cancel_right e3).symm
    subst ey
    refine ⟨q, st, he.notFresh, ho, hwd, rfl, fun u st' r' hu => ?_⟩
    exact run_append hrun' (.cons (Next.word (q := q.setText (z ++ b')) he' ho hs' hu) .nil)

theorem keeps_renamed {n n' : List Char} (hm : n = cs! "match" ↔ n' = cs! "match") : Keeps (Token.renamed n n') where
  kind {t u} h := by
    cases t <;> cases u <;> simp_all [Token.renamed, Token.bare, Token.kind]
  isMatch {t u} h := by
    cases t <;> cases u <;> simp_all [Token.renamed, Token.bare, Token.isMatchName]
    rename_i a _ _ _ b
    by_cases h1 : a = n' <;> by_cases h2 : b = n' <;> simp_all <;> (rw [Bool.eq_iff_iff]; simp [hm])

/-- Two texts whose first symbols are the same up to `e`, and which go on at the same place, are seen alike. -/
theorem viewLike_place [Uni] {e : Token → Token} (heb : ∀ t u : Token, t.bare = u.bare → e t = e u) {src1 src2 : List Char}
    {ts1 ts2 : List Token} {l1 l2 : Lexer} (h1 : Tokens (Lexer.new src1) ts1 l1) (h2 : Tokens (Lexer.new src2) ts2 l2)
    (ha : ts1.map e = ts2.map e) (hp : l1.place = l2.place) : ViewLike e (PSt.new (Lexer.new src1)) (PSt.new (Lexer.new src2)) := by
  have hlen : ts1.length = ts2.length := by simpa using congrArg List.length ha
  refine ⟨rfl, fun i => ?_⟩
  cases i with
  | zero => exact trivial
  | succ i =>
    by_cases hi : i < ts1.length
    · unfold SymLike
      rw [h1.seen rfl i hi, h2.seen rfl i (hlen ▸ hi)]
      have := congrArg (·[i]?) ha
      simpa [hi, hlen ▸ hi] using this
    · obtain ⟨j, rfl⟩ := Nat.exists_eq_add_of_le (Nat.le_of_not_lt hi)
      have c1 := h1.left_state (c := PSt.new (Lexer.new src1)) rfl
      have c2 := h2.left_state (c := PSt.new (Lexer.new src2)) rfl
      have key := LexLike.view j (c := (PSt.new (Lexer.new src1)).ahead ts1.length) (d := (PSt.new (Lexer.new src2)).ahead ts2.length)
        (c1 ▸ h1.reach .new) (c2 ▸ h2.reach .new)
        (by rw [c1, c2]; exact getSymbol_place (h1.reach .new).inv (h2.reach .new).inv hp)
      rw [Nat.add_assoc, ahead_add _ ts1.length (j + 1), show ts1.length + (j + 1) = ts2.length + (j + 1) by rw [hlen],
        ahead_add _ ts2.length (j + 1)]
      unfold SymLike at key ⊢
      split at key
      · exact heb _ _ key
      · trivial
      · exact key.elim

/-- C69, symbols: if one name in a text is replaced by another one, the symbols before it and after it stay the same up to
positions and trivia. -/
theorem C69_symbols [Uni] (p n n' q : List Char) (ts : List Token) (l l1 : Lexer) (j : Nat) (tr : Trivs)
    (h : Tokens (Lexer.new (p ++ (n ++ q))) ts l) (ht : getSymbol l = .ok (.name p.length j tr n) l1)
    (hn : IsName n') (hq : n' ∈ pyPrefixes → q.head? ≠ some '\'' ∧ q.head? ≠ some '"')
    (hnum : ∀ t ∈ ts, t.kind = .AtomNumber → ∀ s, t.span? ≠ some (s, p.length)) :
    ∃ us l2, Tokens (Lexer.new (p ++ (n' ++ q))) us l2 ∧ us.map Token.bare = ts.map Token.bare ++ [.name 0 0 none n'] ∧
      l2.place = l1.place := by
  obtain ⟨rest, e1, e2, e3, hs, hw, hr, hkw⟩ := C06_name_text _ _ _ _ _ _ _ (h.reach .new) ht
  rw [List.drop_left] at e1
  obtain rfl : q = rest := List.append_cancel_left e1
  obtain ⟨⟨c', r', rfl, hc'⟩, hn2, hn3⟩ := hn
  obtain ⟨c, r, rfl⟩ : ∃ c r, n = c :: r := by
    cases n with
    | nil => exact absurd hs (by simp [hd, isNameStart, isAlphabetic]; decide)
    | cons c r => exact ⟨c, r, rfl⟩
  have hc : isNameStart c = true := hs
  have hinv := (ok_facts (h.reach .new).inv ht).inv
  have hrest : l1.rest = q := by
    rw [hinv.rest_eq, show l1.pos = p.length + (c :: r).length from e3.trans e2, ← List.drop_drop, List.drop_left, List.drop_left]
  obtain ⟨q0, st, g1, g2, g3, g4, g5⟩ := spliced (b' := c' :: r' ++ q) h ht (by simp [Token.kind])
    ⟨c, r ++ q, rfl, nameStart_code hc⟩ ⟨c', r' ++ q, rfl, nameStart_code hc'⟩
    (fun w k hk d hd e => by simp at e; subst e; exact nameStart_op hc' w k hk (List.mem_of_mem_tail hd))
    (fun u hu hsp => fits_name hc hc' (by
      intro hk
      obtain ⟨s, hs⟩ := hsp
      refine hnum u hu (by rw [← hk]; cases u <;> rfl) s hs))
    (fun st cs st' hW => by
      rw [hrest] at hW
      simp only [Token.bare] at hW
      generalize hz : q = z at hW
      cases hW with
      | name => subst hz; rfl)
  have hst : st = q0.closers := by
    rw [hrest] at g3
    simp only [Token.bare] at g3
    generalize hz : c :: r ++ q = z at g3
    cases g3 with
    | name => rfl
  subst hst
  have hrun := g5 (.name 0 0 none (c' :: r')) q0.closers q (.name hc' (fun d hd => hn2 d (by simp [hd]))
    (fun d hd e => absurd e (by show ¬ isNameChar d = true; rw [hr d hd]; decide)) hn3 (by
      rintro ⟨h1, h2⟩
      obtain ⟨h3, h4⟩ := hq h1
      rcases h2 with h2 | h2
      · exact h3 h2
      · exact h4 h2))
  obtain ⟨us, l2, h1, h2, h3⟩ := (C55_symbols _ _ _).2 hrun
  exact ⟨us, l2, h1, h2, by rw [h3, g4, hrest]⟩

/-- C69: one name in a text can be replaced by another one: every entry point gives the same tree up to positions, trivia and
these two names, or the same error message. -/
theorem C69_rename [Uni] (p n n' q : List Char) (ts : List Token) (l l1 : Lexer) (j : Nat) (tr : Trivs)
    (h : Tokens (Lexer.new (p ++ (n ++ q))) ts l) (ht : getSymbol l = .ok (.name p.length j tr n) l1)
    (hn : IsName n') (hq : n' ∈ pyPrefixes → q.head? ≠ some '\'' ∧ q.head? ≠ some '"')
    (hnum : ∀ t ∈ ts, t.kind = .AtomNumber → ∀ s, t.span? ≠ some (s, p.length))
    (hm : n = cs! "match" ↔ n' = cs! "match") (m : Nat) (f : Fn) :
    ResLike (Token.renamed n n') (run m f (PSt.new (Lexer.new (p ++ (n ++ q)))))
      (run m f (PSt.new (Lexer.new (p ++ (n' ++ q))))) := by
  obtain ⟨us, l2, h1, h2, h3⟩ := C69_symbols p n n' q ts l l1 j tr h ht hn hq hnum
  have _ := keeps_renamed hm
  have hb : ∀ t u : Token, t.bare = u.bare → t.renamed n n' = u.renamed n n' := by
    intro t u e; unfold Token.renamed; rw [e]
  have hb2 : ∀ t : Token, t.renamed n n' = t.bare.renamed n n' := by
    intro t; apply hb; cases t <;> rfl
  refine (outLike_run m f f (like_refl f) _ _ (viewLike_place hb (h.append (.cons ht .nil)) h1 ?_ h3.symm)).res
  have e : us.map (Token.renamed n n') = (us.map Token.bare).map (Token.renamed n n') := by
    rw [List.map_map]; exact List.map_congr_left (fun t _ => hb2 t)
  have e' : ts.map (Token.renamed n n') = (ts.map Token.bare).map (Token.renamed n n') := by
    rw [List.map_map]; exact List.map_congr_left (fun t _ => hb2 t)
  rw [e, h2, List.map_append, List.map_append, ← e']
  congr 1
  simp [Token.renamed, Token.bare]

theorem ResLike.accepted [Uni] {e : Token → Token} {f : Fn} {src src' : List Char}
    (h : ∀ m, ResLike e (run m f (PSt.new (Lexer.new src))) (run m f (PSt.new (Lexer.new src')))) (ha : Accepts f src) :
    Accepts f src' := by
  obtain ⟨m, u, c, hr⟩ := ha
  have := h m
  rw [hr] at this
  cases hr' : run m f (PSt.new (Lexer.new src')) with
  | ok u' c' => exact ⟨m, u', c', hr'⟩
  | err => rw [hr'] at this; exact this.elim
  | panic => rw [hr'] at this; exact this.elim
  | diverge => rw [hr'] at this; exact this.elim

theorem ResLike.symm {e : Token → Token} {r r' : Res Tree} (h : ResLike e r r') : ResLike e r' r := by
  cases r <;> cases r' <;> first | exact Eq.symm h | exact h

/-- C69: acceptance does not depend on the name. -/
theorem C69_accepted [Uni] (p n n' q : List Char) (ts : List Token) (l l1 : Lexer) (j : Nat) (tr : Trivs)
    (h : Tokens (Lexer.new (p ++ (n ++ q))) ts l) (ht : getSymbol l = .ok (.name p.length j tr n) l1)
    (hn : IsName n') (hq : n' ∈ pyPrefixes → q.head? ≠ some '\'' ∧ q.head? ≠ some '"')
    (hnum : ∀ t ∈ ts, t.kind = .AtomNumber → ∀ s, t.span? ≠ some (s, p.length))
    (hm : n = cs! "match" ↔ n' = cs! "match") (f : Fn) : Accepts f (p ++ (n ++ q)) ↔ Accepts f (p ++ (n' ++ q)) :=
  ⟨ResLike.accepted fun m => C69_rename p n n' q ts l l1 j tr h ht hn hq hnum hm m f,
   ResLike.accepted fun m => (C69_rename p n n' q ts l l1 j tr h ht hn hq hnum hm m f).symm⟩

/-- C69, the exceptions: directly after a number, in front of a string, and the name `match`. -/
theorem C69_exceptions :
    (¬ @Accepts asciiUni .fileInput (cs! "1x5\n") ∧ @Accepts asciiUni .fileInput (cs! "1e5\n")) ∧
    (¬ @Accepts asciiUni .fileInput (cs! "x'a'\n") ∧ @Accepts asciiUni .fileInput (cs! "r'a'\n")) ∧
    (@Accepts asciiUni .fileInput (cs! "x = 1\n") ∧ @run asciiUni 30 .fileInput (PSt.new (Lexer.new (cs! "match = 1\n"))) = .panic) := by
  let _ := asciiUni
  refine ⟨⟨Res.rejects (m := 60) (by decide +kernel), Res.accepts (m := 60) (by decide +kernel)⟩,
    ⟨Res.rejects (m := 60) (by decide +kernel), Res.accepts (m := 60) (by decide +kernel)⟩,
    Res.accepts (m := 60) (by decide +kernel), ?_⟩
  have : (@run asciiUni 30 .fileInput (PSt.new (Lexer.new (cs! "match = 1\n")))).isPanic = true := by decide +kernel
  cases h : @run asciiUni 30 .fileInput (PSt.new (Lexer.new (cs! "match = 1\n"))) with
  | panic => rfl
  | _ => rw [h] at this; cases this

/-! ### The hypotheses are met -/

/-- The name `b` in `a.b + c` becomes `colour`. -/
example (f : Fn) (m : Nat) : ResLike (Token.renamed (cs! "b") (cs! "colour")) (@run asciiUni m f (PSt.new (Lexer.new (cs! "a.b + c\n"))))
    (@run asciiUni m f (PSt.new (Lexer.new (cs! "a.colour + c\n")))) := by
  let _ := asciiUni
  exact C69_rename (cs! "a.") (cs! "b") (cs! "colour") (cs! " + c\n") [.name 0 1 none (cs! "a"), .sym .PyDot 1 2 none] _ _ 3 none
    (.cons rfl (.cons rfl .nil)) rfl ⟨⟨_, _, rfl, rfl⟩, by decide, by simp [pyKeywords]⟩ (by simp [pyPrefixes]) (by simp [Token.kind]) (by simp) m f

end Verif
