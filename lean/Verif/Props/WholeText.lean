import Verif.Props.Gaps
import Verif.Props.Parse
import Verif.Spec.WholeText

/-!
# C17: a whole text is its tokens and trivia, one after the other
-/

namespace Verif

theorem TextFrom.bol {p ps w} (h : TextFrom false p ps w) (b : Bool) : TextFrom b p ps w := by
  generalize hb : false = b' at h
  cases h with
  | nil => exact .nil
  | blank => simp at hb
  | trivia h1 h2 h3 => exact .trivia h1 h2 h3
  | layout h1 h2 => exact .layout h1 h2
  | token h1 h2 h3 => exact .token h1 h2 h3

theorem TextFrom.blanks {ps w} : ∀ {u p}, (∀ c ∈ u, isBlank c = true) → TextFrom true (p + u.length) ps w →
    TextFrom true p ps (u ++ w)
  | [], _, _, h => h
  | c :: u, p, hu, h => by
    refine .blank ?_ (TextFrom.blanks (fun c hc => hu c (by simp [hc])) ?_)
    · have := hu c (by simp); simpa [isBlank] using this
    · rw [List.length_cons] at h
      rwa [show p + 1 + u.length = p + (u.length + 1) by omega]

theorem takeWhile_isBlank (cs : List Char) : ∀ c ∈ cs.takeWhile isBlank, isBlank c = true := by
  have := List.all_takeWhile (p := isBlank) (l := cs)
  rwa [List.all_eq_true] at this

/-- A gap before pieces. -/
theorem Gap.textFrom {m pos cs ts n} (h : Gap m pos cs ts n) :
    ∀ {b ps w r}, ¬ cs! "\r\n" <:+: cs → TextFrom false (pos + n) ps w → cs.drop n = w ++ r →
      ∃ v, TextFrom b pos (ts.map .inl ++ ps) v ∧ cs = v ++ r := by
  induction h with
  | nil => intro b ps w r _ h hr; exact ⟨w, h.bol b, hr⟩
  | @item pos cs t n ts m h _ ih =>
    intro b ps w r hc hw hr
    have hc' : ¬ cs! "\r\n" <:+: cs.drop n := fun hh => hc (hh.trans (List.drop_suffix _ _).isInfix)
    rw [← List.drop_drop] at hr
    rw [← Nat.add_assoc] at hw
    obtain ⟨v, hv, hcs⟩ := ih (b := t.isNewline) hc' hw hr
    have ht := h.text
    have hl : t.text.length = n := by
      have hp := h.pos_of
      have := congrArg List.length ht
      simp at this
      omega
    have hn : t.isNewline = false := by cases h <;> rfl
    refine ⟨t.text ++ v, .trivia (.other hn) ?_ ?_, ?_⟩
    · rw [hl]; exact h.span.1
    · rw [hl]; exact hv
    · rw [List.append_assoc, ← hcs]; exact ht
  | @line pos cs n ts m _ h _ ih =>
    intro b ps w r hc hw hr
    obtain ⟨c, hcc, rfl, hcs⟩ : ∃ c, (c = '\r' ∨ c = '\n') ∧ n = 1 ∧ cs = [c] ++ cs.drop 1 := by
      cases h with
      | crlf h1 h2 =>
        exfalso; apply hc
        obtain ⟨r, rfl⟩ := (hd_eq_iff (by decide)).mp h1
        obtain ⟨r', hr'⟩ := (hd_eq_iff (by decide)).mp h2
        simp only [List.drop_succ_cons, List.drop_zero] at hr'
        rw [hr']; exact ⟨[], r', rfl⟩
      | cr h1 h2 =>
        obtain ⟨r, rfl⟩ := (hd_eq_iff (by decide)).mp h1
        exact ⟨_, .inl rfl, rfl, rfl⟩
      | lf h1 =>
        obtain ⟨r, rfl⟩ := (hd_eq_iff (by decide)).mp h1
        exact ⟨_, .inr rfl, rfl, rfl⟩
    have hc' : ¬ cs! "\r\n" <:+: cs.drop (1 + ((cs.drop 1).takeWhile isBlank).length) :=
      fun hh => hc (hh.trans (List.drop_suffix _ _).isInfix)
    rw [← List.drop_drop] at hr
    simp only [← Nat.add_assoc] at hw
    obtain ⟨v, hv, hv2⟩ := ih (b := true) hc' hw hr
    refine ⟨[c] ++ ((cs.drop 1).takeWhile isBlank ++ v), .trivia (.line hcc) rfl
      (.blanks (takeWhile_isBlank _) hv), ?_⟩
    rw [List.append_assoc, List.append_assoc, ← hv2, ← List.drop_drop, drop_takeWhile_length,
      List.takeWhile_append_dropWhile]
    exact hcs

/-- The gap before a token, from the state of the tokenizer. -/
theorem gap_textFrom [Uni] {src l l' t s e ps w r} (h : Inv src l) (hcr : ¬ cs! "\r\n" <:+: src)
    (hr : getSymbol l = .ok t l') (hsp : t.span? = some (s, e))
    (hw : TextFrom false s ps w) (hs : src.drop s = w ++ r) :
    ∃ v, TextFrom l.bol l.pos (t.triviaInOrder.map .inl ++ ps) v ∧ src.drop l.pos = v ++ r := by
  have hst := getSymbol_step l h.inter h.ind
  have h0 : Inv src (l.at l.pos) := h.at (Nat.le_refl _)
  rw [hr] at hst
  generalize hres : LexRes.ok t l' = rr at hst
  have fin : ∀ {b l1 m ts k}, bolState false (l.at l.pos) = (b, l1) → Gap m l1.pos l1.rest ts k →
      l1.pos + k = s →
      ∃ v, TextFrom l.bol l.pos (ts.map .inl ++ ps) v ∧ src.drop l.pos = v ++ r := by
    intro b l1 m ts k hb hg hk
    obtain ⟨hi, e1, e2, e3, e4, e5, e6, e7, e8⟩ := bolState_inv h0 hb
    have hc' : ¬ cs! "\r\n" <:+: l1.rest := by
      rw [hi.rest_eq]; exact fun hh => hcr (hh.trans (List.drop_suffix _ _).isInfix)
    obtain ⟨v, hv, hv2⟩ := hg.textFrom (b := l.bol) hc' (by rw [hk]; exact hw)
      (by rw [hi.rest_eq, List.drop_drop, hk]; exact hs)
    rw [hi.rest_eq] at hv2
    have e6' : l1.pos = l.pos + bolSkip (l.at l.pos) := e6
    cases hbl : l.bol with
    | true =>
      rw [hbl] at hv
      have hn : bolSkip (l.at l.pos) = ((src.drop l.pos).takeWhile isBlank).length := by
        rw [bolSkip, if_pos (by simpa using hbl)]
        show (l.rest.takeWhile isBlank).length = _
        rw [h.rest_eq]
      rw [hn] at e6'
      rw [e6'] at hv hv2
      refine ⟨_, .blanks (takeWhile_isBlank _) hv, ?_⟩
      rw [List.append_assoc, ← hv2, ← List.drop_drop, drop_takeWhile_length,
        List.takeWhile_append_dropWhile]
    | false =>
      rw [hbl] at hv
      have hn : bolSkip (l.at l.pos) = 0 := by
        rw [bolSkip, if_neg (by simpa using hbl)]
      rw [hn, Nat.add_zero] at e6'
      rw [e6'] at hv hv2
      exact ⟨v, hv, hv2⟩
  cases hst with
  | dedent => simp only [LexRes.ok.injEq] at hres; obtain ⟨rfl, _⟩ := hres; simp [Token.span?] at hsp
  | indent => simp only [LexRes.ok.injEq] at hres; obtain ⟨rfl, _⟩ := hres; simp [Token.span?] at hsp
  | newline hb _ _ _ hrun =>
    simp only [LexRes.ok.injEq] at hres; obtain ⟨rfl, _⟩ := hres
    simp only [Token.span?, Option.some.injEq, Prod.mk.injEq] at hsp
    simp only [Token.triviaInOrder, Token.trivia, finTrivia_inOrder]
    exact fin hb (Gap.of_hrun (q := false) hrun) hsp.1
  | typeComment hb _ hg =>
    simp only [LexRes.ok.injEq] at hres; obtain ⟨rfl, _⟩ := hres
    simp only [Token.span?, Option.some.injEq, Prod.mk.injEq] at hsp
    simp only [Token.triviaInOrder, Token.trivia, finTrivia_inOrder]
    exact fin hb hg hsp.1
  | eof hb _ hg =>
    simp only [LexRes.ok.injEq] at hres; obtain ⟨rfl, _⟩ := hres
    simp only [Token.span?, Option.some.injEq, Prod.mk.injEq] at hsp
    simp only [Token.triviaInOrder, Token.trivia, finTrivia_inOrder]
    exact fin hb hg hsp.1
  | badCont => simp at hres
  | @arms b l1 ts k hb _ hg _ =>
    rcases armsResult_facts ts ((l1.fwd k).at (l1.pos + k)) (by simp) with
      ⟨t', j, ps, h1, _, _, h2, h3, _⟩ | ⟨e, j, h1, _⟩
    · rw [h1] at hres
      simp only [LexRes.ok.injEq] at hres
      obtain ⟨rfl, _⟩ := hres
      rw [h2] at hsp
      simp only [pos_at, pos_fwd, Option.some.injEq, Prod.mk.injEq] at hsp
      simp only [Token.triviaInOrder, h3, finTrivia_inOrder]
      exact fin hb hg hsp.1
    · rw [h1] at hres; simp at hres

/-- A layout token before pieces. -/
theorem layout_textFrom [Uni] {src l l' t ps w r} (h : Inv src l)
    (hr : getSymbol l = .ok t l') (hk : t.kind = .Indent ∨ t.kind = .Dedent)
    (hw : TextFrom false l'.pos ps w) (hs : src.drop l'.pos = w ++ r) :
    t.triviaInOrder = [] ∧ ∃ v, TextFrom l.bol l.pos (.inr t :: ps) v ∧ src.drop l.pos = v ++ r := by
  have hst := getSymbol_step l h.inter h.ind
  have h0 : Inv src (l.at l.pos) := h.at (Nat.le_refl _)
  rw [hr] at hst
  generalize hres : LexRes.ok t l' = rr at hst
  have fin : ∀ {b l1}, bolState false (l.at l.pos) = (b, l1) → l1.pos = l'.pos →
      ∃ v, TextFrom l.bol l.pos (.inr t :: ps) v ∧ src.drop l.pos = v ++ r := by
    intro b l1 hb hp
    obtain ⟨hi, e1, e2, e3, e4, e5, e6, e7, e8⟩ := bolState_inv h0 hb
    have e6' : l1.pos = l.pos + bolSkip (l.at l.pos) := e6
    have hv : ∀ b, TextFrom b l1.pos (.inr t :: ps) w := fun b => .layout hk (hp ▸ hw)
    have hv2 : src.drop l1.pos = w ++ r := by rw [hp]; exact hs
    cases hbl : l.bol with
    | true =>
      have hn : bolSkip (l.at l.pos) = ((src.drop l.pos).takeWhile isBlank).length := by
        rw [bolSkip, if_pos (by simpa using hbl)]
        show (l.rest.takeWhile isBlank).length = _
        rw [h.rest_eq]
      rw [hn] at e6'
      rw [e6'] at hv hv2
      refine ⟨_, .blanks (takeWhile_isBlank _) (hv true), ?_⟩
      rw [List.append_assoc, ← hv2, ← List.drop_drop, drop_takeWhile_length,
        List.takeWhile_append_dropWhile]
    | false =>
      have hn : bolSkip (l.at l.pos) = 0 := by
        rw [bolSkip, if_neg (by simpa using hbl)]
      rw [hn, Nat.add_zero] at e6'
      rw [e6'] at hv hv2
      exact ⟨w, hv false, hv2⟩
  cases hst with
  | dedent hb _ =>
    simp only [LexRes.ok.injEq] at hres; obtain ⟨h1, h2⟩ := hres
    exact ⟨by rw [h1]; rfl, fin hb (by rw [h2]; rfl)⟩
  | indent hb _ =>
    simp only [LexRes.ok.injEq] at hres; obtain ⟨h1, h2⟩ := hres
    exact ⟨by rw [h1]; rfl, fin hb (by rw [h2]; rfl)⟩
  | newline => simp only [LexRes.ok.injEq] at hres; rw [hres.1] at hk; simp [Token.kind] at hk
  | typeComment => simp only [LexRes.ok.injEq] at hres; rw [hres.1] at hk; simp [Token.kind] at hk
  | eof => simp only [LexRes.ok.injEq] at hres; rw [hres.1] at hk; simp [Token.kind] at hk
  | badCont => simp at hres
  | @arms b l1 ts k hb _ hg _ =>
    have hf := (ok_facts h hr).span
    rw [if_pos hk] at hf
    rcases armsResult_facts ts ((l1.fwd k).at (l1.pos + k)) (by simp) with
      ⟨t', j, ps, h1, _, _, h2, h3, _⟩ | ⟨e, j, h1, _⟩
    · rw [h1] at hres
      simp only [LexRes.ok.injEq] at hres
      obtain ⟨rfl, _⟩ := hres
      rw [h2] at hf; simp at hf
    · rw [h1] at hres; simp at hres

theorem textFrom_of_tokens [Uni] {src l ts l'} (ht : Tokens l ts l') :
    Reach src l → ¬ cs! "\r\n" <:+: src → src.getLast? ≠ some '0' →
    ∃ w, TextFrom l.bol l.pos (pieces ts) w ∧ src.drop l.pos = w ++ src.drop l'.pos := by
  induction ht with
  | nil => intros; exact ⟨[], .nil, rfl⟩
  | @cons l t l1 ts l2 hr _ ih =>
    intro h hcr hzero
    obtain ⟨w, hw, hsrc⟩ := ih (.ok h hr) hcr hzero
    obtain ⟨g1, g2, g3⟩ := ok_state h.inv hr
    have hbol : l1.bol = (t.kind == .Newline) := by
      by_cases hk : t.kind = .Newline
      · rw [(g1 hk).1, hk]; rfl
      · rw [g2 hk]; exact (beq_false_of_ne hk).symm
    by_cases hk : t.kind = .Indent ∨ t.kind = .Dedent
    · have hb1 : l1.bol = false := g2 (by rcases hk with hk | hk <;> rw [hk] <;> decide)
      rw [hb1] at hw
      obtain ⟨e1, v, e2, e3⟩ := layout_textFrom h.inv hr hk hw hsrc
      rw [pieces, e1]
      exact ⟨v, e2, e3⟩
    · have hf := (ok_facts h.inv hr).span
      rw [if_neg hk] at hf
      have hc1 : ¬ cs! "\r\n" <+: src.drop l1.tokStart :=
        fun hh => hcr (hh.isInfix.trans (List.drop_suffix _ _).isInfix)
      have hz : src.drop l1.tokStart ≠ cs! "0" := by
        intro hz
        apply hzero
        have := List.getLast?_drop (l := src) (i := l1.tokStart)
        rw [hz] at this
        split at this
        · simp at this
        · exact this.symm
      obtain ⟨u, hu, hu2, hl1, hl2⟩ := C17_token_text_partial src l l1 t _ _ h hr hf hc1 hz
      have hlen : l1.pos = l1.tokStart + u.length := hl1
      rw [hbol] at hw
      rw [hlen] at hf hw hsrc hu2
      refine gap_textFrom h.inv hcr hr hf (.token hu hf hw) ?_
      rw [hu2, hsrc, List.append_assoc]

/-- C17, the whole text: a text without `\r\n`, NUL and a `0` at its end is exactly its tokens, each after
its trivia, written one directly after the other at the positions they tell, and blanks at the
start of a line. -/
theorem C17_whole_text_partial [Uni] (src : List Char) (l : Lexer) (ts : List Token) (t : Token)
    (ht : Tokens (Lexer.new src) (ts ++ [t]) l) (he : t.kind = .EOF) (hcr : ¬ cs! "\r\n" <:+: src)
    (hnul : '\x00' ∉ src) (hzero : src.getLast? ≠ some '0') : TextFrom true 0 (pieces (ts ++ [t])) src := by
  obtain ⟨w, hw, hs⟩ := textFrom_of_tokens ht .new hcr hzero
  obtain ⟨l1, h1, h2⟩ := ht.snoc
  have hf := ok_facts (h1.reach .new).inv h2
  have hd0 : src.drop l.pos = [] := by
    have := (hf.atEof he).1
    rw [hf.inv.rest_eq] at this
    cases hr : src.drop l.pos with
    | nil => rfl
    | cons c r =>
      rw [hr] at this
      have hc : c ∈ src.drop l.pos := by rw [hr]; simp
      simp only [hd_cons] at this
      exact absurd (this ▸ List.mem_of_mem_drop hc) hnul
  rw [hd0, List.append_nil] at hs
  have hs' : src = w := hs
  rw [hs'] 
  exact hw

example :
    letI := asciiUni
    let src := cs! "# c\n\nif (a,\n  b) : \\\n\tx = f'y' # d\n\n"
    ∃ ts t l, Tokens (Lexer.new src) (ts ++ [t]) l ∧ t.kind = .EOF ∧ ts.length = 12 ∧ ¬ cs! "\r\n" <:+: src ∧
      '\x00' ∉ src ∧ src.getLast? ≠ some '0' :=
  letI := asciiUni
  ⟨[_, _, _, _, _, _, _, _, _, _, _, _], _, _,
    .cons rfl (.cons rfl (.cons rfl (.cons rfl (.cons rfl (.cons rfl (.cons rfl (.cons rfl (.cons rfl
      (.cons rfl (.cons rfl (.cons rfl (.cons rfl .nil)))))))))))), rfl, rfl, by decide, by decide, by decide⟩

end Verif
