import Verif.Proof.SpansStmt
import Verif.Proof.NotNL
import Verif.Props.Parse
import Verif.Spec.Shape
import Verif.Spec.Outcome

/-!
# Where nodes start and end (C25)

`PSt.startsAt`, `Fn.first` and `spanFns` are in `Spec/Spans.lean`, `Consumed` and `Tree.tokens` in
`Spec/Parse.lean`, `Inside` in `Spec/Shape.lean`.
-/

namespace Verif
set_option linter.unusedVariables false

/-! ### Fields in stored and in written order -/

/-- The node `x` is somewhere in the trees `l`. -/
def Among (x : Tree) (l : List Tree) : Prop := ∃ y ∈ l, Inside x y

theorem among_nil {x} : Among x [] ↔ False := by simp [Among]
theorem among_cons {x y l} : Among x (y :: l) ↔ Inside x y ∨ Among x l := by simp [Among]
theorem among_append {x a b} : Among x (a ++ b) ↔ Among x a ∨ Among x b := by
  simp only [Among, List.mem_append]
  constructor
  · rintro ⟨y, h | h, hi⟩
    · exact .inl ⟨y, h, hi⟩
    · exact .inr ⟨y, h, hi⟩
  · rintro (⟨y, h, hi⟩ | ⟨y, h, hi⟩)
    · exact ⟨y, .inl h, hi⟩
    · exact ⟨y, .inr h, hi⟩
theorem among_perm {x a b} (h : List.Perm a b) : Among x a ↔ Among x b := by simp only [Among, h.mem_iff]
theorem among_reverse {x a} : Among x a.reverse ↔ Among x a := among_perm (List.reverse_perm a)
theorem among_alternate {x a b} : Among x (alternate a b) ↔ Among x a ∨ Among x b :=
  (among_perm (alternate_perm a b)).trans among_append

section
variable {g : Tag} {s e : Nat} {fs : List Tree}
theorem inside_tok {t} : (Inside (.node g s e fs) (.tok t)) ↔ False := ⟨fun h => (nomatch h), False.elim⟩
theorem inside_none : Inside (.node g s e fs) .none ↔ False := ⟨fun h => (nomatch h), False.elim⟩
theorem inside_seq {l} : Inside (.node g s e fs) (.seq l) ↔ Among (.node g s e fs) l :=
  ⟨fun h => by cases h with | seq h hi => exact ⟨_, h, hi⟩, fun ⟨_, h, hi⟩ => .seq h hi⟩
theorem inside_node {g' s' e' l} : Inside (.node g s e fs) (.node g' s' e' l) ↔
    (.node g s e fs = Tree.node g' s' e' l) ∨ Among (.node g s e fs) l := by
  constructor
  · intro h
    cases h with
    | here => exact .inl rfl
    | node h hi => exact .inr ⟨_, h, hi⟩
  · rintro (h | ⟨y, h, hi⟩)
    · rw [h]; exact .here _
    · exact .node h hi

theorem among_present {l} : Among (.node g s e fs) (present l) ↔ Among (.node g s e fs) l := by
  induction l with
  | nil => rfl
  | cons x l ih => cases x <;> simp_all [present, among_cons, inside_none]

theorem among_arrange {tag l l'} (h : arrange tag l = some l') :
    Among (.node g s e fs) l ↔ Among (.node g s e fs) l' := by
  unfold arrange at h
  split at h <;> simp only [Option.some.injEq, reduceCtorEq] at h <;> subst h <;>
    simp only [among_cons, among_append, among_alternate, among_reverse, among_nil, inside_seq, or_false, or_assoc]

theorem among_fields {tag l l'} (h : arrange tag l = some l' ∨ (arrange tag l = Option.none ∧ Interleaves l l')) :
    Among (.node g s e fs) l ↔ Among (.node g s e fs) l' := by
  rcases h with h | ⟨_, h⟩
  · exact among_arrange h
  · unfold Interleaves at h
    split at h
    · rw [among_perm h.1, among_present]
      simp only [among_cons, among_append, inside_seq, or_assoc]
    · exact h.elim
end

theorem Inside.trans {x y z : Tree} (h : Inside x y) (h2 : Inside y z) : Inside x z := by
  induction h2 with
  | here => exact h
  | seq hm _ ih => exact .seq hm ih
  | node hm _ ih => exact .node hm ih

/-! ### Positions -/

section
variable [Uni] {src : List Char}

theorem PReach.congr {c c' : PSt} (h : PReach src c) (h1 : c'.lex = c.lex) (h2 : c'.symbol = c.symbol) : PReach src c' := by
  have := PReach.exc c'.exc h
  rwa [← h1, ← h2] at this

theorem Consumed.preach {c ts c'} (h : Consumed c ts c') (hc : PReach src c) : PReach src c' := by
  induction h with
  | done h1 h2 => exact hc.congr h1 h2
  | step _ _ ih => exact ih hc.adv

theorem pos_advance {c : PSt} (hc : PReach src c) : c.pos ≤ c.advance.pos := by
  have := C05_position_monotone src c.lex hc.fresh.1
  unfold PSt.pos PSt.advance
  split <;> rename_i h <;> rw [h] at this <;> exact this

theorem Consumed.pos {c ts c'} (h : Consumed c ts c') (hc : PReach src c) : c.pos ≤ c'.pos := by
  induction h with
  | done h1 h2 => unfold PSt.pos; rw [h1]; exact Nat.le_refl _
  | step _ _ ih => exact Nat.le_trans (pos_advance hc) (ih hc.adv)

theorem PReach.startsAt {c : PSt} (hc : PReach src c) : c.startsAt c.pos := by
  refine ⟨rfl, fun u x y hu hs => ?_⟩
  obtain ⟨l, hl, hg⟩ := hc.fresh.2 u hu
  have := (C05_span_of_token src l _ u x y hl hg hs).1
  simp only [getPosition, LexRes.ok.injEq, and_true] at this
  exact this.symm

theorem Spans.reads {b c l c'} (h : Spans b c l c') : ∃ ts, Consumed c ts c' ∧ Reads l ts := by
  induction h with
  | nil h1 h2 => exact ⟨[], .done h1 h2, .nil⟩
  | none _ ih => obtain ⟨ts, h1, h2⟩ := ih; exact ⟨ts, h1, .none h2⟩
  | tok hs _ ih => obtain ⟨ts, h1, h2⟩ := ih; exact ⟨_, .step hs h1, .tok h2⟩
  | seq _ ih => obtain ⟨ts, h1, h2⟩ := ih; exact ⟨ts, h1, .seq h2⟩
  | node ha _ _ _ _ ih1 ih2 =>
    obtain ⟨ts, h1, h2⟩ := ih1
    obtain ⟨us, h3, h4⟩ := ih2
    refine ⟨ts ++ us, h1.trans h3, ?_⟩
    rcases ha with ha | ⟨ha, hi⟩
    · exact .node ha (h2.app h4)
    · exact .loose ha hi (h2.app h4)

/-- What is known of a node in a list of trees. -/
structure Found (g : Tag) (s e : Nat) (fs : List Tree) (b : Nat) (c : PSt) (l : List Tree) (c' a d : PSt)
    (fs' : List Tree) : Prop where
  before : ∃ pre, Consumed c pre a
  after : ∃ post, Consumed d post c'
  fields : arrange g fs = some fs' ∨ (arrange g fs = Option.none ∧ Interleaves fs fs')
  spans : Spans s a fs' d
  stop : e = d.pos
  start : g.isEntry = false → s = a.pos
  entry : g.isEntry = true → s = b ∨ ∃ g0 e0 fs0, Among (.node g0 s e0 fs0) l ∧ Among (.node g s e fs) fs0
  low : PReach src c → b ≤ c.pos → b ≤ s ∧ s ≤ a.pos

theorem Spans.found {g s e fs b c l c'} (h : Spans b c l c') (hx : Among (.node g s e fs) l) :
    ∃ a d fs', Found (src := src) g s e fs b c l c' a d fs' := by
  induction h with
  | nil => exact (among_nil.1 hx).elim
  | none _ ih =>
    rw [among_cons, inside_none, false_or] at hx
    obtain ⟨a, d, fs', h⟩ := ih hx
    exact ⟨a, d, fs', h.before, h.after, h.fields, h.spans, h.stop, h.start, fun hg => (h.entry hg).imp id
      (fun ⟨g0, e0, fs0, h1, h2⟩ => ⟨g0, e0, fs0, among_cons.2 (.inr h1), h2⟩), h.low⟩
  | tok hs _ ih =>
    rw [among_cons, inside_tok, false_or] at hx
    obtain ⟨a, d, fs', h⟩ := ih hx
    obtain ⟨pre, hp⟩ := h.before
    exact ⟨a, d, fs', ⟨_, .step hs hp⟩, h.after, h.fields, h.spans, h.stop, h.start, fun hg => (h.entry hg).imp id
      (fun ⟨g0, e0, fs0, h1, h2⟩ => ⟨g0, e0, fs0, among_cons.2 (.inr h1), h2⟩),
      fun hc hb => h.low hc.adv (Nat.le_trans hb (pos_advance hc))⟩
  | seq _ ih =>
    rw [among_cons, inside_seq, ← among_append] at hx
    obtain ⟨a, d, fs', h⟩ := ih hx
    exact ⟨a, d, fs', h.before, h.after, h.fields, h.spans, h.stop, h.start, fun hg => (h.entry hg).imp id
      (fun ⟨g0, e0, fs0, h1, h2⟩ => ⟨g0, e0, fs0, by rw [among_cons, inside_seq, ← among_append]; exact h1, h2⟩),
      h.low⟩
  | @node b tag s1 e1 fs1 fs1' c d l c' ha hs he h1 h2 ih1 ih2 =>
    obtain ⟨m1, r1, _⟩ := h1.reads
    obtain ⟨m2, r2, _⟩ := h2.reads
    rw [among_cons, inside_node] at hx
    rcases hx with (hx | hx) | hx
    · cases hx
      refine ⟨c, d, fs1', ⟨_, .refl _⟩, ⟨_, r2⟩, ha, h1, he, fun hg => ?_, fun hg => .inl ?_, fun hc hb => ?_⟩
      · rw [hg] at hs; exact hs
      · rw [hg] at hs; exact hs
      · rw [hs]; split
        · exact ⟨Nat.le_refl _, hb⟩
        · exact ⟨hb, Nat.le_refl _⟩
    · obtain ⟨a, d', fs', h⟩ := ih1 ((among_fields ha).1 hx)
      obtain ⟨post, hp⟩ := h.after
      refine ⟨a, d', fs', h.before, ⟨_, hp.trans r2⟩, h.fields, h.spans, h.stop, h.start, fun hg => .inr ?_,
        fun hc hb => ?_⟩
      · rcases h.entry hg with h0 | ⟨g0, e0, fs0, h3, h4⟩
        · subst h0; exact ⟨tag, e1, fs1, among_cons.2 (.inl (.here _)), hx⟩
        · exact ⟨g0, e0, fs0, among_cons.2 (.inl (inside_node.2 (.inr ((among_fields ha).2 h3)))), h4⟩
      · have hbs : b ≤ s1 ∧ s1 ≤ c.pos := by
          rw [hs]; split
          · exact ⟨Nat.le_refl _, hb⟩
          · exact ⟨hb, Nat.le_refl _⟩
        have := h.low hc hbs.2
        exact ⟨Nat.le_trans hbs.1 this.1, this.2⟩
    · obtain ⟨a, d', fs', h⟩ := ih2 hx
      obtain ⟨pre, hp⟩ := h.before
      refine ⟨a, d', fs', ⟨_, r1.trans hp⟩, h.after, h.fields, h.spans, h.stop, h.start, fun hg => (h.entry hg).imp id
        (fun ⟨g0, e0, fs0, h1, h2⟩ => ⟨g0, e0, fs0, among_cons.2 (.inr h1), h2⟩), fun hc hb => ?_⟩
      exact h.low (r1.preach hc) (Nat.le_trans hb (r1.pos hc))

theorem Spans.pos {b c l c'} (h : Spans b c l c') (hc : PReach src c) : c.pos ≤ c'.pos := by
  obtain ⟨ts, h, _⟩ := h.reads
  exact h.pos hc

theorem Spans.nest {b c l c' g s e fs} (h : Spans b c l c') (hc : PReach src c) (hb : b ≤ c.pos)
    (hx : Among (.node g s e fs) l) : b ≤ s ∧ s ≤ e ∧ e ≤ c'.pos := by
  obtain ⟨a, d, fs', f⟩ := h.found (src := src) hx
  obtain ⟨pre, hp⟩ := f.before
  obtain ⟨post, hq⟩ := f.after
  have ha := hp.preach hc
  have h1 := f.low hc hb
  have h2 := f.spans.pos ha
  obtain ⟨mid, hm, _⟩ := f.spans.reads
  have h3 := hq.pos (hm.preach ha)
  rw [f.stop]
  exact ⟨h1.1, Nat.le_trans h1.2 h2, h3⟩

/-- What is known of a node in a tree. -/
structure Placed (src : List Char) (g : Tag) (s e : Nat) (fs : List Tree) (c : PSt) (t : Tree) (c' : PSt) : Prop where
  span : ∃ pre mid post a d, Consumed c pre a ∧ Consumed a mid d ∧ Consumed d post c' ∧
    ((Tree.node g s e fs).tokens.Perm mid ∨
      post = [] ∧ ∃ u, d.symbol = .ok u ∧ (Tree.node g s e fs).tokens.Perm (mid ++ [u])) ∧
    (g.isEntry = false → s = a.pos) ∧ e = d.pos
  entry : g.isEntry = true → ∃ g0 e0 fs0, Inside (.node g0 s e0 fs0) t ∧ Among (.node g s e fs) fs0
  nest : ∀ g1 s1 e1 fs1, Inside (.node g1 s1 e1 fs1) (.node g s e fs) → s ≤ s1 ∧ s1 ≤ e1 ∧ e1 ≤ e

omit [Uni] in
theorem fields_tokens {g fs fs' s e ts} (h : arrange g fs = some fs' ∨ (arrange g fs = Option.none ∧ Interleaves fs fs'))
    (h2 : Reads fs' ts) : (Tree.node g s e fs).tokens.Perm ts := by
  have : Reads [.node g s e fs] ts := by
    rcases h with h | ⟨h, hi⟩
    · exact .node h (by rwa [List.append_nil])
    · exact .loose h hi (by rwa [List.append_nil])
  simpa [tokensList] using this.perm

theorem found_placed {g s e fs b c l c' a d fs' t} (hf : Found (src := src) g s e fs b c l c' a d fs') (hc : PReach src c)
    (hb : b ≤ c.pos) (he : g.isEntry = true → ∃ g0 e0 fs0, Inside (.node g0 s e0 fs0) t ∧ Among (.node g s e fs) fs0) :
    Placed src g s e fs c t c' := by
  obtain ⟨pre, hp⟩ := hf.before
  obtain ⟨post, hq⟩ := hf.after
  obtain ⟨mid, hm, hr⟩ := hf.spans.reads
  have ha := hp.preach hc
  refine ⟨⟨pre, mid, post, a, d, hp, hm, hq, .inl (fields_tokens hf.fields hr), hf.start, hf.stop⟩, he, ?_⟩
  intro g1 s1 e1 fs1 hi
  have hs := (hf.low hc hb).2
  rcases inside_node.1 hi with h | h
  · cases h
    rw [hf.stop]
    exact ⟨Nat.le_refl _, Nat.le_trans hs (hm.pos ha), Nat.le_refl _⟩
  · have := hf.spans.nest ha hs ((among_fields hf.fields).1 h)
    rwa [hf.stop]

theorem sp_placed {g s e fs c t c'} (h : Sp c [t] c') (hc : PReach src c) (hi : Inside (.node g s e fs) t) :
    Placed src g s e fs c t c' := by
  have hx : Among (.node g s e fs) [t] := ⟨t, List.mem_singleton_self _, hi⟩
  obtain ⟨a, d, fs', hf⟩ := (h 0).found (src := src) hx
  refine found_placed hf hc (Nat.zero_le _) fun hg => ?_
  obtain ⟨_, _, _, hf'⟩ := (h 1).found (src := src) hx
  have key : (∃ g0 e0 fs0, Among (.node g0 s e0 fs0) [t] ∧ Among (.node g s e fs) fs0) →
      ∃ g0 e0 fs0, Inside (.node g0 s e0 fs0) t ∧ Among (.node g s e fs) fs0 := by
    rintro ⟨g0, e0, fs0, ⟨y, hy, h1⟩, h2⟩
    rw [List.mem_singleton] at hy
    subst hy
    exact ⟨g0, e0, fs0, h1, h2⟩
  rcases hf.entry hg with h0 | h0
  · rcases hf'.entry hg with h1 | h1
    · omega
    · exact key h1
  · exact key h0

theorem peek_placed {g s e fs c t c' k} (h : SpPeek k c t c') (hc : PReach src c) (hi : Inside (.node g s e fs) t) :
    Placed src g s e fs c t c' := by
  obtain ⟨tag, l, l', u, rfl, hu, _, hn, ha, hs⟩ := h
  have hl : Among (.node g s e fs) l → Among (.node g s e fs) l' := fun h => by
    have := (among_fields ha).1 h
    rwa [among_append, among_cons, inside_tok, among_nil, or_false, or_false] at this
  obtain ⟨mid, hm, hr⟩ := (hs 0).reads
  rcases inside_node.1 hi with h | h
  · cases h
    refine ⟨⟨[], mid, [], c, c', .refl _, hm, .refl _, .inr ⟨rfl, u, hu, fields_tokens ha (hr.app (.tok .nil))⟩,
      fun _ => rfl, rfl⟩, fun hg => (by rw [hn] at hg; cases hg), ?_⟩
    intro g1 s1 e1 fs1 hi
    rcases inside_node.1 hi with h | h
    · cases h; exact ⟨Nat.le_refl _, hm.pos hc, Nat.le_refl _⟩
    · have := (among_fields ha).1 h
      rw [among_append, among_cons, inside_tok, among_nil, or_false, or_false] at this
      exact (hs _).nest hc (Nat.le_refl _) this
  · obtain ⟨a, d, fs', hf⟩ := (hs c.pos).found (src := src) (hl h)
    refine found_placed hf hc (Nat.le_refl _) fun hg => ?_
    rcases hf.entry hg with h0 | ⟨g0, e0, fs0, h1, h2⟩
    · subst h0; exact ⟨tag, _, l, .here _, h⟩
    · refine ⟨g0, e0, fs0, inside_node.2 (.inr ((among_fields ha).2 ?_)), h2⟩
      rw [among_append]; exact .inl h1

theorem decorators_placed {g s e fs c x c'} (h : SpPeek .Newline c x c') (hc : PReach src c)
    (hi : Inside (.node g s e fs) (.node .Decorators c.pos c'.pos [.seq [x]])) :
    Placed src g s e fs c (.node .Decorators c.pos c'.pos [.seq [x]]) c' := by
  have up {y} (h : Inside y x) : Inside y (.node .Decorators c.pos c'.pos [.seq [x]]) :=
    .node (List.mem_singleton_self _) (.seq (List.mem_singleton_self _) h)
  have down {g s e fs} (h : Among (.node g s e fs) [.seq [x]]) : Inside (.node g s e fs) x := by
    simpa only [among_cons, among_nil, inside_seq, or_false] using h
  rcases inside_node.1 hi with h1 | h1
  · cases h1
    obtain ⟨tag, l, l', u, rfl, hu, _, hn, ha, hs⟩ := h
    obtain ⟨mid, hm, hr⟩ := (hs 0).reads
    refine ⟨⟨[], mid, [], c, c', .refl _, hm, .refl _, .inr ⟨rfl, u, hu, ?_⟩, fun _ => rfl, rfl⟩,
      fun hg => (by cases hg), ?_⟩
    · have := fields_tokens (s := c.pos) (e := c'.pos) ha (hr.app (.tok (t := u) .nil))
      simpa [tokensList, Tree.tokens] using this
    · intro g1 s1 e1 fs1 hi
      rcases inside_node.1 hi with h | h
      · cases h; exact ⟨Nat.le_refl _, hm.pos hc, Nat.le_refl _⟩
      · exact (peek_placed ⟨tag, l, l', u, rfl, hu, by assumption, hn, ha, hs⟩ hc (.here _)).nest _ _ _ _ (down h)
  · have := peek_placed h hc (down h1)
    exact ⟨this.span, fun hg => by
      obtain ⟨g0, e0, fs0, h2, h3⟩ := this.entry hg
      exact ⟨g0, e0, fs0, up h2, h3⟩, this.nest⟩

theorem run_placed {n f c t c' g s e fs} (hf : f ∈ spanFns) (hc : PReach src c) (h : run n f c = .ok t c')
    (hi : Inside (.node g s e fs) t) : Placed src g s e fs (f.first c) t c' := by
  have hs := run_spans h
  rw [spanFns, List.mem_append] at hf
  rcases hf with hf | hf
  · have key : Sp1 c t c' ∧ f.first c = c := by
      simp only [ruleFns, List.mem_cons, List.not_mem_nil, or_false] at hf
      repeat' (first | exact ⟨hs, rfl⟩ | exact ⟨hs.1, rfl⟩ | (rcases hf with rfl | hf))
    rw [key.2]
    exact sp_placed key.1 hc hi
  · simp only [List.mem_cons, List.not_mem_nil, or_false] at hf
    rcases hf with rfl | rfl | rfl | rfl | rfl | rfl
    · exact peek_placed hs hc.adv hi
    · exact peek_placed hs hc.adv hi
    · rcases hs with hs | hs
      · exact sp_placed hs hc.adv hi
      · exact peek_placed hs hc.adv hi
    · exact peek_placed hs hc.adv hi
    · exact peek_placed hs hc hi
    · obtain ⟨x, hx, rfl⟩ := hs
      exact decorators_placed hx hc hi

/-! ### C25 -/

/-- C25 (partial: for every node but the entries of dictionary and set displays, see
`C25_entry_starts_at_display`): every node in the tree a parse function returns holds the tokens `mid` between
two states `a` and `d` of the parse (the outermost node of an input rule or decorator also holds the symbol
after them), and it starts where the symbol of `a`, which is its first token, starts and ends where the symbol
of `d`, the first one after its tokens, starts. -/
theorem C25_node_span_partial (src : List Char) (n : Nat) (f : Fn) (c c' : PSt) (t : Tree) (hf : f ∈ spanFns)
    (hc : PReach src c) (h : run n f c = .ok t c') (g : Tag) (s e : Nat) (fs : List Tree)
    (hi : Inside (.node g s e fs) t) (hg : g.isEntry = false) :
    ∃ pre mid post a d, Consumed (f.first c) pre a ∧ Consumed a mid d ∧ Consumed d post c' ∧
      ((Tree.node g s e fs).tokens.Perm mid ∨
        post = [] ∧ ∃ u, d.symbol = .ok u ∧ (Tree.node g s e fs).tokens.Perm (mid ++ [u])) ∧
      a.startsAt s ∧ d.startsAt e := by
  have hc1 : PReach src (f.first c) := by
    unfold Fn.first; split
    · exact hc.adv
    · exact hc.adv
    · exact hc.adv
    · exact hc.adv
    · exact hc
  obtain ⟨pre, mid, post, a, d, h1, h2, h3, h4, h5, h6⟩ := (run_placed hf hc h hi).span
  have ha := h1.preach hc1
  refine ⟨pre, mid, post, a, d, h1, h2, h3, h4, ?_, ?_⟩
  · rw [h5 hg]; exact ha.startsAt
  · rw [h6]; exact (h2.preach ha).startsAt

/-- C25: the end of every node, entries of displays too. -/
theorem C25_node_end (src : List Char) (n : Nat) (f : Fn) (c c' : PSt) (t : Tree) (hf : f ∈ spanFns)
    (hc : PReach src c) (h : run n f c = .ok t c') (g : Tag) (s e : Nat) (fs : List Tree)
    (hi : Inside (.node g s e fs) t) :
    ∃ pre mid post a d, Consumed (f.first c) pre a ∧ Consumed a mid d ∧ Consumed d post c' ∧
      ((Tree.node g s e fs).tokens.Perm mid ∨
        post = [] ∧ ∃ u, d.symbol = .ok u ∧ (Tree.node g s e fs).tokens.Perm (mid ++ [u])) ∧ d.startsAt e := by
  have hc1 : PReach src (f.first c) := by
    unfold Fn.first; split
    · exact hc.adv
    · exact hc.adv
    · exact hc.adv
    · exact hc.adv
    · exact hc
  obtain ⟨pre, mid, post, a, d, h1, h2, h3, h4, h5, h6⟩ := (run_placed hf hc h hi).span
  refine ⟨pre, mid, post, a, d, h1, h2, h3, h4, ?_⟩
  rw [h6]; exact (h2.preach (h1.preach hc1)).startsAt

/-- C25: the span of a node lies inside the span of every node around it. -/
theorem C25_nested (src : List Char) (n : Nat) (f : Fn) (c c' : PSt) (t : Tree) (hf : f ∈ spanFns)
    (hc : PReach src c) (h : run n f c = .ok t c') (g g1 : Tag) (s e s1 e1 : Nat) (fs fs1 : List Tree)
    (hi : Inside (.node g s e fs) t) (hi1 : Inside (.node g1 s1 e1 fs1) (.node g s e fs)) :
    s ≤ s1 ∧ s1 ≤ e1 ∧ e1 ≤ e := (run_placed hf hc h hi).nest _ _ _ _ hi1

/-- What the code does instead: an entry of a dictionary or set display starts where the node around it starts,
whatever is written before the entry. -/
theorem C25_entry_starts_at_display (src : List Char) (n : Nat) (f : Fn) (c c' : PSt) (t : Tree) (hf : f ∈ spanFns)
    (hc : PReach src c) (h : run n f c = .ok t c') (g : Tag) (s e : Nat) (fs : List Tree)
    (hi : Inside (.node g s e fs) t) (hg : g.isEntry = true) :
    ∃ g0 e0 fs0 y, Inside (.node g0 s e0 fs0) t ∧ y ∈ fs0 ∧ Inside (.node g s e fs) y := by
  obtain ⟨g0, e0, fs0, h1, y, h2, h3⟩ := (run_placed hf hc h hi).entry hg
  exact ⟨g0, e0, fs0, y, h1, h2, h3⟩

end

/-- In `f(x) + -y` the sum is 0 to 9, where the newline starts, and its operands are 0 to 5, where the `+`
starts, and 7 to 9. -/
example : Fn.stmt ∈ spanFns ∧ @PReach asciiUni (cs! "f(x) + -y\n") (@started asciiUni (cs! "f(x) + -y\n")) ∧
    ∃ t c', @run asciiUni 60 .stmt (@started asciiUni (cs! "f(x) + -y\n")) = .ok t c' ∧
      ((t.field 0).field 0).tag? = some .PlusArithExpr ∧ ((t.field 0).field 0).ends = some (0, 9) ∧
      (((t.field 0).field 0).field 0).ends = some (0, 5) ∧ (((t.field 0).field 0).field 2).ends = some (7, 9) :=
  ⟨by simp [spanFns, ruleFns], @PReach.adv asciiUni _ _ (@PReach.new asciiUni _), Res.shows (by decide +kernel)⟩

/-- C25, the negative part: in `{a: b, c: d}` the entry `c: d`, whose first token starts at 7, starts at 1. -/
theorem C25_entry_start_wrong :
    ∃ t c', @run asciiUni 60 .atom (@started asciiUni (cs! "{a: b, c: d}\n")) = .ok t c' ∧
      (((t.field 1).field 0).field 0).tag? = some .DictionaryEntry ∧
      (((t.field 1).field 0).field 0).ends = some (1, 11) ∧
      (((t.field 1).field 0).field 0).tokens =
        [.name 7 8 (some [.whiteSpace 6 7 ' ']) (cs! "c"), .sym .PyColon 8 9 none, .name 10 11 (some [.whiteSpace 9 10 ' ']) (cs! "d")] :=
  Res.shows (by decide +kernel)

end Verif
