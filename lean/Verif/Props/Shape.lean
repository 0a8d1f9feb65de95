import Verif.Proof.ShapeAll
import Verif.Props.Parse

/-!
# Parser: the shape of the trees (C26, C27, C39, C44)

The tables `schema`, `seps`, `returns`, `operands`, `leftOps`, `listOf` … are in `Spec/Shape.lean`.
-/

namespace Verif
open Field Sch
set_option linter.unusedVariables false

theorem allIn_mem {P : Tag → List Tree → Prop} : ∀ {l : List Tree}, AllIn P l → ∀ {y}, y ∈ l → y.All P
  | [], _, _, hy => by simp at hy
  | x :: l, ha, y, hy => by
    rw [AllIn] at ha
    rcases List.mem_cons.1 hy with rfl | hy
    · exact ha.1
    · exact allIn_mem ha.2 hy
theorem all_inside {P : Tag → List Tree → Prop} {t : Tree} (ha : t.All P) {g s e l} (h : Inside (.node g s e l) t) : P g l := by
  generalize hx : Tree.node g s e l = x at h
  induction h with
  | here => subst hx; rw [Tree.All] at ha; exact ha.1
  | seq h1 h2 ih => rw [Tree.All] at ha; exact ih (allIn_mem ha h1)
  | node h1 h2 ih => rw [Tree.All] at ha; exact ih (allIn_mem ha.2 h1)

/-! ### C44 -/

/-- What a parse function returns, for all of `returns`. -/
theorem returns_shape [Uni] {n f r c t c'} (hf : (f, r) ∈ returns) (h : run n f c = .ok t c') : Sh r t := by
  have hs := run_shape h
  simp only [returns, List.mem_cons, List.not_mem_nil, Prod.mk.injEq] at hf
  repeat' (first | exact hs | exact hs.1 | exact hf.elim | (rcases hf with ⟨rfl, rfl⟩ | hf))

/-- C44: a tree returned by a parse function has a root of the variants that this function may return, and every
node inside it has the fields of its variant, with the right number of separators. -/
theorem C44_tree_shape [Uni] (n : Nat) (f : Fn) (r : Field) (c c' : PSt) (t : Tree) (hf : (f, r) ∈ returns)
    (h : run n f c = .ok t c') :
    Has r t ∧ ∀ g s e fs, Inside (.node g s e fs) t → (∃ fields ∈ schema g, HasAll fields fs) ∧ seps g fs := by
  have hs := returns_shape hf h
  exact ⟨hs.2, fun g s e fs hi => all_inside hs.1 hi⟩

example : (Fn.stmt, Sch.stmt) ∈ returns ∧
    ∃ t c', @run asciiUni 60 .stmt (@started asciiUni (cs! "with a, b.c(d): e, = 1\nf")) = .ok t c' ∧
      t.tag? = some .WithStmt ∧ t.tokens.length = 15 :=
  ⟨by simp [returns], Res.shows (by decide +kernel)⟩

/-- C44 for lambdas, whose first token is tested by the callers. -/
theorem C44_lambda_shape [Uni] (n : Nat) (b : Bool) (c c' : PSt) (t : Tree) (u : Token)
    (hu : c.symbol = .ok u) (hk : u.kind = .PyLambda) (h : run n (.lambdaDef b) c = .ok t c') :
    Has (is [.Lambda]) t ∧ ∀ g s e fs, Inside (.node g s e fs) t → (∃ fields ∈ schema g, HasAll fields fs) ∧ seps g fs := by
  have hs : Sh (is [.Lambda]) t := run_shape h (curIs hu hk)
  exact ⟨hs.2, fun g s e fs hi => all_inside hs.1 hi⟩

example : ∃ t c', @run asciiUni 60 (.lambdaDef true) (@started asciiUni (cs! "lambda a, *b, **c: a or b")) = .ok t c' ∧
    t.tag? = some .Lambda := Res.shows (by decide +kernel)

/-- C44: `match` statements never yield a tree. -/
theorem C44_match_never_returns [Uni] (n : Nat) (c c' : PSt) (t : Tree) : run n .patternsMatch c ≠ .ok t c' :=
  fun h => run_shape h

/-! ### C26 -/

theorem hasAll_nil {xs} : HasAll [] xs ↔ xs = [] := by cases xs <;> simp [HasAll]
theorem hasAll_cons {f fs xs} : HasAll (f :: fs) xs ↔ ∃ x l, xs = x :: l ∧ Has f x ∧ HasAll fs l := by
  cases xs with
  | nil => simp [HasAll]
  | cons y l =>
    simp only [HasAll, List.cons.injEq]
    exact ⟨fun h => ⟨y, l, ⟨rfl, rfl⟩, h⟩, fun ⟨_, _, ⟨h1, h2⟩, h⟩ => by subst h1 h2; exact h⟩
theorem hasAll2 {f1 f2 xs} (h : HasAll [f1, f2] xs) : ∃ a b, xs = [a, b] ∧ Has f1 a ∧ Has f2 b := by
  simp only [hasAll_cons, hasAll_nil] at h
  obtain ⟨a, _, rfl, ha, b, _, rfl, hb, rfl⟩ := h
  exact ⟨a, b, rfl, ha, hb⟩
theorem hasAll3 {f1 f2 f3 xs} (h : HasAll [f1, f2, f3] xs) : ∃ a b c, xs = [a, b, c] ∧ Has f1 a ∧ Has f2 b ∧ Has f3 c := by
  simp only [hasAll_cons, hasAll_nil] at h
  obtain ⟨a, _, rfl, ha, b, _, rfl, hb, c, _, rfl, hc, rfl⟩ := h
  exact ⟨a, b, c, rfl, ha, hb, hc⟩
theorem hasAll4 {f1 f2 f3 f4 xs} (h : HasAll [f1, f2, f3, f4] xs) :
    ∃ a b c d, xs = [a, b, c, d] ∧ Has f1 a ∧ Has f2 b ∧ Has f3 c ∧ Has f4 d := by
  obtain ⟨a, l, rfl, ha, h⟩ := hasAll_cons.1 h
  obtain ⟨b, c, d, rfl, h2⟩ := hasAll3 h
  exact ⟨a, b, c, d, rfl, ha, h2⟩
theorem hasAll5 {f1 f2 f3 f4 f5 xs} (h : HasAll [f1, f2, f3, f4, f5] xs) :
    ∃ a b c d e, xs = [a, b, c, d, e] ∧ Has f1 a ∧ Has f2 b ∧ Has f3 c ∧ Has f4 d ∧ Has f5 e := by
  obtain ⟨a, l, rfl, ha, h⟩ := hasAll_cons.1 h
  obtain ⟨b, c, d, e, rfl, h2⟩ := hasAll4 h
  exact ⟨a, b, c, d, e, rfl, ha, h2⟩

theorem nodeOk_operands {g fs} (h : NodeOk g fs) (hg : 1 ≤ g.strength) (hg2 : g.strength ≤ 15) :
    ∃ xs, operands g fs = some xs ∧ ∀ x ∈ xs, 1 ≤ x.strength ∧
      (g.strength ≤ x.strength ∨ g = .PowerExpr ∧ fs[2]? = some x ∧ 13 ≤ x.strength) := by
  obtain ⟨⟨fields, hf, ha⟩, -⟩ := h
  cases g <;> simp only [Tag.strength] at hg hg2 <;> first | omega | skip
  all_goals
    simp only [schema, bin, un, List.mem_cons, List.not_mem_nil, or_false] at hf
    (first | (subst hf) | (rcases hf with rfl | rfl))
    all_goals
      first
      | (obtain ⟨a, b, rfl, h1, h2⟩ := hasAll2 ha
         refine ⟨_, rfl, ?_⟩
         simp only [has_e] at h2
         simp only [List.mem_cons, List.not_mem_nil, or_false, forall_eq, Tag.strength, reduceCtorEq, false_and, or_false]
         omega)
      | (obtain ⟨a, b, c, rfl, h1, h2, h3⟩ := hasAll3 ha
         refine ⟨_, rfl, ?_⟩
         simp only [has_e] at h1 h3
         simp only [List.mem_cons, List.not_mem_nil, or_false, forall_eq_or_imp, forall_eq, Tag.strength, reduceCtorEq, false_and, or_false]
         first | omega | exact ⟨by omega, by omega, .inr ⟨trivial, rfl, h3⟩⟩)
      | (obtain ⟨a, b, c, rfl, h1, h2, h3⟩ := hasAll3 ha
         refine ⟨_, rfl, ?_⟩
         simp only [has_e] at h2
         simp only [List.mem_cons, List.not_mem_nil, or_false, forall_eq_or_imp, forall_eq, Tag.strength, reduceCtorEq, false_and, or_false]
         omega)
      | (obtain ⟨a, b, c, d, rfl, h1, h2, h3, h4⟩ := hasAll4 ha
         refine ⟨_, rfl, ?_⟩
         (try simp only [has_e] at h1); simp only [has_e] at h4
         simp only [List.mem_cons, List.not_mem_nil, or_false, forall_eq_or_imp, forall_eq, Tag.strength, reduceCtorEq, false_and, or_false]
         omega)
      | (obtain ⟨a, b, c, d, e, rfl, h1, h2, h3, h4, h5⟩ := hasAll5 ha
         refine ⟨_, rfl, ?_⟩
         simp only [has_e] at h1 h3 h5
         simp only [List.mem_cons, List.not_mem_nil, or_false, forall_eq_or_imp, forall_eq, Tag.strength, reduceCtorEq, false_and, or_false]
         omega)

/-- C26: in a tree returned by a parse function, an operand of an operator node is an expression that binds at
least as strongly as the operator.  The one exception is Python's: the right operand of `**` may be a unary `+`,
`-` or `~`. -/
theorem C26_precedence [Uni] (n : Nat) (f : Fn) (r : Field) (c c' : PSt) (t : Tree) (hf : (f, r) ∈ returns)
    (h : run n f c = .ok t c') (g : Tag) (s e : Nat) (fs : List Tree) (hi : Inside (.node g s e fs) t)
    (hg : 1 ≤ g.strength) (hg2 : g.strength ≤ 15) :
    ∃ xs, operands g fs = some xs ∧ ∀ x ∈ xs, 1 ≤ x.strength ∧
      (g.strength ≤ x.strength ∨ g = .PowerExpr ∧ fs[2]? = some x ∧ 13 ≤ x.strength) :=
  nodeOk_operands (all_inside (returns_shape hf h).1 hi) hg hg2

/-- The weaker operator is on top, however it is written. -/
example : (∃ t c', @run asciiUni 60 .test (@started asciiUni (cs! "not a + b * c ** -d < e and f
")) = .ok t c' ∧
      t.tag? = some .AndTest) ∧
    ∃ t c', @run asciiUni 60 .test (@started asciiUni (cs! "a ** b * c + d << e & f ^ g | h
")) = .ok t c' ∧
      t.tag? = some .Expr := ⟨Res.shows (by decide +kernel), Res.shows (by decide +kernel)⟩

/-! ### C27 -/

/-- C27: the right operand of a binary operator that groups from the left binds more strongly than that operator,
so a chain of operators of one level nests to the left. -/
theorem C27_left_associative [Uni] (n : Nat) (f : Fn) (r : Field) (c c' : PSt) (t : Tree) (hf : (f, r) ∈ returns)
    (h : run n f c = .ok t c') (g : Tag) (s e : Nat) (fs : List Tree) (hi : Inside (.node g s e fs) t)
    (hg : g ∈ leftOps) : ∃ x y, operands g fs = some [x, y] ∧ g.strength ≤ x.strength ∧ g.strength < y.strength := by
  obtain ⟨⟨fields, hfs, ha⟩, -⟩ := all_inside (returns_shape hf h).1 hi
  simp only [leftOps, List.mem_cons, List.not_mem_nil] at hg
  repeat' (first | exact hg.elim | (rcases hg with rfl | hg))
  all_goals
    simp only [schema, bin, List.mem_cons, List.not_mem_nil, or_false] at hfs
    subst hfs
    first
    | (obtain ⟨a, b, c, rfl, h1, h2, h3⟩ := hasAll3 ha
       exact ⟨_, _, rfl, h1, h3⟩)
    | (obtain ⟨a, b, c, d, rfl, h1, h2, h3, h4⟩ := hasAll4 ha
       exact ⟨_, _, rfl, h1, h4⟩)

/-- `a - b - c` is `(a - b) - c`, `a < b in c` is `(a < b) in c`. -/
example : (∃ t c', @run asciiUni 60 .test (@started asciiUni (cs! "a - b - c\n")) = .ok t c' ∧
      t.tag? = some .MinusArithExpr ∧ (t.field 0).tag? = some .MinusArithExpr ∧ (t.field 2).tag? = some .AtomName) ∧
    ∃ t c', @run asciiUni 60 .test (@started asciiUni (cs! "a < b in c\n")) = .ok t c' ∧
      t.tag? = some .InComparison ∧ (t.field 0).tag? = some .LessComparison ∧ (t.field 2).tag? = some .AtomName :=
  ⟨Res.shows (by decide +kernel), Res.shows (by decide +kernel)⟩

/-- C27: the left operand of `**` and the first two operands of `… if … else …` bind more strongly than the
operator, so chains of these nest to the right. -/
theorem C27_right_associative [Uni] (n : Nat) (f : Fn) (r : Field) (c c' : PSt) (t : Tree) (hf : (f, r) ∈ returns)
    (h : run n f c = .ok t c') (s e : Nat) (fs : List Tree) :
    (Inside (.node .PowerExpr s e fs) t → ∃ x y, operands .PowerExpr fs = some [x, y] ∧
      Tag.strength .PowerExpr < x.strength) ∧
    (Inside (.node .Test s e fs) t → ∃ x y z, operands .Test fs = some [x, y, z] ∧
      Tag.strength .Test < x.strength ∧ Tag.strength .Test < y.strength) := by
  constructor
  · intro hi
    obtain ⟨⟨fields, hfs, ha⟩, -⟩ := all_inside (returns_shape hf h).1 hi
    simp only [schema, bin, List.mem_cons, List.not_mem_nil, or_false] at hfs
    subst hfs
    obtain ⟨a, b, c, rfl, h1, h2, h3⟩ := hasAll3 ha
    exact ⟨_, _, rfl, h1⟩
  · intro hi
    obtain ⟨⟨fields, hfs, ha⟩, -⟩ := all_inside (returns_shape hf h).1 hi
    simp only [schema, bin, List.mem_cons, List.not_mem_nil, or_false] at hfs
    subst hfs
    obtain ⟨a, b, c, d, e, rfl, h1, h2, h3, h4, h5⟩ := hasAll5 ha
    exact ⟨_, _, _, rfl, h1, h3⟩

/-- `a ** b ** c` is `a ** (b ** c)`, `a if b else c if d else e` is `a if b else (c if d else e)`. -/
example : (∃ t c', @run asciiUni 60 .test (@started asciiUni (cs! "a ** b ** c\n")) = .ok t c' ∧
      t.tag? = some .PowerExpr ∧ (t.field 0).tag? = some .AtomName ∧ (t.field 2).tag? = some .PowerExpr) ∧
    ∃ t c', @run asciiUni 60 .test (@started asciiUni (cs! "a if b else c if d else e\n")) = .ok t c' ∧
      t.tag? = some .Test ∧ (t.field 0).tag? = some .AtomName ∧ (t.field 4).tag? = some .Test :=
  ⟨Res.shows (by decide +kernel), Res.shows (by decide +kernel)⟩

/-! ### C39 -/

theorem reads_append {a b ts} (h : Reads (a ++ b) ts) : ∃ us vs, ts = us ++ vs ∧ Reads a us ∧ Reads b vs := by
  generalize hl : a ++ b = l at h
  induction h generalizing a b with
  | nil =>
    obtain ⟨rfl, rfl⟩ := List.append_eq_nil_iff.1 hl
    exact ⟨[], [], rfl, .nil, .nil⟩
  | none h ih =>
    cases a with
    | nil => subst hl; exact ⟨[], _, rfl, .nil, .none h⟩
    | cons x a =>
      simp only [List.cons_append, List.cons.injEq] at hl
      obtain ⟨rfl, hl⟩ := hl
      obtain ⟨us, vs, rfl, h1, h2⟩ := ih hl
      exact ⟨us, vs, rfl, .none h1, h2⟩
  | tok h ih =>
    cases a with
    | nil => subst hl; exact ⟨[], _, rfl, .nil, .tok h⟩
    | cons x a =>
      simp only [List.cons_append, List.cons.injEq] at hl
      obtain ⟨rfl, hl⟩ := hl
      obtain ⟨us, vs, rfl, h1, h2⟩ := ih hl
      exact ⟨_ :: us, vs, rfl, .tok h1, h2⟩
  | seq h ih =>
    cases a with
    | nil => subst hl; exact ⟨[], _, rfl, .nil, .seq h⟩
    | cons x a =>
      simp only [List.cons_append, List.cons.injEq] at hl
      obtain ⟨rfl, rfl⟩ := hl
      obtain ⟨us, vs, rfl, h1, h2⟩ := ih (List.append_assoc _ _ _)
      exact ⟨us, vs, rfl, .seq h1, h2⟩
  | node ha h ih =>
    cases a with
    | nil => subst hl; exact ⟨[], _, rfl, .nil, .node ha h⟩
    | cons x a =>
      simp only [List.cons_append, List.cons.injEq] at hl
      obtain ⟨rfl, rfl⟩ := hl
      obtain ⟨us, vs, rfl, h1, h2⟩ := ih (List.append_assoc _ _ _)
      exact ⟨us, vs, rfl, .node ha h1, h2⟩
  | loose ha hi h ih =>
    cases a with
    | nil => subst hl; exact ⟨[], _, rfl, .nil, .loose ha hi h⟩
    | cons x a =>
      simp only [List.cons_append, List.cons.injEq] at hl
      obtain ⟨rfl, rfl⟩ := hl
      obtain ⟨us, vs, rfl, h1, h2⟩ := ih (List.append_assoc _ _ _)
      exact ⟨us, vs, rfl, .loose ha hi h1, h2⟩

theorem reads_mem {l x ts} (h : Reads l ts) (hx : x ∈ l) : ∃ a us b, ts = a ++ us ++ b ∧ Reads [x] us := by
  obtain ⟨l1, l2, rfl⟩ := List.append_of_mem hx
  obtain ⟨us, vs, rfl, h1, h2⟩ := reads_append h
  obtain ⟨us', vs', rfl, h3, h4⟩ := reads_append (a := [x]) h2
  exact ⟨us, us', vs', by simp, h3⟩

/-- Every field, and every element of a list field, is among the arranged fields. -/
def FieldsIn (fs fs' : List Tree) : Prop :=
  ∀ y ∈ fs, y = .none ∨ y ∈ fs' ∨ ∃ xs, y = .seq xs ∧ ∀ z ∈ xs, z = .none ∨ z ∈ fs'

theorem mem_alternate {x} : ∀ {a b : List Tree}, x ∈ alternate a b ↔ x ∈ a ∨ x ∈ b := by
  intro a b
  rw [(alternate_perm a b).mem_iff, List.mem_append]

theorem covers_arrange {tag fs fs'} (h : arrange tag fs = some fs') : FieldsIn fs fs' := by
  unfold arrange at h
  split at h <;> cases h <;> first
    | exact fun y hy => .inr (.inl hy)
    | (simp only [FieldsIn, List.forall_mem_cons, List.not_mem_nil, false_implies, implies_true, and_true]
       repeat' apply And.intro
       all_goals first
        | (refine .inr (.inl ?_)
           simp only [List.mem_cons, List.mem_append, List.cons_append, true_or, or_true, List.nil_append]; done)
        | (refine .inr (.inr ⟨_, rfl, fun z hz => .inr ?_⟩)
           simp only [List.mem_cons, List.mem_append, List.cons_append, mem_alternate, List.mem_reverse, hz, true_or, or_true]))

theorem mem_present {x l} : x ∈ present l ↔ x ∈ l ∧ x ≠ .none := by
  unfold present
  rw [List.mem_filter]
  cases x <;> simp

theorem covers_loose {fs fs'} (h : Interleaves fs fs') : FieldsIn fs fs' := by
  unfold Interleaves at h
  split at h
  · rename_i ns ss rest
    obtain ⟨hp, -, -⟩ := h
    have hm {z} (hz : z ∈ ns ∨ z ∈ ss ∨ z ∈ rest) : z = .none ∨ z ∈ fs' := by
      by_cases hn : z = .none
      · exact .inl hn
      · refine .inr (hp.mem_iff.2 (mem_present.2 ⟨?_, hn⟩))
        simpa only [List.mem_append, or_assoc] using hz
    intro y hy
    rcases List.mem_cons.1 hy with rfl | hy
    · exact .inr (.inr ⟨_, rfl, fun z hz => hm (.inl hz)⟩)
    rcases List.mem_cons.1 hy with rfl | hy
    · exact .inr (.inr ⟨_, rfl, fun z hz => hm (.inr (.inl hz))⟩)
    · rcases hm (.inr (.inr hy)) with h | h
      · exact .inl h
      · exact .inr (.inl h)
  · exact h.elim

theorem reads_inside {x t} (hi : Inside x t) (hx : ∀ l, x ≠ .seq l) (hx2 : x ≠ .none) :
    (∀ ts, Reads [t] ts → ∃ a us b, ts = a ++ us ++ b ∧ Reads [x] us) ∧
    ∀ xs, t = .seq xs → ∀ fs' ts, (∀ z ∈ xs, z = .none ∨ z ∈ fs') → Reads fs' ts → ∃ a us b, ts = a ++ us ++ b ∧ Reads [x] us := by
  induction hi with
  | here => exact ⟨fun ts h => ⟨[], ts, [], by simp, h⟩, fun xs h => absurd h (hx xs)⟩
  | @seq y l hy hi ih =>
    obtain ⟨ih1, ih2⟩ := ih
    have key : ∀ fs' ts, (∀ z ∈ l, z = .none ∨ z ∈ fs') → Reads fs' ts → ∃ a us b, ts = a ++ us ++ b ∧ Reads [x] us := by
      intro fs' ts hz h
      rcases hz y hy with rfl | hz
      · cases hi; exact absurd rfl hx2
      · obtain ⟨a, us, b, rfl, h1⟩ := reads_mem h hz
        obtain ⟨a', us', b', rfl, h2⟩ := ih1 _ h1
        exact ⟨a ++ a', us', b' ++ b, by simp, h2⟩
    refine ⟨fun ts h => ?_, fun xs hxs => by cases hxs; exact key⟩
    cases h with
    | seq h => exact key _ _ (fun z hz => .inr (by simpa using hz)) h
  | @node y tag s e l hy hi ih =>
    obtain ⟨ih1, ih2⟩ := ih
    refine ⟨fun ts h => ?_, fun xs hxs => by cases hxs⟩
    have key : ∀ fs', FieldsIn l fs' → Reads (fs' ++ []) ts → ∃ a us b, ts = a ++ us ++ b ∧ Reads [x] us := by
      intro fs' hc h
      rw [List.append_nil] at h
      rcases hc y hy with rfl | hz | ⟨xs, rfl, hz⟩
      · cases hi; exact absurd rfl hx2
      · obtain ⟨a, us, b, rfl, h1⟩ := reads_mem h hz
        obtain ⟨a', us', b', rfl, h2⟩ := ih1 _ h1
        exact ⟨a ++ a', us', b' ++ b, by simp, h2⟩
      · exact ih2 xs rfl fs' ts hz h
    cases h with
    | node ha h => exact key _ (covers_arrange ha) h
    | loose ha hl h => exact key _ (covers_loose hl) h

/-- What C39 says of one list node. -/
theorem nodeOk_list {g fs k} (h : NodeOk g fs) (hk : listSep g = some k) :
    ∃ ns ss : List Tree, listOf g fs = some (ns, ss) ∧ ns ≠ [] ∧ (∀ x ∈ ss, ∃ u, x = .tok u ∧ u.kind = k) ∧
      (ss.length + 1 = ns.length ∨ mayTrail g fs ∧ ss.length = ns.length ∨
        g = .TestListComp ∧ ss = [] ∧ ∃ x y, ns = [x, y] ∧ Has elem x ∧ Has comp y) := by
  obtain ⟨⟨fields, hf, ha⟩, hs⟩ := h
  have hlist : ∀ {f x}, Has (many1 f) x → ∃ l, x = .seq l ∧ l ≠ [] := fun h => by
    rw [Has] at h; obtain ⟨l, h1, h2, -⟩ := h; exact ⟨l, h1, h2⟩
  have htoks : ∀ {k x}, Has (many (Sch.k k)) x → ∃ l, x = .seq l ∧ ∀ x ∈ l, ∃ u, x = .tok u ∧ u.kind = k := fun h => by
    rw [Has] at h
    obtain ⟨l, rfl, h⟩ := h
    exact ⟨l, rfl, fun x hx => by simpa [Has] using h x hx⟩
  have hrev : ∀ {k} {l : List Tree}, (∀ x ∈ l, ∃ u, x = .tok u ∧ u.kind = k) → ∀ x ∈ l.reverse, ∃ u, x = .tok u ∧ u.kind = k :=
    fun h x hx => h x (List.mem_reverse.1 hx)
  cases g <;> simp only [listSep, reduceCtorEq, Option.some.injEq] at hk <;> subst hk <;>
    simp only [schema, commas, List.mem_cons, List.not_mem_nil, or_false] at hf
  case TestListComp =>
    have hns : ∃ ns ss : List Tree, fs = [.seq ns, .seq ss] ∧ ns ≠ [] ∧ ∀ x ∈ ss, ∃ u, x = .tok u ∧ u.kind = Kind.PyComa := by
      rcases hf with rfl | rfl
      · obtain ⟨x, y, rfl, h1, h2⟩ := hasAll2 ha
        obtain ⟨ns, rfl, hn⟩ := hlist h1
        obtain ⟨ss, rfl, h3⟩ := htoks h2
        exact ⟨ns, ss, rfl, hn, h3⟩
      · obtain ⟨x, y, rfl, h1, h2⟩ := hasAll2 ha
        rw [Has] at h1
        simp only [Has] at h2
        obtain ⟨a, b, rfl, -, -⟩ := h1
        subst h2
        exact ⟨_, _, rfl, by simp, by simp⟩
    obtain ⟨ns, ss, rfl, hn, h3⟩ := hns
    refine ⟨_, _, rfl, by simpa using hn, hrev h3, ?_⟩
    rcases hs with hs | ⟨hs, hl⟩
    · exact .inl (by simpa [Tree.len] using hs)
    · refine .inr (.inr ⟨rfl, by simpa [Tree.len] using hl, ?_⟩)
      rw [Has] at hs
      obtain ⟨a, b, h, ha', hb⟩ := hs
      cases h
      exact ⟨b, a, rfl, hb, ha'⟩
  case WithStmt =>
    have hns : ∃ (a b x y z : Tree) (ns ss : List Tree), fs = [a, b, .seq ns, .seq ss, x, y, z] ∧ ns ≠ [] ∧
        ∀ x ∈ ss, ∃ u, x = .tok u ∧ u.kind = Kind.PyComa := by
      rcases hf with rfl | rfl <;>
      · obtain ⟨a, l, rfl, -, ha⟩ := hasAll_cons.1 ha
        obtain ⟨b, l, rfl, -, ha⟩ := hasAll_cons.1 ha
        obtain ⟨x, y, z, p, q, rfl, h1, h2, -⟩ := hasAll5 ha
        obtain ⟨ns, rfl, hn⟩ := hlist h1
        obtain ⟨ss, rfl, h3⟩ := htoks h2
        exact ⟨_, _, _, _, _, ns, ss, rfl, hn, h3⟩
    obtain ⟨a, b, x, y, z, ns, ss, rfl, hn, h3⟩ := hns
    refine ⟨_, _, rfl, by simpa using hn, hrev h3, ?_⟩
    rcases hs with hs | ⟨hs, hl⟩
    · exact .inl (by simpa [Tree.len, sepBetween] using hs)
    · exact .inr (.inl ⟨hs, by simpa [Tree.len] using hl⟩)
  case SimpleStmtList =>
    subst hf
    obtain ⟨x, y, z, rfl, h1, h2, -⟩ := hasAll3 ha
    obtain ⟨ns, rfl, hn⟩ := hlist h1
    obtain ⟨ss, rfl, h3⟩ := htoks h2
    refine ⟨_, _, rfl, by simpa using hn, hrev h3, ?_⟩
    rcases hs with hs | hs
    · exact .inl (by simpa [Tree.len] using hs)
    · exact .inr (.inl ⟨trivial, by simpa [Tree.len] using hs⟩)
  case GlobalStmt | NonLocalStmt =>
    subst hf
    obtain ⟨z, x, y, rfl, -, h1, h2⟩ := hasAll3 ha
    obtain ⟨ns, rfl, hn⟩ := hlist h1
    obtain ⟨ss, rfl, h3⟩ := htoks h2
    exact ⟨_, _, rfl, by simpa using hn, hrev h3, .inl (by simpa [Tree.len, seps, sepBetween] using hs)⟩
  case ExprList | TestList =>
    subst hf
    obtain ⟨x, y, rfl, h1, h2⟩ := hasAll2 ha
    obtain ⟨ns, rfl, hn⟩ := hlist h1
    obtain ⟨ss, rfl, h3⟩ := htoks h2
    refine ⟨_, _, rfl, hn, h3, ?_⟩
    rcases hs with ⟨hs | hs, -⟩
    · exact .inl (by simpa [Tree.len] using hs)
    · exact .inr (.inl ⟨trivial, by simpa [Tree.len] using hs⟩)
  all_goals
    subst hf
    obtain ⟨x, y, rfl, h1, h2⟩ := hasAll2 ha
    obtain ⟨ns, rfl, hn⟩ := hlist h1
    obtain ⟨ss, rfl, h3⟩ := htoks h2
    refine ⟨_, _, rfl, by simpa using hn, hrev h3, ?_⟩
    first
    | exact .inl (by simpa [Tree.len, seps, sepBetween] using hs)
    | (rcases hs with hs | hs
       · exact .inl (by simpa [Tree.len] using hs)
       · exact .inr (.inl ⟨trivial, by simpa [Tree.len] using hs⟩))
    | (rcases hs with ⟨hs | hs, -⟩
       · exact .inl (by simpa [Tree.len] using hs)
       · exact .inr (.inl ⟨trivial, by simpa [Tree.len] using hs⟩))

theorem reads_list {g s e fs ns ss us} (hl : listOf g fs = some (ns, ss)) (h : Reads [.node g s e fs] us) :
    ∃ a vs b, us = a ++ vs ++ b ∧ Reads (alternate ns ss) vs := by
  have key : ∀ p q : List Tree, arrange g fs = some (p ++ alternate ns ss ++ q) →
      ∃ a vs b, us = a ++ vs ++ b ∧ Reads (alternate ns ss) vs := by
    intro p q ha
    cases h with
    | node ha' h =>
      rw [ha'] at ha
      cases ha
      rw [List.append_nil] at h
      obtain ⟨us, vs, rfl, h1, h2⟩ := reads_append h
      obtain ⟨us', vs', rfl, h3, h4⟩ := reads_append h1
      exact ⟨us', vs', vs, by simp, h4⟩
    | loose ha' => rw [ha] at ha'; cases ha'
  unfold listOf at hl
  split at hl <;> cases hl <;> first
    | (refine key [] [] ?_; simp [arrange]; done)
    | (rename_i nl; refine key [] [nl] ?_; simp [arrange]; done)
    | (rename_i nl _ _; refine key [nl] [] ?_; simp [arrange]; done)
    | (rename_i p q _ _ x y z; refine key [p, q] [x, y, z] ?_; simp [arrange]; done)

/-- C39: a list node inside a tree that a parse function returned holds elements and separators of the kind
that belongs to it.  There is one separator between two elements, and perhaps one at the end; the tokens of the list stand in the
input next to each other, and they are the elements and separators of the node in turn, read from the front in
`ExprList` and `TestList` and from the back in all other list nodes (`listOf`).  The only list node with neighbours that are not separated is
the `TestListComp` node of a comprehension. -/
theorem C39_lists [Uni] (n : Nat) (f : Fn) (r : Field) (c c' : PSt) (t : Tree) (hf : (f, r) ∈ returns) (hf2 : f ∈ ruleFns)
    (h : run n f c = .ok t c') (g : Tag) (k : Kind) (s e : Nat) (fs : List Tree) (hk : listSep g = some k)
    (hi : Inside (.node g s e fs) t) :
    ∃ ns ss : List Tree, listOf g fs = some (ns, ss) ∧ ns ≠ [] ∧ (∀ x ∈ ss, ∃ u, x = .tok u ∧ u.kind = k) ∧
      (ss.length + 1 = ns.length ∨ mayTrail g fs ∧ ss.length = ns.length ∨
        g = .TestListComp ∧ ss = [] ∧ ∃ x y, ns = [x, y] ∧ Has elem x ∧ Has comp y) ∧
      ∃ a us b, Consumed c (a ++ us ++ b) c' ∧ Reads (alternate ns ss) us := by
  obtain ⟨ns, ss, h1, h2, h3, h4⟩ := nodeOk_list (all_inside (returns_shape hf h).1 hi) hk
  obtain ⟨ts, hc, hr, -⟩ := C24_tree_holds_consumed_tokens n f c c' t hf2 h
  obtain ⟨a, us, b, rfl, h5⟩ := (reads_inside hi (by simp) (by simp)).1 _ hr
  obtain ⟨a', vs, b', rfl, h6⟩ := reads_list h1 h5
  exact ⟨ns, ss, h1, h2, h3, h4, a ++ a', vs, b' ++ b, by simpa using hc, h6⟩

/-- C39 for the three input functions that read to the end of the file. -/
theorem C39_lists_in_inputs [Uni] (n : Nat) (f : Fn) (src : List Char) (c' : PSt) (t : Tree)
    (hf : f = .evalInput ∨ f = .fileInput ∨ f = .funcTypeInput) (h : run n f (PSt.new (Lexer.new src)) = .ok t c')
    (g : Tag) (k : Kind) (s e : Nat) (fs : List Tree) (hk : listSep g = some k) (hi : Inside (.node g s e fs) t) :
    ∃ ns ss : List Tree, listOf g fs = some (ns, ss) ∧ ns ≠ [] ∧ (∀ x ∈ ss, ∃ u, x = .tok u ∧ u.kind = k) ∧
      (ss.length + 1 = ns.length ∨ mayTrail g fs ∧ ss.length = ns.length ∨
        g = .TestListComp ∧ ss = [] ∧ ∃ x y, ns = [x, y] ∧ Has elem x ∧ Has comp y) ∧
      ∃ a us b, Tokens (Lexer.new src) (a ++ us ++ b) c'.lex ∧ Reads (alternate ns ss) us := by
  have hr : ∃ r, (f, r) ∈ returns := by
    rcases hf with rfl | rfl | rfl
    · exact ⟨_, show (Fn.evalInput, is [.EvalInput]) ∈ returns by simp [returns]⟩
    · exact ⟨_, show (Fn.fileInput, is [.FileInput]) ∈ returns by simp [returns]⟩
    · exact ⟨_, show (Fn.funcTypeInput, is [.FuncTypeInput]) ∈ returns by simp [returns]⟩
  obtain ⟨r, hr⟩ := hr
  obtain ⟨ns, ss, h1, h2, h3, h4⟩ := nodeOk_list (all_inside (returns_shape hr h).1 hi) hk
  obtain ⟨ts, u, hc, -, hr, -⟩ := C22_whole_input_used n f src c' t hf h
  generalize ts ++ [u] = ts at hc hr
  obtain ⟨a, us, b, rfl, h5⟩ := (reads_inside hi (by simp) (by simp)).1 _ hr
  obtain ⟨a', vs, b', rfl, h6⟩ := reads_list h1 h5
  exact ⟨ns, ss, h1, h2, h3, h4, a ++ a', vs, b' ++ b, by simpa using hc, h6⟩

/-- A list with three elements, two separators between them and one at the end. -/
example : ∃ t c', @run asciiUni 60 .evalInput (PSt.new (Lexer.new (cs! "a, b, c,\n"))) = .ok t c' ∧
    (t.field 0).tag? = some .TestList ∧ ((t.field 0).field 0).len = 3 ∧ ((t.field 0).field 1).len = 3 ∧
    listSep .TestList = some .PyComa := Res.shows (by decide +kernel)

/-- What tells the orders apart: the first element comes first in a `TestList`, last in a `TestListStarExpr`. -/
example : (∃ t c', @run asciiUni 60 .testlist (@started asciiUni (cs! "1, b\n")) = .ok t c' ∧
      t.tag? = some .TestList ∧ ((t.field 0).field 0).tag? = some .AtomNumber) ∧
    ∃ t c', @run asciiUni 60 .testlistStarExpr (@started asciiUni (cs! "1, b\n")) = .ok t c' ∧
      t.tag? = some .TestListStarExpr ∧ ((t.field 0).field 0).tag? = some .AtomName :=
  ⟨Res.shows (by decide +kernel), Res.shows (by decide +kernel)⟩

end Verif
