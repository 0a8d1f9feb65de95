import Verif.Props.Spans
import Verif.Proof.NotNL
import Verif.Proof.SpansStmt
import Verif.Props.Inject

/-!
# A tree with its positions determines its tokens, also in parameter lists
-/

namespace Verif
open Prog
set_option linter.unusedSimpArgs false

/-! ### Fields that hold a token with a span -/

/-- Kinds of tokens that take up text. -/
def Kind.solid (k : Kind) : Bool := k ≠ .Indent ∧ k ≠ .Dedent ∧ k ≠ .EOF

/-- Such a field holds a token that takes up text, if expressions that bind at least as strongly as `b` do. -/
def Field.surely (b : Nat) : Field → Bool
  | .t ks => ks.all Kind.solid
  | .e k => b ≤ k
  | .many1 f => f.surely b
  | .or f g => f.surely b && g.surely b
  | .pair f g => f.surely b || g.surely b
  | _ => false

def Tree.hasSolid (x : Tree) : Prop := ∃ u ∈ x.tokens, u.kind.solid = true

theorem tokensList_of_mem {x : Tree} {u} (hu : u ∈ x.tokens) : ∀ {l}, x ∈ l → u ∈ tokensList l
  | y :: l, h => by
    rw [tokensList]
    rcases List.mem_cons.1 h with rfl | h
    · exact List.mem_append_left _ hu
    · exact List.mem_append_right _ (tokensList_of_mem hu h)

theorem has_surely {b : Nat} {P : Tree → Prop} (hb : ∀ x, P x → b ≤ x.strength → x.hasSolid)
    (hP : ∀ l, P (.seq l) → ∀ x ∈ l, P x) :
    ∀ {f : Field} {x : Tree}, Has f x → f.surely b = true → P x → x.hasSolid
  | .t ks, _, ⟨u, h, hk⟩, hf, _ => by
    subst h
    exact ⟨u, by simp [Tree.tokens], List.all_eq_true.1 hf _ hk⟩
  | .e k, x, h, hf, hp => hb x hp (by simp [Field.surely] at hf; rw [Has] at h; omega)
  | .many1 f, _, ⟨l, h, hn, h1⟩, hf, hp => by
    subst h
    obtain ⟨x, l', rfl⟩ := List.exists_cons_of_ne_nil hn
    obtain ⟨u, hu, hk⟩ := has_surely hb hP (h1 x (by simp)) hf (hP _ hp x (by simp))
    exact ⟨u, by rw [Tree.tokens]; exact tokensList_of_mem hu (by simp), hk⟩
  | .or f g, x, h, hf, hp => by
    simp [Field.surely] at hf
    rw [Has] at h
    rcases h with h | h
    · exact has_surely hb hP h hf.1 hp
    · exact has_surely hb hP h hf.2 hp
  | .pair f g, _, ⟨a, c, h, h1, h2⟩, hf, hp => by
    subst h
    simp [Field.surely] at hf
    rcases hf with hf | hf
    · obtain ⟨u, hu, hk⟩ := has_surely hb hP h1 hf (hP _ hp a (by simp))
      exact ⟨u, by rw [Tree.tokens]; exact tokensList_of_mem hu (by simp), hk⟩
    · obtain ⟨u, hu, hk⟩ := has_surely hb hP h2 hf (hP _ hp c (by simp))
      exact ⟨u, by rw [Tree.tokens]; exact tokensList_of_mem hu (by simp), hk⟩
  | .any, _, _, hf, _ | .is _, _, _, hf, _ | .head .., _, _, hf, _ | .none, _, _, hf, _ | .empty, _, _, hf, _
  | .opt _, _, _, hf, _ | .many _, _, _, hf, _ => by simp [Field.surely] at hf

theorem hasAll_surely {b : Nat} {P : Tree → Prop} (hb : ∀ x, P x → b ≤ x.strength → x.hasSolid)
    (hP : ∀ l, P (.seq l) → ∀ x ∈ l, P x) : ∀ {c : List Field} {l : List Tree}, HasAll c l → c.any (Field.surely b) = true →
    (∀ x ∈ l, P x) → ∃ u ∈ tokensList l, u.kind.solid = true
  | f :: c, x :: l, h, hf, hp => by
    rw [List.any_cons, Bool.or_eq_true] at hf
    rw [tokensList]
    rcases hf with hf | hf
    · obtain ⟨u, hu, hk⟩ := has_surely hb hP h.1 hf (hp x (by simp))
      exact ⟨u, List.mem_append_left _ hu, hk⟩
    · obtain ⟨u, hu, hk⟩ := hasAll_surely hb hP h.2 hf fun x hx => hp x (by simp [hx])
      exact ⟨u, List.mem_append_right _ hu, hk⟩
  | [], _, _, hf, _ => by simp at hf
  | _ :: _, [], h, _, _ => h.elim

theorem schema_surely17 (g : Tag) : 16 ≤ g.strength ∨ g = .VFPDef ∨ g = .VFPAssign → ∀ c ∈ schema g, c.any (Field.surely 17) = true := by
  cases g <;> decide

theorem schema_surely16 (g : Tag) : 2 ≤ g.strength → ∀ c ∈ schema g, c.any (Field.surely 16) = true := by
  cases g <;> decide

theorem strength_le (x : Tree) : x.strength ≤ 16 := by
  cases x with
  | node g => show g.strength ≤ 16; cases g <;> decide
  | _ => simp [Tree.strength]

theorem allok_seq (l : List Tree) (h : (Tree.seq l).All NodeOk) : ∀ x ∈ l, x.All NodeOk := by
  rw [Tree.All] at h
  exact fun x hx => allIn_mem h hx

theorem atom_solid {x : Tree} (hx : x.All NodeOk) (h : 16 ≤ x.strength ∨ x.tag? = some .VFPDef ∨ x.tag? = some .VFPAssign) : x.hasSolid := by
  cases x with
  | node g s e l =>
    rw [Tree.All] at hx
    obtain ⟨⟨⟨c, hc, ha⟩, -⟩, hl⟩ := hx
    have := hasAll_surely (b := 17) (P := fun x => x.All NodeOk) (fun x _ h => by have := strength_le x; omega) allok_seq ha
      (schema_surely17 g (by simpa [Tree.tag?, Tree.strength] using h) c hc) (allIn_iff.1 hl)
    simpa [Tree.hasSolid, Tree.tokens] using this
  | _ => simp [Tree.strength, Tree.tag?] at h

theorem expr_solid {x : Tree} (hx : x.All NodeOk) (h : 2 ≤ x.strength) : x.hasSolid := by
  cases x with
  | node g s e l =>
    rw [Tree.All] at hx
    obtain ⟨⟨⟨c, hc, ha⟩, -⟩, hl⟩ := hx
    have := hasAll_surely (b := 16) (P := fun x => x.All NodeOk) (fun x hx h => atom_solid hx (.inl h)) allok_seq ha
      (schema_surely16 g h c hc) (allIn_iff.1 hl)
    simpa [Tree.hasSolid, Tree.tokens] using this
  | _ => simp [Tree.strength] at h

/-! ### Positions -/

section
variable [Uni] {src : List Char}

theorem pos_lt {c : PSt} {u} (hc : PReach src c) (hu : c.symbol = .ok u) (hk : u.kind.solid = true) : c.pos < c.advance.pos := by
  obtain ⟨l, hl, hg⟩ := hc.fresh.2 u hu
  have f := ok_facts hl.inv hg
  simp [Kind.solid] at hk
  have h1 := f.nonempty hk.1 hk.2.1 hk.2.2
  have : c.lex.pos ≤ (getSymbol c.lex).lexer.tokStart := by
    cases hr : getSymbol c.lex with
    | ok t l' => exact (ok_facts f.inv hr).startGe
    | err e l' => exact (err_facts f.inv hr).startGe
  unfold PSt.pos PSt.advance
  split <;> rename_i h <;> rw [h] at this <;> exact Nat.lt_of_lt_of_le h1 this

theorem Consumed.pos_lt {c ts c'} (h : Consumed c ts c') (hc : PReach src c) (hu : ∃ u ∈ ts, u.kind.solid = true) : c.pos < c'.pos := by
  induction h with
  | done => simp at hu
  | step hs hr ih =>
    obtain ⟨u, hu, hk⟩ := hu
    rcases List.mem_cons.1 hu with rfl | hu
    · exact Nat.lt_of_lt_of_le (Verif.pos_lt hc hs hk) (hr.pos hc.adv)
    · exact Nat.lt_of_le_of_lt (pos_advance hc) (ih hc.adv ⟨u, hu, hk⟩)

/-- Where a tree starts. -/
def Tree.lo : Tree → Nat
  | .tok u => (u.span?.getD (0, 0)).1
  | .node _ s _ _ => s
  | _ => 0

/-- A token that takes up text or a node that holds one and starts with it. -/
def Tree.firm (x : Tree) : Prop := x.hasSolid ∧ ((∃ u, x = .tok u) ∨ ∃ g s e l, x = .node g s e l ∧ g.isEntry = false)

theorem Spans.firm {b c x c'} (h : Spans b c [x] c') (hc : PReach src c) (hx : x.firm) : x.lo = c.pos ∧ c.pos < c'.pos := by
  obtain ⟨ts, h1, h2⟩ := h.reads
  have hp := h2.perm
  obtain ⟨⟨u, hu, hk⟩, hx⟩ := hx
  refine ⟨?_, h1.pos_lt hc ⟨u, hp.mem_iff.1 (by simpa [tokensList] using hu), hk⟩⟩
  rcases hx with ⟨v, rfl⟩ | ⟨g, s, e, l, rfl, hg⟩
  · simp [Tree.tokens] at hu
    subst hu
    cases h with
    | tok hs _ =>
      obtain ⟨l, hl, hg⟩ := hc.fresh.2 u hs
      have f := ok_facts hl.inv hg
      have hsp := f.span
      simp [Kind.solid] at hk
      simp [hk] at hsp
      simp [Tree.lo, hsp, PSt.pos]
  · cases h with
    | node _ hs => simp [hg] at hs; exact hs

theorem Spans.sorted : ∀ {l b c c'}, Spans b c l c' → PReach src c → (∀ x ∈ l, x.firm) →
    l.Pairwise (fun x y => x.lo < y.lo) ∧ ∀ x ∈ l, c.pos ≤ x.lo
  | [], _, _, _, _, _, _ => ⟨.nil, by simp⟩
  | x :: l, b, c, c', h, hc, hx => by
    obtain ⟨d, h1, h2⟩ := h.split (p := [x]) (q := l) rfl
    obtain ⟨hl, hlt⟩ := h1.firm hc (hx x (by simp))
    obtain ⟨ts, h3, -⟩ := h1.reads
    obtain ⟨ih1, ih2⟩ := Spans.sorted h2 (h3.preach hc) fun y hy => hx y (by simp [hy])
    refine ⟨.cons (fun y hy => ?_) ih1, ?_⟩
    · have := ih2 y hy; omega
    · intro y hy
      rcases List.mem_cons.1 hy with rfl | hy
      · omega
      · have := ih2 y hy; omega

omit [Uni] in
theorem sorted_eq : ∀ {l m : List Tree}, l.Perm m → l.Pairwise (fun x y => x.lo < y.lo) → m.Pairwise (fun x y => x.lo < y.lo) → l = m
  | [], m, hp, _, _ => by simpa using hp.symm
  | x :: l, [], hp, _, _ => by simp at hp
  | x :: l, y :: m, hp, h1, h2 => by
    rw [List.pairwise_cons] at h1 h2
    have hx : x ∈ y :: m := hp.mem_iff.1 (by simp)
    have hy : y ∈ x :: l := hp.mem_iff.2 (by simp)
    have : x = y := by
      rcases List.mem_cons.1 hx with h | hx
      · exact h
      · rcases List.mem_cons.1 hy with h | hy
        · exact h.symm
        · have a := h2.1 x hx
          have b := h1.1 y hy
          omega
    subst this
    rw [sorted_eq (List.perm_cons x |>.1 hp) h1.2 h2.2]

/-- Such a field, if it is there, takes up text. -/
def Field.leaf : Field → Bool
  | .t ks => ks.all Kind.solid
  | .e k => 2 ≤ k
  | .is tags => tags.all fun g => g = .VFPDef ∨ g = .VFPAssign
  | _ => false

def Field.outer : Field → Bool
  | .many f | .opt f => f.leaf
  | _ => false

theorem schema_outer {g} (hg : g = .VarArgsList ∨ g = .TypeList) : ∀ c ∈ schema g, ∀ f ∈ c, Field.outer f = true := by
  rcases hg with rfl | rfl <;> decide

theorem entry_weak (g : Tag) (h : 2 ≤ g.strength) : g.isEntry = false := by
  revert h
  cases g <;> decide

theorem leaf_firm : ∀ {f : Field} {x : Tree}, Has f x → x.All NodeOk → f.leaf = true → x.firm
  | .is tags, x, ⟨g, hg, ht⟩, ho, hf => by
    have hg := List.all_eq_true.1 hf g hg
    simp at hg
    refine ⟨atom_solid ho (.inr (by rcases hg with rfl | rfl <;> simp [ht])), .inr ?_⟩
    cases x with
    | node g' s e l =>
      simp [Tree.tag?] at ht
      subst ht
      exact ⟨_, _, _, _, rfl, by rcases hg with rfl | rfl <;> rfl⟩
    | _ => simp [Tree.tag?] at ht
  | .e k, x, h, ho, hf => by
    simp [Field.leaf] at hf
    rw [Has] at h
    refine ⟨expr_solid ho (by omega), .inr ?_⟩
    cases x with
    | node g s e l => exact ⟨_, _, _, _, rfl, entry_weak g (Nat.le_trans hf h)⟩
    | _ => simp [Tree.strength] at h; omega
  | .t ks, _, ⟨u, h, hu⟩, _, hf => by
    subst h
    exact ⟨⟨u, by simp [Tree.tokens], List.all_eq_true.1 hf _ hu⟩, .inl ⟨u, rfl⟩⟩
  | .any, _, _, _, hf | .head .., _, _, _, hf | .none, _, _, _, hf | .empty, _, _, _, hf
  | .opt _, _, _, _, hf | .many _, _, _, _, hf | .many1 _, _, _, _, hf | .or .., _, _, _, hf | .pair .., _, _, _, hf => by
    simp [Field.leaf] at hf

theorem outer_firm : ∀ {c : List Field} {l : List Tree}, HasAll c l → AllIn NodeOk l → (∀ f ∈ c, Field.outer f = true) →
    ∀ y ∈ l, (∃ xs, y = .seq xs ∧ ∀ x ∈ xs, x.firm) ∨ y = .none ∨ y.firm
  | [], [], _, _, _, y, hy => by simp at hy
  | f :: c, z :: l, h, ho, hf, y, hy => by
    rw [AllIn] at ho
    rcases List.mem_cons.1 hy with rfl | hy
    · have h1 := h.1
      have h2 := hf f (by simp)
      cases f <;> simp [Field.outer] at h2
      · rw [Has] at h1
        rcases h1 with h1 | h1
        · exact .inr (.inl h1)
        · exact .inr (.inr (leaf_firm h1 ho.1 h2))
      · obtain ⟨xs, rfl, h1⟩ := h1
        have h3 := ho.1
        rw [Tree.All] at h3
        exact .inl ⟨xs, rfl, fun x hx => leaf_firm (h1 x hx) (allIn_mem h3 hx) h2⟩
    · exact outer_firm h.2 ho.2 (fun f h => hf f (by simp [h])) y hy
  | [], _ :: _, h, _, _, _, _ => h.elim
  | _ :: _, [], h, _, _, _, _ => h.elim

theorem schema_rest {g} (hg : g = .VarArgsList ∨ g = .TypeList) :
    ∀ c ∈ schema g, ∀ f ∈ c.drop 2, (match f with | .opt f => f.leaf | _ => false) = true := by
  rcases hg with rfl | rfl <;> decide

theorem rest_firm : ∀ {c : List Field} {l : List Tree}, HasAll c l → AllIn NodeOk l →
    (∀ f ∈ c, (match f with | .opt f => f.leaf | _ => false) = true) → ∀ y ∈ l, y = .none ∨ y.firm
  | [], [], _, _, _, y, hy => by simp at hy
  | f :: c, z :: l, h, ho, hf, y, hy => by
    rw [AllIn] at ho
    rcases List.mem_cons.1 hy with rfl | hy
    · have h1 := h.1
      have h2 := hf f (by simp)
      cases f <;> simp at h2
      rw [Has] at h1
      exact h1.imp_right fun h1 => leaf_firm h1 ho.1 h2
    · exact rest_firm h.2 ho.2 (fun f h => hf f (by simp [h])) y hy
  | [], _ :: _, h, _, _, _, _ => h.elim
  | _ :: _, [], h, _, _, _, _ => h.elim

theorem not_firm_seq {l} : ¬ (Tree.seq l).firm := by
  rintro ⟨-, ⟨u, h⟩ | ⟨g, s, e, l, h, -⟩⟩ <;> simp at h

theorem interleaves_mem {fs fs'} (hi : Interleaves fs fs') : ∀ x ∈ fs', x ≠ .none ∧ (x ∈ fs ∧ (∃ ns ss rest, fs = .seq ns :: .seq ss :: rest ∧ x ∈ rest) ∨ ∃ xs, .seq xs ∈ fs ∧ x ∈ xs) := by
  unfold Interleaves at hi
  split at hi
  · intro x hx
    have := hi.1.mem_iff.1 hx
    rw [mem_present] at this
    refine ⟨this.2, ?_⟩
    rcases List.mem_append.1 this.1 with h | h
    · rcases List.mem_append.1 h with h | h
      · exact .inr ⟨_, by simp, h⟩
      · exact .inr ⟨_, List.mem_cons_of_mem _ List.mem_cons_self, h⟩
    · exact .inl ⟨by simp [h], _, _, _, rfl, h⟩
  · exact hi.elim

/-- The parts of a parameter list or a list of types all take up text. -/
theorem loose_firm {g fs fs'} (hg : g = .VarArgsList ∨ g = .TypeList) (hk : NodeOk g fs) (ha : AllIn NodeOk fs)
    (hi : Interleaves fs fs') : ∀ x ∈ fs', x.firm := by
  obtain ⟨⟨c, hc, h'⟩, -⟩ := hk
  have hf := outer_firm h' ha (schema_outer hg c hc)
  intro x hx
  obtain ⟨hn, h⟩ := interleaves_mem hi x hx
  rcases h with ⟨-, ns, ss, rest, rfl, h⟩ | ⟨xs, h, hx⟩
  · match c, h' with
    | _ :: _ :: c, h' =>
      simp only [AllIn] at ha
      exact (rest_firm h'.2.2 ha.2.2 (schema_rest hg _ hc) x h).resolve_left hn
  · rcases hf _ h with ⟨ys, h, hy⟩ | h | h
    · cases h; exact hy x hx
    · simp at h
    · exact absurd h not_firm_seq

theorem Tree.All.imp {P Q : Tag → List Tree → Prop} (hpq : ∀ g l, P g l → Q g l) : ∀ {t : Tree}, t.All P → t.All Q
  | .tok _, _ => by rw [Tree.All]; trivial
  | .none, _ => by rw [Tree.All]; trivial
  | .seq l, h => by
    rw [Tree.All] at h ⊢
    exact allIn_iff.2 fun x hx => (allIn_iff.1 h x hx).imp hpq
  | .node g s e l, h => by
    rw [Tree.All] at h ⊢
    exact ⟨hpq _ _ h.1, allIn_iff.2 fun x hx => (allIn_iff.1 h.2 x hx).imp hpq⟩
termination_by t => sizeOf t
decreasing_by
  all_goals simp_wf
  all_goals have := List.sizeOf_lt_of_mem hx
  all_goals omega

theorem Spans.end_eq {b c c'} (h : Spans b c [] c') : c'.lex = c.lex ∧ c'.symbol = c.symbol := by
  cases h with | nil h1 h2 => exact ⟨h1, h2⟩

/-- The same trees, read in two texts: the same tokens. -/
theorem Spans.det {src' : List Char} {b c l c'} (h : Spans b c l c') (hc : PReach src c)
    (ho : AllIn (fun g fs => NodeOk g fs ∧ g ≠ .FileInput) l) :
    ∀ {b' d d'}, Spans b' d l d' → PReach src' d → ∃ ts, Consumed c ts c' ∧ Consumed d ts d' := by
  induction h with
  | nil h1 h2 =>
    intro b' d d' h' _
    obtain ⟨h3, h4⟩ := h'.end_eq
    exact ⟨[], .done h1 h2, .done h3 h4⟩
  | none _ ih =>
    intro b' d d' h' hd
    rw [AllIn] at ho
    cases h' with | none h' => exact ih hc ho.2 h' hd
  | tok hs _ ih =>
    intro b' d d' h' hd
    rw [AllIn] at ho
    cases h' with
    | tok hs' h' =>
      obtain ⟨ts, h1, h2⟩ := ih hc.adv ho.2 h' hd.adv
      exact ⟨_ :: ts, .step hs h1, .step hs' h2⟩
  | seq _ ih =>
    intro b' d d' h' hd
    rw [AllIn, Tree.All] at ho
    cases h' with
    | seq h' =>
      refine ih hc (allIn_iff.2 ?_) h' hd
      intro x hx
      rcases List.mem_append.1 hx with hx | hx
      · exact allIn_iff.1 ho.1 x hx
      · exact allIn_iff.1 ho.2 x hx
  | @node b g s e fs fs' c d1 l c' ha hs he h1 h2 ih1 ih2 =>
    intro b' d d' h' hd
    rw [AllIn, Tree.All] at ho
    obtain ⟨⟨⟨hok, hnf⟩, ho1⟩, ho2⟩ := ho
    cases h' with
    | @node _ _ _ _ _ fs'' _ d2 _ _ ha' hs' he' h1' h2' =>
      have key : fs' = fs'' ∧ AllIn (fun g fs => NodeOk g fs ∧ g ≠ .FileInput) fs' := by
        rcases ha with ha | ⟨ha, hi⟩
        · rcases ha' with ha' | ⟨ha', -⟩
          · rw [ha] at ha'
            refine ⟨Option.some.inj ha', allIn_iff.2 fun x hx => ?_⟩
            rcases arrange_mem ha x hx with hx | ⟨xs, h1, h2⟩
            · exact allIn_iff.1 ho1 x hx
            · have := allIn_iff.1 ho1 _ h1
              rw [Tree.All] at this
              exact allIn_iff.1 this x h2
          · rw [ha] at ha'; simp at ha'
        · rcases ha' with ha' | ⟨-, hi'⟩
          · rw [ha] at ha'; simp at ha'
          · have hg : g = .VarArgsList ∨ g = .TypeList := by
              have := arrange_none ha
              simp [looseTags, hnf] at this
              exact this
            have hn : AllIn NodeOk fs := allIn_iff.2 fun x hx => (allIn_iff.1 ho1 x hx).imp fun _ _ h => h.1
            have f1 := loose_firm hg hok hn hi
            have f2 := loose_firm hg hok hn hi'
            have hp : fs'.Perm fs'' := by
              unfold Interleaves at hi hi'
              split at hi
              · simp at hi'
                exact hi.1.trans (by simpa using hi'.1.symm)
              · exact hi.elim
            refine ⟨sorted_eq hp (h1.sorted hc f1).1 (h1'.sorted hd f2).1, allIn_iff.2 fun x hx => ?_⟩
            rcases (interleaves_mem hi x hx).2 with ⟨hx, -⟩ | ⟨xs, h1, h2⟩
            · exact allIn_iff.1 ho1 x hx
            · have := allIn_iff.1 ho1 _ h1
              rw [Tree.All] at this
              exact allIn_iff.1 this x h2
      obtain ⟨rfl, hk⟩ := key
      obtain ⟨ts, h3, h4⟩ := ih1 hc hk h1' hd
      obtain ⟨us, h5, h6⟩ := ih2 (h3.preach hc) ho2 h2' (h4.preach hd)
      exact ⟨ts ++ us, h3.trans h5, h4.trans h6⟩

/-! ### Files -/

theorem fileLoop_spans {s : Nat} : ∀ {n ns c t c'}, run n (.fileLoop s ns []) c = .ok t c' → PReach src c → NotNL src c →
    ∃ xs u e, t = .node .FileInput s e [.seq (ns ++ xs).reverse, .seq [], .tok u] ∧ Sp c xs c' ∧ c'.symbol = .ok u ∧ u.kind = .EOF
  | 0, _, _, _, _, h, _, _ => by simp [run] at h
  | n + 1, ns, c, t, c', h, hp, hn => by
    refine wp_sound (Φ := fun f c t c' => run n f c = .ok t c') (fun _ _ _ _ h => h) (body (.fileLoop s ns [])) c
      (fun t c' => ∃ xs u e, t = .node .FileInput s e [.seq (ns ++ xs).reverse, .seq [], .tok u] ∧ Sp c xs c' ∧
        c'.symbol = .ok u ∧ u.kind = .EOF) ?_ t c' h
    simp only [body, fileLoopBody, wp_bind, wp_symAt, wp_ite, wp_mk, wp_next, wp_parse]
    intro u hu
    refine ⟨fun hk => ⟨[], u, c.lex.tokStart, by rw [List.append_nil]; rfl, .refl _, hu, hk⟩, fun _ => ⟨fun hk => ?_, fun _ => ?_⟩⟩
    · unfold NotNL curKind at hn
      rw [hu] at hn
      exact absurd (congrArg some hk) hn
    · intro x c1 hx y c2 hy
      obtain ⟨hp1, hn1⟩ : PReach src c1 ∧ NotNL src c1 := run_notNL (f := .stmt) hx hp
      have h1 : Sp1 c x c1 := run_spans (f := .stmt) hx
      obtain ⟨xs, v, e, rfl, h2, hv, hk⟩ := fileLoop_spans hy hp1 hn1
      exact ⟨x :: xs, v, e, by simp, h1.elim.cons h2, hv, hk⟩

/-- A file is a sequence of statements up to the end of the text. -/
theorem fileInput_spans {n t c'} (h : run n .fileInput (PSt.new (Lexer.new src)) = .ok t c') :
    ∃ xs u s e, t = .node .FileInput s e [.seq xs.reverse, .seq [], .tok u] ∧ Sp (PSt.new (Lexer.new src)).advance xs c' ∧
      c'.symbol = .ok u ∧ u.kind = .EOF := by
  cases n with
  | zero => simp [run] at h
  | succ n =>
    refine wp_sound (Φ := fun f c t c' => run n f c = .ok t c') (fun _ _ _ _ h => h) (body .fileInput) (PSt.new (Lexer.new src))
      (fun t c' => ∃ xs u s e, t = .node .FileInput s e [.seq xs.reverse, .seq [], .tok u] ∧
        Sp (PSt.new (Lexer.new src)).advance xs c' ∧ c'.symbol = .ok u ∧ u.kind = .EOF) ?_ t c' h
    simp only [body, fileInputBody, wp_bind, wp_here, wp_next, wp_parse]
    intro y c2 hy
    have hn : NotNL src (PSt.new (Lexer.new src)).advance := by
      unfold NotNL curKind
      intro hk
      cases hg : getSymbol (Lexer.new src) with
      | ok u l =>
        have : (PSt.new (Lexer.new src)).advance.symbol = .ok u := by unfold PSt.advance; rw [show (PSt.new (Lexer.new src)).lex = Lexer.new src from rfl, hg]
        rw [this] at hk
        exact C46_not_first src l u hg (Option.some.inj hk)
      | err x l =>
        have : (PSt.new (Lexer.new src)).advance.symbol = .error x := by unfold PSt.advance; rw [show (PSt.new (Lexer.new src)).lex = Lexer.new src from rfl, hg]
        rw [this] at hk
        simp at hk
    obtain ⟨xs, u, e, rfl, hc, hu, hk⟩ := fileLoop_spans hy (.adv .new) hn
    exact ⟨xs, u, _, e, rfl, hc, hu, hk⟩

end

theorem good_all {P Q : Tag → List Tree → Prop} : ∀ {t : Tree}, t.All P → t.All Q → t.All (fun g l => P g l ∧ Q g l)
  | .tok _, _, _ => by rw [Tree.All]; trivial
  | .none, _, _ => by rw [Tree.All]; trivial
  | .seq l, h, h' => by
    rw [Tree.All] at h h' ⊢
    exact allIn_iff.2 fun x hx => good_all (allIn_iff.1 h x hx) (allIn_iff.1 h' x hx)
  | .node g s e l, h, h' => by
    rw [Tree.All] at h h' ⊢
    exact ⟨⟨h.1, h'.1⟩, allIn_iff.2 fun x hx => good_all (allIn_iff.1 h.2 x hx) (allIn_iff.1 h'.2 x hx)⟩
termination_by t => sizeOf t
decreasing_by
  all_goals simp_wf
  all_goals have := List.sizeOf_lt_of_mem hx
  all_goals omega

theorem good_of {x : Tree} (h1 : x.All NodeOk) (h2 : NoFileTop x) : x.All (fun g fs => NodeOk g fs ∧ g ≠ .FileInput) := by
  refine good_all h1 (all_of_inside (P := fun g => g ≠ .FileInput) fun g s e fs hi => ?_)
  have h := noFile_inside hi h1 h2
  cases h with | node h => exact h

end Verif
