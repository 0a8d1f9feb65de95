import Verif.Spec.TreeSize
import Verif.Props.Shape
import Verif.Props.LexRun
import Verif.Props.Exact
import Verif.Spec.Calls

/-!
# Parser: the size of the trees (C67)

Every node of a variant has at most eight parts per symbol in it, up to a constant that depends on the variant
(`Tag.over`).  That the constants are consistent with the table `schema` is checked row by row.
-/

namespace Verif
open Field Sch

/-- How many parts a node of this variant may have beyond eight for each of its symbols. -/
def Tag.over : Tag → Int
  | .Subscript => 0
  | .SubscriptList => 3
  | .VarArgsList => 8
  | .TypedArgsList => 6
  | .TypeList => 7
  | .ArgList | .DottedAsNamesStmt | .ImportAsNamesStmt | .DictionaryContainer | .SetContainer => 1
  | .Decorators => 0
  | .FileInput | .EvalInput | .FuncTypeInput => 4
  | .ClassDef | .FuncDef | .AsyncStmt | .SimpleStmtList | .DottedNameStmt | .Decorator
  | .CallTrailer | .IndexTrailer | .DotNameTrailer => -4
  | .StarExpr => -5
  | g => if 1 ≤ g.strength then -5 else -2

/-- The same for a field; `none`: no bound. -/
def Field.over : Field → Option Int
  | .t ks => if ks.contains .EOF then some 1 else some (-7)
  | .any => some 1
  | .e k => if 1 ≤ k then some (-5) else Option.none
  | .is tags => some (tags.foldr (fun g m => max g.over m) (-7))
  | .head g _ => some g.over
  | .none => some 1
  | .empty => some 1
  | .opt f => f.over.map (max 1)
  | .or f g => f.over.bind fun a => g.over.map (max a)
  | .pair f g => f.over.bind fun a => g.over.map (1 + a + ·)
  | .many f => f.over.bind fun a => if a ≤ 0 then some 1 else Option.none
  | .many1 f => f.over.bind fun a => if a ≤ 0 then some (1 + a) else Option.none

/-- … and for a list of fields. -/
def overAll : List Field → Option Int
  | [] => some 0
  | f :: fs => f.over.bind fun a => (overAll fs).map (a + ·)

/-- The bound for the fields implies the bound for the node. -/
def overOk (o : Option Int) (b : Int) : Bool := match o with
  | some a => decide (1 + a ≤ b)
  | Option.none => false

/-- The constants are consistent with the table of the fields. -/
theorem over_ok (g : Tag) : ∀ fs ∈ schema g, overOk (overAll fs) g.over = true := by
  cases g <;> decide +kernel

theorem over_strength {g : Tag} (h : 1 ≤ g.strength) : g.over ≤ -5 := by
  cases g <;> revert h <;> decide +kernel

theorem over_mem {g : Tag} : ∀ {l : List Tag}, g ∈ l → g.over ≤ l.foldr (fun g m => max g.over m) (-7)
  | x :: l, h => by
    simp only [List.foldr_cons]
    rcases List.mem_cons.1 h with rfl | h
    · omega
    · have := over_mem h; omega

theorem sizeList_append (l r : List Tree) : sizeList (l ++ r) = sizeList l + sizeList r := by
  induction l with
  | nil => simp [sizeList]
  | cons x l ih => simp [sizeList, ih]; omega

theorem size_pos (x : Tree) : 1 ≤ x.size := by cases x <;> simp [Tree.size]

theorem size_le_list {x : Tree} : ∀ {l : List Tree}, x ∈ l → x.size ≤ sizeList l
  | y :: l, h => by
    rw [sizeList]
    rcases List.mem_cons.1 h with rfl | h
    · omega
    · have := size_le_list h; omega

theorem solid_append (a b : List Token) : solid (a ++ b) = solid a + solid b := by simp [solid]

/-- The bound, for a node. -/
def NodeSmall (y : Tree) : Prop := ∀ g s e l, y = .node g s e l → (y.size : Int) ≤ 8 * solid y.tokens + g.over

theorem list_small {b : Int} (hb : b ≤ 0) : ∀ {l : List Tree}, (∀ x ∈ l, (x.size : Int) ≤ 8 * solid x.tokens + b) →
    (sizeList l : Int) ≤ 8 * solid (tokensList l) ∧ (l ≠ [] → (sizeList l : Int) ≤ 8 * solid (tokensList l) + b)
  | [], _ => by simp [sizeList, tokensList, solid]
  | x :: l, h => by
    have h1 := h x (by simp)
    have h2 := (list_small hb (l := l) fun y hy => h y (by simp [hy])).1
    simp only [sizeList, tokensList, solid_append, ne_eq, reduceCtorEq, not_false_eq_true, true_implies]
    omega

theorem field_small : ∀ {f : Field} {a : Int}, f.over = some a → ∀ {x : Tree}, Has f x → x.All NodeOk →
    (∀ y : Tree, y.size ≤ x.size → y.All NodeOk → NodeSmall y) → (x.size : Int) ≤ 8 * solid x.tokens + a := by
  intro f
  induction f with
  | t ks =>
    intro a ha x hx _ _
    simp only [Field.over] at ha
    obtain ⟨u, rfl, hu⟩ := hx
    have h1 : solid [u] = 1 ∨ solid [u] = 0 ∧ u.kind = .EOF := by
      by_cases h : u.kind = .EOF <;> simp [solid, h]
    simp only [Tree.size, Tree.tokens]
    split at ha <;> simp only [Option.some.injEq] at ha
    · omega
    · rename_i hk
      rcases h1 with h1 | ⟨-, h1⟩
      · omega
      · rw [h1] at hu; exact absurd (by simpa using hu) hk
  | any =>
    intro a ha x hx _ _
    simp only [Field.over, Option.some.injEq] at ha
    obtain ⟨u, rfl⟩ := hx
    simp only [Tree.size, Tree.tokens]; omega
  | e k =>
    intro a ha x hx hA hS
    simp only [Field.over] at ha
    split at ha <;> simp only [Option.some.injEq, reduceCtorEq] at ha
    simp only [Has] at hx
    cases x with
    | node g s e l =>
      have h1 := hS _ (Nat.le_refl _) hA g s e l rfl
      have h2 := over_strength (g := g) (by simp only [Tree.strength] at hx; omega)
      omega
    | _ => simp only [Tree.strength] at hx; omega
  | is tags =>
    intro a ha x hx hA hS
    simp only [Field.over, Option.some.injEq] at ha
    obtain ⟨g, hg, hx⟩ := hx
    cases x with
    | node g' s e l =>
      simp only [Tree.tag?, Option.some.injEq] at hx
      subst hx
      have h1 := hS _ (Nat.le_refl _) hA _ s e l rfl
      have h2 := over_mem hg
      omega
    | _ => simp [Tree.tag?] at hx
  | head g f _ =>
    intro a ha x hx hA hS
    simp only [Field.over, Option.some.injEq] at ha
    obtain ⟨s, e, y, l, rfl, -⟩ := hx
    have h1 := hS _ (Nat.le_refl _) hA _ s e _ rfl
    omega
  | none =>
    intro a ha x hx _ _
    simp only [Field.over, Option.some.injEq] at ha
    simp only [Has] at hx
    subst hx
    simp only [Tree.size, Tree.tokens]; omega
  | empty =>
    intro a ha x hx _ _
    simp only [Field.over, Option.some.injEq] at ha
    simp only [Has] at hx
    subst hx
    simp only [Tree.size, Tree.tokens, sizeList, tokensList]; omega
  | opt f ih =>
    intro a ha x hx hA hS
    simp only [Field.over, Option.map_eq_some_iff] at ha
    obtain ⟨b, hb, rfl⟩ := ha
    rcases hx with rfl | hx
    · simp only [Tree.size, Tree.tokens]; omega
    · have := ih hb hx hA hS; omega
  | or f g ih1 ih2 =>
    intro a ha x hx hA hS
    simp only [Field.over, Option.bind_eq_some_iff, Option.map_eq_some_iff] at ha
    obtain ⟨b, hb, c, hc, rfl⟩ := ha
    rcases hx with hx | hx
    · have := ih1 hb hx hA hS; omega
    · have := ih2 hc hx hA hS; omega
  | pair f g ih1 ih2 =>
    intro a ha x hx hA hS
    simp only [Field.over, Option.bind_eq_some_iff, Option.map_eq_some_iff] at ha
    obtain ⟨b, hb, c, hc, rfl⟩ := ha
    obtain ⟨y, z, rfl, hy, hz⟩ := hx
    simp only [Tree.All, AllIn, and_true] at hA
    simp only [Tree.size, sizeList] at hS
    have h1 := ih1 hb hy hA.1 (fun w hw => hS w (by omega))
    have h2 := ih2 hc hz hA.2 (fun w hw => hS w (by omega))
    simp only [Tree.size, Tree.tokens, sizeList, tokensList, solid_append, List.append_nil]; omega
  | many f ih =>
    intro a ha x hx hA hS
    simp only [Field.over, Option.bind_eq_some_iff] at ha
    obtain ⟨b, hb, ha⟩ := ha
    split at ha <;> simp only [Option.some.injEq, reduceCtorEq] at ha
    rename_i hb0
    obtain ⟨l, rfl, hl⟩ := hx
    rw [Tree.All] at hA
    simp only [Tree.size] at hS
    have := (list_small hb0 (l := l) fun y hy =>
      ih hb (hl y hy) (allIn_mem hA hy) (fun w hw => hS w (by have := size_le_list hy; omega))).1
    simp only [Tree.size, Tree.tokens]; omega
  | many1 f ih =>
    intro a ha x hx hA hS
    simp only [Field.over, Option.bind_eq_some_iff] at ha
    obtain ⟨b, hb, ha⟩ := ha
    split at ha <;> simp only [Option.some.injEq, reduceCtorEq] at ha
    rename_i hb0
    obtain ⟨l, rfl, hne, hl⟩ := hx
    rw [Tree.All] at hA
    simp only [Tree.size] at hS
    have := (list_small hb0 (l := l) fun y hy =>
      ih hb (hl y hy) (allIn_mem hA hy) (fun w hw => hS w (by have := size_le_list hy; omega))).2 hne
    simp only [Tree.size, Tree.tokens]; omega

theorem fields_small : ∀ {fs : List Field} {a : Int}, overAll fs = some a → ∀ {l : List Tree}, HasAll fs l → AllIn NodeOk l →
    (∀ y : Tree, y.size ≤ sizeList l → y.All NodeOk → NodeSmall y) → (sizeList l : Int) ≤ 8 * solid (tokensList l) + a
  | [], a, ha, l, hl, _, _ => by
    rw [hasAll_nil] at hl
    subst hl
    simp only [overAll, Option.some.injEq] at ha
    simp only [sizeList, tokensList]; omega
  | f :: fs, a, ha, l, hl, hA, hS => by
    obtain ⟨x, l, rfl, hx, hl⟩ := hasAll_cons.1 hl
    simp only [overAll, Option.bind_eq_some_iff, Option.map_eq_some_iff] at ha
    obtain ⟨b, hb, c, hc, rfl⟩ := ha
    rw [AllIn] at hA
    simp only [sizeList] at hS
    have h1 := field_small hb hx hA.1 (fun w hw => hS w (by omega))
    have h2 := fields_small hc hl hA.2 (fun w hw => hS w (by omega))
    simp only [sizeList, tokensList, solid_append]; omega

theorem all_small : ∀ (n : Nat) (y : Tree), y.size ≤ n → y.All NodeOk → NodeSmall y := by
  intro n
  induction n with
  | zero => intro y hy; have := size_pos y; omega
  | succ n ih =>
    rintro y hy hA g s e l rfl
    rw [Tree.All] at hA
    obtain ⟨⟨⟨fs, hf, hl⟩, -⟩, hA⟩ := hA
    have h1 := over_ok g fs hf
    unfold overOk at h1
    split at h1 <;> simp only [decide_eq_true_eq, reduceCtorEq] at h1
    rename_i a ha
    rw [Tree.size] at hy ⊢
    have h2 := fields_small ha hl hA (fun w hw => ih w (by omega))
    simp only [Tree.tokens]; omega

theorem returns_over : ∀ p ∈ returns, overOk p.2.over 9 = true := by decide +kernel

/-- C67: a tree that a parse function returns has at most eight parts for each symbol in it that is not the end of the
text, and eight more. -/
theorem C67_tree_size [Uni] (n : Nat) (f : Fn) (r : Field) (c c' : PSt) (t : Tree) (hf : (f, r) ∈ returns)
    (h : run n f c = .ok t c') : t.size ≤ 8 * solid t.tokens + 8 := by
  have hs := returns_shape hf h
  have h1 := returns_over _ hf
  unfold overOk at h1
  split at h1 <;> simp only [decide_eq_true_eq, reduceCtorEq] at h1
  rename_i a ha
  have h2 := field_small ha hs.2 hs.1 (fun y _ hy => all_small _ y (Nat.le_refl _) hy)
  omega

theorem tokens_front [Uni] {l a b l'} (h : Tokens l (a ++ b) l') : ∃ l1, Tokens l a l1 := by
  induction a generalizing l with
  | nil => exact ⟨l, .nil⟩
  | cons x a ih => cases h with
    | cons h1 h2 => obtain ⟨l1, h3⟩ := ih h2; exact ⟨l1, .cons h1 h3⟩

/-- A tokenizer returns at most two symbols per character before the end. -/
theorem solid_le [Uni] {src ts l} (h : Tokens (Lexer.new src) ts l) : solid ts ≤ 2 * src.length := by
  by_cases he : ∃ t ∈ ts, t.kind = .EOF
  · have : ∃ a e b, ts = a ++ e :: b ∧ e.kind = .EOF ∧ ∀ v ∈ a, v.kind ≠ .EOF := by
      clear h
      induction ts with
      | nil => simp at he
      | cons x ts ih =>
        by_cases hx : x.kind = .EOF
        · exact ⟨[], x, ts, rfl, hx, by simp⟩
        · obtain ⟨a, e, b, rfl, h1, h2⟩ := ih (by simpa [hx] using he)
          exact ⟨x :: a, e, b, rfl, h1, by simpa [hx] using h2⟩
    obtain ⟨a, e, b, rfl, h1, h2⟩ := this
    have h3 := h.all_eof (Inv.new src) h1 rfl
    obtain ⟨l1, h4⟩ := tokens_front h
    have h5 := C02_stream_ends src a l1 h4 h2
    have h6 : solid (e :: b) = 0 := by
      unfold solid
      rw [List.countP_eq_zero]
      intro v hv
      simp [h3 v hv]
    have h7 : solid a ≤ a.length := List.countP_le_length
    rw [solid_append]
    omega
  · have h1 := C02_stream_ends src ts l h (fun t ht hk => he ⟨t, ht, hk⟩)
    have h7 : solid ts ≤ ts.length := List.countP_le_length
    omega

/-- C67: the tree of a text of `len` characters has at most `16 len + 8` parts. -/
theorem C67_tree_size_of_text [Uni] (n : Nat) (f : Fn) (src : List Char) (t : Tree) (c : PSt) (hf : f ∈ inputFns)
    (h : run n f (PSt.new (Lexer.new src)) = .ok t c) : t.size ≤ 16 * src.length + 8 := by
  have htoks : solid t.tokens ≤ 2 * src.length := by
    simp only [inputFns, List.mem_cons, List.not_mem_nil, or_false] at hf
    have whole : (f = .evalInput ∨ f = .fileInput ∨ f = .funcTypeInput) → solid t.tokens ≤ 2 * src.length := by
      intro hf
      obtain ⟨ts, u, h1, -, -, h3, -⟩ := C22_whole_input_used n f src c t hf h
      have := solid_le h1
      unfold solid at this ⊢
      rw [h3.countP_eq]
      exact this
    rcases hf with rfl | rfl | rfl | rfl
    · exact whole (by simp)
    · exact whole (by simp)
    · rcases C24_single_input_tokens n _ c t h with ⟨ts, h1, -, h3⟩ | ⟨ts, u, h1, h2, -, -, h3⟩
      · obtain ⟨l, h4⟩ := h1.someTokens (c := PSt.new (Lexer.new src)) rfl rfl
        have := solid_le h4
        unfold solid at this ⊢
        rw [h3.countP_eq]
        exact this
      · have := solid_le (h1.tokens (c := PSt.new (Lexer.new src)) rfl rfl h2)
        unfold solid at this ⊢
        rw [h3.countP_eq]
        exact this
    · exact whole (by simp)
  have : ∃ r, (f, r) ∈ returns := by
    simp only [inputFns, List.mem_cons, List.not_mem_nil, or_false] at hf
    rcases hf with rfl | rfl | rfl | rfl <;> simp [returns]
  obtain ⟨r, hr⟩ := this
  have := C67_tree_size n f r _ c t hr h
  omega

/-- The tree of a line of 23 characters. -/
example : ∃ t c, @run asciiUni 100 .fileInput (PSt.new (Lexer.new (cs! "f(a, b)[c].d, = {e: 1}\n"))) = .ok t c ∧ t.size = 71 :=
  Res.shows (by decide +kernel)

end Verif
