import Verif.Proof.CompleteProg
import Verif.Proof.CompleteText
import Verif.Props.Program

/-!
# The layout of a program written line by line
-/

namespace Verif

/-! ### The layout as a list of leaves -/

def lay : List Nat → List Line → Option (List Leaf)
  | st, [] => some (List.replicate (st.length - 1) (.sym .Dedent) ++ [.sym .EOF])
  | st, ln :: r =>
    if ln.column > st.headD 0 then
      (lay (ln.column :: st) r).map (.sym .Indent :: (ln.words.map Lexeme.leaf ++ [.sym .Newline]) ++ ·)
    else if ln.column ∈ st then
      (lay (st.filter (· ≤ ln.column)) r).map
        (List.replicate (st.filter (· > ln.column)).length (.sym .Dedent) ++ (ln.words.map Lexeme.leaf ++ [.sym .Newline]) ++ ·)
    else none

theorem lay_pyLayout (lns : List Line) : ∀ p st, (pyLayout p st lns).map (·.map Token.leaf) = lay st lns := by
  induction lns with
  | nil => intro p st; simp [pyLayout, lay, Token.leaf, Token.kind]
  | cons ln r ih =>
    intro p st
    simp only [pyLayout, lay]
    by_cases h : ln.column > st.headD 0
    · simp only [h, if_true, ← ih (p + ln.blanks.length + (spacedText ln.words).length + 1), Option.map_map]
      congr 1
      funext ts
      simp [spacedTokens_leaf, Token.leaf, Token.kind]
    · by_cases h' : ln.column ∈ st
      · simp only [h, h', if_true, if_false, ← ih (p + ln.blanks.length + (spacedText ln.words).length + 1), Option.map_map]
        congr 1
        funext ts
        simp [spacedTokens_leaf, Token.leaf, Token.kind]
      · simp only [h, h', if_false]; rfl

/-- The innermost block is at column `col`. -/
def Stk (col : Nat) (st : List Nat) : Prop := (∃ st0, st = col :: st0) ∧ ∀ x ∈ st, x ≤ col

/-- The first line, if there is one, is at most at column `col`. -/
def Low (col : Nat) (lns : List Line) : Prop := ∀ ln r, lns = ln :: r → ln.column ≤ col

theorem low_cons {col : Nat} {ln : Line} {r : List Line} (h : ln.column ≤ col) : Low col (ln :: r) := by
  intro ln' r' e; cases e; exact h

/-- A line in the innermost block. -/
theorem lay_line {col : Nat} {st : List Nat} {ln : Line} {r : List Line} {L : List Leaf} (hs : Stk col st) (hc : ln.column = col)
    (h : lay st r = some L) : lay st (ln :: r) = some (ln.words.map Lexeme.leaf ++ .sym .Newline :: L) := by
  obtain ⟨⟨st0, rfl⟩, hle⟩ := hs
  have h1 : (col :: st0).filter (· ≤ ln.column) = col :: st0 := by
    rw [List.filter_eq_self]; intro x hx; simp [hc, hle x hx]
  have h2 : (col :: st0).filter (· > ln.column) = [] := by
    rw [List.filter_eq_nil_iff]; intro x hx; have := hle x hx; simp [hc, this]
  rw [lay, if_neg (by simp [hc]), if_pos (by simp [hc]), h1, h2, h]
  simp

/-- A line that opens a block. -/
theorem lay_open {col : Nat} {st : List Nat} {ln : Line} {r : List Line} {L : List Leaf} (hs : Stk col st) (hc : col < ln.column)
    (h : lay (ln.column :: st) (ln :: r) = some L) : lay st (ln :: r) = some (.sym .Indent :: L) := by
  obtain ⟨⟨st0, rfl⟩, hle⟩ := hs
  have h1 : (ln.column :: col :: st0).filter (· ≤ ln.column) = ln.column :: col :: st0 := by
    rw [List.filter_eq_self]; intro x hx
    rcases List.mem_cons.1 hx with rfl | hx
    · simp
    · have := hle x hx; simp; omega
  have h2 : (ln.column :: col :: st0).filter (· > ln.column) = [] := by
    rw [List.filter_eq_nil_iff]; intro x hx
    rcases List.mem_cons.1 hx with rfl | hx
    · simp
    · have := hle x hx; simp; omega
  rw [lay, if_neg (by simp), if_pos (by simp), h1, h2] at h
  rw [lay, if_pos (by simpa using hc)]
  cases e : lay (ln.column :: col :: st0) r with
  | none => rw [e] at h; cases h
  | some l =>
    rw [e] at h
    simp only [Option.map_some, List.length_nil, List.replicate_zero, List.nil_append, Option.some.injEq] at h
    simp [← h]

/-- The end of a block. -/
theorem lay_close {col col' : Nat} {st : List Nat} {lns : List Line} {L : List Leaf} (hs : Stk col st) (hc : col < col') (hl : Low col lns)
    (h : lay st lns = some L) : lay (col' :: st) lns = some (.sym .Dedent :: L) := by
  obtain ⟨⟨st0, rfl⟩, hle⟩ := hs
  cases lns with
  | nil =>
    simp only [lay, Option.some.injEq] at h ⊢
    rw [← h]
    simp [List.replicate_succ]
  | cons ln r =>
    have hln := hl ln r rfl
    rw [lay, if_neg (by simpa using hln)] at h
    rw [lay, if_neg (by simp; omega)]
    by_cases hm : ln.column ∈ col :: st0
    · rw [if_pos hm] at h
      rw [if_pos (List.mem_cons_of_mem _ hm), List.filter_cons_of_neg (p := fun x => decide (x ≤ ln.column)) (by simp; omega),
        List.filter_cons_of_pos (p := fun x => decide (x > ln.column)) (a := col') (by simp; omega)]
      cases e : lay ((col :: st0).filter (· ≤ ln.column)) r with
      | none => rw [e] at h; cases h
      | some l =>
        rw [e] at h
        simp only [Option.map_some, Option.some.injEq] at h
        rw [← h]
        simp [List.replicate_succ]
    · rw [if_neg hm] at h; cases h

/-! ### Columns -/

theorem blankColumn_append (a b : List Char) : ∀ c, blankColumn c (a ++ b) = blankColumn (blankColumn c a) b := by
  induction a with
  | nil => intro c; rfl
  | cons x a ih => intro c; simp only [List.cons_append, blankColumn, ih]

theorem blankColumn_le (a : List Char) : ∀ c, c ≤ blankColumn c a := by
  induction a with
  | nil => intro c; exact Nat.le_refl _
  | cons x a ih =>
    intro c
    rw [blankColumn]
    refine Nat.le_trans ?_ (ih _)
    split <;> omega

theorem blankColumn_lt {a : List Char} (h : a ≠ []) (c : Nat) : c < blankColumn c a := by
  cases a with
  | nil => exact absurd rfl h
  | cons x a =>
    rw [blankColumn]
    refine Nat.lt_of_lt_of_le ?_ (blankColumn_le a _)
    split <;> omega

/-! ### The layout of statements -/

/-- `lns` is laid out as `L`, whatever comes after it at this column or further left. -/
def LayAs (ind : List Char) (lns : List Line) (L : List Leaf) : Prop :=
  ∀ st rest L', Stk (blankColumn 0 ind) st → Low (blankColumn 0 ind) rest → lay st rest = some L' →
    lay st (lns ++ rest) = some (L ++ L') ∧ (lns ≠ [] → ∃ ln r, lns = ln :: r ∧ ln.column = blankColumn 0 ind)

theorem LayAs.append {ind : List Char} {l1 l2 : List Line} {L1 L2 : List Leaf} (h1 : LayAs ind l1 L1) (h2 : LayAs ind l2 L2) :
    LayAs ind (l1 ++ l2) (L1 ++ L2) := by
  intro st rest L' hs hl hr
  obtain ⟨a1, a2⟩ := h2 st rest L' hs hl hr
  have hl2 : Low (blankColumn 0 ind) (l2 ++ rest) := by
    cases l2 with
    | nil => exact hl
    | cons ln r =>
      obtain ⟨ln', r', e, hc⟩ := a2 (by simp)
      cases e
      exact low_cons (by rw [hc]; exact Nat.le_refl _)
  obtain ⟨b1, b2⟩ := h1 st (l2 ++ rest) _ hs hl2 a1
  refine ⟨by rw [List.append_assoc, b1, List.append_assoc], ?_⟩
  intro hne
  cases l1 with
  | nil => rw [List.nil_append] at hne ⊢; exact a2 hne
  | cons ln r =>
    obtain ⟨ln', r', e, hc⟩ := b2 (by simp)
    cases e
    exact ⟨ln, r ++ l2, rfl, hc⟩

theorem LayAs.nil {ind : List Char} : LayAs ind [] [] := fun _ _ _ _ _ h => ⟨h, fun h => absurd rfl h⟩

theorem LayAs.line {ind : List Char} {ws : List Lexeme} : LayAs ind [⟨ind, ws⟩] (ws.map Lexeme.leaf ++ [.sym .Newline]) := by
  intro st rest L' hs _ hr
  refine ⟨?_, fun _ => ⟨_, _, rfl, rfl⟩⟩
  rw [List.cons_append, List.nil_append, lay_line hs rfl hr]
  simp

theorem LayAs.block {u ind : List Char} {ws : List Lexeme} {lns : List Line} {L : List Leaf} (hu : u ≠ []) (hne : lns ≠ [])
    (h : LayAs (ind ++ u) lns L) :
    LayAs ind (⟨ind, ws⟩ :: lns) (ws.map Lexeme.leaf ++ .sym .Newline :: .sym .Indent :: (L ++ [.sym .Dedent])) := by
  intro st rest L' hs hl hr
  refine ⟨?_, fun _ => ⟨_, _, rfl, rfl⟩⟩
  have hlt : blankColumn 0 ind < blankColumn 0 (ind ++ u) := by rw [blankColumn_append]; exact blankColumn_lt hu _
  have hs' : Stk (blankColumn 0 (ind ++ u)) (blankColumn 0 (ind ++ u) :: st) := by
    refine ⟨⟨st, rfl⟩, fun x hx => ?_⟩
    rcases List.mem_cons.1 hx with rfl | hx
    · exact Nat.le_refl _
    · have := hs.2 x hx; omega
  have hl' : Low (blankColumn 0 (ind ++ u)) rest := fun ln r e => Nat.le_trans (hl ln r e) (Nat.le_of_lt hlt)
  obtain ⟨h1, h2⟩ := h _ rest _ hs' hl' (lay_close hs hlt hl hr)
  obtain ⟨ln, r, rfl, hc⟩ := h2 hne
  rw [← hc] at h1
  rw [List.cons_append, lay_line hs rfl (r := ln :: r ++ rest) (lay_open hs (by rw [hc]; exact hlt) h1)]
  simp

theorem onFirst_suite (u ind : List Char) (ws hd : List Lexeme) (b : Suite) (cs : List Line) :
    onFirst ws (b.lines u ind hd ++ cs) = b.lines u ind (ws ++ hd) ++ cs := by
  cases b <;> simp [Suite.lines, onFirst]

theorem stm_lines_ne {k : Option Bool} {u ind : List Char} {s : Stm} (hw : s.Wf k) : s.lines u ind ≠ [] := by
  cases s with
  | simple l => simp [Stm.lines]
  | comp async cs =>
    rw [Stm.Wf] at hw
    obtain ⟨h, b, cs', rfl, _⟩ := heads_first hw.1
    rw [Stm.lines, clauseLines, onFirst_suite]
    cases b <;> simp [Suite.lines]

mutual
theorem stm_lay {u : List Char} (hu : u ≠ []) : ∀ (s : Stm) (k : Option Bool) (ind : List Char), s.Wf k → LayAs ind (s.lines u ind) s.leaves
  | .simple l, _, ind, _ => by
    rw [Stm.lines, Stm.leaves]
    exact .line
  | .comp async [], k, ind, hw => by
    rw [Stm.Wf] at hw
    obtain ⟨_, _, _, e, _⟩ := heads_first hw.1
    cases e
  | .comp async (.mk h b :: cs), k, ind, hw => by
    rw [Stm.Wf] at hw
    rw [Stm.lines, Stm.leaves]
    obtain ⟨_, _, _, hw2⟩ := hw
    rw [wfClauses] at hw2
    rw [clauseLines, onFirst_suite, clauseLeaves, ← List.append_assoc, ← List.append_assoc]
    have := suite_lay hu b _ ind ((if async then [.kw (cs! "async") .PyAsync] else []) ++ h.words) hw2.2.1
    rw [List.map_append] at this
    cases async
    · exact this.append (clauses_lay hu cs _ ind hw2.2.2)
    · exact this.append (clauses_lay hu cs _ ind hw2.2.2)
theorem clauses_lay {u : List Char} (hu : u ≠ []) : ∀ (cs : List Clause) (k : Option Bool) (ind : List Char), wfClauses k cs →
    LayAs ind (clauseLines u ind cs) (clauseLeaves cs)
  | [], _, _, _ => by rw [clauseLines, clauseLeaves]; exact .nil
  | .mk h b :: cs, k, ind, hw => by
    rw [wfClauses] at hw
    rw [clauseLines, clauseLeaves, ← List.append_assoc]
    exact (suite_lay hu b k ind h.words hw.2.1).append (clauses_lay hu cs k ind hw.2.2)
theorem suite_lay {u : List Char} (hu : u ≠ []) : ∀ (b : Suite) (k : Option Bool) (ind : List Char) (hd : List Lexeme), b.Wf k →
    LayAs ind (b.lines u ind hd) (hd.map Lexeme.leaf ++ b.leaves)
  | .inline l, _, ind, hd, _ => by
    rw [Suite.lines, Suite.leaves, ← List.append_assoc, ← List.map_append]
    exact .line
  | .block s ss, k, ind, hd, hw => by
    rw [Suite.Wf] at hw
    rw [Suite.lines, Suite.leaves, ← List.append_assoc s.leaves]
    refine .block hu (by simp [stm_lines_ne hw.1]) ?_
    exact (stm_lay hu s k (ind ++ u) hw.1).append (stms_lay hu ss k (ind ++ u) hw.2)
theorem stms_lay {u : List Char} (hu : u ≠ []) : ∀ (ss : List Stm) (k : Option Bool) (ind : List Char), wfStms k ss →
    LayAs ind (stmLines u ind ss) (stmLeaves ss)
  | [], _, _, _ => by rw [stmLines, stmLeaves]; exact .nil
  | s :: ss, k, ind, hw => by
    rw [wfStms] at hw
    rw [stmLines, stmLeaves]
    exact (stm_lay hu s k ind hw.1).append (stms_lay hu ss k ind hw.2)
end

/-! ### The lines can be written -/

theorem brOk_one {x : Lexeme} (h : ∀ st, brStep st x.leaf.kind = some st := by intro; rfl) : BrOk [x] := .cons h .nil

theorem brOk_each {α : Type} {sep : Lexeme} {f : α → List Lexeme} (hs : ∀ st, brStep st sep.leaf.kind = some st) (hf : ∀ x, BrOk (f x)) (l : List α) :
    BrOk (eachAfter sep f l) := by
  induction l with
  | nil => exact .nil
  | cons x l ih => exact .cons hs ((hf x).append ih)

theorem brOk_exprs (l : Exprs) : BrOk l.words := by
  rw [Exprs.words]
  refine (brOk_list l.es).append ?_
  split
  · exact brOk_one
  · exact .nil

theorem brOk_rhs (r : Rhs) : BrOk r.words := by
  cases r with
  | exprs l => exact brOk_exprs l
  | yield l => exact .cons (fun _ => rfl) (brOk_exprs l)
  | yieldFrom e => exact .cons (fun _ => rfl) (.cons (fun _ => rfl) (brOk_ex e))

theorem brOk_asName (x : AsName) : BrOk x.words := by
  obtain ⟨w, a⟩ := x
  cases a with
  | none => exact brOk_one
  | some a => exact .cons (fun _ => rfl) (.cons (fun _ => rfl) brOk_one)

theorem brOk_importList (l : ImportList) : BrOk l.words := by
  cases l with
  | all => exact brOk_one
  | plain x xs => exact (brOk_asName x).append (brOk_each (fun _ => rfl) brOk_asName xs)
  | paren x xs =>
    rw [ImportList.words, ← List.append_assoc]
    exact .wrap (q := ')') (fun _ => rfl) (fun _ => rfl) ((brOk_asName x).append (brOk_each (fun _ => rfl) brOk_asName xs))

theorem brOk_dots (l : List Bool) : BrOk (l.map dotWord) := by
  induction l with
  | nil => exact .nil
  | cons d l ih => exact .cons (fun _ => by cases d <;> rfl) ih

theorem brOk_dotted (l : List (List Char)) : BrOk (dottedWords l) := by
  cases l with
  | nil => exact .nil
  | cons w l => exact .cons (fun _ => rfl) (brOk_each (fun _ => rfl) (fun _ => brOk_one) l)

theorem brOk_names (l : List (List Char)) : BrOk (eachAfter wComma (fun w => [Lexeme.name w]) l) :=
  brOk_each (fun _ => rfl) (fun _ => brOk_one) l

theorem brOk_small (s : Small) : BrOk s.words := by
  cases s with
  | expr l => exact brOk_exprs l
  | assign l r rs => exact (brOk_exprs l).append (.cons (fun _ => rfl) ((brOk_rhs r).append (brOk_each (fun _ => rfl) brOk_rhs rs)))
  | aug op l r => exact (brOk_exprs l).append (.cons (fun _ => by cases op <;> rfl) (brOk_rhs r))
  | ann l ty r =>
    cases r with
    | none => exact (brOk_exprs l).append (.cons (fun _ => rfl) (brOk_ex ty))
    | some r => exact (brOk_exprs l).append (.cons (fun _ => rfl) ((brOk_ex ty).append (.cons (fun _ => rfl) (brOk_rhs r))))
  | del es => exact .cons (fun _ => rfl) (brOk_list es)
  | pass | brk | cont => exact brOk_one
  | ret l =>
    cases l with
    | none => exact brOk_one
    | some l => exact .cons (fun _ => rfl) (brOk_exprs l)
  | raise e =>
    rcases e with _ | ⟨e, _ | e'⟩
    · exact brOk_one
    · exact .cons (fun _ => rfl) (brOk_ex e)
    · exact .cons (fun _ => rfl) ((brOk_ex e).append (.cons (fun _ => rfl) (brOk_ex e')))
  | yield l => exact .cons (fun _ => rfl) (brOk_exprs l)
  | yieldFrom e => exact .cons (fun _ => rfl) (.cons (fun _ => rfl) (brOk_ex e))
  | from_ dots mod l => exact .cons (fun _ => rfl) ((brOk_dots dots).append ((brOk_dotted mod).append (.cons (fun _ => rfl) (brOk_importList l))))
  | global w ws => exact .cons (fun _ => rfl) (.cons (fun _ => rfl) (brOk_names ws))
  | «nonlocal» w ws => exact .cons (fun _ => rfl) (.cons (fun _ => rfl) (brOk_names ws))
  | assert e => exact .cons (fun _ => rfl) (brOk_ex e)

theorem brOk_sline (l : SLine) : BrOk l.words := by
  rw [SLine.words]
  refine (brOk_small l.s).append ((brOk_each (fun _ => rfl) brOk_small l.ss).append ?_)
  split
  · exact brOk_one
  · exact .nil

theorem brOk_withItem (x : WithItem) : BrOk x.words := by
  obtain ⟨e, a⟩ := x
  cases a with
  | none => exact (brOk_ex e).append .nil
  | some a => exact (brOk_ex e).append (.cons (fun _ => rfl) (brOk_ex a))

theorem brOk_parens : BrOk [wLeft, wRight] := .wrap (ys := []) (q := ')') (fun _ => rfl) (fun _ => rfl) .nil

theorem brOk_head (h : Head) : BrOk h.words := by
  cases h with
  | if_ e | elif e | while_ e => exact .cons (fun _ => rfl) ((brOk_ex e).append brOk_one)
  | else_ | try_ | finally_ => exact .cons (fun _ => rfl) brOk_one
  | for_ es it => exact .cons (fun _ => rfl) ((brOk_list es).append (.cons (fun _ => rfl) (.cons (fun _ => rfl) ((brOk_list it).append brOk_one))))
  | except star e =>
    refine .cons (fun _ => rfl) (.append (.append ?_ ?_) brOk_one)
    · cases star
      · exact .nil
      · exact brOk_one
    · rcases e with _ | ⟨e, _ | w⟩
      · exact .nil
      · exact brOk_ex e
      · exact (brOk_ex e).append (.cons (fun _ => rfl) brOk_one)
  | with_ p x xs =>
    cases p with
    | false => exact .cons (fun _ => rfl) ((brOk_withItem x).append ((brOk_each (fun _ => rfl) brOk_withItem xs).append brOk_one))
    | true =>
      have h := BrOk.wrap (x := wLeft) (y := wRight) (q := ')') (fun _ => rfl) (fun _ => rfl) ((brOk_withItem x).append (brOk_each (sep := wComma) (fun _ => rfl) brOk_withItem xs))
      have := BrOk.cons (x := .kw (cs! "with") .PyWith) (fun _ => rfl) (h.append (brOk_one (x := wColon)))
      simpa [Head.words] using this
  | def_ f r =>
    cases r with
    | none => exact .cons (fun _ => rfl) (.cons (fun _ => rfl) (brOk_parens.append brOk_one))
    | some e => exact .cons (fun _ => rfl) (.cons (fun _ => rfl) (brOk_parens.append (.cons (fun _ => rfl) ((brOk_ex e).append brOk_one))))
  | class_ w p =>
    refine .cons (fun _ => rfl) (.cons (fun _ => rfl) (.append ?_ brOk_one))
    cases p
    · exact .nil
    · exact brOk_parens

/-- A line that can be written, if its words can. -/
def LineGood (ln : Line) : Prop := (∀ c ∈ ln.blanks, c = ' ' ∨ c = '\t') ∧ ln.words ≠ [] ∧ BrOk ln.words

theorem head_words_ne (h : Head) : h.words ≠ [] := by
  cases h <;> (try (rename_i p _ _; cases p)) <;> (try (rename_i r; cases r)) <;> simp [Head.words]

mutual
theorem stm_lines_good {u : List Char} (hu : ∀ c ∈ u, c = ' ' ∨ c = '\t') : ∀ (s : Stm) (k : Option Bool) (ind : List Char),
    (∀ c ∈ ind, c = ' ' ∨ c = '\t') → s.Wf k → ∀ ln ∈ s.lines u ind, LineGood ln
  | .simple l, _, ind, hi, hw => by
    rw [Stm.Wf] at hw
    rw [Stm.lines]
    intro ln h
    rcases List.mem_singleton.1 h with rfl
    obtain ⟨x, r, hx, _⟩ := sline_first hw.1
    exact ⟨hi, by rw [hx]; simp, brOk_sline l⟩
  | .comp async [], k, ind, hi, hw => by
    rw [Stm.Wf] at hw
    obtain ⟨_, _, _, e, _⟩ := heads_first hw.1
    cases e
  | .comp async (.mk h b :: cs), k, ind, hi, hw => by
    rw [Stm.Wf] at hw
    rw [Stm.lines]
    obtain ⟨_, _, _, hw2⟩ := hw
    rw [wfClauses] at hw2
    rw [clauseLines, onFirst_suite]
    intro ln hm
    rcases List.mem_append.1 hm with hm | hm
    · refine suite_lines_good hu b _ ind _ hi (by simp [head_words_ne]) (.append ?_ (brOk_head h)) hw2.2.1 ln hm
      cases async
      · exact .nil
      · exact brOk_one
    · exact clauses_lines_good hu cs _ ind hi hw2.2.2 ln hm
theorem clauses_lines_good {u : List Char} (hu : ∀ c ∈ u, c = ' ' ∨ c = '\t') : ∀ (cs : List Clause) (k : Option Bool) (ind : List Char),
    (∀ c ∈ ind, c = ' ' ∨ c = '\t') → wfClauses k cs → ∀ ln ∈ clauseLines u ind cs, LineGood ln
  | [], _, _, _, _ => by rw [clauseLines]; intro ln h; cases h
  | .mk h b :: cs, k, ind, hi, hw => by
    rw [wfClauses] at hw
    rw [clauseLines]
    intro ln hm
    rcases List.mem_append.1 hm with hm | hm
    · exact suite_lines_good hu b k ind _ hi (head_words_ne h) (brOk_head h) hw.2.1 ln hm
    · exact clauses_lines_good hu cs k ind hi hw.2.2 ln hm
theorem suite_lines_good {u : List Char} (hu : ∀ c ∈ u, c = ' ' ∨ c = '\t') : ∀ (b : Suite) (k : Option Bool) (ind : List Char) (hd : List Lexeme),
    (∀ c ∈ ind, c = ' ' ∨ c = '\t') → hd ≠ [] → BrOk hd → b.Wf k → ∀ ln ∈ b.lines u ind hd, LineGood ln
  | .inline l, _, ind, hd, hi, hne, hb, _ => by
    rw [Suite.lines]
    intro ln h
    rcases List.mem_singleton.1 h with rfl
    exact ⟨hi, by simp [hne], hb.append (brOk_sline l)⟩
  | .block s ss, k, ind, hd, hi, hne, hb, hw => by
    rw [Suite.Wf] at hw
    rw [Suite.lines]
    have hi' : ∀ c ∈ ind ++ u, c = ' ' ∨ c = '\t' := by
      intro c hc
      rcases List.mem_append.1 hc with hc | hc
      · exact hi c hc
      · exact hu c hc
    intro ln hm
    rcases List.mem_cons.1 hm with hm | hm
    · rw [hm]; exact ⟨hi, hne, hb⟩
    · rcases List.mem_append.1 hm with hm | hm
      · exact stm_lines_good hu s k _ hi' hw.1 ln hm
      · exact stms_lines_good hu ss k _ hi' hw.2 ln hm
theorem stms_lines_good {u : List Char} (hu : ∀ c ∈ u, c = ' ' ∨ c = '\t') : ∀ (ss : List Stm) (k : Option Bool) (ind : List Char),
    (∀ c ∈ ind, c = ' ' ∨ c = '\t') → wfStms k ss → ∀ ln ∈ stmLines u ind ss, LineGood ln
  | [], _, _, _, _ => by rw [stmLines]; intro ln h; cases h
  | s :: ss, k, ind, hi, hw => by
    rw [wfStms] at hw
    rw [stmLines]
    intro ln hm
    rcases List.mem_append.1 hm with hm | hm
    · exact stm_lines_good hu s k ind hi hw.1 ln hm
    · exact stms_lines_good hu ss k ind hi hw.2 ln hm
end

section
variable [Uni]

theorem fedL_tokens {ts : List Token} {u : Token} {rest : List Token} {l' : Lexer} :
    ∀ {c : PSt}, Tokens c.lex (ts ++ u :: rest) l' →
      ∃ c', FedL c.advance (ts.map Token.leaf) c' ∧ c'.symbol = .ok u ∧ c'.exc = c.exc ∧ Tokens c'.lex rest l' := by
  induction ts with
  | nil =>
    intro c h
    cases h with
    | cons h1 h2 => exact ⟨c.advance, .nil, by simp [PSt.advance, h1], by simp [adv_exc], by simpa [PSt.advance, h1] using h2⟩
  | cons t ts ih =>
    intro c h
    cases h with
    | cons h1 h2 =>
      obtain ⟨c', i1, i2, i3, i4⟩ := ih (c := c.advance) (by simpa [PSt.advance, h1] using h2)
      exact ⟨c', .cons (t := t) (by simp [PSt.advance, h1]) rfl i1, i2, by rw [i3, adv_exc], i4⟩

/-- The tokens of a program written line by line. -/
theorem program_fed {u : List Char} {p : List Stm} (hu : u ≠ []) (hb : ∀ c ∈ u, c = ' ' ∨ c = '\t') (hw : wfStms none p)
    (hok : ∀ ln ∈ stmLines u [] p, ∀ x ∈ ln.words, x.Ok) :
    ∃ c' v, FedL (started (linesText (stmLines u [] p))) (stmLeaves p) c' ∧ c'.symbol = .ok v ∧ v.leaf = .sym .EOF := by
  have hl := (stms_lay hu p none [] hw [0] [] [.sym .EOF] ⟨⟨[], rfl⟩, by simp [blankColumn]⟩ (fun _ _ h => by cases h) rfl).1
  rw [List.append_nil, ← lay_pyLayout _ 0] at hl
  cases e : pyLayout 0 [0] (stmLines u [] p) with
  | none => rw [e] at hl; cases hl
  | some ts =>
    rw [e] at hl
    simp only [Option.map_some, Option.some.injEq] at hl
    obtain ⟨ts1, ts2, rfl, h1, h2⟩ := List.map_eq_append_iff.1 hl
    obtain ⟨v, l3, rfl, hv, h3⟩ := List.map_eq_cons_iff.1 h2
    cases List.map_eq_nil_iff.1 h3
    have hok' : ∀ ln ∈ stmLines u [] p, ln.Ok := by
      intro ln hm
      obtain ⟨a1, a2, a3⟩ := stms_lines_good hb p none [] (by simp) hw ln hm
      exact ⟨a1, a2, hok ln hm, by rw [brRun_brKinds, spacedTokens_kind]; exact a3 []⟩
    obtain ⟨l, hT⟩ := C11_layout_partial _ _ hok' e
    obtain ⟨c', i1, i2, _⟩ := fedL_tokens (c := PSt.new (Lexer.new (linesText (stmLines u [] p)))) hT
    rw [h1] at i1
    exact ⟨c', v, i1, i2, hv⟩

/-- The rule for files on the tokens of a program. -/
theorem file_ev {p : List Stm} (hw : wfStms none p) {c c' : PSt} {v : Token} (hf : FedL c.advance (stmLeaves p) c') (hv : c'.symbol = .ok v)
    (lv : v.leaf = .sym .EOF) : ∃ (t : Tree) (y : ExcStatus), t.sk = programSk p ∧ Ev .fileInput c t (c'.ex y) := by
  have kv : v.kind = .EOF := kind_of lv
  obtain ⟨_, nodes, y, _, h2, h3⟩ := stms_loop (k := none) (loop := fun nodes => .fileLoop c.advance.lex.tokStart nodes [])
    (fun nodes c v x d r c' hv kv e1 e2 => ev_body (by
      simp only [body, fileLoopBody]
      refine evp_bind (evp_symAt hv) ?_
      simp only [(notStm_ne kv).1, (notStm_ne kv).2.1, if_false]
      exact evp_bind (evp_parse e1) (evp_parse e2))) p [] c.advance c' (stms_good p none hw) hf ⟨v, hv, by rw [kv]; simp⟩ trivial
  refine ⟨.node .FileInput c.advance.lex.tokStart c'.lex.tokStart [.seq nodes.reverse, .toks [], .tok v], y, ?_, ev_body ?_⟩
  · sk_simp [skList_reverse, h2, lv, programSk]
    rfl
  · simp only [body, fileInputBody]
    refine evp_bind evp_next (evp_bind evp_here (evp_parse (h3 _ _ (ev_body ?_))))
    simp only [body, fileLoopBody]
    refine evp_bind (evp_symAt (t := v) hv) ?_
    kd_simp [kv]
    exact evp_mk

end
end Verif
