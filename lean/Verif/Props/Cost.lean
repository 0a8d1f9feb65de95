import Verif.Proof.CostAll
import Verif.Props.Term
import Verif.Props.Kinds

/-!
# C52: the work and the nesting depth of a parse are linear in the length of the text

`runC n f c` is `run n f c` together with the number of calls of parse functions and of `advance` (`Spec/Cost.lean`);
`n` bounds how deep the calls are nested.
-/

namespace Verif
open Prog

/-! ### Bounds of the measure -/

theorem todo_le {src : List Char} {l : Lexer} (h : Inv src l) : l.todo ≤ 3 * src.length := by
  have hpos : 0 < l.indents.length := by
    have := h.ind
    unfold IndOk at this
    cases hi : l.indents with
    | nil => rw [hi] at this; simp at this
    | cons => simp
  obtain ⟨h1, -, -, -, -, -, h7, -, -, -, h11, h12, ⟨h13, h14⟩, h15⟩ := h
  simp only [Lexer.todo, h1]
  rcases Int.le_total 0 l.pending with h | h
  · have : (l.pending.natAbs : Int) = l.pending := by omega
    omega
  · have : (l.pending.natAbs : Int) = - l.pending := by omega
    rcases h15 with h15 | h15
    · omega
    · omega

theorem left_le {src : List Char} {c : PSt} (h : Inv src c.lex) : c.left ≤ 3 * src.length + 1 := by
  have := todo_le h
  unfold PSt.left
  split
  · split <;> omega
  · omega

theorem new_left [Uni] (src : List Char) : (PSt.new (Lexer.new src)).advance.left ≤ 2 * src.length := by
  have h0 : (Lexer.new src).todo = 2 * src.length := by
    simp [Lexer.todo, Lexer.new, Source.new, Lexer.pos]
  unfold PSt.advance PSt.left
  cases hr : getSymbol (PSt.new (Lexer.new src)).lex with
  | err e l => simp
  | ok t l =>
    by_cases hk : t.kind = .EOF
    · simp [hk]
    · have := (ok_facts (Inv.new src) hr).less hk
      simp [hk]
      have h1 : (PSt.new (Lexer.new src)).lex.todo = (Lexer.new src).todo := rfl
      omega

theorem rank_le (f : Fn) : f.rank ≤ 31 := by cases f <;> exact Nat.le_of_ble_eq_true rfl

theorem okCost_le (f : Fn) : f.okCost ≤ 1 := by
  have := rank_le f
  unfold Fn.okCost
  split <;> omega

/-! ### Steps -/

section
attribute [local irreducible] KWP PSt.advance PSt.left

theorem input_steps [Uni] {src f c} (hf : f.input = true) (hc : Good src c) (n : Nat) (hn : run n f c ≠ .diverge) :
    ((runC n f c).2 : Int) ≤ 100 * c.advance.left + 40 := by
  have key : ∀ (k : Prog Tree), body f = .adv k →
      (∀ d, KWP 35 k d 0 (fun _ _ w => w ≤ 35)) → ((runC n f c).2 : Int) ≤ 100 * c.advance.left + 40 := by
    intro k hk ht
    cases n with
    | zero => exact absurd rfl hn
    | succ n =>
      have e1 : runC (n + 1) f c = ((k.execC (runC n) c.advance).1, (k.execC (runC n) c.advance).2 + 1) := by
        show (body f).execC (runC n) c = _
        rw [hk]; rfl
      have := kwp_sound (src := src) (rec := runC n) (L := c.advance.left)
        (fun f c t d hf hc hr => by
          rw [runC_fst] at hr
          have := tok_run (t_all src) n f c t d hf hc hr
          exact ⟨this.1, by omega⟩)
        (fun f c hs => by rw [runC_fst]; exact stuck_diverges hs n)
        (fun f c hf hc => kok_run (src := src) k_all n f c hf hc) k c.advance hc.advance 0 _ (ht _) 0 (by omega)
      have hd : (k.execC (runC n) c.advance).1 ≠ .diverge := by
        rw [← runC_fst, e1] at hn; exact hn
      simp only [e1]
      push_cast
      cases hr : (k.execC (runC n) c.advance).1 with
      | ok t d =>
        obtain ⟨w, h1, h2⟩ := this.1 t d hr
        have h1 : w ≤ 35 := h1
        have : (0 : Int) ≤ 100 * d.left := by omega
        omega
      | err => have := this.2 hd (by simp [hr]); omega
      | panic => have := this.2 hd (by simp [hr]); omega
      | diverge => exact absurd hr hd
  cases f <;> first | simp only [Fn.input, Bool.false_eq_true] at hf; done | skip
  · refine key (do let s ← here; let right ← parse .testlist; parse (.evalLoop s right [])) rfl ?_
    intro d; k_simp; k_auto
  · refine key (do let s ← here; parse (.fileLoop s [] [])) rfl ?_
    intro d; k_simp; k_auto
  · refine key _ rfl ?_
    intro d
    show KWP _ (do
      let s ← here
      let t ← symAt s "Expecting symbol in single input!"
      if t.kind = .Newline then do
        next
        mk .SingleInput s [.none, .tok t]
      else if t.kind ∈ compoundStart then do
        let right ← parse .compoundStmt
        singleNewline s right
      else if t.isMatchName then do
        let right ← parse .patternsMatch
        singleNewline s right
      else do
        let right ← parse .simpleStmt
        mk .SingleInput s [right, .none]) _ _ _
    unfold singleNewline
    k_simp; k_auto
  · refine key (do let s ← here; let right ← parse .funcType; parse (.funcTypeLoop s right [])) rfl ?_
    intro d; k_simp; k_auto
end

/-- C52, work: a parse of a text of `len` characters that comes to an end makes at most `200 len + 40` calls of parse
functions and of `advance` together. -/
theorem C52_linear_work [Uni] (src : List Char) (f : Fn) (hf : f ∈ inputFns) (n : Nat)
    (hn : run n f (PSt.new (Lexer.new src)) ≠ .diverge) :
    (runC n f (PSt.new (Lexer.new src))).2 ≤ 200 * src.length + 40 := by
  have hi : f.input = true := by
    simp only [inputFns, List.mem_cons, List.not_mem_nil, or_false] at hf
    rcases hf with rfl | rfl | rfl | rfl <;> rfl
  have h1 := input_steps hi (PReach.new (src := src)).good n hn
  have h2 := new_left src
  omega

/-- C52, work, for every parse function from every state: at most `300 len + 200`. -/
theorem C52_linear_work_anywhere [Uni] (src : List Char) (f : Fn) (c : PSt) (hc : PReach src c) (n : Nat)
    (hn : run n f c ≠ .diverge) : (runC n f c).2 ≤ 300 * src.length + 200 := by
  cases hf : f.input with
  | true =>
    have h1 := input_steps hf hc.good n hn
    have h2 := left_le hc.good.advance.inv
    omega
  | false =>
    have h1 := kok_run (src := src) k_all n f c hf hc.good
    have h2 := left_le hc.good.inv
    have h3 := okCost_le f
    have h4 := rank_le f
    rw [← runC_fst] at hn
    cases hr : (runC n f c).1 with
    | ok t d => have := h1.1 t d hr; omega
    | err => have := h1.2 hn (by simp [hr]); unfold Fn.failCost at this; omega
    | panic => have := h1.2 hn (by simp [hr]); unfold Fn.failCost at this; omega
    | diverge => exact absurd hr hn

/-! ### Depth -/

/-- A body whose calls all end within depth `N`. -/
theorem twp_depth [Uni] {α : Type} {src : List Char} {B N : Nat}
    (hrun : ∀ n f c t d, f.input = false → Good src c → run n f c = .ok t d → Good src d ∧ d.left + f.step ≤ c.left)
    (hend : ∀ f c, f.input = false → Good src c → f.weight c < B →
      run N f c ≠ .diverge ∨ ∃ d, Calls f c .importStmt d ∧ Stuck .importStmt d)
    (p : Prog α) (c : PSt) (hc : Good src c) (Q : α → PSt → Prop) (h : TWP src B p c Q) :
    p.exec (run N) c ≠ .diverge ∨ ∃ g d e, Makes p c g d ∧ Calls g d .importStmt e ∧ Stuck .importStmt e := by
  induction p generalizing c with
  | ret a => exact .inl (by simp [Prog.exec])
  | fail | panic => exact .inl (by simp [Prog.exec])
  | getPos k ih =>
    rcases ih _ _ hc (h _) with h | ⟨g, d, e, h, h'⟩
    · exact .inl h
    · exact .inr ⟨g, d, e, .getPos h, h'⟩
  | sym k e ih1 ih2 =>
    cases hs : c.symbol with
    | ok t =>
      rcases ih1 _ _ hc (h.1 t hs) with h | ⟨g, d, e, h, h'⟩
      · exact .inl (by simpa only [Prog.exec, hs] using h)
      · exact .inr ⟨g, d, e, .sym hs h, h'⟩
    | error x =>
      rcases ih2 _ hc (h.2 x hs) with h | ⟨g, d, e, h, h'⟩
      · exact .inl (by simpa only [Prog.exec, hs] using h)
      · exact .inr ⟨g, d, e, .noSym hs h, h'⟩
  | adv k ih =>
    obtain ⟨t, ht, h⟩ := h
    rcases ih _ hc.advance (h _ hc.advance (hc.advance_le ht) (advance_left hc.inv t ht)) with h | ⟨g, d, e, h, h'⟩
    · exact .inl h
    · exact .inr ⟨g, d, e, .adv h, h'⟩
  | call f k ih =>
    rcases h.1 with hw | hw
    · rcases hend f c hw.1 hc hw.2 with hn | ⟨d, h1, h2⟩
      · cases hf : run N f c with
        | ok t c1 =>
          obtain ⟨h1, h2⟩ := hrun _ _ _ _ _ hw.1 hc hf
          rcases ih _ _ h1 (h.2 t c1 h1 h2) with hm | ⟨g, d, e, h, h'⟩
          · exact .inl (by simpa only [Prog.exec, hf] using hm)
          · exact .inr ⟨g, d, e, .later hf h, h'⟩
        | err => exact .inl (by simp [Prog.exec, hf])
        | panic => exact .inl (by simp [Prog.exec, hf])
        | diverge => exact absurd hf hn
      · exact .inr ⟨f, c, d, .here, h1, h2⟩
    · exact .inr ⟨f, c, c, .here, by rw [hw.1]; exact .self, rfl, hw.2⟩
  | getExc k ih =>
    rcases ih _ _ hc (h _) with h | ⟨g, d, e, h, h'⟩
    · exact .inl h
    · exact .inr ⟨g, d, e, .getExc h, h'⟩
  | setExc x k ih =>
    rcases ih _ (hc.exc x) (h _ (hc.exc x) rfl rfl) with h | ⟨g, d, e, h, h'⟩
    · exact .inl h
    · exact .inr ⟨g, d, e, .setExc h, h'⟩

theorem tok_depth [Uni] {src : List Char} : ∀ N f c, f.input = false → Good src c → f.weight c < N →
    run N f c ≠ .diverge ∨ ∃ d, Calls f c .importStmt d ∧ Stuck .importStmt d := by
  intro N
  induction N with
  | zero => intro f c _ _ hw; omega
  | succ N ih =>
    intro f c hf hc hw
    rcases twp_depth (tok_run (t_all src)) (fun g d hg hd hw' => ih g d hg hd (by omega)) (body f) c hc _ (t_all src f hf c hc) with
      hn | ⟨g, d, e, h1, h2, h3⟩
    · exact .inl hn
    · exact .inr ⟨e, .step h1 h2, h3⟩

section
attribute [local irreducible] TWP PSt.advance PSt.left

theorem input_depth [Uni] {src f c} (hf : f.input = true) (hc : Good src c) :
    run (100 * c.advance.left + 201) f c ≠ .diverge ∨ ∃ d, Calls f c .importStmt d ∧ Stuck .importStmt d := by
  have key : ∀ (k : Prog Tree), body f = .adv k →
      (∀ d, Good src d → TWP src (100 * d.left + 200) k d (fun _ _ => True)) →
      run (100 * c.advance.left + 201) f c ≠ .diverge ∨ ∃ d, Calls f c .importStmt d ∧ Stuck .importStmt d := by
    intro k hk ht
    rcases twp_depth (tok_run (t_all src)) (fun f c hf hc hw => tok_depth _ f c hf hc hw) k c.advance hc.advance _
      (ht _ hc.advance) with hn | ⟨g, d, e, h1, h2, h3⟩
    · refine .inl ?_
      show (body f).exec (run _) c ≠ .diverge
      rw [hk]; exact hn
    · exact .inr ⟨e, .step (by rw [hk]; exact .adv h1) h2, h3⟩
  cases f <;> first | simp only [Fn.input, Bool.false_eq_true] at hf; done | skip
  · refine key (do let s ← here; let right ← parse .testlist; parse (.evalLoop s right [])) rfl ?_
    intro d hd; t_simp; t_auto
  · refine key (do let s ← here; parse (.fileLoop s [] [])) rfl ?_
    intro d hd; t_simp; t_auto
  · refine key _ rfl ?_
    intro d hd
    show TWP _ _ (do
      let s ← here
      let t ← symAt s "Expecting symbol in single input!"
      if t.kind = .Newline then do
        next
        mk .SingleInput s [.none, .tok t]
      else if t.kind ∈ compoundStart then do
        let right ← parse .compoundStmt
        singleNewline s right
      else if t.isMatchName then do
        let right ← parse .patternsMatch
        singleNewline s right
      else do
        let right ← parse .simpleStmt
        mk .SingleInput s [right, .none]) _ _
    unfold singleNewline
    t_simp; t_auto
  · refine key (do let s ← here; let right ← parse .funcType; parse (.funcTypeLoop s right [])) rfl ?_
    intro d hd; t_simp; t_auto
end

/-- C52, depth: if a parse of a text of `len` characters comes to an end at all, its calls are nested at most
`300 len + 400` deep. -/
theorem C52_linear_depth [Uni] (src : List Char) (f : Fn) (c : PSt) (hc : PReach src c) (n : Nat)
    (hn : run n f c ≠ .diverge) : run (300 * src.length + 400) f c = run n f c := by
  have hnot : ¬ ∃ d, Calls f c .importStmt d ∧ Stuck .importStmt d := fun ⟨d, h1, h2⟩ =>
    hn (calls_diverges h1 (stuck_diverges h2) n)
  suffices h : run (300 * src.length + 400) f c ≠ .diverge from run_det h hn
  cases hf : f.input with
  | true =>
    rcases input_depth hf hc.good with h | h
    · have h2 := left_le hc.good.advance.inv
      rw [run_mono h _ (by omega)]; exact h
    · exact absurd h hnot
  | false =>
    have h2 := left_le hc.good.inv
    have h4 := rank_le f
    rcases tok_depth (src := src) (300 * src.length + 400) f c hf hc.good (by unfold Fn.weight; omega) with h | h
    · exact h
    · exact absurd h hnot

/-! ### Linear depth is reached: nested parentheses -/

/-- The current symbol and the next `n` ones are left parentheses. -/
def Parens [Uni] : Nat → PSt → Prop
  | 0, c => ∃ t, c.symbol = .ok t ∧ t.kind = .PyLeftParen
  | n + 1, c => (∃ t, c.symbol = .ok t ∧ t.kind = .PyLeftParen) ∧ Parens n c.advance

theorem Parens.head [Uni] {n c} (h : Parens n c) : ∃ t, c.symbol = .ok t ∧ t.kind = .PyLeftParen := by
  cases n with
  | zero => exact h
  | succ n => exact h.1

/-- The functions from `testlist_comp` down to `atom`, each of which calls the next one first. -/
def parenChain : List Fn := [.testlistComp, .namedExpression, .test, .orTest, .andTest, .notTest, .comparison, .expr, .xorExpr,
  .andExpr, .shift, .arith, .term, .factor, .power, .atomExpr, .atom]

theorem parens_deep [Uni] : ∀ n k c f, f ∈ parenChain → n ≤ k → Parens k c → run n f c = .diverge := by
  intro n
  induction n with
  | zero => intro k c f _ _ _; rfl
  | succ n ih =>
    intro k c f hf hk hp
    obtain ⟨t, ht, htk⟩ := hp.head
    have step : ∀ g ∈ parenChain, run n g c = .diverge := fun g hg => ih k c g hg (by omega) hp
    simp only [parenChain, List.mem_cons, List.not_mem_nil, or_false, forall_eq_or_imp, forall_eq] at step
    obtain ⟨s1, s2, s3, s4, s5, s6, s7, s8, s9, s10, s11, s12, s13, s14, s15, s16, s17⟩ := step
    obtain ⟨k, rfl⟩ : ∃ k', k = k' + 1 := ⟨k - 1, by omega⟩
    obtain ⟨t2, ht2, htk2⟩ := hp.2.head
    have hin := ih k c.advance .testlistComp (by simp [parenChain]) (by omega) hp.2
    simp only [parenChain, List.mem_cons, List.not_mem_nil, or_false] at hf
    rcases hf with rfl | rfl | rfl | rfl | rfl | rfl | rfl | rfl | rfl | rfl | rfl | rfl | rfl | rfl | rfl | rfl | rfl <;>
      simp [run, body, testlistCompBody, starOrNamed, namedExpressionBody, testBody, orTestBody, andTestBody, notTestBody, comparisonBody,
        exprBody, xorExprBody, andExprBody, shiftBody, arithBody, termBody, factorBody, powerBody, atomExprBody, atomBody,
        Prog.here, Prog.symAt, Prog.symHere, Prog.parse, Prog.next, Prog.exec, Bind.bind, Prog.bind, Pure.pure, *]

/-- C52, depth: the depth really grows with the text. With calls nested at most `n` deep, a text that starts with more
than `n` left parentheses cannot be parsed (so deep enough nesting exhausts any stack). -/
theorem C52_depth_grows [Uni] (n : Nat) (src : List Char) (ts : List Token) (l : Lexer) (hl : n < ts.length)
    (ht : Tokens (Lexer.new src) ts l) (hk : ∀ t ∈ ts, t.kind = .PyLeftParen) :
    run n .evalInput (PSt.new (Lexer.new src)) = .diverge := by
  have key : ∀ (ts : List Token) (k : Nat) (c : PSt) (l : Lexer), k < ts.length → Tokens c.lex ts l →
      (∀ t ∈ ts, t.kind = .PyLeftParen) → Parens k c.advance := by
    intro ts
    induction ts with
    | nil => intro k c l hk; simp at hk
    | cons t ts ih =>
      intro k c l hk ht hp
      cases ht with
      | @cons _ _ l1 _ _ h1 h2 =>
        have e : c.advance = { c with lex := l1, symbol := .ok t } := by simp [PSt.advance, h1]
        have hh : ∃ t, c.advance.symbol = .ok t ∧ t.kind = .PyLeftParen := by rw [e]; exact ⟨t, rfl, hp t (by simp)⟩
        cases k with
        | zero => exact hh
        | succ k => exact ⟨hh, ih k _ l (by simpa using hk) (by rw [e]; exact h2) (fun v hv => hp v (by simp [hv]))⟩
  have hp := key ts n (PSt.new (Lexer.new src)) l hl ht hk
  cases n with
  | zero => rfl
  | succ n =>
    cases n with
    | zero => simp [run, body, evalInputBody, Prog.here, Prog.parse, Prog.next, Prog.exec, Bind.bind, Prog.bind]
    | succ n =>
      have h1 := parens_deep n (n + 2) _ .test (by simp [parenChain]) (by omega) hp
      simp [run, body, evalInputBody, testlistBody, Prog.here, Prog.parse, Prog.next, Prog.exec, Bind.bind, Prog.bind, h1]

/-! ### The hypotheses are met -/

example : (@runC asciiUni 100 .fileInput (PSt.new (Lexer.new (cs! "a = (b, 1)\n")))).2 = 127 := by decide +kernel

/-- Texts of left parentheses. -/
example : ∃ ts l, @Tokens asciiUni (Lexer.new (cs! "((((")) ts l ∧ 3 < ts.length ∧ ∀ t ∈ ts, t.kind = .PyLeftParen := by
  let _ := asciiUni
  exact ⟨_, _, .cons rfl (.cons rfl (.cons rfl (.cons rfl .nil))), by simp, by decide⟩

end Verif
