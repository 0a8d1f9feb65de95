import Verif.Proof.ReadStmt
import Verif.Props.Anywhere
import Verif.Spec.Session

/-!
# C77: a statement is read in the same way wherever it is
-/

namespace Verif

/-- The parse functions for statements and their parts, without those for `except` clauses. -/
def statementFns : List Fn :=
  [.stmt, .simpleStmt, .smallStmt, .exprStmt, .delStmt, .passStmt, .flowStmt, .breakStmt, .continueStmt, .returnStmt, .yieldStmt,
    .raiseStmt, .importStmt, .importName, .importFrom, .importAsName, .dottedAsName, .importAsNames, .dottedAsNames, .dottedName,
    .globalStmt, .nonlocalStmt, .assertStmt, .compoundStmt, .asyncStmt, .ifStmt, .elifStmt, .elseStmt, .whileStmt, .forStmt, .tryStmt,
    .finallyStmt, .withStmt, .withItem, .suite, .decorator, .decorators, .decorated, .asyncFuncDef, .funcDef, .parameters,
    .typedArgsList, .tfpDefAssign, .tfpDef, .funcBodySuite, .classDef, .funcType, .typeList]

section
variable {e : Token → Token} [Keeps e] [Uni]

omit [Keeps e] in
theorem SeenLike.consumed {c ts c'} (h : Consumed c ts c') : ∀ {d : PSt} {y}, SeenLike e ts.length c d →
    ∃ us, Consumed d us { d.ahead ts.length with exc := y } ∧ us.map e = ts.map e := by
  induction h with
  | done h1 h2 => intro d y _; exact ⟨[], .done rfl rfl, rfl⟩
  | @step c t ts c' h1 h2 ih =>
    intro d y h
    have h0 := h 0 (Nat.zero_le _)
    simp only [PSt.ahead, SymLike, h1] at h0
    cases hd : d.symbol with
    | error => rw [hd] at h0; exact h0.elim
    | ok u =>
      rw [hd] at h0
      obtain ⟨us, g1, g2⟩ := ih (d := d.advance) (y := y) (SeenLike.adv h)
      exact ⟨u :: us, .step hd g1, by simp only [List.map_cons, g2, h0]⟩

theorem anywhere {f src c n t c'} (hi : f.input = false) (hc : PReach src c) (h : run n f c = .ok t c') :
    ∃ ts, Consumed c ts c' ∧ ∀ d, (f.looks = true → d.exc = c.exc) → (∀ i ≤ ts.length, SymLike e (c.ahead i) (d.ahead i)) →
      ∃ k u d' us, run k f d = .ok u d' ∧ u.erase e = t.erase e ∧ Consumed d us d' ∧ us.map e = ts.map e ∧
        (d'.exc = c'.exc ∨ d'.exc = d.exc ∧ c'.exc = c.exc) := by
  obtain ⟨ts, g1, g2⟩ := run_likeAt (e := e) _ _ _ _ _ hi hc.good h
  refine ⟨ts, g1, fun d hx hd => ?_⟩
  obtain ⟨b, y, k1, k2, -, k3⟩ := g2 _ ⟨f, like_refl f, rfl⟩ 0 d hx hd
  obtain ⟨k, hk⟩ := evp_parse_inv k1
  obtain ⟨us, g3, g4⟩ := SeenLike.consumed (e := e) (y := y) g1 (d := d) hd
  exact ⟨k, b, _, us, hk, k2.symm, g3, g4, k3⟩

omit [Uni] in
theorem statementFns_input {f} (h : f ∈ statementFns) : f.input = false ∧ f.looks = false := by
  have : statementFns.all (fun f => !f.input && !f.looks) = true := rfl
  have := List.all_eq_true.1 this f h
  simpa using this

end

/-- C77: what a function for statements returns is decided by the kinds and the texts of the symbols it consumes and of the
one after them.  Wherever a parser of any text, whatever it has read before, sees these symbols, the function returns the
same tree up to positions and trivia, and consumes the same symbols. -/
theorem C77_statement_anywhere [Uni] (f : Fn) (hf : f ∈ statementFns) (src : List Char) (c : PSt) (hc : PReach src c)
    (n : Nat) (t : Tree) (c' : PSt) (h : run n f c = .ok t c') :
    ∃ ts, Consumed c ts c' ∧ ∀ d, (∀ i ≤ ts.length, SymLike Token.bare (c.ahead i) (d.ahead i)) →
      ∃ k u d' us, run k f d = .ok u d' ∧ u.erase Token.bare = t.erase Token.bare ∧ Consumed d us d' ∧
        us.map Token.bare = ts.map Token.bare := by
  obtain ⟨h1, h2⟩ := statementFns_input hf
  obtain ⟨ts, g1, g2⟩ := anywhere (e := Token.bare) h1 hc h
  refine ⟨ts, g1, fun d hd => ?_⟩
  obtain ⟨k, u, d', us, a, b, c, d, -⟩ := g2 d (by rw [h2]; simp) hd
  exact ⟨k, u, d', us, a, b, c, d⟩

/-- C77, forms: if only the kinds are the same (and the name `match` is at the same places), the trees have the same form. -/
theorem C77_statement_form_anywhere [Uni] (f : Fn) (hf : f ∈ statementFns) (src : List Char) (c : PSt) (hc : PReach src c)
    (n : Nat) (t : Tree) (c' : PSt) (h : run n f c = .ok t c') :
    ∃ ts, Consumed c ts c' ∧ ∀ d, (∀ i ≤ ts.length, SymLike Token.form (c.ahead i) (d.ahead i)) →
      ∃ k u d' us, run k f d = .ok u d' ∧ u.erase Token.form = t.erase Token.form ∧ Consumed d us d' ∧
        us.map Token.form = ts.map Token.form := by
  obtain ⟨h1, h2⟩ := statementFns_input hf
  obtain ⟨ts, g1, g2⟩ := anywhere (e := Token.form) h1 hc h
  refine ⟨ts, g1, fun d hd => ?_⟩
  obtain ⟨k, u, d', us, a, b, c, d, -⟩ := g2 d (by rw [h2]; simp) hd
  exact ⟨k, u, d', us, a, b, c, d⟩

/-- C77, `except` clauses: they are read in the same way wherever the `except` status is the same. -/
theorem C77_except_anywhere [Uni] (f : Fn) (hf : f ∈ [Fn.exceptStmt, .exceptClause]) (src : List Char) (c : PSt) (hc : PReach src c)
    (n : Nat) (t : Tree) (c' : PSt) (h : run n f c = .ok t c') :
    ∃ ts, Consumed c ts c' ∧ ∀ d, d.exc = c.exc → (∀ i ≤ ts.length, SymLike Token.bare (c.ahead i) (d.ahead i)) →
      ∃ k u d' us, run k f d = .ok u d' ∧ u.erase Token.bare = t.erase Token.bare ∧ Consumed d us d' ∧
        us.map Token.bare = ts.map Token.bare ∧ d'.exc = c'.exc := by
  have h1 : f.input = false := by
    simp only [List.mem_cons, List.not_mem_nil, or_false] at hf
    rcases hf with rfl | rfl <;> rfl
  obtain ⟨ts, g1, g2⟩ := anywhere (e := Token.bare) h1 hc h
  refine ⟨ts, g1, fun d hx hd => ?_⟩
  obtain ⟨k, u, d', us, a, b, c, d, e⟩ := g2 d (fun _ => hx) hd
  exact ⟨k, u, d', us, a, b, c, d, e.elim id fun h => h.1.trans (hx.trans h.2.symm)⟩

/-! ### The hypotheses are met -/

namespace StmtExample

def one : List Char := cs! "return a + b\nc\n"
def two : List Char := cs! "def f():\n  return  a +b # d\n  c\n"
def bares1 : List Token := [.sym .PyReturn 0 0 none, .name 0 0 none (cs! "a"), .sym .PyPlus 0 0 none, .name 0 0 none (cs! "b"), .newline 0 0 none ' ' ' ', .name 0 0 none (cs! "c"), .newline 0 0 none ' ' ' ', .eof 0 none]
def bares2 : List Token := [.sym .PyDef 0 0 none, .name 0 0 none (cs! "f"), .sym .PyLeftParen 0 0 none, .sym .PyRightParen 0 0 none, .sym .PyColon 0 0 none, .newline 0 0 none ' ' ' ', .indent none, .sym .PyReturn 0 0 none, .name 0 0 none (cs! "a"), .sym .PyPlus 0 0 none, .name 0 0 none (cs! "b"), .newline 0 0 none ' ' ' ', .name 0 0 none (cs! "c"), .newline 0 0 none ' ' ' ', .dedent none, .eof 0 none]

/-- The next `n` tokens. -/
def lexed [Uni] : Nat → Lexer → List Token
  | 0, _ => []
  | n + 1, l => match getSymbol l with
    | .ok t l' => t :: lexed n l'
    | .err .. => []

theorem lexed_tokens [Uni] : ∀ n l, ∃ l', Tokens l (lexed n l) l'
  | 0, l => ⟨l, .nil⟩
  | n + 1, l => by
    unfold lexed
    cases h : getSymbol l with
    | err => exact ⟨l, .nil⟩
    | ok t l1 =>
      obtain ⟨l', h'⟩ := lexed_tokens n l1
      exact ⟨l', .cons h h'⟩

theorem toks_of [Uni] {src : List Char} {n bs} (h : ((lexed n (Lexer.new src)).map Token.bare == bs && bs.any (fun t => t.kind == .EOF)) = true) :
    ∃ ts l, Tokens (Lexer.new src) ts l ∧ (∃ t ∈ ts, t.kind = .EOF) ∧ ts.map Token.bare = bs := by
  simp only [Bool.and_eq_true, beq_iff_eq, List.any_eq_true] at h
  obtain ⟨h1, t, h2, h3⟩ := h
  obtain ⟨l', h4⟩ := lexed_tokens n (Lexer.new src)
  rw [← h1] at h2
  obtain ⟨u, h5, h6⟩ := List.mem_map.1 h2
  exact ⟨_, l', h4, ⟨u, h5, by rw [← plug_kind_bare, h6]; exact h3⟩, h1⟩

theorem toks1 : let _ := asciiUni; ∃ ts l, Tokens (Lexer.new one) ts l ∧ (∃ t ∈ ts, t.kind = .EOF) ∧ ts.map Token.bare = bares1 := by
  let _ := asciiUni
  exact toks_of (n := 8) (by decide +kernel)

theorem toks2 : let _ := asciiUni; ∃ ts l, Tokens (Lexer.new two) ts l ∧ (∃ t ∈ ts, t.kind = .EOF) ∧ ts.map Token.bare = bares2 := by
  let _ := asciiUni
  exact toks_of (n := 16) (by decide +kernel)

theorem run1 : let _ := asciiUni; ∃ t c' z, run 60 .simpleStmt (PSt.new (Lexer.new one)).advance = .ok t c' ∧ c'.symbol = .ok z ∧
    z.bare = .name 0 0 none (cs! "c") := by
  let _ := asciiUni
  have key : (match run 60 .simpleStmt (PSt.new (Lexer.new one)).advance with
      | .ok _ c => match c.symbol with
        | .ok z => z.bare == .name 0 0 none (cs! "c")
        | _ => false
      | _ => false) = true := by decide +kernel
  split at key <;> first | (cases key; done) | skip
  rename_i t c' hr
  split at key <;> first | (cases key; done) | skip
  rename_i z hz
  exact ⟨t, c', z, hr, hz, eq_of_beq key⟩

theorem short (m : Nat) (h : Token.name 0 0 none (cs! "c") = bares1[m]?.getD (.eof 0 none)) : m ≤ 5 := by
  match m, h with
  | 0, _ | 1, _ | 2, _ | 3, _ | 4, _ | 5, _ => decide
  | 6, h => cases h
  | 7, h => cases h
  | m + 8, h => cases h

theorem same : ∀ i ≤ 5, bares1[i]?.getD (.eof 0 none) = bares2[i + 7]?.getD (.eof 0 none) := by decide

end StmtExample

open StmtExample in
/-- `return a + b` at the start of a text and in a function in a text with other spaces. -/
example : let _ := asciiUni
    ∃ t c' k u d', run 60 .simpleStmt (PSt.new (Lexer.new (cs! "return a + b\nc\n"))).advance = .ok t c' ∧
      run k .simpleStmt (PSt.ahead 8 (PSt.new (Lexer.new (cs! "def f():\n  return  a +b # d\n  c\n")))) = .ok u d' ∧
      u.erase Token.bare = t.erase Token.bare := by
  let _ := asciiUni
  show ∃ t c' k u d', run 60 .simpleStmt (PSt.new (Lexer.new one)).advance = .ok t c' ∧
    run k .simpleStmt (PSt.ahead 8 (PSt.new (Lexer.new two))) = .ok u d' ∧ _
  obtain ⟨t, c', z, hr, hz, hb⟩ := run1
  obtain ⟨t1, l1, h1, e1, b1⟩ := toks1
  obtain ⟨t2, l2, h2, e2, b2⟩ := toks2
  generalize one = one at *
  generalize two = two at *
  obtain ⟨ts, g1, g2⟩ := C77_statement_anywhere .simpleStmt (by simp [statementFns]) _ _ (.adv .new) 60 t c' hr
  have hts : ts.length ≤ 5 := by
    have g3 := g1.index.1
    rw [hz] at g3
    have g3 : Except.ok z = ((PSt.new (Lexer.new one)).ahead (ts.length + 1)).symbol := g3
    obtain ⟨t, k1, k2, -⟩ := h1.sees e1 ts.length
    rw [k1] at g3
    cases g3
    rw [hb, b1] at k2
    exact short _ k2
  obtain ⟨k, u, d', us, k1, k2, -⟩ := g2 (PSt.ahead 8 (PSt.new (Lexer.new two))) (by
    intro i hi
    have hi : i ≤ 5 := Nat.le_trans hi hts
    obtain ⟨t, i1, i2, -⟩ := h1.sees e1 i
    obtain ⟨t', j1, j2, -⟩ := h2.sees e2 (i + 7)
    rw [← ahead_add, show 8 + i = i + 7 + 1 by omega]
    unfold SymLike
    rw [j1, show PSt.ahead i (PSt.new (Lexer.new one)).advance = PSt.ahead (i + 1) (PSt.new (Lexer.new one)) from rfl, i1]
    show t.bare = t'.bare
    rw [i2, j2, b1, b2, same i hi])
  exact ⟨t, c', k, u, _, hr, k1, k2⟩

end Verif
