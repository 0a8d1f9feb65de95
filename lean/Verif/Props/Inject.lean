import Verif.Proof.Inject
import Verif.Props.Layout

/-!
# Different programs have different trees (C57)
-/

namespace Verif
open Prog
set_option linter.unusedSimpArgs false

theorem alternate_erase (e : Token → Token) : ∀ a b : List Tree, eraseList e (alternate a b) = alternate (eraseList e a) (eraseList e b)
  | x :: xs, s :: ss => by simp [alternate, eraseList, alternate_erase e xs ss]
  | [], [] => by simp [alternate, eraseList]
  | x :: xs, [] => by simp [alternate, eraseList]
  | [], s :: ss => by simp [alternate, eraseList]

theorem arrange_erase (e : Token → Token) (g : Tag) (fs : List Tree) :
    arrange g (eraseList e fs) = (arrange g fs).map (eraseList e) := by
  cases g
  case ExprList | TestList | TestListComp | SubscriptList | ArgList | DictionaryContainer | SetContainer | TestListStarExpr |
    ImportAsNamesStmt | DottedAsNamesStmt | DottedNameStmt =>
    rcases fs with _ | ⟨a, _ | ⟨b, _ | ⟨c, r⟩⟩⟩ <;> try rfl
    all_goals cases a <;> try rfl
    all_goals cases b <;> try rfl
    simp only [arrange, eraseList, Tree.erase, Option.map_some, alternate_erase, eraseList_reverse]
  case SimpleStmtList =>
    rcases fs with _ | ⟨a, _ | ⟨b, _ | ⟨c, _ | ⟨d, r⟩⟩⟩⟩ <;> try rfl
    all_goals cases a <;> try rfl
    all_goals cases b <;> try rfl
    simp only [arrange, eraseList, Tree.erase, Option.map_some, alternate_erase, eraseList_reverse, eraseList_append]
  case GlobalStmt | NonLocalStmt =>
    rcases fs with _ | ⟨a, _ | ⟨b, _ | ⟨c, _ | ⟨d, r⟩⟩⟩⟩ <;> try rfl
    all_goals cases b <;> try rfl
    all_goals cases c <;> try rfl
    simp only [arrange, eraseList, Tree.erase, Option.map_some, alternate_erase, eraseList_reverse, eraseList_append]
  case ImportFromStmt =>
    rcases fs with _ | ⟨a, _ | ⟨b, _ | ⟨c, _ | ⟨d, _ | ⟨x, _ | ⟨y, _ | ⟨z, _ | ⟨_, _⟩⟩⟩⟩⟩⟩⟩⟩ <;> try rfl
    all_goals cases b <;> try rfl
    simp only [arrange, eraseList, Tree.erase, Option.map_some, alternate_erase, eraseList_reverse, eraseList_append, List.cons_append]
  case IfStmt =>
    rcases fs with _ | ⟨a, _ | ⟨b, _ | ⟨c, _ | ⟨d, _ | ⟨x, _ | ⟨y, _ | ⟨z, _⟩⟩⟩⟩⟩⟩⟩ <;> try rfl
    all_goals cases x <;> try rfl
    simp only [arrange, eraseList, Tree.erase, Option.map_some, alternate_erase, eraseList_reverse, eraseList_append, List.cons_append]
  case TryStmt =>
    rcases fs with _ | ⟨a, _ | ⟨b, _ | ⟨c, _ | ⟨d, _ | ⟨x, _ | ⟨y, _ | ⟨z, _⟩⟩⟩⟩⟩⟩⟩ <;> try rfl
    all_goals cases d <;> try rfl
    simp only [arrange, eraseList, Tree.erase, Option.map_some, alternate_erase, eraseList_reverse, eraseList_append, List.cons_append]
  case WithStmt =>
    rcases fs with _ | ⟨a, _ | ⟨b, _ | ⟨c, _ | ⟨d, _ | ⟨x, _ | ⟨y, _ | ⟨z, _ | ⟨_, _⟩⟩⟩⟩⟩⟩⟩⟩ <;> try rfl
    all_goals cases c <;> try rfl
    all_goals cases d <;> try rfl
    simp only [arrange, eraseList, Tree.erase, Option.map_some, alternate_erase, eraseList_reverse, eraseList_append, List.cons_append]
  case SuiteStmt =>
    rcases fs with _ | ⟨a, _ | ⟨b, _ | ⟨c, _ | ⟨d, _ | ⟨x, _⟩⟩⟩⟩⟩ <;> try rfl
    all_goals cases c <;> try rfl
    simp only [arrange, eraseList, Tree.erase, Option.map_some, alternate_erase, eraseList_reverse, eraseList_append, List.cons_append]
  case FuncBodySuite =>
    rcases fs with _ | ⟨a, _ | ⟨b, _ | ⟨c, _ | ⟨d, _ | ⟨x, _ | ⟨y, _ | ⟨z, _⟩⟩⟩⟩⟩⟩⟩ <;> try rfl
    all_goals cases x <;> try rfl
    simp only [arrange, eraseList, Tree.erase, Option.map_some, alternate_erase, eraseList_reverse, eraseList_append, List.cons_append]
  case Decorators =>
    rcases fs with _ | ⟨a, _ | ⟨b, r⟩⟩ <;> try rfl
    all_goals cases a <;> try rfl
    simp only [arrange, eraseList, Tree.erase, Option.map_some, alternate_erase, eraseList_reverse, eraseList_append, List.cons_append]
  case EvalInput | FuncTypeInput =>
    rcases fs with _ | ⟨a, _ | ⟨b, _ | ⟨c, _ | ⟨d, r⟩⟩⟩⟩ <;> try rfl
    all_goals cases b <;> try rfl
    simp only [arrange, eraseList, Tree.erase, Option.map_some, alternate_erase, eraseList_reverse, eraseList_append, List.cons_append]
  all_goals rfl

/-- The arranged fields are fields or elements of list fields. -/
theorem arrange_mem {tag fs fs'} (h : arrange tag fs = some fs') : ∀ x ∈ fs', x ∈ fs ∨ ∃ xs, Tree.seq xs ∈ fs ∧ x ∈ xs := by
  have alt (P : Tree → Prop) (a b : List Tree) : (∀ x ∈ alternate a b, P x) ↔ (∀ x ∈ a, P x) ∧ ∀ x ∈ b, P x := by
    simp only [mem_alternate, or_imp, forall_and]
  unfold arrange at h
  split at h <;> cases h <;> first
    | exact fun x hx => .inl hx
    | (simp only [List.cons_append, List.forall_mem_cons, List.forall_mem_append, alt, List.mem_reverse, List.not_mem_nil,
        false_implies, implies_true, and_true]
       repeat' apply And.intro
       all_goals first
        | exact .inl (by simp only [List.mem_cons, true_or, or_true])
        | exact fun x hx => .inr ⟨_, by simp only [List.mem_cons, true_or, or_true], hx⟩)

/-- The variants that do not record how their lists were interleaved. -/
def looseTags : List Tag := [.FileInput, .VarArgsList, .TypeList]

theorem arrange_none {g fs} (h : arrange g fs = none) : g ∈ looseTags := by
  unfold arrange at h
  split at h <;> first | (cases h; done) | decide

theorem allIn_iff {P l} : AllIn P l ↔ ∀ x ∈ l, x.All P := by
  induction l with
  | nil => simp [AllIn]
  | cons x l ih => simp [AllIn, ih]

/-- Trees that are alike up to `e` are read as tokens that are alike up to `e`. -/
theorem Reads.det {e : Token → Token} {l ts} (h : Reads l ts) : AllIn (fun g _ => g ∉ looseTags) l → ∀ {l' ts'}, Reads l' ts' →
    eraseList e l = eraseList e l' → ts.map e = ts'.map e := by
  induction h with
  | nil =>
    intro _ l' ts' h' he
    cases h' with
    | nil => rfl
    | _ => simp [eraseList] at he
  | none h ih =>
    intro ha l' ts' h' he
    rw [AllIn] at ha
    cases h' <;> simp [eraseList, Tree.erase] at he
    exact ih ha.2 (by assumption) he
  | tok h ih =>
    intro ha l' ts' h' he
    rw [AllIn] at ha
    cases h' <;> simp [eraseList, Tree.erase] at he
    rename_i h'
    simp only [List.map_cons, he.1]
    rw [ih ha.2 h' he.2]
  | seq h ih =>
    intro ha l' ts' h' he
    rw [AllIn, Tree.All] at ha
    cases h' <;> simp [eraseList, Tree.erase] at he
    rename_i h'
    refine ih (allIn_iff.2 ?_) h' (by rw [eraseList_append, eraseList_append, he.1, he.2])
    intro x hx
    rcases List.mem_append.1 hx with hx | hx
    · exact allIn_iff.1 ha.1 x hx
    · exact allIn_iff.1 ha.2 x hx
  | @node g s e' fs fs' l ts ha' h ih =>
    intro ha l' ts' h' he
    rw [AllIn, Tree.All] at ha
    obtain ⟨⟨hg, ha1⟩, ha2⟩ := ha
    cases h' <;> simp [eraseList, Tree.erase] at he
    · rename_i ha'' h'
      obtain ⟨⟨rfl, he1⟩, he2⟩ := he
      have e1 := arrange_erase e g fs
      rw [he1, arrange_erase, ha', ha''] at e1
      simp only [Option.map_some, Option.some.injEq] at e1
      refine ih (allIn_iff.2 ?_) h' (by rw [eraseList_append, eraseList_append, e1, he2])
      intro x hx
      rcases List.mem_append.1 hx with hx | hx
      · rcases arrange_mem ha' x hx with hx | ⟨xs, h1, h2⟩
        · exact allIn_iff.1 ha1 x hx
        · have := allIn_iff.1 ha1 _ h1
          rw [Tree.All] at this
          exact allIn_iff.1 this x h2
      · exact allIn_iff.1 ha2 x hx
    · rename_i ha'' hi h'
      obtain ⟨⟨rfl, he1⟩, he2⟩ := he
      exact absurd (arrange_none ha'') hg
  | loose ha' =>
    intro ha
    rw [AllIn, Tree.All] at ha
    exact absurd (arrange_none ha') ha.1.1

theorem all_of_inside {P : Tag → Prop} : ∀ {t : Tree}, (∀ g s e fs, Inside (.node g s e fs) t → P g) → t.All (fun g _ => P g)
  | .tok _, _ => by rw [Tree.All]; trivial
  | .none, _ => by rw [Tree.All]; trivial
  | .seq l, h => by
    rw [Tree.All, allIn_iff]
    exact fun x hx => all_of_inside fun g s e fs hi => h g s e fs (.seq hx hi)
  | .node g s e l, h => by
    rw [Tree.All, allIn_iff]
    exact ⟨h g s e l (.here _), fun x hx => all_of_inside fun g s e fs hi => h g s e fs (.node hx hi)⟩
termination_by t => sizeOf t
decreasing_by
  all_goals simp_wf
  all_goals have := List.sizeOf_lt_of_mem hx
  all_goals omega

/-- The nodes of a well formed tree that is no file node: none of them is a file node. -/
theorem tight_inside {t} (ht : t.All NodeOk) (hn : NoFileTop t)
    (hs : ∀ g s e fs, Inside (.node g s e fs) t → g ≠ .VarArgsList ∧ g ≠ .TypeList) : t.All (fun g _ => g ∉ looseTags) := by
  refine all_of_inside (P := fun g => g ∉ looseTags) fun g s e fs hi => ?_
  have h1 := hs g s e fs hi
  have h2 : g ≠ .FileInput := by
    have h := noFile_inside hi ht hn
    cases h with | node h => exact h
  simp [looseTags, h1, h2]

/-! ### The theorems -/

/-- C57, files: the tree of a file holds its statements and the end of the file and nothing else (its list of
separators is empty); the statements, in the reverse of the order in which the tree stores them, are read from the
symbols in order, and no symbol is left between them. -/
theorem C57_file_structure [Uni] (n : Nat) (src : List Char) (t : Tree) (c' : PSt)
    (h : run n .fileInput (PSt.new (Lexer.new src)) = .ok t c') :
    ∃ xs ts u s e, t = .node .FileInput s e [.seq xs.reverse, .seq [], .tok u] ∧
      Tokens (Lexer.new src) (ts ++ [u]) c'.lex ∧ u.kind = .EOF ∧ Reads xs ts :=
  fileInput_struct h

example : ∃ t c', @run asciiUni 80 .fileInput (PSt.new (Lexer.new (cs! "a\n\nif b:\n  c\n"))) = .ok t c' ∧
    (t.field 0).tokens.map Token.kind = [.PyIf, .AtomName, .PyColon, .Newline, .Indent, .AtomName, .Newline, .Dedent, .AtomName, .Newline] :=
  Res.shows (by decide +kernel)

/-- C57: if two accepted texts have the same tree up to positions and trivia, they have the same symbols up to positions
and trivia, provided that the tree has no parameter list of a lambda or class and no list of types, because these nodes do
not record where `/` and `*` stood, except by positions (`C57_parameter_lists`). -/
theorem C57_up_to_layout [Uni] (f : Fn) (hf : f = .evalInput ∨ f = .fileInput ∨ f = .funcTypeInput)
    (src src' : List Char) (n n' : Nat) (t t' : Tree) (c c' : PSt)
    (h : run n f (PSt.new (Lexer.new src)) = .ok t c) (h' : run n' f (PSt.new (Lexer.new src')) = .ok t' c')
    (hs : ∀ g s e fs, Inside (.node g s e fs) t → g ≠ .VarArgsList ∧ g ≠ .TypeList)
    (he : t.erase Token.bare = t'.erase Token.bare) :
    ∃ ts ts', Tokens (Lexer.new src) ts c.lex ∧ Tokens (Lexer.new src') ts' c'.lex ∧ (∃ u ∈ ts, u.kind = .EOF) ∧
      ts.map Token.bare = ts'.map Token.bare := by
  have single : NoFileTop t → t.All NodeOk → ∃ ts ts', Tokens (Lexer.new src) ts c.lex ∧ Tokens (Lexer.new src') ts' c'.lex ∧
      (∃ u ∈ ts, u.kind = .EOF) ∧ ts.map Token.bare = ts'.map Token.bare := by
    intro hn ha
    obtain ⟨ts, u, h1, h2, h3, -⟩ := C22_whole_input_used n f src c t hf h
    obtain ⟨ts', u', h1', -, h3', -⟩ := C22_whole_input_used n' f src' c' t' hf h'
    refine ⟨_, _, h1, h1', ⟨u, by simp, h2⟩, h3.det ?_ h3' (by simp [eraseList, he])⟩
    exact allIn_iff.2 (by simpa using tight_inside ha hn hs)
  rcases hf with rfl | rfl | rfl
  · have hsh := returns_shape (r := .is [.EvalInput]) (by simp [returns]) h
    exact single (has_noFile hsh.2 (by decide)) hsh.1
  · have hsh := returns_shape (r := .is [.FileInput]) (by simp [returns]) h
    obtain ⟨xs, ts, u, s, e, rfl, h1, h2, h3⟩ := fileInput_struct h
    obtain ⟨xs', ts', u', s', e', rfl, h1', h2', h3'⟩ := fileInput_struct h'
    simp [Tree.erase, eraseList] at he
    obtain ⟨he, hu⟩ := he
    have hx : eraseList Token.bare xs = eraseList Token.bare xs' := by
      have := congrArg List.reverse he
      simpa [eraseList_reverse] using this
    refine ⟨_, _, h1, h1', ⟨u, by simp, h2⟩, ?_⟩
    rw [List.map_append, List.map_append, h3.det ?_ h3' hx]
    · simp [hu]
    · have hall := hsh.1
      rw [Tree.All] at hall
      obtain ⟨⟨⟨cc, hc, hcc⟩, -⟩, hl⟩ := hall
      have hsq := hasAll_noFile hcc (schema_noFile _ cc hc) (.seq xs.reverse) (by simp)
      have hal := allIn_mem hl (y := .seq xs.reverse) (by simp)
      rw [Tree.All] at hal
      refine allIn_iff.2 fun x hx => tight_inside (allIn_mem hal (by simpa using hx)) ?_ fun g s e fs hi => ?_
      · cases hsq with | seq h => exact h x (by simpa using hx)
      · exact hs g s e fs (.node (y := .seq xs.reverse) (by simp) (.seq (by simpa using hx) hi))
  · have hsh := returns_shape (r := .is [.FuncTypeInput]) (by simp [returns]) h
    exact single (has_noFile hsh.2 (by decide)) hsh.1

/-- C57: of two accepted texts, the trees are the same up to positions and trivia exactly if the symbols are. -/
theorem C57_up_to_layout_iff [Uni] (f : Fn) (hf : f = .evalInput ∨ f = .fileInput ∨ f = .funcTypeInput)
    (src src' : List Char) (n : Nat) (t t' : Tree) (c c' : PSt)
    (h : run n f (PSt.new (Lexer.new src)) = .ok t c) (h' : run n f (PSt.new (Lexer.new src')) = .ok t' c')
    (hs : ∀ g s e fs, Inside (.node g s e fs) t → g ≠ .VarArgsList ∧ g ≠ .TypeList) :
    t.erase Token.bare = t'.erase Token.bare ↔
      ∃ ts ts' l l', Tokens (Lexer.new src) ts l ∧ Tokens (Lexer.new src') ts' l' ∧ (∃ u ∈ ts, u.kind = .EOF) ∧
        ts.map Token.bare = ts'.map Token.bare := by
  constructor
  · intro he
    obtain ⟨ts, ts', h1, h2, h3, h4⟩ := C57_up_to_layout f hf src src' n n t t' c c' h h' hs he
    exact ⟨ts, ts', _, _, h1, h2, h3, h4⟩
  · rintro ⟨ts, ts', l, l', h1, h2, h3, h4⟩
    have := C53_layout f src src' ts ts' l l' h1 h2 h3 h4 n
    rw [h, h'] at this
    exact this

/-! ### Instances, and the parameter lists -/

/-- Both results are trees, and they are alike up to `e`. -/
def Res.alike (e : Token → Token) (r r' : Res Tree) : Bool :=
  match r.tree?, r'.tree? with
  | some t, some t' => (t.erase e).same (t'.erase e)
  | _, _ => false

theorem Res.alike_spec {e r r'} (h : Res.alike e r r' = true) :
    ∃ t t' c c', r = .ok t c ∧ r' = .ok t' c' ∧ t.erase e = t'.erase e := by
  unfold Res.alike at h
  cases r <;> cases r' <;> simp [Res.tree?] at h
  exact ⟨_, _, _, _, rfl, rfl, (Tree.same_iff _ _).1 h⟩

mutual
/-- A test for nodes without the two kinds of loose lists. -/
def Tree.tight : Tree → Bool
  | .tok _ | .none => true
  | .seq l => tightList l
  | .node g _ _ l => decide (g ≠ .VarArgsList ∧ g ≠ .TypeList) && tightList l
def tightList : List Tree → Bool
  | [] => true
  | x :: l => x.tight && tightList l
end

theorem tightList_mem {x} : ∀ {l}, x ∈ l → tightList l = true → x.tight = true
  | y :: l, hx, h => by
    rw [tightList, Bool.and_eq_true] at h
    rcases List.mem_cons.1 hx with rfl | hx
    · exact h.1
    · exact tightList_mem hx h.2

theorem Tree.tight_spec {x t} (hi : Inside x t) : t.tight = true → x.tight = true := by
  induction hi with
  | here => exact id
  | seq hy _ ih =>
    intro h
    rw [Tree.tight] at h
    exact ih (tightList_mem hy h)
  | node hy _ ih =>
    intro h
    rw [Tree.tight, Bool.and_eq_true] at h
    exact ih (tightList_mem hy h.2)

/-- Two texts of the same program: they have the same tree, which meets the hypotheses of the theorem. -/
example : ∃ t t' c c', @run asciiUni 80 .fileInput (PSt.new (Lexer.new (cs! "while a:\n  b = [1]\n"))) = .ok t c ∧
    @run asciiUni 80 .fileInput (PSt.new (Lexer.new (cs! "# x\nwhile a :\n\tb=[ 1\n]\n"))) = .ok t' c' ∧
    t.erase Token.bare = t'.erase Token.bare ∧
    ∀ g s e fs, Inside (.node g s e fs) t → g ≠ .VarArgsList ∧ g ≠ .TypeList := by
  let _ := asciiUni
  obtain ⟨t, t', c, c', h1, h2, h3⟩ := Res.alike_spec (e := Token.bare)
    (r := run 80 .fileInput (PSt.new (Lexer.new (cs! "while a:\n  b = [1]\n"))))
    (r' := run 80 .fileInput (PSt.new (Lexer.new (cs! "# x\nwhile a :\n\tb=[ 1\n]\n")))) (by decide +kernel)
  refine ⟨t, t', c, c', h1, h2, h3, fun g s e fs hi => ?_⟩
  obtain ⟨u, d, h4, h5⟩ : ∃ u d, run 80 .fileInput (PSt.new (Lexer.new (cs! "while a:\n  b = [1]\n"))) = .ok u d ∧ u.tight = true :=
    Res.shows (by decide +kernel)
  rw [h1] at h4
  cases h4
  have := Tree.tight_spec hi h5
  rw [Tree.tight, Bool.and_eq_true, decide_eq_true_eq] at this
  exact this.1

/-- `a + b` and `(a) + b` have different trees. -/
example : ¬ ∃ t t' c c', @run asciiUni 80 .evalInput (PSt.new (Lexer.new (cs! "a + b"))) = .ok t c ∧
    @run asciiUni 80 .evalInput (PSt.new (Lexer.new (cs! "(a) + b"))) = .ok t' c' ∧
    t.erase Token.bare = t'.erase Token.bare := by
  let _ := asciiUni
  rintro ⟨t, t', c, c', h1, h2, h3⟩
  obtain ⟨u, d, h4, h5⟩ : ∃ u d, run 80 .evalInput (PSt.new (Lexer.new (cs! "a + b"))) = .ok u d ∧
    (u.erase Token.bare).tokens.length = 4 := Res.shows (by decide +kernel)
  obtain ⟨u', d', h4', h5'⟩ : ∃ u d, run 80 .evalInput (PSt.new (Lexer.new (cs! "(a) + b"))) = .ok u d ∧
    (u.erase Token.bare).tokens.length = 6 := Res.shows (by decide +kernel)
  rw [h1] at h4
  rw [h2] at h4'
  cases h4
  cases h4'
  rw [h3] at h5
  omega

/-- Two texts of which the first `n` symbols contain `EOF` and differ in kind or text. -/
def differ [Uni] (n : Nat) (src1 src2 : List Char) : Bool :=
  match firstTokens n (Lexer.new src1), firstTokens n (Lexer.new src2) with
  | some a, some b => decide (a.map Token.bare ≠ b.map Token.bare) && a.any (fun t => t.kind == .EOF) && b.any (fun t => t.kind == .EOF)
  | _, _ => false

theorem differ_spec [Uni] {n src1 src2} (h : differ n src1 src2 = true) :
    ∃ ts ts' l l', Tokens (Lexer.new src1) ts l ∧ Tokens (Lexer.new src2) ts' l' ∧ (∃ u ∈ ts, u.kind = .EOF) ∧
      (∃ u ∈ ts', u.kind = .EOF) ∧ ts.map Token.bare ≠ ts'.map Token.bare := by
  unfold differ at h
  split at h
  · rename_i a b ha hb
    obtain ⟨l1, h1⟩ := firstTokens_spec _ _ _ ha
    obtain ⟨l2, h2⟩ := firstTokens_spec _ _ _ hb
    simp at h
    exact ⟨a, b, l1, l2, h1, h2, h.1.2, h.2, h.1.1⟩
  · simp at h

/-- C57 fails for parameter lists: two lambdas, of which the first takes `b` by position or name and the second by
position only, have the same tree up to positions and trivia although their symbols differ; so do two lambdas with
`*b` at different places, and two class statements. -/
theorem C57_parameter_lists :
    ∀ p ∈ [(Fn.evalInput, cs! "lambda a, /, b: c", cs! "lambda a, b, /: c"),
        (.evalInput, cs! "lambda a, *b, c: d", cs! "lambda a, c, *b: d"),
        (.fileInput, cs! "class A(a, *b, c): d\n", cs! "class A(a, c, *b): d\n")],
      (∃ t t' c c', @run asciiUni 100 p.1 (PSt.new (Lexer.new p.2.1)) = .ok t c ∧
        @run asciiUni 100 p.1 (PSt.new (Lexer.new p.2.2)) = .ok t' c' ∧ t.erase Token.bare = t'.erase Token.bare) ∧
      ∃ ts ts' l l', @Tokens asciiUni (Lexer.new p.2.1) ts l ∧ @Tokens asciiUni (Lexer.new p.2.2) ts' l' ∧
        (∃ u ∈ ts, u.kind = .EOF) ∧ (∃ u ∈ ts', u.kind = .EOF) ∧ ts.map Token.bare ≠ ts'.map Token.bare := by
  let _ := asciiUni
  simp only [List.forall_mem_cons]
  refine ⟨⟨Res.alike_spec (by decide +kernel), differ_spec (n := 9) (by decide +kernel)⟩,
    ⟨Res.alike_spec (by decide +kernel), differ_spec (n := 10) (by decide +kernel)⟩,
    ⟨Res.alike_spec (by decide +kernel), differ_spec (n := 14) (by decide +kernel)⟩, by simp⟩

end Verif
