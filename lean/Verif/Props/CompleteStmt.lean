import Verif.Proof.CompleteLayout

/-!
# C47, C48: every well formed program is accepted
-/

namespace Verif
section
variable [Uni]

/-- C47: given the tokens of a well formed statement, and after them a token that does not start another clause of
it, the rule for statements returns the tree of that statement and stops in front of that token. -/
theorem C47_statements {s : Stm} (hw : s.Wf none) {c c' : PSt} (hf : FedL c s.leaves c') (he : EndsStm c') :
    ∃ n t y, run n .stmt c = .ok t { c' with exc := y } ∧ t.sk = s.sk := by
  obtain ⟨t, y, _, ht, n, h⟩ := stm_good s none hw c c' hf he trivial
  exact ⟨n, t, y, h, ht⟩

/-- C47 for simple statements: each one is accepted in front of a `;`, a `Newline` or the end of the file. -/
theorem C47_simple {s : Small} (hw : s.Wf) {c c' : PSt} (hf : Fed c s.words c') {u : Token} (hu : c'.symbol = .ok u)
    (hk : u.kind = .PySemiColon ∨ u.kind = .Newline ∨ u.kind = .EOF) :
    ∃ n t, run n .smallStmt c = .ok t c' ∧ t.sk = s.sk := by
  obtain ⟨t, ht, n, h⟩ := small_ev hw hf hu (by rcases hk with h | h | h <;> rw [h] <;> simp [lineEnd])
  exact ⟨n, t, h, ht⟩

/-- C47 for whole files: given the tokens of a well formed program and the end of the file, the rule for files returns
the tree of that program. -/
theorem C47_files {p : List Stm} (hw : wfStms none p) {c c' : PSt} {v : Token} (hf : FedL c.advance (stmLeaves p) c')
    (hv : c'.symbol = .ok v) (lv : v.leaf = .sym .EOF) :
    ∃ n t y, run n .fileInput c = .ok t { c' with exc := y } ∧ t.sk = programSk p := by
  obtain ⟨t, y, ht, n, h⟩ := file_ev hw hf hv lv
  exact ⟨n, t, y, h, ht⟩

/-- C48: a well formed program written out as text - one space between the words of a line, each block indented by
another `u` - and parsed as a file gives the tree of that program. -/
theorem C48_roundtrip {u : List Char} {p : List Stm} (hu : u ≠ []) (hb : ∀ c ∈ u, c = ' ' ∨ c = '\t') (hw : wfStms none p)
    (hok : ∀ ln ∈ stmLines u [] p, ∀ x ∈ ln.words, x.Ok) :
    ∃ n t c', run n .fileInput (PSt.new (Lexer.new (linesText (stmLines u [] p)))) = .ok t c' ∧ t.sk = programSk p := by
  obtain ⟨c', v, hf, hv, lv⟩ := program_fed hu hb hw hok
  obtain ⟨n, t, y, h, ht⟩ := C47_files hw hf hv lv
  exact ⟨n, t, _, h, ht⟩

/-- C48: no other tree, no error and no panic is ever returned for this text. -/
theorem C48_unique {u : List Char} {p : List Stm} (hu : u ≠ []) (hb : ∀ c ∈ u, c = ' ' ∨ c = '\t') (hw : wfStms none p)
    (hok : ∀ ln ∈ stmLines u [] p, ∀ x ∈ ln.words, x.Ok) (n : Nat) :
    run n .fileInput (PSt.new (Lexer.new (linesText (stmLines u [] p)))) = .diverge ∨
      ∃ t c', run n .fileInput (PSt.new (Lexer.new (linesText (stmLines u [] p)))) = .ok t c' ∧ t.sk = programSk p := by
  obtain ⟨m, t, c', h, ht⟩ := C48_roundtrip hu hb hw hok
  by_cases hd : run n .fileInput (PSt.new (Lexer.new (linesText (stmLines u [] p)))) = .diverge
  · exact .inl hd
  · exact .inr ⟨t, c', by rw [run_det hd (by rw [h]; simp), h], ht⟩

end

/-! ### A concrete program -/

private def v (w : String) : Ex := .name w.toList

def exampleProgram : List Stm :=
  [.comp false [.mk (.def_ (cs! "f") (some (v "a")))
    (.block (.comp false [.mk (.while_ (v "b")) (.block (.simple ⟨.aug .sub ⟨[v "b"], false⟩ (.exprs ⟨[v "c"], false⟩), [], false⟩)
          [.simple ⟨.brk, [], false⟩]),
        .mk .else_ (.inline ⟨.ret (some ⟨[v "b", v "c"], true⟩), [], true⟩)])
      [.comp false [.mk .try_ (.inline ⟨.from_ [false] [cs! "m"] (.paren ⟨cs! "c", some (cs! "d")⟩ []), [], false⟩),
        .mk (.except true (some (v "e", some (cs! "g")))) (.inline ⟨.pass, [.cont], false⟩),
        .mk .finally_ (.inline ⟨.assign ⟨[v "x"], false⟩ (.exprs ⟨[v "y"], false⟩) [.yield ⟨[v "z"], false⟩], [], false⟩)]])],
   .comp true [.mk (.for_ [v "x"] [v "y", v "z"]) (.block (.simple ⟨.raise (some (v "x", some (v "y"))), [], false⟩) [])],
   .simple ⟨.global (cs! "x") [cs! "y"], [], false⟩]

example : linesText (stmLines [' ', ' '] [] exampleProgram) =
    cs! "def f ( ) -> a :\n  while b :\n    b -= c\n    break\n  else : return b , c , ;\n  try : from . m import ( c as d )\n  except * e as g : pass ; continue\n  finally : x = y = yield z\nasync for x , in y , z :\n  raise x from y\nglobal x , y\n" := by
  decide +kernel

/-- A check of names, keywords and operators. -/
private def okb : Lexeme → Bool
  | .name w => (match w with | c :: _ => @isNameStart asciiUni c | [] => false) && w.all (@isNameChar asciiUni) && !(pyKeywords.map (·.1)).contains w
  | .kw w k => pyKeywords.contains (w, k)
  | .op w k => operators.contains (w, k)
  | _ => false

private theorem okb_ok {x : Lexeme} (h : okb x = true) : @Lexeme.Ok asciiUni x := by
  cases x with
  | name w =>
    simp only [okb, Bool.and_eq_true, Bool.not_eq_true', List.all_eq_true] at h
    obtain ⟨⟨h1, h2⟩, h3⟩ := h
    refine ⟨?_, h2, fun k hk => ?_⟩
    · cases w with
      | nil => cases h1
      | cons c r => exact ⟨c, r, rfl, h1⟩
    · rw [List.contains_iff_mem.2 (List.mem_map.2 ⟨_, hk, rfl⟩)] at h3
      cases h3
  | kw w k => exact List.contains_iff_mem.1 h
  | op w k => exact List.contains_iff_mem.1 h
  | num | str => cases h

/-- It meets the hypotheses of the round trip. -/
theorem exampleProgram_ok : wfStms none exampleProgram ∧ ∀ ln ∈ stmLines [' ', ' '] [] exampleProgram, ∀ x ∈ ln.words, @Lexeme.Ok asciiUni x := by
  constructor
  · simp [exampleProgram, wfStms, Stm.Wf, wfClauses, Suite.Wf, Clause.head, Head.Wf, SLine.Wf, Small.Wf, Exprs.Wf, Rhs.Wf,
      v, Ex.Wf, Ex.level, SLine.words, Small.words, Exprs.words, wordsList, Ex.words, Lexeme.leaf, excOf, Head.asyncOk, initRhs, Rhs.noComma]
    exact ⟨⟨.def_, .whileElse, .tryExceptFinally (es := [])⟩, .for_⟩
  · have h : (stmLines [' ', ' '] [] exampleProgram).all (fun ln => ln.words.all okb) = true := by decide +kernel
    intro ln hl x hx
    exact okb_ok (List.all_eq_true.1 (List.all_eq_true.1 h ln hl) x hx)

/-- And its tokens meet those of `C47_files`. -/
example : ∃ (c c' : PSt) (v : Token), @FedL asciiUni (@PSt.advance asciiUni c) (stmLeaves exampleProgram) c' ∧ c'.symbol = .ok v ∧
    v.leaf = .sym .EOF := by
  obtain ⟨c', v, h⟩ := @program_fed asciiUni [' ', ' '] exampleProgram (by simp) (by simp) exampleProgram_ok.1 exampleProgram_ok.2
  exact ⟨_, c', v, h⟩

end Verif
