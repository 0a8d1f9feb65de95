import Verif.Proof.LexArms

/-!
# Tokenizer: line starts, the `'outer` loop and `get_symbol` without fuel
-/

set_option linter.unusedSimpArgs false

namespace Verif
open LexM
attribute [-simp] List.drop_one List.tail_drop

/-- The bottom of the indentation stack is column 0. -/
def IndOk (ind : List Nat) : Prop := ind.getLast? = some 0

theorem IndOk.cons {a ind} (h : IndOk ind) : IndOk (a :: ind) := by
  unfold IndOk at *
  cases ind with
  | nil => simp at h
  | cons b r => simpa [List.getLast?_cons_cons] using h

theorem popDeeper_eq (col : Nat) (ind : List Nat) (p : Int) (h : IndOk ind) :
    popDeeper col ind p =
      (ind.dropWhile (fun x => decide (col < x)),
        p - (ind.takeWhile (fun x => decide (col < x))).length) := by
  induction ind generalizing p with
  | nil => simp [IndOk] at h
  | cons top r ih =>
    cases r with
    | nil =>
      simp [IndOk] at h; subst h
      simp [popDeeper]
    | cons b r =>
      have h' : IndOk (b :: r) := by simpa [IndOk, List.getLast?_cons_cons] using h
      by_cases hc : col < top
      · rw [popDeeper, if_pos ⟨hc, by simp⟩, ih _ h']
        simp only [List.dropWhile_cons, List.takeWhile_cons, hc, decide_true, if_true, List.length_cons]
        congr 1
        push_cast
        omega
      · rw [popDeeper, if_neg (by simp [hc])]
        simp [hc]

theorem IndOk.dropWhile {col ind} (h : IndOk ind) :
    IndOk (ind.dropWhile (fun x => decide (col < x))) ∧
      ¬ col < topIndent (ind.dropWhile (fun x => decide (col < x))) := by
  induction ind with
  | nil => simp [IndOk] at h
  | cons top r ih =>
    by_cases hc : col < top
    · cases r with
      | nil => simp [IndOk] at h; omega
      | cons b r =>
        have h' : IndOk (b :: r) := by simpa [IndOk, List.getLast?_cons_cons] using h
        simpa [List.dropWhile_cons, hc] using ih h'
    · simpa [List.dropWhile_cons, hc, topIndent] using h

/-- The indentation stack and the number of pending layout tokens after a line at column `col`. -/
def adjust (col : Nat) (ind : List Nat) (p : Int) : List Nat × Int :=
  if col = topIndent ind then (ind, p)
  else if col > topIndent ind then (col :: ind, p + 1)
  else (ind.dropWhile (fun x => decide (col < x)),
        p - (ind.takeWhile (fun x => decide (col < x))).length)

/-- Characters after which a line is treated as blank. -/
def isSkipChar (c : Char) : Bool := c == '#' || c == '\r' || c == '\n' || c == '\\'

/-- Blanks at the current position. -/
def Lexer.blanks (l : Lexer) : List Char := l.rest.takeWhile isBlank
/-- Column after these blanks. -/
def Lexer.col (l : Lexer) : Nat := columnOf l.tabSize 0 l.blanks

/-- With `bol` changed. -/
def Lexer.setBol (b : Bool) (l : Lexer) : Lexer := { l with bol := b }
@[simp] theorem rest_setBol (l : Lexer) (b) : (l.setBol b).rest = l.rest := rfl
@[simp] theorem pos_setBol (l : Lexer) (b) : (l.setBol b).pos = l.pos := rfl
@[simp] theorem buf_setBol (l : Lexer) (b) : (l.setBol b).buf = l.buf := rfl
@[simp] theorem tokStart_setBol (l : Lexer) (b) : (l.setBol b).tokStart = l.tokStart := rfl
@[simp] theorem parens_setBol (l : Lexer) (b) : (l.setBol b).parens = l.parens := rfl
@[simp] theorem tabSize_setBol (l : Lexer) (b) : (l.setBol b).tabSize = l.tabSize := rfl
@[simp] theorem interactive_setBol (l : Lexer) (b) : (l.setBol b).interactive = l.interactive := rfl
@[simp] theorem pending_setBol (l : Lexer) (b) : (l.setBol b).pending = l.pending := rfl
@[simp] theorem indents_setBol (l : Lexer) (b) : (l.setBol b).indents = l.indents := rfl
@[simp] theorem fwd_setBol (l : Lexer) (b k) : (l.setBol b).fwd k = (l.fwd k).setBol b := rfl

/-- What the line start step does: new blank flag and new state. -/
def bolState (blank : Bool) (l : Lexer) : Bool × Lexer :=
  if l.bol then
    let b := blank || isSkipChar (hd (l.rest.drop l.blanks.length))
    if b = false ∧ l.parens = [] then
      let r := adjust l.col l.indents l.pending
      (b, { l.fwd l.blanks.length with bol := false, indents := r.1, pending := r.2 })
    else (b, { l.fwd l.blanks.length with bol := false })
  else (blank, l)

theorem applyIndent_apply (col : Nat) (l : Lexer) (ho : IndOk l.indents) :
    applyIndent col l = .ok ()
      { l with indents := (adjust col l.indents l.pending).1, pending := (adjust col l.indents l.pending).2 } := by
  have hne : l.indents.isEmpty = false := by
    cases h : l.indents with
    | nil => simp [h, IndOk] at ho
    | cons a r => rfl
  have hpop := popDeeper_eq col l.indents l.pending ho
  have hdw := ho.dropWhile (col := col)
  have hne2 : (l.indents.dropWhile (fun x => decide (col < x))).isEmpty = false := by
    have := hdw.1
    cases h : l.indents.dropWhile (fun x => decide (col < x)) with
    | nil => simp [h, IndOk] at this
    | cons a r => rfl
  simp only [applyIndent, lexm_bind, lexm_get, lexm_ite, adjust]
  by_cases h1 : col = topIndent l.indents
  · rw [if_pos ⟨hne, h1⟩, if_pos h1]; rfl
  · rw [if_neg (fun h => h1 h.2), if_neg h1]
    by_cases h2 : col > topIndent l.indents
    · rw [if_pos ⟨hne, h2⟩, if_pos h2]; rfl
    · rw [if_neg (fun h => h2 h.2), if_neg h2]
      simp only [lexm_modify, hpop]
      rw [if_neg]
      · rfl
      · rintro (h | h)
        · rw [hne2] at h; simp at h
        · exact hdw.2 h

theorem lineKind_apply (blank : Bool) (col : Nat) (c : Char) :
    lineKind false blank col c = (blank || isSkipChar c, col) := by
  unfold lineKind
  by_cases h : c = '#' ∨ c = '\r' ∨ c = '\n' ∨ c = '\\'
  · rw [if_pos h]
    have : isSkipChar c = true := by simpa [isSkipChar, or_assoc] using h
    simp [this]
  · rw [if_neg h]
    have : isSkipChar c = false := by simpa [isSkipChar, and_assoc] using h
    simp [this]

theorem bolStep_apply (blank : Bool) (l : Lexer) (hi : l.interactive = false) (ho : IndOk l.indents)
    (hb : l.bol = true) : bolStep blank l = .ok (bolState blank l).1 (bolState blank l).2 := by
  have hcol := colLoop_apply (l.buf.chars.length + 2) (l.setBol false) 0 (by
    simpa using rest_fwd_len l 0)
  simp only [bolStep, lexm_bind, lexm_modify]
  rw [show ({ l with bol := false } : Lexer) = l.setBol false from rfl]
  simp only [loopFuel_apply, buf_setBol, hcol, curChar_apply, lexm_get, lexm_ite]
  simp only [fwd_setBol,
    interactive_setBol, interactive_fwd, hi, lineKind_apply, lexm_bind,
    parens_setBol, parens_fwd, rest_setBol, rest_fwd, tabSize_setBol]
  rw [applyIndent_apply _ _ (by simpa using ho)]
  by_cases hc : (blank || isSkipChar (hd (l.rest.drop l.blanks.length))) = false ∧ l.parens = []
  · have e : bolState blank l = (blank || isSkipChar (hd (l.rest.drop l.blanks.length)),
        { l.fwd l.blanks.length with
          bol := false, indents := (adjust l.col l.indents l.pending).1,
          pending := (adjust l.col l.indents l.pending).2 }) := by
      unfold bolState; rw [if_pos hb]; exact if_pos hc
    rw [e, if_pos ⟨hc.1, by simp [hc.2]⟩]; rfl
  · have e : bolState blank l = (blank || isSkipChar (hd (l.rest.drop l.blanks.length)),
        { l.fwd l.blanks.length with bol := false }) := by
      unfold bolState; rw [if_pos hb]; exact if_neg hc
    rw [e, if_neg (fun h => hc ⟨h.1, by simpa using h.2⟩)]; rfl

/-! Facts about the line start step. -/

theorem adjust_ok {col ind p} (h : IndOk ind) : IndOk (adjust col ind p).1 := by
  unfold adjust
  split
  · exact h
  · split
    · exact h.cons
    · exact h.dropWhile.1

theorem bolState_indOk {blank l} (h : IndOk l.indents) : IndOk (bolState blank l).2.indents := by
  unfold bolState
  dsimp only
  split
  · split
    · exact adjust_ok h
    · exact h
  · exact h

theorem bolState_interactive (blank l) : (bolState blank l).2.interactive = l.interactive := by
  unfold bolState; dsimp only; split
  · split <;> rfl
  · rfl

theorem bolState_tabSize (blank l) : (bolState blank l).2.tabSize = l.tabSize := by
  unfold bolState; dsimp only; split
  · split <;> rfl
  · rfl

theorem bolState_parens (blank l) : (bolState blank l).2.parens = l.parens := by
  unfold bolState; dsimp only; split
  · split <;> rfl
  · rfl

theorem bolState_tokStart (blank l) : (bolState blank l).2.tokStart = l.tokStart := by
  unfold bolState; dsimp only; split
  · split <;> rfl
  · rfl

theorem bolState_bol (blank l) : (bolState blank l).2.bol = false := by
  unfold bolState; dsimp only; split
  · split <;> rfl
  · rename_i h; simpa using h

/-- How many characters the line start step skips. -/
def bolSkip (l : Lexer) : Nat := if l.bol then l.blanks.length else 0

theorem bolState_buf (blank l) : (bolState blank l).2.buf = (l.fwd (bolSkip l)).buf := by
  unfold bolState bolSkip; dsimp only; split
  · split <;> rfl
  · rfl

theorem bolState_pos (blank l) : (bolState blank l).2.pos = l.pos + bolSkip l := by
  simp [Lexer.pos, bolState_buf]

theorem bolState_rest (blank l) : (bolState blank l).2.rest = l.rest.drop (bolSkip l) := by
  rw [← rest_fwd]; exact rest_congr (bolState_buf blank l)

/-- Results of the `'outer` loop. -/
inductive OuterOut : Bool → List Trivia → Lexer → LexRes (Token ⊕ List Trivia) → Prop
  | dedent {blank acc l b l1} : bolState blank l = (b, l1) → l1.pending < 0 →
      OuterOut blank acc l (.ok (.inl (.dedent none)) { l1 with pending := l1.pending + 1 })
  | indent {blank acc l b l1} : bolState blank l = (b, l1) → l1.pending > 0 →
      OuterOut blank acc l (.ok (.inl (.indent none)) { l1 with pending := l1.pending - 1 })
  | ret {blank acc l b l1 t l2} : bolState blank l = (b, l1) → l1.pending = 0 →
      InnerOut b acc l1 (.ok (.ret t) l2) → OuterOut blank acc l (.ok (.inl t) l2)
  | brk {blank acc l b l1 acc' l2} : bolState blank l = (b, l1) → l1.pending = 0 →
      InnerOut b acc l1 (.ok (.brk acc') l2) → OuterOut blank acc l (.ok (.inr acc') l2)
  | err {blank acc l b l1 e l2} : bolState blank l = (b, l1) → l1.pending = 0 →
      InnerOut b acc l1 (.err e l2) → OuterOut blank acc l (.err e l2)
  | again {blank acc l b l1 acc' l2 r} : bolState blank l = (b, l1) → l1.pending = 0 →
      InnerOut b acc l1 (.ok (.again acc') l2) → OuterOut b acc' l2 r → OuterOut blank acc l r

theorem InnerOut.again_length {blank acc l acc' l'} (h : InnerOut blank acc l (.ok (.again acc') l')) :
    l'.rest.length < l.rest.length ∧ l'.indents = l.indents ∧ l'.interactive = l.interactive := by
  cases h with
  | again h1 h2 h3 =>
    rename_i ts k m
    refine ⟨?_, rfl, rfl⟩
    have hk : hd (l.rest.drop k) ≠ '\x00' := by
      rcases h2 with h | h | h <;> rw [h.1] <;> decide
    have hlt : k < l.rest.length := by
      rcases Nat.lt_or_ge k l.rest.length with h | h
      · exact h
      · rw [List.drop_eq_nil_of_le h] at hk; simp at hk
    change ((l.fwd (k + m)).at (l.pos + k)).rest.length < _
    simp
    omega

theorem outer_spec (n : Nat) (blank : Bool) (acc : List Trivia) (l : Lexer)
    (hn : l.rest.length < n) (hi : l.interactive = false) (ho : IndOk l.indents) :
    OuterOut blank acc l (outer blank acc n l) := by
  induction n generalizing l acc blank with
  | zero => omega
  | succ n ih =>
    have hb : (if l.bol = true then bolStep blank else pure blank) l =
        .ok (bolState blank l).1 (bolState blank l).2 := by
      by_cases h : l.bol = true
      · rw [if_pos h]; exact bolStep_apply blank l hi ho h
      · rw [if_neg h]; simp [bolState, h]
    simp only [outer, lexm_bind, lexm_get]
    rw [hb]
    simp only [lexm_ite]
    have hr1 := bolState_rest blank l
    have hi1 := bolState_interactive blank l
    have ho1 := bolState_indOk (blank := blank) ho
    generalize hbs : bolState blank l = s at *
    obtain ⟨b, l1⟩ := s
    simp only at *
    split
    · rename_i h
      simp only [lexm_bind, lexm_modify, lexm_pure]
      exact .dedent hbs h
    · split
      · rename_i h
        simp only [lexm_bind, lexm_modify, lexm_pure]
        exact .indent hbs h
      · rename_i h1 h2
        simp only [lexm_bind, loopFuel_apply]
        have h0 : l1.pending = 0 := by omega
        have hin := inner_spec (l1.buf.chars.length + 2) b acc l1 (by simpa using rest_fwd_len l1 0)
        cases hres : inner b acc (l1.buf.chars.length + 2) l1 with
        | err e l2 => rw [hres] at hin; exact .err hbs h0 hin
        | ok a l2 =>
          rw [hres] at hin
          cases a with
          | ret t => exact .ret hbs h0 hin
          | brk acc' => exact .brk hbs h0 hin
          | again acc' =>
            have hl := hin.again_length
            refine .again hbs h0 hin (ih _ _ _ ?_ ?_ ?_)
            · have h3 : l1.rest.length ≤ l.rest.length := by rw [hr1]; simp
              omega
            · rw [hl.2.2, hi1, hi]
            · rw [hl.2.1]; exact ho1

/-- What follows the loops, without fuel. -/
def armsResult [Uni] (acc : List Trivia) (l : Lexer) : LexRes Token :=
  match findArm (hd l.rest, hd (l.rest.drop 1), hd (l.rest.drop 2)) with
  | some a => armResult a acc l
  | none =>
    if isNameStart (hd l.rest) then nameArm acc l
    else if hd l.rest = '0' then numResult zeroScan acc l
    else if hd l.rest = '.' ∧ isDigit (hd (l.rest.drop 1)) = true then numResult dotScan acc l
    else if isDigit (hd l.rest) = true then numResult decScan acc l
    else if hd l.rest = '\'' ∨ hd l.rest = '"' then stringResult l.tokStart (hd l.rest) none acc l
    else .err (.lexical l.pos (hd l.rest)) l

theorem lexArms_apply [Uni] (acc : List Trivia) (l : Lexer) :
    lexArms acc l = armsResult acc (l.at l.pos) := by
  simp only [lexArms, lexm_bind, markStart_at]
  generalize l.at l.pos = l
  simp only [peekThree_apply, armsResult]
  cases findArm (hd l.rest, hd (l.rest.drop 1), hd (l.rest.drop 2)) with
  | some a => simp [runArm_apply]
  | none =>
    simp only [lexm_ite, lexm_bind, curChar_apply, bufPos_apply, lexm_throw]
    by_cases h1 : isNameStart (hd l.rest) = true
    · rw [if_pos h1, if_pos h1]
    rw [if_neg h1, if_neg h1]
    by_cases h2 : hd l.rest = '0'
    · rw [if_pos h2, if_pos h2, zeroArm_apply]
    rw [if_neg h2, if_neg h2]
    by_cases h3 : hd l.rest = '.' ∧ isDigit (hd (l.rest.drop 1)) = true
    · rw [if_pos h3, if_pos h3, dotNumArm_apply]
    rw [if_neg h3, if_neg h3]
    by_cases h4 : isDigit (hd l.rest) = true
    · rw [if_pos h4, if_pos h4, decArm_apply]
    rw [if_neg h4, if_neg h4]
    by_cases h5 : hd l.rest = '\'' ∨ hd l.rest = '"'
    · rw [if_pos h5, if_pos h5, stringStart_apply _ h5 none acc _ rfl]
    rw [if_neg h5, if_neg h5]

/-- One call of `get_symbol`. -/
inductive StepOut [Uni] (l : Lexer) : LexRes Token → Prop
  | early {t l'} : OuterOut false [] (l.at l.pos) (.ok (.inl t) l') → StepOut l (.ok t l')
  | fail {e l'} : OuterOut false [] (l.at l.pos) (.err e l') → StepOut l (.err e l')
  | arms {acc l1} : OuterOut false [] (l.at l.pos) (.ok (.inr acc) l1) →
      StepOut l (armsResult acc (l1.at l1.pos))

theorem getSymbol_spec [Uni] (l : Lexer) (hi : l.interactive = false) (ho : IndOk l.indents) :
    StepOut l (getSymbol l) := by
  have h := outer_spec (l.buf.chars.length + 2) false [] (l.at l.pos)
    (by simpa using rest_fwd_len l 0) hi ho
  simp only [getSymbol, lexm_bind, markStart_at, loopFuel_apply, buf_at]
  cases hr : outer false [] (l.buf.chars.length + 2) (l.at l.pos) with
  | err e l' => rw [hr] at h; exact .fail h
  | ok a l' =>
    rw [hr] at h
    cases a with
    | inl t => exact .early h
    | inr acc =>
      simp only [lexArms_apply]
      exact .arms h

end Verif
