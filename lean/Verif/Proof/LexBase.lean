import Verif.Model.Lexer

/-!
# Tokenizer: the source seen as position and remaining text; exact results of the leaf loops
-/

namespace Verif
open LexM

/-! ### Monad unfolding -/

section
variable {α β : Type}

@[simp] theorem lexm_bind (m : LexM α) (f : α → LexM β) (l : Lexer) :
    (m >>= f) l = match m l with
      | .ok a l' => f a l'
      | .err e l' => .err e l' := rfl

@[simp] theorem lexm_pure (a : α) (l : Lexer) : (pure a : LexM α) l = .ok a l := rfl
@[simp] theorem lexm_throw (e : LexErr) (l : Lexer) : (LexM.throw e : LexM α) l = .err e l := rfl
@[simp] theorem lexm_get (l : Lexer) : LexM.get l = .ok l l := rfl
@[simp] theorem lexm_modify (f : Lexer → Lexer) (l : Lexer) : LexM.modify f l = .ok () (f l) := rfl
@[simp] theorem lexm_ite (c : Prop) [Decidable c] (m m' : LexM α) (l : Lexer) :
    (if c then m else m') l = if c then m l else m' l := by split <;> rfl
end

/-! ### Remaining text -/

/-- Remaining text. -/
def Lexer.rest (l : Lexer) : List Char := l.buf.chars.drop l.buf.index
/-- Current position. -/
def Lexer.pos (l : Lexer) : Nat := l.buf.index
/-- Move `k` characters forward. -/
def Lexer.fwd (k : Nat) (l : Lexer) : Lexer :=
  { l with buf := { l.buf with index := l.buf.index + k } }

/-- First character, NUL when there is none. -/
def hd (cs : List Char) : Char := cs.headD '\x00'

@[simp] theorem hd_nil : hd [] = '\x00' := rfl
@[simp] theorem hd_cons (c cs) : hd (c :: cs) = c := rfl

theorem charAt_eq (l : Lexer) (k : Nat) : l.buf.charAt (l.buf.index + k) = hd (l.rest.drop k) := by
  unfold Source.charAt Lexer.rest hd
  rw [List.drop_drop]
  split
  · rename_i h; rw [List.drop_eq_getElem_cons h]; rfl
  · rename_i h; rw [List.drop_eq_nil_of_le (by omega)]; rfl

@[simp] theorem curChar_apply (l : Lexer) : curChar l = .ok (hd l.rest) l := by
  simp only [curChar, Source.getChar]
  rw [show l.buf.charAt l.buf.index = hd l.rest from by simpa using charAt_eq l 0]

@[simp] theorem peekThree_apply (l : Lexer) :
    peekThree l = .ok (hd l.rest, hd (l.rest.drop 1), hd (l.rest.drop 2)) l := by
  simp only [peekThree, Source.peek3]
  rw [show l.buf.charAt l.buf.index = hd l.rest from by simpa using charAt_eq l 0,
    charAt_eq, charAt_eq]

@[simp] theorem bufPos_apply (l : Lexer) : bufPos l = .ok l.pos l := rfl
@[simp] theorem getPosition_apply (l : Lexer) : getPosition l = .ok l.tokStart l := rfl
@[simp] theorem markStart_apply (l : Lexer) : markStart l = .ok () { l with tokStart := l.pos } := rfl
@[simp] theorem loopFuel_apply (l : Lexer) : loopFuel l = .ok (l.buf.chars.length + 2) l := rfl
@[simp] theorem adv_apply (l : Lexer) : adv l = .ok () (l.fwd 1) := rfl

@[simp] theorem fwd_zero (l : Lexer) : l.fwd 0 = l := rfl
@[simp] theorem fwd_fwd (l : Lexer) (a b : Nat) : (l.fwd a).fwd b = l.fwd (a + b) := by
  simp [Lexer.fwd, Nat.add_assoc]

@[simp] theorem advN_apply (n : Nat) (l : Lexer) : advN n l = .ok () (l.fwd n) := by
  induction n generalizing l with
  | zero => rfl
  | succ n ih => simp [advN, ih, Nat.add_comm]

@[simp] theorem rest_fwd (l : Lexer) (k : Nat) : (l.fwd k).rest = l.rest.drop k := by
  simp [Lexer.fwd, Lexer.rest, List.drop_drop]
@[simp] theorem pos_fwd (l : Lexer) (k : Nat) : (l.fwd k).pos = l.pos + k := rfl
@[simp] theorem index_fwd (l : Lexer) (k : Nat) : (l.fwd k).buf.index = l.buf.index + k := rfl
@[simp] theorem chars_fwd (l : Lexer) (k : Nat) : (l.fwd k).buf.chars = l.buf.chars := rfl
@[simp] theorem tokStart_fwd (l : Lexer) (k : Nat) : (l.fwd k).tokStart = l.tokStart := rfl
@[simp] theorem parens_fwd (l : Lexer) (k : Nat) : (l.fwd k).parens = l.parens := rfl
@[simp] theorem bol_fwd (l : Lexer) (k : Nat) : (l.fwd k).bol = l.bol := rfl
@[simp] theorem tabSize_fwd (l : Lexer) (k : Nat) : (l.fwd k).tabSize = l.tabSize := rfl
@[simp] theorem interactive_fwd (l : Lexer) (k : Nat) : (l.fwd k).interactive = l.interactive := rfl
@[simp] theorem pending_fwd (l : Lexer) (k : Nat) : (l.fwd k).pending = l.pending := rfl
@[simp] theorem indents_fwd (l : Lexer) (k : Nat) : (l.fwd k).indents = l.indents := rfl

/-- The remaining text only depends on the buffer. -/
theorem rest_congr {l l' : Lexer} (h : l.buf = l'.buf) : l.rest = l'.rest := by
  simp [Lexer.rest, h]

@[simp] theorem rest_mk (b ts p bo tb i pe ind) :
    (Lexer.mk b ts p bo tb i pe ind).rest = b.chars.drop b.index := rfl

theorem rest_length_le (l : Lexer) : l.rest.length ≤ l.buf.chars.length := by
  simp [Lexer.rest]

theorem rest_length_add (l : Lexer) : l.rest.length = l.buf.chars.length - l.pos := by
  simp [Lexer.rest, Lexer.pos]

/-! ### Scanning -/

theorem hd_drop_takeWhile (p : Char → Bool) (hp : p '\x00' = false) (cs : List Char) :
    p (hd (cs.drop (cs.takeWhile p).length)) = false := by
  induction cs with
  | nil => simpa using hp
  | cons c cs ih =>
    by_cases h : p c
    · simpa [h] using ih
    · simp [h]

theorem drop_takeWhile_length (p : Char → Bool) (cs : List Char) :
    cs.drop (cs.takeWhile p).length = cs.dropWhile p := by
  induction cs with
  | nil => rfl
  | cons c cs ih => by_cases h : p c <;> simp [h, ih]

theorem takeWhile_length_le (p : Char → Bool) (cs : List Char) :
    (cs.takeWhile p).length ≤ cs.length := by
  induction cs with
  | nil => simp
  | cons c cs ih => by_cases h : p c <;> simp [h, ih]

theorem scanWhile_apply (p : Char → Bool) (hp : p '\x00' = false) (n : Nat) (l : Lexer)
    (hn : l.rest.length < n) :
    scanWhile p n l = .ok (l.rest.takeWhile p) (l.fwd (l.rest.takeWhile p).length) := by
  induction n generalizing l with
  | zero => omega
  | succ n ih =>
    cases hr : l.rest with
    | nil => simp [scanWhile, hr, hp]
    | cons c cs =>
      by_cases h : p c
      · have h1 : (l.fwd 1).rest = cs := by simp [hr]
        have := ih (l.fwd 1) (by rw [h1]; rw [hr] at hn; simp at hn; omega)
        simp [scanWhile, hr, h, this, h1, Nat.add_comm]
      · simp [scanWhile, hr, h]

/-- Blank characters skipped at the start of a line and between tokens. -/
def isBlank (c : Char) : Bool := c == ' ' || c == '\t'

/-- The column after reading blanks `cs` from column `col`. -/
def columnOf (tab : Nat) : Nat → List Char → Nat
  | col, [] => col
  | col, c :: cs =>
    columnOf tab (if c = '\t' then (col / tab + 1) * tab else col + 1) cs

theorem colLoop_apply (n : Nat) (l : Lexer) (col : Nat) (hn : l.rest.length < n) :
    colLoop col n l = .ok (columnOf l.tabSize col (l.rest.takeWhile isBlank))
      (l.fwd (l.rest.takeWhile isBlank).length) := by
  induction n generalizing l col with
  | zero => omega
  | succ n ih =>
    cases hr : l.rest with
    | nil => simp [colLoop, hr, columnOf]
    | cons c cs =>
      have h1 : (l.fwd 1).rest = cs := by simp [hr]
      have hl : (l.fwd 1).rest.length < n := by rw [h1]; rw [hr] at hn; simp at hn; omega
      by_cases h : c = ' '
      · have := ih (l.fwd 1) (col + 1) hl
        subst h
        simp [colLoop, hr, this, h1, isBlank, columnOf, Nat.add_comm 1]
      · by_cases h' : c = '\t'
        · have := ih (l.fwd 1) ((col / l.tabSize + 1) * l.tabSize) hl
          subst h'
          simp [colLoop, hr, this, h1, isBlank, columnOf, Nat.add_comm 1]
        · simp [colLoop, hr, h, h', isBlank, columnOf]

end Verif
