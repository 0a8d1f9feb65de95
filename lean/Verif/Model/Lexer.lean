import Verif.Model.Source

/-!
# Tokenizer

Models `src/parser/tokenizer.rs` 6-1064 (everything but the unit tests).

Conventions: a Rust `Vec` used as a stack (`parenthesis`, `indent_stack`) is a `List` whose head
is the top (`last()`).  A `Vec` that is pushed to and read as a sequence (`trivia_collector`,
`buffer`) is a `List` in the same order, `push x` being `++ [x]` (or `c :: rest` in a scanning
loop that returns what it pushed).  Loops take a fuel argument; running out of fuel is the error
value `LexErr.fuel`, which `Props/Lexer.lean` proves is never produced (C01).
-/

namespace Verif

/-- `tokenizer.rs` 6-15. -/
structure Lexer where
  buf : Source
  tokStart : Nat
  parens : List Char
  bol : Bool
  tabSize : Nat
  interactive : Bool
  pending : Int
  indents : List Nat
  deriving DecidableEq, Repr

/-- The error strings of the tokenizer; each constructor is one `format!` with its arguments. -/
inductive LexErr
  /-- not in the source: a loop was cut off (proved unreachable) -/
  | fuel
  /-- 101 -/
  | inconsistentIndent
  /-- 256 -/
  | badContinuation (pos : Nat)
  /-- 506, 520, 534: the expected closing bracket -/
  | mismatch (pos : Nat) (c : Char)
  /-- 660, 670 (hex), 689, 699 (octal), 719, 729 (binary): "Expected digit or '_' after .." -/
  | badRadix (pos : Nat) (c : Char)
  /-- 766, 921 -/
  | underscoreAfterDot (pos : Nat)
  /-- 775, 806, 848, 875, 906, 930, 960 -/
  | badUnderscore (pos : Nat)
  /-- 828 -/
  | leadingZero (pos : Nat)
  /-- 1011 -/
  | moreData
  /-- 1040 -/
  | unterminated (pos : Nat)
  /-- 997 -/
  | lexical (pos : Nat) (c : Char)
  /-- `parser.rs` 25: the initial value of the parser's `symbol` -/
  | notAdvanced
  deriving DecidableEq, Repr

/-- Result of a `&mut self` method: value or error, and the new state (errors keep the state). -/
inductive LexRes (α : Type)
  | ok (a : α) (l : Lexer)
  | err (e : LexErr) (l : Lexer)
  deriving DecidableEq

def LexM (α : Type) : Type := Lexer → LexRes α

namespace LexM

protected def pure {α} (a : α) : LexM α := fun l => .ok a l

protected def bind {α β} (m : LexM α) (f : α → LexM β) : LexM β := fun l =>
  match m l with
  | .ok a l' => f a l'
  | .err e l' => .err e l'

instance : Monad LexM where
  pure := LexM.pure
  bind := LexM.bind

def throw {α} (e : LexErr) : LexM α := fun l => .err e l
def get : LexM Lexer := fun l => .ok l l
def modify (f : Lexer → Lexer) : LexM Unit := fun l => .ok () (f l)

end LexM

open LexM

/-- `self.source_buffer.get_char()` -/
def curChar : LexM Char := fun l => .ok l.buf.getChar l
/-- `self.source_buffer.peek_three_chars()` -/
def peekThree : LexM (Char × Char × Char) := fun l => .ok l.buf.peek3 l
/-- `self.source_buffer.get_position()` -/
def bufPos : LexM Nat := fun l => .ok l.buf.getPosition l
/-- `self.source_buffer.advance()` -/
def adv : LexM Unit := LexM.modify fun l => { l with buf := l.buf.advance }
/-- `for _i in 1 ..= n { let _ = self.source_buffer.advance(); }` -/
def advN : Nat → LexM Unit
  | 0 => pure ()
  | n + 1 => do adv; advN n
/-- `self.get_position()`, `tokenizer.rs` 1060-1062 -/
def getPosition : LexM Nat := fun l => .ok l.tokStart l
/-- `self.token_start_position = self.source_buffer.get_position()` -/
def markStart : LexM Unit := LexM.modify fun l => { l with tokStart := l.buf.getPosition }

/-- Fuel for a loop in which every iteration but the last advances: the length of the source. -/
def loopFuel : LexM Nat := fun l => .ok (l.buf.chars.length + 2) l

/-- `match trivia_collector.len() { 0 => None, _ => Some({ trivia_collector.reverse(); .. }) }` -/
def finTrivia (acc : List Trivia) : Trivs :=
  if acc.length = 0 then none else some acc.reverse

/-- A loop `while p(get_char()) { buffer.push(get_char()); advance() }`; returns what it pushed. -/
def scanWhile (p : Char → Bool) : Nat → LexM (List Char)
  | 0 => throw .fuel
  | n + 1 => do
    let c ← curChar
    if p c then do
      adv
      let cs ← scanWhile p n
      pure (c :: cs)
    else pure []

/-- `tokenizer.rs` 54-66: skip leading blanks and measure the column. -/
def colLoop (col : Nat) : Nat → LexM Nat
  | 0 => throw .fuel
  | n + 1 => do
    let c ← curChar
    if c = ' ' then do
      adv
      colLoop (col + 1) n
    else if c = '\t' then do
      let l ← get
      adv
      colLoop ((col / l.tabSize + 1) * l.tabSize) n
    else pure col

/-- `tokenizer.rs` 96-99: the loop that pops deeper levels.  Structural on the stack; the guard
`is_empty() == false` is the first case, `len() > 1` is `rest ≠ []`. -/
def popDeeper (col : Nat) : List Nat → Int → List Nat × Int
  | [], p => ([], p)
  | top :: rest, p =>
    if col < top ∧ (top :: rest).length > 1 then popDeeper col rest (p - 1) else (top :: rest, p)

/-- `match self.indent_stack.last() { Some(x) => *x, _ => 0 }` -/
def topIndent : List Nat → Nat
  | [] => 0
  | x :: _ => x

/-- `tokenizer.rs` 68-87: `is_blank_line` and `col` after looking at the first character `c` that is
not a blank. -/
def lineKind (interactive blank : Bool) (col : Nat) (c : Char) : Bool × Nat :=
  if c = '#' ∨ c = '\r' ∨ c = '\n' ∨ c = '\\' then
    if col = 0 ∧ interactive = true then
      (if c = '\r' ∨ c = '\n' then (false, col) else (blank, col))
    else if interactive = true then (false, 0)
    else (true, col)
  else (blank, col)

/-- `tokenizer.rs` 90-103: compare the column with the indentation stack. -/
def applyIndent (col : Nat) : LexM Unit := do
  let l ← get
  if l.indents.isEmpty = false ∧ col = topIndent l.indents then pure ()
  else if l.indents.isEmpty = false ∧ col > topIndent l.indents then
    modify fun l => { l with pending := l.pending + 1, indents := col :: l.indents }
  else do
    modify fun l =>
      let r := popDeeper col l.indents l.pending
      { l with indents := r.1, pending := r.2 }
    let l ← get
    if l.indents.isEmpty = true ∨ col < topIndent l.indents then throw .inconsistentIndent
    else pure ()

/-- `tokenizer.rs` 52-104: the body of the `true` arm of `match is_at_beginning_of_line`.
Takes and returns the local `is_blank_line`. -/
def bolStep (blank : Bool) : LexM Bool := do
  modify fun l => { l with bol := false }
  let col ← colLoop 0 (← loopFuel)
  let c ← curChar
  let l ← get
  let bc := lineKind l.interactive blank col c
  if bc.1 = false ∧ l.parens.isEmpty = true then do
    applyIndent bc.2
    pure bc.1
  else pure bc.1

/-- `tokenizer.rs` 125-144: white space trivia. -/
def wsLoop (acc : List Trivia) : Nat → LexM (List Trivia)
  | 0 => throw .fuel
  | n + 1 => do
    let c ← curChar
    if c = ' ' then do
      markStart
      let _ ← scanWhile (· == ' ') (← loopFuel)
      let s ← getPosition
      let e ← bufPos
      wsLoop (acc ++ [.whiteSpace s e ' ']) n
    else if c = '\t' then do
      markStart
      adv
      let s ← getPosition
      let e ← bufPos
      wsLoop (acc ++ [.whiteSpace s e '\t']) n
    else pure acc

/-- How the `'inner` loop is left: `return Ok(token)`, `continue 'outer`, `break 'outer`. -/
inductive InnerExit
  | ret (t : Token)
  | again (acc : List Trivia)
  | brk (acc : List Trivia)
  deriving DecidableEq

/-- `tokenizer.rs` 187-199 (and 204-216, 221-233): after the characters of a line end have been
consumed. -/
def newlineExit (acc : List Trivia) (blank : Bool) (c1 c2 : Char) : LexM InnerExit := do
  modify fun l => { l with bol := true }
  let l ← get
  let s ← getPosition
  let e ← bufPos
  if blank ∨ l.parens.isEmpty = false then pure (.again (acc ++ [.newline s e '\r' '\n']))
  else pure (.ret (.newline s e (finTrivia acc) c1 c2))

/-- `buffer.as_str().starts_with("# type:")` -/
def isTypeComment (txt : List Char) : Bool := (cs! "# type:").isPrefixOf txt

/-- `tokenizer.rs` 122-262, the `'inner` loop. -/
def inner (blank : Bool) (acc : List Trivia) : Nat → LexM InnerExit
  | 0 => throw .fuel
  | n + 1 => do
    let acc ← wsLoop acc (← loopFuel)
    markStart                                                         -- 146
    let c ← curChar
    if c = '#' then do                                                -- 150-168
      let txt ← scanWhile (fun c => !(c == '\r' || c == '\n' || c == '\x00')) (← loopFuel)
      let s ← getPosition
      let e ← bufPos
      if isTypeComment txt then pure (.ret (.typeComment s e (finTrivia acc) txt))
      else inner blank (acc ++ [.comment s e txt]) n
    else if c = '\x00' then do                                          -- 173-178
      pure (.ret (.eof (← bufPos) (finTrivia acc)))
    else do
      markStart                                                       -- 180
      let (c1, c2, c3) ← peekThree
      if c1 = '\r' ∧ c2 = '\n' then do                                -- 184-200
        advN 3
        newlineExit acc blank '\r' '\n'
      else if c1 = '\r' then do                                       -- 201-217
        advN 1
        newlineExit acc blank '\r' ' '
      else if c1 = '\n' then do                                       -- 218-234
        advN 1
        newlineExit acc blank '\n' ' '
      else if c1 = '\\' ∧ c2 = '\r' ∧ c3 = '\n' then do               -- 240-244
        advN 3
        let s ← getPosition
        let e ← bufPos
        inner blank (acc ++ [.lineContinuation s e '\\' '\r' '\n']) n
      else if c1 = '\\' ∧ c2 = '\r' then do                           -- 245-249
        advN 2
        let s ← getPosition
        let e ← bufPos
        inner blank (acc ++ [.lineContinuation s e '\\' '\r' ' ']) n
      else if c1 = '\\' ∧ c2 = '\n' then do                           -- 250-254
        advN 2
        let s ← getPosition
        let e ← bufPos
        inner blank (acc ++ [.lineContinuation s e '\\' '\n' ' ']) n
      else if c1 = '\\' then do                                       -- 255-257
        throw (.badContinuation (← bufPos))
      else pure (.brk acc)                                            -- 261

/-- `tokenizer.rs` 47-263, the `'outer` loop: either a token to return, or (`break 'outer`) the
collected trivia. -/
def outer (blank : Bool) (acc : List Trivia) : Nat → LexM (Token ⊕ List Trivia)
  | 0 => throw .fuel
  | n + 1 => do
    let l ← get
    let blank ← (if l.bol then bolStep blank else pure blank : LexM Bool)   -- 50-107
    let l ← get
    if l.pending < 0 then do                                          -- 111-114
      modify fun l => { l with pending := l.pending + 1 }
      pure (.inl (.dedent none))
    else if l.pending > 0 then do                                     -- 115-118
      modify fun l => { l with pending := l.pending - 1 }
      pure (.inl (.indent none))
    else do
      match ← inner blank acc (← loopFuel) with
      | .ret t => pure (.inl t)
      | .again acc => outer blank acc n
      | .brk acc => pure (.inr acc)

/-! ### Operators and delimiters, `tokenizer.rs` 268-538 -/

/-- A component of the match patterns of lines 268-538. -/
inductive Pat
  | ch (c : Char)
  /-- `_` -/
  | any
  /-- `s if s.is_ascii_digit() == false` (359) -/
  | notDigit
  deriving DecidableEq

def Pat.test : Pat → Char → Bool
  | .ch c, d => c == d
  | .any, _ => true
  | .notDigit, d => !isDigit d

/-- What a match arm does after advancing. -/
inductive OpAct
  | tok (k : Kind)
  /-- push the closing bracket, return the token -/
  | openB (k : Kind) (closer : Char)
  /-- pop if the top is `c`, otherwise error -/
  | closeB (k : Kind) (c : Char)
  deriving DecidableEq

/-- One match arm: three patterns, number of characters consumed, action. -/
structure OpArm where
  p1 : Char
  p2 : Pat
  p3 : Pat
  len : Nat
  act : OpAct
  deriving DecidableEq

/-- The match arms of `tokenizer.rs` 269-538 in source order. -/
def opArms : List OpArm := [
  ⟨'*', .ch '*', .ch '=', 3, .tok .PyPowerAssign⟩,        -- 269
  ⟨'*', .ch '*', .any, 2, .tok .PyPower⟩,                 -- 274
  ⟨'*', .ch '=', .any, 2, .tok .PyMulAssign⟩,             -- 279
  ⟨'*', .any, .any, 1, .tok .PyMul⟩,                      -- 284
  ⟨'/', .ch '/', .ch '=', 3, .tok .PyFloorDivAssign⟩,     -- 289
  ⟨'/', .ch '/', .any, 2, .tok .PyFloorDiv⟩,              -- 294
  ⟨'/', .ch '=', .any, 2, .tok .PyDivAssign⟩,             -- 299
  ⟨'/', .any, .any, 1, .tok .PyDiv⟩,                      -- 304
  ⟨'<', .ch '<', .ch '=', 3, .tok .PyShiftLeftAssign⟩,    -- 309
  ⟨'<', .ch '<', .any, 2, .tok .PyShiftLeft⟩,             -- 314
  ⟨'<', .ch '=', .any, 2, .tok .PyLessEqual⟩,             -- 319
  ⟨'<', .ch '>', .any, 2, .tok .PyNotEqual⟩,              -- 324
  ⟨'<', .any, .any, 1, .tok .PyLess⟩,                     -- 329
  ⟨'>', .ch '>', .ch '=', 3, .tok .PyShiftRightAssign⟩,   -- 334
  ⟨'>', .ch '>', .any, 2, .tok .PyShiftRight⟩,            -- 339
  ⟨'>', .ch '=', .any, 2, .tok .PyGreaterEqual⟩,          -- 344
  ⟨'>', .any, .any, 1, .tok .PyGreater⟩,                  -- 349
  ⟨'.', .ch '.', .ch '.', 3, .tok .PyElipsis⟩,            -- 354
  ⟨'.', .notDigit, .any, 1, .tok .PyDot⟩,                 -- 359
  ⟨'+', .ch '=', .any, 2, .tok .PyPlusAssign⟩,            -- 364
  ⟨'+', .any, .any, 1, .tok .PyPlus⟩,                     -- 369
  ⟨'-', .ch '=', .any, 2, .tok .PyMinusAssign⟩,           -- 374
  ⟨'-', .ch '>', .any, 2, .tok .PyArrow⟩,                 -- 379
  ⟨'-', .any, .any, 1, .tok .PyMinus⟩,                    -- 384
  ⟨'%', .ch '=', .any, 2, .tok .PyModuloAssign⟩,          -- 389
  ⟨'%', .any, .any, 1, .tok .PyModulo⟩,                   -- 394
  ⟨'@', .ch '=', .any, 2, .tok .PyMatriceAssign⟩,         -- 399
  ⟨'@', .any, .any, 1, .tok .PyMatrice⟩,                  -- 404
  ⟨':', .ch '=', .any, 2, .tok .PyColonAssign⟩,           -- 409
  ⟨':', .any, .any, 1, .tok .PyColon⟩,                    -- 414
  ⟨'&', .ch '=', .any, 2, .tok .PyBitAndAssign⟩,          -- 419
  ⟨'&', .any, .any, 1, .tok .PyBitAnd⟩,                   -- 424
  ⟨'|', .ch '=', .any, 2, .tok .PyBitOrAssign⟩,           -- 429
  ⟨'|', .any, .any, 1, .tok .PyBitOr⟩,                    -- 434
  ⟨'^', .ch '=', .any, 2, .tok .PyBitXorAssign⟩,          -- 439
  ⟨'^', .any, .any, 1, .tok .PyBitXor⟩,                   -- 444
  ⟨'~', .any, .any, 1, .tok .PyBitInvert⟩,                -- 449
  ⟨';', .any, .any, 1, .tok .PySemiColon⟩,                -- 454
  ⟨',', .any, .any, 1, .tok .PyComa⟩,                     -- 459
  ⟨'=', .ch '=', .any, 2, .tok .PyEqual⟩,                 -- 464
  ⟨'=', .any, .any, 1, .tok .PyAssign⟩,                   -- 469
  ⟨'!', .ch '=', .any, 2, .tok .PyNotEqual⟩,              -- 474
  ⟨'(', .any, .any, 1, .openB .PyLeftParen ')'⟩,          -- 479
  ⟨'[', .any, .any, 1, .openB .PyLeftBracket ']'⟩,        -- 485
  ⟨'{', .any, .any, 1, .openB .PyLeftCurly '}'⟩,          -- 491
  ⟨')', .any, .any, 1, .closeB .PyRightParen ')'⟩,        -- 497
  ⟨']', .any, .any, 1, .closeB .PyRightBracket ']'⟩,      -- 511
  ⟨'}', .any, .any, 1, .closeB .PyRightCurly '}'⟩         -- 525
  ]

def OpArm.test (a : OpArm) (c : Char × Char × Char) : Bool :=
  a.p1 == c.1 && a.p2.test c.2.1 && a.p3.test c.2.2

/-- The first arm that matches, as in a Rust `match`. -/
def findArm (c : Char × Char × Char) : Option OpArm := opArms.find? (·.test c)

/-- `Ok(Box::new(Token::K(self.token_start_position, self.source_buffer.get_position(), trivia)))` -/
def symTok (k : Kind) (acc : List Trivia) : LexM Token := do
  let s ← getPosition
  let e ← bufPos
  pure (.sym k s e (finTrivia acc))

/-- The body of an operator arm. -/
def runArm (a : OpArm) (acc : List Trivia) : LexM Token := do
  advN a.len
  match a.act with
  | .tok k => symTok k acc
  | .openB k c => do
    modify fun l => { l with parens := c :: l.parens }
    symTok k acc
  | .closeB k c => do
    let l ← get
    match l.parens with
    | top :: rest =>
      if top = c then do
        modify fun l => { l with parens := rest }
        symTok k acc
      else throw (.mismatch (← getPosition) c)
    | [] => throw (.mismatch (← getPosition) c)

/-! ### Strings, `tokenizer.rs` 1003-1058 -/

/-- `tokenizer.rs` 1009-1032.  Returns what was pushed. -/
def tripleLoop (quote : Char) : Nat → LexM (List Char)
  | 0 => throw .fuel
  | n + 1 => do
    let (a, b, c) ← peekThree
    if a = '\x00' then throw .moreData
    else if a = '\r' ∧ b = '\n' then do
      advN 2
      let cs ← tripleLoop quote n
      pure (a :: b :: cs)
    else if a = '\r' ∨ a = '\n' then do
      adv
      let cs ← tripleLoop quote n
      pure (a :: cs)
    else if quote = a ∧ quote = b ∧ quote = c then do
      advN 3
      pure [a, b, c]
    else do
      adv
      let cs ← tripleLoop quote n
      pure (a :: cs)

/-- `tokenizer.rs` 1039-1053. -/
def singleLoop (quote : Char) : Nat → LexM (List Char)
  | 0 => throw .fuel
  | n + 1 => do
    let c ← curChar
    if c = '\x00' ∨ c = '\r' ∨ c = '\n' then do throw (.unterminated (← bufPos))
    else if c = quote then do
      adv
      pure [c]
    else do
      adv
      let cs ← singleLoop quote n
      pure (c :: cs)

/-- `tokenizer.rs` 1003-1058 `handle_string`.  `push get_char(); advance()` three times equals
pushing the three peeked characters. -/
def handleString (start : Nat) (triple : Bool) (pfx : Option (List Char)) (acc : List Trivia) :
    LexM Token := do
  let quote ← curChar
  if triple then do
    let (a, b, c) ← peekThree
    advN 3
    let cs ← tripleLoop quote (← loopFuel)
    let e ← bufPos
    pure (.string start e (finTrivia acc) (a :: b :: c :: cs) pfx)
  else do
    adv
    let cs ← singleLoop quote (← loopFuel)
    let e ← bufPos
    pure (.string start e (finTrivia acc) (quote :: cs) pfx)

/-- The three-way choice of `tokenizer.rs` 630-643, also used (without prefix) by 983-995. -/
def stringStart (pfx : Option (List Char)) (acc : List Trivia) : LexM Token := do
  let (a, b, c) ← peekThree
  let s ← getPosition
  if (a = '\'' ∧ b = '\'' ∧ c = '\'') ∨ (a = '"' ∧ b = '"' ∧ c = '"') then
    handleString s true pfx acc
  else if (a = '\'' ∧ b = '\'') ∨ (a = '"' ∧ b = '"') then do
    advN 2
    let e ← bufPos
    pure (.string s e (finTrivia acc) [a, b] pfx)
  else handleString s false pfx acc

/-! ### Names and keywords, `tokenizer.rs` 539-648 -/

/-- `tokenizer.rs` 546-615. -/
def keywords : List (List Char × Kind) := [
  (cs! "False", .PyFalse), (cs! "None", .PyNone), (cs! "True", .PyTrue), (cs! "and", .PyAnd),
  (cs! "as", .PyAs), (cs! "assert", .PyAssert), (cs! "async", .PyAsync), (cs! "await", .PyAwait),
  (cs! "break", .PyBreak), (cs! "class", .PyClass), (cs! "continue", .PyContinue),
  (cs! "def", .PyDef), (cs! "del", .PyDel), (cs! "elif", .PyElif), (cs! "else", .PyElse),
  (cs! "except", .PyExcept), (cs! "finally", .PyFinally), (cs! "for", .PyFor),
  (cs! "from", .PyFrom), (cs! "global", .PyGlobal), (cs! "if", .PyIf), (cs! "import", .PyImport),
  (cs! "in", .PyIn), (cs! "is", .PyIs), (cs! "lambda", .PyLambda),
  (cs! "nonlocal", .PyNonLocal), (cs! "not", .PyNot), (cs! "or", .PyOr), (cs! "pass", .PyPass),
  (cs! "raise", .PyRaise), (cs! "return", .PyReturn), (cs! "try", .PyTry),
  (cs! "while", .PyWhile), (cs! "with", .PyWith), (cs! "yield", .PyYield)]

/-- `tokenizer.rs` 616-629. -/
def stringPrefixes : List (List Char) := [
  cs! "r", cs! "u", cs! "R", cs! "U", cs! "f", cs! "F", cs! "fr", cs! "Fr", cs! "fR", cs! "FR",
  cs! "rf", cs! "rF", cs! "Rf", cs! "RF"]

/-- `tokenizer.rs` 541 -/
def isNameChar [Uni] (c : Char) : Bool := isAlphanumeric c || c == '_'

/-- `tokenizer.rs` 539 -/
def isNameStart [Uni] (c : Char) : Bool := isAlphabetic c || c == '_'

/-- `tokenizer.rs` 540-647. -/
def nameArm [Uni] (acc : List Trivia) : LexM Token := do
  let txt ← scanWhile isNameChar (← loopFuel)
  match keywords.lookup txt with
  | some k => symTok k acc
  | none => do
    let c ← curChar
    if stringPrefixes.contains txt && (c == '\'' || c == '"') then stringStart (some txt) acc
    else do
      let s ← getPosition
      let e ← bufPos
      pure (.name s e (finTrivia acc) txt)

/-! ### Numbers, `tokenizer.rs` 649-982 -/

/-- A digit loop with single underscores, `tokenizer.rs` 769-784, 800-815, 842-857, 869-884,
900-915, 924-939, 954-969 (`d` = decimal digits) and 663-681, 692-710, 722-740 (other radix).
`e pos` is the error raised when a `_` is not followed by a digit. -/
def digitLoop (d : Char → Bool) (e : Nat → LexErr) : Nat → LexM (List Char)
  | 0 => throw .fuel
  | n + 1 => do
    let c ← curChar
    if c = '_' then do
      adv
      let c2 ← curChar
      if d c2 then do
        let cs ← digitLoop d e n
        pure ('_' :: cs)
      else do throw (e (← getPosition))
    else if d c then do
      adv
      let cs ← digitLoop d e n
      pure (c :: cs)
    else pure []

/-- `'0' ..= '9' | 'a' ..= 'f' | 'A' ..= 'F'` -/
def isHexDigit (c : Char) : Bool :=
  isDigit c || (97 ≤ c.toNat && c.toNat ≤ 102) || (65 ≤ c.toNat && c.toNat ≤ 70)
/-- `'0' ..= '7'` -/
def isOctDigit (c : Char) : Bool := 48 ≤ c.toNat && c.toNat ≤ 55
/-- `'0' | '1'` -/
def isBinDigit (c : Char) : Bool := c == '0' || c == '1'

/-- `tokenizer.rs` 655-681, 684-710, 713-740: the part of a radix literal after the leading `0`;
`r` is `x`, `o` or `b` (only used in the error), `d` the digit class.  Returns what was pushed. -/
def radixArm (r : Char) (d : Char → Bool) : LexM (List Char) := do
  let c ← curChar
  adv
  let c2 ← curChar
  if d c2 || c2 == '_' then do
    let cs ← digitLoop d (fun p => .badRadix p r) (← loopFuel)
    pure (c :: cs)
  else do throw (.badRadix (← getPosition) r)

/-- `tokenizer.rs` 917-942 (and 760-787): optional fraction.  Returns what was pushed. -/
def fractionPart : LexM (List Char) := do
  let c ← curChar
  if c = '.' then do
    adv
    let c2 ← curChar
    if c2 = '_' then do throw (.underscoreAfterDot (← getPosition))
    else do
      let cs ← digitLoop isDigit .badUnderscore (← loopFuel)
      pure ('.' :: cs)
  else pure []

/-- `tokenizer.rs` 943-972 (and 788-818, 858-887): optional exponent. -/
def exponentPart : LexM (List Char) := do
  let c ← curChar
  if c = 'e' ∨ c = 'E' then do
    adv
    let c2 ← curChar
    if c2 = '+' ∨ c2 = '-' then do
      adv
      let cs ← digitLoop isDigit .badUnderscore (← loopFuel)
      pure (c :: c2 :: cs)
    else do
      let cs ← digitLoop isDigit .badUnderscore (← loopFuel)
      pure (c :: cs)
  else pure []

/-- `tokenizer.rs` 973-979 (and 819-826, 888-894): optional imaginary suffix. -/
def imagPart : LexM (List Char) := do
  let c ← curChar
  if c = 'j' ∨ c = 'J' then do
    adv
    pure [c]
  else pure []

/-- `Ok(Box::new(Token::AtomNumber(token_start_position, get_position(), trivia, buffer)))` -/
def numTok (txt : List Char) (acc : List Trivia) : LexM Token := do
  let s ← getPosition
  let e ← bufPos
  pure (.number s e (finTrivia acc) txt)

/-- `tokenizer.rs` 649-835: literals starting with `0`.  In the last case (742-831) the character
after the `0` is pushed and consumed whatever it is; `non_zero` is true iff the following digits
contain a non-zero one, and is reset by a fraction, exponent or imaginary suffix. -/
def zeroArm (acc : List Trivia) : LexM Token := do
  adv
  let c ← curChar
  if c = 'x' ∨ c = 'X' then do
    let cs ← radixArm 'x' isHexDigit
    numTok ('0' :: cs) acc
  else if c = 'o' ∨ c = 'O' then do
    let cs ← radixArm 'o' isOctDigit
    numTok ('0' :: cs) acc
  else if c = 'b' ∨ c = 'B' then do
    let cs ← radixArm 'b' isBinDigit
    numTok ('0' :: cs) acc
  else do
    adv
    let ds ← scanWhile isDigit (← loopFuel)
    let nonZero := ds.any (· != '0')
    let fr ← fractionPart
    let nonZero := if fr.isEmpty then nonZero else false
    let ex ← exponentPart
    let nonZero := if ex.isEmpty then nonZero else false
    let im ← imagPart
    let nonZero := if im.isEmpty then nonZero else false
    if nonZero then do throw (.leadingZero (← getPosition))
    else numTok ('0' :: c :: ds ++ fr ++ ex ++ im) acc

/-- `tokenizer.rs` 836-897: literals starting with `.` and a digit. -/
def dotNumArm (acc : List Trivia) : LexM Token := do
  let (a, b, _) ← peekThree
  advN 2
  let ds ← digitLoop isDigit .badUnderscore (← loopFuel)
  let ex ← exponentPart
  let im ← imagPart
  numTok (a :: b :: ds ++ ex ++ im) acc

/-- `tokenizer.rs` 898-982: literals starting with `1`..`9`. -/
def decArm (acc : List Trivia) : LexM Token := do
  let ds ← digitLoop isDigit .badUnderscore (← loopFuel)
  let fr ← fractionPart
  let ex ← exponentPart
  let im ← imagPart
  numTok (ds ++ fr ++ ex ++ im) acc

/-! ### `get_symbol` -/

/-- `tokenizer.rs` 265-1000: the part after the loops. -/
def lexArms [Uni] (acc : List Trivia) : LexM Token := do
  markStart                                                           -- 265
  let cs ← peekThree
  match findArm cs with
  | some a => runArm a acc                                            -- 269-538
  | none =>
    let c := cs.1
    if isNameStart c then nameArm acc                                 -- 539-648
    else if c = '0' then zeroArm acc                                  -- 649-835
    else if c = '.' ∧ isDigit cs.2.1 then dotNumArm acc               -- 836-897
    else if isDigit c then decArm acc                                 -- 898-982
    else if c = '\'' ∨ c = '"' then stringStart none acc              -- 983-995
    else do throw (.lexical (← bufPos) (← curChar))                   -- 996-999

/-- `tokenizer.rs` 40-1001 `get_symbol`. -/
def getSymbol [Uni] : LexM Token := do
  markStart                                                           -- 44
  match ← outer false [] (← loopFuel) with
  | .inl t => pure t
  | .inr acc => lexArms acc

/-- `tokenizer.rs` 27-38 `new`. -/
def Lexer.new (src : List Char) : Lexer where
  buf := Source.new src
  tokStart := 0
  parens := []
  bol := true
  tabSize := 4
  interactive := false
  pending := 0
  indents := [0]

end Verif
