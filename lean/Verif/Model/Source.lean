import Verif.Model.Token

/-!
# Source buffer and character classes

Models `src/parser/source_buffer.rs`.
-/

namespace Verif

/-- The part of Rust's Unicode tables outside ASCII is left arbitrary: `char::is_alphabetic` and
`char::is_numeric` on characters at or above U+0080.  Theorems hold for every instance. -/
class Uni where
  alphaHi : Char → Bool
  numHi : Char → Bool

def isAsciiLetter (c : Char) : Bool :=
  (65 ≤ c.toNat && c.toNat ≤ 90) || (97 ≤ c.toNat && c.toNat ≤ 122)

/-- `char::is_ascii_digit`, also the pattern `'0' ..= '9'`. -/
def isDigit (c : Char) : Bool := 48 ≤ c.toNat && c.toNat ≤ 57

/-- `char::is_alphabetic`: std tests ASCII letters first and consults the Unicode table only
above U+007F. -/
def isAlphabetic [Uni] (c : Char) : Bool :=
  if c.toNat < 128 then isAsciiLetter c else Uni.alphaHi c

/-- `char::is_alphanumeric` = `is_alphabetic() || is_numeric()`; below U+0080 the numeric
characters are the ASCII digits. -/
def isAlphanumeric [Uni] (c : Char) : Bool :=
  if c.toNat < 128 then isAsciiLetter c || isDigit c else Uni.alphaHi c || Uni.numHi c

/-- `source_buffer.rs` 1-4.  `index : u32` is a `Nat` here (see C04). -/
structure Source where
  chars : List Char
  index : Nat
  deriving DecidableEq, Repr

/-- `source_buffer.rs` 18-23 `new`: `buffer.chars().collect()`, index 0. -/
def Source.new (cs : List Char) : Source := { chars := cs, index := 0 }

/-- The bounds check shared by `get_char` and `peek_three_chars` (`source_buffer.rs` 28, 34-36):
the character at index `i`, or `'\0'` beyond the end. -/
def Source.charAt (s : Source) (i : Nat) : Char :=
  if h : i < s.chars.length then s.chars[i] else '\x00'

/-- `source_buffer.rs` 25-29 `get_char`. -/
def Source.getChar (s : Source) : Char := s.charAt s.index

/-- `source_buffer.rs` 31-38 `peek_three_chars`. -/
def Source.peek3 (s : Source) : Char × Char × Char :=
  (s.charAt s.index, s.charAt (s.index + 1), s.charAt (s.index + 2))

/-- `source_buffer.rs` 40-42 `advance` (no bound check in the source either). -/
def Source.advance (s : Source) : Source := { s with index := s.index + 1 }

/-- `source_buffer.rs` 44-46 `get_position`. -/
def Source.getPosition (s : Source) : Nat := s.index

/-- `source_buffer.rs` 48-50 `count`. -/
def Source.count (s : Source) : Nat := s.chars.length

end Verif
