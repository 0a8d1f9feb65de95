import Verif.Tests.Pat

/-!
# The unit tests of `source_buffer.rs` and the program of `main.rs`, run on the model
-/

namespace Verif

private def buf (s : String) : Source := Source.new s.toList

/-- `read_characters_from_empty_source_buffer` -/
example : (buf "").getPosition = 0 ∧ (buf "").getChar = '\x00' := by decide +kernel

/-- `read_characters_from_source_buffer` -/
example : (buf "def a(): pass").getPosition = 0 ∧
    (List.range 14).map (fun n => (Nat.repeat Source.advance n (buf "def a(): pass")).getChar) =
      ['d', 'e', 'f', ' ', 'a', '(', ')', ':', ' ', 'p', 'a', 's', 's', '\x00'] := by decide +kernel

/-- `peek_next_three_characters_and_check_position` -/
example : (buf "def a(): pass").peek3 = ('d', 'e', 'f') ∧ (buf "def a(): pass").getPosition = 0 := by decide +kernel

/-- `length_of_source_buffer_content` -/
example : (buf "def a(): pass").count = 13 := by decide +kernel

/-- `peek_next_three_characters_on_buffer_with_{zero,one,two,three}_character_only` -/
example : (buf "").peek3 = ('\x00', '\x00', '\x00') ∧ (buf "d").peek3 = ('d', '\x00', '\x00') ∧
    (buf "de").peek3 = ('d', 'e', '\x00') ∧ (buf "def").peek3 = ('d', 'e', 'f') := by decide +kernel

/-- `main.rs` prints "Oh yeah!". -/
example : parses .atomExpr (cs! "__init__")
    (.node .AtomName 0 8 [.tok .AtomName (some 0) (some 8) (some none) (some (cs! "__init__")) none]) = true := by decide +kernel

end Verif
