import Verif.Go.Basic
/-!
Specification of text: a Go string that is valid UTF-8 is the encoding, by Lean's own
`String.utf8EncodeChar`, of a list of Unicode scalar values (`Char`).
-/
namespace Spec
open Go

/-- UTF-8 bytes of a list of characters. -/
def utf8 (cs : List Char) : Str := cs.flatMap String.utf8EncodeChar

/-- Valid UTF-8. -/
def IsUtf8 (s : Str) : Prop := ∃ cs, s = utf8 cs

/-- The rune of a character. -/
def runeOf (c : Char) : Rune := Int32.ofNat c.toNat

/-- `s` does not begin with a UTF-8 continuation byte (10xxxxxx), i.e. it begins at a character
boundary as far as can be told from the left. -/
def Boundary (s : Str) : Prop := ∀ b t, s = b :: t → ¬ (0x80 ≤ b.toNat ∧ b.toNat ≤ 0xBF)

end Spec
