import Verif.Spec.Ascii
/-! Taking bytes off the ends of a string, as `TrimLeft`, `TrimRight` and `Trim` of Go's packages bytes and strings do for a set of ASCII characters. -/
namespace Spec
open Go

/-- The string from its first byte outside the set on. -/
def trimLeft (p : Byte → Bool) (s : Str) : Str := s.dropWhile p

/-- The string up to its last byte outside the set. -/
def trimRight (p : Byte → Bool) (s : Str) : Str := (s.reverse.dropWhile p).reverse

/-- Both. -/
def trim (p : Byte → Bool) (s : Str) : Str := trimRight p (trimLeft p s)

/-- The ASCII blanks: tab, line feed, vertical tab, form feed, carriage return, space. -/
def isBlank (b : Byte) : Bool := (0x09 ≤ b.toNat && b.toNat ≤ 0x0D) || b.toNat == 0x20

end Spec
