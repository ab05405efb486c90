import Verif.Spec.Text
/-! ASCII bytes that mean something to other programs: quotes, slashes, angle brackets, line ends, NUL, ... -/
namespace Spec
open Go

/-- ASCII. -/
def isAscii (b : Byte) : Bool := b.toNat < 0x80

/-- A letter A-Z or a-z. -/
def isLetter (b : Byte) : Bool :=
  (decide (0x41 ≤ b.toNat) && decide (b.toNat ≤ 0x5A)) || (decide (0x61 ≤ b.toNat) && decide (b.toNat ≤ 0x7A))

/-- ASCII, and neither a letter nor the question mark that stands for characters CP949 lacks. -/
def isMeta (b : Byte) : Bool := isAscii b && !isLetter b && b != 0x3F

/-- The second bytes of the pairs of a CP949 string, read from the left. -/
def secondBytes : Str → Str
  | [] => []
  | b :: rest =>
    if isAscii b then secondBytes rest
    else match rest with
      | [] => []
      | lo :: rest => lo :: secondBytes rest

/-- The bytes of a CP949 string that stand alone (not in pairs), read from the left. -/
def singles : Str → Str
  | [] => []
  | b :: rest =>
    if isAscii b then b :: singles rest
    else match rest with
      | [] => []
      | _ :: rest => singles rest

end Spec
