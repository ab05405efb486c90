import Verif.Spec.Ascii
/-! Where the characters of a CP949 string begin, told from the bytes near a position. -/
namespace Spec
open Go

/-- The number of bytes at the end of the string, after its last ASCII byte. -/
def highTail (b : Str) : Nat := (b.reverse.takeWhile fun x => !isAscii x).length

/-- How many bytes to delete with the last character: two if the last byte is not ASCII, or an odd number of such bytes
stand directly before it; one otherwise. -/
def lastWidth (b : Str) : Nat :=
  match b.getLast? with
  | none => 0
  | some x => if !isAscii x || highTail b.dropLast % 2 == 1 then 2 else 1

end Spec
