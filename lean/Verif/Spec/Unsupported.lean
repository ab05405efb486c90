import Verif.Spec.Cp949
/-! What an encoder that replaces characters its encoding lacks should give. -/
namespace Spec
open Go

/-- `b` is the CP949 encoding of the text `cs` with `f c` in the place of each character `c` that CP949 lacks. -/
inductive Handled (f : Char → Str) : List Char → Str → Prop
  | nil : Handled f [] []
  | ascii {b : Byte} {c : Char} {cs bs} : b.toNat < 0x80 → c.toNat = b.toNat → Handled f cs bs → Handled f (c :: cs) (b :: bs)
  | pair {hi lo : Byte} {c : Char} {cs bs} : Chart (hi.toNat * 256 + lo.toNat) c.toNat → Handled f cs bs →
      Handled f (c :: cs) (hi :: lo :: bs)
  | lacking {c : Char} {cs bs} : ¬ InRepertoire c → Handled f cs bs → Handled f (c :: cs) (f c ++ bs)

/-- The HTML character reference: an ampersand, a number sign, the decimal digits and a semicolon. -/
def htmlReference (c : Char) : Str := [0x26, 0x23] ++ (Nat.toDigits 10 c.toNat).map (fun d => UInt8.ofNat d.toNat) ++ [0x3B]

/-- The byte 1A, "substitute". -/
def subByte (_ : Char) : Str := [0x1A]

end Spec
