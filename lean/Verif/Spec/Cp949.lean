import Verif.Spec.Text
import Verif.Spec.Cp949Chart
/-!
Specification of CP949 as a relation between character lists and byte strings. The code chart is that of
`Spec/Cp949Chart`, which does not come from /repo; nothing of the model is used.
-/
namespace Spec
open Go

/-- The code chart: code `hi*256+lo` stands for the character with code point `u`. -/
def Chart (code u : Nat) : Prop := (code, u) ∈ chartPairs

/-- Characters that can be written in CP949. -/
def InRepertoire (c : Char) : Prop := c.toNat < 0x80 ∨ ∃ code, Chart code c.toNat

/-- `Enc cs b`: `b` is the CP949 encoding of the text `cs`. -/
inductive Enc : List Char → Str → Prop
  | nil : Enc [] []
  | ascii {b : Byte} {c : Char} {cs bs} : b.toNat < 0x80 → c.toNat = b.toNat → Enc cs bs →
      Enc (c :: cs) (b :: bs)
  | pair {hi lo : Byte} {c : Char} {cs bs} : Chart (hi.toNat * 256 + lo.toNat) c.toNat → Enc cs bs →
      Enc (c :: cs) (hi :: lo :: bs)

/-- `Dec b cs`: reading `b` left to right gives the text `cs`, with U+FFFD for a pair that is not in the
chart. -/
inductive Dec : Str → List Char → Prop
  | nil : Dec [] []
  | ascii {b : Byte} {c : Char} {cs bs} : b.toNat < 0x80 → c.toNat = b.toNat → Dec bs cs →
      Dec (b :: bs) (c :: cs)
  | pair {hi lo : Byte} {c : Char} {cs bs} : 0x80 ≤ hi.toNat →
      Chart (hi.toNat * 256 + lo.toNat) c.toNat → Dec bs cs → Dec (hi :: lo :: bs) (c :: cs)
  | unassigned {hi lo : Byte} {c : Char} {cs bs} : 0x80 ≤ hi.toNat →
      (∀ u, ¬ Chart (hi.toNat * 256 + lo.toNat) u) → c.toNat = 0xFFFD → Dec bs cs →
      Dec (hi :: lo :: bs) (c :: cs)

/-- Reading left to right, bytes below 0x80 alone and others in pairs, a lone byte is left over. -/
inductive Truncated : Str → Prop
  | lone {b : Byte} : 0x80 ≤ b.toNat → Truncated [b]
  | ascii {b : Byte} {bs} : b.toNat < 0x80 → Truncated bs → Truncated (b :: bs)
  | pair {hi lo : Byte} {bs} : 0x80 ≤ hi.toNat → Truncated bs → Truncated (hi :: lo :: bs)

open Classical in
/-- The character as it should arrive: itself if CP949 has it, `?` otherwise. -/
noncomputable def substitute (c : Char) : Char := if InRepertoire c then c else '?'

end Spec
