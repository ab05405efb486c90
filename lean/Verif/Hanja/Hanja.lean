import Verif.Go.Utf8
import Verif.Hanja.Table
/-! Model of hanja/hanja.go. -/
namespace Hanja
open Go

/-- hanja/table.go:8-27505, `table map[rune]rune`. The literal's numbers (`rawTable`, generated) as
runes. -/
def table : List (Rune × Rune) := rawTable.map fun e => (Int32.ofNat e.1, Int32.ofNat e.2)

/-- The loop of hanja.go:11-16 from index `i` on, `n` rounds to go: `c` is `rh[i]` when the round
begins, and `rh[i] = h` writes into the slice being ranged over. `range` fixes the number of rounds
at the start. -/
def convertLoop : (n i : Nat) → List Rune → List Rune
  | 0, _, rh => rh
  | n + 1, i, rh =>
    match rh[i]? with
    | none => rh
    | some c =>
      match mapGet table c with
      | some h => convertLoop n (i + 1) (rh.set i h)
      | none => convertLoop n (i + 1) rh

/-- hanja.go:8-19 -/
def Convert (h : Str) : Str :=
  let rh := runes h
  ofRunes (convertLoop rh.length 0 rh)

/-- hanja.go:22-25 -/
def IsHanja (c : Rune) : Bool := (mapGet table c).isSome

end Hanja
