import Verif.Go.Utf8
import Verif.Cp949.LookupFrom
import Verif.Cp949.LookupTo
/-!
Model of encoding/cp949/cp949.go: the two translators, on the contents of the byte slices.
A nil slice is the empty list. Backing arrays, capacities and the reuse of the scratch buffer
(`ensureCap`, `appendRune`) are modelled in `Verif.Cp949.Mem`, where these definitions are shown to
be what the memory-level program computes.
-/
namespace Cp949
open Go

/-- cp949.go:12-14 -/
structure LookupItem where
  cp949 : UInt16
  ucs2 : UInt16
  deriving DecidableEq, Inhabited

/-- cp949.go:16 -/
abbrev LookupTable := List LookupItem

/-- lookup_from.go:8-17057 (the numbers are `rawFrom`, generated). -/
def fromTable : LookupTable := rawFrom.map fun e => ⟨UInt16.ofNat e.1, UInt16.ofNat e.2⟩

/-- lookup_to.go:8-17057 (the numbers are `rawTo`, generated). -/
def toTable : LookupTable := rawTo.map fun e => ⟨UInt16.ofNat e.2, UInt16.ofNat e.1⟩

/-- cp949.go:50-55. `sort.Search` calls its function only with `0 ≤ i < len`, so the default of
`getD` is never used (`Go.searchLoop_congr`). -/
def searchCp949 (table : LookupTable) (n : UInt16) : Nat :=
  search table.length fun i => decide (n ≤ (table.getD i default).cp949)

/-- cp949.go:85-90 -/
def searchUcs2 (table : LookupTable) (n : UInt16) : Nat :=
  search table.length fun i => decide (n ≤ (table.getD i default).ucs2)

/-- cp949.go:147-152 on contents: `r` in UTF-8 is put after `buf`. -/
def appendRune (buf : Str) (r : Rune) : Str := buf ++ encodeRune r

/-- The loop of cp949.go:37-66; `scratch` and `c` are the variables of the same name. -/
def fromLoop (table : LookupTable) : (data scratch : Str) → (c : Nat) → Nat × Str × Option Err
  | [], scratch, c => (c, scratch, none)
  | [b], scratch, c =>
    if b &&& 0x80 = 0 then (c + 1, scratch ++ [b], none)
    else (0, [], some .unexpectedStream)
  | b :: b1 :: rest, scratch, c =>
    if b &&& 0x80 = 0 then fromLoop table (b1 :: rest) (scratch ++ [b]) (c + 1)
    else
      let n := b.toUInt16 <<< 8 ||| b1.toUInt16
      let fi := searchCp949 table n
      let scratch :=
        if fi < table.length ∧ n = (table.getD fi default).cp949 then
          appendRune scratch (Int32.ofNat (table.getD fi default).ucs2.toNat)
        else appendRune scratch RuneError
      fromLoop table rest scratch (c + 2)

/-- cp949.go:34-67, `(*translateFromCp949).Translate`. The scratch buffer is truncated first. -/
def fromTranslate (table : LookupTable) (data : Str) : Nat × Str × Option Err :=
  fromLoop table data [] 0

/-- The loop of cp949.go:75-107. `fuel` only makes the recursion structural: every round consumes
at least one byte. -/
def toLoop (table : LookupTable) : (fuel : Nat) → (data scratch : Str) → (c : Nat) →
    Nat × Str × Option Err
  | 0, _, scratch, c => (c, scratch, none)
  | fuel + 1, data, scratch, c =>
    match data with
    | [] => (c, scratch, none)
    | b :: rest =>
      if b &&& 0x80 = 0 then toLoop table fuel rest (scratch ++ [b]) (c + 1)
      else
        let (r, s) := DecodeRune data
        let rUcs2 := r.toUInt32.toUInt16
        let fi := searchUcs2 table rUcs2
        let scratch := if fi ≥ table.length then scratch ++ [0x3F] else scratch
        let scratch :=
          if fi < table.length ∧ rUcs2 = (table.getD fi default).ucs2 then
            scratch ++ [((table.getD fi default).cp949 >>> 8).toUInt8,
              ((table.getD fi default).cp949 &&& 0xFF).toUInt8]
          else scratch ++ [0x3F]
        toLoop table fuel (data.drop s) scratch (c + s)

/-- cp949.go:72-108, `(*translateToCp949).Translate`. -/
def toTranslate (table : LookupTable) (data : Str) : Nat × Str × Option Err :=
  toLoop table data.length data [] 0

end Cp949
