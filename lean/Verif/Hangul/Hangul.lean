import Verif.Hangul.Jamo
import Verif.Go.Utf8
/- hangul.go -/
namespace Hangul
open Go

/-- hangul.go:14-25, the `switch` as a chain of `if`. -/
def IsHangul (r : Rune) : Bool :=
  if 0xAC00 ≤ r && r ≤ 0xD7A3 then true
  else if IsJaeum r then true
  else if IsMoeum r then true
  else false

/-- hangul.go:28-46. `rune(...)` of an `int` keeps the low 32 bits (`Int32.ofInt`). -/
def Join (l m t : Rune) : Rune :=
  match leadIdx (Lead l) with
  | none => 0xFFFD
  | some li =>
    match medialIdx (Medial m) with
    | none => 0xFFFD
    | some mi =>
      match tailIdx (Tail t) with
      | none => 0xFFFD
      | some ti => Int32.ofInt (0xAC00 + (li * 21 + mi) * 28 + ti)

/-- hangul.go:49-61. `-`, `%`, `/` are `int32` operations: wrapping, truncating towards zero. -/
def Split (c : Rune) : Rune × Rune × Rune :=
  let t := (c - 0xAC00) % 28
  let m := ((c - 0xAC00 - t) % 588) / 28
  let l := (c - 0xAC00) / 588
  let l := l + leadBase
  let m := m + medialBase
  let t := if t ≠ 0 then t + (tailBase - 1) else t
  (l, m, t)

/-- hangul.go:64-70 -/
def SplitCompat (c : Rune) : Rune × Rune × Rune :=
  let (l, m, t) := Split c
  (CompatJamo l, CompatJamo m, CompatJamo t)

/-- hangul.go:84-91. The last element of `runes` is `runes[len(runes)-1]`; `[]rune(word)` of a
non-empty string is never empty, so the `none` branch is the one for the guard `word == ""`
(`Hangul.runes_getLast?_isSome`). -/
def LastConsonant (word : Str) : Rune :=
  if word = [] then 0
  else
    match (runes word).getLast? with
    | none => 0
    | some r => (Split r).2.2

/-- hangul.go:74-80 -/
def EndsWithConsonant (word : Str) : Bool :=
  if LastConsonant word = 0 then false else true

/-- The string literal `"으로"` of hangul.go:99 in UTF-8. -/
def euro : Str := [0xEC, 0x9C, 0xBC, 0xEB, 0xA1, 0x9C]

/-- hangul.go:97-106 -/
def AppendPostposition (word with_ without : Str) : Str :=
  let lastTail := LastConsonant word
  if with_ = euro ∧ lastTail = TailL then word ++ without
  else if lastTail ≠ 0 then word ++ with_
  else word ++ without

end Hangul
