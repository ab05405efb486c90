import Verif.Hangul.Hangul
import Verif.Hangul.Jamo
import Verif.Spec.Hangul
/-!
Specification for C94: programs that spell a text letter by letter, for a search by letters or an
index of initials. They call `SplitCompat` and `SplitMultiElement` as a user would; nothing here
models code of /repo.
-/
namespace Spec
open Go Hangul

/-- The letters of a character: of a syllable what `SplitCompat` returns, without the 0 that stands
for a missing trailing consonant; any other character as it is. -/
def lettersOf (r : Rune) : List Rune :=
  if IsSyllable r then
    (SplitCompat r).1 :: ([(SplitCompat r).2.1] ++
      if (SplitCompat r).2.2 = 0 then [] else [(SplitCompat r).2.2])
  else [r]

/-- A letter with its elements in its place, if `SplitMultiElement` has any. -/
def elementsOf (r : Rune) : List Rune := (SplitMultiElement r).getD [r]

/-- As `lettersOf`, with the vowel and the trailing consonant split further by
`SplitMultiElement`: about what is typed on a keyboard. -/
def keysOf (r : Rune) : List Rune :=
  if IsSyllable r then
    (SplitCompat r).1 :: (elementsOf (SplitCompat r).2.1 ++
      if (SplitCompat r).2.2 = 0 then [] else elementsOf (SplitCompat r).2.2)
  else [r]

/-- A letter ㄱ..ㅣ (U+3131..U+3163) that stands alone in a text. -/
def IsLoose (r : Rune) : Prop := 0x3131 ≤ r.toInt ∧ r.toInt ≤ 0x3163

instance (r : Rune) : Decidable (IsLoose r) := by unfold IsLoose; infer_instance

/-- A text spelt with `f`. -/
def spelt (f : Rune → List Rune) (text : List Rune) : List Rune := text.flatMap f

end Spec
