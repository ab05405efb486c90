import Verif.Go.Basic
/-!
Specification of modern Hangul, written from the Unicode standard and independent of the model in
`Verif/Hangul`: no name of that directory is used here.
-/
namespace Spec
open Go

/-- Precomposed syllable, U+AC00..U+D7A3 (가..힣). -/
def IsSyllable (r : Rune) : Prop := 0xAC00 ≤ r.toInt ∧ r.toInt ≤ 0xD7A3

instance (r : Rune) : Decidable (IsSyllable r) := by unfold IsSyllable; infer_instance

/-- The compatibility letters of the 19 leading consonants, in the order of U+1100..U+1112:
ㄱㄲㄴㄷㄸㄹㅁㅂㅃㅅㅆㅇㅈㅉㅊㅋㅌㅍㅎ. -/
def leadLetters : List Int :=
  [0x3131, 0x3132, 0x3134, 0x3137, 0x3138, 0x3139, 0x3141, 0x3142, 0x3143, 0x3145, 0x3146, 0x3147,
    0x3148, 0x3149, 0x314A, 0x314B, 0x314C, 0x314D, 0x314E]

/-- The compatibility letters of the 27 trailing consonants, in the order of U+11A8..U+11C2:
ㄱㄲㄳㄴㄵㄶㄷㄹㄺㄻㄼㄽㄾㄿㅀㅁㅂㅄㅅㅆㅇㅈㅊㅋㅌㅍㅎ. -/
def tailLetters : List Int :=
  [0x3131, 0x3132, 0x3133, 0x3134, 0x3135, 0x3136, 0x3137, 0x3139, 0x313A, 0x313B, 0x313C, 0x313D,
    0x313E, 0x313F, 0x3140, 0x3141, 0x3142, 0x3144, 0x3145, 0x3146, 0x3147, 0x3148, 0x314A, 0x314B,
    0x314C, 0x314D, 0x314E]

/-- `r` is the leading consonant number `i` (0..18), as conjoining jamo U+1100+i or as
compatibility letter. -/
def LeadForm (i : Nat) (r : Rune) : Prop :=
  i < 19 ∧ (r.toInt = 0x1100 + i ∨ leadLetters[i]? = some r.toInt)

/-- `r` is the vowel number `j` (0..20), as U+1161+j or U+314F+j. -/
def VowelForm (j : Nat) (r : Rune) : Prop :=
  j < 21 ∧ (r.toInt = 0x1161 + j ∨ r.toInt = 0x314F + j)

/-- `r` is the trailing consonant number `k`: 0 means none and is written as rune 0; 1..27 is
U+11A7+k or the compatibility letter. -/
def TailForm (k : Nat) (r : Rune) : Prop :=
  (k = 0 ∧ r.toInt = 0) ∨
    (0 < k ∧ k < 28 ∧ (r.toInt = 0x11A7 + k ∨ tailLetters[k - 1]? = some r.toInt))

instance (i r) : Decidable (LeadForm i r) := by unfold LeadForm; infer_instance
instance (i r) : Decidable (VowelForm i r) := by unfold VowelForm; infer_instance
instance (i r) : Decidable (TailForm i r) := by unfold TailForm; infer_instance

/-- The syllable with leading consonant `i`, vowel `j`, trailing consonant `k` (0 = none):
Unicode 3.12, "Hangul syllable composition". -/
def syllable (i j k : Nat) : Rune := Int32.ofNat (0xAC00 + (i * 21 + j) * 28 + k)

/-- Rune with the given code point (below 2^31). -/
def cp (n : Nat) : Rune := Int32.ofNat n

/-- Compatibility letter of leading consonant `i`. -/
def leadLetter (i : Nat) : Rune := Int32.ofInt (leadLetters.getD i 0)

/-- Compatibility letter of trailing consonant `k`; 0 for none. -/
def tailLetter (k : Nat) : Rune := if k = 0 then 0 else Int32.ofInt (tailLetters.getD (k - 1) 0)

/-- Conjoining jamo of trailing consonant `k`; 0 for none. -/
def tailJamo (k : Nat) : Rune := if k = 0 then 0 else cp (0x11A7 + k)

/-- `r` is some spelling (compatibility, leading, vowel or trailing jamo) of the compatibility
letter with code point `v` (ㄱ..ㅣ, U+3131..U+3163). -/
def Spells (v : Int) (r : Rune) : Prop :=
  (0x3131 ≤ v ∧ v ≤ 0x3163) ∧
    (r.toInt = v ∨
     (∃ i, i < 19 ∧ r.toInt = ((0x1100 + i : Nat) : Int) ∧ leadLetters[i]? = some v) ∨
     (∃ j, j < 21 ∧ r.toInt = ((0x1161 + j : Nat) : Int) ∧ v = ((0x314F + j : Nat) : Int)) ∨
     (∃ k, k < 27 ∧ r.toInt = ((0x11A8 + k : Nat) : Int) ∧ tailLetters[k]? = some v))

instance (v r) : Decidable (Spells v r) := by unfold Spells; infer_instance

/-- The composite letters with their spelling in the 24 basic letters, by the shapes of the
letters: ㄲ=ㄱㄱ ㄳ=ㄱㅅ ㄵ=ㄴㅈ ㄶ=ㄴㅎ ㄸ=ㄷㄷ ㄺ=ㄹㄱ ㄻ=ㄹㅁ ㄼ=ㄹㅂ ㄽ=ㄹㅅ ㄾ=ㄹㅌ ㄿ=ㄹㅍ ㅀ=ㄹㅎ ㅃ=ㅂㅂ
ㅄ=ㅂㅅ ㅆ=ㅅㅅ ㅉ=ㅈㅈ. -/
def compositeConsonants : List (Int × List Int) :=
  [(0x3132, [0x3131, 0x3131]), (0x3133, [0x3131, 0x3145]), (0x3135, [0x3134, 0x3148]),
   (0x3136, [0x3134, 0x314E]), (0x3138, [0x3137, 0x3137]), (0x313A, [0x3139, 0x3131]),
   (0x313B, [0x3139, 0x3141]), (0x313C, [0x3139, 0x3142]), (0x313D, [0x3139, 0x3145]),
   (0x313E, [0x3139, 0x314C]), (0x313F, [0x3139, 0x314D]), (0x3140, [0x3139, 0x314E]),
   (0x3143, [0x3142, 0x3142]), (0x3144, [0x3142, 0x3145]), (0x3146, [0x3145, 0x3145]),
   (0x3149, [0x3148, 0x3148])]

/-- ㅐ=ㅏㅣ ㅒ=ㅑㅣ ㅔ=ㅓㅣ ㅖ=ㅕㅣ ㅘ=ㅗㅏ ㅙ=ㅗㅏㅣ ㅚ=ㅗㅣ ㅝ=ㅜㅓ ㅞ=ㅜㅓㅣ ㅟ=ㅜㅣ ㅢ=ㅡㅣ. -/
def compositeVowels : List (Int × List Int) :=
  [(0x3150, [0x314F, 0x3163]), (0x3152, [0x3151, 0x3163]), (0x3154, [0x3153, 0x3163]),
   (0x3156, [0x3155, 0x3163]), (0x3158, [0x3157, 0x314F]), (0x3159, [0x3157, 0x314F, 0x3163]),
   (0x315A, [0x3157, 0x3163]), (0x315D, [0x315C, 0x3153]), (0x315E, [0x315C, 0x3153, 0x3163]),
   (0x315F, [0x315C, 0x3163]), (0x3162, [0x3161, 0x3163])]

def composites : List (Int × List Int) := compositeConsonants ++ compositeVowels

def IsComposite (v : Int) : Prop := v ∈ composites.map Prod.fst

instance (v) : Decidable (IsComposite v) := by unfold IsComposite; infer_instance

/-- The basic letters a letter is made of: itself if it is basic. -/
def basics (v : Int) : List Int :=
  match composites.find? (fun e => e.1 = v) with
  | some e => e.2
  | none => [v]

/-- Number of strokes of each of the 24 basic letters,
ㄱ1 ㄴ1 ㄷ2 ㄹ3 ㅁ3 ㅂ4 ㅅ2 ㅇ1 ㅈ3 ㅊ4 ㅋ2 ㅌ3 ㅍ4 ㅎ3 ㅏ2 ㅑ3 ㅓ2 ㅕ3 ㅗ2 ㅛ3 ㅜ2 ㅠ3 ㅡ1 ㅣ1. -/
def basicStrokes (v : Int) : Int :=
  if v ∈ [0x3131, 0x3134, 0x3147, 0x3161, 0x3163] then 1
  else if v ∈ [0x3137, 0x3145, 0x314B, 0x314F, 0x3153, 0x3157, 0x315C] then 2
  else if v ∈ [0x3139, 0x3141, 0x3148, 0x314C, 0x314E, 0x3151, 0x3155, 0x315B, 0x3160] then 3
  else if v ∈ [0x3142, 0x314A, 0x314D] then 4
  else 0

/-- Strokes of a letter: the sum over the basic letters it is made of. -/
def letterStrokes (v : Int) : Int := ((basics v).map basicStrokes).sum

end Spec
