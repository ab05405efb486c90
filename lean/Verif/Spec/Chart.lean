import Verif.Spec.Cp949
/-!
Layout of CP949 (KS X 1001 with the Unified Hangul Code extension), written from the standard and not
from the tables.
-/
namespace Spec

/-- The Hangul area of KS X 1001: lead byte B0..C8, trail byte A1..FE (25 rows of 94). -/
def KsCode (code : Nat) : Prop :=
  (0xB0 ≤ code / 256 ∧ code / 256 ≤ 0xC8) ∧ (0xA1 ≤ code % 256 ∧ code % 256 ≤ 0xFE)

/-- The area of the extension: lead byte 81..A0 with trail byte 41..5A, 61..7A, 81..FE; lead byte A1..C5 with
trail byte 41..5A, 61..7A, 81..A0; and C641..C652. -/
def ExtCode (code : Nat) : Prop :=
  ((0x81 ≤ code / 256 ∧ code / 256 ≤ 0xA0) ∧
    ((0x41 ≤ code % 256 ∧ code % 256 ≤ 0x5A) ∨ (0x61 ≤ code % 256 ∧ code % 256 ≤ 0x7A) ∨
      (0x81 ≤ code % 256 ∧ code % 256 ≤ 0xFE))) ∨
  ((0xA1 ≤ code / 256 ∧ code / 256 ≤ 0xC5) ∧
    ((0x41 ≤ code % 256 ∧ code % 256 ≤ 0x5A) ∨ (0x61 ≤ code % 256 ∧ code % 256 ≤ 0x7A) ∨
      (0x81 ≤ code % 256 ∧ code % 256 ≤ 0xA0))) ∨
  (code / 256 = 0xC6 ∧ 0x41 ≤ code % 256 ∧ code % 256 ≤ 0x52)

/-- A syllable of the basic set of KS X 1001. -/
def KsSyllable (c : Char) : Prop := ∃ code, KsCode code ∧ Chart code c.toNat

/-- Runs of KS X 1001: `len` codes from `code` on stand for as many characters from `u` on, in order. -/
def rows : List (Nat × Nat × Nat) :=
  [(0xA3A1, 0xFF01, 59), (0xA3DC, 0xFFE6, 1), (0xA3DD, 0xFF3D, 33), (0xA3FE, 0xFFE3, 1), -- fullwidth
   (0xA4A1, 0x3131, 94), -- Hangul compatibility letters
   (0xA5A1, 0x2170, 10), (0xA5B0, 0x2160, 10), -- roman numerals
   (0xA5C1, 0x391, 17), (0xA5D2, 0x3A3, 7), (0xA5E1, 0x3B1, 17), (0xA5F2, 0x3C3, 7), -- Greek
   (0xA8B1, 0x3260, 28), (0xA8CD, 0x24D0, 26), (0xA8E7, 0x2460, 15), -- circled
   (0xA9B1, 0x3200, 28), (0xA9CD, 0x249C, 26), (0xA9E7, 0x2474, 15), -- in parentheses
   (0xAAA1, 0x3041, 83), (0xABA1, 0x30A1, 86), -- kana
   (0xACA1, 0x410, 6), (0xACA7, 0x401, 1), (0xACA8, 0x416, 26), -- Cyrillic
   (0xACD1, 0x430, 6), (0xACD7, 0x451, 1), (0xACD8, 0x436, 26)]

/-- The hanja area of KS X 1001: lead byte CA..FD, trail byte A1..FE (52 rows of 94), in which the characters
are arranged by their Korean reading. -/
def HanjaCode (code : Nat) : Prop :=
  (0xCA ≤ code / 256 ∧ code / 256 ≤ 0xFD) ∧ (0xA1 ≤ code % 256 ∧ code % 256 ≤ 0xFE)

/-- A character of EUC-KR: ASCII, or with both bytes in A1..FE (so without the extension of CP949). -/
def EucKr (c : Char) : Prop :=
  c.toNat < 0x80 ∨ ∃ code, (0xA1 ≤ code / 256 ∧ code / 256 ≤ 0xFE) ∧ (0xA1 ≤ code % 256 ∧ code % 256 ≤ 0xFE) ∧
    Chart code c.toNat

/-- Hanja with more than one reading which KS X 1001 files under another reading than hanja/table.go gives:
串 廓 金 拏 諾 寧 怒 坍 宅 不 樂 異 泌. -/
def otherReading : List Nat :=
  [0x4E32, 0x5ED3, 0x91D1, 0x62CF, 0x8AFE, 0x5BE7, 0x6012, 0x574D, 0x5B85, 0x4E0D, 0x6A02, 0x7570, 0x6CCC]

end Spec
