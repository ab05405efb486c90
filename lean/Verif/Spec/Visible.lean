import Verif.Spec.Seek
/-! Characters of Unicode that are not seen, or change how others are seen, up to U+FFFF. -/
namespace Spec
open Go

/-- Ranges of code points, written from the Unicode standard: controls; blanks, line and paragraph separators; format
characters (soft hyphen, zero-width characters, joiners, direction marks and overrides, invisible operators, byte order mark,
interlinear marks); the fillers of Hangul; combining marks that are put on any character; variation selectors; surrogates;
private use; noncharacters. -/
def hiddenRanges : List (Nat × Nat) :=
  [(0x00, 0x20), (0x7F, 0xA0), (0xAD, 0xAD), (0x300, 0x36F), (0x600, 0x605), (0x61C, 0x61C), (0x6DD, 0x6DD), (0x70F, 0x70F),
    (0x115F, 0x1160), (0x1680, 0x1680), (0x17B4, 0x17B5), (0x180B, 0x180F), (0x1AB0, 0x1AFF), (0x1DC0, 0x1DFF), (0x2000, 0x200F),
    (0x2028, 0x202F), (0x205F, 0x206F), (0x20D0, 0x20FF), (0x3000, 0x3000), (0x302A, 0x302F), (0x3099, 0x309A), (0x3164, 0x3164),
    (0xD800, 0xF8FF), (0xFDD0, 0xFDEF), (0xFE00, 0xFE0F), (0xFE20, 0xFE2F), (0xFEFF, 0xFEFF), (0xFFA0, 0xFFA0),
    (0xFFF0, 0xFFFB), (0xFFFE, 0xFFFF)]

/-- The code point lies in one of them. -/
def hidden (u : Nat) : Bool := hiddenRanges.any fun r => Nat.ble r.1 u && Nat.ble u r.2

/-- The pairs A1 A1 (ideographic space), A1 A9 (soft hyphen) and A4 D4 (Hangul filler). -/
def hiddenPairs : List (Byte × Byte) := [(0xA1, 0xA1), (0xA1, 0xA9), (0xA4, 0xD4)]

end Spec
