import Verif.Spec.Chart
/-! The initial-sound law of Korean spelling (두음법칙): which syllables no Sino-Korean word begins with. -/
namespace Spec
open Go

/-- A Hangul syllable. -/
def isSyl (u : Nat) : Bool := Nat.ble 0xAC00 u && Nat.ble u 0xD7A3

/-- A syllable with the initial ㄹ (number 5), or with the initial ㄴ (number 2) before ㅣ or a vowel that begins with it
(ㅑ ㅒ ㅕ ㅖ ㅛ ㅠ). -/
def barred (u : Nat) : Bool :=
  isSyl u && (Nat.beq ((u - 0xAC00) / 588) 5 ||
    Nat.beq ((u - 0xAC00) / 588) 2 && [2, 3, 6, 7, 12, 17, 20].any fun v => Nat.beq ((u - 0xAC00) % 588 / 28) v)

/-- A word (a run of syllables) of the text begins with such a syllable. -/
def BreaksLaw (cs : List Char) : Prop :=
  ∃ pre c post, cs = pre ++ c :: post ∧ (∀ d ∈ pre.getLast?, isSyl d.toNat = false) ∧ barred c.toNat = true

/-- Ranges of KS X 1001: 女 to 寗, 尿, 杻 and 紐, 尼 to 溺, 喇 to 粒; and 拏, 諾, 怒, 樂, 異, which do not stand with readings of
that kind. -/
def barredRanges : List (Nat × Nat) :=
  [(0xD2B3, 0xD2BC), (0xD2E3, 0xD2E3), (0xD2EE, 0xD2EF), (0xD2F9, 0xD2FC), (0xD4FA, 0xD8A3),
    (0xD1D9, 0xD1D9), (0xD1E7, 0xD1E7), (0xD2C1, 0xD2C1), (0xE4C5, 0xE4C5), (0xECB6, 0xECB6)]

def inBarredRange (code : Nat) : Bool := barredRanges.any fun r => Nat.ble r.1 code && Nat.ble code r.2

end Spec
