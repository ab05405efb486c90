import Verif.Go.Basic
/-
Go's UTF-8 routines (package unicode/utf8 and the string/[]rune conversions of the language).
Standard-library semantics, not code of /repo. `Verif.Lemmas.Utf8` proves that they agree with Lean's own
`String.utf8EncodeChar` on Unicode scalar values.
-/
namespace Go

/-- `utf8.RuneError`, U+FFFD. -/
def RuneError : Rune := 0xFFFD

/-- The bytes `utf8.EncodeRune(p, r)` writes (also one step of `string([]rune)`): negative runes,
surrogates and runes above U+10FFFF are written as U+FFFD.
Used by appendRune (encoding/cp949/cp949.go:150) and hanja/hanja.go:18. -/
def encodeRune (r : Rune) : Str :=
  let i := r.toUInt32.toNat
  if i ≤ 0x7F then [UInt8.ofNat i]
  else if i ≤ 0x7FF then [UInt8.ofNat (0xC0 + i / 64), UInt8.ofNat (0x80 + i % 64)]
  else if 0x10FFFF < i ∨ (0xD800 ≤ i ∧ i ≤ 0xDFFF) then [0xEF, 0xBF, 0xBD]
  else if i ≤ 0xFFFF then
    [UInt8.ofNat (0xE0 + i / 4096), UInt8.ofNat (0x80 + i / 64 % 64), UInt8.ofNat (0x80 + i % 64)]
  else
    [UInt8.ofNat (0xF0 + i / 262144), UInt8.ofNat (0x80 + i / 4096 % 64),
      UInt8.ofNat (0x80 + i / 64 % 64), UInt8.ofNat (0x80 + i % 64)]

/-- Table `first`/`acceptRanges` of unicode/utf8 for a first byte `p0 ≥ 0x80`:
sequence length and the permitted range of the second byte; `none` for an illegal first byte. -/
def firstInfo (p0 : Nat) : Option (Nat × Nat × Nat) :=
  if p0 < 0xC2 then none
  else if p0 < 0xE0 then some (2, 0x80, 0xBF)
  else if p0 = 0xE0 then some (3, 0xA0, 0xBF)
  else if p0 = 0xED then some (3, 0x80, 0x9F)
  else if p0 < 0xF0 then some (3, 0x80, 0xBF)
  else if p0 = 0xF0 then some (4, 0x90, 0xBF)
  else if p0 < 0xF4 then some (4, 0x80, 0xBF)
  else if p0 = 0xF4 then some (4, 0x80, 0x8F)
  else none

/-- `utf8.DecodeRune(p)`: the first rune of `p` as a code point and its width in bytes;
(U+FFFD, 1) for an illegal or truncated sequence, (U+FFFD, 0) for empty input.
Also one step of `[]rune(string)`. Used at cp949.go:83, hangul.go:88, hanja/hanja.go:9. -/
def decodeCode (p : Str) : Nat × Nat :=
  match p with
  | [] => (0xFFFD, 0)
  | p0 :: rest =>
    if p0.toNat < 0x80 then (p0.toNat, 1)
    else
      match firstInfo p0.toNat with
      | none => (0xFFFD, 1)
      | some (sz, lo, hi) =>
        if p.length < sz then (0xFFFD, 1)
        else
          match rest with
          | [] => (0xFFFD, 1)
          | b1 :: rest =>
            if b1.toNat < lo ∨ hi < b1.toNat then (0xFFFD, 1)
            else if sz ≤ 2 then (p0.toNat % 32 * 64 + b1.toNat % 64, 2)
            else
              match rest with
              | [] => (0xFFFD, 1)
              | b2 :: rest =>
                if b2.toNat < 0x80 ∨ 0xBF < b2.toNat then (0xFFFD, 1)
                else if sz ≤ 3 then
                  (p0.toNat % 16 * 4096 + b1.toNat % 64 * 64 + b2.toNat % 64, 3)
                else
                  match rest with
                  | [] => (0xFFFD, 1)
                  | b3 :: _ =>
                    if b3.toNat < 0x80 ∨ 0xBF < b3.toNat then (0xFFFD, 1)
                    else (p0.toNat % 8 * 262144 + b1.toNat % 64 * 4096 + b2.toNat % 64 * 64
                            + b3.toNat % 64, 4)

/-- `r, size := utf8.DecodeRune(p)`. -/
def DecodeRune (p : Str) : Rune × Nat :=
  (Int32.ofNat (decodeCode p).1, (decodeCode p).2)

/-- Loop of `[]rune(s)`: decode a rune, drop its bytes, repeat. `fuel` only serves to make the
recursion structural; every round consumes at least one byte (`Go.runes_cons`). -/
def runesLoop : (fuel : Nat) → Str → List Rune
  | 0, _ => []
  | fuel + 1, s =>
    if s.isEmpty then []
    else (DecodeRune s).1 :: runesLoop fuel (s.drop (DecodeRune s).2)

/-- `[]rune(s)`. Used at hangul.go:88 and hanja/hanja.go:9. -/
def runes (s : Str) : List Rune := runesLoop s.length s

/-- `string(rs)` for `rs []rune`. Used at hanja/hanja.go:18. -/
def ofRunes (rs : List Rune) : Str := rs.flatMap encodeRune

end Go
