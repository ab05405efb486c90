import Verif.Go.Utf8
import Verif.Spec.Text
namespace Go
open Spec

theorem toNat_ofNat8 (n : Nat) : (UInt8.ofNat n).toNat = n % 256 := by
  simp [UInt8.toNat_ofNat']

theorem char_valid (c : Char) : c.toNat < 0xD800 ∨ (0xDFFF < c.toNat ∧ c.toNat < 0x110000) := c.valid

theorem char_lt (c : Char) : c.toNat < 0x110000 := by have := char_valid c; omega

theorem toUInt32_ofNat (n : Nat) (h : n < 4294967296) : (Int32.ofNat n).toUInt32.toNat = n := by
  have : (Int32.ofNat n).toUInt32 = UInt32.ofNat n := rfl
  rw [this, UInt32.toNat_ofNat']
  omega

/-- Go's `EncodeRune` is Lean's UTF-8 encoder on characters. -/
theorem encodeRune_runeOf (c : Char) : encodeRune (runeOf c) = String.utf8EncodeChar c := by
  have hv := char_valid c
  have hc : c.val.toNat = c.toNat := rfl
  unfold encodeRune runeOf String.utf8EncodeChar
  simp only [toUInt32_ofNat c.toNat (by omega), hc]
  generalize c.toNat = v at *
  by_cases h1 : v ≤ 0x7F
  · simp [h1]
  · by_cases h2 : v ≤ 0x7FF
    · simp only [h1, h2, if_true, if_false]
      congr 1
      · congr 1; omega
      · congr 2; omega
    · by_cases h3 : v ≤ 0xFFFF
      · rw [if_neg h1, if_neg h1, if_neg h2, if_neg h2, if_neg (by omega), if_pos h3, if_pos h3]
        congr 1
        · congr 1; omega
        · congr 1
          · congr 1; omega
          · congr 2; omega
      · rw [if_neg h1, if_neg h1, if_neg h2, if_neg h2, if_neg (by omega), if_neg h3, if_neg h3]
        congr 1
        · congr 1; omega
        · congr 1
          · congr 1; omega
          · congr 1
            · congr 1; omega
            · congr 2; omega

theorem ofRunes_map (cs : List Char) : ofRunes (cs.map runeOf) = utf8 cs := by
  simp [ofRunes, utf8, List.flatMap_map, encodeRune_runeOf]

theorem firstInfo_none {p : Nat} (h : p < 0xC2) : firstInfo p = none := by
  unfold firstInfo; rw [if_pos h]
theorem firstInfo_two {p : Nat} (h : 0xC2 ≤ p) (h' : p < 0xE0) :
    firstInfo p = some (2, 0x80, 0xBF) := by
  unfold firstInfo; rw [if_neg (by omega), if_pos h']
theorem firstInfo_three {p : Nat} (h : 0xE0 ≤ p) (h' : p < 0xF0) :
    firstInfo p = some (3, if p = 0xE0 then 0xA0 else 0x80, if p = 0xED then 0x9F else 0xBF) := by
  unfold firstInfo
  rw [if_neg (by omega), if_neg (by omega)]
  by_cases h1 : p = 0xE0
  · subst h1; rfl
  · by_cases h2 : p = 0xED
    · subst h2; rfl
    · rw [if_neg h1, if_neg h2, if_pos h', if_neg h1, if_neg h2]
theorem firstInfo_four {p : Nat} (h : 0xF0 ≤ p) (h' : p < 0xF5) :
    firstInfo p = some (4, if p = 0xF0 then 0x90 else 0x80, if p = 0xF4 then 0x8F else 0xBF) := by
  have : p = 0xF0 ∨ p = 0xF1 ∨ p = 0xF2 ∨ p = 0xF3 ∨ p = 0xF4 := by omega
  rcases this with rfl | rfl | rfl | rfl | rfl <;> rfl

/-- Decoding what was encoded, whatever follows. -/
theorem decodeCode_char (c : Char) (s : Str) :
    decodeCode (String.utf8EncodeChar c ++ s) = (c.toNat, (String.utf8EncodeChar c).length) := by
  have hv := char_valid c
  have hc : c.val.toNat = c.toNat := rfl
  unfold String.utf8EncodeChar
  simp only [hc]
  generalize c.toNat = v at *
  by_cases h1 : v ≤ 0x7F
  · rw [if_pos h1]
    simp only [decodeCode, List.cons_append, List.nil_append, toNat_ofNat8, List.length_cons,
      List.length_nil]
    rw [if_pos (by omega)]
    congr 1
    omega
  · by_cases h2 : v ≤ 0x7FF
    · rw [if_neg h1, if_pos h2]
      simp only [decodeCode, List.cons_append, List.nil_append, toNat_ofNat8, List.length_cons,
        List.length_nil]
      rw [if_neg (by omega), firstInfo_two (by omega) (by omega)]
      simp only
      rw [if_neg (by omega), if_neg (by omega), if_pos (by omega)]
      congr 1
      omega
    · by_cases h3 : v ≤ 0xFFFF
      · rw [if_neg h1, if_neg h2, if_pos h3]
        simp only [decodeCode, List.cons_append, List.nil_append, toNat_ofNat8, List.length_cons,
          List.length_nil]
        rw [if_neg (by omega), firstInfo_three (by omega) (by omega)]
        simp only
        rw [if_neg (by omega), if_neg (by split <;> split <;> omega), if_neg (by omega),
          if_neg (by omega), if_pos (by omega)]
        congr 1
        omega
      · rw [if_neg h1, if_neg h2, if_neg h3]
        simp only [decodeCode, List.cons_append, List.nil_append, toNat_ofNat8, List.length_cons,
          List.length_nil]
        rw [if_neg (by omega), firstInfo_four (by omega) (by omega)]
        simp only
        rw [if_neg (by omega), if_neg (by split <;> split <;> omega), if_neg (by omega),
          if_neg (by omega), if_neg (by omega), if_neg (by omega)]
        congr 1
        omega

/-- The character with a given scalar value. -/
theorem exists_char {v : Nat} (h : v < 0xD800 ∨ (0xDFFF < v ∧ v < 0x110000)) :
    ∃ c : Char, c.toNat = v := by
  have hv : v.isValidChar := h
  refine ⟨Char.ofNatAux v hv, ?_⟩
  have : v < 4294967296 := by omega
  simp [Char.ofNatAux, Char.toNat]

theorem byte_eq {b : Byte} {n : Nat} (h : b.toNat = n) : UInt8.ofNat n = b := by
  subst h; simp

theorem encode_one {c : Char} (h : c.toNat ≤ 0x7F) :
    String.utf8EncodeChar c = [UInt8.ofNat c.toNat] := by
  have hc : c.val.toNat = c.toNat := rfl
  unfold String.utf8EncodeChar; simp only [hc]; rw [if_pos h]
theorem encode_two {c : Char} (h : 0x7F < c.toNat) (h' : c.toNat ≤ 0x7FF) :
    String.utf8EncodeChar c =
      [UInt8.ofNat (0xC0 + c.toNat / 64), UInt8.ofNat (0x80 + c.toNat % 64)] := by
  have hc : c.val.toNat = c.toNat := rfl
  unfold String.utf8EncodeChar; simp only [hc]; rw [if_neg (by omega), if_pos h']
  congr 1
  · congr 1; omega
  · congr 2; omega
theorem encode_three {c : Char} (h : 0x7FF < c.toNat) (h' : c.toNat ≤ 0xFFFF) :
    String.utf8EncodeChar c =
      [UInt8.ofNat (0xE0 + c.toNat / 4096), UInt8.ofNat (0x80 + c.toNat / 64 % 64),
        UInt8.ofNat (0x80 + c.toNat % 64)] := by
  have hc : c.val.toNat = c.toNat := rfl
  unfold String.utf8EncodeChar; simp only [hc]; rw [if_neg (by omega), if_neg (by omega), if_pos h']
  congr 1
  · congr 1; omega
  · congr 1
    · congr 1; omega
    · congr 2; omega
theorem encode_four {c : Char} (h : 0xFFFF < c.toNat) :
    String.utf8EncodeChar c =
      [UInt8.ofNat (0xF0 + c.toNat / 262144), UInt8.ofNat (0x80 + c.toNat / 4096 % 64),
        UInt8.ofNat (0x80 + c.toNat / 64 % 64), UInt8.ofNat (0x80 + c.toNat % 64)] := by
  have hc : c.val.toNat = c.toNat := rfl
  have := char_lt c
  unfold String.utf8EncodeChar; simp only [hc]
  rw [if_neg (by omega), if_neg (by omega), if_neg (by omega)]
  congr 1
  · congr 1; omega
  · congr 1
    · congr 1; omega
    · congr 1
      · congr 1; omega
      · congr 2; omega

theorem byte_lt (b : Byte) : b.toNat < 256 := UInt8.toNat_lt b

/-- Inversion of decoding: either the input starts with the encoding of a character, or the
answer is (U+FFFD, 1). -/
theorem decodeCode_inv (b : Byte) (p : Str) :
    (∃ c rest, b :: p = String.utf8EncodeChar c ++ rest) ∨ decodeCode (b :: p) = (0xFFFD, 1) := by
  have hb := byte_lt b
  by_cases h1 : b.toNat < 0x80
  · left
    obtain ⟨c, hc⟩ := exists_char (v := b.toNat) (by omega)
    refine ⟨c, p, ?_⟩
    rw [encode_one (by omega), byte_eq hc.symm]; rfl
  · by_cases h2 : b.toNat < 0xC2
    · right; simp [decodeCode, h1, firstInfo_none h2]
    · by_cases h3 : b.toNat < 0xE0
      · simp only [decodeCode, if_neg h1, firstInfo_two (by omega) h3]
        cases p with
        | nil => right; simp
        | cons b1 p =>
          have hb1 := byte_lt b1
          by_cases g1 : b1.toNat < 0x80 ∨ 0xBF < b1.toNat
          · right; simp [g1]
          · left
            obtain ⟨c, hc⟩ := exists_char (v := b.toNat % 32 * 64 + b1.toNat % 64) (by omega)
            refine ⟨c, p, ?_⟩
            rw [encode_two (by omega) (by omega), byte_eq (b := b) (by omega),
              byte_eq (b := b1) (by omega)]; rfl
      · by_cases h4 : b.toNat < 0xF0
        · simp only [decodeCode, if_neg h1, firstInfo_three (by omega) h4]
          rcases p with _ | ⟨b1, _ | ⟨b2, p⟩⟩
          · right; simp
          · right; simp
          · have hb1 := byte_lt b1
            have hb2 := byte_lt b2
            by_cases g1 : b1.toNat < (if b.toNat = 0xE0 then 0xA0 else 0x80) ∨
                (if b.toNat = 0xED then 0x9F else 0xBF) < b1.toNat
            · right; simp [g1]
            · by_cases g2 : b2.toNat < 0x80 ∨ 0xBF < b2.toNat
              · right; simp [g1, g2]
              · left
                have g1' : (0xE0 = b.toNat → 0xA0 ≤ b1.toNat) ∧ 0x80 ≤ b1.toNat ∧
                    (0xED = b.toNat → b1.toNat ≤ 0x9F) ∧ b1.toNat ≤ 0xBF := by
                  split at g1 <;> split at g1 <;> omega
                clear g1
                obtain ⟨c, hc⟩ := exists_char
                  (v := b.toNat % 16 * 4096 + b1.toNat % 64 * 64 + b2.toNat % 64) (by omega)
                refine ⟨c, p, ?_⟩
                rw [encode_three (by omega) (by omega), byte_eq (b := b) (by omega),
                  byte_eq (b := b1) (by omega), byte_eq (b := b2) (by omega)]; rfl
        · by_cases h5 : b.toNat < 0xF5
          · simp only [decodeCode, if_neg h1, firstInfo_four (by omega) h5]
            rcases p with _ | ⟨b1, _ | ⟨b2, _ | ⟨b3, p⟩⟩⟩
            · right; simp
            · right; simp
            · right; simp
            · have hb1 := byte_lt b1
              have hb2 := byte_lt b2
              have hb3 := byte_lt b3
              by_cases g1 : b1.toNat < (if b.toNat = 0xF0 then 0x90 else 0x80) ∨
                  (if b.toNat = 0xF4 then 0x8F else 0xBF) < b1.toNat
              · right; simp [g1]
              · by_cases g2 : b2.toNat < 0x80 ∨ 0xBF < b2.toNat
                · right; simp [g1, g2]
                · by_cases g3 : b3.toNat < 0x80 ∨ 0xBF < b3.toNat
                  · right; simp [g1, g2, g3]
                  · left
                    have g1' : (0xF0 = b.toNat → 0x90 ≤ b1.toNat) ∧ 0x80 ≤ b1.toNat ∧
                        (0xF4 = b.toNat → b1.toNat ≤ 0x8F) ∧ b1.toNat ≤ 0xBF := by
                      split at g1 <;> split at g1 <;> omega
                    clear g1
                    obtain ⟨c, hc⟩ := exists_char
                      (v := b.toNat % 8 * 262144 + b1.toNat % 64 * 4096 + b2.toNat % 64 * 64
                        + b3.toNat % 64) (by omega)
                    refine ⟨c, p, ?_⟩
                    rw [encode_four (by omega), byte_eq (b := b) (by omega),
                      byte_eq (b := b1) (by omega), byte_eq (b := b2) (by omega),
                      byte_eq (b := b3) (by omega)]; rfl
          · right
            have : firstInfo b.toNat = none := by
              unfold firstInfo
              rw [if_neg (by omega), if_neg (by omega), if_neg (by omega), if_neg (by omega),
                if_neg (by omega), if_neg (by omega), if_neg (by omega), if_neg (by omega)]
            simp [decodeCode, h1, this]

theorem utf8EncodeChar_length (c : Char) :
    0 < (String.utf8EncodeChar c).length ∧ (String.utf8EncodeChar c).length ≤ 4 := by
  by_cases h1 : c.toNat ≤ 0x7F
  · rw [encode_one h1]; simp
  · by_cases h2 : c.toNat ≤ 0x7FF
    · rw [encode_two (by omega) h2]; simp
    · by_cases h3 : c.toNat ≤ 0xFFFF
      · rw [encode_three (by omega) h3]; simp
      · rw [encode_four (by omega)]; simp

/-- What is decoded is always a Unicode scalar value, and the width is between 1 and the
length of the input. -/
theorem decodeCode_valid (b : Byte) (p : Str) :
    (∃ c : Char, (decodeCode (b :: p)).1 = c.toNat) ∧ 0 < (decodeCode (b :: p)).2 ∧
      (decodeCode (b :: p)).2 ≤ (b :: p).length := by
  rcases decodeCode_inv b p with ⟨c, rest, h⟩ | h
  · rw [h, decodeCode_char]
    refine ⟨⟨c, rfl⟩, (utf8EncodeChar_length c).1, ?_⟩
    simp
  · rw [h]
    refine ⟨?_, by simp, by simp⟩
    obtain ⟨c, hc⟩ := exists_char (v := 0xFFFD) (by omega)
    exact ⟨c, hc.symm⟩

/-! ### `[]rune(s)` -/

theorem runesLoop_fuel (n m : Nat) (s : Str) (hn : s.length ≤ n) (hm : s.length ≤ m) :
    runesLoop n s = runesLoop m s := by
  induction n generalizing m s with
  | zero =>
    have : s = [] := List.length_eq_zero_iff.1 (by omega)
    subst this
    cases m <;> rfl
  | succ n ih =>
    cases s with
    | nil => cases m <;> rfl
    | cons b p =>
      cases m with
      | zero => simp at hm
      | succ m =>
        have hw := (decodeCode_valid b p).2.1
        simp only [List.length_cons] at hn hm
        simp only [runesLoop, List.isEmpty_cons, Bool.false_eq_true, if_false]
        congr 1
        apply ih
        · simp only [DecodeRune, List.length_drop, List.length_cons]; omega
        · simp only [DecodeRune, List.length_drop, List.length_cons]; omega

theorem runes_nil : runes [] = [] := rfl

theorem runes_cons (b : Byte) (p : Str) :
    runes (b :: p) =
      Int32.ofNat (decodeCode (b :: p)).1 :: runes ((b :: p).drop (decodeCode (b :: p)).2) := by
  have hw := (decodeCode_valid b p).2.1
  unfold runes
  rw [List.length_cons]
  simp only [runesLoop, List.isEmpty_cons, Bool.false_eq_true, if_false]
  show _ :: _ = _ :: _
  congr 1
  apply runesLoop_fuel
  · simp only [DecodeRune, List.length_drop, List.length_cons]; omega
  · exact Nat.le_refl _

theorem runes_char (c : Char) (s : Str) :
    runes (String.utf8EncodeChar c ++ s) = runeOf c :: runes s := by
  have hl := (utf8EncodeChar_length c).1
  cases he : String.utf8EncodeChar c ++ s with
  | nil => simp at he
  | cons b p =>
    rw [runes_cons, ← he, decodeCode_char]
    simp only [List.drop_left]
    rfl

theorem runes_utf8_append (cs : List Char) (s : Str) :
    runes (utf8 cs ++ s) = cs.map runeOf ++ runes s := by
  induction cs with
  | nil => rfl
  | cons c cs ih =>
    simp only [utf8, List.flatMap_cons, List.append_assoc] at *
    rw [runes_char, ih]; rfl

theorem runes_utf8 (cs : List Char) : runes (utf8 cs) = cs.map runeOf := by
  have := runes_utf8_append cs []
  simpa [runes_nil] using this

/-- The character an error decodes to. -/
def fffd : Char := Char.ofNat 0xFFFD

theorem fffd_toNat : fffd.toNat = 0xFFFD := by decide

/-- One step of decoding arbitrary bytes. -/
theorem runes_step (b : Byte) (p : Str) :
    (∃ c rest, b :: p = String.utf8EncodeChar c ++ rest ∧ runes (b :: p) = runeOf c :: runes rest) ∨
    (decodeCode (b :: p) = (0xFFFD, 1) ∧ runes (b :: p) = runeOf fffd :: runes p) := by
  rcases decodeCode_inv b p with ⟨c, rest, h⟩ | h
  · left; exact ⟨c, rest, h, by rw [h, runes_char]⟩
  · right; refine ⟨h, ?_⟩; rw [runes_cons, h]; rfl

/-- Induction over the decoding of a byte string. -/
theorem decode_induction {P : Str → Prop} (h0 : P [])
    (hc : ∀ c rest, P rest → P (String.utf8EncodeChar c ++ rest))
    (he : ∀ b p, decodeCode (b :: p) = (0xFFFD, 1) → P p → P (b :: p)) (s : Str) : P s := by
  generalize hn : s.length = n
  induction n using Nat.strongRecOn generalizing s with
  | _ n ih =>
    cases s with
    | nil => exact h0
    | cons b p =>
      simp only [List.length_cons] at hn
      rcases decodeCode_inv b p with ⟨c, rest, h⟩ | h
      · rw [h]
        apply hc
        have hl := congrArg List.length h
        have := (utf8EncodeChar_length c).1
        simp only [List.length_cons, List.length_append] at hl
        exact ih rest.length (by omega) rest rfl
      · exact he b p h (ih p.length (by omega) p rfl)

/-- `[]rune(s)` is always a list of Unicode scalar values. -/
theorem runes_chars (s : Str) : ∃ cs : List Char, runes s = cs.map runeOf := by
  induction s using decode_induction with
  | h0 => exact ⟨[], rfl⟩
  | hc c rest ih =>
    obtain ⟨cs, h⟩ := ih
    exact ⟨c :: cs, by rw [runes_char, h]; rfl⟩
  | he b p h ih =>
    obtain ⟨cs, h'⟩ := ih
    refine ⟨fffd :: cs, ?_⟩
    rw [runes_cons, h]
    simp only [List.drop_succ_cons, List.drop_zero, List.map_cons, h']
    rfl

/-! ### Appending at a boundary -/

/-- Every byte of an encoding but the first is a continuation byte. -/
theorem utf8EncodeChar_tail (c : Char) :
    ∀ b ∈ (String.utf8EncodeChar c).tail, 0x80 ≤ b.toNat ∧ b.toNat ≤ 0xBF := by
  have hlt := char_lt c
  intro b hb
  by_cases h1 : c.toNat ≤ 0x7F
  · rw [encode_one h1] at hb; simp at hb
  · by_cases h2 : c.toNat ≤ 0x7FF
    · rw [encode_two (by omega) h2] at hb
      simp only [List.tail_cons, List.mem_cons, List.not_mem_nil, or_false] at hb
      subst hb
      simp only [UInt8.toNat_ofNat']; omega
    · by_cases h3 : c.toNat ≤ 0xFFFF
      · rw [encode_three (by omega) h3] at hb
        simp only [List.tail_cons, List.mem_cons, List.not_mem_nil, or_false] at hb
        rcases hb with hb | hb <;> subst hb <;> simp only [UInt8.toNat_ofNat'] <;> omega
      · rw [encode_four (by omega)] at hb
        simp only [List.tail_cons, List.mem_cons, List.not_mem_nil, or_false] at hb
        rcases hb with hb | hb | hb <;> subst hb <;> simp only [UInt8.toNat_ofNat'] <;> omega

/-- The first byte of an encoding is not a continuation byte. -/
theorem boundary_char (c : Char) (s : Str) : Boundary (String.utf8EncodeChar c ++ s) := by
  have hlt := char_lt c
  by_cases h1 : c.toNat ≤ 0x7F
  · rw [encode_one h1]
    intro b t h; simp only [List.cons_append, List.cons.injEq] at h; rw [← h.1]
    simp only [UInt8.toNat_ofNat']; omega
  · by_cases h2 : c.toNat ≤ 0x7FF
    · rw [encode_two (by omega) h2]
      intro b t h; simp only [List.cons_append, List.cons.injEq] at h; rw [← h.1]
      simp only [UInt8.toNat_ofNat']; omega
    · by_cases h3 : c.toNat ≤ 0xFFFF
      · rw [encode_three (by omega) h3]
        intro b t h; simp only [List.cons_append, List.cons.injEq] at h; rw [← h.1]
        simp only [UInt8.toNat_ofNat']; omega
      · rw [encode_four (by omega)]
        intro b t h; simp only [List.cons_append, List.cons.injEq] at h; rw [← h.1]
        simp only [UInt8.toNat_ofNat']; omega

theorem boundary_utf8 (cs : List Char) : Boundary (utf8 cs) := by
  cases cs with
  | nil => simp [Boundary, utf8]
  | cons c cs =>
    simp only [utf8, List.flatMap_cons]
    exact boundary_char c _

theorem decode_err_append (b : Byte) (p s : Str) (hs : Boundary s)
    (h : decodeCode (b :: p) = (0xFFFD, 1)) : decodeCode (b :: (p ++ s)) = (0xFFFD, 1) := by
  rcases decodeCode_inv b (p ++ s) with ⟨c, rest, h'⟩ | h'
  · exfalso
    rw [← List.cons_append, List.append_eq_append_iff] at h'
    rcases h' with ⟨as, h1, h2⟩ | ⟨bs, h1, h2⟩
    · cases as with
      | nil =>
        rw [List.append_nil] at h1
        have hd := decodeCode_char c []
        rw [List.append_nil, h1, h] at hd
        simp only [Prod.mk.injEq] at hd
        have h3 := encode_three (c := c) (by omega) (by omega)
        rw [h1] at h3
        rw [h3] at hd
        simp at hd
      | cons a as =>
        have ht := utf8EncodeChar_tail c a (by rw [h1]; simp)
        exact hs a _ (by rw [h2]; rfl) ht
    · have hd := decodeCode_char c bs
      rw [← h1, h] at hd
      simp only [Prod.mk.injEq] at hd
      have h3 := encode_three (c := c) (by omega) (by omega)
      rw [h3] at hd
      simp at hd
  · exact h'

/-- Decoding distributes over concatenation when the second part does not begin in the
middle of a character. -/
theorem runes_append (w s : Str) (hs : Boundary s) : runes (w ++ s) = runes w ++ runes s := by
  induction w using decode_induction with
  | h0 => rfl
  | hc c rest ih => rw [List.append_assoc, runes_char, runes_char, ih]; rfl
  | he b p h ih =>
    rw [List.cons_append, runes_cons, runes_cons, decode_err_append b p s hs h, h]
    simp only [List.drop_succ_cons, List.drop_zero, ih, List.cons_append]

theorem runes_ne_nil (b : Byte) (p : Str) : runes (b :: p) ≠ [] := by
  rw [runes_cons]; simp

end Go
