import Verif.Props.Cp949
import Verif.Lemmas.Chart
/-! Property theorems C57–C59 (package cp949: layout of the code, against the standard). -/
namespace Cp949
open Go Spec

attribute [local irreducible] fromTable toTable rawFrom rawTo

/-! ## Helpers -/

theorem code_split {code : Nat} (h : code < 65536) :
    (UInt8.ofNat (code / 256)).toNat * 256 + (UInt8.ofNat (code % 256)).toNat = code := by
  rw [toNat_ofNat8, toNat_ofNat8]
  omega

theorem lt_byte (a b : Byte) : a < b ↔ a.toNat < b.toNat := UInt8.lt_iff_toNat_lt

theorem lt_char (a b : Char) : a < b ↔ a.toNat < b.toNat := by
  rw [Char.lt_def, UInt32.lt_iff_toNat_lt]
  rfl

theorem eq_char (a b : Char) : a = b ↔ a.toNat = b.toNat :=
  ⟨fun h => by rw [h], Char.toNat_inj.1⟩

theorem eq_byte (a b : Byte) : a = b ↔ a.toNat = b.toNat := UInt8.toNat_inj.symm

/-! ## C57 -/

/-- C57: the syllables are exactly on the positions of the two Hangul areas: every position there is decoded
to a syllable, and nothing else is. -/
theorem C57_areas (hi lo : Byte) (hh : 0x80 ≤ hi.toNat) :
    (KsCode (hi.toNat * 256 + lo.toNat) ∨ ExtCode (hi.toNat * 256 + lo.toNat)) ↔
      ∃ c : Char, (0xAC00 ≤ c.toNat ∧ c.toNat ≤ 0xD7A3) ∧ From [hi, lo] = (utf8 [c], none) := by
  constructor
  · intro h
    have : ∃ u, Chart (hi.toNat * 256 + lo.toNat) u := h.elim ks_full ext_full
    obtain ⟨u, hu⟩ := this
    have hs := (area_iff hu).2 h
    obtain ⟨c, rfl⟩ := exists_char (v := u) (by omega)
    exact ⟨c, hs, (C35_inverse hi lo c hh (by omega) (by omega)).1.2 hu⟩
  · rintro ⟨c, hs, h⟩
    exact (area_iff ((C35_inverse hi lo c hh (by omega) (by omega)).1.1 h)).1 hs

/-- C57: `To` writes every syllable on one of these positions. -/
theorem C57_syllables (c : Char) (h : 0xAC00 ≤ c.toNat ∧ c.toNat ≤ 0xD7A3) :
    ∃ hi lo : Byte, To (utf8 [c]) = ([hi, lo], none) ∧
      (KsCode (hi.toNat * 256 + lo.toNat) ∨ ExtCode (hi.toNat * 256 + lo.toNat)) := by
  obtain ⟨code, hc⟩ := exists_code h.1 h.2
  refine ⟨_, _, To_enc (enc_code hc .nil), ?_⟩
  rw [code_split (raw_lt hc).1]
  exact (area_iff hc).1 h

/-- C57: within each area the codes are in the order of the syllables. -/
theorem C57_order (hi lo hi' lo' : Byte) (c c' : Char)
    (h : To (utf8 [c]) = ([hi, lo], none)) (h' : To (utf8 [c']) = ([hi', lo'], none))
    (hs : 0xAC00 ≤ c.toNat ∧ c.toNat ≤ 0xD7A3) (hs' : 0xAC00 ≤ c'.toNat ∧ c'.toNat ≤ 0xD7A3)
    (ha : (KsCode (hi.toNat * 256 + lo.toNat) ∧ KsCode (hi'.toNat * 256 + lo'.toNat)) ∨
      (ExtCode (hi.toNat * 256 + lo.toNat) ∧ ExtCode (hi'.toNat * 256 + lo'.toNat))) :
    hi.toNat * 256 + lo.toNat < hi'.toNat * 256 + lo'.toNat ↔ c.toNat < c'.toNat := by
  have hl : 0x80 ≤ hi.toNat ∧ 0x80 ≤ hi'.toNat := by
    have := byte_lt lo
    have := byte_lt lo'
    unfold KsCode ExtCode at ha
    omega
  have h := (C35_inverse hi lo c hl.1 (by omega) (by omega)).2.1 h
  have h' := (C35_inverse hi' lo' c' hl.2 (by omega) (by omega)).2.1 h'
  rcases ha with ⟨h1, h2⟩ | ⟨h1, h2⟩
  · exact ks_order h h' h1 h2
  · exact ext_order h h' h1 h2

/-- Positions of both areas, and one of neither. -/
example : KsCode 0xB0A1 ∧ ExtCode 0x8141 ∧ ¬ (KsCode 0xC653 ∨ ExtCode 0xC653) := by
  refine ⟨?_, ?_, ?_⟩ <;> (simp only [KsCode, ExtCode]; decide)

/-! ## C58 -/

/-- ASCII or in the Hangul area of KS X 1001. -/
theorem enc_order {cs ds : List Char} {a b : Str} (h : Enc cs a) (h' : Enc ds b)
    (hc : ∀ c ∈ cs, c.toNat < 0x80 ∨ KsSyllable c) (hd : ∀ c ∈ ds, c.toNat < 0x80 ∨ KsSyllable c) :
    a < b ↔ cs < ds := by
  induction h generalizing ds b with
  | nil =>
    cases h' with
    | nil => simp
    | ascii _ _ _ => simp
    | pair _ _ => simp
  | @ascii x c cs a hx hxc _ ih =>
    cases h' with
    | nil => simp
    | @ascii y d ds b hy hyd h' =>
      have ih := ih h' (fun e he => hc e (List.mem_cons_of_mem _ he))
        (fun e he => hd e (List.mem_cons_of_mem _ he))
      rw [List.cons_lt_cons_iff, List.cons_lt_cons_iff, ih, lt_byte, lt_char, eq_byte, eq_char, hxc, hyd]
    | @pair hi lo d ds b hp h' =>
      have hr := code_range hp
      have hu := char_range hp
      have := byte_lt lo
      rw [List.cons_lt_cons_iff, List.cons_lt_cons_iff, lt_byte, lt_char, eq_byte, eq_char]
      omega
  | @pair hi lo c cs a hp _ ih =>
    have hr := code_range hp
    have hu := char_range hp
    have h1 := byte_lt lo
    cases h' with
    | nil => simp
    | @ascii y d ds b hy hyd h' =>
      rw [List.cons_lt_cons_iff, List.cons_lt_cons_iff, lt_byte, lt_char, eq_byte, eq_char]
      omega
    | @pair hi' lo' d ds b hp' h' =>
      have h2 := byte_lt lo'
      have hr' := code_range hp'
      have hu' := char_range hp'
      have ih := ih h' (fun e he => hc e (List.mem_cons_of_mem _ he))
        (fun e he => hd e (List.mem_cons_of_mem _ he))
      have k1 : KsCode (hi.toNat * 256 + lo.toNat) := by
        rcases hc c (List.mem_cons_self ..) with hk | ⟨code, hk, hk'⟩
        · exact absurd (Nat.lt_of_lt_of_le hk (Nat.le_trans (by decide) hu.1)) (Nat.lt_irrefl _)
        · rw [char_unique hp hk']; exact hk
      have k2 : KsCode (hi'.toNat * 256 + lo'.toNat) := by
        rcases hd d (List.mem_cons_self ..) with hk | ⟨code, hk, hk'⟩
        · exact absurd (Nat.lt_of_lt_of_le hk (Nat.le_trans (by decide) hu'.1)) (Nat.lt_irrefl _)
        · rw [char_unique hp' hk']; exact hk
      have ho := ks_order hp hp' k1 k2
      have ho' := ks_order hp' hp k2 k1
      rw [List.cons_lt_cons_iff, List.cons_lt_cons_iff, List.cons_lt_cons_iff, ih, lt_byte, lt_byte, lt_char,
        eq_byte, eq_byte, eq_char]
      constructor
      · rintro (h | ⟨h, h3 | ⟨h3, h4⟩⟩)
        · left; omega
        · left; omega
        · right; exact ⟨by omega, h4⟩
      · rintro (h | ⟨h, h4⟩)
        · omega
        · right; exact ⟨by omega, .inr ⟨by omega, h4⟩⟩

/-- C58: on texts of ASCII characters and syllables of KS X 1001 encoding keeps the dictionary order: the
CP949 strings compare byte by byte as the texts compare character by character. -/
theorem C58_sort_order (cs ds : List Char)
    (hc : ∀ c ∈ cs, c.toNat < 0x80 ∨ ∃ code, KsCode code ∧ Chart code c.toNat)
    (hd : ∀ c ∈ ds, c.toNat < 0x80 ∨ ∃ code, KsCode code ∧ Chart code c.toNat) :
    (To (utf8 cs)).1 < (To (utf8 ds)).1 ↔ cs < ds := by
  have rep : ∀ c : Char, (c.toNat < 0x80 ∨ ∃ code, KsCode code ∧ Chart code c.toNat) → InRepertoire c := by
    rintro c (h | ⟨code, _, h⟩)
    · exact .inl h
    · exact .inr ⟨code, h⟩
  obtain ⟨a, ha, ha', _⟩ := C28_roundtrip_unicode cs fun c h => rep c (hc c h)
  obtain ⟨b, hb, hb', _⟩ := C28_roundtrip_unicode ds fun c h => rep c (hd c h)
  rw [ha, hb]
  exact enc_order ha' hb' hc hd

/-- C58: with a syllable of the extension it does not: 각 precedes 갂, but 갂 is encoded as 8141 and 각 as
B0A2. -/
theorem C58_extension_differs :
    ['각'] < ['갂'] ∧ (To (utf8 ['갂'])).1 < (To (utf8 ['각'])).1 := by
  have h : Chart 0xB0A2 '각'.toNat ∧ Chart 0x8141 '갂'.toNat := by
    unfold Chart
    exact ⟨by decide +kernel, by decide +kernel⟩
  rw [To_enc (enc_code h.1 .nil), To_enc (enc_code h.2 .nil)]
  exact ⟨by decide, by decide⟩

example : ∀ c ∈ ['가', 'a', '나'], c.toNat < 0x80 ∨ ∃ code, KsCode code ∧ Chart code c.toNat := by
  intro c hc
  simp only [List.mem_cons, List.not_mem_nil, or_false] at hc
  rcases hc with rfl | rfl | rfl
  · exact .inr ⟨0xB0A1, by unfold KsCode; decide, by unfold Chart; decide +kernel⟩
  · exact .inl (by decide)
  · exact .inr ⟨0xB3AA, by unfold KsCode; decide, by unfold Chart; decide +kernel⟩

/-! ## C59 -/

theorem rows_char {r : Nat × Nat × Nat} (hr : r ∈ rows) {i : Nat} (hi : i < r.2.2) :
    ∃ c : Char, c.toNat = r.2.1 + i := by
  have := char_range (rows_mem hr hi)
  exact exists_char (v := r.2.1 + i) (by have := rows_bound hr hi; omega)

/-- C59: the rows of letters and signs are where the standard has them: in each of the runs listed in
`rows` the `i`-th code is decoded to the `i`-th character of the run, and that character is encoded as this
code. -/
theorem C59_rows (code u len i : Nat) (hr : (code, u, len) ∈ rows) (hi : i < len) :
    ∃ c : Char, c.toNat = u + i ∧
      From [UInt8.ofNat ((code + i) / 256), UInt8.ofNat ((code + i) % 256)] = (utf8 [c], none) ∧
      To (utf8 [c]) = ([UInt8.ofNat ((code + i) / 256), UInt8.ofNat ((code + i) % 256)], none) := by
  obtain ⟨c, hc⟩ := rows_char hr hi
  have h := rows_mem hr hi
  have hc : c.toNat = u + i := hc
  have h : Chart (code + i) (u + i) := h
  rw [← hc] at h
  have he := enc_code h .nil
  exact ⟨c, hc, From_enc he, To_enc he⟩

/-- The letter ㄱ is the first of its row. -/
example : (0xA4A1, 0x3131, 94) ∈ rows := by decide

end Cp949
