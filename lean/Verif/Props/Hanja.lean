import Verif.Lemmas.Hanja
/-! Property theorems C22–C27 (package hanja). -/
namespace Hanja
open Go Spec Hangul

/-! ## C22 -/

/-- C22: `IsHanja` holds exactly for the ideographs listed in the specification, over all 32-bit runes. -/
theorem C22_isHanja (c : Rune) : IsHanja c = true ↔ IsIdeograph c.toInt := isHanja_iff c

example : IsIdeograph (0x5927 : Rune).toInt ∧ ¬ IsIdeograph (0xAC00 : Rune).toInt := by decide  -- 大, 가

/-! ## C23 -/

theorem runeOf_toNat (c : Char) : (runeOf c).toInt = c.toNat := by
  have := char_lt c
  unfold runeOf
  rw [toInt_ofNat_lt (by omega)]

theorem runeOf_inj {c d : Char} (h : runeOf c = runeOf d) : c = d := by
  have h := congrArg Int32.toInt h
  rw [runeOf_toNat, runeOf_toNat] at h
  have h : c.toNat = d.toNat := by omega
  exact Char.ext (UInt32.toNat_inj.1 h)

theorem Convert_chars {h : Str} {cs ds : List Char} (hc : runes h = cs.map runeOf)
    (hd : (cs.map runeOf).map conv = ds.map runeOf) : Convert h = utf8 ds := by
  rw [Convert_eq, hc, hd, ofRunes_map]

/-- C23: the reading of a hanja is one syllable, which is not itself a hanja. -/
theorem C23_reading_syllable (c : Char) (h : IsHanja (runeOf c) = true) :
    ∃ d : Char, IsSyllable (runeOf d) ∧ IsHanja (runeOf d) = false ∧ Convert (utf8 [c]) = utf8 [d] := by
  unfold IsHanja at h
  obtain ⟨v, hv⟩ := Option.isSome_iff_exists.1 h
  have hs := lookup_syllable hv
  obtain ⟨d, hd⟩ := exists_char_of_syllable hs
  rw [← hd] at hs
  refine ⟨d, hs, not_hanja_of_syllable hs, ?_⟩
  apply Convert_chars (runes_utf8 [c])
  simp [conv, hv, hd]

/-- C23: every rune with `IsHanja` is a character, so the theorem covers all of them. -/
theorem C23_all_runes (r : Rune) (h : IsHanja r = true) : ∃ c : Char, r = runeOf c := by
  rw [isHanja_iff] at h
  unfold IsIdeograph at h
  simp only [List.mem_cons, List.not_mem_nil, or_false] at h
  obtain ⟨c, hc⟩ := exists_char (v := r.toInt.toNat) (by omega)
  refine ⟨c, ?_⟩
  unfold runeOf
  exact rune_eq_ofNat (by omega) (by omega)

/-- 大 is a hanja and 가 is not. -/
example : IsHanja (runeOf '大') = true ∧ IsHanja (runeOf '가') = false := by
  rw [Bool.eq_false_iff, ne_eq, C22_isHanja, C22_isHanja]; decide

/-! ## C24 -/

/-- C24: on every byte string `Convert` acts rune by rune: a fixed function `g` maps each hanja to
the syllable the table literal gives and every other rune to itself. -/
theorem C24_rune_by_rune : ∃ g : Rune → Rune,
    (∀ r, ¬ IsIdeograph r.toInt → g r = r) ∧
    (∀ r, IsIdeograph r.toInt → IsSyllable (g r)) ∧
    (∀ k v, (k, v) ∈ rawTable → g (cp k) = cp v) ∧
    (∀ h, runes (Convert h) = (runes h).map g) := by
  refine ⟨conv, ?_, ?_, ?_, ?_⟩
  · intro r h
    apply conv_of_not_hanja
    rw [Bool.eq_false_iff, ne_eq, isHanja_iff]; exact h
  · intro r h
    rw [← isHanja_iff] at h
    obtain ⟨v, hv⟩ := Option.isSome_iff_exists.1 h
    simp only [conv, hv, Option.getD_some]
    exact lookup_syllable hv
  · intro k v h
    have : mapGet table (cp k) = some (cp v) :=
      (lookup_iff _ _).2 (List.mem_map.2 ⟨(k, v), h, rfl⟩)
    simp [conv, this]
  · intro h
    obtain ⟨cs, hc⟩ := runes_chars h
    obtain ⟨ds, hd⟩ := conv_chars cs
    rw [Convert_chars hc hd, runes_utf8, hc, hd]

/-- C24: the number of runes is unchanged. -/
theorem C24_rune_count (h : Str) : (runes (Convert h)).length = (runes h).length := by
  obtain ⟨g, _, _, _, hg⟩ := C24_rune_by_rune
  rw [hg, List.length_map]

theorem encode_length_three {c : Char} (h1 : 0x7FF < c.toNat) (h2 : c.toNat ≤ 0xFFFF) :
    (String.utf8EncodeChar c).length = 3 := by
  rw [encode_three h1 h2]; rfl

theorem conv_length (c d : Char) (h : conv (runeOf c) = runeOf d) :
    (String.utf8EncodeChar d).length = (String.utf8EncodeChar c).length := by
  by_cases hh : IsHanja (runeOf c) = true
  · obtain ⟨v, hv⟩ := Option.isSome_iff_exists.1 hh
    have hs := lookup_syllable hv
    rw [conv, hv, Option.getD_some] at h
    rw [h] at hs
    unfold IsSyllable at hs
    rw [runeOf_toNat] at hs
    rw [isHanja_iff, runeOf_toNat] at hh
    unfold IsIdeograph at hh
    simp only [List.mem_cons, List.not_mem_nil, or_false] at hh
    rw [encode_length_three (c := c) (by omega) (by omega),
      encode_length_three (c := d) (by omega) (by omega)]
  · rw [conv_of_not_hanja (Bool.eq_false_iff.2 hh)] at h
    rw [runeOf_inj h]

/-- C24: for valid UTF-8 the number of bytes is unchanged. -/
theorem C24_byte_count (h : Str) (hv : IsUtf8 h) : (Convert h).length = h.length := by
  obtain ⟨cs, rfl⟩ := hv
  obtain ⟨ds, hd⟩ := conv_chars cs
  rw [Convert_chars (runes_utf8 cs) hd]
  induction cs generalizing ds with
  | nil =>
    have : ds = [] := by simpa using hd.symm
    rw [this]
  | cons c cs ih =>
    cases ds with
    | nil => simp at hd
    | cons d ds =>
      simp only [List.map_cons, List.cons.injEq] at hd
      simp only [utf8, List.flatMap_cons, List.length_append] at *
      rw [conv_length c d hd.1, ih ds hd.2]

/-- 大 becomes 대. -/
example : Convert (utf8 ['大']) = utf8 ['대'] := by
  have hm : (rawTable.any fun e => Nat.beq e.1 0x5927 && Nat.beq e.2 0xB300) = true := by
    decide +kernel
  obtain ⟨⟨a, b⟩, he, h⟩ := List.any_eq_true.1 hm
  simp only [Bool.and_eq_true, Nat.beq_eq] at h
  obtain ⟨rfl, rfl⟩ := h
  have : mapGet table (runeOf '大') = some (runeOf '대') :=
    (lookup_iff _ _).2 (List.mem_map.2 ⟨_, he, rfl⟩)
  exact Convert_chars (runes_utf8 ['大']) (by simp [conv, this])

/-- A valid string with a hanja in it. -/
example : IsUtf8 (utf8 ['大', '韓', 'x']) := ⟨_, rfl⟩

/-! ## C25 -/

/-- C25: the result is valid UTF-8, has no hanja left, and a second conversion does nothing; for
every byte string. -/
theorem C25_idempotent (h : Str) :
    IsUtf8 (Convert h) ∧ (∀ r ∈ runes (Convert h), IsHanja r = false) ∧
    Convert (Convert h) = Convert h := by
  obtain ⟨cs, hc⟩ := runes_chars h
  obtain ⟨ds, hd⟩ := conv_chars cs
  have e := Convert_chars hc hd
  have hr : ∀ r ∈ ds.map runeOf, IsHanja r = false := by
    rw [← hd]
    intro r hr
    obtain ⟨a, _, rfl⟩ := List.mem_map.1 hr
    exact conv_not_hanja a
  refine ⟨⟨ds, e⟩, ?_, ?_⟩
  · rw [e, runes_utf8]; exact hr
  · rw [e]
    apply Convert_chars (runes_utf8 ds)
    have : (ds.map runeOf).map conv = (ds.map runeOf).map id :=
      List.map_congr_left fun r h => conv_of_not_hanja (hr r h)
    rw [this, List.map_id]

/-! ## C26 -/

/-- C26 is false of the code for byte strings that are not valid UTF-8: a stray byte is
replaced by the three bytes of U+FFFD. -/
theorem C26_untouched_fails :
    ¬ ∀ h : Str, (∀ r ∈ runes h, IsHanja r = false) → Convert h = h := by
  intro H
  have hr : runes [0xFF] = [0xFFFD] := by decide
  have hn : IsHanja 0xFFFD = false := by
    rw [Bool.eq_false_iff, ne_eq, isHanja_iff]; decide
  have := H [0xFF] (by rw [hr]; simpa using hn)
  rw [Convert_eq, hr, List.map_cons, conv_of_not_hanja hn] at this
  revert this
  decide

/-- C26, what holds (partial: the full property leaves out validity): a string is left untouched
exactly when it is valid UTF-8 without hanja. -/
theorem C26_untouched_partial (h : Str) :
    Convert h = h ↔ (IsUtf8 h ∧ ∀ r ∈ runes h, IsHanja r = false) := by
  constructor
  · intro e
    have := C25_idempotent h
    rw [e] at this
    exact ⟨this.1, this.2.1⟩
  · rintro ⟨⟨cs, rfl⟩, hr⟩
    apply Convert_chars (runes_utf8 cs)
    rw [runes_utf8] at hr
    have : (cs.map runeOf).map conv = (cs.map runeOf).map id :=
      List.map_congr_left fun r h => conv_of_not_hanja (hr r h)
    rw [this, List.map_id]

example : IsUtf8 (utf8 ['한']) ∧ ∀ r ∈ runes (utf8 ['한']), IsHanja r = false := by
  refine ⟨⟨_, rfl⟩, ?_⟩
  have : runes (utf8 ['한']) = [0xD55C] := by decide
  rw [this]
  intro r hr
  rw [Bool.eq_false_iff, ne_eq, isHanja_iff]
  simp only [List.mem_singleton] at hr
  subst hr
  decide

/-! ## C27 -/

/-- C27: conversion distributes over concatenation if the first part is valid UTF-8. -/
theorem C27_concat (a b : Str) (ha : IsUtf8 a) : Convert (a ++ b) = Convert a ++ Convert b := by
  obtain ⟨cs, rfl⟩ := ha
  rw [Convert_eq, Convert_eq, Convert_eq, runes_utf8_append, runes_utf8]
  simp [ofRunes]

/-- C27: also if the second part begins at a character boundary, whatever the first part. -/
theorem C27_concat_boundary (a b : Str) (hb : Boundary b) :
    Convert (a ++ b) = Convert a ++ Convert b := by
  rw [Convert_eq, Convert_eq, Convert_eq, runes_append a b hb]
  simp [ofRunes]

/-- The condition is needed: 大 cut after its first byte. -/
theorem C27_condition_needed :
    ∃ a b : Str, Convert (a ++ b) ≠ Convert a ++ Convert b := by
  refine ⟨[0xE5], [0xA4, 0xA7], ?_⟩
  intro e
  have e := congrArg runes e
  have h1 := C24_rune_count ([0xE5] ++ [0xA4, 0xA7])
  rw [e, Convert_eq [0xE5], Convert_eq [0xA4, 0xA7]] at h1
  have r1 : runes ([0xE5] : Str) = [0xFFFD] := by decide
  have r2 : runes ([0xA4, 0xA7] : Str) = [0xFFFD, 0xFFFD] := by decide
  have hn : IsHanja 0xFFFD = false := by
    rw [Bool.eq_false_iff, ne_eq, isHanja_iff]; decide
  rw [r1, r2] at h1
  simp only [List.map_cons, List.map_nil, conv_of_not_hanja hn] at h1
  revert h1
  decide

example : IsUtf8 (utf8 ['大']) ∧ Boundary (utf8 ['韓']) := ⟨⟨_, rfl⟩, boundary_utf8 _⟩

end Hanja
