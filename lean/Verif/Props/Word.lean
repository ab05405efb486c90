import Verif.Lemmas.Utf8
import Verif.Lemmas.Split
import Verif.Lemmas.Hangul
import Verif.Spec.Text
/-! Property theorems C18–C21 (package hangul: words). -/
namespace Hangul
open Go Spec

/-- A non-empty string has a last rune. -/
theorem runes_getLast?_isSome (b : Byte) (p : Str) : ((runes (b :: p)).getLast?).isSome := by
  cases h : runes (b :: p) with
  | nil => exact absurd h (runes_ne_nil b p)
  | cons r rs => simp [List.getLast?_cons]

/-- The last rune of anything followed by a character is that character. -/
theorem LastConsonant_char (w : Str) (c : Char) :
    LastConsonant (w ++ utf8 [c]) = (Split (runeOf c)).2.2 := by
  have hne : w ++ utf8 [c] ≠ [] := by
    have := (utf8EncodeChar_length c).1
    intro h
    have h := (List.append_eq_nil_iff.1 h).2
    simp only [utf8, List.flatMap_cons, List.flatMap_nil, List.append_nil] at h
    rw [h] at this
    simp at this
  unfold LastConsonant
  rw [if_neg hne, runes_append _ _ (boundary_utf8 _), runes_utf8]
  simp

theorem runeOf_syllable {c : Char} {i j k : Nat} (h : c.toNat = 0xAC00 + (i * 21 + j) * 28 + k) :
    runeOf c = syllable i j k := by
  unfold runeOf syllable; rw [h]

theorem runeOf_toInt (c : Char) : (runeOf c).toInt = c.toNat := by
  have := char_lt c
  unfold runeOf
  rw [toInt_ofNat_lt (by omega)]

theorem tailJamo_eq_zero {k : Nat} (hk : k < 28) : tailJamo k = 0 ↔ k = 0 :=
  (by decide : ∀ k, k < 28 → (tailJamo k = 0 ↔ k = 0)) k hk

theorem tailJamo_eq_L {k : Nat} (hk : k < 28) : tailJamo k = TailL ↔ k = 8 :=
  (by decide : ∀ k, k < 28 → (tailJamo k = TailL ↔ k = 8)) k hk

/-! ## C18 -/

/-- C18: after any bytes `w`, valid UTF-8 or not, a final syllable with trailing consonant number
`k` (0 for none) decides the answer. -/
theorem C18_last_consonant (w : Str) (c : Char) (i j k : Nat) (hi : i < 19) (hj : j < 21)
    (hk : k < 28) (hc : c.toNat = 0xAC00 + (i * 21 + j) * 28 + k) :
    LastConsonant (w ++ utf8 [c]) = tailJamo k ∧
    LastConsonant (w ++ utf8 [c]) = (Split (runeOf c)).2.2 := by
  rw [LastConsonant_char, runeOf_syllable hc, Split_syllable hi hj hk]
  exact ⟨rfl, rfl⟩

/-- C18, every syllable is such a `c`. -/
theorem C18_every_syllable (c : Char) (h : IsSyllable (runeOf c)) :
    ∃ i j k, i < 19 ∧ j < 21 ∧ k < 28 ∧ c.toNat = 0xAC00 + (i * 21 + j) * 28 + k := by
  obtain ⟨i, j, k, hi, hj, hk, e⟩ := exists_syllable h
  refine ⟨i, j, k, hi, hj, hk, ?_⟩
  have e := congrArg Int32.toInt e
  rw [runeOf_toInt, syllable_toInt hi hj hk] at e
  omega

/-- C18: the empty word. -/
theorem C18_empty : LastConsonant [] = 0 := rfl

/-- 강 = 0xAC00 + (0*21+0)*28 + 21, after a stray byte. -/
example : '강'.toNat = 0xAC00 + (0 * 21 + 0) * 28 + 21 ∧
    LastConsonant ([0xFF] ++ utf8 ['강']) = 0x11BC := by decide

/-! ## C19 -/

/-- C19 is false of the code: a word that does not end in a syllable may get a "consonant":
"abc" does. -/
theorem C19_zero_otherwise_fails :
    ¬ ∀ (cs : List Char) (c : Char), ¬ IsSyllable (runeOf c) →
      LastConsonant (utf8 (cs ++ [c])) = 0 ∧ EndsWithConsonant (utf8 (cs ++ [c])) = false := by
  intro h
  have := h ['a', 'b'] 'c' (by decide)
  revert this
  decide

theorem last_rune (s : Str) :
    s = [] ∨ (∃ w c, s = w ++ utf8 [c]) ∨ (runes s).getLast? = some (runeOf fffd) := by
  induction s using decode_induction with
  | h0 => left; rfl
  | hc c rest ih =>
    right
    rcases ih with h | ⟨w, c', h⟩ | h
    · left; exact ⟨[], c, by simp [h, utf8]⟩
    · left; exact ⟨String.utf8EncodeChar c ++ w, c', by rw [h, List.append_assoc]⟩
    · right
      rw [runes_char, List.getLast?_cons, h]; rfl
  | he b p hb ih =>
    right
    have hr : runes (b :: p) = runeOf fffd :: runes p := by rw [runes_cons, hb]; rfl
    rcases ih with h | ⟨w, c', h⟩ | h
    · right; rw [hr, h]; rfl
    · left; exact ⟨b :: w, c', by rw [h]; rfl⟩
    · right; rw [hr, List.getLast?_cons, h]; rfl

/-- C19, what holds (partial: the full property asks for 0 after every final character that is not
a syllable). The answer is 0 for the empty word; after a final character `c` it is 0
exactly when the distance of `c` from U+AC00 is a multiple of 28; a word that ends in
broken UTF-8 always gets U+11C0. -/
theorem C19_zero_partial (s : Str) :
    (s = [] → LastConsonant s = 0) ∧
    (∀ w c, s = w ++ utf8 [c] →
      (LastConsonant s = 0 ↔ (28 : Int) ∣ (c.toNat : Int) - 0xAC00)) ∧
    (s ≠ [] → (∀ w c, s ≠ w ++ utf8 [c]) → LastConsonant s = 0x11C0) := by
  refine ⟨?_, ?_, ?_⟩
  · rintro rfl; rfl
  · rintro w c rfl
    rw [LastConsonant_char]
    obtain ⟨d, hd, _, _, h⟩ := Split_toInt (runeOf c)
    have hl := char_lt c
    rw [runeOf_toInt, bmod_id (by omega) (by omega)] at hd
    rw [← Int32.toInt_inj]
    have hz : (0 : Rune).toInt = 0 := rfl
    rw [hz]
    rcases h with ⟨h0, _, _, h3⟩ | ⟨h0, _, _, h3⟩ <;> rw [h3] <;> split <;> omega
  · intro h1 h2
    rcases last_rune s with h | ⟨w, c, h⟩ | h
    · exact absurd h h1
    · exact absurd h (h2 w c)
    · unfold LastConsonant
      rw [if_neg h1, h]
      decide

/-- "d" is not a syllable and gets 0; "c" gets something else. -/
example : LastConsonant (utf8 ['d']) = 0 ∧ LastConsonant (utf8 ['c']) = 0x11A6 := by decide

/-! ## C20 -/

/-- C20: with a final syllable, `EndsWithConsonant` says whether it has a trailing consonant. -/
theorem C20_ends_with_consonant (w : Str) (c : Char) (i j k : Nat) (hi : i < 19) (hj : j < 21)
    (hk : k < 28) (hc : c.toNat = 0xAC00 + (i * 21 + j) * 28 + k) :
    EndsWithConsonant (w ++ utf8 [c]) = true ↔ k ≠ 0 := by
  unfold EndsWithConsonant
  rw [(C18_last_consonant w c i j k hi hj hk hc).1]
  have := tailJamo_eq_zero hk
  by_cases h : k = 0
  · rw [if_pos (this.2 h)]; simp [h]
  · rw [if_neg (by rw [this]; exact h)]; simp [h]

/-- C20: in general. -/
theorem C20_iff (s : Str) : EndsWithConsonant s = true ↔ LastConsonant s ≠ 0 := by
  unfold EndsWithConsonant
  split <;> simp_all

example : EndsWithConsonant (utf8 ['한', '글']) = true ∧ EndsWithConsonant (utf8 ['나']) = false := by
  decide

/-! ## C21 -/

/-- C21: the result is the word followed by one of the two forms. -/
theorem C21_shape (word with_ without : Str) :
    AppendPostposition word with_ without = word ++ with_ ∨
    AppendPostposition word with_ without = word ++ without := by
  unfold AppendPostposition
  simp only
  split
  · right; rfl
  · split
    · left; rfl
    · right; rfl

/-- C21: which one, for a word that ends in a syllable with trailing consonant `k` (0 for none;
8 is ㄹ). -/
theorem C21_choice (w with_ without : Str) (c : Char) (i j k : Nat) (hi : i < 19) (hj : j < 21)
    (hk : k < 28) (hc : c.toNat = 0xAC00 + (i * 21 + j) * 28 + k) :
    AppendPostposition (w ++ utf8 [c]) with_ without =
      (w ++ utf8 [c]) ++
        (if k = 0 ∨ (with_ = utf8 ['으', '로'] ∧ k = 8) then without else with_) := by
  have he : euro = utf8 ['으', '로'] := by decide
  unfold AppendPostposition
  simp only
  rw [(C18_last_consonant w c i j k hi hj hk hc).1, he]
  simp only [tailJamo_eq_L hk]
  by_cases h8 : with_ = utf8 ['으', '로'] ∧ k = 8
  · rw [if_pos h8, if_pos (Or.inr h8)]
  · rw [if_neg h8]
    have := tailJamo_eq_zero hk
    by_cases h : k = 0
    · rw [if_neg (not_not_intro (this.2 h)), if_pos (Or.inl h)]
    · rw [if_pos (by simp [this, h]), if_neg (by simp [h, h8])]

/-- C21: the empty word takes `without`. -/
theorem C21_empty (with_ without : Str) : AppendPostposition [] with_ without = without := by
  unfold AppendPostposition
  simp [C18_empty]

/-- C21, for every word: the choice depends on the word only through `LastConsonant`. -/
theorem C21_by_last_consonant (word with_ without : Str) :
    AppendPostposition word with_ without =
      word ++ (if LastConsonant word = 0 ∨ (with_ = utf8 ['으', '로'] ∧ LastConsonant word = 0x11AF)
        then without else with_) := by
  have he : euro = utf8 ['으', '로'] := by decide
  have hL : TailL = 0x11AF := by decide
  unfold AppendPostposition
  simp only
  rw [he, hL]
  by_cases h8 : with_ = utf8 ['으', '로'] ∧ LastConsonant word = 0x11AF
  · rw [if_pos h8, if_pos (Or.inr h8)]
  · rw [if_neg h8]
    by_cases h : LastConsonant word = 0
    · rw [if_neg (by simp [h]), if_pos (Or.inl h)]
    · rw [if_pos h, if_neg (by simp [h, h8])]

/-- 서울+로, 집+으로, 학교+로: all three branches. -/
example :
    AppendPostposition (utf8 ['서', '울']) (utf8 ['으', '로']) (utf8 ['로']) = utf8 ['서', '울', '로'] ∧
    AppendPostposition (utf8 ['집']) (utf8 ['으', '로']) (utf8 ['로']) = utf8 ['집', '으', '로'] ∧
    AppendPostposition (utf8 ['학', '교']) (utf8 ['으', '로']) (utf8 ['로']) = utf8 ['학', '교', '로'] := by
  decide

end Hangul
