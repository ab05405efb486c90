import Verif.Props.Word
import Verif.Props.Hanja
/-! Property theorems C71–C73: decomposed text, the order of syllables, words that end in a hanja. -/
namespace Props
open Go Spec Hangul

/-! ## C71 -/

theorem last_append (w : Str) (cs : List Char) (c : Char) :
    LastConsonant (w ++ utf8 (cs ++ [c])) = (Split (runeOf c)).2.2 := by
  have : utf8 (cs ++ [c]) = utf8 cs ++ utf8 [c] := by simp [utf8]
  rw [this, ← List.append_assoc]
  exact LastConsonant_char _ c

/-- Below the syllables. -/
theorem last_below {c : Char} (h : c.toNat < 0xAC00) :
    ((Split (runeOf c)).2.2).toInt =
      if (0xAC00 - (c.toNat : Int)) % 28 = 0 then 0 else 0x11A7 - (0xAC00 - (c.toNat : Int)) % 28 := by
  obtain ⟨d, hd, _, _, h'⟩ := Split_toInt (runeOf c)
  rw [runeOf_toInt, bmod_id (by omega) (by omega)] at hd
  rcases h' with ⟨h0, _⟩ | ⟨h0, _, _, h3⟩
  · omega
  · rw [h3]
    have : -d = 0xAC00 - (c.toNat : Int) := by omega
    rw [this]

theorem choice_below (w with_ without : Str) (cs : List Char) {c : Char} (h : c.toNat < 0xAC00) :
    AppendPostposition (w ++ utf8 (cs ++ [c])) with_ without =
      w ++ utf8 (cs ++ [c]) ++ (if (0xAC00 - (c.toNat : Int)) % 28 = 0 then without else with_) := by
  have hl := last_below h
  rw [C21_by_last_consonant, last_append]
  generalize (Split (runeOf c)).2.2 = t at *
  have h0 : (0 : Rune).toInt = 0 := rfl
  have h8 : (0x11AF : Rune).toInt = 0x11AF := rfl
  by_cases hz : (0xAC00 - (c.toNat : Int)) % 28 = 0
  · rw [if_pos hz] at hl ⊢
    rw [if_pos (Or.inl (Int32.toInt_inj.1 (by rw [hl, h0])))]
  · rw [if_neg hz] at hl ⊢
    rw [if_neg]
    rintro (e | ⟨_, e⟩)
    · rw [e, h0] at hl; omega
    · rw [e, h8] at hl; omega

/-- C71 is false of the code: 그 takes 는, but the same word spelled with conjoining jamo (as in decomposed
text, NFD) takes 은. -/
theorem C71_decomposed_fails :
    ¬ ∀ (w with_ without : Str) (c l m : Char) (i j : Nat), i < 19 → j < 21 →
      c.toNat = 0xAC00 + (i * 21 + j) * 28 → l.toNat = 0x1100 + i → m.toNat = 0x1161 + j →
      ∀ form, AppendPostposition (w ++ utf8 [c]) with_ without = w ++ utf8 [c] ++ form →
        AppendPostposition (w ++ utf8 [l, m]) with_ without = w ++ utf8 [l, m] ++ form := by
  intro h
  have h := h [] (utf8 ['은']) (utf8 ['는']) '그' 'ᄀ' 'ᅳ' 0 18 (by decide) (by decide) (by decide) (by decide)
    (by decide) (utf8 ['는']) (by decide)
  revert h
  decide

/-- C71, what holds for open syllables spelled with conjoining jamo (after any bytes `w`): all but those with the vowel
ㅢ (number 19) are treated as if they ended in a consonant. Missing: that they are not. -/
theorem C71_open_partial (w with_ without : Str) (l m : Char) (j : Nat) (hj : j < 21) (hm : m.toNat = 0x1161 + j) :
    AppendPostposition (w ++ utf8 [l, m]) with_ without =
      w ++ utf8 [l, m] ++ (if j = 19 then without else with_) := by
  have := choice_below w with_ without [l] (c := m) (by omega)
  simp only [List.cons_append, List.nil_append] at this
  rw [this, hm]
  by_cases h : j = 19
  · rw [if_pos h, if_pos (by omega)]
  · rw [if_neg h, if_neg (by omega)]

/-- C71, what holds for closed syllables spelled with conjoining jamo: all but those with the trailing consonant ㄵ
(number 5) get the form for words with a final consonant. Missing: ㄵ, and that ㄹ takes 로. -/
theorem C71_closed_partial (w with_ without : Str) (l m t : Char) (k : Nat) (h0 : 0 < k) (hk : k < 28)
    (ht : t.toNat = 0x11A7 + k) :
    AppendPostposition (w ++ utf8 [l, m, t]) with_ without =
      w ++ utf8 [l, m, t] ++ (if k = 5 then without else with_) := by
  have := choice_below w with_ without [l, m] (c := t) (by omega)
  simp only [List.cons_append, List.nil_append] at this
  rw [this, ht]
  by_cases h : k = 5
  · rw [if_pos h, if_pos (by omega)]
  · rw [if_neg h, if_neg (by omega)]

/-- C71, exactly when a decomposed closed syllable gets the form its composed spelling gets. -/
theorem C71_agree_closed (w with_ without : Str) (c l m t : Char) (i j k : Nat) (hi : i < 19) (hj : j < 21) (h0 : 0 < k)
    (hk : k < 28) (hc : c.toNat = 0xAC00 + (i * 21 + j) * 28 + k) (ht : t.toNat = 0x11A7 + k) :
    (∃ form, AppendPostposition (w ++ utf8 [c]) with_ without = w ++ utf8 [c] ++ form ∧
      AppendPostposition (w ++ utf8 [l, m, t]) with_ without = w ++ utf8 [l, m, t] ++ form) ↔
    with_ = without ∨ (k ≠ 5 ∧ ¬ (with_ = utf8 ['으', '로'] ∧ k = 8)) := by
  rw [C21_choice w with_ without c i j k hi hj hk hc, C71_closed_partial w with_ without l m t k h0 hk ht]
  simp only [List.append_cancel_left_eq]
  constructor
  · rintro ⟨form, h1, h2⟩
    by_cases he : with_ = without
    · exact .inl he
    · right
      refine ⟨?_, ?_⟩
      · intro h5
        rw [if_pos h5] at h2
        rw [if_neg (by omega)] at h1
        exact he (h1.trans h2.symm)
      · intro h8
        rw [if_neg (by omega)] at h2
        rw [if_pos (Or.inr h8)] at h1
        exact he (h2.trans h1.symm)
  · rintro (he | ⟨h5, h8⟩)
    · subst he
      exact ⟨with_, by split <;> rfl, by split <;> rfl⟩
    · exact ⟨with_, by rw [if_neg]; rintro (h | h); exact absurd h (by omega); exact h8 h, by rw [if_neg h5]⟩

/-- 앉 (with ㄵ) and 물 (with ㄹ) go wrong, 강 does not. -/
example :
    AppendPostposition (utf8 ['ᄋ', 'ᅡ', 'ᆬ']) (utf8 ['은']) (utf8 ['는']) =
      utf8 ['ᄋ', 'ᅡ', 'ᆬ', '는'] ∧
    AppendPostposition (utf8 ['ᄆ', 'ᅮ', 'ᆯ']) (utf8 ['으', '로']) (utf8 ['로']) =
      utf8 ['ᄆ', 'ᅮ', 'ᆯ', '으', '로'] ∧
    AppendPostposition (utf8 ['ᄀ', 'ᅡ', 'ᆼ']) (utf8 ['은']) (utf8 ['는']) =
      utf8 ['ᄀ', 'ᅡ', 'ᆼ', '은'] := by decide

/-! ## C72 -/

/-- C72: the order of syllables as numbers is the order of their jamo: first the leading consonant, then the
vowel, then the trailing consonant (none first). -/
theorem C72_order (s s' : Rune) (h : IsSyllable s) (h' : IsSyllable s') :
    s < s' ↔
      (Split s).1 < (Split s').1 ∨
      ((Split s).1 = (Split s').1 ∧ ((Split s).2.1 < (Split s').2.1 ∨
        ((Split s).2.1 = (Split s').2.1 ∧ (Split s).2.2 < (Split s').2.2))) := by
  obtain ⟨d, hd, _, _, h1⟩ := Split_toInt s
  obtain ⟨d', hd', _, _, h1'⟩ := Split_toInt s'
  unfold IsSyllable at h h'
  rw [bmod_id (by omega) (by omega)] at hd hd'
  rcases h1 with ⟨h0, a, b, c⟩ | ⟨h0, _⟩
  · rcases h1' with ⟨h0', a', b', c'⟩ | ⟨h0', _⟩
    · simp only [Int32.lt_iff_toInt_lt, ← Int32.toInt_inj, a, b, c, a', b', c']
      split <;> split <;> omega
    · omega
  · omega

/-- 가 < 각 < 개 < 나. -/
example : IsSyllable 0xAC00 ∧ IsSyllable 0xAC01 ∧ (Split 0xAC00).2.2 < (Split 0xAC01).2.2 ∧
    (Split 0xAC01).2.1 < (Split 0xAC1C).2.1 ∧ (Split 0xAC1C).1 < (Split 0xB098).1 := by decide

/-- C72, for the letters: the order of compatibility letters is kept on leading consonants and on vowels. -/
theorem C72_letters (s s' : Rune) (h : IsSyllable s) (h' : IsSyllable s') :
    ((SplitCompat s).1 < (SplitCompat s').1 ↔ (Split s).1 < (Split s').1) ∧
    ((SplitCompat s).2.1 < (SplitCompat s').2.1 ↔ (Split s).2.1 < (Split s').2.1) ∧
    ((SplitCompat s).2.2 < (SplitCompat s').2.2 ↔ (Split s).2.2 < (Split s').2.2) := by
  obtain ⟨i, j, k, hi, hj, hk, rfl⟩ := exists_syllable h
  obtain ⟨i', j', k', hi', hj', hk', rfl⟩ := exists_syllable h'
  unfold SplitCompat
  rw [Split_syllable hi hj hk, Split_syllable hi' hj' hk']
  simp only
  refine ⟨?_, ?_, ?_⟩
  · exact (by decide +kernel : ∀ i < 19, ∀ i' < 19, (CompatJamo (cp (0x1100 + i)) < CompatJamo (cp (0x1100 + i')) ↔
      cp (0x1100 + i) < cp (0x1100 + i'))) i hi i' hi'
  · exact (by decide +kernel : ∀ j < 21, ∀ j' < 21, (CompatJamo (cp (0x1161 + j)) < CompatJamo (cp (0x1161 + j')) ↔
      cp (0x1161 + j) < cp (0x1161 + j'))) j hj j' hj'
  · exact (by decide +kernel : ∀ k < 28, ∀ k' < 28, (CompatJamo (tailJamo k) < CompatJamo (tailJamo k') ↔
      tailJamo k < tailJamo k')) k hk k' hk'

/-! ## C73 -/

/-- 大 is read 대. -/
theorem dae : Hanja.Convert (utf8 ['大']) = utf8 ['대'] := by
  have hm : (Hanja.rawTable.any fun e => Nat.beq e.1 0x5927 && Nat.beq e.2 0xB300) = true := by
    decide +kernel
  obtain ⟨⟨a, b⟩, he, h⟩ := List.any_eq_true.1 hm
  simp only [Bool.and_eq_true, Nat.beq_eq] at h
  obtain ⟨rfl, rfl⟩ := h
  obtain ⟨g, _, _, h3, h4⟩ := Hanja.C24_rune_by_rune
  have h3 := h3 _ _ he
  obtain ⟨cs, hcs⟩ := (Hanja.C25_idempotent (utf8 ['大'])).1
  have h5 := h4 (utf8 ['大'])
  rw [hcs, runes_utf8, runes_utf8] at h5
  simp only [List.map_cons, List.map_nil] at h5
  have h6 : runeOf '大' = cp 0x5927 := rfl
  rw [h6, h3] at h5
  rw [hcs]
  cases cs with
  | nil => simp at h5
  | cons c cs =>
    simp only [List.map_cons, List.cons.injEq, List.map_eq_nil_iff] at h5
    obtain ⟨h7, rfl⟩ := h5
    have h8 : cp 0xB300 = runeOf '대' := rfl
    rw [Hanja.runeOf_inj (h7.trans h8)]

/-- C73 is false of the code: 大 is read 대 and takes 는, but `AppendPostposition` appends 은. -/
theorem C73_hanja_fails :
    ¬ ∀ (w with_ without : Str) (c d : Char) (i j k : Nat), i < 19 → j < 21 → k < 28 →
      IsIdeograph (runeOf c).toInt → Hanja.Convert (utf8 [c]) = utf8 [d] →
      d.toNat = 0xAC00 + (i * 21 + j) * 28 + k →
      AppendPostposition (w ++ utf8 [c]) with_ without = w ++ utf8 [c] ++
        (if k = 0 ∨ (with_ = utf8 ['으', '로'] ∧ k = 8) then without else with_) := by
  intro h
  have h := h [] (utf8 ['은']) (utf8 ['는']) '大' '대' 3 1 0 (by decide) (by decide) (by decide) (by decide) dae
    (by decide)
  revert h
  decide

/-- C73, what holds of `AppendPostposition` itself: the form after a hanja of the main blocks depends on its code point
only. Missing: that it depends on the reading. -/
theorem C73_direct_partial (w with_ without : Str) (c : Char) (h : c.toNat < 0xAC00) :
    AppendPostposition (w ++ utf8 [c]) with_ without =
      w ++ utf8 [c] ++ (if (0xAC00 - (c.toNat : Int)) % 28 = 0 then without else with_) :=
  choice_below w with_ without [] h

/-- C73, what to do: convert first. For a word that ends in a hanja (after any bytes), the form appended to the
converted word is the one its reading takes. -/
theorem C73_converted_partial (w with_ without : Str) (c d : Char) (i j k : Nat) (hi : i < 19) (hj : j < 21)
    (hk : k < 28) (hr : Hanja.Convert (utf8 [c]) = utf8 [d]) (hd : d.toNat = 0xAC00 + (i * 21 + j) * 28 + k) :
    AppendPostposition (Hanja.Convert (w ++ utf8 [c])) with_ without =
      Hanja.Convert (w ++ utf8 [c]) ++
        (if k = 0 ∨ (with_ = utf8 ['으', '로'] ∧ k = 8) then without else with_) := by
  rw [Hanja.C27_concat_boundary w (utf8 [c]) (boundary_utf8 _), hr]
  exact C21_choice _ with_ without d i j k hi hj hk hd

/-- Every hanja has such a reading. -/
theorem C73_reading (c : Char) (h : IsIdeograph (runeOf c).toInt) : ∃ d i j k, i < 19 ∧ j < 21 ∧ k < 28 ∧
    Hanja.Convert (utf8 [c]) = utf8 [d] ∧ d.toNat = 0xAC00 + (i * 21 + j) * 28 + k := by
  obtain ⟨d, hs, _, hc⟩ := Hanja.C23_reading_syllable c ((Hanja.C22_isHanja _).2 h)
  obtain ⟨i, j, k, hi, hj, hk, e⟩ := C18_every_syllable d hs
  exact ⟨d, i, j, k, hi, hj, hk, hc, e⟩

example : IsIdeograph (runeOf '大').toInt ∧ '大'.toNat < 0xAC00 ∧ '대'.toNat = 0xAC00 + (3 * 21 + 1) * 28 + 0 := by
  decide

end Props
