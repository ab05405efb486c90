import Verif.Lemmas.Split
namespace Hangul
open Go Spec

/-! ### Spelling of letters -/

theorem compat_spells (r : Rune) (h : CompatJamo r ≠ 0) : Spells (CompatJamo r).toInt r := by
  by_cases hr : inJamo r
  · exact forall_jamo (fun r => CompatJamo r ≠ 0 → Spells (CompatJamo r).toInt r)
      (by decide +kernel) (by decide +kernel) r hr h
  · exact absurd (CompatJamo_outside hr) h

theorem compat_of_spells {v : Int} {r : Rune} (h : Spells v r) : (CompatJamo r).toInt = v := by
  obtain ⟨⟨h1, h2⟩, h | ⟨i, hi, h, e⟩ | ⟨j, hj, h, e⟩ | ⟨k, hk, h, e⟩⟩ := h
  · have := forall_range (fun r => CompatJamo r = r) 0x3131 51 (by decide) (by decide +kernel) r
      (by omega) (by omega)
    rw [this, h]
  · rw [rune_eq_ofNat h (by omega)]
    have : ∀ i, i < 19 → leadLetters[i]? = some (CompatJamo (Int32.ofNat (0x1100 + i))).toInt := by
      decide +kernel
    have := this i hi
    rw [e] at this
    exact (Option.some.inj this).symm
  · rw [rune_eq_ofNat h (by omega), e]
    have : ∀ j, j < 21 → (CompatJamo (Int32.ofNat (0x1161 + j))).toInt = ((0x314F + j : Nat) : Int) := by
      decide +kernel
    exact this j hj
  · rw [rune_eq_ofNat h (by omega)]
    have : ∀ k, k < 27 → tailLetters[k]? = some (CompatJamo (Int32.ofNat (0x11A8 + k))).toInt := by
      decide +kernel
    have := this k hk
    rw [e] at this
    exact (Option.some.inj this).symm

theorem spells_iff (v : Int) (r : Rune) :
    Spells v r ↔ CompatJamo r ≠ 0 ∧ (CompatJamo r).toInt = v := by
  constructor
  · intro h
    have e := compat_of_spells h
    refine ⟨fun h0 => ?_, e⟩
    rw [h0] at e
    have h1 := h.1
    rw [← e] at h1
    exact absurd h1 (by decide)
  · rintro ⟨h, rfl⟩
    exact compat_spells r h

theorem compat_eq_of_spells {v : Int} {r r' : Rune} (h : Spells v r) (h' : Spells v r') :
    CompatJamo r = CompatJamo r' :=
  Int32.toInt_inj.1 ((compat_of_spells h).trans (compat_of_spells h').symm)

theorem compat_range (r : Rune) (h : CompatJamo r ≠ 0) :
    0x3131 ≤ (CompatJamo r).toInt ∧ (CompatJamo r).toInt ≤ 0x3163 := (compat_spells r h).1

/-- A property of `CompatJamo r` that holds of the 51 letters and of 0 holds for every rune. -/
theorem forall_compat (P : Rune → Prop) (h0 : P 0)
    (h : ∀ i, i < 51 → P (Int32.ofNat (0x3131 + i))) (r : Rune) : P (CompatJamo r) := by
  by_cases hr : CompatJamo r = 0
  · rw [hr]; exact h0
  · have := compat_range r hr
    exact forall_range P 0x3131 51 (by decide) h _ (by omega) (by omega)

theorem compat_idem (r : Rune) : CompatJamo (CompatJamo r) = CompatJamo r :=
  forall_compat (fun c => CompatJamo c = c) (by decide) (by decide +kernel) r

/-! ### Stroke -/

theorem not_syllable_test {r : Rune} (h : ¬ IsSyllable r) :
    (decide ((0xAC00 : Rune) ≤ r) && decide (r ≤ 0xD7A3)) = false := by
  rw [Bool.eq_false_iff]
  simp only [ne_eq, Bool.and_eq_true, decide_eq_true_eq, Int32.le_iff_toInt_le, toInt_AC00, toInt_D7A3]
  exact h

theorem syllable_test {r : Rune} (h : IsSyllable r) :
    (decide ((0xAC00 : Rune) ≤ r) && decide (r ≤ 0xD7A3)) = true := by
  simp only [Bool.and_eq_true, decide_eq_true_eq, Int32.le_iff_toInt_le, toInt_AC00, toInt_D7A3]
  exact h

theorem StrokeT_letter (tbl : List (Rune × List Rune)) (n : Nat) (r : Rune) (h : ¬ IsSyllable r) :
    StrokeT tbl (n + 1) r = match SplitMultiElementT tbl (CompatJamo r) with
      | some es => es.foldl (fun c e => c + strokesAt e) 0
      | none => strokesAt (CompatJamo r) := by
  simp only [StrokeT, not_syllable_test h]
  rfl

theorem StrokeT_syllable (tbl : List (Rune × List Rune)) (n : Nat) (r : Rune) (h : IsSyllable r) :
    StrokeT tbl (n + 1) r =
      StrokeT tbl n (Split r).1 + StrokeT tbl n (Split r).2.1 + StrokeT tbl n (Split r).2.2 := by
  simp only [StrokeT, syllable_test h]
  rfl

theorem parts_not_syllable {s : Rune} (h : IsSyllable s) :
    ¬ IsSyllable (Split s).1 ∧ ¬ IsSyllable (Split s).2.1 ∧ ¬ IsSyllable (Split s).2.2 := by
  obtain ⟨i, j, k, hi, hj, hk, rfl⟩ := exists_syllable h
  rw [Split_syllable hi hj hk]
  refine ⟨?_, ?_, ?_⟩ <;> simp only [IsSyllable, cp, tailJamo]
  · rw [toInt_ofNat_lt (by omega)]; omega
  · rw [toInt_ofNat_lt (by omega)]; omega
  · split
    · decide
    · rw [toInt_ofNat_lt (by omega)]; omega

/-- The Go recursion has depth at most 2. -/
theorem StrokeT_fuel (tbl : List (Rune × List Rune)) (n : Nat) (r : Rune) :
    StrokeT tbl (n + 2) r = StrokeT tbl 2 r := by
  by_cases h : IsSyllable r
  · rw [StrokeT_syllable _ _ _ h, StrokeT_syllable _ _ _ h]
    obtain ⟨h1, h2, h3⟩ := parts_not_syllable h
    simp only [StrokeT_letter _ _ _ h1, StrokeT_letter _ _ _ h2, StrokeT_letter _ _ _ h3]
  · rw [StrokeT_letter _ _ _ h, StrokeT_letter _ _ _ h]

theorem Stroke_syllable {s : Rune} (h : IsSyllable s) :
    Stroke s = Stroke (Split s).1 + Stroke (Split s).2.1 + Stroke (Split s).2.2 := by
  unfold Stroke
  obtain ⟨h1, h2, h3⟩ := parts_not_syllable h
  rw [StrokeT_syllable _ _ _ h]
  simp only [StrokeT_letter _ _ _ h1, StrokeT_letter _ _ _ h2, StrokeT_letter _ _ _ h3]

theorem compat_not_syllable (r : Rune) : ¬ IsSyllable (CompatJamo r) :=
  forall_compat (fun c => ¬ IsSyllable c) (by decide) (by decide) r

/-- Off the syllables, `Stroke` depends only on the compatibility letter. -/
theorem Stroke_compat {r : Rune} (h : ¬ IsSyllable r) : Stroke r = Stroke (CompatJamo r) := by
  unfold Stroke
  rw [StrokeT_letter _ _ _ h, StrokeT_letter _ _ _ (compat_not_syllable r), compat_idem]

theorem SplitMultiElement_compat (r : Rune) :
    SplitMultiElement r = SplitMultiElement (CompatJamo r) := by
  unfold SplitMultiElement SplitMultiElementT; rw [compat_idem]

end Hangul
