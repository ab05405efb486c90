import Verif.Lemmas.Hangul
namespace Hangul
open Go Spec

theorem bmod_id {x : Int} (h1 : -2147483648 ≤ x) (h2 : x < 2147483648) :
    x.bmod 4294967296 = x := by
  apply Int.bmod_eq_of_le <;> omega

theorem tdm_nonneg {d : Int} (k : Int) (h : 0 ≤ d) : d.tdiv k = d / k ∧ d.tmod k = d % k :=
  ⟨Int.tdiv_eq_ediv_of_nonneg h, Int.tmod_eq_emod_of_nonneg h⟩

theorem tdm_neg {d : Int} (k : Int) (h : d < 0) :
    d.tdiv k = -((-d) / k) ∧ d.tmod k = -((-d) % k) := by
  have h' : 0 ≤ -d := by omega
  have := tdm_nonneg k h'
  rw [Int.neg_tdiv, Int.neg_tmod] at this
  omega

/-- `Split` over the integers: `d` is `c - 0xAC00` reduced to 32 bits. -/
theorem Split_toInt (c : Rune) : ∃ d : Int, d = (c.toInt - 0xAC00).bmod 4294967296 ∧
    -2147483648 ≤ d ∧ d < 2147483648 ∧
    ((0 ≤ d ∧ (Split c).1.toInt = 0x1100 + d / 588 ∧ (Split c).2.1.toInt = 0x1161 + d % 588 / 28 ∧
      (Split c).2.2.toInt = (if d % 28 = 0 then 0 else 0x11A7 + d % 28)) ∨
     (d < 0 ∧ (Split c).1.toInt = 0x1100 - (-d) / 588 ∧
      (Split c).2.1.toInt = 0x1161 - (-d) % 588 / 28 ∧
      (Split c).2.2.toInt = (if (-d) % 28 = 0 then 0 else 0x11A7 - (-d) % 28))) := by
  refine ⟨_, rfl, ?_⟩
  have hd : (c - 0xAC00 : Rune).toInt = (c.toInt - 0xAC00).bmod 4294967296 := by
    rw [Int32.toInt_sub, toInt_AC00]
  have hb := rune_bounds (c - 0xAC00 : Rune)
  rw [hd] at hb
  generalize (c.toInt - 0xAC00).bmod 4294967296 = d at *
  refine ⟨hb.1, hb.2, ?_⟩
  have t28 : (28 : Rune).toInt = 28 := by decide
  have t588 : (588 : Rune).toInt = 588 := by decide
  have n28 : (28 : Rune) ≠ -1 := by decide
  have n588 : (588 : Rune) ≠ -1 := by decide
  have tz : (tailBase - 1).toInt = 0x11A7 := by decide
  have ht : ((c - 0xAC00 : Rune) % 28).toInt = d.tmod 28 := by
    rw [Int32.toInt_mod, hd, t28]
  have h0 : ((c - 0xAC00 : Rune) % 28 ≠ 0) ↔ d.tmod 28 ≠ 0 := by
    rw [← ht, ne_eq, ← Int32.toInt_inj]; rfl
  unfold Split
  simp only
  by_cases hs : 0 ≤ d
  · left
    refine ⟨hs, ?_, ?_, ?_⟩
    · rw [Int32.toInt_add, Int32.toInt_div_of_ne_right _ _ n588, hd, t588, toInt_leadBase,
        (tdm_nonneg 588 hs).1]
      exact (bmod_id (by omega) (by omega)).trans (by omega)
    · rw [Int32.toInt_add, Int32.toInt_div_of_ne_right _ _ n28, Int32.toInt_mod, Int32.toInt_sub,
        ht, hd, t28, t588, toInt_medialBase, (tdm_nonneg 28 hs).2,
        (show (2:Nat)^32 = 4294967296 from rfl),
        bmod_id (x := d - d % 28) (by omega) (by omega),
        (tdm_nonneg 588 (by omega : 0 ≤ d - d % 28)).2,
        (tdm_nonneg 28 (by omega : 0 ≤ (d - d % 28) % 588)).1]
      exact (bmod_id (by omega) (by omega)).trans (by omega)
    · rw [(tdm_nonneg 28 hs).2] at h0 ht
      by_cases h : d % 28 = 0
      · rw [if_neg (by simp [h0, h]), if_pos h, ht, h]
      · rw [if_pos (h0.2 h), if_neg h, Int32.toInt_add, ht, tz]
        exact (bmod_id (by omega) (by omega)).trans (by omega)
  · right
    have hs' : d < 0 := by omega
    refine ⟨hs', ?_, ?_, ?_⟩
    · rw [Int32.toInt_add, Int32.toInt_div_of_ne_right _ _ n588, hd, t588, toInt_leadBase,
        (tdm_neg 588 hs').1]
      exact (bmod_id (by omega) (by omega)).trans (by omega)
    · rw [Int32.toInt_add, Int32.toInt_div_of_ne_right _ _ n28, Int32.toInt_mod, Int32.toInt_sub,
        ht, hd, t28, t588, toInt_medialBase, (tdm_neg 28 hs').2,
        (show (2:Nat)^32 = 4294967296 from rfl),
        bmod_id (x := d - -((-d) % 28)) (by omega) (by omega)]
      by_cases hz : d - -((-d) % 28) < 0
      · rw [(tdm_neg 588 hz).2, Int.neg_tdiv,
          (tdm_nonneg 28 (by omega : 0 ≤ (-(d - -((-d) % 28))) % 588)).1]
        exact (bmod_id (by omega) (by omega)).trans (by omega)
      · have hz : d - -((-d) % 28) = 0 := by omega
        rw [hz]
        simp only [Int.zero_tmod, Int.zero_tdiv]
        exact (bmod_id (by omega) (by omega)).trans (by omega)
    · rw [(tdm_neg 28 hs').2] at h0 ht
      by_cases h : (-d) % 28 = 0
      · rw [if_neg (by rw [h0]; omega), if_pos h, ht, h]; rfl
      · rw [if_pos (h0.2 (by omega)), if_neg h, Int32.toInt_add, ht, tz]
        exact (bmod_id (by omega) (by omega)).trans (by omega)

theorem Split_syllable {i j k : Nat} (hi : i < 19) (hj : j < 21) (hk : k < 28) :
    Split (syllable i j k) = (cp (0x1100 + i), cp (0x1161 + j), tailJamo k) := by
  obtain ⟨d, hd, _, _, h⟩ := Split_toInt (syllable i j k)
  rw [syllable_toInt hi hj hk, bmod_id (by omega) (by omega)] at hd
  rcases h with ⟨h0, h1, h2, h3⟩ | ⟨h0, _⟩
  · refine Prod.ext ?_ (Prod.ext ?_ ?_)
    · exact rune_eq_ofNat (by rw [h1]; omega) (by omega)
    · exact rune_eq_ofNat (by rw [h2]; omega) (by omega)
    · show (Split (syllable i j k)).2.2 = tailJamo k
      unfold tailJamo
      by_cases hk0 : k = 0
      · rw [if_pos hk0]
        refine Int32.toInt_inj.1 ?_
        rw [h3, if_pos (by omega)]; rfl
      · rw [if_neg hk0]
        refine rune_eq_ofNat ?_ (by omega)
        rw [h3, if_neg (by omega)]; omega
  · omega

end Hangul
