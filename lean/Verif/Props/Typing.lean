import Verif.Props.Hangul
/-! C122: a vowel typed after a closed syllable takes the last consonant with it. -/
namespace Hangul
open Go Spec

private theorem tail_leads : ∀ k : Nat, k < 28 → 0 < k → Lead (tailLetter k) ≠ 0 →
    ∃ i, i < 19 ∧ LeadForm i (tailLetter k) ∧ leadLetter i = tailLetter k := by decide +kernel

set_option synthInstance.maxSize 4000 in
set_option synthInstance.maxHeartbeats 400000 in
private theorem tail_splits : ∀ k : Nat, k < 28 → 0 < k → Lead (tailLetter k) = 0 →
    ∃ k', k' < 28 ∧ ∃ i, i < 19 ∧ SplitMultiElement (tailLetter k) = some [tailLetter k', leadLetter i] ∧
      TailForm k' (tailLetter k') ∧ LeadForm i (leadLetter i) ∧
      basics (tailLetter k).toInt = basics (tailLetter k').toInt ++ basics (leadLetter i).toInt := by decide +kernel

private theorem letters_form : (∀ i : Nat, i < 19 → LeadForm i (leadLetter i)) ∧ (∀ j : Nat, j < 21 → VowelForm j (cp (0x314F + j))) ∧
    TailForm 0 0 ∧ tailLetter 0 = 0 := by decide +kernel

/-- C122: let `l`, `m`, `t` be the letters of a syllable that ends in a consonant, and `v` the letter of a vowel. If `t` can begin
a syllable, `Join l m 0` and `Join t v 0` are syllables with just these letters. If it cannot, `SplitMultiElement` gives two
letters `a` and `b`, which together are `t`, and `Join l m a` and `Join b v 0` are syllables with just these letters. `l`, `m`
and `t` are those of `s`: joined they give it. -/
theorem C122_move (s v : Rune) (hs : IsSyllable s) (hv : 0x314F ≤ v.toInt ∧ v.toInt ≤ 0x3163) (l m t : Rune)
    (h : SplitCompat s = (l, m, t)) (ht : t ≠ 0) :
    Join l m t = s ∧
    (Lead t ≠ 0 → IsSyllable (Join l m 0) ∧ SplitCompat (Join l m 0) = (l, m, 0) ∧
      IsSyllable (Join t v 0) ∧ SplitCompat (Join t v 0) = (t, v, 0)) ∧
    (Lead t = 0 → ∃ a b, SplitMultiElement t = some [a, b] ∧ basics t.toInt = basics a.toInt ++ basics b.toInt ∧
      IsSyllable (Join l m a) ∧ SplitCompat (Join l m a) = (l, m, a) ∧
      IsSyllable (Join b v 0) ∧ SplitCompat (Join b v 0) = (b, v, 0)) := by
  obtain ⟨i, j, k, hi, hj, hk, rfl⟩ := exists_syllable hs
  have f := letters_form
  have e := C02_join_split i j k (leadLetter i) (cp (0x314F + j)) (tailLetter k) (f.1 i hi) (f.2.1 j hj)
    ((by decide +kernel : ∀ k : Nat, k < 28 → TailForm k (tailLetter k)) k hk)
  have e0 := e.2.1
  rw [e.2.1] at e
  rw [e.2.2.2] at h
  simp only [Prod.mk.injEq] at h
  obtain ⟨rfl, rfl, rfl⟩ := h
  have hk0 : 0 < k := by
    rcases Nat.eq_zero_or_pos k with rfl | h
    · exact absurd f.2.2.2 ht
    · exact h
  have hvf : VowelForm (v.toInt - 0x314F).toNat v := by unfold VowelForm; omega
  have hvc : cp (0x314F + (v.toInt - 0x314F).toNat) = v := by
    have : ((0x314F + (v.toInt - 0x314F).toNat : Nat) : Int) = v.toInt := by omega
    have e2 := Int32.ofInt_toInt v
    rw [← this] at e2
    exact e2
  refine ⟨e0, fun hl => ?_, fun hl => ?_⟩
  · obtain ⟨i', hi', hf, e'⟩ := tail_leads k hk hk0 hl
    have a := C02_join_split i j 0 (leadLetter i) (cp (0x314F + j)) 0 (f.1 i hi) (f.2.1 j hj) f.2.2.1
    have b := C02_join_split i' _ 0 (tailLetter k) v 0 hf hvf f.2.2.1
    rw [f.2.2.2] at a b
    rw [e', hvc] at b
    exact ⟨a.1, a.2.2.2, b.1, b.2.2.2⟩
  · obtain ⟨k', hk', i', hi', es, tf, lf, eb⟩ := tail_splits k hk hk0 hl
    have a := C02_join_split i j k' (leadLetter i) (cp (0x314F + j)) (tailLetter k') (f.1 i hi) (f.2.1 j hj) tf
    have b := C02_join_split i' _ 0 (leadLetter i') v 0 lf hvf f.2.2.1
    rw [f.2.2.2, hvc] at b
    exact ⟨_, _, es, eb, a.1, a.2.2.2, b.1, b.2.2.2⟩

/-- C122: the letters of `SplitCompat` are needed: what `Split` gives for a last consonant is accepted as first consonant of no
syllable. -/
theorem C122_compat_needed (s v : Rune) (hs : IsSyllable s) : Join (Split s).2.2 v 0 = 0xFFFD := by
  rw [(C03_join_total _ _ _).2]
  left
  rintro ⟨i, hi, h⟩
  have h5 := (C05_split_unicode s hs).2.2.1
  have : ∀ i : Nat, i < 19 → ∀ x ∈ leadLetters[i]?, 0x3131 ≤ x ∧ x ≤ 0x314E := by decide
  rcases h with h | h
  · split at h5 <;> omega
  · have := this i hi _ h
    split at h5 <;> omega

/-- 닭 and ㅣ give 달기, 깎 and ㅏ give 까까, and 밥 and ㅡ give 바브. -/
example : SplitCompat 0xB2ED = (D, A, LG) ∧ Lead LG = 0 ∧ SplitMultiElement LG = some [L, G] ∧
    Join D A L = 0xB2EC ∧ Join G I 0 = 0xAE30 ∧
    SplitCompat 0xAE4E = (GG, A, GG) ∧ Lead GG ≠ 0 ∧ Join GG A 0 = 0xAE4C ∧
    SplitCompat 0xBC25 = (B, A, B) ∧ Lead B ≠ 0 ∧ Join B A 0 = 0xBC14 ∧ Join B EU 0 = 0xBE0C := by decide +kernel

end Hangul
