import Verif.Lemmas.Rune
import Verif.Spec.Hangul
namespace Hangul
open Go Spec

/-! ### Indices -/

theorem lead_zero : leadIdx 0 = none := by decide
theorem medial_zero : medialIdx 0 = none := by decide

theorem leadForm_inJamo {i : Nat} {r : Rune} (h : LeadForm i r) : inJamo r := by
  obtain ⟨h1, h2 | h2⟩ := h
  · unfold Hangul.inJamo; omega
  · have : ∀ i, i < 19 → ∀ v, leadLetters[i]? = some v → 0x3130 ≤ v ∧ v < 0x3190 := by decide
    have := this i h1 _ h2
    unfold Hangul.inJamo; omega

theorem vowelForm_inJamo {i : Nat} {r : Rune} (h : VowelForm i r) : inJamo r := by
  obtain ⟨h1, h2 | h2⟩ := h <;> (unfold Hangul.inJamo; omega)

theorem tailForm_inJamo {k : Nat} {r : Rune} (h : TailForm k r) : r = 0 ∨ inJamo r := by
  rcases h with ⟨h1, h2⟩ | ⟨h0, h1, h2 | h2⟩
  · exact Or.inl (Int32.toInt_inj.1 (by rw [h2]; decide))
  · right; unfold Hangul.inJamo; omega
  · have : ∀ i, i < 27 → ∀ v, tailLetters[i]? = some v → 0x3130 ≤ v ∧ v < 0x3190 := by decide
    have := this (k - 1) (by omega) _ h2
    right; unfold Hangul.inJamo; omega

theorem tailForm_lt {k : Nat} {r : Rune} (h : TailForm k r) : k < 28 := by
  rcases h with ⟨h1, _⟩ | ⟨_, h1, _⟩ <;> omega

theorem lead_cases (r : Rune) :
    (∃ i : Nat, LeadForm i r ∧ leadIdx (Lead r) = some (i : Int) ∧
        ∀ i' : Nat, LeadForm i' r → i' = i) ∨
      ((∀ i : Nat, ¬ LeadForm i r) ∧ leadIdx (Lead r) = none ∧ Lead r = 0) := by
  by_cases hr : inJamo r
  · have key := forall_jamo (fun r =>
      (∃ i : Nat, i < 19 ∧ LeadForm i r ∧ leadIdx (Lead r) = some (i : Int) ∧
          ∀ i' : Nat, i' < 19 → LeadForm i' r → i' = i) ∨
        ((∀ i : Nat, i < 19 → ¬ LeadForm i r) ∧ leadIdx (Lead r) = none ∧ Lead r = 0))
      (by decide +kernel) (by decide +kernel) r hr
    rcases key with ⟨i, _, h1, h2, h3⟩ | ⟨h1, h2, h3⟩
    · exact Or.inl ⟨i, h1, h2, fun i' h => h3 i' h.1 h⟩
    · exact Or.inr ⟨fun i h => h1 i h.1 h, h2, h3⟩
  · exact Or.inr ⟨fun i h => hr (leadForm_inJamo h), by rw [Lead_outside hr]; decide, Lead_outside hr⟩

theorem medial_cases (r : Rune) :
    (∃ j : Nat, VowelForm j r ∧ medialIdx (Medial r) = some (j : Int) ∧
        ∀ j' : Nat, VowelForm j' r → j' = j) ∨
      ((∀ j : Nat, ¬ VowelForm j r) ∧ medialIdx (Medial r) = none ∧ Medial r = 0) := by
  by_cases hr : inJamo r
  · have key := forall_jamo (fun r =>
      (∃ i : Nat, i < 21 ∧ VowelForm i r ∧ medialIdx (Medial r) = some (i : Int) ∧
          ∀ i' : Nat, i' < 21 → VowelForm i' r → i' = i) ∨
        ((∀ i : Nat, i < 21 → ¬ VowelForm i r) ∧ medialIdx (Medial r) = none ∧ Medial r = 0))
      (by decide +kernel) (by decide +kernel) r hr
    rcases key with ⟨i, _, h1, h2, h3⟩ | ⟨h1, h2, h3⟩
    · exact Or.inl ⟨i, h1, h2, fun i' h => h3 i' h.1 h⟩
    · exact Or.inr ⟨fun i h => h1 i h.1 h, h2, h3⟩
  · exact Or.inr ⟨fun i h => hr (vowelForm_inJamo h), by rw [Medial_outside hr]; decide, Medial_outside hr⟩

theorem tail_cases (r : Rune) :
    (∃ k : Nat, TailForm k r ∧ tailIdx (Tail r) = some (k : Int) ∧
        ∀ k' : Nat, TailForm k' r → k' = k) ∨
      ((∀ k : Nat, ¬ TailForm k r) ∧ tailIdx (Tail r) = some 0 ∧ Tail r = 0) := by
  have bd : ∀ k : Nat, TailForm k r → k < 28 := fun k h => tailForm_lt h
  by_cases hr : inJamo r
  · have key := forall_jamo (fun r =>
      (∃ i : Nat, i < 28 ∧ TailForm i r ∧ tailIdx (Tail r) = some (i : Int) ∧
          ∀ i' : Nat, i' < 28 → TailForm i' r → i' = i) ∨
        ((∀ i : Nat, i < 28 → ¬ TailForm i r) ∧ tailIdx (Tail r) = some 0 ∧ Tail r = 0))
      (by decide +kernel) (by decide +kernel) r hr
    rcases key with ⟨i, _, h1, h2, h3⟩ | ⟨h1, h2, h3⟩
    · exact Or.inl ⟨i, h1, h2, fun i' h => h3 i' (bd i' h) h⟩
    · exact Or.inr ⟨fun i h => h1 i (bd i h) h, h2, h3⟩
  · by_cases h0 : r = 0
    · subst h0
      refine Or.inl ⟨0, by decide, by decide, ?_⟩
      have : ∀ k' : Nat, k' < 28 → TailForm k' 0 → k' = 0 := by decide
      exact fun k' h => this k' (bd k' h) h
    · refine Or.inr ⟨fun k h => ?_, by rw [Tail_outside hr]; decide, Tail_outside hr⟩
      rcases tailForm_inJamo h with h | h
      · exact h0 h
      · exact hr h

/-! ### Join -/

theorem Join_ok {i j k : Nat} {l m t : Rune} (hl : LeadForm i l) (hm : VowelForm j m)
    (ht : TailForm k t) : Join l m t = syllable i j k := by
  unfold Join
  rcases lead_cases l with ⟨i', _, e, u⟩ | ⟨h, _⟩
  · cases u i hl
    rcases medial_cases m with ⟨j', _, e2, u⟩ | ⟨h, _⟩
    · cases u j hm
      rcases tail_cases t with ⟨k', _, e3, u⟩ | ⟨h, _⟩
      · cases u k ht
        rw [e, e2, e3]
        simp only [syllable]
        rw [← Int32.ofInt_eq_ofNat]
        congr 1
      · exact absurd ht (h k)
    · exact absurd hm (h j)
  · exact absurd hl (h i)

theorem Join_badTail {l m t : Rune} (ht : ∀ k : Nat, ¬ TailForm k t) : Join l m t = Join l m 0 := by
  rcases tail_cases t with ⟨k, h, _⟩ | ⟨_, e, e2⟩
  · exact absurd h (ht k)
  · unfold Join
    rw [e, (by decide : tailIdx (Tail 0) = some 0)]

theorem Join_badLead {l m t : Rune} (h : ∀ i : Nat, ¬ LeadForm i l) : Join l m t = 0xFFFD := by
  rcases lead_cases l with ⟨k, h', _⟩ | ⟨_, e, e2⟩
  · exact absurd h' (h k)
  · unfold Join; rw [e]

theorem Join_badMedial {l m t : Rune} (h : ∀ i : Nat, ¬ VowelForm i m) :
    Join l m t = 0xFFFD := by
  rcases medial_cases m with ⟨k, h', _⟩ | ⟨_, e, e2⟩
  · exact absurd h' (h k)
  · unfold Join; rw [e]; cases leadIdx (Lead l) <;> rfl

theorem syllable_toInt {i j k : Nat} (hi : i < 19) (hj : j < 21) (hk : k < 28) :
    (syllable i j k).toInt = 0xAC00 + (i * 21 + j) * 28 + k := by
  unfold syllable
  rw [toInt_ofNat_lt (by omega)]
  omega

theorem syllable_isSyllable {i j k : Nat} (hi : i < 19) (hj : j < 21) (hk : k < 28) :
    IsSyllable (syllable i j k) := by
  unfold IsSyllable
  rw [syllable_toInt hi hj hk]
  omega

theorem exists_syllable {s : Rune} (h : IsSyllable s) :
    ∃ i j k, i < 19 ∧ j < 21 ∧ k < 28 ∧ s = syllable i j k := by
  obtain ⟨h1, h2⟩ := h
  refine ⟨((s.toInt - 0xAC00) / 588).toNat, ((s.toInt - 0xAC00) % 588 / 28).toNat,
    ((s.toInt - 0xAC00) % 28).toNat, by omega, by omega, by omega, ?_⟩
  refine Int32.toInt_inj.1 ?_
  rw [syllable_toInt (by omega) (by omega) (by omega)]
  omega

end Hangul
