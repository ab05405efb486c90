import Verif.Hangul.Stroke
/-! Helper lemmas about runes (`Int32`), map lookups and the jamo ranges. -/
namespace Go

theorem mapGet_eq_none {α : Type} (m : List (Rune × α)) (k : Rune)
    (h : ∀ e ∈ m, e.1 ≠ k) : mapGet m k = none := by
  induction m with
  | nil => rfl
  | cons e m ih =>
    obtain ⟨k', v⟩ := e
    have h1 : k' ≠ k := h (k', v) (by simp)
    simp [mapGet, h1, ih (fun e he => h e (by simp [he]))]

theorem toInt_ofNat_lt {n : Nat} (h : n < 2147483648) : (Int32.ofNat n).toInt = n :=
  Int32.toInt_ofNat_of_lt (by simpa using h)

theorem rune_eq_ofNat {r : Rune} {n : Nat} (h : r.toInt = n) (hn : n < 2147483648) :
    r = Int32.ofNat n :=
  Int32.toInt_inj.1 (by rw [toInt_ofNat_lt hn, h])

theorem rune_bounds (r : Rune) : -2147483648 ≤ r.toInt ∧ r.toInt < 2147483648 :=
  ⟨by simpa using r.le_toInt, by simpa using r.toInt_lt⟩

/-- Lift a kernel-checked statement over a complete finite range of runes to every rune there. -/
theorem forall_range (P : Rune → Prop) (lo n : Nat) (hb : lo + n ≤ 2147483648)
    (h : ∀ i, i < n → P (Int32.ofNat (lo + i))) (r : Rune)
    (h1 : (lo : Int) ≤ r.toInt) (h2 : r.toInt < (lo + n : Nat)) : P r := by
  have e : r.toInt = ((lo + (r.toInt - lo).toNat : Nat) : Int) := by omega
  rw [rune_eq_ofNat e (by omega)]
  exact h _ (by omega)

end Go

namespace Hangul
open Go

/-- The two Unicode blocks that hold all jamo: 1100–11FF and 3130–318F. -/
def inJamo (r : Rune) : Prop :=
  (0x1100 ≤ r.toInt ∧ r.toInt < 0x1200) ∨ (0x3130 ≤ r.toInt ∧ r.toInt < 0x3190)

instance (r : Rune) : Decidable (inJamo r) := by unfold inJamo; infer_instance

theorem forall_jamo (P : Rune → Prop)
    (h1 : ∀ i, i < 256 → P (Int32.ofNat (0x1100 + i)))
    (h2 : ∀ i, i < 96 → P (Int32.ofNat (0x3130 + i)))
    (r : Rune) (hr : inJamo r) : P r := by
  rcases hr with ⟨a, b⟩ | ⟨a, b⟩
  · exact forall_range P 0x1100 256 (by omega) h1 r (by omega) (by omega)
  · exact forall_range P 0x3130 96 (by omega) h2 r (by omega) (by omega)

theorem le_iff (a b : Rune) : decide (a ≤ b) = decide (a.toInt ≤ b.toInt) := by
  simp [Int32.le_iff_toInt_le]

theorem mapGet_outside {α : Type} (m : List (Rune × α)) (hm : ∀ e ∈ m, inJamo e.1)
    (r : Rune) (hr : ¬ inJamo r) : mapGet m r = none :=
  mapGet_eq_none m r (fun e he heq => hr (heq ▸ hm e he))

theorem toInt_LeadG : LeadG.toInt = 0x1100 := by decide
theorem toInt_LeadH : LeadH.toInt = 0x1112 := by decide
theorem toInt_MedialA : MedialA.toInt = 0x1161 := by decide
theorem toInt_MedialI : MedialI.toInt = 0x1175 := by decide
theorem toInt_TailG : TailG.toInt = 0x11A8 := by decide
theorem toInt_TailH : TailH.toInt = 0x11C2 := by decide
theorem toInt_G : G.toInt = 0x3131 := by decide
theorem toInt_H : H.toInt = 0x314E := by decide
theorem toInt_A : A.toInt = 0x314F := by decide
theorem toInt_I : I.toInt = 0x3163 := by decide
theorem toInt_leadBase : leadBase.toInt = 0x1100 := by decide
theorem toInt_medialBase : medialBase.toInt = 0x1161 := by decide
theorem toInt_tailBase : tailBase.toInt = 0x11A8 := by decide
theorem toInt_AC00 : (0xAC00 : Rune).toInt = 0xAC00 := by decide
theorem toInt_D7A3 : (0xD7A3 : Rune).toInt = 0xD7A3 := by decide

theorem IsLead_iff (r : Rune) : IsLead r = true ↔ 0x1100 ≤ r.toInt ∧ r.toInt ≤ 0x1112 := by
  simp [IsLead, Int32.le_iff_toInt_le, toInt_LeadG, toInt_LeadH]
theorem IsMedial_iff (r : Rune) : IsMedial r = true ↔ 0x1161 ≤ r.toInt ∧ r.toInt ≤ 0x1175 := by
  simp [IsMedial, Int32.le_iff_toInt_le, toInt_MedialA, toInt_MedialI]
theorem IsTail_iff (r : Rune) : IsTail r = true ↔ 0x11A8 ≤ r.toInt ∧ r.toInt ≤ 0x11C2 := by
  simp [IsTail, Int32.le_iff_toInt_le, toInt_TailG, toInt_TailH]
theorem IsJaeum_iff (r : Rune) : IsJaeum r = true ↔
    (0x3131 ≤ r.toInt ∧ r.toInt ≤ 0x314E) ∨ (0x1100 ≤ r.toInt ∧ r.toInt ≤ 0x1112) ∨
      (0x11A8 ≤ r.toInt ∧ r.toInt ≤ 0x11C2) := by
  rw [← IsLead_iff, ← IsTail_iff]
  simp [IsJaeum, Int32.le_iff_toInt_le, toInt_G, toInt_H]
theorem IsMoeum_iff (r : Rune) : IsMoeum r = true ↔
    (0x314F ≤ r.toInt ∧ r.toInt ≤ 0x3163) ∨ (0x1161 ≤ r.toInt ∧ r.toInt ≤ 0x1175) := by
  rw [← IsMedial_iff]
  simp [IsMoeum, Int32.le_iff_toInt_le, toInt_A, toInt_I]
theorem IsHangul_iff (r : Rune) : IsHangul r = true ↔
    (0xAC00 ≤ r.toInt ∧ r.toInt ≤ 0xD7A3) ∨ IsJaeum r = true ∨ IsMoeum r = true := by
  simp [IsHangul, Int32.le_iff_toInt_le, toInt_AC00, toInt_D7A3]

theorem not_inJamo_ranges {r : Rune} (hr : ¬ inJamo r) :
    IsLead r = false ∧ IsMedial r = false ∧ IsTail r = false ∧ IsJaeum r = false ∧
      IsMoeum r = false := by
  unfold inJamo at hr
  simp only [Bool.eq_false_iff, ne_eq, IsLead_iff, IsMedial_iff, IsTail_iff, IsJaeum_iff,
    IsMoeum_iff]
  omega

theorem CompatJamo_outside {r : Rune} (hr : ¬ inJamo r) : CompatJamo r = 0 := by
  have h := mapGet_outside toCompatJamo (by decide) r hr
  unfold inJamo at hr
  unfold CompatJamo
  rw [h]
  simp only [Int32.le_iff_toInt_le, toInt_G, toInt_H, toInt_A, toInt_I, toInt_MedialA,
    toInt_MedialI, Bool.and_eq_true, decide_eq_true_eq]
  rw [if_neg (by omega), if_neg (by omega), if_neg (by omega)]

theorem Lead_outside {r : Rune} (hr : ¬ inJamo r) : Lead r = 0 := by
  have h := mapGet_outside toLead (by decide) r hr
  unfold inJamo at hr
  unfold Lead
  rw [h]
  simp only [Int32.le_iff_toInt_le, toInt_LeadG, toInt_LeadH, Bool.and_eq_true, decide_eq_true_eq]
  rw [if_neg (by omega)]

theorem Tail_outside {r : Rune} (hr : ¬ inJamo r) : Tail r = 0 := by
  have h := mapGet_outside toTail (by decide) r hr
  unfold inJamo at hr
  unfold Tail
  rw [h]
  simp only [Int32.le_iff_toInt_le, toInt_TailG, toInt_TailH, Bool.and_eq_true, decide_eq_true_eq]
  rw [if_neg (by omega)]

theorem Medial_outside {r : Rune} (hr : ¬ inJamo r) : Medial r = 0 := by
  unfold inJamo at hr
  unfold Medial
  simp only [Int32.le_iff_toInt_le, toInt_MedialA, toInt_MedialI, toInt_A, toInt_I,
    Bool.and_eq_true, decide_eq_true_eq]
  rw [if_neg (by omega), if_neg (by omega)]

theorem SplitMultiElement_outside {r : Rune} (hr : ¬ inJamo r) : SplitMultiElement r = none := by
  unfold SplitMultiElement SplitMultiElementT
  rw [CompatJamo_outside hr]
  decide

/-- A syllable, as an integer range. -/
theorem not_inJamo_of_ge {r : Rune} (h : 0x3190 ≤ r.toInt) : ¬ inJamo r := by
  unfold inJamo; omega

end Hangul
