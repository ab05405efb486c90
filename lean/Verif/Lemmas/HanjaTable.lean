import Verif.Lemmas.Sort
import Verif.Hanja.Table
/-! Facts about hanja/table.go, by kernel evaluation over the whole table. -/
namespace Hanja
open KSort

/-- The keys in increasing order. -/
def keyList : List Nat :=
  List.range' 0x3400 0x19b6 ++ (List.range' 0x4e00 0x51a6 ++
    [0xFA0E, 0xFA0F, 0xFA11, 0xFA13, 0xFA14, 0xFA1F, 0xFA21, 0xFA23, 0xFA24, 0xFA27, 0xFA28, 0xFA29])

theorem rawTable_bits : (force (bitsOf rawTable) fun s => keyList.all (hasBit s)) = true := by decide +kernel

def len : List (Nat × Nat) → Nat → Nat
  | [], n => n
  | _ :: l, n => len l (n + 1)

theorem len_eq (l : List (Nat × Nat)) (n : Nat) : len l n = n + l.length := by
  induction l generalizing n with
  | nil => rfl
  | cons a l ih => rw [len, ih, List.length_cons]; omega

theorem rawTable_len : len rawTable 0 = 27496 := by decide +kernel

theorem rawTable_values :
    (rawTable.all fun e => Nat.ble 0xAC00 e.2 && Nat.ble e.2 0xD7A3) = true := by decide +kernel

theorem rawTable_value {k v : Nat} (h : (k, v) ∈ rawTable) : 0xAC00 ≤ v ∧ v ≤ 0xD7A3 := by
  have := List.all_eq_true.1 rawTable_values _ h
  simpa using this

theorem keyList_nodup : keyList.Pairwise (· ≠ ·) := by
  unfold keyList
  rw [List.pairwise_append]
  refine ⟨List.nodup_range', ?_, ?_⟩
  · rw [List.pairwise_append]
    refine ⟨List.nodup_range', by decide, ?_⟩
    intro a ha b hb
    rw [List.mem_range'_1] at ha
    simp only [List.mem_cons, List.not_mem_nil, or_false] at hb
    omega
  · intro a ha b hb
    rw [List.mem_range'_1] at ha
    rw [List.mem_append, List.mem_range'_1] at hb
    simp only [List.mem_cons, List.not_mem_nil, or_false] at hb
    omega

theorem rawTable_keys_perm : (rawTable.map Prod.fst).Perm keyList := by
  refine (perm_of_subset keyList_nodup (fun a ha => ?_) ?_).symm
  · have := rawTable_bits
    rw [force_eq] at this
    exact bitsOf_mem (List.all_eq_true.1 this a ha)
  · have := rawTable_len
    rw [len_eq] at this
    rw [List.length_map, show rawTable.length = 27496 by omega]
    simp [keyList]

theorem rawTable_keys_nodup : (rawTable.map Prod.fst).Pairwise (· ≠ ·) :=
  (rawTable_keys_perm.pairwise_iff (fun h => h.symm)).2 keyList_nodup

theorem mem_keyList (n : Nat) : n ∈ keyList ↔ (0x3400 ≤ n ∧ n ≤ 0x4DB5) ∨ (0x4E00 ≤ n ∧ n ≤ 0x9FA5) ∨
    n ∈ [0xFA0E, 0xFA0F, 0xFA11, 0xFA13, 0xFA14, 0xFA1F, 0xFA21, 0xFA23, 0xFA24, 0xFA27, 0xFA28, 0xFA29] := by
  unfold keyList
  rw [List.mem_append, List.mem_append, List.mem_range'_1, List.mem_range'_1]
  constructor
  · rintro (h | h | h)
    · left; omega
    · right; left; omega
    · right; right; exact h
  · rintro (h | h | h)
    · left; omega
    · right; left; omega
    · right; right; exact h

theorem mem_keys (n : Nat) : n ∈ rawTable.map Prod.fst ↔ n ∈ keyList := rawTable_keys_perm.mem_iff

end Hanja
