import Verif.Lemmas.HanjaTable
import Verif.Lemmas.Utf8
import Verif.Lemmas.Rune
import Verif.Hanja.Hanja
import Verif.Spec.Hanja
import Verif.Spec.Hangul
/-! Lemmas about the hanja model. -/
namespace Go

theorem mapGet_isSome {α : Type} (m : List (Rune × α)) (k : Rune) :
    (mapGet m k).isSome ↔ k ∈ m.map Prod.fst := by
  induction m with
  | nil => simp [mapGet]
  | cons e m ih =>
    obtain ⟨a, v⟩ := e
    unfold mapGet
    by_cases h : a = k
    · simp [h]
    · simp only [h, if_false, ih, List.map_cons, List.mem_cons]
      simp [Ne.symm h]

theorem mapGet_mem {α : Type} {m : List (Rune × α)} {k : Rune} {v : α} (h : mapGet m k = some v) :
    (k, v) ∈ m := by
  induction m with
  | nil => simp [mapGet] at h
  | cons e m ih =>
    obtain ⟨a, w⟩ := e
    unfold mapGet at h
    by_cases ha : a = k
    · simp only [ha, if_true, Option.some.injEq] at h; simp [ha, h]
    · simp only [ha, if_false] at h; simp [ih h]

theorem mapGet_of_mem {α : Type} {m : List (Rune × α)} (hn : (m.map Prod.fst).Pairwise (· ≠ ·))
    {k : Rune} {v : α} (h : (k, v) ∈ m) : mapGet m k = some v := by
  induction m with
  | nil => simp at h
  | cons e m ih =>
    obtain ⟨a, w⟩ := e
    rw [List.map_cons, List.pairwise_cons] at hn
    unfold mapGet
    rcases List.mem_cons.1 h with h | h
    · simp only [Prod.mk.injEq] at h; simp [h]
    · have : a ≠ k := hn.1 k (List.mem_map.2 ⟨_, h, rfl⟩)
      simp only [this, if_false, ih hn.2 h]

end Go

namespace Hanja
open Go Spec Hangul

theorem key_lt {n : Nat} (h : n ∈ rawTable.map Prod.fst) : n < 0x10000 := by
  rw [mem_keys, mem_keyList] at h
  simp only [List.mem_cons, List.not_mem_nil, or_false] at h
  omega

theorem ofNat_inj {a b : Nat} (ha : a < 0x10000) (hb : b < 0x10000)
    (h : Int32.ofNat a = Int32.ofNat b) : a = b := by
  have h := congrArg Int32.toInt h
  rw [toInt_ofNat_lt (by omega), toInt_ofNat_lt (by omega)] at h
  omega

theorem table_keys : table.map Prod.fst = (rawTable.map Prod.fst).map Int32.ofNat := by
  simp [table, List.map_map, Function.comp_def]

theorem pairwise_map_of {l : List Nat} (h : l.Pairwise (· ≠ ·)) (hl : ∀ n ∈ l, n < 0x10000) :
    (l.map Int32.ofNat).Pairwise (· ≠ ·) := by
  induction l with
  | nil => exact .nil
  | cons a l ih =>
    rw [List.pairwise_cons] at h
    rw [List.map_cons, List.pairwise_cons]
    refine ⟨?_, ih h.2 fun n hn => hl n (List.mem_cons_of_mem _ hn)⟩
    intro b hb e
    obtain ⟨n, hn, rfl⟩ := List.mem_map.1 hb
    exact h.1 n hn (ofNat_inj (hl a (List.mem_cons_self ..)) (hl n (List.mem_cons_of_mem _ hn)) e)

theorem table_nodup : (table.map Prod.fst).Pairwise (· ≠ ·) := by
  rw [table_keys]
  exact pairwise_map_of rawTable_keys_nodup fun n hn => key_lt hn

theorem lookup_iff (c v : Rune) : mapGet table c = some v ↔ (c, v) ∈ table :=
  ⟨mapGet_mem, mapGet_of_mem table_nodup⟩

theorem lookup_syllable {c v : Rune} (h : mapGet table c = some v) : IsSyllable v := by
  have h := mapGet_mem h
  obtain ⟨⟨a, b⟩, he, hv⟩ := List.mem_map.1 h
  simp only [Prod.mk.injEq] at hv
  have := rawTable_value he
  unfold IsSyllable
  rw [← hv.2, toInt_ofNat_lt (by omega)]
  omega

theorem isHanja_iff (c : Rune) : IsHanja c = true ↔ IsIdeograph c.toInt := by
  unfold IsHanja
  rw [mapGet_isSome, table_keys, List.mem_map]
  constructor
  · rintro ⟨n, hn, rfl⟩
    have := key_lt hn
    rw [toInt_ofNat_lt (by omega)]
    rw [mem_keys, mem_keyList] at hn
    unfold IsIdeograph
    simp only [List.mem_cons, List.not_mem_nil, or_false] at *
    omega
  · intro h
    refine ⟨c.toInt.toNat, ?_, ?_⟩
    · rw [mem_keys, mem_keyList]
      unfold IsIdeograph at h
      simp only [List.mem_cons, List.not_mem_nil, or_false] at *
      omega
    · refine (rune_eq_ofNat ?_ ?_).symm
      · unfold IsIdeograph at h
        simp only [List.mem_cons, List.not_mem_nil, or_false] at *
        omega
      · unfold IsIdeograph at h
        simp only [List.mem_cons, List.not_mem_nil, or_false] at *
        omega

/-- What `Convert` does to one rune. -/
def conv (c : Rune) : Rune := (mapGet table c).getD c

theorem convertLoop_eq (a b : List Rune) :
    convertLoop b.length a.length (a ++ b) = a ++ b.map conv := by
  induction b generalizing a with
  | nil => rfl
  | cons c b ih =>
    have hg : (a ++ c :: b)[a.length]? = some c := by simp
    simp only [List.length_cons, convertLoop, hg]
    have hl : ∀ x : Rune, a.length + 1 = (a ++ [x]).length := by simp
    cases h : mapGet table c with
    | none =>
      have h2 : conv c = c := by simp [conv, h]
      have := ih (a ++ [c])
      simp only [List.append_assoc, List.singleton_append] at this
      rw [hl c, this, List.map_cons, h2]
    | some v =>
      have h2 : conv c = v := by simp [conv, h]
      have := ih (a ++ [v])
      simp only [List.append_assoc, List.singleton_append] at this
      simp only
      rw [hl v]
      simp only [List.set_append_right _ _ (Nat.le_refl _), Nat.sub_self, List.set_cons_zero]
      rw [this, List.map_cons, h2]

theorem Convert_eq (h : Str) : Convert h = ofRunes ((runes h).map conv) := by
  unfold Convert
  have := convertLoop_eq [] (runes h)
  simp only [List.length_nil, List.nil_append] at this
  simp only [this]

/-- The character of a syllable rune. -/
theorem exists_char_of_syllable {v : Rune} (h : IsSyllable v) : ∃ c : Char, runeOf c = v := by
  unfold IsSyllable at h
  obtain ⟨c, hc⟩ := exists_char (v := v.toInt.toNat) (by omega)
  refine ⟨c, ?_⟩
  unfold runeOf
  exact (rune_eq_ofNat (by omega) (by omega)).symm

theorem conv_char (c : Char) : ∃ d : Char, conv (runeOf c) = runeOf d := by
  unfold conv
  cases h : mapGet table (runeOf c) with
  | none => exact ⟨c, rfl⟩
  | some v =>
    obtain ⟨d, hd⟩ := exists_char_of_syllable (lookup_syllable h)
    exact ⟨d, hd.symm⟩

theorem conv_chars (cs : List Char) : ∃ ds : List Char, (cs.map runeOf).map conv = ds.map runeOf := by
  induction cs with
  | nil => exact ⟨[], rfl⟩
  | cons c cs ih =>
    obtain ⟨ds, h⟩ := ih
    obtain ⟨d, hd⟩ := conv_char c
    exact ⟨d :: ds, by simp [hd] at *; exact h⟩

theorem not_hanja_of_syllable {v : Rune} (h : IsSyllable v) : IsHanja v = false := by
  rw [Bool.eq_false_iff, ne_eq, isHanja_iff]
  unfold IsSyllable at h
  unfold IsIdeograph
  simp only [List.mem_cons, List.not_mem_nil, or_false]
  omega

theorem conv_not_hanja (c : Rune) : IsHanja (conv c) = false := by
  unfold conv
  cases h : mapGet table c with
  | none => simp [IsHanja, h]
  | some v => exact not_hanja_of_syllable (lookup_syllable h)

theorem conv_of_not_hanja {c : Rune} (h : IsHanja c = false) : conv c = c := by
  unfold IsHanja at h
  unfold conv
  cases h' : mapGet table c with
  | none => rfl
  | some v => simp [h'] at h

end Hanja
