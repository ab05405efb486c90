import Verif.Spec.Chart
import Verif.Lemmas.Cp949
/-! Facts about the layout of the chart, by kernel evaluation over the whole table. -/
namespace Cp949
open KSort Spec

def inKs (c : Nat) : Bool :=
  (Nat.ble 0xB0 (c / 256) && Nat.ble (c / 256) 0xC8) && (Nat.ble 0xA1 (c % 256) && Nat.ble (c % 256) 0xFE)

def inExt (c : Nat) : Bool :=
  ((Nat.ble 0x81 (c / 256) && Nat.ble (c / 256) 0xA0) &&
    ((Nat.ble 0x41 (c % 256) && Nat.ble (c % 256) 0x5A) || (Nat.ble 0x61 (c % 256) && Nat.ble (c % 256) 0x7A) ||
      (Nat.ble 0x81 (c % 256) && Nat.ble (c % 256) 0xFE))) ||
  ((Nat.ble 0xA1 (c / 256) && Nat.ble (c / 256) 0xC5) &&
    ((Nat.ble 0x41 (c % 256) && Nat.ble (c % 256) 0x5A) || (Nat.ble 0x61 (c % 256) && Nat.ble (c % 256) 0x7A) ||
      (Nat.ble 0x81 (c % 256) && Nat.ble (c % 256) 0xA0))) ||
  (Nat.beq (c / 256) 0xC6 && (Nat.ble 0x41 (c % 256) && Nat.ble (c % 256) 0x52))

theorem inKs_iff (c : Nat) : inKs c = true ↔ KsCode c := by
  simp only [inKs, KsCode, Bool.and_eq_true, Nat.ble_eq]

theorem inExt_iff (c : Nat) : inExt c = true ↔ ExtCode c := by
  simp only [inExt, ExtCode, Bool.and_eq_true, Bool.or_eq_true, Nat.ble_eq, Nat.beq_eq]
  omega

/-- The codes with lead bytes `l`, ..., `l + n - 1` and the given trail bytes, in order. -/
def codes (l n : Nat) (trails : List Nat) : List Nat :=
  (List.range' l n).flatMap fun l => trails.map fun t => l * 256 + t

theorem mem_codes {l n : Nat} {trails : List Nat} {c : Nat} (h1 : l ≤ c / 256) (h2 : c / 256 < l + n)
    (h3 : c % 256 ∈ trails) : c ∈ codes l n trails :=
  List.mem_flatMap.2 ⟨c / 256, List.mem_range'_1.2 ⟨h1, h2⟩, List.mem_map.2 ⟨_, h3, by omega⟩⟩

def trails1 : List Nat := List.range' 0x41 26 ++ (List.range' 0x61 26 ++ List.range' 0x81 126)
def trails2 : List Nat := List.range' 0x41 26 ++ (List.range' 0x61 26 ++ List.range' 0x81 32)

def ksCodes : List Nat := codes 0xB0 25 (List.range' 0xA1 94)

def extCodes : List Nat :=
  codes 0x81 32 trails1 ++ (codes 0xA1 37 trails2 ++ codes 0xC6 1 (List.range' 0x41 18))

theorem mem_ksCodes {c : Nat} (h : inKs c = true) : c ∈ ksCodes := by
  rw [inKs_iff] at h
  obtain ⟨h1, h2⟩ := h
  exact mem_codes (by omega) (by omega) (by rw [List.mem_range'_1]; omega)

theorem mem_extCodes {c : Nat} (h : inExt c = true) : c ∈ extCodes := by
  rw [inExt_iff] at h
  unfold extCodes
  rw [List.mem_append, List.mem_append]
  rcases h with ⟨h1, h2⟩ | ⟨h1, h2⟩ | ⟨h1, h2⟩
  · left
    refine mem_codes (by omega) (by omega) ?_
    unfold trails1
    rw [List.mem_append, List.mem_append, List.mem_range'_1, List.mem_range'_1, List.mem_range'_1]
    omega
  · right; left
    refine mem_codes (by omega) (by omega) ?_
    unfold trails2
    rw [List.mem_append, List.mem_append, List.mem_range'_1, List.mem_range'_1, List.mem_range'_1]
    omega
  · right; right
    exact mem_codes (by omega) (by omega) (by rw [List.mem_range'_1]; omega)

def ksPart : List (Nat × Nat) := rawFrom.filter fun e => inKs e.1
def extPart : List (Nat × Nat) := rawFrom.filter fun e => inExt e.1

theorem ks_codes : eqKeys ksPart ksCodes = true := by decide +kernel
theorem ext_codes : eqKeys extPart extCodes = true := by decide +kernel
theorem ks_chars : sortedFrom 0xABFF (ksPart.map fun e => (e.2, e.1)) = true := by
  decide +kernel
theorem ext_chars : sortedFrom 0xABFF (extPart.map fun e => (e.2, e.1)) = true := by
  decide +kernel
theorem hangul_area : (rawFrom.all fun e =>
    (Nat.ble 0xAC00 e.2 && Nat.ble e.2 0xD7A3) == (inKs e.1 || inExt e.1)) = true := by decide +kernel

def inRows (c : Nat) : Bool := rows.any fun r => Nat.ble r.1 c && Nat.blt c (r.1 + r.2.2)

theorem rows_chart : eqb (rawFrom.filter fun e => inRows e.1)
    (rows.flatMap fun r => (List.range r.2.2).map fun i => (r.1 + i, r.2.1 + i)) = true := by decide +kernel

theorem area_order {p : Nat × Nat → Bool}
    (hs : sortedFrom 0xABFF ((rawFrom.filter p).map fun e => (e.2, e.1)) = true)
    {c c' u u' : Nat} (h : Chart c u) (h' : Chart c' u') (hc : p (c, u) = true) (hc' : p (c', u') = true) :
    c < c' ↔ u < u' := by
  have hp : (rawFrom.filter p).Pairwise (fun a b => a.1 < b.1) :=
    (sortedFrom_spec _ _ rawFrom_sorted).2.filter _
  have hq := (sortedFrom_spec _ _ hs).2
  rw [List.pairwise_map] at hq
  have hi := List.mem_filter.2 ⟨chart_iff.1 h, hc⟩
  have hj := List.mem_filter.2 ⟨chart_iff.1 h', hc'⟩
  obtain ⟨i, hi, ei⟩ := List.getElem_of_mem hi
  obtain ⟨j, hj, ej⟩ := List.getElem_of_mem hj
  have a1 := List.pairwise_iff_getElem.1 hp
  have a2 := List.pairwise_iff_getElem.1 hq
  rcases Nat.lt_trichotomy i j with hl | rfl | hl
  · have b1 := a1 i j hi hj hl
    have b2 := a2 i j hi hj hl
    rw [ei, ej] at b1 b2
    simp only at b1 b2
    omega
  · rw [ei] at ej
    simp only [Prod.mk.injEq] at ej
    omega
  · have b1 := a1 j i hj hi hl
    have b2 := a2 j i hj hi hl
    rw [ei, ej] at b1 b2
    simp only at b1 b2
    omega

attribute [local irreducible] rawFrom

theorem ks_full {c : Nat} (hc : KsCode c) : ∃ u, Chart c u := by
  have hm := mem_ksCodes ((inKs_iff c).2 hc)
  rw [← eqKeys_eq _ _ ks_codes] at hm
  obtain ⟨⟨c', u⟩, he, rfl⟩ := List.mem_map.1 hm
  exact ⟨u, chart_iff.2 (List.mem_filter.1 he).1⟩

theorem ext_full {c : Nat} (hc : ExtCode c) : ∃ u, Chart c u := by
  have hm := mem_extCodes ((inExt_iff c).2 hc)
  rw [← eqKeys_eq _ _ ext_codes] at hm
  obtain ⟨⟨c', u⟩, he, rfl⟩ := List.mem_map.1 hm
  exact ⟨u, chart_iff.2 (List.mem_filter.1 he).1⟩

theorem ks_order {c c' u u' : Nat} (h : Chart c u) (h' : Chart c' u') (hc : KsCode c) (hc' : KsCode c') :
    c < c' ↔ u < u' :=
  area_order ks_chars h h' ((inKs_iff c).2 hc) ((inKs_iff c').2 hc')

theorem ext_order {c c' u u' : Nat} (h : Chart c u) (h' : Chart c' u') (hc : ExtCode c) (hc' : ExtCode c') :
    c < c' ↔ u < u' :=
  area_order ext_chars h h' ((inExt_iff c).2 hc) ((inExt_iff c').2 hc')

theorem area_iff {c u : Nat} (h : Chart c u) :
    (0xAC00 ≤ u ∧ u ≤ 0xD7A3) ↔ KsCode c ∨ ExtCode c := by
  have := List.all_eq_true.1 hangul_area _ (chart_iff.1 h)
  rw [beq_iff_eq, Bool.eq_iff_iff, Bool.and_eq_true, Bool.or_eq_true, inKs_iff, inExt_iff, Nat.ble_eq,
    Nat.ble_eq] at this
  exact this

theorem rows_mem {r : Nat × Nat × Nat} (hr : r ∈ rows) {i : Nat} (hi : i < r.2.2) :
    Chart (r.1 + i) (r.2.1 + i) := by
  have : (r.1 + i, r.2.1 + i) ∈ rows.flatMap fun r => (List.range r.2.2).map fun i => (r.1 + i, r.2.1 + i) :=
    List.mem_flatMap.2 ⟨r, hr, List.mem_map.2 ⟨i, List.mem_range.2 hi, rfl⟩⟩
  rw [← eqb_eq _ _ rows_chart] at this
  exact chart_iff.2 (List.mem_filter.1 this).1

theorem rows_bound {r : Nat × Nat × Nat} (hr : r ∈ rows) {i : Nat} (hi : i < r.2.2) :
    r.2.1 + i < 0xD800 ∨ (0xE000 ≤ r.2.1 + i ∧ r.2.1 + i < 0x10000) := by
  have : rows.all (fun r => decide (r.2.1 + r.2.2 ≤ 0xD800) ||
      (decide (0xE000 ≤ r.2.1) && decide (r.2.1 + r.2.2 ≤ 0x10000))) = true := by decide
  have := List.all_eq_true.1 this r hr
  rw [Bool.or_eq_true, Bool.and_eq_true, decide_eq_true_eq, decide_eq_true_eq, decide_eq_true_eq] at this
  omega

end Cp949
