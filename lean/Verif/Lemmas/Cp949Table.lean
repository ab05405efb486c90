import Verif.Lemmas.Sort
import Verif.Cp949.LookupFrom
import Verif.Cp949.LookupTo
import Verif.Spec.Cp949
/-! Facts about lookup_from.go and lookup_to.go, by kernel evaluation over the whole tables. -/
namespace Cp949
open KSort Spec

theorem rawFrom_sorted : sortedFrom 0x8140 rawFrom = true := by decide +kernel
theorem rawTo_sorted : sortedFrom 0xA0 rawTo = true := by decide +kernel

/-- Sorting `lookup_from.go` by character gives `lookup_to.go`. -/
theorem rawFrom_rawTo : eqb (msort (rawFrom.map fun e => (e.2, e.1))) rawTo = true := by
  decide +kernel

def okTrail (n : Nat) : Bool :=
  (Nat.ble 0x41 n && Nat.ble n 0x5A) || (Nat.ble 0x61 n && Nat.ble n 0x7A) ||
    (Nat.ble 0x81 n && Nat.ble n 0xFE)

theorem rawFrom_codes : (rawFrom.all fun e =>
    Nat.ble 0x81 (e.1 / 256) && Nat.ble (e.1 / 256) 0xFD && okTrail (e.1 % 256)) = true := by
  decide +kernel

theorem rawFrom_chars : (rawFrom.all fun e =>
    Nat.ble 0xA1 e.2 && Nat.ble e.2 0xFFE6 && (Nat.blt e.2 0xD800 || Nat.blt 0xDFFF e.2)) = true := by
  decide +kernel

def inSyllables (e : Nat × Nat) : Bool := Nat.ble 0xAC00 e.1 && Nat.ble e.1 0xD7A3

theorem rawTo_syllables :
    eqKeys (rawTo.filter inSyllables) (List.range' 0xAC00 11172) = true := by decide +kernel

theorem rawTo_last : rawTo.any (fun e => Nat.beq e.1 0xFFE6) = true := by decide +kernel

theorem perm_swap : (rawFrom.map fun e => (e.2, e.1)).Perm rawTo := by
  have := msort_perm (rawFrom.map fun e => (e.2, e.1))
  rw [eqb_eq _ _ rawFrom_rawTo] at this
  exact this.symm

/-- `lookup_from.go` is the chart of the specification. -/
theorem rawFrom_chart : eqb chartPairs rawFrom = true := by decide +kernel

theorem chart_iff {c u : Nat} : Chart c u ↔ (c, u) ∈ rawFrom := by
  rw [Chart, eqb_eq _ _ rawFrom_chart]

theorem mem_rawTo (u c : Nat) : (u, c) ∈ rawTo ↔ Chart c u := by
  rw [chart_iff, ← perm_swap.mem_iff, List.mem_map]
  constructor
  · rintro ⟨⟨a, b⟩, h, e⟩
    simp only [Prod.mk.injEq] at e
    obtain ⟨rfl, rfl⟩ := e
    exact h
  · intro h; exact ⟨_, h, rfl⟩

theorem code_range {c u : Nat} (h : Chart c u) :
    0x81 ≤ c / 256 ∧ c / 256 ≤ 0xFD ∧
    ((0x41 ≤ c % 256 ∧ c % 256 ≤ 0x5A) ∨ (0x61 ≤ c % 256 ∧ c % 256 ≤ 0x7A) ∨
      (0x81 ≤ c % 256 ∧ c % 256 ≤ 0xFE)) := by
  have := List.all_eq_true.1 rawFrom_codes _ (chart_iff.1 h)
  simp only [okTrail, Bool.and_eq_true, Bool.or_eq_true, Nat.ble_eq] at this
  omega

theorem char_range {c u : Nat} (h : Chart c u) :
    0xA1 ≤ u ∧ u ≤ 0xFFE6 ∧ (u < 0xD800 ∨ 0xDFFF < u) := by
  have := List.all_eq_true.1 rawFrom_chars _ (chart_iff.1 h)
  simp only [Bool.and_eq_true, Bool.or_eq_true, Nat.ble_eq, Nat.blt_eq] at this
  omega

theorem exists_code {u : Nat} (h1 : 0xAC00 ≤ u) (h2 : u ≤ 0xD7A3) : ∃ c, Chart c u := by
  have hk := eqKeys_eq _ _ rawTo_syllables
  have hu : u ∈ (rawTo.filter inSyllables).map Prod.fst := by
    rw [hk, List.mem_range'_1]; omega
  obtain ⟨⟨u', c⟩, he, rfl⟩ := List.mem_map.1 hu
  exact ⟨c, (mem_rawTo _ _).1 (List.mem_filter.1 he).1⟩

theorem exists_last : ∃ c, Chart c 0xFFE6 := by
  obtain ⟨⟨u, c⟩, he, h⟩ := List.any_eq_true.1 rawTo_last
  rw [Nat.beq_eq] at h
  exact ⟨c, (mem_rawTo _ _).1 (by rw [← h]; exact he)⟩

end Cp949
