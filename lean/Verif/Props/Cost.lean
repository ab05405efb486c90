import Verif.Props.Conc
import Verif.Lemmas.Cost
/-! C70: how long a conversion takes. -/
namespace Props
open Go Cp949 Spec

theorem from_length : fromTable.length = 17048 := by
  rw [fromTable, List.length_map]
  decide +kernel

theorem to_length : toTable.length = 17048 := by
  rw [toTable, List.length_map]
  decide +kernel

attribute [local irreducible] fromTable toTable rawFrom rawTo

/-- A call of `From` or `To` on `n` bytes takes at most `46 * n + 37` steps (each the treatment of a character, an
allocation, or one byte copied or stored), if `append` makes a buffer at least a quarter larger when it has to
make it larger. So copying to larger buffers costs a constant for each byte, although the buffer starts empty. -/
theorem C70_linear {grow : Nat → Nat → Nat} (hg : ∀ c n, c < n → c + c / 4 ≤ n + grow c n) {h₀ : Heap} {s : State}
    (e : Events grow ⟨h₀, []⟩ s) {i : Nat} {x : Thread} (hx : s.threads[i]? = some x)
    (hn : 46 * x.input.length + 37 ≤ x.steps) : ∃ out err, x.call.pc = .done out err := by
  have hnl : ¬ Live x.call := by
    intro hl
    have h1 := events_lin hg e i x hx hl
    have h2 := step_lin hg ((events_good e).good i x hx hl).1
    omega
  cases hp : x.call.pc with
  | done out err => exact ⟨out, err, rfl⟩
  | _ => exact (hnl fun out err h => by rw [hp] at h; cases h).elim

/-- To decode a character `From` looks at no more than 15 of the 17048 entries of its table: for every code there are 15
positions such that every table of that length with the same entries there gives the same answer. -/
theorem C70_lookup_from (n : UInt16) : ∃ ps : List Nat, ps.length ≤ 15 ∧ (∀ p ∈ ps, p < fromTable.length) ∧
    ∀ table : LookupTable, table.length = fromTable.length → (∀ p ∈ ps, table[p]? = fromTable[p]?) →
      searchCp949 table n = searchCp949 fromTable n := by
  have hl : fromTable.length < 2 ^ 15 := by rw [from_length]; decide
  obtain ⟨ps, h1, h2, h3⟩ := searchLoop_probes (fun i => decide (n ≤ (fromTable.getD i default).cp949))
    fromTable.length 0 fromTable.length 15 (by omega)
  refine ⟨ps, h1, fun p hp => (h2 p hp).2, ?_⟩
  intro table ht hp
  unfold searchCp949 search
  rw [ht]
  refine h3 _ fun p hp' => ?_
  rw [List.getD_eq_getElem?_getD, List.getD_eq_getElem?_getD, hp p hp']

/-- The same for `To`. -/
theorem C70_lookup_to (n : UInt16) : ∃ ps : List Nat, ps.length ≤ 15 ∧ (∀ p ∈ ps, p < toTable.length) ∧
    ∀ table : LookupTable, table.length = toTable.length → (∀ p ∈ ps, table[p]? = toTable[p]?) →
      searchUcs2 table n = searchUcs2 toTable n := by
  have hl : toTable.length < 2 ^ 15 := by rw [to_length]; decide
  obtain ⟨ps, h1, h2, h3⟩ := searchLoop_probes (fun i => decide (n ≤ (toTable.getD i default).ucs2))
    toTable.length 0 toTable.length 15 (by omega)
  refine ⟨ps, h1, fun p hp => (h2 p hp).2, ?_⟩
  intro table ht hp
  unfold searchUcs2 search
  rw [ht]
  refine h3 _ fun p hp' => ?_
  rw [List.getD_eq_getElem?_getD, List.getD_eq_getElem?_getD, hp p hp']

/-- Go's own policy (doubling small slices, a quarter more for large ones) meets the hypothesis of `C70_linear`. -/
example : ∀ c n, c < n → c + c / 4 ≤ n + (fun c n => if c < 256 then c + c - n else c + (c + 768) / 4 - n) c n := by
  intro c n h
  simp only
  split <;> omega

end Props
