import Verif.Go.Basic
/-! Correctness of `sort.Search`. -/
namespace Go

/-- More fuel than the interval is long changes nothing. -/
theorem searchLoop_fuel (f : Nat → Bool) (m n i j : Nat) (hm : j - i ≤ m) (hn : j - i ≤ n) :
    searchLoop f m i j = searchLoop f n i j := by
  induction m generalizing n i j with
  | zero =>
    cases n with
    | zero => rfl
    | succ n => simp only [searchLoop]; rw [if_neg (by omega)]
  | succ m ih =>
    cases n with
    | zero => simp only [searchLoop]; rw [if_neg (by omega)]
    | succ n =>
      simp only [searchLoop]
      by_cases h : i < j
      · rw [if_pos h, if_pos h]
        split
        · exact ih _ _ _ (by omega) (by omega)
        · exact ih _ _ _ (by omega) (by omega)
      · rw [if_neg h, if_neg h]

/-- The function is called only inside the interval. -/
theorem searchLoop_congr (f g : Nat → Bool) (m i j : Nat) (h : ∀ k, i ≤ k → k < j → f k = g k) :
    searchLoop f m i j = searchLoop g m i j := by
  induction m generalizing i j with
  | zero => rfl
  | succ m ih =>
    simp only [searchLoop]
    by_cases hij : i < j
    · rw [if_pos hij, if_pos hij, h ((i + j) / 2) (by omega) (by omega)]
      split
      · exact ih _ _ fun k h1 h2 => h k h1 (by omega)
      · exact ih _ _ fun k h1 h2 => h k (by omega) h2
    · rw [if_neg hij, if_neg hij]

/-- For a function that is false and then true the result is the first true place. -/
theorem searchLoop_spec (f : Nat → Bool) (m i j : Nat) (hm : j - i ≤ m) (hij : i ≤ j)
    (hf : ∀ a b, i ≤ a → a ≤ b → b < j → f a = true → f b = true) :
    i ≤ searchLoop f m i j ∧ searchLoop f m i j ≤ j ∧
    (∀ k, i ≤ k → k < searchLoop f m i j → f k = false) ∧
    (∀ k, searchLoop f m i j ≤ k → k < j → f k = true) := by
  induction m generalizing i j with
  | zero =>
    simp only [searchLoop]
    exact ⟨by omega, by omega, fun k h1 h2 => by omega, fun k h1 h2 => by omega⟩
  | succ m ih =>
    simp only [searchLoop]
    by_cases h : i < j
    · rw [if_pos h]
      by_cases hh : f ((i + j) / 2) = true
      · rw [if_pos hh]
        obtain ⟨h1, h2, h3, h4⟩ := ih i ((i + j) / 2) (by omega) (by omega)
          fun a b ha hab hb => hf a b ha hab (by omega)
        refine ⟨h1, by omega, h3, ?_⟩
        intro k hk hkj
        by_cases hk2 : k < (i + j) / 2
        · exact h4 k hk hk2
        · exact hf ((i + j) / 2) k (by omega) (by omega) hkj hh
      · rw [if_neg hh]
        obtain ⟨h1, h2, h3, h4⟩ := ih ((i + j) / 2 + 1) j (by omega) (by omega)
          fun a b ha hab hb => hf a b (by omega) hab hb
        refine ⟨by omega, h2, ?_, h4⟩
        intro k hk hkr
        by_cases hk2 : (i + j) / 2 + 1 ≤ k
        · exact h3 k hk2 hkr
        · by_cases hk3 : f k = true
          · exact absurd (hf k ((i + j) / 2) hk (by omega) (by omega) hk3) hh
          · simpa using hk3
    · rw [if_neg h]
      exact ⟨by omega, by omega, fun k h1 h2 => by omega, fun k h1 h2 => by omega⟩

theorem search_spec (n : Nat) (f : Nat → Bool)
    (hf : ∀ a b, a ≤ b → b < n → f a = true → f b = true) :
    search n f ≤ n ∧ (∀ k, k < search n f → f k = false) ∧
    (∀ k, search n f ≤ k → k < n → f k = true) := by
  obtain ⟨_, h2, h3, h4⟩ := searchLoop_spec f n 0 n (by omega) (by omega)
    fun a b _ h hb => hf a b h hb
  exact ⟨h2, fun k hk => h3 k (Nat.zero_le _) hk, h4⟩

end Go
