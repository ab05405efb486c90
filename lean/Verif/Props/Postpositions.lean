import Verif.Props.Word
/-! C121: postpositions that begin with 으로. -/
namespace Hangul
open Go Spec

/-- C121, exactly (partial: the other case is wrong), for every word, a byte string like any other: 으로 and a further part `x`
are appended as 으로 is, with `x` after it, exactly if `x` is empty or the word does not end in ㄹ. -/
theorem C121_longer_iff_partial (word x : Str) :
    AppendPostposition word (utf8 ['으', '로'] ++ x) (utf8 ['로'] ++ x) =
      AppendPostposition word (utf8 ['으', '로']) (utf8 ['로']) ++ x ↔ (x = [] ∨ LastConsonant word ≠ 0x11AF) := by
  rw [C21_by_last_consonant, C21_by_last_consonant]
  have h1 : utf8 ['으', '로'] ++ x = utf8 ['으', '로'] ↔ x = [] := by simp
  have hl : (utf8 ['으', '로']).length = 6 ∧ (utf8 ['로']).length = 3 := by decide
  have h2 : ∀ y : Str, word ++ (utf8 ['으', '로'] ++ y) ≠ word ++ utf8 ['로'] ++ y := by
    intro y e
    have := congrArg List.length e
    simp only [List.length_append, hl] at this
    omega
  simp only [h1]
  generalize utf8 ['으', '로'] = a at *
  generalize utf8 ['로'] = b at *
  by_cases hx : x = []
  · simp [hx]
  · by_cases h0 : LastConsonant word = 0
    · simp [h0]
    · by_cases h8 : LastConsonant word = 0x11AF
      · rw [if_neg (by simp [hx, h0]), if_pos (by simp [h8])]
        simp only [hx, h8, ne_eq, not_true, or_false, iff_false]
        exact h2 x
      · simp [h0, h8, hx]

/-- FALSE as stated: after every word whose last syllable ends in ㄹ (8), 으로 with any further part is appended and not 로 with
that part: 서울으로부터 for 서울로부터. -/
theorem C121_longer_fails (w x : Str) (hx : x ≠ []) (c : Char) (i j : Nat) (hi : i < 19) (hj : j < 21)
    (hc : c.toNat = 0xAC00 + (i * 21 + j) * 28 + 8) :
    AppendPostposition (w ++ utf8 [c]) (utf8 ['으', '로']) (utf8 ['로']) = w ++ utf8 [c] ++ utf8 ['로'] ∧
    AppendPostposition (w ++ utf8 [c]) (utf8 ['으', '로'] ++ x) (utf8 ['로'] ++ x) = w ++ utf8 [c] ++ utf8 ['으', '로'] ++ x := by
  rw [C21_choice w _ _ c i j 8 hi hj (by omega) hc, C21_choice w _ _ c i j 8 hi hj (by omega) hc]
  refine ⟨by simp, ?_⟩
  rw [if_neg (by simp [hx]), List.append_assoc (w ++ utf8 [c])]

/-- 서울 and 부터: the code gives 서울로 but 서울으로부터. 집 takes 으로부터, rightly. -/
example : AppendPostposition (utf8 ['서', '울']) (utf8 ['으', '로']) (utf8 ['로']) = utf8 ['서', '울', '로'] ∧
    AppendPostposition (utf8 ['서', '울']) (utf8 ['으', '로'] ++ utf8 ['부', '터']) (utf8 ['로'] ++ utf8 ['부', '터']) =
      utf8 ['서', '울', '으', '로', '부', '터'] ∧ utf8 ['부', '터'] ≠ [] ∧
    ('울' : Char).toNat = 0xAC00 + (11 * 21 + 13) * 28 + 8 ∧ LastConsonant (utf8 ['집']) ≠ 0x11AF := by decide

end Hangul
