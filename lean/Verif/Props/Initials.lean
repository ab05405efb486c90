import Verif.Props.Normal
import Verif.Lemmas.Jamo
/-! Property theorems C112: the initial consonant of a character, as SplitCompat gives it. -/
namespace Props
open Go Spec Hangul

/-- The syllables with leading consonant number `i`: 588 in a row, from U+AC00 + 588 i on. -/
def InBlock (i : Nat) (r : Rune) : Prop := 0xAC00 + 588 * (i : Int) ≤ r.toInt ∧ r.toInt < 0xAC00 + 588 * (i + 1 : Int)

/-- The number of the block in which a syllable lies. -/
theorem block_of {r : Rune} (h : IsSyllable r) : InBlock ((r.toInt - 0xAC00) / 588).toNat r ∧
    ((r.toInt - 0xAC00) / 588).toNat < 19 := by
  unfold IsSyllable at h
  unfold InBlock
  omega

private theorem leadLetter_toInt {i : Nat} (hi : i < 19) :
    leadLetters[i]? = some (leadLetter i).toInt ∧ 0x3131 ≤ (leadLetter i).toInt ∧ (leadLetter i).toInt ≤ 0x314E ∧
    leadLetter i ≠ 0 := by
  revert i
  decide

private theorem leadLetters_inj {i j : Nat} (hi : i < 19) (hj : j < 19) (h : leadLetters[i]? = leadLetters[j]?) : i = j := by
  have : ∀ i < 19, ∀ j < 19, leadLetters[i]? = leadLetters[j]? → i = j := by decide
  exact this i hi j hj h

private theorem tailLetter_toInt {k : Nat} (hk : k < 27) : tailLetters[k]? = some (tailLetter (k + 1)).toInt := by
  revert k
  decide

/-- C112, exactly which characters SplitCompat gives the initial consonant `i` (partial: not only syllables): of all code points
those of its block of syllables; and further, for ㄱ, the 587 code points before the syllables; and 588 code points beyond
U+10000 for each trailing consonant that is the same letter. -/
theorem C112_any_rune_partial (r : Rune) (h0 : 0 ≤ r.toInt) (h1 : r.toInt ≤ 0x10FFFF) (i : Nat) (hi : i < 19) :
    (SplitCompat r).1 = leadLetter i ↔
      InBlock i r ∨ (i = 0 ∧ 0xA9B5 ≤ r.toInt ∧ r.toInt < 0xAC00) ∨
      ∃ k : Nat, 1 ≤ k ∧ k < 28 ∧ tailLetter k = leadLetter i ∧
        0xAC00 + 588 * (0xA7 + k : Int) ≤ r.toInt ∧ r.toInt < 0xAC00 + 588 * (0xA8 + k : Int) := by
  obtain ⟨d, hd, _, _, hs⟩ := Split_toInt r
  have hd : d = r.toInt - 0xAC00 := by rw [hd, Int.bmod_eq_of_le (by omega) (by omega)]
  subst hd
  obtain ⟨l1, l2, l3, l4⟩ := leadLetter_toInt hi
  have hsp : (SplitCompat r).1 = leadLetter i ↔ Spells (leadLetter i).toInt (Split r).1 := by
    have e : (SplitCompat r).1 = CompatJamo (Split r).1 := by
      unfold SplitCompat
      rcases Split r with ⟨l, m, t⟩
      rfl
    rw [spells_iff, e]
    exact ⟨fun h => ⟨fun h' => l4 (h ▸ h'), by rw [h]⟩, fun h => Int32.toInt_inj.1 h.2⟩
  have hl : (0xAC00 ≤ r.toInt ∧ (Split r).1.toInt = 0x1100 + (r.toInt - 0xAC00) / 588) ∨
      (r.toInt < 0xAC00 ∧ (Split r).1.toInt = 0x1100 - (0xAC00 - r.toInt) / 588) := by
    rcases hs with ⟨a, b, _⟩ | ⟨a, b, _⟩
    · exact .inl ⟨by omega, b⟩
    · exact .inr ⟨by omega, by rw [b]; omega⟩
  rw [hsp]
  unfold Spells InBlock
  constructor
  · rintro ⟨_, h | ⟨j, hj, e, h⟩ | ⟨j, hj, e, h⟩ | ⟨k, hk, e, h⟩⟩
    · omega
    · have := leadLetters_inj hj hi (by rw [h, l1])
      subst this
      rcases hl with ⟨a, b⟩ | ⟨a, b⟩
      · left; omega
      · right; left; omega
    · omega
    · right; right
      refine ⟨k + 1, by omega, by omega, ?_, ?_⟩
      · rw [tailLetter_toInt hk] at h
        exact Int32.toInt_inj.1 (by simpa using h)
      · omega
  · rintro (⟨a, b⟩ | ⟨rfl, a, b⟩ | ⟨k, k1, k2, e, a, b⟩)
    · exact ⟨by omega, .inr (.inl ⟨i, hi, by omega, l1⟩)⟩
    · exact ⟨by omega, .inr (.inl ⟨0, hi, by omega, l1⟩)⟩
    · refine ⟨by omega, .inr (.inr (.inr ⟨k - 1, by omega, by omega, ?_⟩))⟩
      rw [tailLetter_toInt (by omega), show k - 1 + 1 = k by omega, e]

/-- Three characters with initial ㄱ: 각, a letter of the Cham script and a rare hanja. -/
example : InBlock 0 0xAC01 ∧ (0xA9B5 ≤ (0xAA00 : Rune).toInt ∧ (0xAA00 : Rune).toInt < 0xAC00) ∧
    tailLetter 1 = leadLetter 0 ∧ 0xAC00 + 588 * (0xA7 + (1 : Nat) : Int) ≤ (0x22DE0 : Rune).toInt ∧
    (0x22DE0 : Rune).toInt < 0xAC00 + 588 * (0xA8 + (1 : Nat) : Int) := by unfold InBlock; decide

/-- C112 is false: SplitCompat gives an initial consonant to characters that are no syllables. -/
theorem C112_any_rune_fails :
    (¬ IsSyllable 0xAA00 ∧ (SplitCompat 0xAA00).1 = leadLetter 0) ∧
    (¬ IsSyllable 0x22DE0 ∧ (SplitCompat 0x22DE0).1 = leadLetter 0) := by decide +kernel

/-- C112: of a syllable it gives the initial, and syllables with the same initial are 588 in a row. -/
theorem C112_syllable (r : Rune) (h : IsSyllable r) (i : Nat) (hi : i < 19) :
    (SplitCompat r).1 = leadLetter i ↔ InBlock i r := by
  have h' := h
  unfold IsSyllable at h
  rw [C112_any_rune_partial r (by omega) (by omega) i hi]
  constructor
  · rintro (h | ⟨_, _, _⟩ | ⟨k, _, _, _, _, _⟩)
    · exact h
    · omega
    · omega
  · exact .inl

example : IsSyllable 0xD55C ∧ InBlock 18 0xD55C := by unfold InBlock; decide

/-- C112: so a search by initials finds, among texts of syllables, exactly those whose characters lie in the blocks of the
letters typed. -/
theorem C112_search (word : List Rune) (hw : ∀ r ∈ word, IsSyllable r) (is : List Nat) (hi : ∀ i ∈ is, i < 19) :
    word.map (fun r => (SplitCompat r).1) = is.map leadLetter ↔
      word.length = is.length ∧ ∀ n (h : n < word.length) (h' : n < is.length), InBlock is[n] word[n] := by
  induction word generalizing is with
  | nil =>
    cases is with
    | nil => simp
    | cons i is => simp
  | cons r word ih =>
    cases is with
    | nil => simp
    | cons i is =>
      rw [List.map_cons, List.map_cons, List.cons.injEq, ih (fun x hx => hw x (List.mem_cons_of_mem _ hx)) is
        (fun x hx => hi x (List.mem_cons_of_mem _ hx)),
        C112_syllable r (hw r (List.mem_cons_self ..)) i (hi i (List.mem_cons_self ..))]
      constructor
      · rintro ⟨a, b, c⟩
        refine ⟨by simp [b], ?_⟩
        intro n h h'
        cases n with
        | zero => exact a
        | succ n => exact c n (by simpa using h) (by simpa using h')
      · rintro ⟨a, c⟩
        refine ⟨c 0 (by simp) (by simp), by simpa using a, fun n h h' => ?_⟩
        exact c (n + 1) (by simpa using h) (by simpa using h')

/-- 한글 by ㅎㄱ. -/
example : (∀ r ∈ [0xD55C, (0xAE00 : Rune)], IsSyllable r) ∧ (∀ i ∈ [18, 0], i < 19) ∧
    [0xD55C, (0xAE00 : Rune)].map (fun r => (SplitCompat r).1) = [18, 0].map leadLetter := by decide

/-- C112: in a sorted list of words the words with one initial stand together: between two syllables with the same
initial there is none with another. -/
theorem C112_together (a b c : Rune) (ha : IsSyllable a) (hc : IsSyllable c) (h1 : a ≤ b) (h2 : b ≤ c)
    (h : (SplitCompat a).1 = (SplitCompat c).1) : (SplitCompat b).1 = (SplitCompat a).1 := by
  have h1 := Int32.le_iff_toInt_le.1 h1
  have h2 := Int32.le_iff_toInt_le.1 h2
  have hb : IsSyllable b := by unfold IsSyllable at *; omega
  obtain ⟨ba, la⟩ := block_of ha
  have ea := (C112_syllable a ha _ la).2 ba
  have bc := (C112_syllable c hc _ la).1 (by rw [← h, ea])
  rw [ea, C112_syllable b hb _ la]
  unfold InBlock at *
  omega

example : IsSyllable 0xAC00 ∧ IsSyllable 0xAE00 ∧ (0xAC00 : Rune) ≤ 0xAD00 ∧ (0xAD00 : Rune) ≤ 0xAE00 ∧
    (SplitCompat 0xAC00).1 = (SplitCompat 0xAE00).1 := by decide

end Props
