import Verif.Props.Resync
import Verif.Spec.Seek
/-! Property theorems C109: where the characters of a CP949 string begin. -/
namespace Props
open Go Spec Cp949

attribute [local irreducible] fromTable toTable rawFrom rawTo

/-- Whether a two-byte character is open after these bytes. -/
private def opened (o : Bool) (b : Str) : Bool := b.foldl (fun o x => !o && !isAscii x) o

private theorem hi_not {x : Byte} (h : 0x80 ≤ x.toNat) : isAscii x = false := by unfold isAscii; simp; omega
private theorem lo_is {x : Byte} (h : x.toNat < 0x80) : isAscii x = true := by unfold isAscii; simp; omega

private theorem opened_truncated {b : Str} (h : Truncated b) : opened false b = true := by
  induction h with
  | lone h => simp [opened, hi_not h]
  | ascii h _ ih => simpa [opened, lo_is h] using ih
  | pair h _ ih => simpa [opened, hi_not h] using ih

private theorem opened_dec {b : Str} {cs : List Char} (h : Dec b cs) : opened false b = false := by
  induction h with
  | nil => rfl
  | ascii h _ _ ih => simpa [opened, lo_is h] using ih
  | pair h _ _ ih => simpa [opened, hi_not h] using ih
  | unassigned h _ _ _ ih => simpa [opened, hi_not h] using ih

theorem highTail_snoc (b : Str) (x : Byte) :
    highTail (b ++ [x]) = if isAscii x then 0 else highTail b + 1 := by
  unfold highTail
  rw [List.reverse_append]
  cases h : isAscii x <;> simp [h]

private theorem opened_snoc (b : Str) (x : Byte) :
    opened false (b ++ [x]) = (!opened false b && !isAscii x) := by
  simp [opened]

private theorem opened_highTail (b : Str) : opened false b = (highTail b % 2 == 1) := by
  generalize hn : b.length = n
  induction n generalizing b with
  | zero => rw [List.length_eq_zero_iff] at hn; subst hn; rfl
  | succ n ih =>
    have hb : b ≠ [] := by rintro rfl; simp at hn
    rw [← List.dropLast_concat_getLast hb, opened_snoc, highTail_snoc, ih _ (by simp [hn])]
    cases isAscii (b.getLast hb)
    · simp only [Bool.not_false, Bool.and_true, Bool.false_eq_true, if_false]
      rcases Nat.mod_two_eq_zero_or_one (highTail b.dropLast) with h | h
      · rw [h, show (highTail b.dropLast + 1) % 2 = 1 by omega]; rfl
      · rw [h, show (highTail b.dropLast + 1) % 2 = 0 by omega]; rfl
    · simp

/-- C109: whether a byte string can be decoded is told by its end alone: it can exactly if an even number of bytes from
0x80 stand after its last ASCII byte. This holds for every byte string, encoded text or not. -/
theorem C109_end (b : Str) : (From b).2 = none ↔ highTail b % 2 = 0 := by
  have h := opened_highTail b
  rcases dec_cases b with ⟨cs, hd⟩ | ht
  · rw [opened_dec hd] at h
    rw [From_dec hd]
    simp only [true_iff]
    have : ¬ highTail b % 2 = 1 := by simpa using h.symm
    omega
  · rw [opened_truncated ht] at h
    rw [From_truncated ht]
    have : highTail b % 2 = 1 := by simpa using h.symm
    simp [this]

/-- 가 and a byte B0: refused; A and 가, and 가 with the letter A as second byte of a pair: decoded. -/
example : highTail [0xB0, 0xA1, 0xB0] % 2 = 1 ∧ highTail [0x41, 0xB0, 0xA1] % 2 = 0 ∧ highTail [0xB0, 0xA1, 0xB0, 0x41] % 2 = 0 := by
  decide

/-- C109: a character begins after each ASCII byte, whatever stands before it: decoding can be done up to it and from
there on separately. -/
theorem C109_after_ascii (a b : Str) (x : Byte) (hx : isAscii x = true) :
    (From (a ++ [x])).2 = none ∧ (From (a ++ x :: b)).2 = (From b).2 ∧
    ((From b).2 = none → (From (a ++ x :: b)).1 = (From (a ++ [x])).1 ++ (From b).1) := by
  have h1 : (From (a ++ [x])).2 = none := by
    rw [C109_end, highTail_snoc, if_pos hx]
  have h2 := C32_concat (a ++ [x]) b h1
  rw [List.append_assoc, List.singleton_append] at h2
  refine ⟨h1, ?_, ?_⟩
  · rw [h2]
    split
    · rename_i h; rw [h]
    · rfl
  · intro hb
    rw [h2, if_pos hb]

/-- In the middle of a text: after the line end. -/
example : isAscii 0x0A = true ∧ (From [0xB0, 0xA1]).2 = none := ⟨by decide, by rw [C109_end]; decide⟩

/-- C109: between two bytes of a string a character begins exactly if what stands before decodes, which an even number of
bytes from 0x80 directly before tells; if so, the two parts can be decoded separately, and if not, the first part cannot
be decoded at all. -/
theorem C109_split (a b : Str) :
    (highTail a % 2 = 0 → From (a ++ b) =
      if (From b).2 = none then ((From a).1 ++ (From b).1, none) else ([], (From b).2)) ∧
    (highTail a % 2 = 1 → From a = ([], some .unexpectedStream)) := by
  refine ⟨fun h => C32_concat a b ((C109_end a).2 h), fun h => ?_⟩
  exact (C30_error_iff a).2 fun h' => by have := (C109_end a).1 h'; omega

example : highTail [0x41, 0xB0, 0xA1] % 2 = 0 ∧ highTail [0x41, 0xB0] % 2 = 1 := by decide

private theorem enc_width {c : Char} {w : Str} (h : Enc [c] w) :
    (∃ x, w = [x] ∧ x.toNat < 0x80) ∨ ∃ hi lo, w = [hi, lo] ∧ 0x80 ≤ hi.toNat := by
  cases h with
  | ascii h1 _ h3 => cases h3; exact .inl ⟨_, rfl, h1⟩
  | pair h1 h2 => cases h2; exact .inr ⟨_, _, rfl, by have := (enc_hi h1); omega⟩

private theorem enc_split {us vs : List Char} {b : Str} (h : Enc (us ++ vs) b) :
    ∃ a w, b = a ++ w ∧ Enc us a ∧ Enc vs w := by
  induction us generalizing b with
  | nil => exact ⟨[], b, rfl, .nil, h⟩
  | cons u us ih =>
    rw [List.cons_append] at h
    cases h with
    | ascii h1 h2 h3 =>
      obtain ⟨a, w, rfl, ha, hw⟩ := ih h3
      exact ⟨_ :: a, w, rfl, .ascii h1 h2 ha, hw⟩
    | pair h1 h2 =>
      obtain ⟨a, w, rfl, ha, hw⟩ := ih h2
      exact ⟨_ :: _ :: a, w, rfl, .pair h1 ha, hw⟩

private theorem enc_highTail {us : List Char} {a : Str} (h : Enc us a) : highTail a % 2 = 0 := by
  rw [← C109_end, From_enc h]

/-- C109: the last character of an encoded text can be deleted by looking at the end of the text: what is left is the
encoding of the characters before it, and decodes to them. -/
theorem C109_delete_last (us : List Char) (c : Char) (b : Str) (h : Enc (us ++ [c]) b) :
    Enc us (b.take (b.length - lastWidth b)) ∧ From (b.take (b.length - lastWidth b)) = (utf8 us, none) := by
  obtain ⟨a, w, rfl, ha, hw⟩ := enc_split h
  have e := enc_highTail ha
  have hl : lastWidth (a ++ w) = w.length := by
    rcases enc_width hw with ⟨x, rfl, hx⟩ | ⟨hi, lo, rfl, hh⟩
    · unfold lastWidth
      simp [lo_is hx, e]
    · unfold lastWidth
      rw [show a ++ [hi, lo] = (a ++ [hi]) ++ [lo] by simp, List.getLast?_concat, List.dropLast_concat,
        highTail_snoc, hi_not hh]
      simp [show (highTail a + 1) % 2 = 1 by omega]
  rw [hl, List.length_append, Nat.add_sub_cancel, List.take_left]
  exact ⟨ha, From_enc ha⟩

/-- A pair that ends in the letter A (갂 is 81 41) after 가, and the letter A after 가. -/
example : Enc (['가'] ++ ['갂']) [0xB0, 0xA1, 0x81, 0x41] ∧ lastWidth [0xB0, 0xA1, 0x81, 0x41] = 2 ∧
    Enc (['가'] ++ ['A']) [0xB0, 0xA1, 0x41] ∧ lastWidth [0xB0, 0xA1, 0x41] = 1 := by
  have h : Chart 0x8141 '갂'.toNat ∧ Chart 0xB0A1 '가'.toNat := by unfold Chart; decide +kernel
  exact ⟨.pair (hi := 0xB0) (lo := 0xA1) h.2 (.pair (hi := 0x81) (lo := 0x41) h.1 .nil), by decide,
    .pair (hi := 0xB0) (lo := 0xA1) h.2 (.ascii (by decide) (by decide) .nil), by decide⟩

private def gaga (n : Nat) : Str := (List.replicate n [(0xB0 : Byte), 0xA1]).flatten

private theorem gaga_enc (n : Nat) {cs : List Char} {b : Str} (h : Enc cs b) :
    Enc (List.replicate n '가' ++ cs) (gaga n ++ b) := by
  have hc : Chart 0xB0A1 '가'.toNat := by unfold Chart; decide +kernel
  induction n with
  | zero => exact h
  | succ n ih => exact .pair (hi := 0xB0) (lo := 0xA1) hc ih

private theorem shifted_enc (n : Nat) {lo : Byte} {c d : Char} (hc : Chart (0xA1 * 256 + lo.toNat) c.toNat)
    (hd : Chart 0xB0B0 d.toNat) (e : Char) (he : Chart 0xA1B0 e.toNat) :
    Enc (d :: (List.replicate n e ++ [c])) (0xB0 :: gaga (n + 1) ++ [lo]) := by
  suffices h : Enc (List.replicate n e ++ [c]) (0xA1 :: gaga n ++ [lo]) by
    have : (0xB0 :: gaga (n + 1) ++ [lo] : Str) = 0xB0 :: 0xB0 :: (0xA1 :: gaga n ++ [lo]) := by
      simp [gaga, List.replicate_succ]
    rw [this]
    exact .pair (hi := 0xB0) (lo := 0xB0) hd h
  clear hd
  induction n with
  | zero => exact .pair (hi := 0xA1) (lo := lo) hc .nil
  | succ n ih =>
    have : (0xA1 :: gaga (n + 1) ++ [lo] : Str) = 0xA1 :: 0xB0 :: (0xA1 :: gaga n ++ [lo]) := by
      simp [gaga, List.replicate_succ]
    rw [this]
    exact .pair (hi := 0xA1) (lo := 0xB0) he ih

/-- C109: no fixed number of bytes is enough to look at: for each n there are two encoded texts of which the one is the
other with one byte before it, so that they end in the same n bytes (and more), and of which the one ends in the letter A,
the other in the syllable 좥 (A1 41). -/
theorem C109_no_bound (n : Nat) : ∃ (s : Str) (x : Byte) (us vs : List Char), n ≤ s.length ∧
    Enc (us ++ ['A']) s ∧ Enc (vs ++ ['좥']) (x :: s) ∧
    From s = (utf8 (us ++ ['A']), none) ∧ From (x :: s) = (utf8 (vs ++ ['좥']), none) := by
  have h1 : Enc (List.replicate (n + 1) '가' ++ ['A']) (gaga (n + 1) ++ [0x41]) :=
    gaga_enc _ (.ascii (by decide) (by decide) .nil)
  have h2 : Enc ('같' :: List.replicate n '“' ++ ['좥']) (0xB0 :: (gaga (n + 1) ++ [0x41])) :=
    shifted_enc n (lo := 0x41) (by unfold Chart; decide +kernel) (by unfold Chart; decide +kernel) '“'
      (by unfold Chart; decide +kernel)
  refine ⟨_, _, _, _, ?_, h1, h2, From_enc h1, From_enc h2⟩
  unfold gaga
  simp
  omega

end Props
