import Verif.Props.Ascii
import Verif.Spec.Trim
/-! Property theorems C113: taking blanks and other signs off the ends of an encoded text. -/
namespace Props
open Go Spec Cp949

attribute [local irreducible] fromTable toTable rawFrom rawTo

/-! ## Helpers -/

theorem trimRight_nil (p : Byte → Bool) : trimRight p [] = [] := rfl

private theorem dropWhile_append (p : Byte → Bool) (s t : Str) :
    (s ++ t).dropWhile p = if s.dropWhile p = [] then t.dropWhile p else s.dropWhile p ++ t := by
  induction s with
  | nil => simp
  | cons x s ih =>
    rw [List.cons_append, List.dropWhile_cons, List.dropWhile_cons]
    split
    · exact ih
    · simp

theorem trimRight_cons (p : Byte → Bool) (x : Byte) (s : Str) :
    trimRight p (x :: s) = if trimRight p s = [] ∧ p x = true then [] else x :: trimRight p s := by
  unfold trimRight
  rw [List.reverse_cons, dropWhile_append]
  by_cases h : s.reverse.dropWhile p = []
  · rw [if_pos h, h]
    cases hx : p x <;> simp [hx]
  · rw [if_neg h]
    simp [h]

theorem trimRight_other {p : Byte → Bool} {w : Str} (s : Str) (h : ∀ y ∈ w, p y = false) :
    trimRight p (w ++ s) = w ++ trimRight p s := by
  induction w with
  | nil => rfl
  | cons x w ih =>
    rw [List.cons_append, trimRight_cons, ih fun y hy => h y (List.mem_cons_of_mem _ hy), h x (List.mem_cons_self ..)]
    simp

theorem trimLeft_other {p : Byte → Bool} {w : Str} (s : Str) (hw : w ≠ []) (h : ∀ y ∈ w, p y = false) :
    trimLeft p (w ++ s) = w ++ s := by
  cases w with
  | nil => exact absurd rfl hw
  | cons x w =>
    unfold trimLeft
    rw [List.cons_append, List.dropWhile_cons, h x (List.mem_cons_self ..)]
    simp

/-- What is taken off in front of one string is taken off in front of the other. -/
private def SameEnds (p : Byte → Bool) (s o : Str) : Prop :=
  (∃ t, (∀ y ∈ t, p y = true) ∧ s = t ++ trimLeft p s ∧ o = t ++ trimLeft p o) ∧
  ∃ t, (∀ y ∈ t, p y = true) ∧ s = trimRight p s ++ t ∧ o = trimRight p o ++ t ∧
    (trimRight p s = [] ↔ trimRight p o = [])

private theorem sameEnds_nil (p : Byte → Bool) : SameEnds p [] [] :=
  ⟨⟨[], by simp, rfl, rfl⟩, ⟨[], by simp, rfl, rfl, Iff.rfl⟩⟩

private theorem sameEnds_cons {p : Byte → Bool} {s o : Str} (x : Byte) (h : SameEnds p s o) : SameEnds p (x :: s) (x :: o) := by
  obtain ⟨⟨t, h1, h2, h3⟩, ⟨t', k1, k2, k3, k4⟩⟩ := h
  constructor
  · cases hx : p x
    · refine ⟨[], by simp, ?_, ?_⟩ <;> simp [trimLeft, hx]
    · refine ⟨x :: t, ?_, ?_, ?_⟩
      · intro y hy
        rcases List.mem_cons.1 hy with rfl | hy
        · exact hx
        · exact h1 y hy
      · rw [List.cons_append, List.cons.injEq]
        refine ⟨rfl, ?_⟩
        unfold trimLeft at *
        rw [List.dropWhile_cons, if_pos hx, ← h2]
      · rw [List.cons_append, List.cons.injEq]
        refine ⟨rfl, ?_⟩
        unfold trimLeft at *
        rw [List.dropWhile_cons, if_pos hx, ← h3]
  · rw [trimRight_cons, trimRight_cons]
    by_cases hx : trimRight p s = [] ∧ p x = true
    · have hx' : trimRight p o = [] ∧ p x = true := ⟨k4.1 hx.1, hx.2⟩
      rw [if_pos hx, if_pos hx']
      rw [hx.1] at k2
      rw [hx'.1] at k3
      refine ⟨x :: t', ?_, by rw [k2]; rfl, by rw [k3]; rfl, Iff.rfl⟩
      intro y hy
      rcases List.mem_cons.1 hy with rfl | hy
      · exact hx.2
      · exact k1 y hy
    · have hx' : ¬ (trimRight p o = [] ∧ p x = true) := fun h => hx ⟨k4.2 h.1, h.2⟩
      rw [if_neg hx, if_neg hx']
      exact ⟨t', k1, by rw [List.cons_append, ← k2], by rw [List.cons_append, ← k3], by simp⟩

private theorem sameEnds_other {p : Byte → Bool} {s o w u : Str} (h : SameEnds p s o) (hw : w ≠ []) (hu : u ≠ [])
    (h1 : ∀ y ∈ w, p y = false) (h2 : ∀ y ∈ u, p y = false) : SameEnds p (w ++ s) (u ++ o) := by
  obtain ⟨_, ⟨t', k1, k2, k3, k4⟩⟩ := h
  refine ⟨⟨[], by simp, ?_, ?_⟩, ⟨t', k1, ?_, ?_, ?_⟩⟩
  · rw [trimLeft_other s hw h1]; rfl
  · rw [trimLeft_other o hu h2]; rfl
  · rw [trimRight_other s h1, List.append_assoc, ← k2]
  · rw [trimRight_other o h2, List.append_assoc, ← k3]
  · rw [trimRight_other s h1, trimRight_other o h2]
    simp [hw, hu]

private theorem unit_ne (c : Char) : (To (utf8 [c])).1 ≠ [] := by
  rw [To_one]
  rcases toUnit_cases c with ⟨_, e⟩ | ⟨_, _, _, e⟩ | ⟨_, _, _, e⟩ | ⟨_, _, e⟩ <;> simp only [e] <;> simp

private theorem char_ne (c : Char) : String.utf8EncodeChar c ≠ [] := by
  have := (utf8EncodeChar_length c).1
  intro h
  rw [h] at this
  simp at this

private theorem sameEnds_to (p : Byte → Bool) (hp : ∀ x, p x = true → isMeta x = true) (s : Str) : SameEnds p s (To s).1 := by
  have no : ∀ x, isMeta x = false → p x = false := by
    intro x hx
    cases h : p x
    · rfl
    · rw [hp x h] at hx; simp at hx
  obtain ⟨is, h⟩ := items_exists s
  rw [C79_to h]
  simp only
  induction h with
  | nil => exact sameEnds_nil p
  | char c h ih =>
    rw [List.flatMap_cons]
    by_cases hc : c.toNat < 0x80
    · have e : (To (utf8 [c])).1 = String.utf8EncodeChar c := by rw [To_one, toUnit_ascii hc, utf8_ascii hc]
      simp only [e]
      rw [utf8_ascii hc]
      exact sameEnds_cons _ ih
    · have hm := meta_one c
      have hh : ∀ y ∈ String.utf8EncodeChar c, isMeta y = false := fun b hb =>
        isMeta_false (.inl (utf8EncodeChar_high (Nat.not_lt.1 hc) b hb))
      rw [filter_nil hh, List.filter_eq_nil_iff] at hm
      exact sameEnds_other ih (char_ne c) (unit_ne c) (fun y hy => no y (hh y hy))
        (fun y hy => no y (by simpa using hm y hy))
  | @stray b s is hn h ih =>
    rw [List.flatMap_cons]
    refine sameEnds_other (w := [b]) ih (by simp) (by simp) ?_ ?_
    · intro y hy
      rw [List.mem_singleton.1 hy]
      exact no b (isMeta_false (.inl (stray_high hn)))
    · intro y hy
      have : y = 0x3F := by simpa using hy
      rw [this]
      exact no _ (by decide)

private theorem all_ascii {p : Byte → Bool} (hp : ∀ x, p x = true → isMeta x = true) {t : Str} (h : ∀ y ∈ t, p y = true) :
    ∀ y ∈ t, y.toNat < 0x80 := by
  intro y hy
  have := hp y (h y hy)
  unfold isMeta isAscii at this
  simp only [Bool.and_eq_true, decide_eq_true_eq] at this
  exact this.1.1

/-! ## C113 -/

/-- C113: for every byte string and every set of ASCII bytes without letters and the question mark: taking such bytes off
the ends (one end, the other, or both) and encoding can be done in either order. -/
theorem C113_encode (p : Byte → Bool) (hp : ∀ x, p x = true → isMeta x = true) (s : Str) :
    (To (trimLeft p s)).1 = trimLeft p (To s).1 ∧ (To (trimRight p s)).1 = trimRight p (To s).1 ∧
    (To (trim p s)).1 = trim p (To s).1 := by
  have left : ∀ s, (To (trimLeft p s)).1 = trimLeft p (To s).1 := by
    intro s
    obtain ⟨⟨t, h1, h2, h3⟩, _⟩ := sameEnds_to p hp s
    obtain ⟨cs, e1, _⟩ := ascii_chars t (all_ascii hp h1)
    have := C33_concat t (trimLeft p s) ⟨cs, e1⟩
    rw [← h2, (C34_ascii t (all_ascii hp h1)).2] at this
    rw [this] at h3
    simp only at h3
    exact List.append_cancel_left (h3.trans (by rw [this]))
  have right : ∀ s, (To (trimRight p s)).1 = trimRight p (To s).1 := by
    intro s
    obtain ⟨_, ⟨t, h1, h2, h3, _⟩⟩ := sameEnds_to p hp s
    have hb : Boundary t := by
      intro b r e
      have := all_ascii hp h1 b (by rw [e]; simp)
      omega
    have := C33_concat_boundary (trimRight p s) t hb
    rw [← h2, (C34_ascii t (all_ascii hp h1)).2] at this
    rw [this] at h3
    simp only at h3
    exact List.append_cancel_right (h3.trans (by rw [this]))
  refine ⟨left s, right s, ?_⟩
  unfold trim
  rw [right, left]

/-- Blanks, as a set. -/
theorem blank_meta (x : Byte) (h : isBlank x = true) : isMeta x = true := by
  have : ∀ n : Fin 256, isBlank (UInt8.ofFin n) = true → isMeta (UInt8.ofFin n) = true := by decide +kernel
  exact this x.toFin h

example : trim isBlank [0x20, 0xEA, 0xB0, 0x80, 0x20, 0x41, 0x20, 0x0A] = [0xEA, 0xB0, 0x80, 0x20, 0x41] ∧
    trim isBlank [0x20, 0xB0, 0xA1, 0x20, 0x41, 0x20, 0x0A] = [0xB0, 0xA1, 0x20, 0x41] := by decide

/-- C113: for every encoded text and every set of ASCII bytes without letters: the same bytes are taken off the encoded text and
off the decoded one. -/
theorem C113_decode (p : Byte → Bool) (hp : ∀ x, p x = true → isAscii x = true ∧ isLetter x = false) (cs : List Char) (b : Str)
    (h : Enc cs b) :
    From (trimLeft p b) = (trimLeft p (From b).1, none) ∧ From (trimRight p b) = (trimRight p (From b).1, none) ∧
    From (trim p b) = (trim p (From b).1, none) := by
  have no : ∀ x : Byte, 0x80 ≤ x.toNat → p x = false := by
    intro x hx
    cases h : p x
    · rfl
    · have := (hp x h).1
      rw [ascii_false hx] at this
      simp at this
  have pair : ∀ {hi lo : Byte} {u : Nat}, Chart (hi.toNat * 256 + lo.toNat) u → ∀ y ∈ [hi, lo], p y = false := by
    intro hi lo u hc y hy
    obtain ⟨h1, h2, h3⟩ := code_range hc
    have := byte_lt lo
    rcases List.mem_cons.1 hy with rfl | hy
    · exact no _ (by omega)
    · rw [List.mem_singleton.1 hy]
      cases h : p lo
      · rfl
      · have := hp lo h
        unfold isAscii isLetter at this
        simp only [decide_eq_true_eq, Bool.or_eq_false_iff, Bool.and_eq_false_iff, decide_eq_false_iff_not] at this
        omega
  have high : ∀ {code : Nat} {c : Char}, Chart code c.toNat → ∀ y ∈ String.utf8EncodeChar c, p y = false := by
    intro code c hc y hy
    have := (char_range hc).1
    exact no y (utf8EncodeChar_high (by omega) y hy)
  have left : ∀ {cs : List Char} {b : Str}, Enc cs b → ∃ cs', Enc cs' (trimLeft p b) ∧ utf8 cs' = trimLeft p (utf8 cs) := by
    intro cs b h
    induction h with
    | nil => exact ⟨[], .nil, rfl⟩
    | @ascii x c cs bs h1 h2 h3 ih =>
      have e : utf8 (c :: cs) = x :: utf8 cs := by
        rw [utf8_cons, utf8_ascii (by omega), byte_eq h2.symm]
        rfl
      unfold trimLeft at *
      rw [e, List.dropWhile_cons, List.dropWhile_cons]
      split
      · exact ih
      · exact ⟨c :: cs, .ascii h1 h2 h3, e⟩
    | @pair hi lo c cs bs h1 h2 _ =>
      rw [utf8_cons, trimLeft_other _ (char_ne c) (high h1), ← utf8_cons]
      have := trimLeft_other (w := [hi, lo]) bs (by simp) (pair h1)
      simp only [List.cons_append, List.nil_append] at this
      rw [this]
      exact ⟨_, .pair h1 h2, rfl⟩
  have right : ∀ {cs : List Char} {b : Str}, Enc cs b → ∃ cs', Enc cs' (trimRight p b) ∧ utf8 cs' = trimRight p (utf8 cs) := by
    intro cs b h
    induction h with
    | nil => exact ⟨[], .nil, rfl⟩
    | @ascii x c cs bs h1 h2 h3 ih =>
      obtain ⟨cs', i1, i2⟩ := ih
      have e : ∀ cs, utf8 (c :: cs) = x :: utf8 cs := by
        intro cs
        rw [utf8_cons, utf8_ascii (by omega), byte_eq h2.symm]
        rfl
      rw [e, trimRight_cons, trimRight_cons]
      have hn : trimRight p bs = [] ↔ trimRight p (utf8 cs) = [] := by
        rw [← i2]
        clear i2
        generalize trimRight p bs = z at i1
        constructor
        · intro h
          rw [h] at i1
          cases i1
          rfl
        · intro h
          cases i1 with
          | nil => rfl
          | ascii => rw [utf8_cons] at h; exact absurd (List.append_eq_nil_iff.1 h).1 (char_ne _)
          | pair => rw [utf8_cons] at h; exact absurd (List.append_eq_nil_iff.1 h).1 (char_ne _)
      by_cases hx : trimRight p bs = [] ∧ p x = true
      · rw [if_pos hx, if_pos ⟨hn.1 hx.1, hx.2⟩]
        exact ⟨[], .nil, rfl⟩
      · rw [if_neg hx, if_neg fun h => hx ⟨hn.2 h.1, h.2⟩]
        exact ⟨c :: cs', .ascii h1 h2 i1, by rw [e, i2]⟩
    | @pair hi lo c cs bs h1 h2 ih =>
      obtain ⟨cs', i1, i2⟩ := ih
      rw [utf8_cons, trimRight_other _ (high h1), ← i2]
      have := trimRight_other (w := [hi, lo]) bs (pair h1)
      simp only [List.cons_append, List.nil_append] at this
      rw [this]
      exact ⟨c :: cs', .pair h1 i1, utf8_cons c cs'⟩
  rw [From_enc h]
  obtain ⟨c1, l1, l2⟩ := left h
  obtain ⟨c2, r1, r2⟩ := right h
  obtain ⟨c3, t1, t2⟩ := right l1
  refine ⟨by rw [From_enc l1, l2], by rw [From_enc r1, r2], ?_⟩
  unfold trim
  rw [From_enc t1, t2, l2]

example : Enc ['가', ' '] [0xB0, 0xA1, 0x20] ∧ ∀ x, isBlank x = true → isAscii x = true ∧ isLetter x = false := by
  refine ⟨.pair (hi := 0xB0) (lo := 0xA1) (by unfold Chart; decide +kernel) (.ascii (by decide) (by decide) .nil), ?_⟩
  intro x h
  have := blank_meta x h
  unfold isMeta at this
  simp only [Bool.and_eq_true, Bool.not_eq_true'] at this
  exact this.1

/-- C113, the conditions are needed: taking the letter A off the end takes half of 갂 (81 41); and off B0 20, which is no
encoded text, it takes the blank that the decoder would read as a second byte. -/
theorem C113_conditions_needed :
    (Enc ['갂'] [0x81, 0x41] ∧ (From (trimRight (fun x => x == 0x41) [0x81, 0x41])).2 = some .unexpectedStream) ∧
    ((From [0xB0, 0x20]).2 = none ∧ (From (trimRight isBlank [0xB0, 0x20])).2 = some .unexpectedStream) := by
  have tr : ∀ x : Byte, 0x80 ≤ x.toNat → (From [x]).2 = some .unexpectedStream := fun x hx => by
    rw [From_truncated (.lone hx)]
  refine ⟨⟨.pair (hi := 0x81) (lo := 0x41) (by unfold Chart; decide +kernel) .nil, tr 0x81 (by decide)⟩, ?_,
    tr 0xB0 (by decide)⟩
  obtain ⟨c, hc⟩ := exists_char (v := 0xFFFD) (by omega)
  have : Dec [0xB0, 0x20] [c] :=
    .unassigned (by decide) (fun u h => by have := (code_range h).2.2; revert this; decide) hc .nil
  rw [From_dec this]

end Props
