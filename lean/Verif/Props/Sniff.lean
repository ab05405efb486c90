import Verif.Props.Seek
/-! Property theorems C111: can a program tell from the bytes whether they are CP949? -/
namespace Props
open Go Spec Cp949

attribute [local irreducible] fromTable toTable rawFrom rawTo

/-- C111: decoding and encoding again gives the bytes back exactly if they are the CP949 encoding of some text. This
holds for all byte strings, so the comparison is a test of the encoding; the error From returns is not (below). -/
theorem C111_roundtrip_iff (b : Str) : (To (From b).1).1 = b ↔ ∃ cs, Enc cs b := by
  constructor
  · intro h
    obtain ⟨_, ds, hd, _⟩ := C36_total (From b).1
    exact ⟨ds, by rw [h] at hd; exact hd⟩
  · rintro ⟨cs, h⟩
    rw [(C29_roundtrip_cp949 b cs h).2]

/-- 가 passes the test, the unassigned pair FF FF does not, though decoding it reports no error. -/
example : (To (From [0xB0, 0xA1]).1).1 = [0xB0, 0xA1] ∧ (To (From [0xFF, 0xFF]).1).1 ≠ [0xFF, 0xFF] ∧
    (From [0xFF, 0xFF]).2 = none := by
  refine ⟨(C111_roundtrip_iff _).2 ⟨['가'], .pair (hi := 0xB0) (lo := 0xA1) (by unfold Chart; decide +kernel) .nil⟩, ?_,
    by rw [C109_end]; decide⟩
  rw [Ne, C111_roundtrip_iff]
  rintro ⟨cs, h⟩
  cases h with
  | ascii h1 _ _ => revert h1; decide
  | pair h1 _ => have := (code_range h1).2.1; revert this; decide

/-- C111: the error tells nothing about what stands before the last byte if that is ASCII (a line end, say): From
accepts any bytes before it. -/
theorem C111_line_end_fails (b : Str) (x : Byte) (hx : isAscii x = true) : (From (b ++ [x])).2 = none :=
  (C109_after_ascii b [] x hx).1

/-- UTF-8 and a line end. -/
example : IsUtf8 [0xEA, 0xB0, 0x80, 0x0A] ∧ isAscii 0x0A = true := ⟨⟨['가', '\n'], by decide +kernel⟩, by decide⟩

private theorem three_high {c : Char} (h1 : 0x800 ≤ c.toNat) (h2 : c.toNat ≤ 0xFFFF) :
    (String.utf8EncodeChar c).length = 3 ∧ ∀ x ∈ String.utf8EncodeChar c, isAscii x = false := by
  rw [encode_three (by omega) h2]
  refine ⟨rfl, ?_⟩
  intro x hx
  simp only [List.mem_cons, List.not_mem_nil, or_false] at hx
  unfold isAscii
  rcases hx with rfl | rfl | rfl <;> simp <;> omega

private theorem utf8_three (cs : List Char) (h : ∀ c ∈ cs, 0x800 ≤ c.toNat ∧ c.toNat ≤ 0xFFFF) :
    (utf8 cs).length = 3 * cs.length ∧ ∀ x ∈ utf8 cs, isAscii x = false := by
  induction cs with
  | nil => exact ⟨rfl, fun x hx => by cases hx⟩
  | cons c cs ih =>
    obtain ⟨i1, i2⟩ := ih fun d hd => h d (List.mem_cons_of_mem _ hd)
    obtain ⟨h1, h2⟩ := three_high (h c (List.mem_cons_self ..)).1 (h c (List.mem_cons_self ..)).2
    rw [utf8_cons]
    refine ⟨by rw [List.length_append, h1, i1, List.length_cons]; omega, fun x hx => ?_⟩
    rcases List.mem_append.1 hx with hx | hx
    · exact h2 x hx
    · exact i2 x hx

private theorem highTail_append (a t : Str) (h : ∀ x ∈ t, isAscii x = false) : highTail (a ++ t) = highTail a + t.length := by
  unfold highTail
  rw [List.reverse_append, List.takeWhile_append_of_pos (by intro x hx; simp [h x (List.mem_reverse.1 hx)]),
    List.length_append, List.length_reverse, Nat.add_comm]

/-- C111, what the error says about UTF-8 text in syllables or hanja (any characters of three bytes), after an ASCII
byte or nothing: From reports it exactly if their number is odd. So it refuses half of all such texts and accepts the
other half. -/
theorem C111_error_parity_partial (a : Str) (ha : ∀ x, a.getLast? = some x → isAscii x = true) (cs : List Char)
    (h : ∀ c ∈ cs, 0x800 ≤ c.toNat ∧ c.toNat ≤ 0xFFFF) :
    (From (a ++ utf8 cs)).2 = none ↔ cs.length % 2 = 0 := by
  obtain ⟨h1, h2⟩ := utf8_three cs h
  have h0 : highTail a = 0 := by
    by_cases hn : a = []
    · subst hn; rfl
    · rw [← List.dropLast_concat_getLast hn, highTail_snoc, if_pos (ha _ (List.getLast?_eq_some_getLast hn))]
  rw [C109_end, highTail_append a _ h2, h0, h1]
  omega

/-- After a line end, 각각 is accepted and 가 is not. -/
example : (∀ x, ([0x0A] : Str).getLast? = some x → isAscii x = true) ∧
    (∀ c ∈ ['각', '각'], 0x800 ≤ c.toNat ∧ c.toNat ≤ 0xFFFF) ∧ (∀ c ∈ ['가'], 0x800 ≤ c.toNat ∧ c.toNat ≤ 0xFFFF) := by
  refine ⟨?_, by decide, by decide⟩
  intro x hx
  simp at hx
  subst hx
  decide

/-- C111 is false even with the comparison: the UTF-8 bytes of 각각, any number of times, are at the same time the CP949
encoding of a different text (of 3 characters each time), so no test that looks at the bytes can tell: From accepts them,
and the comparison finds them equal. -/
theorem C111_both_fails (n : Nat) :
    let b := utf8 (List.replicate n ['각', '각']).flatten
    Enc (List.replicate n ['媛', '곴', '컖']).flatten b ∧
    From b = (utf8 (List.replicate n ['媛', '곴', '컖']).flatten, none) ∧ (To (From b).1).1 = b := by
  intro b
  have h : Enc (List.replicate n ['媛', '곴', '컖']).flatten b := by
    show Enc _ (utf8 (List.replicate n ['각', '각']).flatten)
    clear b
    induction n with
    | zero => exact .nil
    | succ n ih =>
      rw [List.replicate_succ, List.replicate_succ, List.flatten_cons, List.flatten_cons, utf8_append]
      refine enc_append ?_ ih
      rw [show utf8 ['각', '각'] = [0xEA, 0xB0, 0x81, 0xEA, 0xB0, 0x81] by decide +kernel]
      exact .pair (hi := 0xEA) (lo := 0xB0) (by unfold Chart; decide +kernel)
        (.pair (hi := 0x81) (lo := 0xEA) (by unfold Chart; decide +kernel)
          (.pair (hi := 0xB0) (lo := 0x81) (by unfold Chart; decide +kernel) .nil))
  exact ⟨h, From_enc h, (C111_roundtrip_iff b).2 ⟨_, h⟩⟩

end Props
