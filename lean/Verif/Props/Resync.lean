import Verif.Props.Ascii
/-! Property theorem C83: damage in a CP949 string does not spread past two ASCII bytes. -/
namespace Props
open Go Spec Cp949

attribute [local irreducible] fromTable toTable rawFrom rawTo

/-- A byte string that is cut decodes if one more byte follows. -/
theorem truncated_completed {a : Str} (h : Truncated a) (x : Byte) : ∃ cs, Dec (a ++ [x]) cs := by
  rcases dec_cases (a ++ [x]) with h' | h'
  · exact h'
  · exfalso
    induction h with
    | lone hb =>
      cases h' with
      | ascii h1 _ => omega
      | pair _ h2 => cases h2
    | @ascii b bs hb _ ih =>
      generalize hz : b :: bs ++ [x] = z at h'
      cases h' with
      | lone h1 => simp only [List.cons_append, List.cons.injEq] at hz; rw [hz.1] at hb; omega
      | ascii _ h2 =>
        simp only [List.cons_append, List.cons.injEq] at hz
        rw [← hz.2] at h2
        exact ih h2
      | pair h1 _ => simp only [List.cons_append, List.cons.injEq] at hz; rw [hz.1] at hb; omega
    | pair hb _ ih =>
      cases h' with
      | ascii h1 _ => omega
      | pair _ h2 => exact ih h2

/-- C83: whatever comes before two ASCII bytes (a line end CR LF, say), damaged or not: what follows them is decoded as it
is alone, the second of them stands before it, and decoding fails only if it fails for what follows. -/
theorem C83_two (a b : Str) (x y : Byte) (hx : isAscii x = true) (hy : isAscii y = true) :
    (From (a ++ x :: y :: b)).2 = (From b).2 ∧
    ((From b).2 = none → ∃ w, (From (a ++ x :: y :: b)).1 = w ++ y :: (From b).1 ∧
      ∀ b', (From b').2 = none → (From (a ++ x :: y :: b')).1 = w ++ y :: (From b').1) := by
  have hx : x.toNat < 0x80 := by unfold isAscii at hx; simpa using hx
  have hy : y.toNat < 0x80 := by unfold isAscii at hy; simpa using hy
  have hw : ∃ cs, Dec (a ++ [x]) cs := by
    rcases dec_cases a with ⟨cs, h⟩ | h
    · obtain ⟨c, hc⟩ := exists_char (v := x.toNat) (by omega)
      exact ⟨cs ++ [c], dec_append h (.ascii hx hc .nil)⟩
    · exact truncated_completed h x
  obtain ⟨cs, hw⟩ := hw
  obtain ⟨c, hc⟩ := exists_char (v := y.toNat) (by omega)
  have hwy : Dec (a ++ [x] ++ [y]) (cs ++ [c]) := dec_append hw (.ascii hy hc .nil)
  have key : ∀ b, (From b).2 = none → From (a ++ x :: y :: b) = (utf8 cs ++ y :: (From b).1, none) := by
    intro b hb
    rcases dec_cases b with ⟨ds, h⟩ | h
    · rw [show a ++ x :: y :: b = a ++ [x] ++ [y] ++ b by simp, From_dec (dec_append hwy h), From_dec h, utf8_append,
        utf8_append, utf8_one, utf8_ascii (by omega), byte_eq hc.symm]
      simp
    · rw [From_truncated h] at hb
      simp at hb
  refine ⟨?_, ?_⟩
  · rcases dec_cases b with ⟨ds, h⟩ | h
    · rw [key b (by rw [From_dec h]), From_dec h]
    · rw [show a ++ x :: y :: b = a ++ [x] ++ [y] ++ b by simp, From_truncated (truncated_append hwy h), From_truncated h]
  · intro hb
    exact ⟨utf8 cs, by rw [key b hb], fun b' hb' => by rw [key b' hb']⟩

/-- One ASCII byte is not enough: after a lone byte a line feed is swallowed, and the lines are joined. -/
theorem C83_one_is_not_enough : ∃ a b : Str, (From b).2 = none ∧
    From (a ++ 0x0A :: b) = (utf8 ['�', 'A'], none) ∧ (From b).1 = utf8 ['A'] := by
  have hA : From [0x41] = (utf8 ['A'], none) := From_ascii_A
  refine ⟨[0xB0], [0x41], by rw [hA], ?_, by rw [hA]⟩
  have h := C82_swallowed_fails 0xB0 0x0A (by decide) (by decide) [] [0x41] (by rw [From_dec .nil]) (by rw [hA])
  rw [hA, From_dec .nil] at h
  exact Prod.ext h.1 h.2

/-- CR LF after a cut character. -/
example : isAscii 0x0D = true ∧ isAscii 0x0A = true ∧ Truncated [0x41, 0xB0] :=
  ⟨by decide, by decide, .ascii (by decide) (.lone (by decide))⟩

end Props
