import Verif.Props.Seek
import Verif.Spec.Visible
/-! Property theorems C114: invisible characters in decoded and encoded texts. -/
namespace Props
open Go Spec Cp949

attribute [local irreducible] fromTable toTable rawFrom rawTo

private theorem chart_hidden_all :
    (chartPairs.all fun p => Nat.ble 0x4E00 p.2 && Nat.ble p.2 0xD7FF ||
      !hidden p.2 || Nat.beq p.1 0xA1A1 || Nat.beq p.1 0xA1A9 || Nat.beq p.1 0xA4D4) = true := by
  decide +kernel

private theorem hidden_middle {u : Nat} (h1 : 0x4E00 ≤ u) (h2 : u ≤ 0xD7FF) : hidden u = false := by
  unfold hidden hiddenRanges
  simp only [List.any_cons, List.any_nil, Bool.or_false, Bool.or_eq_false_iff, Bool.and_eq_false_iff]
  simp only [← Bool.not_eq_true, Nat.ble_eq]
  omega

private theorem chart_hidden {code u : Nat} (h : Chart code u) (hu : hidden u = true) :
    code = 0xA1A1 ∨ code = 0xA1A9 ∨ code = 0xA4D4 := by
  have := List.all_eq_true.1 chart_hidden_all _ h
  simp only [hu, Bool.not_true, Bool.or_false, Bool.or_eq_true, Bool.and_eq_true, Nat.beq_eq, Nat.ble_eq] at this
  rcases this with ((⟨h1, h2⟩ | h1) | h1) | h1
  · rw [hidden_middle h1 h2] at hu
    cases hu
  all_goals omega

private theorem chart_three : Chart 0xA1A1 0x3000 ∧ Chart 0xA1A9 0xAD ∧ Chart 0xA4D4 0x3164 := by
  unfold Chart; decide +kernel

private theorem pair_of_code {hi lo : Byte} (h : hi.toNat * 256 + lo.toNat = 0xA1A1 ∨ hi.toNat * 256 + lo.toNat = 0xA1A9 ∨
    hi.toNat * 256 + lo.toNat = 0xA4D4) : (hi, lo) ∈ hiddenPairs := by
  have h1 := byte_lt hi
  have h2 := byte_lt lo
  have e : ∀ (x : Byte) (n : Nat), x.toNat = n → x = UInt8.ofNat n := fun x n h => by rw [← h]; simp
  unfold hiddenPairs
  rcases h with h | h | h
  · rw [e hi 0xA1 (by omega), e lo 0xA1 (by omega)]; decide
  · rw [e hi 0xA1 (by omega), e lo 0xA9 (by omega)]; decide
  · rw [e hi 0xA4 (by omega), e lo 0xD4 (by omega)]; decide

/-- A character beyond ASCII comes from a pair that begins where a character begins. -/
private theorem dec_unit {b : Str} {cs : List Char} (h : Dec b cs) (c : Char) (hc : c ∈ cs) (h8 : 0x80 ≤ c.toNat) :
    ∃ a hi lo r us, b = a ++ hi :: lo :: r ∧ Dec a us ∧ 0x80 ≤ hi.toNat ∧
      (Chart (hi.toNat * 256 + lo.toNat) c.toNat ∨ c.toNat = 0xFFFD) := by
  induction h with
  | nil => cases hc
  | @ascii x d cs bs h1 h2 _ ih =>
    rcases List.mem_cons.1 hc with rfl | hc
    · omega
    · obtain ⟨a, hi, lo, r, us, e, k1, k2⟩ := ih hc
      exact ⟨x :: a, hi, lo, r, d :: us, by rw [e]; rfl, .ascii h1 h2 k1, k2⟩
  | @pair hi' lo' d cs bs h1 h2 h3 ih =>
    rcases List.mem_cons.1 hc with rfl | hc
    · exact ⟨[], hi', lo', bs, [], rfl, .nil, h1, .inl h2⟩
    · obtain ⟨a, hi, lo, r, us, e, k1, k2⟩ := ih hc
      exact ⟨hi' :: lo' :: a, hi, lo, r, d :: us, by rw [e]; rfl, .pair h1 h2 k1, k2⟩
  | @unassigned hi' lo' d cs bs h1 h2 h2' h3 ih =>
    rcases List.mem_cons.1 hc with rfl | hc
    · exact ⟨[], hi', lo', bs, [], rfl, .nil, h1, .inr h2'⟩
    · obtain ⟨a, hi, lo, r, us, e, k1, k2⟩ := ih hc
      exact ⟨hi' :: lo' :: a, hi, lo, r, d :: us, by rw [e]; rfl, .unassigned h1 h2 h2' k1, k2⟩

/-- C114, exactly when decoding brings up a character that is not seen (partial: it should never): for every byte string
that decodes, exactly if one of the pairs A1 A1, A1 A9 and A4 D4 stands in it where a character begins. All characters beyond ASCII,
seen or not, lie between U+00A1 and U+FFFD. -/
theorem C114_decode_iff_partial (b : Str) (cs : List Char) (h : From b = (utf8 cs, none)) :
    ((∃ c ∈ cs, 0x80 ≤ c.toNat ∧ hidden c.toNat = true) ↔
      ∃ a hi lo r, b = a ++ hi :: lo :: r ∧ highTail a % 2 = 0 ∧ (hi, lo) ∈ hiddenPairs) ∧
    ∀ c ∈ cs, c.toNat < 0x80 ∨ (0xA1 ≤ c.toNat ∧ c.toNat ≤ 0xFFFD) := by
  have hd : Dec b cs := by
    rcases dec_cases b with ⟨ds, hd⟩ | ht
    · have := From_dec hd
      rw [h] at this
      have := utf8_inj (Prod.mk.inj this).1
      rw [this]
      exact hd
    · rw [From_truncated ht] at h
      simp at h
  refine ⟨⟨?_, ?_⟩, ?_⟩
  · rintro ⟨c, hc, h8, hh⟩
    obtain ⟨a, hi, lo, r, us, e, k1, _, k2⟩ := dec_unit hd c hc h8
    refine ⟨a, hi, lo, r, e, (C109_end a).1 (by rw [From_dec k1]), ?_⟩
    rcases k2 with k2 | k2
    · exact pair_of_code (chart_hidden k2 hh)
    · rw [k2] at hh
      exact absurd hh (by decide)
  · rintro ⟨a, hi, lo, r, e, ha, hp⟩
    have hac := (C109_end a).2 ha
    rcases dec_cases a with ⟨us, ha'⟩ | ht
    · rcases dec_cases (hi :: lo :: r) with ⟨vs, hv⟩ | hv
      · have : cs = us ++ vs := by
          have h2 := From_dec (dec_append ha' hv)
          rw [← e, h] at h2
          exact utf8_inj (Prod.mk.inj h2).1
        have hc : ∃ u, Chart (hi.toNat * 256 + lo.toNat) u ∧ 0x80 ≤ u ∧ hidden u = true ∧ 0x80 ≤ hi.toNat := by
          unfold hiddenPairs at hp
          simp only [List.mem_cons, List.not_mem_nil, or_false, Prod.mk.injEq] at hp
          rcases hp with ⟨rfl, rfl⟩ | ⟨rfl, rfl⟩ | ⟨rfl, rfl⟩
          · exact ⟨_, chart_three.1, by decide, by decide, by decide⟩
          · exact ⟨_, chart_three.2.1, by decide, by decide, by decide⟩
          · exact ⟨_, chart_three.2.2, by decide, by decide, by decide⟩
        obtain ⟨u, u1, u2, u3, u4⟩ := hc
        cases hv with
        | ascii h1 _ _ => omega
        | @pair _ _ c ds _ _ h2 h3 =>
          have e' : c.toNat = u := code_unique h2 u1
          exact ⟨c, by rw [this]; simp, by omega, by rw [e']; exact u3⟩
        | unassigned _ h2 _ _ => exact absurd u1 (h2 u)
      · rw [e, From_truncated (truncated_append ha' hv)] at h
        simp at h
    · rw [From_truncated ht] at hac
      simp at hac
  · intro c hc
    by_cases h8 : c.toNat < 0x80
    · exact .inl h8
    · obtain ⟨a, hi, lo, r, us, e, _, _, k2⟩ := dec_unit hd c hc (by omega)
      rcases k2 with k2 | k2
      · have := char_range k2
        omega
      · omega

/-- C114 is false: A1 A9 decodes as a soft hyphen and A4 D4 as the Hangul filler. -/
theorem C114_decode_fails : (∃ c, From [0xA1, 0xA9] = (utf8 [c], none) ∧ c.toNat = 0xAD) ∧
    (∃ c, From [0xA4, 0xD4] = (utf8 [c], none) ∧ c.toNat = 0x3164) ∧ hidden 0xAD = true ∧ hidden 0x3164 = true := by
  obtain ⟨c, hc⟩ := exists_char (v := 0xAD) (by omega)
  obtain ⟨d, hd⟩ := exists_char (v := 0x3164) (by omega)
  refine ⟨⟨c, From_enc (.pair (hi := 0xA1) (lo := 0xA9) (by rw [hc]; exact chart_three.2.1) .nil), hc⟩,
    ⟨d, From_enc (.pair (hi := 0xA4) (lo := 0xD4) (by rw [hd]; exact chart_three.2.2) .nil), hd⟩, by decide, by decide⟩

/-- C114, in the other direction: a character up to U+FFFF that is not seen, other than ASCII and those three, is never
encoded: question marks stand for it. -/
theorem C114_encode (c : Char) (h8 : 0x80 ≤ c.toNat) (h16 : c.toNat ≤ 0xFFFF) (hh : hidden c.toNat = true)
    (h1 : c.toNat ≠ 0x3000) (h2 : c.toNat ≠ 0xAD) (h3 : c.toNat ≠ 0x3164) :
    (To (utf8 [c])).1 = [0x3F] ∨ (To (utf8 [c])).1 = [0x3F, 0x3F] := by
  rw [To_one]
  rcases toUnit_cases c with ⟨h, _⟩ | ⟨_, code, hc, _⟩ | ⟨_, _, _, e⟩ | ⟨_, _, e⟩
  · omega
  · rw [show c.toNat % 65536 = c.toNat by omega] at hc
    exfalso
    rcases chart_hidden hc hh with rfl | rfl | rfl
    · exact h1 (code_unique hc chart_three.1)
    · exact h2 (code_unique hc chart_three.2.1)
    · exact h3 (code_unique hc chart_three.2.2)
  · exact .inl e
  · exact .inr e

/-- The zero-width space and the right-to-left override. -/
example : hidden 0x200B = true ∧ hidden 0x202E = true ∧ hidden 0xAC00 = false ∧ hidden 0x41 = false := by decide

end Props
