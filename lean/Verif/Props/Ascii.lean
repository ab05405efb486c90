import Verif.Spec.Ascii
import Verif.Props.Stray
/-! Property theorems C81 and C82: ASCII bytes with a meaning are neither made up nor swallowed. -/
namespace Props
open Go Spec Cp949 Hanja

attribute [local irreducible] fromTable toTable rawFrom rawTo rawTable table

theorem isMeta_false {b : Byte} (h : 0x80 ≤ b.toNat ∨ (0x41 ≤ b.toNat ∧ b.toNat ≤ 0x5A) ∨ (0x61 ≤ b.toNat ∧ b.toNat ≤ 0x7A)) :
    isMeta b = false := by
  unfold isMeta isAscii isLetter
  rcases h with h | h | h
  · rw [show decide (b.toNat < 0x80) = false by simp; omega]; rfl
  · simp [h]
  · simp [h]

theorem utf8EncodeChar_high {c : Char} (h : 0x80 ≤ c.toNat) : ∀ b ∈ String.utf8EncodeChar c, 0x80 ≤ b.toNat := by
  have hlt := char_lt c
  intro b hb
  by_cases h2 : c.toNat ≤ 0x7FF
  · rw [encode_two (by omega) h2] at hb
    simp only [List.mem_cons, List.not_mem_nil, or_false] at hb
    rcases hb with hb | hb <;> subst hb <;> simp only [UInt8.toNat_ofNat'] <;> omega
  · by_cases h3 : c.toNat ≤ 0xFFFF
    · rw [encode_three (by omega) h3] at hb
      simp only [List.mem_cons, List.not_mem_nil, or_false] at hb
      rcases hb with hb | hb | hb <;> subst hb <;> simp only [UInt8.toNat_ofNat'] <;> omega
    · rw [encode_four (by omega)] at hb
      simp only [List.mem_cons, List.not_mem_nil, or_false] at hb
      rcases hb with hb | hb | hb | hb <;> subst hb <;> simp only [UInt8.toNat_ofNat'] <;> omega

theorem utf8_ascii {c : Char} (h : c.toNat < 0x80) : String.utf8EncodeChar c = [UInt8.ofNat c.toNat] :=
  encode_one (by omega)

theorem stray_high {b : Byte} {s : Str} (h : ∀ c t, b :: s ≠ String.utf8EncodeChar c ++ t) : 0x80 ≤ b.toNat := by
  refine Nat.not_lt.1 fun hb => ?_
  obtain ⟨c, hc⟩ := exists_char (v := b.toNat) (by omega)
  refine h c s ?_
  rw [encode_one (by omega), byte_eq hc.symm]
  rfl

theorem filter_nil {P : Byte → Bool} {s : Str} (h : ∀ b ∈ s, P b = false) : s.filter P = [] := by
  rw [List.filter_eq_nil_iff]
  intro b hb
  rw [h b hb]
  simp

/-- What one character gives. -/
theorem meta_one (c : Char) : (To (utf8 [c])).1.filter isMeta = (String.utf8EncodeChar c).filter isMeta := by
  rw [To_one]
  simp only
  rcases toUnit_cases c with ⟨h, e⟩ | ⟨h, code, hc, e⟩ | ⟨h, _, _, e⟩ | ⟨h, _, e⟩
  · rw [e, utf8_ascii h]
  all_goals rw [filter_nil (s := String.utf8EncodeChar c) fun b hb => isMeta_false (.inl (utf8EncodeChar_high h b hb)), e]
  · obtain ⟨h1, h2, h3⟩ := code_range hc
    apply filter_nil
    intro b hb
    apply isMeta_false
    rcases List.mem_cons.1 hb with rfl | hb
    · rw [toNat_ofNat8]; omega
    · rw [List.mem_singleton.1 hb, toNat_ofNat8]; omega
  · rfl
  · rfl

/-- C81: for every byte string, valid UTF-8 or not, the bytes of `To` below 80 that are no letters and not `?` are
exactly those of the argument, in the same order: no quote, slash, bracket, line end or NUL is made up or lost. -/
theorem C81_to (s : Str) : (To s).1.filter isMeta = s.filter isMeta := by
  obtain ⟨is, h⟩ := items_exists s
  rw [C79_to h]
  simp only
  induction h with
  | nil => rfl
  | char c h ih => rw [List.flatMap_cons, List.filter_append, ih, List.filter_append, ← meta_one]
  | @stray b s is hn h ih =>
    rw [List.flatMap_cons, List.filter_append, ih, List.filter_cons_of_neg (a := b)]
    · rfl
    · rw [isMeta_false (.inl (stray_high hn))]; simp

/-- Letters are another matter: they are second bytes of characters, here of 갂. -/
theorem C81_letters : To (utf8 ['갂']) = ([0x81, 0x41], none) := by
  have h : Chart 0x8141 '갂'.toNat := by unfold Chart; decide +kernel
  exact To_enc (enc_code h .nil)

theorem ascii_false {b : Byte} (h : 0x80 ≤ b.toNat) : isAscii b = false := by
  unfold isAscii
  simp
  omega

theorem convert_ascii (c : Char) :
    (Convert (utf8 [c])).filter isAscii = (String.utf8EncodeChar c).filter isAscii := by
  by_cases hh : IsHanja (runeOf c) = true
  · obtain ⟨d, hd, _, e⟩ := C23_reading_syllable c hh
    have hc : 0x80 ≤ c.toNat := by
      rw [isHanja_iff, Hanja.runeOf_toNat] at hh
      unfold IsIdeograph at hh
      simp only [List.mem_cons, List.not_mem_nil, or_false] at hh
      omega
    have hd' : 0x80 ≤ d.toNat := by
      unfold IsSyllable at hd
      rw [Hanja.runeOf_toNat] at hd
      omega
    rw [e, utf8_one, filter_nil fun b hb => ascii_false (utf8EncodeChar_high hc b hb),
      filter_nil fun b hb => ascii_false (utf8EncodeChar_high hd' b hb)]
  · rw [(C26_untouched_partial (utf8 [c])).2, utf8_one]
    refine ⟨⟨_, rfl⟩, ?_⟩
    intro r hr
    rw [runes_utf8] at hr
    rw [List.mem_singleton.1 hr]
    simpa using hh

/-- C81: `Convert` keeps all of ASCII, for every byte string. -/
theorem C81_convert (s : Str) : (Convert s).filter isAscii = s.filter isAscii := by
  obtain ⟨is, h⟩ := items_exists s
  rw [C79_convert h]
  induction h with
  | nil => rfl
  | char c h ih => rw [List.flatMap_cons, List.filter_append, ih, List.filter_append, ← convert_ascii]
  | @stray b s is hn h ih =>
    rw [List.flatMap_cons, List.filter_append, ih, List.filter_cons_of_neg]
    · rfl
    · rw [ascii_false (stray_high hn)]; simp

example : ([0x3C, 0x62, 0x3E, 0xEA, 0xB0, 0x80, 0x22] : Str).filter isMeta = [0x3C, 0x3E, 0x22] := by decide

/-! ## C82 -/

theorem singles_pair {hi lo : Byte} {s : Str} (h : 0x80 ≤ hi.toNat) : singles (hi :: lo :: s) = singles s := by
  rw [singles.eq_def]
  simp only
  rw [if_neg (by rw [ascii_false h]; simp)]

theorem seconds_pair {hi lo : Byte} {s : Str} (h : 0x80 ≤ hi.toNat) : secondBytes (hi :: lo :: s) = lo :: secondBytes s := by
  rw [secondBytes.eq_def]
  simp only
  rw [if_neg (by rw [ascii_false h]; simp)]

theorem singles_ascii {b : Byte} {s : Str} (h : b.toNat < 0x80) : singles (b :: s) = b :: singles s := by
  rw [singles.eq_def]
  simp only
  rw [if_pos (by unfold isAscii; simpa using h)]

theorem seconds_ascii {b : Byte} {s : Str} (h : b.toNat < 0x80) : secondBytes (b :: s) = secondBytes s := by
  rw [secondBytes.eq_def]
  simp only
  rw [if_pos (by unfold isAscii; simpa using h)]

theorem enc_hi {hi lo : Byte} {u : Nat} (h : Chart (hi.toNat * 256 + lo.toNat) u) :
    0x80 ≤ hi.toNat ∧ isMeta lo = false := by
  have := code_range h
  have := byte_lt lo
  exact ⟨by omega, isMeta_false (by omega)⟩

/-- C82, what holds (1) (partial: it should be all ASCII bytes): the ASCII bytes of what `From` decodes are exactly the
bytes that stand alone. -/
theorem C82_exact_partial (b : Str) (h : (From b).2 = none) : (From b).1.filter isAscii = singles b := by
  rcases dec_cases b with ⟨cs, hd⟩ | ht
  · rw [From_dec hd]
    simp only
    clear h
    have high : ∀ {c : Char}, 0x80 ≤ c.toNat → (String.utf8EncodeChar c).filter isAscii = [] := fun h =>
      filter_nil fun b hb => ascii_false (utf8EncodeChar_high h b hb)
    induction hd with
    | nil => rfl
    | @ascii b c cs bs h1 h2 _ ih =>
      rw [utf8_cons, List.filter_append, ih, singles_ascii h1, utf8_ascii (by omega), byte_eq h2.symm,
        List.filter_cons_of_pos (by unfold isAscii; simpa using h1)]
      rfl
    | pair h1 h2 _ ih =>
      have := char_range h2
      rw [utf8_cons, List.filter_append, ih, singles_pair h1, high (by omega), List.nil_append]
    | unassigned h1 _ h2 _ ih =>
      rw [utf8_cons, List.filter_append, ih, singles_pair h1, high (by omega), List.nil_append]
  · rw [From_truncated ht] at h
    simp at h

/-- C82 is false of the code: the bytes 81 22 are not a character of CP949, and the quote is swallowed with the
first of them. So for every ASCII byte that is no letter, and for every first byte. -/
theorem C82_swallowed_fails (hi lo : Byte) (h : 0x80 ≤ hi.toNat) (hl : isMeta lo = true) (a b : Str)
    (ha : (From a).2 = none) (hb : (From b).2 = none) :
    (From (a ++ hi :: lo :: b)).1 = (From a).1 ++ utf8 ['�'] ++ (From b).1 ∧
    (From (a ++ hi :: lo :: b)).2 = none := by
  rcases dec_cases a with ⟨cs, hd⟩ | ht
  · rcases dec_cases b with ⟨ds, hd'⟩ | ht
    · have : Dec (hi :: lo :: b) ('�' :: ds) := by
        refine .unassigned h ?_ (by decide) hd'
        intro u hu
        rw [(enc_hi hu).2] at hl
        simp at hl
      rw [From_dec (dec_append hd this), From_dec hd, From_dec hd', utf8_append, utf8_cons, utf8_one]
      simp
    · rw [From_truncated ht] at hb; simp at hb
  · rw [From_truncated ht] at ha; simp at ha

/-- C82, what holds (2) (partial: strings with unassigned pairs are left out): in a string made of assigned characters
nothing is swallowed or made up. -/
theorem C82_assigned_partial (cs : List Char) (b : Str) (h : Enc cs b) : (From b).1.filter isMeta = b.filter isMeta := by
  rw [From_enc h]
  have hz : ∀ {b : Byte}, 0x80 ≤ b.toNat → isMeta b = false := fun h => isMeta_false (.inl h)
  simp only
  induction h with
  | nil => rfl
  | @ascii b c cs bs h1 h2 _ ih =>
    rw [utf8_cons, List.filter_append, ih, utf8_ascii (by omega), byte_eq h2.symm, ← List.filter_append]
    rfl
  | pair h1 _ ih =>
    have := char_range h1
    rw [utf8_cons, List.filter_append, ih, filter_nil fun b hb => hz (utf8EncodeChar_high (by omega) b hb),
      List.nil_append, List.filter_cons_of_neg (by rw [hz (enc_hi h1).1]; simp),
      List.filter_cons_of_neg (by rw [(enc_hi h1).2]; simp)]

/-- C82, what holds (3) (partial: only those with no such second byte): exactly if no second byte of a pair is such a byte, `From` keeps them all. -/
theorem C82_kept_iff_partial (b : Str) (h : (From b).2 = none) :
    (From b).1.filter isMeta = b.filter isMeta ↔ (secondBytes b).filter isMeta = [] := by
  have hf : (From b).1.filter isMeta = (singles b).filter isMeta := by
    rw [← C82_exact_partial b h, List.filter_filter]
    congr 1
    funext x
    unfold isMeta
    cases isAscii x <;> simp
  have hz : ∀ {b : Byte}, 0x80 ≤ b.toNat → ¬ isMeta b = true := fun h => by rw [isMeta_false (.inl h)]; simp
  rw [hf]
  rcases dec_cases b with ⟨cs, hd⟩ | ht
  · clear h hf
    have hlen : ∀ {b : Str} {cs : List Char}, Dec b cs →
        (b.filter isMeta).length = ((singles b).filter isMeta).length + ((secondBytes b).filter isMeta).length := by
      intro b cs hd
      have pair : ∀ {hi lo : Byte} {bs : Str}, 0x80 ≤ hi.toNat →
          (bs.filter isMeta).length = ((singles bs).filter isMeta).length + ((secondBytes bs).filter isMeta).length →
          ((hi :: lo :: bs).filter isMeta).length = ((singles (hi :: lo :: bs)).filter isMeta).length +
            ((secondBytes (hi :: lo :: bs)).filter isMeta).length := by
        intro hi lo bs h ih
        rw [singles_pair h, seconds_pair h, List.filter_cons_of_neg (hz h), List.filter_cons, List.filter_cons]
        split
        · simp only [List.length_cons]; omega
        · omega
      induction hd with
      | nil => rfl
      | ascii h1 _ _ ih =>
        rw [singles_ascii h1, seconds_ascii h1, List.filter_cons, List.filter_cons]
        split
        · simp only [List.length_cons]; omega
        · omega
      | pair h1 _ _ ih => exact pair h1 ih
      | unassigned h1 _ _ _ ih => exact pair h1 ih
    constructor
    · intro e
      have := hlen hd
      rw [← e] at this
      exact List.length_eq_zero_iff.1 (by omega)
    · have pair : ∀ {hi lo : Byte} {bs : Str}, 0x80 ≤ hi.toNat →
          ((secondBytes bs).filter isMeta = [] → (singles bs).filter isMeta = bs.filter isMeta) →
          (secondBytes (hi :: lo :: bs)).filter isMeta = [] →
          (singles (hi :: lo :: bs)).filter isMeta = (hi :: lo :: bs).filter isMeta := by
        intro hi lo bs h ih
        rw [singles_pair h, seconds_pair h, List.filter_cons_of_neg (a := hi) (hz h), List.filter_cons]
        split
        · simp
        · rename_i hlo
          rw [List.filter_cons_of_neg hlo]
          exact ih
      induction hd with
      | nil => exact fun _ => rfl
      | ascii h1 _ _ ih =>
        rw [singles_ascii h1, seconds_ascii h1]
        intro h
        rw [List.filter_cons, List.filter_cons, ih h]
      | pair h1 _ _ ih => exact pair h1 ih
      | unassigned h1 _ _ _ ih => exact pair h1 ih
  · rw [From_truncated ht] at h
    simp at h

/-- `<a href="…` with a lone byte before the closing quote: a browser that reads the converted text never sees it. -/
example : isMeta 0x22 = true ∧ 0x80 ≤ (0x81 : Byte).toNat ∧ Enc ['갂'] [0x81, 0x41] := by
  have h : Chart 0x8141 '갂'.toNat := by unfold Chart; decide +kernel
  exact ⟨by decide, by decide, enc_code h .nil⟩

end Props
