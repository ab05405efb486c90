import Verif.Lemmas.Cp949
/-! Property theorems C28–C38 (package cp949: `From` and `To`). -/
namespace Cp949
open Go Spec

attribute [local irreducible] fromTable toTable rawFrom rawTo

/-! ## Helpers -/

theorem enc_dec {cs : List Char} {b : Str} (h : Enc cs b) : Dec b cs := by
  induction h with
  | nil => exact .nil
  | ascii h1 h2 _ ih => exact .ascii h1 h2 ih
  | @pair hi lo c cs bs h1 _ ih =>
    have h2 := code_range h1
    have := byte_lt lo
    exact .pair (by omega) h1 ih

theorem toUnit_pair {hi lo : Byte} {c : Char} (h : Chart (hi.toNat * 256 + lo.toNat) c.toNat) :
    toUnit (runeOf c) = [hi, lo] := by
  have h1 := byte_lt hi
  have h2 := byte_lt lo
  have h3 := char_range h
  have h4 : c.toNat % 65536 = c.toNat := by omega
  rw [toUnit_found (by omega) (by rw [h4]; exact h),
    show (hi.toNat * 256 + lo.toNat) / 256 = hi.toNat by omega,
    show (hi.toNat * 256 + lo.toNat) % 256 = lo.toNat by omega]
  simp

theorem enc_units {cs : List Char} {b : Str} (h : Enc cs b) :
    (cs.map runeOf).flatMap toUnit = b := by
  induction h with
  | nil => rfl
  | @ascii b c cs bs h1 h2 _ ih =>
    rw [List.map_cons, List.flatMap_cons, ih, toUnit_ascii (by omega), byte_eq h2.symm]
    rfl
  | pair h1 _ ih =>
    rw [List.map_cons, List.flatMap_cons, ih, toUnit_pair h1]
    rfl

theorem To_utf8 (cs : List Char) : To (utf8 cs) = ((cs.map runeOf).flatMap toUnit, none) := by
  rw [To_eq, runes_utf8]

theorem To_one (c : Char) : To (utf8 [c]) = (toUnit (runeOf c), none) := by
  rw [To_utf8]; simp

theorem To_enc {cs : List Char} {b : Str} (h : Enc cs b) : To (utf8 cs) = (b, none) := by
  rw [To_utf8, enc_units h]

theorem From_enc {cs : List Char} {b : Str} (h : Enc cs b) : From b = (utf8 cs, none) :=
  From_dec (enc_dec h)

theorem enc_code {code : Nat} {c : Char} {cs : List Char} {b : Str} (h : Chart code c.toNat)
    (hb : Enc cs b) : Enc (c :: cs) (UInt8.ofNat (code / 256) :: UInt8.ofNat (code % 256) :: b) := by
  refine .pair ?_ hb
  have := raw_lt h
  rw [toNat_ofNat8, toNat_ofNat8,
    show code / 256 % 256 * 256 + code % 256 % 256 = code by omega]
  exact h

theorem enc_append {cs ds : List Char} {a b : Str} (h : Enc cs a) (h' : Enc ds b) :
    Enc (cs ++ ds) (a ++ b) := by
  induction h with
  | nil => exact h'
  | ascii h1 h2 _ ih => exact .ascii h1 h2 ih
  | pair h1 _ ih => exact .pair h1 ih

/-- 가 has a code. -/
theorem chart_ga : ∃ code, Chart code 0xAC00 := exists_code (by omega) (by omega)

theorem ga_toNat : '가'.toNat = 0xAC00 := by decide

/-! ## C28 -/

/-- C28: text over the repertoire is encoded without loss; decoding gives it back. -/
theorem C28_roundtrip_unicode (cs : List Char) (h : ∀ c ∈ cs, InRepertoire c) :
    ∃ b, To (utf8 cs) = (b, none) ∧ Enc cs b ∧ From b = (utf8 cs, none) := by
  have : ∃ b, Enc cs b := by
    induction cs with
    | nil => exact ⟨[], .nil⟩
    | cons c cs ih =>
      obtain ⟨b, hb⟩ := ih fun d hd => h d (List.mem_cons_of_mem _ hd)
      rcases h c (List.mem_cons_self ..) with hc | ⟨code, hc⟩
      · exact ⟨UInt8.ofNat c.toNat :: b,
          .ascii (by rw [toNat_ofNat8]; omega) (by rw [toNat_ofNat8]; omega) hb⟩
      · exact ⟨_, enc_code hc hb⟩
  obtain ⟨b, hb⟩ := this
  exact ⟨b, To_enc hb, hb, From_enc hb⟩

/-- C28: every Hangul syllable and every ASCII character is in the repertoire. -/
theorem C28_repertoire (c : Char) (h : c.toNat < 0x80 ∨ (0xAC00 ≤ c.toNat ∧ c.toNat ≤ 0xD7A3)) :
    InRepertoire c := by
  rcases h with h | ⟨h1, h2⟩
  · exact .inl h
  · exact .inr (exists_code h1 h2)

example : ∀ c ∈ ['가', 'a', '힣'], InRepertoire c := by
  intro c hc
  apply C28_repertoire
  simp only [List.mem_cons, List.not_mem_nil, or_false] at hc
  rcases hc with rfl | rfl | rfl <;> decide

/-! ## C29 -/

/-- C29: a well-formed CP949 string is decoded, and encoding the result gives it back. -/
theorem C29_roundtrip_cp949 (b : Str) (cs : List Char) (h : Enc cs b) :
    From b = (utf8 cs, none) ∧ To (From b).1 = (b, none) := by
  rw [From_enc h]
  exact ⟨rfl, To_enc h⟩

/-- C29: a string is the encoding of at most one text, and a text has at most one encoding. -/
theorem C29_unique {b b' : Str} {cs cs' : List Char} (h : Enc cs b) (h' : Enc cs' b') :
    cs = cs' ↔ b = b' := by
  constructor
  · rintro rfl
    have := To_enc h
    rw [To_enc h'] at this
    simpa using this.symm
  · rintro rfl
    have h1 := From_enc h
    rw [From_enc h'] at h1
    have h1 : utf8 cs' = utf8 cs := by simpa using h1
    exact (utf8_inj h1).symm

example : ∃ b, Enc ['가', 'A'] b := by
  obtain ⟨code, h⟩ := chart_ga
  rw [← ga_toNat] at h
  exact ⟨_, enc_code h (.ascii (b := 0x41) (by decide) (by decide) .nil)⟩

/-! ## C30 -/

/-- C30: `From` fails exactly on a string whose last character is cut off; then the error is
`ErrCP949UnexpectedStream` and no data is returned. -/
theorem C30_error_iff (b : Str) :
    ((From b).2 ≠ none ↔ Truncated b) ∧
    ((From b).2 ≠ none → From b = ([], some .unexpectedStream)) := by
  rcases dec_cases b with ⟨cs, h⟩ | h
  · rw [From_dec h]
    refine ⟨⟨fun h' => absurd rfl h', fun h' => absurd h' (dec_not_truncated h)⟩,
      fun h' => absurd rfl h'⟩
  · rw [From_truncated h]
    refine ⟨⟨fun _ => h, fun _ => ?_⟩, fun _ => rfl⟩
    simp

/-- Both cases occur: `41 B0` is truncated, `B0 A1` is not. -/
example : Truncated [0x41, 0xB0] ∧ ¬ Truncated [0xB0, 0xA1] := by
  refine ⟨.ascii (by decide) (.lone (by decide)), ?_⟩
  intro h
  cases h with
  | ascii h1 _ => revert h1; decide
  | pair _ h2 => cases h2

/-! ## C31 -/

/-- C31: `From` succeeds with output `out` exactly when `out` is the UTF-8 of the text `b` reads as,
unit by unit. In particular the output is valid UTF-8. -/
theorem C31_decodes (b out : Str) :
    From b = (out, none) ↔ ∃ cs, Dec b cs ∧ out = utf8 cs := by
  constructor
  · intro h
    rcases dec_cases b with ⟨cs, hd⟩ | ht
    · rw [From_dec hd] at h
      exact ⟨cs, hd, by simpa using h.symm⟩
    · rw [From_truncated ht] at h
      simp at h
  · rintro ⟨cs, hd, rfl⟩
    exact From_dec hd

/-- C31: valid UTF-8, also when it fails (no output). -/
theorem C31_valid (b : Str) : IsUtf8 (From b).1 := by
  rcases dec_cases b with ⟨cs, hd⟩ | ht
  · exact ⟨cs, by rw [From_dec hd]⟩
  · exact ⟨[], by rw [From_truncated ht]; rfl⟩

/-- An unassigned pair, FF FF, reads as U+FFFD. -/
example : ∃ cs, Dec [0xFF, 0xFF] cs :=
  ⟨[fffd], .unassigned (by decide) (fun u h => by have := (code_range h).2.1; revert this; decide)
    fffd_toNat .nil⟩

/-! ## C32 -/

theorem dec_append {a b : Str} {cs ds : List Char} (h : Dec a cs) (h' : Dec b ds) :
    Dec (a ++ b) (cs ++ ds) := by
  induction h with
  | nil => exact h'
  | ascii h1 h2 _ ih => exact .ascii h1 h2 ih
  | pair h1 h2 _ ih => exact .pair h1 h2 ih
  | unassigned h1 h2 h3 _ ih => exact .unassigned h1 h2 h3 ih

theorem truncated_append {a b : Str} {cs : List Char} (h : Dec a cs) (h' : Truncated b) :
    Truncated (a ++ b) := by
  induction h with
  | nil => exact h'
  | ascii h1 _ _ ih => exact .ascii h1 ih
  | pair h1 _ _ ih => exact .pair h1 ih
  | unassigned h1 _ _ _ ih => exact .pair h1 ih

theorem utf8_append (cs ds : List Char) : utf8 (cs ++ ds) = utf8 cs ++ utf8 ds := by
  simp [utf8]

/-- C32: after a string on which `From` succeeds, decoding goes on as if started afresh. -/
theorem C32_concat (a b : Str) (ha : (From a).2 = none) :
    From (a ++ b) =
      (if (From b).2 = none then ((From a).1 ++ (From b).1, none) else ([], (From b).2)) := by
  rcases dec_cases a with ⟨cs, hd⟩ | ht
  · rcases dec_cases b with ⟨ds, hd'⟩ | ht'
    · rw [From_dec (dec_append hd hd'), From_dec hd, From_dec hd', if_pos rfl, utf8_append]
    · rw [From_truncated (truncated_append hd ht'), From_truncated ht', if_neg (by simp)]
  · rw [From_truncated ht] at ha
    simp at ha

example : (From [0x41]).2 = none := by
  rw [From_dec (.ascii (c := 'A') (by decide) (by decide) .nil)]

/-! ## C33 -/

/-- C33: `To` distributes over concatenation if the first part is valid UTF-8. -/
theorem C33_concat (a b : Str) (ha : IsUtf8 a) : To (a ++ b) = ((To a).1 ++ (To b).1, none) := by
  obtain ⟨cs, rfl⟩ := ha
  rw [To_eq, To_eq, To_eq, runes_utf8_append, runes_utf8, List.flatMap_append]

/-- C33: also if the second part begins at a character boundary, whatever the first part. -/
theorem C33_concat_boundary (a b : Str) (hb : Boundary b) :
    To (a ++ b) = ((To a).1 ++ (To b).1, none) := by
  rw [To_eq, To_eq, To_eq, runes_append a b hb, List.flatMap_append]

example : IsUtf8 (utf8 ['가']) ∧ Boundary (utf8 ['나']) := ⟨⟨_, rfl⟩, boundary_utf8 _⟩

/-! ## C34 -/

theorem ascii_chars (s : Str) (h : ∀ b ∈ s, b.toNat < 0x80) :
    ∃ cs, s = utf8 cs ∧ Enc cs s := by
  induction s with
  | nil => exact ⟨[], rfl, .nil⟩
  | cons b s ih =>
    obtain ⟨cs, h1, h2⟩ := ih fun x hx => h x (List.mem_cons_of_mem _ hx)
    have hb := h b (List.mem_cons_self ..)
    obtain ⟨c, hc⟩ := exists_char (v := b.toNat) (by omega)
    refine ⟨c :: cs, ?_, .ascii hb hc h2⟩
    rw [utf8_cons, encode_one (by omega), byte_eq hc.symm, ← h1]
    rfl

/-- C34: ASCII strings are unchanged by `From` and `To`. -/
theorem C34_ascii (s : Str) (h : ∀ b ∈ s, b.toNat < 0x80) :
    From s = (s, none) ∧ To s = (s, none) := by
  obtain ⟨cs, h1, h2⟩ := ascii_chars s h
  have h3 := From_enc h2
  have h4 := To_enc h2
  rw [← h1] at h3 h4
  exact ⟨h3, h4⟩

theorem boundary_ascii (s b : Str) (hs : s ≠ []) (h : ∀ b ∈ s, b.toNat < 0x80) :
    Boundary (s ++ b) := by
  cases s with
  | nil => exact absurd rfl hs
  | cons x s =>
    intro y t e
    simp only [List.cons_append, List.cons.injEq] at e
    have := h x (List.mem_cons_self ..)
    rw [← e.1]
    omega

/-- C34: an ASCII part inside any string is carried over by `To` (whatever surrounds it)
and by `From` (if what precedes it does not end in the middle of a character). -/
theorem C34_ascii_inside (a s b : Str) (hs : s ≠ []) (h : ∀ b ∈ s, b.toNat < 0x80) :
    To (a ++ (s ++ b)) = ((To a).1 ++ (s ++ (To b).1), none) ∧
    ((From a).2 = none → (From b).2 = none →
      From (a ++ (s ++ b)) = ((From a).1 ++ (s ++ (From b).1), none)) := by
  obtain ⟨cs, h1, _⟩ := ascii_chars s h
  obtain ⟨h2, h3⟩ := C34_ascii s h
  constructor
  · rw [C33_concat_boundary a _ (boundary_ascii s b hs h), C33_concat s b ⟨cs, h1⟩, h3]
  · intro ha hb
    have hs' : From (s ++ b) = (s ++ (From b).1, none) := by
      rw [C32_concat s b (by rw [h2]), if_pos hb, h2]
    rw [C32_concat a _ ha, hs', if_pos rfl]

example : ∀ b ∈ ([0x68, 0x69] : Str), b.toNat < 0x80 := by decide  -- "hi"

/-! ## C35 -/

/-- C35: the two directions are mutually inverse: for a two-byte code and a character of the Basic
Multilingual Plane (other than the replacement character), `From` maps the code to the
character exactly when `To` maps the character to the code, and exactly when the chart says so. -/
theorem C35_inverse (hi lo : Byte) (c : Char) (hh : 0x80 ≤ hi.toNat) (hc : c.toNat ≤ 0xFFFF)
    (hf : c.toNat ≠ 0xFFFD) :
    (From [hi, lo] = (utf8 [c], none) ↔ Chart (hi.toNat * 256 + lo.toNat) c.toNat) ∧
    (To (utf8 [c]) = ([hi, lo], none) ↔ Chart (hi.toNat * 256 + lo.toNat) c.toNat) := by
  have h1 := byte_lt hi
  have h2 := byte_lt lo
  refine ⟨⟨?_, ?_⟩, ⟨?_, ?_⟩⟩
  · intro h
    obtain ⟨cs, hd, he⟩ := (C31_decodes _ _).1 h
    have he := utf8_inj he
    cases hd with
    | ascii hb _ _ => omega
    | pair _ hch hd =>
      cases hd
      simp only [List.cons.injEq, and_true] at he
      rw [he]; exact hch
    | unassigned _ _ hd' hd =>
      cases hd
      simp only [List.cons.injEq, and_true] at he
      rw [he] at hf
      exact absurd hd' hf
  · intro h
    exact From_dec (.pair hh h .nil)
  · intro h
    rw [To_one] at h
    have h : toUnit (runeOf c) = [hi, lo] := by simpa using h
    have hm : c.toNat % 65536 = c.toNat := by omega
    rcases toUnit_cases c with ⟨_, e⟩ | ⟨_, code, hch, e⟩ | ⟨_, _, _, e⟩ | ⟨_, _, e⟩
    · rw [e] at h; simp at h
    · rw [e] at h
      simp only [List.cons.injEq, and_true] at h
      have := raw_lt hch
      rw [← h.1, ← h.2, toNat_ofNat8, toNat_ofNat8,
        show code / 256 % 256 * 256 + code % 256 % 256 = code by omega, ← hm]
      exact hch
    · rw [e] at h; simp at h
    · rw [e] at h
      simp only [List.cons.injEq, and_true] at h
      rw [← h.1] at hh
      exact absurd hh (by decide)
  · intro h
    rw [To_one, toUnit_pair h]

/-- C35: every code has a lead byte in 81..FD and a trail byte in 41..5A, 61..7A or 81..FE. -/
theorem C35_codes (code u : Nat) (h : Chart code u) :
    0x81 ≤ code / 256 ∧ code / 256 ≤ 0xFD ∧
    ((0x41 ≤ code % 256 ∧ code % 256 ≤ 0x5A) ∨ (0x61 ≤ code % 256 ∧ code % 256 ≤ 0x7A) ∨
      (0x81 ≤ code % 256 ∧ code % 256 ≤ 0xFE)) := code_range h

/-- C35: every syllable has a code, and codes and characters determine each other. -/
theorem C35_complete :
    (∀ u, 0xAC00 ≤ u → u ≤ 0xD7A3 → ∃ code, Chart code u) ∧
    (∀ code u u', Chart code u → Chart code u' → u = u') ∧
    (∀ code code' u, Chart code u → Chart code' u → code = code') :=
  ⟨fun _ h1 h2 => exists_code h1 h2, fun _ _ _ h h' => code_unique h h',
    fun _ _ _ h h' => char_unique h h'⟩

example : ∃ code, Chart code '가'.toNat ∧ '가'.toNat ≤ 0xFFFF ∧ '가'.toNat ≠ 0xFFFD := by
  obtain ⟨code, h⟩ := chart_ga
  exact ⟨code, by rw [ga_toNat]; exact h, by decide, by decide⟩

/-! ## C36 -/

theorem unit_enc (c : Char) : ∃ ds, Enc ds (toUnit (runeOf c)) := by
  have q : Enc ['?'] [0x3F] := .ascii (by decide) (by decide) .nil
  rcases toUnit_cases c with ⟨h, e⟩ | ⟨_, code, hch, e⟩ | ⟨_, _, _, e⟩ | ⟨_, _, e⟩ <;> rw [e]
  · exact ⟨[c], .ascii (by rw [toNat_ofNat8]; omega) (by rw [toNat_ofNat8]; omega) .nil⟩
  · have := char_range hch
    obtain ⟨d, hd⟩ := exists_char (v := c.toNat % 65536) (by omega)
    rw [← hd] at hch
    exact ⟨[d], enc_code hch .nil⟩
  · exact ⟨_, q⟩
  · exact ⟨_, enc_append q q⟩

/-- C36: `To` succeeds on every byte string, and its output is well-formed CP949, so `From`
accepts it. -/
theorem C36_total (s : Str) :
    (To s).2 = none ∧ ∃ ds, Enc ds (To s).1 ∧ From (To s).1 = (utf8 ds, none) := by
  rw [To_eq]
  refine ⟨rfl, ?_⟩
  have : ∃ ds, Enc ds ((runes s).flatMap toUnit) := by
    obtain ⟨cs, hc⟩ := runes_chars s
    rw [hc]
    clear hc
    induction cs with
    | nil => exact ⟨[], .nil⟩
    | cons c cs ih =>
      obtain ⟨ds, h⟩ := ih
      obtain ⟨es, h'⟩ := unit_enc c
      exact ⟨es ++ ds, enc_append h' h⟩
  obtain ⟨ds, h⟩ := this
  exact ⟨ds, h, From_enc h⟩

/-! ## C37 -/

theorem not_repertoire_of_high {c : Char} (h : 0xFFE6 < c.toNat) : ¬ InRepertoire c := by
  rintro (h' | ⟨code, h'⟩)
  · omega
  · have := char_range h'; omega

/-- C37 is false of the code: U+FFFD is not in CP949 and becomes `??`. -/
theorem C37_one_question_mark_fails :
    ¬ ∀ c : Char, ¬ InRepertoire c → To (utf8 [c]) = ([0x3F], none) := by
  intro H
  have h := H fffd (not_repertoire_of_high (by rw [fffd_toNat]; omega))
  rw [To_one, toUnit_double (by rw [fffd_toNat]; omega) (by rw [fffd_toNat]; omega)] at h
  simp at h

/-- C37, what holds (partial: only for characters up to U+FFE6): the output is the encoding of the
text with each character outside the repertoire replaced by one `?`. -/
theorem C37_one_question_mark_partial (cs : List Char) (h : ∀ c ∈ cs, c.toNat ≤ 0xFFE6) :
    Enc (cs.map substitute) (To (utf8 cs)).1 := by
  rw [To_utf8]
  simp only
  induction cs with
  | nil => exact .nil
  | cons c cs ih =>
    have hc := h c (List.mem_cons_self ..)
    have hm : c.toNat % 65536 = c.toNat := by omega
    have ih := ih fun d hd => h d (List.mem_cons_of_mem _ hd)
    rw [List.map_cons, List.map_cons, List.flatMap_cons]
    refine enc_append (cs := [substitute c]) ?_ ih
    rcases toUnit_cases c with ⟨h1, e⟩ | ⟨_, code, hch, e⟩ | ⟨h1, hn, _, e⟩ | ⟨_, h2, e⟩
    · rw [e, substitute, if_pos (.inl h1)]
      exact .ascii (by rw [toNat_ofNat8]; omega) (by rw [toNat_ofNat8]; omega) .nil
    · rw [hm] at hch
      rw [e, substitute, if_pos (.inr ⟨code, hch⟩)]
      exact enc_code hch .nil
    · rw [hm] at hn
      rw [e, substitute, if_neg (by rintro (h' | ⟨code, h'⟩); omega; exact hn code h')]
      exact .ascii (by decide) (by decide) .nil
    · omega

/-- C37, the exact behaviour on every character: `To` works character by character; ASCII is kept;
otherwise the code of the character with the low 16 bits is written if there is one; otherwise `??` if
the low 16 bits exceed FFE6 and `?` if not. -/
theorem C37_exact (cs : List Char) :
    (To (utf8 cs)).1 = cs.flatMap (fun c => (To (utf8 [c])).1) ∧
    ∀ c : Char,
      (c.toNat < 0x80 → (To (utf8 [c])).1 = [UInt8.ofNat c.toNat]) ∧
      (∀ code, 0x80 ≤ c.toNat → Chart code (c.toNat % 65536) →
        (To (utf8 [c])).1 = [UInt8.ofNat (code / 256), UInt8.ofNat (code % 256)]) ∧
      (0x80 ≤ c.toNat → (∀ code, ¬ Chart code (c.toNat % 65536)) →
        (To (utf8 [c])).1 = if 0xFFE6 < c.toNat % 65536 then [0x3F, 0x3F] else [0x3F]) := by
  refine ⟨?_, fun c => ⟨?_, ?_, ?_⟩⟩
  · rw [To_utf8]
    simp only [To_one, List.flatMap_map]
  · intro h; rw [To_one, toUnit_ascii h]
  · intro code h hc; rw [To_one, toUnit_found h hc]
  · intro h hn
    rw [To_one]
    by_cases hl : 0xFFE6 < c.toNat % 65536
    · rw [if_pos hl, toUnit_double h hl]
    · rw [if_neg hl, toUnit_single h (by omega) hn]

/-- A character that is not in CP949 and is below the limit: U+0080. -/
example : ¬ InRepertoire (Char.ofNat 0x80) ∧ (Char.ofNat 0x80).toNat ≤ 0xFFE6 := by
  refine ⟨?_, by decide⟩
  rintro (h | ⟨code, h⟩)
  · exact absurd h (by decide)
  · have := (char_range h).1
    exact absurd this (by decide)

/-! ## C38 -/

/-- C38 is false of the code: U+1AC00 is written as 가 is, and comes back as 가. -/
theorem C38_no_wrong_character_fails :
    ∃ c : Char, ¬ InRepertoire c ∧ To (utf8 [c]) = To (utf8 ['가']) ∧
      From (To (utf8 [c])).1 = (utf8 ['가'], none) := by
  obtain ⟨c, hc⟩ := exists_char (v := 0x1AC00) (by omega)
  obtain ⟨code, h⟩ := chart_ga
  have h1 : To (utf8 [c]) = To (utf8 ['가']) := by
    rw [To_one, To_one, toUnit_found (c := c) (code := code) (by omega) (by rw [hc]; exact h),
      toUnit_found (c := '가') (code := code) (by rw [ga_toNat]; omega) (by rw [ga_toNat]; exact h)]
  rw [← ga_toNat] at h
  have he := enc_code h .nil
  refine ⟨c, not_repertoire_of_high (by omega), h1, ?_⟩
  rw [h1, To_enc he, From_enc he]

/-- C38, what holds (partial: only for characters up to U+FFFF): the only substitutes are `?` and
`??`. -/
theorem C38_no_wrong_character_partial (c : Char) (h : ¬ InRepertoire c) (hc : c.toNat ≤ 0xFFFF) :
    To (utf8 [c]) = ([0x3F], none) ∨ To (utf8 [c]) = ([0x3F, 0x3F], none) := by
  have hm : c.toNat % 65536 = c.toNat := by omega
  rw [To_one]
  rcases toUnit_cases c with ⟨h1, e⟩ | ⟨_, code, hch, e⟩ | ⟨h1, hn, _, e⟩ | ⟨_, h2, e⟩
  · exact absurd (.inl h1) h
  · rw [hm] at hch; exact absurd (.inr ⟨code, hch⟩) h
  · left; rw [e]
  · right; rw [e]

/-- C38: exactly which characters are affected: those above U+FFFF whose low 16 bits are in the
chart. -/
theorem C38_affected_partial (c : Char) (h : ¬ InRepertoire c) :
    (To (utf8 [c]) = ([0x3F], none) ∨ To (utf8 [c]) = ([0x3F, 0x3F], none)) ↔
      ¬ (0xFFFF < c.toNat ∧ ∃ code, Chart code (c.toNat % 65536)) := by
  rw [To_one]
  constructor
  · rintro h1 ⟨h2, code, h3⟩
    rw [toUnit_found (by omega) h3] at h1
    have hr := code_range h3
    rcases h1 with h1 | h1
    · simp at h1
    · simp only [Prod.mk.injEq, List.cons.injEq, and_true] at h1
      have := congrArg UInt8.toNat h1.1
      rw [toNat_ofNat8] at this
      have e : (0x3F : Byte).toNat = 0x3F := rfl
      rw [e] at this
      omega
  · intro h1
    by_cases h2 : c.toNat ≤ 0xFFFF
    · have := C38_no_wrong_character_partial c h h2
      rwa [To_one] at this
    · rcases toUnit_cases c with ⟨h3, e⟩ | ⟨_, code, hch, e⟩ | ⟨h3, hn, _, e⟩ | ⟨_, h3, e⟩
      · omega
      · exact absurd ⟨by omega, code, hch⟩ h1
      · left; rw [e]
      · right; rw [e]

end Cp949
