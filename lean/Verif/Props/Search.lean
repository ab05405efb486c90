import Verif.Props.Lines
/-! C98, C99: searching in encoded texts, and cutting them. -/
namespace Props
open Go Spec Cp949

attribute [local irreducible] fromTable toTable rawFrom rawTo

theorem enc_dec {cs : List Char} {b : Str} (h : Enc cs b) : Dec b cs := by
  induction h with
  | nil => exact .nil
  | ascii h1 h2 _ ih => exact .ascii h1 h2 ih
  | @pair hi lo c cs bs h1 _ ih =>
    have := code_range h1
    have hlo : lo.toNat < 256 := UInt8.toNat_lt lo
    exact .pair (by omega) h1 ih

theorem enc_append {cs ds : List Char} {a b : Str} (h : Enc cs a) (h' : Enc ds b) : Enc (cs ++ ds) (a ++ b) := by
  induction h with
  | nil => exact h'
  | ascii h1 h2 _ ih => exact .ascii h1 h2 ih
  | pair h1 _ ih => exact .pair h1 ih

theorem dec_unique {b : Str} {cs ds : List Char} (h : Dec b cs) (h' : Dec b ds) : cs = ds := by
  have := From_dec h
  rw [From_dec h'] at this
  exact (utf8_inj (Prod.mk.inj this).1).symm

/-- What follows a whole part is whole if all is. -/
theorem dec_rest {a b : Str} {us cs : List Char} (ha : Dec a us) (h : Dec (a ++ b) cs) : ∃ vs, Dec b vs ∧ cs = us ++ vs := by
  rcases dec_cases b with ⟨vs, hv⟩ | ht
  · exact ⟨vs, hv, dec_unique h (dec_append ha hv)⟩
  · exact absurd (truncated_append ha ht) (dec_not_truncated h)

theorem enc_split {us vs : List Char} {b : Str} (h : Enc (us ++ vs) b) : ∃ x y, b = x ++ y ∧ Enc us x ∧ Enc vs y := by
  induction us generalizing b with
  | nil => exact ⟨[], b, rfl, .nil, h⟩
  | cons u us ih =>
    cases h with
    | ascii h1 h2 h =>
      obtain ⟨x, y, rfl, hx, hy⟩ := ih h
      exact ⟨_ :: x, y, rfl, .ascii h1 h2 hx, hy⟩
    | pair h1 h =>
      obtain ⟨x, y, rfl, hx, hy⟩ := ih h
      exact ⟨_ :: _ :: x, y, rfl, .pair h1 hx, hy⟩

theorem enc_unique {cs : List Char} {a b : Str} (h : Enc cs a) (h' : Enc cs b) : a = b := by
  have := To_enc h
  rw [To_enc h'] at this
  exact (Prod.mk.inj this).1.symm

theorem enc_repertoire {cs : List Char} {b : Str} (h : Enc cs b) : ∀ c ∈ cs, InRepertoire c := by
  induction h with
  | nil => intro c hc; cases hc
  | ascii h1 h2 _ ih =>
    intro c hc
    rcases List.mem_cons.1 hc with rfl | hc
    · exact .inl (by omega)
    · exact ih c hc
  | pair h1 _ ih =>
    intro c hc
    rcases List.mem_cons.1 hc with rfl | hc
    · exact .inr ⟨_, h1⟩
    · exact ih c hc

/-! ## Encoded texts -/

/-- An encoded text begins with the encoding of another exactly if the text begins with the other. -/
theorem enc_begins (cs ds : List Char) (b d : Str) (hb : Enc cs b) (hd : Enc ds d) : d <+: b ↔ ds <+: cs := by
  constructor
  · rintro ⟨r, rfl⟩
    obtain ⟨vs, -, e⟩ := dec_rest (enc_dec hd) (enc_dec hb)
    exact ⟨vs, e.symm⟩
  · rintro ⟨vs, rfl⟩
    obtain ⟨x, y, rfl, hx, -⟩ := enc_split hb
    rw [enc_unique hd hx]
    exact ⟨y, rfl⟩

/-- Every place in the text is one in the encoding: what occurs in the text occurs there encoded. -/
theorem enc_found (cs ds : List Char) (b d : Str) (hb : Enc cs b) (hd : Enc ds d) (h : ds <:+: cs) : d <:+: b := by
  obtain ⟨us, vs, rfl⟩ := h
  rw [List.append_assoc] at hb
  obtain ⟨x, y, rfl, -, hy⟩ := enc_split hb
  obtain ⟨y1, y2, rfl, h1, -⟩ := enc_split hy
  rw [enc_unique hd h1]
  exact ⟨x, y2, by simp⟩

/-- The other way round is false: 걍가 encoded has the encoding of 졀 in its middle, and 걖A encoded ends as 갂 is
encoded. -/
theorem enc_search_not :
    (¬ ∀ (cs ds : List Char) (b d : Str), Enc cs b → Enc ds d → d <:+: b → ds <:+: cs) ∧
    (¬ ∀ (cs ds : List Char) (b d : Str), Enc cs b → Enc ds d → d <:+ b → ds <:+ cs) := by
  have h1 : Chart 0xB0C1 '걍'.toNat := by unfold Chart; decide +kernel
  have h2 : Chart 0xB0A1 '가'.toNat := by unfold Chart; decide +kernel
  have h3 : Chart 0xC1B0 '졀'.toNat := by unfold Chart; decide +kernel
  have h4 : Chart 0x8181 '걖'.toNat := by unfold Chart; decide +kernel
  have h5 : Chart 0x8141 '갂'.toNat := by unfold Chart; decide +kernel
  constructor
  · intro h
    have := h ['걍', '가'] ['졀'] [0xB0, 0xC1, 0xB0, 0xA1] [0xC1, 0xB0] (enc_code h1 (enc_code h2 .nil)) (enc_code h3 .nil)
      ⟨[0xB0], [0xA1], rfl⟩
    have := this.subset (List.mem_singleton.2 rfl)
    simp at this
  · intro h
    have := h ['걖', 'A'] ['갂'] [0x81, 0x81, 0x41] [0x81, 0x41] (enc_code h4 (.ascii (b := 0x41) (by decide) (by decide) .nil))
      (enc_code h5 .nil) ⟨[0x81], rfl⟩
    have := this.subset (List.mem_singleton.2 rfl)
    simp at this

/-- A match that begins between two characters is one in the text, at that
place. -/
theorem enc_aligned (cs ds : List Char) (b d : Str) (hb : Enc cs b) (hd : Enc ds d) (x y : Str) (e : b = x ++ d ++ y)
    (hx : (From x).2 = none) : ∃ us vs, cs = us ++ ds ++ vs ∧ From x = (utf8 us, none) := by
  rcases dec_cases x with ⟨us, hu⟩ | ht
  · have h := enc_dec hb
    rw [e, List.append_assoc] at h
    obtain ⟨ws, hw, rfl⟩ := dec_rest hu h
    obtain ⟨vs, -, rfl⟩ := dec_rest (enc_dec hd) hw
    exact ⟨us, vs, by simp, From_dec hu⟩
  · rw [From_truncated ht] at hx
    cases hx

theorem enc_second {cs : List Char} {b : Str} (h : Enc cs b) : ∀ y ∈ secondBytes b, isMeta y = false := by
  induction h with
  | nil => intro y hy; cases hy
  | ascii h1 _ _ ih => rw [seconds_ascii h1]; exact ih
  | @pair hi lo c cs bs h1 _ ih =>
    obtain ⟨r1, r2, r3⟩ := code_range h1
    have hlo : lo.toNat < 256 := UInt8.toNat_lt lo
    rw [seconds_pair (by omega)]
    intro y hy
    rcases List.mem_cons.1 hy with rfl | hy
    · exact isMeta_false (by omega)
    · exact ih y hy

/-- A search for something that begins with an ASCII
character that is neither a letter nor `?` finds exactly the places in the text. -/
theorem enc_search (cs ds : List Char) (b d : Str) (hb : Enc cs b) (hd : Enc ds d) (z : Byte) (hz : isMeta z = true)
    (hf : d.head? = some z) : d <:+: b ↔ ds <:+: cs := by
  refine ⟨?_, enc_found cs ds b d hb hd⟩
  rintro ⟨x, y, e⟩
  obtain ⟨d', rfl⟩ : ∃ d', d = z :: d' := by
    cases d with
    | nil => cases hf
    | cons a d' => exact ⟨d', by simp at hf; rw [hf]⟩
  have hn : z ∉ secondBytes (x ++ z :: (d' ++ y)) := by
    intro h
    have e' : x ++ z :: (d' ++ y) = b := by rw [← e]; simp
    rw [e'] at h
    rw [enc_second hb z h] at hz
    cases hz
  obtain ⟨us, hu⟩ := cut_before hn
  obtain ⟨us', vs, h, -⟩ := enc_aligned cs ds b _ hb hd x y e.symm (by rw [From_dec hu])
  exact ⟨us', vs, h.symm⟩

/-- An encoding begins with an ASCII byte if the text does. -/
theorem enc_first {ds : List Char} {d : Str} (h2 : Enc ds d) {z : Byte} (hz : isMeta z = true)
    (hf : (utf8 ds).head? = some z) : d.head? = some z := by
  have hz' : z.toNat < 0x80 := by
    unfold isMeta isAscii at hz
    simp at hz
    exact hz.1.1
  cases h2 with
  | nil => cases hf
  | @ascii x c _ _ g1 g2 _ =>
    rw [utf8_cons, encode_one (by omega)] at hf
    simp only [List.cons_append, List.head?_cons, Option.some.injEq] at hf ⊢
    rw [← hf]
    exact (byte_eq g2.symm).symm
  | @pair hi lo c _ _ g1 _ =>
    exfalso
    obtain ⟨g, -⟩ := char_range g1
    have hne := encode_ne c
    obtain ⟨a, t, ht⟩ := List.exists_cons_of_ne_nil hne
    rw [utf8_cons, ht] at hf
    simp only [List.cons_append, List.head?_cons, Option.some.injEq] at hf
    have := utf8EncodeChar_high (c := c) (by omega) z (by rw [ht, hf]; exact List.mem_cons_self ..)
    omega

/-- An encoded text has one byte for each ASCII character and two for each other: the width at which terminals show it. -/
theorem enc_width (cs : List Char) (b : Str) (h : Enc cs b) :
    b.length = (cs.map fun c => if c.toNat < 0x80 then 1 else 2).sum := by
  induction h with
  | nil => rfl
  | ascii h1 h2 _ ih => simp only [List.length_cons, ih, List.map_cons, List.sum_cons]; rw [if_pos (by omega)]; omega
  | pair h1 _ ih =>
    obtain ⟨h, -⟩ := char_range h1
    simp only [List.length_cons, ih, List.map_cons, List.sum_cons]
    rw [if_neg (by omega)]
    omega

/-- Cut after any number of bytes, an encoded text decodes to the characters that fit, or ends in the first half of the next
character; then `From` refuses it, and without its last byte it decodes to the characters that fit. -/
theorem enc_cut (cs : List Char) (b : Str) (h : Enc cs b) (n : Nat) (hn : n ≤ b.length) :
    (∃ us vs, cs = us ++ vs ∧ Enc us (b.take n) ∧ From (b.take n) = (utf8 us, none)) ∨
    (∃ us c vs, cs = us ++ c :: vs ∧ 0x80 ≤ c.toNat ∧ Enc us (b.take (n - 1)) ∧ 0 < n ∧
      From (b.take n) = ([], some .unexpectedStream) ∧ From (b.take (n - 1)) = (utf8 us, none)) := by
  suffices hs : (∃ us vs, cs = us ++ vs ∧ Enc us (b.take n)) ∨
      (∃ us c vs, cs = us ++ c :: vs ∧ 0x80 ≤ c.toNat ∧ Enc us (b.take (n - 1)) ∧ 0 < n ∧ Truncated (b.take n)) by
    rcases hs with ⟨us, vs, e, he⟩ | ⟨us, c, vs, e, hc, he, h0, ht⟩
    · exact .inl ⟨us, vs, e, he, From_enc he⟩
    · exact .inr ⟨us, c, vs, e, hc, he, h0, From_truncated ht, From_enc he⟩
  induction h generalizing n with
  | nil => exact .inl ⟨[], [], rfl, by simpa using Enc.nil⟩
  | @ascii x c cs bs h1 h2 h ih =>
    cases n with
    | zero => exact .inl ⟨[], _, rfl, .nil⟩
    | succ n =>
      rcases ih n (by simpa using hn) with ⟨us, vs, e, he⟩ | ⟨us, d, vs, e, hc, he, h0, ht⟩
      · exact .inl ⟨c :: us, vs, by rw [e]; rfl, .ascii h1 h2 he⟩
      · obtain ⟨n, rfl⟩ : ∃ m, n = m + 1 := ⟨n - 1, by omega⟩
        exact .inr ⟨c :: us, d, vs, by rw [e]; rfl, hc, .ascii h1 h2 he, by omega, .ascii h1 ht⟩
  | @pair hi lo c cs bs h1 h ih =>
    obtain ⟨hc, -⟩ := char_range h1
    have hr := code_range h1
    have hlo : lo.toNat < 256 := UInt8.toNat_lt lo
    have hhi : 0x80 ≤ hi.toNat := by omega
    match n with
    | 0 => exact .inl ⟨[], _, rfl, .nil⟩
    | 1 => exact .inr ⟨[], c, cs, rfl, by omega, .nil, by omega, .lone hhi⟩
    | n + 2 =>
      rcases ih n (by simpa using hn) with ⟨us, vs, e, he⟩ | ⟨us, d, vs, e, hc, he, h0, ht⟩
      · exact .inl ⟨c :: us, vs, by rw [e]; rfl, .pair h1 he⟩
      · obtain ⟨n, rfl⟩ : ∃ m, n = m + 1 := ⟨n - 1, by omega⟩
        exact .inr ⟨c :: us, d, vs, by rw [e]; rfl, hc, .pair h1 he, by omega, .pair hhi ht⟩

/-! ## C98 -/

/-- C98: for texts that CP949 can represent, `To(t)` begins with `To(p)` exactly if `t` begins with `p`. -/
theorem C98_prefix (cs ds : List Char) (hc : ∀ c ∈ cs, InRepertoire c) (hd : ∀ c ∈ ds, InRepertoire c) :
    (To (utf8 ds)).1 <+: (To (utf8 cs)).1 ↔ ds <+: cs := by
  obtain ⟨b, e1, h1, -⟩ := C28_roundtrip_unicode cs hc
  obtain ⟨d, e2, h2, -⟩ := C28_roundtrip_unicode ds hd
  rw [e1, e2]
  exact enc_begins cs ds b d h1 h2

/-- C98: what occurs in the text occurs, encoded, in the encoding. -/
theorem C98_found (cs ds : List Char) (hc : ∀ c ∈ cs, InRepertoire c) (hd : ∀ c ∈ ds, InRepertoire c) (h : ds <:+: cs) :
    (To (utf8 ds)).1 <:+: (To (utf8 cs)).1 := by
  obtain ⟨b, e1, h1, -⟩ := C28_roundtrip_unicode cs hc
  obtain ⟨d, e2, h2, -⟩ := C28_roundtrip_unicode ds hd
  rw [e1, e2]
  exact enc_found cs ds b d h1 h2 h

/-- C98 is false of searching and of comparing the ends: 걍가 encoded has the encoding of 졀 in its middle, and 걖A encoded ends
as 갂 is encoded. -/
theorem C98_search_fails :
    (¬ ∀ cs ds : List Char, (∀ c ∈ cs, InRepertoire c) → (∀ c ∈ ds, InRepertoire c) →
      (To (utf8 ds)).1 <:+: (To (utf8 cs)).1 → ds <:+: cs) ∧
    (¬ ∀ cs ds : List Char, (∀ c ∈ cs, InRepertoire c) → (∀ c ∈ ds, InRepertoire c) →
      (To (utf8 ds)).1 <:+ (To (utf8 cs)).1 → ds <:+ cs) := by
  constructor
  · intro h
    refine enc_search_not.1 fun cs ds b d hb hd hi => h cs ds (enc_repertoire hb) (enc_repertoire hd) ?_
    rw [To_enc hb, To_enc hd]
    exact hi
  · intro h
    refine enc_search_not.2 fun cs ds b d hb hd hi => h cs ds (enc_repertoire hb) (enc_repertoire hd) ?_
    rw [To_enc hb, To_enc hd]
    exact hi

/-- C98, what holds of searching (1) (partial: a match may begin anywhere): a match is one in the text, at that place, if what is
before it can be decoded. -/
theorem C98_aligned_partial (cs ds : List Char) (hc : ∀ c ∈ cs, InRepertoire c) (hd : ∀ c ∈ ds, InRepertoire c) (x y : Str)
    (e : (To (utf8 cs)).1 = x ++ (To (utf8 ds)).1 ++ y) (hx : (From x).2 = none) :
    ∃ us vs, cs = us ++ ds ++ vs ∧ From x = (utf8 us, none) := by
  obtain ⟨b, e1, h1, -⟩ := C28_roundtrip_unicode cs hc
  obtain ⟨d, e2, h2, -⟩ := C28_roundtrip_unicode ds hd
  rw [e1, e2] at e
  exact enc_aligned cs ds b d h1 h2 x y e hx

/-- C98, what holds of searching (2) (partial: other first characters are left out): a search for something that begins with an
ASCII character that is neither a letter nor `?` finds exactly the places in the text. -/
theorem C98_search_partial (cs ds : List Char) (hc : ∀ c ∈ cs, InRepertoire c) (hd : ∀ c ∈ ds, InRepertoire c) (z : Byte)
    (hz : isMeta z = true) (hf : (utf8 ds).head? = some z) :
    (To (utf8 ds)).1 <:+: (To (utf8 cs)).1 ↔ ds <:+: cs := by
  obtain ⟨b, e1, h1, -⟩ := C28_roundtrip_unicode cs hc
  obtain ⟨d, e2, h2, -⟩ := C28_roundtrip_unicode ds hd
  rw [e1, e2]
  exact enc_search cs ds b d h1 h2 z hz (enc_first h2 hz hf)

/-- C98 applies: 가, a comma and 나; the comma and 나. -/
example : (∀ c ∈ ['가', ',', '나'], InRepertoire c) ∧ (utf8 [',', '나']).head? = some 0x2C ∧ isMeta 0x2C = true ∧
    [',', '나'] <:+: ['가', ',', '나'] := by
  refine ⟨?_, by decide, by decide, ⟨['가'], [], rfl⟩⟩
  intro c hc
  apply C28_repertoire
  simp only [List.mem_cons, List.not_mem_nil, or_false] at hc
  rcases hc with rfl | rfl | rfl <;> decide

/-! ## C99 -/

/-- C99: the encoding of a text that CP949 can represent has one byte for each ASCII character and two for each other. -/
theorem C99_width (cs : List Char) (h : ∀ c ∈ cs, InRepertoire c) :
    (To (utf8 cs)).1.length = (cs.map fun c => if c.toNat < 0x80 then 1 else 2).sum := by
  obtain ⟨b, e, hb, -⟩ := C28_roundtrip_unicode cs h
  rw [e]
  exact enc_width cs b hb

/-- C99: cut after any number of bytes, the encoding of a text decodes to the characters that fit, or it ends in the first half of
the next character. Then `From` refuses it, and without its last byte it decodes to the characters that fit. -/
theorem C99_cut (cs : List Char) (h : ∀ c ∈ cs, InRepertoire c) (n : Nat) (hn : n ≤ (To (utf8 cs)).1.length) :
    (∃ us vs, cs = us ++ vs ∧ (To (utf8 cs)).1.take n = (To (utf8 us)).1 ∧ From ((To (utf8 cs)).1.take n) = (utf8 us, none)) ∨
    (∃ us c vs, cs = us ++ c :: vs ∧ 0x80 ≤ c.toNat ∧ n = (To (utf8 us)).1.length + 1 ∧
      From ((To (utf8 cs)).1.take n) = ([], some .unexpectedStream) ∧
      From ((To (utf8 cs)).1.take (n - 1)) = (utf8 us, none)) := by
  obtain ⟨b, e, hb, -⟩ := C28_roundtrip_unicode cs h
  rw [e] at hn ⊢
  rcases enc_cut cs b hb n hn with ⟨us, vs, h1, h2, h3⟩ | ⟨us, c, vs, h1, h2, h3, h4, h5, h6⟩
  · exact .inl ⟨us, vs, h1, by rw [To_enc h2], h3⟩
  · refine .inr ⟨us, c, vs, h1, h2, ?_, h5, h6⟩
    rw [To_enc h3, List.length_take]
    simp only at hn
    omega

/-- C99 applies: 가A, three bytes, cut after one of them. -/
example : (∀ c ∈ ['가', 'A'], InRepertoire c) ∧ 1 ≤ (To (utf8 ['가', 'A'])).1.length := by
  have h : ∀ c ∈ ['가', 'A'], InRepertoire c := by
    intro c hc
    apply C28_repertoire
    simp only [List.mem_cons, List.not_mem_nil, or_false] at hc
    rcases hc with rfl | rfl <;> decide
  exact ⟨h, by rw [C99_width _ h]; decide⟩

end Props
