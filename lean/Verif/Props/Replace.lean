import Verif.Spec.Replace
import Verif.Props.Search
/-! C117: replacing in encoded texts. -/
namespace Props
open Go Spec Cp949

attribute [local irreducible] fromTable toTable rawFrom rawTo

/-- A string of characters in which something occurs has a first occurrence of it. -/
theorem first_occurrence {α : Type} (old : List α) (n : Nat) (s : List α) :
    (∃ a b, s = a ++ old ++ b ∧ a.length < n) →
    ∃ a b, s = a ++ old ++ b ∧ ∀ x y, a ++ old ++ b = x ++ old ++ y → a.length ≤ x.length := by
  induction n with
  | zero => rintro ⟨a, b, -, h⟩; omega
  | succ n ih =>
    rintro ⟨a, b, e, h⟩
    by_cases hm : ∃ a b, s = a ++ old ++ b ∧ a.length < n
    · exact ih hm
    · refine ⟨a, b, e, fun x y hxy => ?_⟩
      rcases Nat.lt_or_ge x.length n with hx | hx
      · exact absurd ⟨x, y, e.trans hxy, hx⟩ hm
      · omega

theorem replaced_exists {α : Type} (old new : List α) (ho : old ≠ []) (n : Nat) :
    ∀ s : List α, s.length < n → ∃ r, Replaced old new s r := by
  induction n with
  | zero => intro s h; omega
  | succ n ih =>
    intro s h
    by_cases hi : old <:+: s
    · obtain ⟨x, y, e⟩ := hi
      obtain ⟨a, b, rfl, hf⟩ := first_occurrence old (x.length + 1) s ⟨x, y, e.symm, by omega⟩
      have := List.length_pos_iff.2 ho
      simp only [List.length_append] at h
      obtain ⟨r, hr⟩ := ih b (by omega)
      exact ⟨_, .first hf hr⟩
    · exact ⟨s, .none hi⟩

theorem replaced_unique {α : Type} {old new s r r' : List α} (h : Replaced old new s r) (h' : Replaced old new s r') :
    r = r' := by
  induction h generalizing r' with
  | none hn =>
    cases h' with
    | none => rfl
    | first => exact absurd ⟨_, _, rfl⟩ hn
  | @first a b b' hf _ ih =>
    generalize hs : a ++ old ++ b = s at h'
    cases h' with
    | none hn => exact absurd ⟨a, b, hs⟩ hn
    | @first x y y' hf' h' =>
      have h1 := hf x y hs
      have h2 := hf' a b hs.symm
      rw [List.append_assoc, List.append_assoc] at hs
      obtain ⟨rfl, e⟩ := List.append_inj hs (by omega)
      obtain rfl := List.append_cancel_left e
      rw [ih h']

theorem dec_nil {z : Str} (h : Dec z []) : z = [] := by
  cases h; rfl

/-- Two beginnings of a string that decode to the same are the same. -/
theorem dec_prefix_unique {p q y z : Str} {us : List Char} (hp : Dec p us) (hq : Dec q us) (e : p ++ y = q ++ z) : p = q := by
  rcases List.append_eq_append_iff.1 e with ⟨a, rfl, -⟩ | ⟨a, rfl, -⟩
  · obtain ⟨vs, hv, h⟩ := dec_rest hp hq
    obtain rfl : vs = [] := by simpa using h
    rw [dec_nil hv, List.append_nil]
  · obtain ⟨vs, hv, h⟩ := dec_rest hq hp
    obtain rfl : vs = [] := by simpa using h
    rw [dec_nil hv, List.append_nil]

theorem enc_replaced {ds es : List Char} {d e : Str} (hd : Enc ds d) (he : Enc es e) {cs rs : List Char}
    (h : Replaced ds es cs rs) : ∀ {b : Str}, Enc cs b → (∀ x y, b = x ++ d ++ y → (From x).2 = none) →
      ∃ r, Enc rs r ∧ Replaced d e b r := by
  induction h with
  | @none cs hn =>
    intro b hb hal
    refine ⟨b, hb, .none ?_⟩
    rintro ⟨x, y, e⟩
    obtain ⟨us, vs, h, -⟩ := enc_aligned _ _ _ _ hb hd x y e.symm (hal x y e.symm)
    exact hn ⟨us, vs, h.symm⟩
  | @first a t t' hf _ ih =>
    intro b hb hal
    obtain ⟨xd, y, rfl, hxd, hy⟩ := enc_split hb
    obtain ⟨x, d', rfl, hx, hd'⟩ := enc_split hxd
    obtain rfl := enc_unique hd hd'
    obtain ⟨r, hr, hrep⟩ := ih hy fun x2 y2 e2 => by
      have h1 := hal (x ++ d ++ x2) y2 (by rw [e2]; simp)
      rcases dec_cases (x ++ d ++ x2) with ⟨ws, hw⟩ | ht
      · obtain ⟨vs, hv, -⟩ := dec_rest (enc_dec hxd) hw
        rw [From_dec hv]
      · rw [From_truncated ht] at h1
        cases h1
    refine ⟨x ++ e ++ r, enc_append (enc_append hx he) hr, .first (fun x' y' e' => ?_) hrep⟩
    rcases dec_cases x' with ⟨us, hu⟩ | ht
    · have h2 := enc_dec hb
      rw [e', List.append_assoc] at h2
      obtain ⟨ws, hw, e3⟩ := dec_rest hu h2
      obtain ⟨vs, -, rfl⟩ := dec_rest (enc_dec hd) hw
      have hle := hf us vs (by rw [e3, List.append_assoc])
      have hpre : a <+: us := by
        refine List.prefix_of_prefix_length_le (l₃ := a ++ ds ++ t) ⟨ds ++ t, by simp⟩ ⟨ds ++ vs, e3.symm⟩ hle
      rw [e3] at hb
      obtain ⟨p, q, epq, hp, -⟩ := enc_split hb
      obtain rfl : x' = p := dec_prefix_unique hu (enc_dec hp) (y := d ++ y') (z := q) (by
        rw [← epq, e', List.append_assoc])
      exact ((enc_begins us a x' x hp hx).2 hpre).length_le
    · have := hal x' y' e'
      rw [From_truncated ht] at this
      cases this

/-! ## C117 -/

/-- Replacing gives one result. -/
theorem C117_replaced_one {α : Type} (old new : List α) (ho : old ≠ []) (s : List α) :
    ∃ r, Replaced old new s r ∧ ∀ r', Replaced old new s r' → r' = r := by
  obtain ⟨r, hr⟩ := replaced_exists old new ho _ s (Nat.lt_succ_self _)
  exact ⟨r, hr, fun r' h' => replaced_unique h' hr⟩

/-- C117 is false in general: bytes.ReplaceAll of 졀 by x in the encoding of 걍가, where 졀 does not occur, leaves B0 x A1. -/
theorem C117_replace_fails :
    ¬ ∀ cs ds es rs : List Char, (∀ c ∈ cs, InRepertoire c) → (∀ c ∈ ds, InRepertoire c) → (∀ c ∈ es, InRepertoire c) →
      ds ≠ [] → Replaced ds es cs rs → Replaced (To (utf8 ds)).1 (To (utf8 es)).1 (To (utf8 cs)).1 (To (utf8 rs)).1 := by
  intro h
  have h1 : Chart 0xB0C1 '걍'.toNat := by unfold Chart; decide +kernel
  have h2 : Chart 0xB0A1 '가'.toNat := by unfold Chart; decide +kernel
  have h3 : Chart 0xC1B0 '졀'.toNat := by unfold Chart; decide +kernel
  have e1 : Enc ['걍', '가'] [0xB0, 0xC1, 0xB0, 0xA1] := enc_code h1 (enc_code h2 .nil)
  have e2 : Enc ['졀'] [0xC1, 0xB0] := enc_code h3 .nil
  have e3 : Enc ['x'] [0x78] := .ascii (by decide) (by decide) .nil
  have := h _ _ _ ['걍', '가'] (enc_repertoire e1) (enc_repertoire e2) (enc_repertoire e3) (by simp) (.none (by
    intro hi
    have := hi.subset (List.mem_singleton.2 rfl)
    simp at this))
  rw [To_enc e1, To_enc e2, To_enc e3] at this
  have g : Replaced [0xC1, 0xB0] [0x78] ([0xB0] ++ [0xC1, 0xB0] ++ [0xA1] : Str) ([0xB0] ++ [0x78] ++ [0xA1]) := by
    refine .first (fun x y e => ?_) (.none ?_)
    · cases x with
      | nil => simp at e
      | cons => simp
    · rintro ⟨x, y, e⟩
      have := congrArg List.length e
      simp at this
      omega
  have := replaced_unique this g
  simp at this

/-- C117, what holds (1) (partial: matches may begin inside characters): if every match of `To(old)` in `To(t)` begins between two
characters (what stands before it can be decoded), replacing in the encoding gives the encoding of what replacing in the text
gives. -/
theorem C117_aligned_partial (cs ds es rs : List Char) (hc : ∀ c ∈ cs, InRepertoire c) (hd : ∀ c ∈ ds, InRepertoire c)
    (he : ∀ c ∈ es, InRepertoire c)
    (hal : ∀ x y, (To (utf8 cs)).1 = x ++ (To (utf8 ds)).1 ++ y → (From x).2 = none) (h : Replaced ds es cs rs) :
    Replaced (To (utf8 ds)).1 (To (utf8 es)).1 (To (utf8 cs)).1 (To (utf8 rs)).1 := by
  obtain ⟨b, e1, h1, -⟩ := C28_roundtrip_unicode cs hc
  obtain ⟨d, e2, h2, -⟩ := C28_roundtrip_unicode ds hd
  obtain ⟨e, e3, h3, -⟩ := C28_roundtrip_unicode es he
  rw [e1, e2] at hal
  obtain ⟨r, hr, hrep⟩ := enc_replaced h2 h3 h h1 hal
  rw [e1, e2, e3, To_enc hr]
  exact hrep

/-- C117, what holds (2) (partial: other first characters are left out): if what is replaced begins with an ASCII character that
is neither a letter nor `?`, replacing in the encoding gives the encoding of what replacing in the text gives. -/
theorem C117_meta_partial (cs ds es rs : List Char) (hc : ∀ c ∈ cs, InRepertoire c) (hd : ∀ c ∈ ds, InRepertoire c)
    (he : ∀ c ∈ es, InRepertoire c) (z : Byte) (hz : isMeta z = true) (hf : (utf8 ds).head? = some z)
    (h : Replaced ds es cs rs) :
    Replaced (To (utf8 ds)).1 (To (utf8 es)).1 (To (utf8 cs)).1 (To (utf8 rs)).1 := by
  refine C117_aligned_partial cs ds es rs hc hd he (fun x y e => ?_) h
  obtain ⟨b, e1, h1, -⟩ := C28_roundtrip_unicode cs hc
  obtain ⟨d, e2, h2, -⟩ := C28_roundtrip_unicode ds hd
  rw [e1, e2] at e
  simp only at e
  obtain ⟨d', rfl⟩ : ∃ d', d = z :: d' := by
    have := enc_first h2 hz hf
    cases d with
    | nil => cases this
    | cons a d' => exact ⟨d', by simp at this; rw [this]⟩
  have hn : z ∉ secondBytes (x ++ z :: (d' ++ y)) := by
    intro h
    have e' : x ++ z :: (d' ++ y) = b := by rw [e]; simp
    rw [e'] at h
    rw [enc_second h1 z h] at hz
    cases hz
  obtain ⟨us, hu⟩ := cut_before hn
  rw [From_dec hu]

/-- C117 applies: in 가, a comma and 나 the comma is replaced by two blanks. -/
example : (∀ c ∈ ['가', ',', '나'], InRepertoire c) ∧ (utf8 [',']).head? = some 0x2C ∧ isMeta 0x2C = true ∧
    Replaced [','] [' ', ' '] ['가', ',', '나'] ['가', ' ', ' ', '나'] := by
  refine ⟨?_, by decide, by decide, .first (a := ['가']) (b := ['나']) ?_ (.none ?_)⟩
  · intro c hc
    apply C28_repertoire
    simp only [List.mem_cons, List.not_mem_nil, or_false] at hc
    rcases hc with rfl | rfl | rfl <;> decide
  · intro x y e
    cases x with
    | nil => simp at e
    | cons => simp
  · intro hi
    have := hi.subset (List.mem_singleton.2 rfl)
    simp at this

end Props
