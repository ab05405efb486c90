import Verif.Spec.Lines
import Verif.Props.Ascii
import Verif.Props.Scanner
/-! C97: converting a text line by line. -/
namespace Props
open Go Spec Cp949 Hanja

attribute [local irreducible] fromTable toTable rawFrom rawTo rawTable table

/-! ## Functions that work between line ends -/

/-- `f` carries LF and CR over and treats what is before and after them on its own. -/
structure Between (f : Str → Str) : Prop where
  split : ∀ x ∈ ([10, 13] : Str), ∀ a b, f (a ++ x :: b) = f a ++ x :: f b
  mem : ∀ x ∈ ([10, 13] : Str), ∀ a, x ∈ f a ↔ x ∈ a
  nil : ∀ a, f a = [] ↔ a = []

theorem last_of {x : Byte} {s : Str} (h : x ∈ s) : ∃ a b, s = a ++ x :: b ∧ x ∉ b := by
  induction s with
  | nil => cases h
  | cons y s ih =>
    by_cases hs : x ∈ s
    · obtain ⟨a, b, rfl, hb⟩ := ih hs
      exact ⟨y :: a, b, rfl, hb⟩
    · rcases List.mem_cons.1 h with rfl | h
      · exact ⟨[], s, rfl, hs⟩
      · exact absurd h hs

theorem last_after {a b : Str} {x : Byte} (h : b ≠ []) : (a ++ x :: b).getLast? = some (b.getLast h) := by
  rw [show a ++ x :: b = (a ++ [x]) ++ b by simp, List.getLast?_append, List.getLast?_eq_some_getLast h]
  rfl

theorem encode_ne (c : Char) : String.utf8EncodeChar c ≠ [] := by
  intro h
  have := String.length_utf8EncodeChar c
  have := Char.utf8Size_pos c
  simp only [h, List.length_nil] at *
  omega

theorem Between.noCR {f : Str → Str} (hf : Between f) {l l' : Str} (h : NoCR l l') : NoCR (f l) (f l') := by
  cases h with
  | cr =>
    rw [hf.split 13 (by decide) l' [], (hf.nil []).2 rfl]
    exact .cr _
  | other h =>
    refine .other fun y hy => ?_
    have h13 : (13 : Byte) ∈ l := (hf.mem 13 (by decide) l).1 (by rw [hy]; simp)
    obtain ⟨a, b, e, hb⟩ := last_of h13
    by_cases hb0 : b = []
    · exact h a (by rw [e, hb0])
    · rw [e, hf.split 13 (by decide)] at hy
      have hne : f b ≠ [] := fun h => hb0 ((hf.nil b).1 h)
      have := congrArg List.getLast? hy
      rw [last_after hne, List.getLast?_concat] at this
      injection this with this
      exact hb ((hf.mem 13 (by decide) b).1 (this ▸ List.getLast_mem hne))

theorem Between.lines {f : Str → Str} (hf : Between f) {t : Str} {ls : List Str} (h : Lines t ls) :
    Lines (f t) (ls.map f) := by
  induction h with
  | nil => rw [(hf.nil []).2 rfl]; exact .nil
  | last h0 hn hc =>
    exact .last (fun h => h0 ((hf.nil _).1 h)) (fun h => hn ((hf.mem 10 (by decide) _).1 h)) (hf.noCR hc)
  | line hn hc _ ih =>
    rw [hf.split 10 (by decide)]
    exact .line (fun h => hn ((hf.mem 10 (by decide) _).1 h)) (hf.noCR hc) ih

theorem mem_of_filter {P : Byte → Bool} {s t : Str} (h : s.filter P = t.filter P) {x : Byte} (hx : P x = true) :
    x ∈ s ↔ x ∈ t := by
  have : x ∈ s.filter P ↔ x ∈ t.filter P := by rw [h]
  simpa [hx] using this

theorem lineEnd_ascii {x : Byte} (h : x ∈ ([10, 13] : Str)) : x.toNat < 0x80 := by
  rcases List.mem_cons.1 h with rfl | h
  · decide
  · rw [List.mem_singleton.1 h]; decide

theorem To_unit_ne (c : Char) : (To (utf8 [c])).1 ≠ [] := by
  rw [To_one]
  simp only
  rcases toUnit_cases c with ⟨h, e⟩ | ⟨h, code, hc, e⟩ | ⟨h, _, _, e⟩ | ⟨h, _, e⟩ <;> rw [e] <;> simp

theorem between_To : Between fun s => (To s).1 where
  split x hx a b := by
    have hx' := lineEnd_ascii hx
    have := (C34_ascii_inside a [x] b (by simp) (by simpa using hx')).1
    exact (Prod.mk.inj this).1
  mem x hx a := mem_of_filter (C81_to a) (by
    rcases List.mem_cons.1 hx with rfl | h
    · decide
    · rw [List.mem_singleton.1 h]; decide)
  nil a := by
    obtain ⟨is, h⟩ := items_exists a
    rw [C79_to h]
    cases h with
    | nil => simp
    | char c h =>
      have h1 := To_unit_ne c
      have h2 := encode_ne c
      simp [h1, h2]
    | stray => simp

theorem Convert_unit_ne (c : Char) : Convert (utf8 [c]) ≠ [] := by
  have key : ∀ d : Char, utf8 [d] ≠ [] := by
    intro d h0
    rw [utf8_one] at h0
    exact encode_ne d h0
  by_cases hh : IsHanja (runeOf c) = true
  · obtain ⟨d, _, _, e⟩ := C23_reading_syllable c hh
    rw [e]
    exact key d
  · rw [(C26_untouched_partial (utf8 [c])).2]
    · exact key c
    · refine ⟨⟨_, rfl⟩, ?_⟩
      intro r hr
      rw [runes_utf8] at hr
      rw [List.mem_singleton.1 hr]
      simpa using hh

theorem between_Convert : Between Convert where
  split x hx a b := by
    have hx' := lineEnd_ascii hx
    obtain ⟨cs, hcs, _⟩ := ascii_chars [x] (by simpa using hx')
    have hb := boundary_ascii [x] b (by simp) (by simpa using hx')
    have e1 : x :: b = [x] ++ b := rfl
    have e2 : Convert [x] = [x] := by
      rw [(C26_untouched_partial [x]).2]
      refine ⟨⟨cs, hcs⟩, ?_⟩
      intro r hr
      rw [hcs, runes_utf8] at hr
      obtain ⟨c, hc, rfl⟩ := List.mem_map.1 hr
      have hl := congrArg List.length hcs
      have : 0x80 > c.toNat := by
        refine Nat.not_le.1 fun hge => ?_
        have hm : ∀ y ∈ String.utf8EncodeChar c, y ∈ utf8 cs := by
          intro y hy
          unfold utf8
          exact List.mem_flatMap.2 ⟨c, hc, hy⟩
        have hne : String.utf8EncodeChar c ≠ [] := by rw [← utf8_one]; intro h0; exact Convert_unit_ne c (by rw [h0]; rfl)
        obtain ⟨y, hy⟩ := List.exists_mem_of_ne_nil _ hne
        have h1 := utf8EncodeChar_high hge y hy
        have h2 := hm y hy
        rw [← hcs, List.mem_singleton] at h2
        subst h2
        omega
      by_cases hh : IsHanja (runeOf c) = true
      · exfalso
        rw [isHanja_iff, Hanja.runeOf_toNat] at hh
        unfold IsIdeograph at hh
        simp only [List.mem_cons, List.not_mem_nil, or_false] at hh
        omega
      · simpa using hh
    rw [C27_concat_boundary a (x :: b) (by rw [e1]; exact hb), e1, C27_concat [x] b ⟨cs, hcs⟩, e2]
    rfl
  mem x hx a := mem_of_filter (C81_convert a) (by
    have := lineEnd_ascii hx
    unfold isAscii
    simpa using this)
  nil a := by
    obtain ⟨is, h⟩ := items_exists a
    rw [C79_convert h]
    cases h with
    | nil => simp
    | char c h =>
      have h1 := Convert_unit_ne c
      have h2 : (String.utf8EncodeChar c) ≠ [] := by
        intro h0
        exact h1 (by rw [utf8_one, h0]; rfl)
      simp [h1, h2]
    | stray => simp [utf8]

/-! ## C97 -/

/-- C97: for every byte string, the lines of its encoding are the encodings of its lines, and the lines of what `Convert` gives
are its lines converted. -/
theorem C97_to (t : Str) (ls : List Str) (h : Lines t ls) :
    Lines (To t).1 (ls.map fun l => (To l).1) ∧ Lines (Convert t) (ls.map Convert) :=
  ⟨between_To.lines h, between_Convert.lines h⟩

/-- C97 is false of the code for `From`: the bytes B0 0A are read as one character, which ends no line; the only line of the
string, B0, is refused. -/
theorem C97_from_fails :
    ¬ ∀ (b t : Str) (ls : List Str), From b = (t, none) → Lines b ls →
      (∀ l ∈ ls, (From l).2 = none) ∧ Lines t (ls.map fun l => (From l).1) := by
  intro h
  have hl : Lines [0xB0, 0x0A] [[0xB0]] := .line (l := [0xB0]) (by decide) (.other (by
    intro l' h
    have := congrArg List.getLast? h
    simp at this)) .nil
  have h1 : From [0xB0, 0x0A] = ((From [0xB0, 0x0A]).1, none) := by
    have : (From [0xB0, 0x0A]).2 = none := by
      have := C82_swallowed_fails 0xB0 0x0A (by decide) (by decide) [] [] (by decide) (by decide)
      exact this.2
    rw [← this]
  have := (h _ _ _ h1 hl).1 [0xB0] (by simp)
  rw [From_truncated (.lone (by decide))] at this
  cases this

theorem secondBytes_append {a b : Str} {cs : List Char} (h : Dec a cs) :
    secondBytes (a ++ b) = secondBytes a ++ secondBytes b := by
  induction h with
  | nil => rfl
  | ascii h1 _ _ ih => rw [List.cons_append, seconds_ascii h1, ih, seconds_ascii h1]
  | pair h1 _ _ ih => rw [List.cons_append, List.cons_append, seconds_pair h1, ih, seconds_pair h1]; rfl
  | unassigned h1 _ _ _ ih => rw [List.cons_append, List.cons_append, seconds_pair h1, ih, seconds_pair h1]; rfl

/-- A string cut before a byte that is no second byte is not cut inside a character. -/
theorem cut_before {a b : Str} {x : Byte} (h : x ∉ secondBytes (a ++ x :: b)) : ∃ cs, Dec a cs := by
  rcases dec_cases a with h' | h'
  · exact h'
  · exfalso
    apply h
    clear h
    induction h' with
    | lone h1 => rw [List.cons_append, List.nil_append, seconds_pair h1]; exact List.mem_cons_self ..
    | ascii h1 _ ih => rw [List.cons_append, seconds_ascii h1]; exact ih
    | pair h1 _ ih =>
      rw [List.cons_append, List.cons_append, seconds_pair h1]
      exact List.mem_cons_of_mem _ ih

theorem mem_singles {x : Byte} {s : Str} (h : x ∈ singles s) : x ∈ s := by
  generalize hn : s.length = n
  induction n using Nat.strongRecOn generalizing s with
  | ind n ih =>
    cases s with
    | nil => cases h
    | cons b s =>
      rw [singles.eq_def] at h
      simp only at h
      split at h
      · rcases List.mem_cons.1 h with rfl | h
        · exact List.mem_cons_self ..
        · exact List.mem_cons_of_mem _ (ih _ (by rw [← hn]; simp) h rfl)
      · cases s with
        | nil => cases h
        | cons c s => exact List.mem_cons_of_mem _ (List.mem_cons_of_mem _ (ih _ (by rw [← hn]; simp; omega) h rfl))

/-- Decoding makes up no line end. -/
theorem From_mem {x : Byte} (hx : x.toNat < 0x80) {l : Str} (h : x ∈ (From l).1) : x ∈ l := by
  rcases dec_cases l with ⟨cs, hd⟩ | ht
  · have := C82_exact_partial l (by rw [From_dec hd])
    have h' : x ∈ (From l).1.filter isAscii := List.mem_filter.2 ⟨h, decide_eq_true hx⟩
    rw [this] at h'
    exact mem_singles h'
  · rw [From_truncated ht] at h
    cases h

theorem From_ne {l : Str} (h : (From l).2 = none) (h0 : l ≠ []) : (From l).1 ≠ [] := by
  rcases dec_cases l with ⟨cs, hd⟩ | ht
  · rw [From_dec hd]
    have hne : ∀ c : Char, String.utf8EncodeChar c ≠ [] := fun c h0 => Convert_unit_ne c (by rw [utf8_one, h0]; rfl)
    cases hd with
    | nil => exact absurd rfl h0
    | ascii => simp [utf8, hne]
    | pair => simp [utf8, hne]
    | unassigned => simp [utf8, hne]
  · rw [From_truncated ht] at h
    cases h

theorem From_split {a b : Str} {x : Byte} (hx : x.toNat < 0x80) (h : x ∉ secondBytes (a ++ x :: b))
    (hb : (From b).2 = none) : (From a).2 = none ∧ From (a ++ x :: b) = ((From a).1 ++ x :: (From b).1, none) := by
  obtain ⟨cs, hd⟩ := cut_before h
  have ha : (From a).2 = none := by rw [From_dec hd]
  exact ⟨ha, (C34_ascii_inside a [x] b (by simp) (by simpa using hx)).2 ha hb⟩

/-- The part after such a byte. -/
theorem From_after {a b : Str} {x : Byte} (hx : x.toNat < 0x80) (h : x ∉ secondBytes (a ++ x :: b))
    (hs : (From (a ++ x :: b)).2 = none) : (From b).2 = none ∧ ∀ y ∈ secondBytes b, y ∈ secondBytes (a ++ x :: b) := by
  obtain ⟨cs, hd⟩ := cut_before h
  have e : secondBytes (x :: b) = secondBytes b := seconds_ascii hx
  refine ⟨?_, fun y hy => ?_⟩
  · rcases dec_cases b with ⟨ds, hd'⟩ | ht
    · rw [From_dec hd']
    · rw [From_truncated (truncated_append hd (.ascii hx ht))] at hs
      cases hs
  · rw [secondBytes_append hd, e]
    exact List.mem_append_right _ hy

theorem secondBytes_left {a b : Str} {cs : List Char} (h : Dec a cs) : ∀ y ∈ secondBytes a, y ∈ secondBytes (a ++ b) := by
  intro y hy
  rw [secondBytes_append h]
  exact List.mem_append_left _ hy

theorem From_noCR {l l' : Str} (h : NoCR l l') (hs : (From l).2 = none) (h13 : 13 ∉ secondBytes l) :
    (From l').2 = none ∧ NoCR (From l).1 (From l').1 := by
  cases h with
  | cr =>
    obtain ⟨h1, h2⟩ := From_split (by decide) h13 (by decide)
    refine ⟨h1, ?_⟩
    rw [h2, show From [] = ([], none) by decide]
    exact .cr _
  | other h =>
    refine ⟨hs, .other fun y hy => ?_⟩
    have hm : (13 : Byte) ∈ l := From_mem (by decide) (by rw [hy]; simp)
    obtain ⟨a, b, e, hb⟩ := last_of hm
    rw [e] at hs h13
    obtain ⟨hb', -⟩ := From_after (by decide) h13 hs
    obtain ⟨-, h2⟩ := From_split (by decide) h13 hb'
    by_cases hb0 : b = []
    · exact h a (by rw [e, hb0])
    · rw [e, h2] at hy
      have hne := From_ne hb' hb0
      have := congrArg List.getLast? hy
      rw [last_after hne, List.getLast?_concat] at this
      injection this with this
      exact hb (From_mem (by decide) (this ▸ List.getLast_mem hne))

/-- C97, what holds of `From` (partial: strings with LF or CR as the second byte of a pair are left out): every line of the bytes
decodes, and the lines of the text are the lines of the bytes decoded. -/
theorem C97_from_partial (b t : Str) (ls : List Str) (hb : From b = (t, none)) (h10 : 10 ∉ secondBytes b)
    (h13 : 13 ∉ secondBytes b) (h : Lines b ls) :
    (∀ l ∈ ls, (From l).2 = none) ∧ Lines t (ls.map fun l => (From l).1) := by
  have e : t = (From b).1 := by rw [hb]
  have hs : (From b).2 = none := by rw [hb]
  subst e
  clear hb
  induction h with
  | nil => exact ⟨by simp, by rw [show From [] = ([], none) by decide]; exact .nil⟩
  | last h0 hn hc =>
    obtain ⟨h1, h2⟩ := From_noCR hc hs h13
    exact ⟨by simpa using h1, .last (From_ne hs h0) (fun h => hn (From_mem (by decide) h)) h2⟩
  | @line l l' rest ls hn hc _ ih =>
    obtain ⟨hr, hsub⟩ := From_after (by decide) h10 hs
    obtain ⟨hl, e⟩ := From_split (by decide) h10 hr
    obtain ⟨cs, hd⟩ := cut_before h10
    obtain ⟨i1, i2⟩ := ih (fun h => h10 (hsub _ h)) (fun h => h13 (hsub _ h)) hr
    obtain ⟨c1, c2⟩ := From_noCR hc hl (fun h => h13 (secondBytes_left hd _ h))
    rw [e]
    refine ⟨?_, .line (fun h => hn (From_mem (by decide) h)) c2 i2⟩
    intro x hx
    rcases List.mem_cons.1 hx with rfl | hx
    · exact c1
    · exact i1 x hx

theorem truncated_ends {l : Str} (h : Truncated l) : ∃ x hi, l = x ++ [hi] ∧ (∃ cs, Dec x cs) ∧ 0x80 ≤ hi.toNat := by
  induction h with
  | @lone b h1 => exact ⟨[], b, rfl, ⟨[], .nil⟩, h1⟩
  | @ascii b bs h1 _ ih =>
    obtain ⟨x, hi, rfl, ⟨cs, hx⟩, hh⟩ := ih
    obtain ⟨c, hc⟩ := exists_char (v := b.toNat) (by omega)
    exact ⟨b :: x, hi, rfl, ⟨_, .ascii h1 hc hx⟩, hh⟩
  | @pair a b bs h1 _ ih =>
    obtain ⟨x, hi, rfl, ⟨cs, hx⟩, hh⟩ := ih
    refine ⟨a :: b :: x, hi, rfl, ?_, hh⟩
    rcases dec_cases (a :: b :: x) with h | h
    · exact h
    · cases h with
      | ascii h2 => omega
      | pair _ h2 => exact absurd h2 (dec_not_truncated hx)

theorem whole_iff {l : Str} : (From l).2 = none ↔ ∃ cs, Dec l cs := by
  rcases dec_cases l with ⟨cs, h⟩ | h
  · exact ⟨fun _ => ⟨cs, h⟩, fun _ => by rw [From_dec h]⟩
  · rw [From_truncated h]
    exact ⟨fun h' => (by cases h'), fun ⟨cs, hd⟩ => absurd h (dec_not_truncated hd)⟩

/-- The bytes before a whole end are whole or not: if they are, both parts are. -/
theorem whole_rest {a b : Str} (ha : (From a).2 = none) : (From (a ++ b)).2 = none ↔ (From b).2 = none := by
  rw [C32_concat a b ha]
  split
  · rename_i h; simp [h]
  · rename_i h; simp

theorem dec_last {l : Str} {cs : List Char} (h : Dec l cs) : ∀ cs' c, cs = cs' ++ [c] → c.toNat = 13 → ∃ l', l = l' ++ [13] := by
  induction h with
  | nil => intro cs' c e; simp at e
  | @ascii b d cs bs h1 h2 hd ih =>
    intro cs' c e hc
    cases cs' with
    | nil =>
      simp only [List.nil_append, List.cons.injEq] at e
      obtain ⟨rfl, rfl⟩ := e
      cases hd
      refine ⟨[], ?_⟩
      have : b = 13 := UInt8.toNat_inj.1 (by rw [← h2, hc]; rfl)
      rw [this]; rfl
    | cons x cs' =>
      obtain ⟨l', rfl⟩ := ih cs' c (List.cons.inj e).2 hc
      exact ⟨b :: l', rfl⟩
  | @pair hi lo d cs bs h1 h2 hd ih =>
    intro cs' c e hc
    cases cs' with
    | nil =>
      simp only [List.nil_append, List.cons.injEq] at e
      have := (char_range h2).1
      rw [e.1] at this
      omega
    | cons x cs' =>
      obtain ⟨l', rfl⟩ := ih cs' c (List.cons.inj e).2 hc
      exact ⟨hi :: lo :: l', rfl⟩
  | @unassigned hi lo d cs bs h1 h2 h3 hd ih =>
    intro cs' c e hc
    cases cs' with
    | nil =>
      simp only [List.nil_append, List.cons.injEq] at e
      rw [e.1] at h3
      omega
    | cons x cs' =>
      obtain ⟨l', rfl⟩ := ih cs' c (List.cons.inj e).2 hc
      exact ⟨hi :: lo :: l', rfl⟩

theorem utf8_last {cs : List Char} {y : Str} (h : utf8 cs = y ++ [13]) : ∃ cs' c, cs = cs' ++ [c] ∧ c.toNat = 13 := by
  by_cases h0 : cs = []
  · subst h0; simp [utf8] at h
  · refine ⟨cs.dropLast, cs.getLast h0, (List.dropLast_concat_getLast h0).symm, ?_⟩
    generalize hc : cs.getLast h0 = c
    have e : utf8 cs = utf8 cs.dropLast ++ String.utf8EncodeChar c := by
      rw [← hc, ← utf8_one, ← utf8_append, List.dropLast_concat_getLast]
    have hm : (13 : Byte) ∈ String.utf8EncodeChar c := by
      have h1 := congrArg List.getLast? (e.symm.trans h)
      rw [List.getLast?_append, List.getLast?_eq_some_getLast (encode_ne c), List.getLast?_concat] at h1
      have h1 : (String.utf8EncodeChar c).getLast (encode_ne c) = 13 := by simpa using h1
      exact h1 ▸ List.getLast_mem _
    by_cases hlt : c.toNat < 0x80
    · rw [encode_one (by omega), List.mem_singleton] at hm
      have := congrArg UInt8.toNat hm
      rw [toNat_ofNat8] at this
      have h13 : (13 : Byte).toNat = 13 := rfl
      omega
    · exact absurd (utf8EncodeChar_high (by omega) _ hm) (by decide)

/-- `b` has a line end as the second byte of a pair: LF, or CR before LF or at the end. -/
def LineEndInPair (b : Str) : Prop :=
  ∃ x hi y, (From x).2 = none ∧ 0x80 ≤ (hi : Byte).toNat ∧
    (b = x ++ hi :: 10 :: y ∨ b = x ++ hi :: 13 :: 10 :: y ∨ b = x ++ [hi, 13])

theorem lineEndInPair_after {l b : Str} (hl : (From l).2 = none) (h : LineEndInPair b) : LineEndInPair (l ++ b) := by
  obtain ⟨x, hi, y, hx, hh, e⟩ := h
  refine ⟨l ++ x, hi, y, (whole_rest hl).2 hx, hh, ?_⟩
  rcases e with rfl | rfl | rfl
  · exact .inl (by simp)
  · exact .inr (.inl (by simp))
  · exact .inr (.inr (by simp))

/-- One line, with what ends it. -/
theorem From_line {l l' : Str} (h : NoCR l l') (hs : (From l).2 = none) :
    ((From l').2 = none → NoCR (From l).1 (From l').1) ∧
    ((From l').2 ≠ none → ∃ x hi, (From x).2 = none ∧ 0x80 ≤ (hi : Byte).toNat ∧ l = x ++ [hi, 13]) := by
  cases h with
  | cr =>
    constructor
    · intro h
      have : From (l' ++ [13]) = ((From l').1 ++ [13], none) := by
        have := (C34_ascii_inside l' [13] [] (by simp) (by decide)).2 h (by decide)
        rw [show From [] = ([], none) by decide] at this
        simpa using this
      rw [this]
      exact .cr _
    · intro h
      rcases dec_cases l' with hd | ht
      · exact absurd (whole_iff.2 hd) h
      · obtain ⟨x, hi, rfl, hx, hh⟩ := truncated_ends ht
        exact ⟨x, hi, whole_iff.2 hx, hh, by simp⟩
  | other h =>
    refine ⟨fun _ => .other fun y hy => ?_, fun h' => absurd hs h'⟩
    obtain ⟨cs, hd⟩ := whole_iff.1 hs
    rw [From_dec hd] at hy
    obtain ⟨cs', c, e, hc⟩ := utf8_last hy
    obtain ⟨l1, e1⟩ := dec_last hd cs' c e hc
    exact h l1 e1

/-- C97, what holds of `From` exactly (partial: strings with a line end inside a pair are left out, and the claim is false of
each of them): every line of the bytes decodes, and the lines of the text are the lines of the bytes decoded, exactly if no line
end is the second byte of a pair. -/
theorem C97_from_iff_partial (b t : Str) (ls : List Str) (hb : From b = (t, none)) (h : Lines b ls) :
    ((∀ l ∈ ls, (From l).2 = none) ∧ Lines t (ls.map fun l => (From l).1)) ↔ ¬ LineEndInPair b := by
  have e : t = (From b).1 := by rw [hb]
  have hs : (From b).2 = none := by rw [hb]
  subst e
  clear hb
  induction h with
  | nil =>
    refine ⟨fun _ ⟨x, hi, y, _, _, e⟩ => ?_, fun _ => ⟨by simp, by rw [show From [] = ([], none) by decide]; exact .nil⟩⟩
    rcases e with e | e | e <;> simp at e
  | @last l l' h0 hn hc =>
    obtain ⟨h1, h2⟩ := From_line hc hs
    constructor
    · rintro ⟨g, -⟩ ⟨x, hi, y, hx, hh, e⟩
      have g : (From l').2 = none := g l' (by simp)
      rcases e with e | e | e
      · exact hn (by rw [e]; simp)
      · exact hn (by rw [e]; simp)
      · have : l' = x ++ [hi] := by
          rw [noCR_eq hc, e]
          unfold GoIo.dropCR
          rw [if_pos (by simp)]
          rw [show x ++ [hi, 13] = (x ++ [hi]) ++ [13] by simp, List.dropLast_concat]
        rw [this, whole_rest hx, From_truncated (.lone hh)] at g
        cases g
    · intro hn'
      have g : (From l').2 = none := by
        refine Classical.byContradiction fun g => hn' ?_
        obtain ⟨x, hi, hx, hh, e⟩ := h2 g
        exact ⟨x, hi, [], hx, hh, .inr (.inr e)⟩
      exact ⟨by simpa using g, .last (From_ne hs h0) (fun h => hn (From_mem (by decide) h)) (h1 g)⟩
  | @line l l' rest ls hn hc hrest ih =>
    rcases dec_cases l with hd | ht
    · have hl := whole_iff.2 hd
      have hr : (From rest).2 = none := by
        have := (whole_rest hl).1 hs
        rw [show (10 : Byte) :: rest = [10] ++ rest from rfl, whole_rest (by decide)] at this
        exact this
      have e : From (l ++ 10 :: rest) = ((From l).1 ++ 10 :: (From rest).1, none) :=
        (C34_ascii_inside l [10] rest (by simp) (by decide)).2 hl hr
      obtain ⟨h1, h2⟩ := From_line hc hl
      have ih := ih hr
      have hl10 : (From (l ++ [10])).2 = none := by rw [whole_rest hl]; decide
      constructor
      · rintro ⟨g, gl⟩ hp
        have g1 : (From l').2 = none := g l' (by simp)
        have gr : Lines (From rest).1 (ls.map fun l => (From l).1) := by
          obtain ⟨ls2, k1, k2⟩ := C96_lines_of (From (l ++ 10 :: rest)).1
          obtain ⟨ls3, k3, -⟩ := C96_lines_of (From rest).1
          have e1 := k2 _ gl
          have e2 := k2 (GoIo.dropCR (From l).1 :: ls3) (by
            rw [e]
            exact .line (fun h => hn (From_mem (by decide) h)) (dropCR_noCR _) k3)
          have := e1.trans e2.symm
          rw [List.map_cons] at this
          rw [(List.cons.inj this).2]
          exact k3
        refine ih.1 ⟨fun x hx => g x (List.mem_cons_of_mem _ hx), gr⟩ ?_
        obtain ⟨x, hi, y, hx, hh, e⟩ := hp
        have hlone : ∀ l0, l0 = x ++ [hi] → (From l0).2 ≠ none := by
          rintro l0 rfl h
          rw [whole_rest hx, From_truncated (.lone hh)] at h
          cases h
        have h10 : hi ≠ 10 := by rintro rfl; exact absurd hh (by decide)
        -- the pair lies behind this line
        have key : ∀ z, l ++ 10 :: rest = x ++ hi :: z → (z = 10 :: y ∨ z = 13 :: 10 :: y ∨ z = [13]) →
            ∃ x', (From x').2 = none ∧ rest = x' ++ hi :: z := by
          intro z e hz
          rcases List.append_eq_append_iff.1 e with ⟨a, ea, eb⟩ | ⟨c, ec, ed⟩
          · cases a with
            | nil => exact absurd (List.cons.inj eb).1.symm h10
            | cons a0 a =>
              obtain ⟨rfl, eb2⟩ := List.cons.inj eb
              refine ⟨a, ?_, eb2⟩
              rw [ea, show l ++ 10 :: a = (l ++ [10]) ++ a by simp, whole_rest hl10] at hx
              exact hx
          · exfalso
            cases c with
            | nil => exact h10 (List.cons.inj ed).1
            | cons c0 c =>
              obtain ⟨rfl, rfl⟩ := List.cons.inj ed
              cases c with
              | nil => exact hlone l ec hl
              | cons c1 c =>
                have hc1 : c1 ≠ 10 := by rintro rfl; exact hn (by rw [ec]; simp)
                rcases hz with hz | hz | hz
                · exact hc1 (List.cons.inj hz).1
                · obtain ⟨rfl, hz2⟩ := List.cons.inj hz
                  cases c with
                  | nil =>
                    refine hlone l' ?_ g1
                    rw [noCR_eq hc, ec]
                    unfold GoIo.dropCR
                    rw [if_pos (by simp)]
                    rw [show x ++ [hi, 13] = (x ++ [hi]) ++ [13] by simp, List.dropLast_concat]
                  | cons c2 c =>
                    obtain ⟨rfl, -⟩ := List.cons.inj hz2
                    exact hn (by rw [ec]; simp)
                · have := (List.cons.inj hz).2
                  simp at this
        rcases e with e | e | e
        · obtain ⟨x', k1, k2⟩ := key _ e (.inl rfl)
          exact ⟨x', hi, y, k1, hh, .inl k2⟩
        · obtain ⟨x', k1, k2⟩ := key _ e (.inr (.inl rfl))
          exact ⟨x', hi, y, k1, hh, .inr (.inl k2)⟩
        · obtain ⟨x', k1, k2⟩ := key _ e (.inr (.inr rfl))
          exact ⟨x', hi, y, k1, hh, .inr (.inr k2)⟩
      · intro hp
        have g1 : (From l').2 = none := by
          refine Classical.byContradiction fun g => hp ?_
          obtain ⟨x, hi, hx, hh, e⟩ := h2 g
          exact ⟨x, hi, rest, hx, hh, .inr (.inl (by rw [e]; simp))⟩
        obtain ⟨i1, i2⟩ := ih.2 fun h => hp (by
          rw [show l ++ 10 :: rest = (l ++ [10]) ++ rest by simp]
          exact lineEndInPair_after hl10 h)
        rw [e]
        refine ⟨?_, .line (fun h => hn (From_mem (by decide) h)) (h1 g1) i2⟩
        intro x hx
        rcases List.mem_cons.1 hx with rfl | hx
        · exact g1
        · exact i1 x hx
    · obtain ⟨x, hi, rfl, hx, hh⟩ := truncated_ends ht
      constructor
      · rintro ⟨g, -⟩
        exfalso
        have : l' = x ++ [hi] := by
          rw [noCR_eq hc]
          unfold GoIo.dropCR
          rw [if_neg]
          simp only [List.getLast?_concat, Option.some.injEq]
          rintro rfl
          exact absurd hh (by decide)
        have g := g l' (by simp)
        rw [this, From_truncated ht] at g
        cases g
      · intro hp
        exact absurd ⟨x, hi, rest, whole_iff.2 hx, hh, .inl (by simp)⟩ hp

/-- Both sides occur: B0 0A has a line end in a pair, the string of the example at the end has none. -/
example : LineEndInPair [0xB0, 0x0A] := ⟨[], 0xB0, [], by decide, by decide, .inl rfl⟩

/-- C97, what holds of `From` (partial: only encoded texts): a file in CP949 can be cut into lines before or after decoding. -/
theorem C97_file_partial (cs : List Char) (b : Str) (h : Enc cs b) (ls : List Str) (hl : Lines b ls) :
    (∀ l ∈ ls, (From l).2 = none) ∧ Lines (utf8 cs) (ls.map fun l => (From l).1) := by
  have hsec : ∀ y ∈ secondBytes b, 0x41 ≤ y.toNat := by
    clear hl
    induction h with
    | nil => intro y hy; cases hy
    | ascii h1 _ _ ih => rw [seconds_ascii h1]; exact ih
    | @pair hi lo c cs bs h1 _ ih =>
      have hr := code_range h1
      have hlo : lo.toNat < 256 := UInt8.toNat_lt lo
      have : 0x80 ≤ hi.toNat := by omega
      rw [seconds_pair this]
      intro y hy
      rcases List.mem_cons.1 hy with rfl | hy
      · omega
      · exact ih y hy
  exact C97_from_partial b _ ls (From_enc h) (fun h => absurd (hsec _ h) (by decide)) (fun h => absurd (hsec _ h) (by decide)) hl

/-- C97 applies: "가", CR LF, "A" in CP949 is a text with two lines, and no second byte is a line end. -/
example : From [0xB0, 0xA1, 0x0D, 0x0A, 0x41] = ([0xEA, 0xB0, 0x80, 0x0D, 0x0A, 0x41], none) ∧
    10 ∉ secondBytes [0xB0, 0xA1, 0x0D, 0x0A, 0x41] ∧ 13 ∉ secondBytes [0xB0, 0xA1, 0x0D, 0x0A, 0x41] ∧
    Lines [0xB0, 0xA1, 0x0D, 0x0A, 0x41] [[0xB0, 0xA1], [0x41]] := by
  refine ⟨by decide +kernel, by decide, by decide, ?_⟩
  exact .line (l := [0xB0, 0xA1, 0x0D]) (by decide) (.cr [0xB0, 0xA1])
      (.last (by decide) (by decide) (.other (by
        intro l' h
        have := congrArg List.getLast? h
        simp at this)))

example : ∃ b, Enc ['가', '\n', 'A'] b := by
  obtain ⟨code, h⟩ := chart_ga
  rw [← ga_toNat] at h
  exact ⟨_, enc_code h (.ascii (b := 0x0A) (by decide) (by decide) (.ascii (b := 0x41) (by decide) (by decide) .nil))⟩

end Props
