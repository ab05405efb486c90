import Verif.Lemmas.Cp949Table
import Verif.Lemmas.Search
import Verif.Lemmas.Utf8
import Verif.Cp949.Public
import Verif.Spec.Cp949
/-! Lemmas about the CP949 translators. -/
namespace Cp949
open Go Spec KSort

/-! ### Table lookup -/

theorem search_key (table : LookupTable) (key : LookupItem → UInt16)
    (hs : table.Pairwise fun a b => (key a).toNat < (key b).toNat) (n : UInt16) :
    let fi := search table.length fun i => decide (n ≤ key (table.getD i default))
    fi ≤ table.length ∧
    (∀ e ∈ table, key e = n → fi < table.length ∧ table.getD fi default = e) ∧
    (fi < table.length → table.getD fi default ∈ table) ∧
    (table.length ≤ fi ↔ ∀ e ∈ table, (key e).toNat < n.toNat) := by
  intro fi
  have hlt : ∀ a b, a < b → b < table.length →
      (key (table.getD a default)).toNat < (key (table.getD b default)).toNat := by
    intro a b hab hb
    have := List.pairwise_iff_getElem.1 hs a b (by omega) hb hab
    simpa [List.getD_eq_getElem?_getD, hb, (by omega : a < table.length)] using this
  have hget : ∀ k, k < table.length → table.getD k default ∈ table := by
    intro k hk
    simp [List.getD_eq_getElem?_getD, hk]
  obtain ⟨h1, h2, h3⟩ := search_spec table.length
    (fun i => decide (n ≤ key (table.getD i default))) (by
      intro a b hab hb ha
      simp only [decide_eq_true_eq, UInt16.le_iff_toNat_le] at *
      by_cases e : a = b
      · subst e; exact ha
      · have := hlt a b (by omega) hb
        omega)
  have h2 : ∀ k, k < fi → ¬ n.toNat ≤ (key (table.getD k default)).toNat := by
    intro k hk
    have := h2 k hk
    simpa only [decide_eq_false_iff_not, UInt16.le_iff_toNat_le] using this
  have h3 : ∀ k, fi ≤ k → k < table.length → n.toNat ≤ (key (table.getD k default)).toNat := by
    intro k hk hl
    have := h3 k hk hl
    simpa only [decide_eq_true_eq, UInt16.le_iff_toNat_le] using this
  have idx : ∀ e ∈ table, ∃ k, k < table.length ∧ table.getD k default = e := by
    intro e he
    obtain ⟨k, hk, hke⟩ := List.getElem_of_mem he
    exact ⟨k, hk, by simp [List.getD_eq_getElem?_getD, hk, hke]⟩
  refine ⟨h1, ?_, fun h => hget _ h, ?_, ?_⟩
  · intro e he hk
    obtain ⟨k, hk1, hk2⟩ := idx e he
    have hn : ¬ k < fi := by
      intro hc
      have := h2 k hc
      rw [hk2, hk] at this
      omega
    by_cases e1 : fi = k
    · rw [e1]; exact ⟨hk1, hk2⟩
    · have := hlt fi k (by omega) hk1
      have := h3 fi (Nat.le_refl _) (by omega)
      rw [hk2, hk] at *
      omega
  · intro h e he
    obtain ⟨k, hk1, hk2⟩ := idx e he
    have := h2 k (by omega)
    rw [hk2] at this
    omega
  · intro h
    by_cases hc : fi < table.length
    · have h4 := h3 fi (Nat.le_refl _) hc
      have h5 := h _ (hget fi hc)
      omega
    · omega

theorem raw_lt {c u : Nat} (h : Chart c u) : c < 65536 ∧ u < 65536 := by
  have := code_range h; have := char_range h; omega

theorem u16_ofNat {n : Nat} (h : n < 65536) : (UInt16.ofNat n).toNat = n := by
  simp [UInt16.toNat_ofNat']; omega

theorem pairwise_map_lt {l : List (Nat × Nat)} {g : Nat × Nat → LookupItem}
    {key : LookupItem → UInt16} (h : l.Pairwise (fun a b => a.1 < b.1))
    (hg : ∀ e ∈ l, (key (g e)).toNat = e.1) :
    (l.map g).Pairwise fun a b => (key a).toNat < (key b).toNat := by
  induction l with
  | nil => exact .nil
  | cons a l ih =>
    rw [List.pairwise_cons] at h
    rw [List.map_cons, List.pairwise_cons]
    refine ⟨?_, ih h.2 fun e he => hg e (List.mem_cons_of_mem _ he)⟩
    intro b hb
    obtain ⟨e, he, rfl⟩ := List.mem_map.1 hb
    rw [hg a (List.mem_cons_self ..), hg e (List.mem_cons_of_mem _ he)]
    exact h.1 e he

theorem fromTable_sorted : fromTable.Pairwise fun a b => a.cp949.toNat < b.cp949.toNat :=
  pairwise_map_lt (key := LookupItem.cp949) (sortedFrom_spec _ _ rawFrom_sorted).2
    fun e he => u16_ofNat (raw_lt (c := e.1) (u := e.2) (chart_iff.2 he)).1

theorem toTable_sorted : toTable.Pairwise fun a b => a.ucs2.toNat < b.ucs2.toNat :=
  pairwise_map_lt (key := LookupItem.ucs2) (sortedFrom_spec _ _ rawTo_sorted).2
    fun e he => u16_ofNat (raw_lt ((mem_rawTo e.1 e.2).1 he)).2

theorem mem_fromTable (e : LookupItem) :
    e ∈ fromTable ↔ Chart e.cp949.toNat e.ucs2.toNat := by
  unfold fromTable
  rw [chart_iff, List.mem_map]
  constructor
  · rintro ⟨⟨a, b⟩, h, rfl⟩
    have := raw_lt (chart_iff.2 h)
    simp only
    rw [u16_ofNat this.1, u16_ofNat this.2]; exact h
  · intro h
    exact ⟨_, h, by simp⟩

theorem mem_toTable (e : LookupItem) :
    e ∈ toTable ↔ Chart e.cp949.toNat e.ucs2.toNat := by
  unfold toTable
  rw [← mem_rawTo, List.mem_map]
  constructor
  · rintro ⟨⟨a, b⟩, h, rfl⟩
    have := raw_lt ((mem_rawTo a b).1 h)
    simp only
    rw [u16_ofNat this.1, u16_ofNat this.2]; exact h
  · intro h
    exact ⟨_, h, by simp⟩

attribute [local irreducible] fromTable toTable rawFrom rawTo

theorem code_unique {c u u' : Nat} (h : Chart c u) (h' : Chart c u') : u = u' := by
  have hp := (sortedFrom_spec _ _ rawFrom_sorted).2
  obtain ⟨i, hi, ei⟩ := List.getElem_of_mem (chart_iff.1 h)
  obtain ⟨j, hj, ej⟩ := List.getElem_of_mem (chart_iff.1 h')
  have := List.pairwise_iff_getElem.1 hp
  rcases Nat.lt_trichotomy i j with hl | rfl | hl
  · have := this i j hi hj hl; rw [ei, ej] at this; simp at this
  · rw [ei] at ej; simpa using ej
  · have := this j i hj hi hl; rw [ei, ej] at this; simp at this

theorem char_unique {c c' u : Nat} (h : Chart c u) (h' : Chart c' u) : c = c' := by
  have hp := (sortedFrom_spec _ _ rawTo_sorted).2
  obtain ⟨i, hi, ei⟩ := List.getElem_of_mem ((mem_rawTo u c).2 h)
  obtain ⟨j, hj, ej⟩ := List.getElem_of_mem ((mem_rawTo u c').2 h')
  have := List.pairwise_iff_getElem.1 hp
  rcases Nat.lt_trichotomy i j with hl | rfl | hl
  · have := this i j hi hj hl; rw [ei, ej] at this; simp at this
  · rw [ei] at ej; simpa using ej
  · have := this j i hj hi hl; rw [ei, ej] at this; simp at this

/-- Looking up a code in `fromTable`. -/
theorem from_found {n : UInt16} {u : Nat} (h : Chart n.toNat u) :
    searchCp949 fromTable n < fromTable.length ∧
    n = (fromTable.getD (searchCp949 fromTable n) default).cp949 ∧
    (fromTable.getD (searchCp949 fromTable n) default).ucs2.toNat = u := by
  have hu := raw_lt h
  have hm : (⟨n, UInt16.ofNat u⟩ : LookupItem) ∈ fromTable := by
    rw [mem_fromTable]; simp only; rw [u16_ofNat hu.2]; exact h
  obtain ⟨_, h2, _, _⟩ := search_key fromTable LookupItem.cp949 fromTable_sorted n
  obtain ⟨h3, h4⟩ := h2 _ hm rfl
  refine ⟨h3, ?_, ?_⟩
  · unfold searchCp949; rw [h4]
  · unfold searchCp949; rw [h4]; exact u16_ofNat hu.2

theorem from_notFound {n : UInt16} (h : ∀ u, ¬ Chart n.toNat u) :
    ¬ (searchCp949 fromTable n < fromTable.length ∧
      n = (fromTable.getD (searchCp949 fromTable n) default).cp949) := by
  rintro ⟨h1, h2⟩
  obtain ⟨_, _, h3, _⟩ := search_key fromTable LookupItem.cp949 fromTable_sorted n
  have h4 : fromTable.getD (searchCp949 fromTable n) default ∈ fromTable := h3 h1
  rw [mem_fromTable, ← h2] at h4
  exact h _ h4

/-- Looking up a character in `toTable`. -/
theorem to_found {n : UInt16} {c : Nat} (h : Chart c n.toNat) :
    searchUcs2 toTable n < toTable.length ∧
    n = (toTable.getD (searchUcs2 toTable n) default).ucs2 ∧
    (toTable.getD (searchUcs2 toTable n) default).cp949.toNat = c := by
  have hu := raw_lt h
  have hm : (⟨UInt16.ofNat c, n⟩ : LookupItem) ∈ toTable := by
    rw [mem_toTable]; simp only; rw [u16_ofNat hu.1]; exact h
  obtain ⟨_, h2, _, _⟩ := search_key toTable LookupItem.ucs2 toTable_sorted n
  obtain ⟨h3, h4⟩ := h2 _ hm rfl
  refine ⟨h3, ?_, ?_⟩
  · unfold searchUcs2; rw [h4]
  · unfold searchUcs2; rw [h4]; exact u16_ofNat hu.1

theorem to_notFound {n : UInt16} (h : ∀ c, ¬ Chart c n.toNat) :
    ¬ (searchUcs2 toTable n < toTable.length ∧
      n = (toTable.getD (searchUcs2 toTable n) default).ucs2) := by
  rintro ⟨h1, h2⟩
  obtain ⟨_, _, h3, _⟩ := search_key toTable LookupItem.ucs2 toTable_sorted n
  have h4 : toTable.getD (searchUcs2 toTable n) default ∈ toTable := h3 h1
  rw [mem_toTable, ← h2] at h4
  exact h _ h4

/-- The search runs past the table exactly for characters above U+FFE6. -/
theorem to_past {n : UInt16} : toTable.length ≤ searchUcs2 toTable n ↔ 0xFFE6 < n.toNat := by
  obtain ⟨_, _, _, h4⟩ := search_key toTable LookupItem.ucs2 toTable_sorted n
  unfold searchUcs2
  rw [h4]
  constructor
  · intro h
    obtain ⟨c, hc⟩ := exists_last
    have hu := raw_lt hc
    have hl : (UInt16.ofNat 0xFFE6).toNat = 0xFFE6 := u16_ofNat hu.2
    have := h ⟨UInt16.ofNat c, UInt16.ofNat 0xFFE6⟩ (by
      have hc' : Chart (UInt16.ofNat c).toNat (UInt16.ofNat 0xFFE6).toNat := by
        rw [u16_ofNat hu.1, hl]; exact hc
      exact (mem_toTable _).2 hc')
    rw [hl] at this
    exact this
  · intro h e he
    rw [mem_toTable] at he
    have := char_range he
    omega

/-! ### Bytes -/

theorem ascii_bit (b : Byte) : b &&& 0x80 = 0 ↔ b.toNat < 0x80 := by
  have h : ∀ n, n < 256 → ((UInt8.ofNat n) &&& 0x80 = 0 ↔ n < 0x80) := by decide +kernel
  have := h b.toNat (byte_lt b)
  simpa using this

theorem join_bytes (hi lo : Byte) :
    (hi.toUInt16 <<< 8 ||| lo.toUInt16).toNat = hi.toNat * 256 + lo.toNat := by
  have h1 := byte_lt hi
  have h2 := byte_lt lo
  rw [UInt16.toNat_or, UInt16.toNat_shiftLeft]
  simp only [UInt8.toNat_toUInt16]
  rw [show (8 : UInt16).toNat % 16 = 8 from rfl, Nat.shiftLeft_eq]
  rw [Nat.mod_eq_of_lt (by omega)]
  have := Nat.shiftLeft_add_eq_or_of_lt (a := hi.toNat) (b := lo.toNat) (i := 8) (by omega)
  rw [Nat.shiftLeft_eq] at this
  rw [← this]

theorem hi_byte (n : UInt16) : (n >>> 8).toUInt8.toNat = n.toNat / 256 := by
  have := UInt16.toNat_lt n
  rw [UInt16.toNat_toUInt8, UInt16.toNat_shiftRight, show (8 : UInt16).toNat % 16 = 8 from rfl,
    Nat.shiftRight_eq_div_pow]
  omega

theorem lo_byte (n : UInt16) : (n &&& 0xFF).toUInt8.toNat = n.toNat % 256 := by
  rw [UInt16.toNat_toUInt8, UInt16.toNat_and, show (0xFF : UInt16).toNat = 2 ^ 8 - 1 from rfl,
    Nat.and_two_pow_sub_one_eq_mod]
  omega

theorem ucs2_of {n : Nat} (h : n < 0x110000) :
    (Int32.ofNat n).toUInt32.toUInt16.toNat = n % 65536 := by
  rw [UInt32.toNat_toUInt16, toUInt32_ofNat n (by omega)]

/-! ### `From` -/

theorem dec_or_truncated : ∀ (n : Nat) (b : Str), b.length ≤ n → (∃ cs, Dec b cs) ∨ Truncated b
  | _, [], _ => .inl ⟨[], .nil⟩
  | 0, _ :: _, h => by simp at h
  | n + 1, b :: bs, h => by
    simp only [List.length_cons] at h
    by_cases hb : b.toNat < 0x80
    · rcases dec_or_truncated n bs (by omega) with ⟨cs, hd⟩ | ht
      · obtain ⟨c, hc⟩ := exists_char (v := b.toNat) (by omega)
        exact .inl ⟨c :: cs, .ascii hb hc hd⟩
      · exact .inr (.ascii hb ht)
    · cases bs with
      | nil => exact .inr (.lone (by omega))
      | cons lo bs =>
        simp only [List.length_cons] at h
        rcases dec_or_truncated n bs (by omega) with ⟨cs, hd⟩ | ht
        · by_cases hc : ∃ u, Chart (b.toNat * 256 + lo.toNat) u
          · obtain ⟨u, hu⟩ := hc
            have := char_range hu
            obtain ⟨c, rfl⟩ := exists_char (v := u) (by omega)
            exact .inl ⟨c :: cs, .pair (by omega) hu hd⟩
          · exact .inl ⟨fffd :: cs, .unassigned (by omega) (by simpa using hc) fffd_toNat hd⟩
        · exact .inr (.pair (by omega) ht)

theorem utf8_cons (c : Char) (cs : List Char) :
    utf8 (c :: cs) = String.utf8EncodeChar c ++ utf8 cs := rfl

theorem fromLoop_ascii {b : Byte} (hb : b.toNat < 0x80) (table : LookupTable) (bs scratch : Str)
    (c : Nat) : fromLoop table (b :: bs) scratch c = fromLoop table bs (scratch ++ [b]) (c + 1) := by
  have h := (ascii_bit b).2 hb
  cases bs with
  | nil => simp [fromLoop, h]
  | cons b1 bs => simp [fromLoop, h]

theorem encodeRune_ofNat {c : Char} {n : Nat} (h : c.toNat = n) :
    encodeRune (Int32.ofNat n) = String.utf8EncodeChar c := by
  rw [← h]; exact encodeRune_runeOf c

theorem fromLoop_pair {hi lo : Byte} {c : Char} (hh : 0x80 ≤ hi.toNat)
    (h : Chart (hi.toNat * 256 + lo.toNat) c.toNat) (bs scratch : Str) (n : Nat) :
    fromLoop fromTable (hi :: lo :: bs) scratch n =
      fromLoop fromTable bs (scratch ++ String.utf8EncodeChar c) (n + 2) := by
  have hb : ¬ (hi &&& 0x80 = 0) := by rw [ascii_bit]; omega
  have hn := join_bytes hi lo
  rw [← hn] at h
  obtain ⟨h1, h2, h3⟩ := from_found h
  rw [fromLoop, if_neg hb]
  simp only
  rw [if_pos ⟨h1, h2⟩, appendRune, encodeRune_ofNat h3.symm]

theorem fromLoop_unassigned {hi lo : Byte} {c : Char} (hh : 0x80 ≤ hi.toNat)
    (h : ∀ u, ¬ Chart (hi.toNat * 256 + lo.toNat) u) (hc : c.toNat = 0xFFFD) (bs scratch : Str)
    (n : Nat) :
    fromLoop fromTable (hi :: lo :: bs) scratch n =
      fromLoop fromTable bs (scratch ++ String.utf8EncodeChar c) (n + 2) := by
  have hb : ¬ (hi &&& 0x80 = 0) := by rw [ascii_bit]; omega
  have hn := join_bytes hi lo
  rw [← hn] at h
  rw [fromLoop, if_neg hb]
  simp only
  rw [if_neg (from_notFound h), appendRune, ← encodeRune_ofNat hc]
  rfl

theorem fromLoop_dec {data : Str} {cs : List Char} (h : Dec data cs) (scratch : Str) (n : Nat) :
    fromLoop fromTable data scratch n = (n + data.length, scratch ++ utf8 cs, none) := by
  induction h generalizing scratch n with
  | nil => simp [fromLoop, utf8]
  | @ascii b c cs bs hb hc _ ih =>
    rw [fromLoop_ascii hb, ih, utf8_cons, encode_one (by omega), byte_eq hc.symm]
    simp [Nat.add_comm, Nat.add_left_comm]
  | pair hh hc _ ih =>
    rw [fromLoop_pair hh hc, ih, utf8_cons]
    simp [Nat.add_comm, Nat.add_left_comm]
  | unassigned hh hu hc _ ih =>
    rw [fromLoop_unassigned hh hu hc, ih, utf8_cons]
    simp [Nat.add_comm, Nat.add_left_comm]

theorem fromLoop_truncated {data : Str} (h : Truncated data) (scratch : Str) (n : Nat) :
    fromLoop fromTable data scratch n = (0, [], some .unexpectedStream) := by
  induction h generalizing scratch n with
  | @lone b hb =>
    have hb : ¬ (b &&& 0x80 = 0) := by rw [ascii_bit]; omega
    rw [fromLoop, if_neg hb]
  | ascii hb _ ih => rw [fromLoop_ascii hb, ih]
  | @pair hi lo bs hh _ ih =>
    by_cases hc : ∃ u, Chart (hi.toNat * 256 + lo.toNat) u
    · obtain ⟨u, hu⟩ := hc
      have := char_range hu
      obtain ⟨c, rfl⟩ := exists_char (v := u) (by omega)
      rw [fromLoop_pair hh hu, ih]
    · rw [fromLoop_unassigned hh (by simpa using hc) fffd_toNat, ih]

theorem fromTranslate_dec {data : Str} {cs : List Char} (h : Dec data cs) :
    fromTranslate fromTable data = (data.length, utf8 cs, none) := by
  have := fromLoop_dec h [] 0
  simpa [fromTranslate] using this

theorem fromTranslate_truncated {data : Str} (h : Truncated data) :
    fromTranslate fromTable data = (0, [], some .unexpectedStream) := fromLoop_truncated h [] 0

theorem From_dec {data : Str} {cs : List Char} (h : Dec data cs) : From data = (utf8 cs, none) := by
  unfold From; rw [fromTranslate_dec h]

theorem From_truncated {data : Str} (h : Truncated data) :
    From data = ([], some .unexpectedStream) := by
  unfold From; rw [fromTranslate_truncated h]

theorem dec_cases (b : Str) : (∃ cs, Dec b cs) ∨ Truncated b := dec_or_truncated _ b (Nat.le_refl _)

theorem dec_not_truncated {b : Str} {cs : List Char} (h : Dec b cs) : ¬ Truncated b := by
  intro ht
  have h1 := From_dec h
  rw [From_truncated ht] at h1
  simp at h1

/-! ### `To` -/

/-- What the loop of `To` emits for one rune that is not ASCII. -/
def toUnitT (table : LookupTable) (r : Rune) : Str :=
  let u := r.toUInt32.toUInt16
  let fi := searchUcs2 table u
  (if fi ≥ table.length then ([0x3F] : Str) else []) ++
    (if fi < table.length ∧ u = (table.getD fi default).ucs2 then
      [((table.getD fi default).cp949 >>> 8).toUInt8,
        ((table.getD fi default).cp949 &&& 0xFF).toUInt8]
    else [0x3F])

/-- What `To` emits for one rune. -/
def toUnit (r : Rune) : Str :=
  if r.toInt < 0x80 then [r.toUInt32.toUInt8] else toUnitT toTable r

theorem toInt_runeOf (c : Char) : (runeOf c).toInt = c.toNat := by
  have := char_lt c
  unfold runeOf
  exact Int32.toInt_ofNat_of_lt (by simpa using (by omega : c.toNat < 2147483648))

theorem runeOf_inj {c d : Char} (h : runeOf c = runeOf d) : c = d := by
  have h := congrArg Int32.toInt h
  rw [toInt_runeOf, toInt_runeOf] at h
  have h : c.toNat = d.toNat := by omega
  exact Char.ext (UInt32.toNat_inj.1 h)

theorem utf8_inj {cs ds : List Char} (h : utf8 cs = utf8 ds) : cs = ds := by
  have h := congrArg runes h
  rw [runes_utf8, runes_utf8] at h
  exact (List.map_inj_right fun _ _ => runeOf_inj).1 h

theorem toUnit_ascii {c : Char} (h : c.toNat < 0x80) :
    toUnit (runeOf c) = [UInt8.ofNat c.toNat] := by
  unfold toUnit
  rw [if_pos (by rw [toInt_runeOf]; omega)]
  congr 1
  refine UInt8.toNat_inj.1 ?_
  rw [UInt32.toNat_toUInt8, runeOf, toUInt32_ofNat _ (by omega), UInt8.toNat_ofNat']

theorem toUnit_found {c : Char} {code : Nat} (h : 0x80 ≤ c.toNat)
    (hc : Chart code (c.toNat % 65536)) :
    toUnit (runeOf c) = [UInt8.ofNat (code / 256), UInt8.ofNat (code % 256)] := by
  have hu := ucs2_of (char_lt c)
  change (runeOf c).toUInt32.toUInt16.toNat = _ at hu
  rw [← hu] at hc
  obtain ⟨h1, h2, h3⟩ := to_found hc
  unfold toUnit
  rw [if_neg (by rw [toInt_runeOf]; omega)]
  unfold toUnitT
  simp only
  rw [if_neg (by omega), if_pos ⟨h1, h2⟩, ← h3, ← hi_byte, ← lo_byte]
  simp only [UInt8.ofNat_toNat, List.nil_append]

theorem toUnit_single {c : Char} (h : 0x80 ≤ c.toNat) (hl : c.toNat % 65536 ≤ 0xFFE6)
    (hc : ∀ code, ¬ Chart code (c.toNat % 65536)) : toUnit (runeOf c) = [0x3F] := by
  have hu := ucs2_of (char_lt c)
  change (runeOf c).toUInt32.toUInt16.toNat = _ at hu
  rw [← hu] at hc hl
  unfold toUnit
  rw [if_neg (by rw [toInt_runeOf]; omega)]
  unfold toUnitT
  simp only
  rw [if_neg (by rw [ge_iff_le, to_past]; omega), if_neg (to_notFound hc)]
  rfl

theorem toUnit_double {c : Char} (h : 0x80 ≤ c.toNat) (hl : 0xFFE6 < c.toNat % 65536) :
    toUnit (runeOf c) = [0x3F, 0x3F] := by
  have hu := ucs2_of (char_lt c)
  change (runeOf c).toUInt32.toUInt16.toNat = _ at hu
  rw [← hu] at hl
  have hp := to_past.2 hl
  unfold toUnit
  rw [if_neg (by rw [toInt_runeOf]; omega)]
  unfold toUnitT
  simp only
  rw [if_pos hp, if_neg (by omega)]
  rfl

theorem toUnit_cases (c : Char) :
    (c.toNat < 0x80 ∧ toUnit (runeOf c) = [UInt8.ofNat c.toNat]) ∨
    (0x80 ≤ c.toNat ∧ ∃ code, Chart code (c.toNat % 65536) ∧
      toUnit (runeOf c) = [UInt8.ofNat (code / 256), UInt8.ofNat (code % 256)]) ∨
    (0x80 ≤ c.toNat ∧ (∀ code, ¬ Chart code (c.toNat % 65536)) ∧ c.toNat % 65536 ≤ 0xFFE6 ∧
      toUnit (runeOf c) = [0x3F]) ∨
    (0x80 ≤ c.toNat ∧ 0xFFE6 < c.toNat % 65536 ∧ toUnit (runeOf c) = [0x3F, 0x3F]) := by
  by_cases h : c.toNat < 0x80
  · exact .inl ⟨h, toUnit_ascii h⟩
  · have h : 0x80 ≤ c.toNat := by omega
    by_cases hc : ∃ code, Chart code (c.toNat % 65536)
    · obtain ⟨code, hc⟩ := hc
      exact .inr (.inl ⟨h, code, hc, toUnit_found h hc⟩)
    · have hc : ∀ code, ¬ Chart code (c.toNat % 65536) := by simpa using hc
      by_cases hl : c.toNat % 65536 ≤ 0xFFE6
      · exact .inr (.inr (.inl ⟨h, hc, hl, toUnit_single h hl hc⟩))
      · exact .inr (.inr (.inr ⟨h, by omega, toUnit_double h (by omega)⟩))

theorem decodeCode_ascii {b : Byte} (h : b.toNat < 0x80) (p : Str) :
    decodeCode (b :: p) = (b.toNat, 1) := by simp [decodeCode, h]

theorem decodeCode_nonascii {b : Byte} (h : ¬ b.toNat < 0x80) (p : Str) :
    ∃ c : Char, 0x80 ≤ c.toNat ∧ (decodeCode (b :: p)).1 = c.toNat := by
  rcases decodeCode_inv b p with ⟨c, rest, hc⟩ | he
  · refine ⟨c, ?_, by rw [hc, decodeCode_char]⟩
    by_cases h1 : c.toNat ≤ 0x7F
    · rw [encode_one h1] at hc
      simp only [List.cons_append, List.cons.injEq] at hc
      rw [hc.1, toNat_ofNat8] at h
      omega
    · omega
  · exact ⟨fffd, by rw [fffd_toNat]; omega, by rw [he, fffd_toNat]⟩

theorem ite_push (p q : Prop) [Decidable p] [Decidable q] (s a b c : Str) :
    (if q then (if p then s ++ a else s) ++ b else (if p then s ++ a else s) ++ c) =
      s ++ ((if p then a else []) ++ (if q then b else c)) := by
  by_cases p <;> by_cases q <;> simp [*]

theorem toLoop_step (table : LookupTable) {b : Byte} (hb : ¬ b.toNat < 0x80) (fuel : Nat)
    (p scratch : Str) (n : Nat) :
    toLoop table (fuel + 1) (b :: p) scratch n =
      toLoop table fuel ((b :: p).drop (decodeCode (b :: p)).2)
        (scratch ++ toUnitT table (Int32.ofNat (decodeCode (b :: p)).1))
        (n + (decodeCode (b :: p)).2) := by
  rw [toLoop]
  simp only
  rw [if_neg (by rw [ascii_bit]; exact hb), ite_push]
  rfl

theorem toLoop_eq (fuel : Nat) (data scratch : Str) (n : Nat) (hf : data.length ≤ fuel) :
    toLoop toTable fuel data scratch n =
      (n + data.length, scratch ++ (runes data).flatMap toUnit, none) := by
  induction fuel generalizing data scratch n with
  | zero =>
    have : data = [] := List.length_eq_zero_iff.1 (by omega)
    subst this
    simp [toLoop, runes_nil]
  | succ fuel ih =>
    cases data with
    | nil => simp [toLoop, runes_nil]
    | cons b p =>
      simp only [List.length_cons] at hf
      have hd := decodeCode_valid b p
      simp only [List.length_cons] at hd
      rw [runes_cons]
      by_cases hb : b.toNat < 0x80
      · rw [toLoop]
        simp only
        rw [if_pos ((ascii_bit b).2 hb), ih _ _ _ (by omega), decodeCode_ascii hb]
        simp only [List.drop_succ_cons, List.drop_zero, List.flatMap_cons, List.length_cons]
        obtain ⟨c, hc⟩ := exists_char (v := b.toNat) (by omega)
        have := toUnit_ascii (c := c) (by omega)
        rw [byte_eq hc.symm, runeOf, hc] at this
        rw [this, List.append_assoc]
        simp [Nat.add_comm, Nat.add_left_comm]
      · obtain ⟨c, hc1, hc2⟩ := decodeCode_nonascii hb p
        have hr : ¬ (runeOf c).toInt < 0x80 := by rw [toInt_runeOf]; omega
        rw [toLoop_step toTable hb, ih _ _ _ (by rw [List.length_drop, List.length_cons]; omega), hc2]
        have hu : toUnit (Int32.ofNat c.toNat) = toUnitT toTable (Int32.ofNat c.toNat) := if_neg hr
        rw [List.flatMap_cons, hu, List.append_assoc]
        simp only [List.length_drop, List.length_cons, Prod.mk.injEq, and_true]
        omega

theorem toTranslate_eq (data : Str) :
    toTranslate toTable data = (data.length, (runes data).flatMap toUnit, none) := by
  have := toLoop_eq data.length data [] 0 (Nat.le_refl _)
  simpa [toTranslate] using this

theorem To_eq (data : Str) : To data = ((runes data).flatMap toUnit, none) := by
  unfold To; rw [toTranslate_eq]

end Cp949
