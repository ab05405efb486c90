import Verif.Props.HanjaChart
import Verif.Spec.Nfc
/-! Property theorems C76–C77: texts from CP949 in Unicode normal form. -/
namespace Hanja
open Go Spec Hangul Cp949

attribute [local irreducible] fromTable toTable rawFrom rawTo rawTable table

/-! ## Helpers -/

theorem dec_repertoire {b : Str} {cs : List Char} (h : Dec b cs) (c : Char) (hc : c ∈ cs) :
    InRepertoire c ∨ c.toNat = 0xFFFD := by
  induction h with
  | nil => simp at hc
  | ascii h1 h2 _ ih =>
    rcases List.mem_cons.1 hc with rfl | hc
    · exact .inl (.inl (by omega))
    · exact ih hc
  | pair h1 h2 _ ih =>
    rcases List.mem_cons.1 hc with rfl | hc
    · exact .inl (.inr ⟨_, h2⟩)
    · exact ih hc
  | unassigned h1 h2 h3 _ ih =>
    rcases List.mem_cons.1 hc with rfl | hc
    · exact .inr h3
    · exact ih hc

/-- `Char.ofNat` of what the lists give has that code. -/
theorem images_valid : ((ideographs ++ singletons).all fun e => decide ((Char.ofNat e.2).toNat = e.2)) = true := by
  decide +kernel

theorem keys_range : (ideographs.all fun e => decide (0xF900 ≤ e.1 ∧ e.1 ≤ 0xFAFF)) = true := by decide +kernel

theorem singletons_range : (singletons.all fun e => decide (e.1 < 0x3400 ∧ e.2 < 0x3400)) = true := by decide +kernel

/-- U+F900..U+FA0B all have a decomposition, a unified ideograph. -/
theorem images_unified : (ideographs.take 268).map (·.1) = List.range' 0xF900 268 ∧
    ((ideographs.take 268).all fun e => decide (0x4E00 ≤ e.2 ∧ e.2 ≤ 0x9FA5 ∧ (nfc (Char.ofNat e.1)).toNat = e.2)) = true := by
  decide +kernel

theorem nfc_ofNat {c : Char} {n m : Nat} (h : c.toNat = n) (hm : (nfc (Char.ofNat n)).toNat = m) : (nfc c).toNat = m := by
  rw [← hm, ← h, Char.ofNat_toNat]

theorem nfc_cases (c : Char) :
    (∃ e ∈ ideographs ++ singletons, e.1 = c.toNat ∧ (nfc c).toNat = e.2) ∨
    (nfc c = c ∧ ∀ e ∈ ideographs ++ singletons, e.1 ≠ c.toNat) := by
  unfold nfc
  cases h : (ideographs ++ singletons).find? fun e => e.1 == c.toNat with
  | none =>
    right
    refine ⟨rfl, fun e he => ?_⟩
    simpa using List.find?_eq_none.1 h e he
  | some e =>
    left
    have hm := List.mem_of_find?_eq_some h
    have := List.all_eq_true.1 images_valid e hm
    exact ⟨e, hm, by simpa using List.find?_some h, by simpa using this⟩

/-- The normal form of a compatibility ideograph of KS X 1001 is a unified ideograph. -/
theorem nfc_compat {c : Char} (h : 0xF900 ≤ c.toNat ∧ c.toNat ≤ 0xFA0B) :
    0x4E00 ≤ (nfc c).toNat ∧ (nfc c).toNat ≤ 0x9FA5 := by
  have hm : c.toNat ∈ (ideographs.take 268).map (·.1) := by
    rw [images_unified.1, List.mem_range'_1]
    omega
  obtain ⟨e, he, ha⟩ := List.mem_map.1 hm
  have := List.all_eq_true.1 images_unified.2 _ he
  rw [decide_eq_true_eq] at this
  have e1 := nfc_ofNat ha.symm this.2.2
  omega

/-- No other character becomes an ideograph. -/
theorem nfc_other {c : Char} (h : c.toNat < 0xF900 ∨ 0xFAFF < c.toNat) :
    nfc c = c ∨ (c.toNat < 0x3400 ∧ (nfc c).toNat < 0x3400) := by
  rcases nfc_cases c with ⟨e, he, h1, h2⟩ | ⟨h1, _⟩
  · right
    rcases List.mem_append.1 he with he | he
    · have := List.all_eq_true.1 keys_range e he
      simp only [decide_eq_true_eq] at this
      omega
    · have := List.all_eq_true.1 singletons_range e he
      simp only [decide_eq_true_eq] at this
      omega
  · exact .inl h1

/-- CP949 has no ideographs from U+FA2E on. -/
theorem compat_end : (rawFrom.all fun e => Nat.ble e.2 0xFA2D || Nat.ble 0xFB00 e.2) = true := by decide +kernel

theorem no_more_compat {code u : Nat} (h : 0xFA2D < u ∧ u ≤ 0xFAFF) : ¬ Chart code u := by
  intro hc
  have := List.all_eq_true.1 compat_end _ (chart_iff.1 hc)
  rw [Bool.or_eq_true, Nat.ble_eq, Nat.ble_eq] at this
  simp only at this
  omega

/-! ## C76 -/

/-- C76: `Convert` of the normal form of a text `From` returned is the text with every hanja replaced by a syllable
and every other character in its normal form. -/
theorem C76_normalised_first (b : Str) (cs : List Char) (h : From b = (utf8 cs, none)) :
    ∃ g : Char → Char, Convert (utf8 (cs.map nfc)) = utf8 (cs.map g) ∧
      ∀ c ∈ cs, ((∃ code, HanjaCode code ∧ Chart code c.toNat) → 0xAC00 ≤ (g c).toNat ∧ (g c).toNat ≤ 0xD7A3) ∧
        ((¬ ∃ code, HanjaCode code ∧ Chart code c.toNat) → g c = nfc c) := by
  have hg : ∀ c : Char, ∃ d : Char, conv (runeOf (nfc c)) = runeOf d := fun c => conv_char _
  refine ⟨fun c => Classical.choose (hg c), ?_, fun c hc => ?_⟩
  · apply Convert_chars (runes_utf8 _)
    rw [List.map_map, List.map_map, List.map_map]
    exact List.map_congr_left fun c _ => Classical.choose_spec (hg c)
  · have hd := Classical.choose_spec (hg c)
    simp only
    generalize Classical.choose (hg c) = d at hd ⊢
    constructor
    · rintro ⟨code, h1, h2⟩
      have hi : IsHanja (runeOf (nfc c)) = true := by
        rw [C22_isHanja, runeOf_toNat]
        have : 0x4E00 ≤ (nfc c).toNat ∧ (nfc c).toNat ≤ 0x9FA5 := by
          rcases hanja_char h2 h1 with hr | hr
          · rcases nfc_other (c := c) (by omega) with e | e
            · rw [e]; exact hr
            · omega
          · exact nfc_compat hr
        exact .inr (.inl (by omega))
      obtain ⟨v, hv⟩ := Option.isSome_iff_exists.1 (by unfold IsHanja at hi; exact hi)
      have hs := lookup_syllable hv
      rw [conv, hv, Option.getD_some] at hd
      rw [hd] at hs
      unfold IsSyllable at hs
      rw [runeOf_toNat] at hs
      omega
    · intro hn
      obtain ⟨cs', hdec, e⟩ := (C31_decodes b (utf8 cs)).1 h
      have e := utf8_inj e
      subst e
      have hlow : nfc c = c ∧ (c.toNat < 0x3400 ∨ 0x9FA5 < c.toNat ∧ c.toNat < 0xF900 ∨ 0xFA2D < c.toNat) ∨
          (c.toNat < 0x3400 ∧ (nfc c).toNat < 0x3400) := by
        rcases dec_repertoire hdec c hc with (ha | ⟨code, hch⟩) | hf
        · rcases nfc_other (c := c) (by omega) with e | e
          · exact .inl ⟨e, by omega⟩
          · exact .inr e
        · have hna : ¬ HanjaCode code := fun hc => hn ⟨code, hc, hch⟩
          rw [hanja_area_iff hch] at hna
          by_cases hx : c.toNat < 0xF900 ∨ 0xFAFF < c.toNat
          · rcases nfc_other hx with e | e
            · exact .inl ⟨e, by omega⟩
            · exact .inr e
          · exact absurd hch (no_more_compat (by omega))
        · rcases nfc_other (c := c) (by omega) with e | e
          · exact .inl ⟨e, by omega⟩
          · exact .inr e
      have hnot : IsHanja (runeOf (nfc c)) = false := by
        rw [Bool.eq_false_iff, ne_eq, C22_isHanja, runeOf_toNat]
        unfold IsIdeograph
        simp only [List.mem_cons, List.not_mem_nil, or_false]
        rcases hlow with ⟨e, h⟩ | h
        · rw [e]; omega
        · omega
      rw [conv_of_not_hanja hnot] at hd
      exact (runeOf_inj hd).symm

/-- C76: so nothing of the hanja area of KS X 1001 is left. -/
theorem C76_no_hanja_left (b : Str) (cs ds : List Char) (h : From b = (utf8 cs, none))
    (hd : Convert (utf8 (cs.map nfc)) = utf8 ds) (d : Char) (hm : d ∈ ds) :
    ¬ ∃ code, HanjaCode code ∧ Chart code d.toNat := by
  obtain ⟨g, h1, h2⟩ := C76_normalised_first b cs h
  rw [hd] at h1
  rw [utf8_inj h1] at hm
  obtain ⟨c, hc, rfl⟩ := List.mem_map.1 hm
  rintro ⟨code, h3, h4⟩
  have hr := hanja_char h4 h3
  by_cases hh : ∃ code, HanjaCode code ∧ Chart code c.toNat
  · have := (h2 c hc).1 hh
    omega
  · rw [(h2 c hc).2 hh] at h4 hr
    rcases nfc_cases c with ⟨e, he, h5, h6⟩ | ⟨e, _⟩
    · rcases List.mem_append.1 he with he | he
      · obtain ⟨cs', hdec, e'⟩ := (C31_decodes b (utf8 cs)).1 h
        have e' := utf8_inj e'
        subst e'
        have h7 := List.all_eq_true.1 keys_range e he
        simp only [decide_eq_true_eq] at h7
        rcases dec_repertoire hdec c hc with (ha | ⟨code', hch⟩) | hf
        · omega
        · by_cases hx : c.toNat ≤ 0xFA2D
          · exact hh ⟨code', (hanja_area_iff hch).2 (.inr ⟨by omega, hx⟩), hch⟩
          · exact no_more_compat (by omega) hch
        · omega
      · have := List.all_eq_true.1 singletons_range e he
        simp only [decide_eq_true_eq] at this
        omega
    · rw [e] at h4
      exact hh ⟨code, h3, h4⟩

/-- 金 as `D0 DD`, U+F90A, and its normal form U+91D1. -/
example : From [0xD0, 0xDD] = (utf8 [Char.ofNat 0xF90A], none) ∧ nfc (Char.ofNat 0xF90A) = '金' := by
  refine ⟨?_, by decide +kernel⟩
  have hc : Chart 0xD0DD (Char.ofNat 0xF90A).toNat := by
    unfold Chart
    decide +kernel
  exact From_enc (enc_code hc .nil)

/-! ## C77 -/

/-- Å (U+212B), 郎 (U+F92C), 隸 (U+F9B8). -/
def lost : List Nat := [0x212B, 0xF92C, 0xF9B8]

def compatAndOhm : List (Nat × Nat) := (0x2126, 0x3A9) :: ideographs.take 268

/-- Insert into an ascending list. -/
def ins (n : Nat) : List Nat → List Nat
  | [] => [n]
  | m :: l => bif Nat.beq n m then m :: l else bif Nat.ble n m then n :: m :: l else m :: ins n l

theorem mem_ins {n m : Nat} {l : List Nat} (h : n = m ∨ n ∈ l) : n ∈ ins m l := by
  induction l with
  | nil => simpa [ins] using h
  | cons a l ih =>
    unfold ins
    cases h1 : Nat.beq m a with
    | true =>
      have := Nat.eq_of_beq_eq_true h1
      subst this
      simpa using h
    | false =>
      cases h2 : Nat.ble m a with
      | true => simpa using h
      | false =>
        simp only [cond_false, List.mem_cons] at h ⊢
        rcases h with h | h | h
        · exact .inr (ih (.inl h))
        · exact .inl h
        · exact .inr (ih (.inr h))

/-- The numbers of the ascending list are keys of the ascending table. -/
def within : List (Nat × Nat) → List Nat → Bool
  | _, [] => true
  | [], _ :: _ => false
  | f :: fs, n :: ns => bif Nat.beq f.1 n then within fs ns else within fs (n :: ns)

theorem within_mem {t : List (Nat × Nat)} {l : List Nat} (h : within t l = true) {n : Nat} (hn : n ∈ l) :
    ∃ m, (n, m) ∈ t := by
  induction t generalizing l with
  | nil =>
    cases l with
    | nil => simp at hn
    | cons => simp [within] at h
  | cons f fs ih =>
    cases l with
    | nil => simp at hn
    | cons a l =>
      unfold within at h
      cases h1 : Nat.beq f.1 a with
      | true =>
        rw [h1, cond_true] at h
        rcases List.mem_cons.1 hn with rfl | hn
        · exact ⟨f.2, by rw [← Nat.eq_of_beq_eq_true h1]; exact List.mem_cons_self ..⟩
        · obtain ⟨m, hm⟩ := ih h hn
          exact ⟨m, List.mem_cons_of_mem _ hm⟩
      | false =>
        rw [h1, cond_false] at h
        obtain ⟨m, hm⟩ := ih h hn
        exact ⟨m, List.mem_cons_of_mem _ hm⟩

/-- The normal forms that should be in CP949. -/
def wanted : List Nat := compatAndOhm.foldr (fun e l => bif lost.contains e.1 then l else ins e.2 l) []

theorem mem_wanted {l : List (Nat × Nat)} {e : Nat × Nat} (he : e ∈ l) (hl : e.1 ∉ lost) :
    e.2 ∈ l.foldr (fun e l => bif lost.contains e.1 then l else ins e.2 l) [] := by
  induction l with
  | nil => simp at he
  | cons a l ih =>
    rw [List.foldr_cons]
    rcases List.mem_cons.1 he with rfl | he
    · rw [show lost.contains e.1 = false by simpa using hl, cond_false]
      exact mem_ins (.inl rfl)
    · cases lost.contains a.1 with
      | true => exact ih he
      | false => exact mem_ins (.inr (ih he))

theorem kept : within rawTo wanted = true := by decide +kernel

theorem not_kept : (rawTo.all fun f => !(Nat.beq f.1 0xC5 || Nat.beq f.1 0x90CE || Nat.beq f.1 0x96B8)) = true := by
  decide +kernel

theorem singletons_cp949 : (rawTo.all fun f => Nat.ble 0x3400 f.1 || Nat.beq f.1 0x2126 || Nat.beq f.1 0x212B ||
    !(singletons.any fun e => Nat.beq f.1 e.1)) = true := by decide +kernel

theorem ideographs_cp949 : ((ideographs.drop 268).all fun e => Nat.ble 0xFA0C e.1) = true := by decide +kernel

/-- The normal form of a character of CP949 is a character of CP949, with three exceptions. -/
theorem nfc_repertoire {c : Char} (h : InRepertoire c) : InRepertoire (nfc c) ↔ c.toNat ∉ lost := by
  have hno : ∀ n, n = 0xC5 ∨ n = 0x90CE ∨ n = 0x96B8 → ∀ code, ¬ Chart code n := by
    intro n hn code hc
    have := List.all_eq_true.1 not_kept _ ((mem_rawTo _ _).2 hc)
    rw [Bool.not_eq_true', ← Bool.not_eq_true, Bool.or_eq_true, Bool.or_eq_true, Nat.beq_eq, Nat.beq_eq, Nat.beq_eq] at this
    exact this (by simp only; omega)
  constructor
  · intro hi hl
    simp only [lost, List.mem_cons, List.not_mem_nil, or_false] at hl
    have hn : (nfc c).toNat = 0xC5 ∨ (nfc c).toNat = 0x90CE ∨ (nfc c).toNat = 0x96B8 := by
      rcases hl with hl | hl | hl
      · exact .inl (nfc_ofNat hl (by decide +kernel))
      · exact .inr (.inl (nfc_ofNat hl (by decide +kernel)))
      · exact .inr (.inr (nfc_ofNat hl (by decide +kernel)))
    rcases hi with hi | ⟨code, hi⟩
    · omega
    · exact hno _ hn code hi
  · intro hl
    rcases nfc_cases c with ⟨e, he, h1, h2⟩ | ⟨e, _⟩
    · have hc : ∃ code, Chart code c.toNat := by
        rcases h with h | h
        · exfalso
          rcases List.mem_append.1 he with he | he
          · have := List.all_eq_true.1 keys_range e he
            simp only [decide_eq_true_eq] at this
            omega
          · have := List.all_eq_true.1 (show (singletons.all fun e => Nat.ble 0x80 e.1) = true by decide +kernel) e he
            rw [Nat.ble_eq] at this
            omega
        · exact h
      obtain ⟨code, hc⟩ := hc
      have hm : e ∈ compatAndOhm := by
        rcases List.mem_append.1 he with he | he
        · refine List.mem_cons_of_mem _ ?_
          rw [← List.take_append_drop 268 ideographs] at he
          rcases List.mem_append.1 he with he | he
          · exact he
          · exfalso
            have := List.all_eq_true.1 ideographs_cp949 e he
            rw [Nat.ble_eq, h1] at this
            have h7 := List.all_eq_true.1 keys_range e (List.mem_of_mem_drop he)
            simp only [decide_eq_true_eq] at h7
            by_cases hx : c.toNat ≤ 0xFA2D
            · have := hanja_char hc ((hanja_area_iff hc).2 (.inr ⟨by omega, hx⟩))
              omega
            · exact no_more_compat (by omega) hc
        · have h8 := List.all_eq_true.1 singletons_range e he
          rw [decide_eq_true_eq] at h8
          have := List.all_eq_true.1 singletons_cp949 _ ((mem_rawTo _ _).2 hc)
          rw [Bool.or_eq_true, Bool.or_eq_true, Bool.or_eq_true, Nat.ble_eq, Nat.beq_eq, Nat.beq_eq] at this
          simp only at this
          rcases this with ((h3 | h3) | h3) | h3
          · omega
          · have h4 := nfc_ofNat (m := 0x3A9) h3 (by decide +kernel)
            obtain ⟨a, b⟩ := e
            simp only at h1 h2
            have h1 : a = 0x2126 := by omega
            have h2 : b = 0x3A9 := by omega
            subst h1 h2
            exact List.mem_cons_self ..
          · exact absurd (by rw [h3]; decide) hl
          · rw [Bool.not_eq_true', ← Bool.not_eq_true, List.any_eq_true] at h3
            exact absurd ⟨e, he, by rw [h1]; exact Nat.beq_refl _⟩ h3
      obtain ⟨m, hm⟩ := within_mem kept (mem_wanted hm (by rw [h1]; exact hl))
      exact .inr ⟨m, by rw [h2]; exact (mem_rawTo _ _).1 hm⟩
    · rw [e]; exact h

theorem nfc_le {c : Char} (h : InRepertoire c) : (nfc c).toNat ≤ 0xFFE6 := by
  rcases nfc_cases c with ⟨e, he, _, h2⟩ | ⟨e, _⟩
  · rcases h with h | ⟨code, h⟩
    · rcases nfc_other (c := c) (by omega) with e | e
      · rw [e]; omega
      · omega
    · have hc := char_range h
      by_cases hx : c.toNat < 0xF900 ∨ 0xFAFF < c.toNat
      · rcases nfc_other hx with e | e
        · rw [e]; omega
        · omega
      · by_cases hx : c.toNat ≤ 0xFA2D
        · have hr := hanja_char h ((hanja_area_iff h).2 (.inr ⟨by omega, hx⟩))
          have := nfc_compat (c := c) (by omega)
          omega
        · exact absurd h (no_more_compat (by omega))
  · rw [e]
    rcases h with h | ⟨code, h⟩
    · omega
    · have hc := char_range h
      omega

/-- C77, what holds (partial: for texts without three characters): the normal form of a text that can be written in CP949
survives `To` and `From` exactly if the text has none of Å (U+212B), 郎 (U+F92C) and 隸 (U+F9B8); -/
theorem C77_normal_form_partial (cs : List Char) (h : ∀ c ∈ cs, InRepertoire c) :
    From (To (utf8 (cs.map nfc))).1 = (utf8 (cs.map nfc), none) ↔ ∀ c ∈ cs, c.toNat ∉ [0x212B, 0xF92C, 0xF9B8] := by
  constructor
  · intro e c hc
    have he := C37_one_question_mark_partial (cs.map nfc) (by
      intro d hd
      obtain ⟨c, hc, rfl⟩ := List.mem_map.1 hd
      exact nfc_le (h c hc))
    rw [From_enc he, Prod.mk.injEq] at e
    have e := utf8_inj e.1
    rw [List.map_map, List.map_inj_left] at e
    have e := e c hc
    rw [← show lost = [0x212B, 0xF92C, 0xF9B8] from rfl, ← nfc_repertoire (h c hc)]
    simp only [Function.comp_apply, substitute] at e
    split at e
    · assumption
    · rw [← e]; exact .inl (by decide)
  · intro hl
    obtain ⟨b, h1, _, h2⟩ := C28_roundtrip_unicode (cs.map nfc) (by
      intro d hd
      obtain ⟨c, hc, rfl⟩ := List.mem_map.1 hd
      exact (nfc_repertoire (h c hc)).2 (hl c hc))
    rw [h1]
    exact h2

/-- C77, all texts: each of the three becomes a question mark, everything else survives. -/
theorem C77_exact_partial (cs : List Char) (h : ∀ c ∈ cs, InRepertoire c) :
    From (To (utf8 (cs.map nfc))).1 =
      (utf8 (cs.map fun c => if c.toNat ∈ [0x212B, 0xF92C, 0xF9B8] then '?' else nfc c), none) := by
  have he := C37_one_question_mark_partial (cs.map nfc) (by
    intro d hd
    obtain ⟨c, hc, rfl⟩ := List.mem_map.1 hd
    exact nfc_le (h c hc))
  rw [From_enc he, List.map_map]
  congr 2
  apply List.map_congr_left
  intro c hc
  have := nfc_repertoire (h c hc)
  rw [show lost = [0x212B, 0xF92C, 0xF9B8] from rfl] at this
  simp only [Function.comp_apply, substitute]
  by_cases hl : c.toNat ∈ [0x212B, 0xF92C, 0xF9B8]
  · rw [if_pos hl, if_neg fun x => this.1 x hl]
  · rw [if_neg hl, if_pos (this.2 hl)]

/-- C77 is false of the code: 郎, `D2 AB`, is U+F92C, and its normal form U+90CE is written `?`. -/
theorem C77_normal_form_fails :
    ¬ ∀ (b : Str) (cs : List Char), From b = (utf8 cs, none) →
      From (To (utf8 (cs.map nfc))).1 = (utf8 (cs.map nfc), none) := by
  intro H
  have hc : Chart 0xD2AB (Char.ofNat 0xF92C).toNat := by
    unfold Chart
    decide +kernel
  have h := H _ [Char.ofNat 0xF92C] (From_enc (enc_code hc .nil))
  rw [C77_normal_form_partial _ (by intro c hc'; rw [List.mem_singleton.1 hc']; exact .inr ⟨_, hc⟩)] at h
  exact h _ (List.mem_cons_self ..) (by decide)

/-- Ω (U+2126) and 가 can be written and are not among the three. -/
example : ∀ c ∈ [Char.ofNat 0x2126, '가'], InRepertoire c ∧ c.toNat ∉ [0x212B, 0xF92C, 0xF9B8] := by
  intro c hc
  rcases List.mem_cons.1 hc with rfl | hc
  · refine ⟨.inr ⟨0xA7D9, ?_⟩, by decide⟩
    unfold Chart
    decide +kernel
  · rw [List.mem_singleton.1 hc]
    exact ⟨C28_repertoire _ (.inr (by decide)), by decide⟩

end Hanja
