import Verif.Lemmas.Jamo
import Verif.Hangul.Heap
/-! Property theorems C01–C17 (package hangul: runes). -/
namespace Hangul
open Go Spec

/-! ## C01 -/

theorem leadForm_jamo {i : Nat} (h : i < 19) : LeadForm i (cp (0x1100 + i)) := by
  refine ⟨h, Or.inl ?_⟩
  rw [cp, toInt_ofNat_lt (by omega)]; omega
theorem vowelForm_jamo {j : Nat} (h : j < 21) : VowelForm j (cp (0x1161 + j)) := by
  refine ⟨h, Or.inl ?_⟩
  rw [cp, toInt_ofNat_lt (by omega)]; omega
theorem tailForm_jamo {k : Nat} (h : k < 28) : TailForm k (tailJamo k) := by
  unfold tailJamo TailForm
  by_cases hk : k = 0
  · left; rw [if_pos hk]; exact ⟨hk, rfl⟩
  · right; rw [if_neg hk, cp, toInt_ofNat_lt (by omega)]
    exact ⟨by omega, h, Or.inl (by omega)⟩
theorem leadForm_letter {i : Nat} (h : i < 19) : LeadForm i (leadLetter i) :=
  (by decide : ∀ i, i < 19 → LeadForm i (leadLetter i)) i h
theorem vowelForm_letter {j : Nat} (h : j < 21) : VowelForm j (cp (0x314F + j)) :=
  (by decide : ∀ j, j < 21 → VowelForm j (cp (0x314F + j))) j h
theorem tailForm_letter {k : Nat} (h : k < 28) : TailForm k (tailLetter k) :=
  (by decide : ∀ k, k < 28 → TailForm k (tailLetter k)) k h

theorem SplitCompat_syllable {i j k : Nat} (hi : i < 19) (hj : j < 21) (hk : k < 28) :
    SplitCompat (syllable i j k) = (leadLetter i, cp (0x314F + j), tailLetter k) := by
  unfold SplitCompat
  rw [Split_syllable hi hj hk]
  simp only
  rw [(by decide +kernel : ∀ i, i < 19 → CompatJamo (cp (0x1100 + i)) = leadLetter i) i hi,
    (by decide +kernel : ∀ j, j < 21 → CompatJamo (cp (0x1161 + j)) = cp (0x314F + j)) j hj,
    (by decide +kernel : ∀ k, k < 28 → CompatJamo (tailJamo k) = tailLetter k) k hk]

/-- C01: splitting a syllable and joining the parts gives it back, in both spellings. -/
theorem C01_split_join (s : Rune) (h : IsSyllable s) :
    Join (Split s).1 (Split s).2.1 (Split s).2.2 = s ∧
    Join (SplitCompat s).1 (SplitCompat s).2.1 (SplitCompat s).2.2 = s := by
  obtain ⟨i, j, k, hi, hj, hk, rfl⟩ := exists_syllable h
  rw [Split_syllable hi hj hk, SplitCompat_syllable hi hj hk]
  exact ⟨Join_ok (leadForm_jamo hi) (vowelForm_jamo hj) (tailForm_jamo hk),
    Join_ok (leadForm_letter hi) (vowelForm_letter hj) (tailForm_letter hk)⟩

example : IsSyllable 0xD7A3 ∧ IsSyllable 0xAC00 := by decide  -- 힣, 가

/-! ## C02 -/

/-- C02: joining any valid jamo (either spelling, `k = 0` for no tail) gives the syllable Unicode
assigns, and splitting it returns the jamo. -/
theorem C02_join_split (i j k : Nat) (l m t : Rune)
    (hl : LeadForm i l) (hm : VowelForm j m) (ht : TailForm k t) :
    IsSyllable (Join l m t) ∧ Join l m t = syllable i j k ∧
    Split (Join l m t) = (cp (0x1100 + i), cp (0x1161 + j), tailJamo k) ∧
    SplitCompat (Join l m t) = (leadLetter i, cp (0x314F + j), tailLetter k) := by
  have hk := tailForm_lt ht
  rw [Join_ok hl hm ht]
  exact ⟨syllable_isSyllable hl.1 hm.1 hk, rfl, Split_syllable hl.1 hm.1 hk,
    SplitCompat_syllable hl.1 hm.1 hk⟩

/-- C02, injectivity: equal syllables come from the same letters. -/
theorem C02_join_injective (i j k i' j' k' : Nat) (l m t l' m' t' : Rune)
    (hl : LeadForm i l) (hm : VowelForm j m) (ht : TailForm k t)
    (hl' : LeadForm i' l') (hm' : VowelForm j' m') (ht' : TailForm k' t')
    (h : Join l m t = Join l' m' t') : i = i' ∧ j = j' ∧ k = k' := by
  rw [Join_ok hl hm ht, Join_ok hl' hm' ht'] at h
  have h := congrArg Int32.toInt h
  rw [syllable_toInt hl.1 hm.1 (tailForm_lt ht), syllable_toInt hl'.1 hm'.1 (tailForm_lt ht')] at h
  have := hl.1; have := hm.1; have := tailForm_lt ht
  have := hl'.1; have := hm'.1; have := tailForm_lt ht'
  omega

/-- ㄱ (compatibility), ㅏ (conjoining), ㄺ (compatibility): the hypotheses are met. -/
example : LeadForm 0 0x3131 ∧ VowelForm 0 0x1161 ∧ TailForm 9 0x313A := by decide

/-! ## C03 -/

/-- C03: for any three runes `Join` gives a syllable or U+FFFD, and U+FFFD exactly when the first is
no leading consonant or the second no vowel. -/
theorem C03_join_total (l m t : Rune) :
    (Join l m t = 0xFFFD ∨ IsSyllable (Join l m t)) ∧
    (Join l m t = 0xFFFD ↔ (¬ ∃ i, LeadForm i l) ∨ (¬ ∃ j, VowelForm j m)) := by
  by_cases hl : ∃ i, LeadForm i l
  · by_cases hm : ∃ j, VowelForm j m
    · obtain ⟨i, hi⟩ := hl
      obtain ⟨j, hj⟩ := hm
      have key : ∃ k, k < 28 ∧ Join l m t = syllable i j k := by
        by_cases ht : ∃ k, TailForm k t
        · obtain ⟨k, hk⟩ := ht
          exact ⟨k, tailForm_lt hk, Join_ok hi hj hk⟩
        · refine ⟨0, by omega, ?_⟩
          rw [Join_badTail (fun k hk => ht ⟨k, hk⟩)]
          exact Join_ok hi hj (by decide)
      obtain ⟨k, hk, e⟩ := key
      have hs := syllable_isSyllable hi.1 hj.1 hk
      rw [e]
      refine ⟨Or.inr hs, fun h => ?_, fun h => ?_⟩
      · rw [h] at hs; exact absurd hs (by decide)
      · rcases h with h | h
        · exact absurd ⟨i, hi⟩ h
        · exact absurd ⟨j, hj⟩ h
    · have e := Join_badMedial (l := l) (t := t) (fun j hj => hm ⟨j, hj⟩)
      exact ⟨Or.inl e, fun _ => Or.inr hm, fun _ => e⟩
  · have e := Join_badLead (m := m) (t := t) (fun j hj => hl ⟨j, hj⟩)
    exact ⟨Or.inl e, fun _ => Or.inl hl, fun _ => e⟩

/-! ## C04 -/

/-- C04 as stated is false: `Join` accepts a third rune that is no trailing consonant. -/
theorem C04_join_rejects_bad_tail_fails :
    ¬ ∀ l m t : Rune, (¬ ∃ k, TailForm k t) → Join l m t = 0xFFFD := by
  intro h
  have : Join 0x1100 0x1161 0x3138 = 0xFFFD := h _ _ _ (by   -- ㄱ, ㅏ, ㄸ
    rintro ⟨k, hk⟩
    exact (by decide : ∀ k, k < 28 → ¬ TailForm k 0x3138) k (tailForm_lt hk) hk)
  exact absurd this (by decide)

/-- C04, what holds instead: an invalid third rune is always silently ignored. -/
theorem C04_join_bad_tail_partial (l m t : Rune) (ht : ¬ ∃ k, TailForm k t) :
    Join l m t = Join l m 0 :=
  Join_badTail (fun k hk => ht ⟨k, hk⟩)

example : ¬ ∃ k, TailForm k 0x41 := by   -- 'A' is no trailing consonant
  rintro ⟨k, hk⟩
  exact (by decide : ∀ k, k < 28 → ¬ TailForm k 0x41) k (tailForm_lt hk) hk

/-! ## C05 -/

/-- C05: `Split` is the Unicode decomposition. -/
theorem C05_split_unicode (s : Rune) (h : IsSyllable s) :
    (Split s).1.toInt = 0x1100 + (s.toInt - 0xAC00) / 588 ∧
    (Split s).2.1.toInt = 0x1161 + (s.toInt - 0xAC00) % 588 / 28 ∧
    (Split s).2.2.toInt =
      (if (s.toInt - 0xAC00) % 28 = 0 then 0 else 0x11A7 + (s.toInt - 0xAC00) % 28) ∧
    IsLead (Split s).1 = true ∧ IsMedial (Split s).2.1 = true ∧
    (IsTail (Split s).2.2 = true ∨ (Split s).2.2 = 0) := by
  obtain ⟨d, hd, _, _, h3⟩ := Split_toInt s
  obtain ⟨h1, h2⟩ := h
  rw [bmod_id (by omega) (by omega)] at hd
  rcases h3 with ⟨h0, e1, e2, e3⟩ | ⟨h0, _⟩
  · rw [← hd]
    refine ⟨e1, e2, e3, ?_, ?_, ?_⟩
    · rw [IsLead_iff]; omega
    · rw [IsMedial_iff]; omega
    · by_cases hz : d % 28 = 0
      · right; apply Int32.toInt_inj.1; rw [e3, if_pos hz]; rfl
      · left; rw [IsTail_iff, e3, if_neg hz]; omega
  · omega

/-- C05: distinct syllables have distinct decompositions. -/
theorem C05_split_injective (s s' : Rune) (h : IsSyllable s) (h' : IsSyllable s')
    (e : Split s = Split s') : s = s' := by
  have := (C01_split_join s h).1
  rw [e, (C01_split_join s' h').1] at this
  exact this.symm

/-! ## C06 -/

/-- C06: joining what `Split` returns gives the rune back exactly for syllables (and U+FFFD). -/
theorem C06_join_split_detects (c : Rune) :
    Join (Split c).1 (Split c).2.1 (Split c).2.2 = c ↔ IsSyllable c ∨ c = 0xFFFD := by
  constructor
  · intro h
    rcases (C03_join_total (Split c).1 (Split c).2.1 (Split c).2.2).1 with e | e
    · right; rw [← h, e]
    · left; rw [← h]; exact e
  · rintro (h | rfl)
    · exact (C01_split_join c h).1
    · decide

/-! ## C07 -/

/-- C07: `SplitCompat` gives compatibility letters of the right class which convert back to
`Split`'s parts; the third is 0 exactly for open syllables. -/
theorem C07_splitCompat (s : Rune) (h : IsSyllable s) :
    (0x3131 ≤ (SplitCompat s).1.toInt ∧ (SplitCompat s).1.toInt ≤ 0x314E) ∧
    (0x314F ≤ (SplitCompat s).2.1.toInt ∧ (SplitCompat s).2.1.toInt ≤ 0x3163) ∧
    ((SplitCompat s).2.2 = 0 ∨
      0x3131 ≤ (SplitCompat s).2.2.toInt ∧ (SplitCompat s).2.2.toInt ≤ 0x314E) ∧
    (Lead (SplitCompat s).1, Medial (SplitCompat s).2.1, Tail (SplitCompat s).2.2) = Split s ∧
    ((SplitCompat s).2.2 = 0 ↔ (s.toInt - 0xAC00) % 28 = 0) := by
  obtain ⟨i, j, k, hi, hj, hk, rfl⟩ := exists_syllable h
  rw [SplitCompat_syllable hi hj hk, Split_syllable hi hj hk, syllable_toInt hi hj hk]
  refine ⟨(by decide : ∀ i, i < 19 → (0x3131 ≤ (leadLetter i).toInt ∧ (leadLetter i).toInt ≤ 0x314E)) i hi,
    (by decide : ∀ j, j < 21 → (0x314F ≤ (cp (0x314F + j)).toInt ∧ (cp (0x314F + j)).toInt ≤ 0x3163)) j hj,
    (by decide : ∀ k, k < 28 → (tailLetter k = 0 ∨
      0x3131 ≤ (tailLetter k).toInt ∧ (tailLetter k).toInt ≤ 0x314E)) k hk, ?_, ?_⟩
  · simp only
    rw [(by decide +kernel : ∀ i, i < 19 → Lead (leadLetter i) = cp (0x1100 + i)) i hi,
      (by decide +kernel : ∀ j, j < 21 → Medial (cp (0x314F + j)) = cp (0x1161 + j)) j hj,
      (by decide +kernel : ∀ k, k < 28 → Tail (tailLetter k) = tailJamo k) k hk]
  · have := (by decide : ∀ k, k < 28 → (tailLetter k = 0 ↔ k = 0)) k hk
    simp only [this]; omega

/-! ## C08 -/

/-- C08: conjoining → compatibility → conjoining is the identity. -/
theorem C08_conjoining_roundtrip (r : Rune) :
    (IsLead r = true → Lead (CompatJamo r) = r) ∧
    (IsMedial r = true → Medial (CompatJamo r) = r) ∧
    (IsTail r = true → Tail (CompatJamo r) = r) := by
  refine ⟨fun h => ?_, fun h => ?_, fun h => ?_⟩
  · rw [IsLead_iff] at h
    exact forall_range (fun r => Lead (CompatJamo r) = r) 0x1100 19 (by decide) (by decide +kernel) r
      (by omega) (by omega)
  · rw [IsMedial_iff] at h
    exact forall_range (fun r => Medial (CompatJamo r) = r) 0x1161 21 (by decide) (by decide +kernel) r
      (by omega) (by omega)
  · rw [IsTail_iff] at h
    exact forall_range (fun r => Tail (CompatJamo r) = r) 0x11A8 27 (by decide) (by decide +kernel) r
      (by omega) (by omega)

example : IsLead LeadSS = true ∧ IsMedial MedialWE = true ∧ IsTail TailLH = true := by decide

/-! ## C09 -/

/-- C09: converting to a conjoining jamo loses nothing, all conversions are idempotent and fix 0. -/
theorem C09_compat_roundtrip (r : Rune) :
    (Lead r ≠ 0 → CompatJamo (Lead r) = CompatJamo r) ∧
    (Medial r ≠ 0 → CompatJamo (Medial r) = CompatJamo r) ∧
    (Tail r ≠ 0 → CompatJamo (Tail r) = CompatJamo r) ∧
    (0x3131 ≤ r.toInt ∧ r.toInt ≤ 0x3163 → CompatJamo r = r) ∧
    Lead (Lead r) = Lead r ∧ Medial (Medial r) = Medial r ∧ Tail (Tail r) = Tail r ∧
    CompatJamo (CompatJamo r) = CompatJamo r := by
  by_cases hr : inJamo r
  · exact forall_jamo (fun r => (Lead r ≠ 0 → CompatJamo (Lead r) = CompatJamo r) ∧
      (Medial r ≠ 0 → CompatJamo (Medial r) = CompatJamo r) ∧
      (Tail r ≠ 0 → CompatJamo (Tail r) = CompatJamo r) ∧
      (0x3131 ≤ r.toInt ∧ r.toInt ≤ 0x3163 → CompatJamo r = r) ∧
      Lead (Lead r) = Lead r ∧ Medial (Medial r) = Medial r ∧ Tail (Tail r) = Tail r ∧
      CompatJamo (CompatJamo r) = CompatJamo r) (by decide +kernel) (by decide +kernel) r hr
  · have h : ¬ (0x3131 ≤ r.toInt ∧ r.toInt ≤ 0x3163) := by unfold inJamo at hr; omega
    rw [Lead_outside hr, Medial_outside hr, Tail_outside hr, CompatJamo_outside hr]
    refine ⟨fun h => absurd rfl h, fun h => absurd rfl h, fun h => absurd rfl h,
      fun h' => absurd h' h, ?_⟩
    decide

theorem C09_zero : Lead 0 = 0 ∧ Medial 0 = 0 ∧ Tail 0 = 0 ∧ CompatJamo 0 = 0 := by decide

example : Lead GG ≠ 0 ∧ Tail GS ≠ 0 ∧ Medial WE ≠ 0 ∧ Lead GS = 0 ∧ Tail DD = 0 := by decide

/-! ## C10 -/

/-- C10: the classifiers are exactly the documented ranges, and are disjoint. -/
theorem C10_classifiers (r : Rune) :
    (IsHangul r = true ↔
      (0xAC00 ≤ r.toInt ∧ r.toInt ≤ 0xD7A3) ∨ (0x3131 ≤ r.toInt ∧ r.toInt ≤ 0x3163) ∨
      (0x1100 ≤ r.toInt ∧ r.toInt ≤ 0x1112) ∨ (0x1161 ≤ r.toInt ∧ r.toInt ≤ 0x1175) ∨
      (0x11A8 ≤ r.toInt ∧ r.toInt ≤ 0x11C2)) ∧
    ¬ (IsJaeum r = true ∧ IsMoeum r = true) ∧
    (IsSyllable r → IsJaeum r = false ∧ IsMoeum r = false) ∧
    (IsHangul r = true ↔ IsSyllable r ∨ IsJaeum r = true ∨ IsMoeum r = true) ∧
    (IsLead r = true ↔ 0x1100 ≤ r.toInt ∧ r.toInt ≤ 0x1112) ∧
    (IsMedial r = true ↔ 0x1161 ≤ r.toInt ∧ r.toInt ≤ 0x1175) ∧
    (IsTail r = true ↔ 0x11A8 ≤ r.toInt ∧ r.toInt ≤ 0x11C2) := by
  refine ⟨?_, ?_, ?_, IsHangul_iff r, IsLead_iff r, IsMedial_iff r, IsTail_iff r⟩
  · rw [IsHangul_iff, IsJaeum_iff, IsMoeum_iff]; omega
  · rw [IsJaeum_iff, IsMoeum_iff]; omega
  · intro h
    unfold IsSyllable at h
    rw [Bool.eq_false_iff, Bool.eq_false_iff, ne_eq, ne_eq, IsJaeum_iff, IsMoeum_iff]; omega

/-! ## C11 -/

/-- C11: the conversions succeed exactly on the letters of the right class, and give the letter's
other spelling. -/
theorem C11_conversions (r : Rune) :
    (CompatJamo r ≠ 0 ↔ IsJaeum r = true ∨ IsMoeum r = true) ∧
    (∀ v : Int, Spells v r ↔ CompatJamo r ≠ 0 ∧ (CompatJamo r).toInt = v) ∧
    (CompatJamo r ≠ 0 → IsJaeum (CompatJamo r) = IsJaeum r ∧ IsMoeum (CompatJamo r) = IsMoeum r) ∧
    (Lead r = 0 ∨ IsLead (Lead r) = true) ∧ (Medial r = 0 ∨ IsMedial (Medial r) = true) ∧
    (Tail r = 0 ∨ IsTail (Tail r) = true) ∧
    (Lead r ≠ 0 ∨ Tail r ≠ 0 → IsJaeum r = true) ∧ (Medial r ≠ 0 ↔ IsMoeum r = true) := by
  refine ⟨?_, fun v => spells_iff v r, ?_⟩
  all_goals by_cases hr : inJamo r
  · exact forall_jamo (fun r => (CompatJamo r ≠ 0 ↔ IsJaeum r = true ∨ IsMoeum r = true))
      (by decide +kernel) (by decide +kernel) r hr
  · rw [CompatJamo_outside hr]
    obtain ⟨_, _, _, h4, h5⟩ := not_inJamo_ranges hr
    simp [h4, h5]
  · exact forall_jamo (fun r =>
      (CompatJamo r ≠ 0 → IsJaeum (CompatJamo r) = IsJaeum r ∧ IsMoeum (CompatJamo r) = IsMoeum r) ∧
      (Lead r = 0 ∨ IsLead (Lead r) = true) ∧ (Medial r = 0 ∨ IsMedial (Medial r) = true) ∧
      (Tail r = 0 ∨ IsTail (Tail r) = true) ∧
      (Lead r ≠ 0 ∨ Tail r ≠ 0 → IsJaeum r = true) ∧ (Medial r ≠ 0 ↔ IsMoeum r = true))
      (by decide +kernel) (by decide +kernel) r hr
  · rw [CompatJamo_outside hr, Lead_outside hr, Medial_outside hr, Tail_outside hr]
    obtain ⟨_, _, _, h4, h5⟩ := not_inJamo_ranges hr
    simp [h4, h5]

/-- C11, the exact domain of `Lead` and `Tail`: the letters that can stand there. -/
theorem C11_lead_tail_domain (r : Rune) :
    (Lead r ≠ 0 ↔ ∃ i, LeadForm i r) ∧ (Tail r ≠ 0 ↔ ∃ k, 0 < k ∧ TailForm k r) := by
  constructor
  · rcases lead_cases r with ⟨i, h, e, _⟩ | ⟨h, _, e⟩
    · refine ⟨fun _ => ⟨i, h⟩, fun _ h0 => ?_⟩
      rw [h0, lead_zero] at e; exact absurd e (by simp)
    · exact ⟨fun h0 => absurd e h0, fun ⟨i, hi⟩ => absurd hi (h i)⟩
  · rcases tail_cases r with ⟨k, h, e, u⟩ | ⟨h, _, e⟩
    · constructor
      · intro h0
        refine ⟨k, ?_, h⟩
        rcases Nat.eq_zero_or_pos k with rfl | hk
        · rcases h with ⟨_, h2⟩ | ⟨h2, _⟩
          · have : r = 0 := Int32.toInt_inj.1 h2
            rw [this] at h0; exact absurd (by decide) h0
          · omega
        · exact hk
      · rintro ⟨k', hk', hf⟩ h0
        cases u k' hf
        rw [h0] at e
        have : tailIdx 0 = some 0 := by decide
        rw [this] at e
        have := Option.some.inj e
        omega
    · exact ⟨fun h0 => absurd e h0, fun ⟨i, _, hi⟩ => absurd hi (h i)⟩

/-! ## C12 -/

/-- C12: `SplitMultiElement` succeeds exactly on the 27 composite letters, in any spelling. -/
theorem C12_domain (r : Rune) :
    (SplitMultiElement r).isSome = true ↔ ∃ v, Spells v r ∧ IsComposite v := by
  have key : (SplitMultiElement (CompatJamo r)).isSome = true ↔
      CompatJamo r ≠ 0 ∧ IsComposite (CompatJamo r).toInt :=
    forall_compat (fun c => (SplitMultiElement c).isSome = true ↔ c ≠ 0 ∧ IsComposite c.toInt)
      (by decide +kernel) (by decide +kernel) r
  rw [SplitMultiElement_compat, key]
  constructor
  · rintro ⟨h0, h⟩
    exact ⟨_, compat_spells r h0, h⟩
  · rintro ⟨v, h1, h2⟩
    obtain ⟨h0, e⟩ := (spells_iff v r).1 h1
    exact ⟨h0, e ▸ h2⟩

/-- C12: the result is at least two compatibility letters of the same class as `r`, spelling in order
exactly the basic letters `r` is made of. -/
theorem C12_elements (r : Rune) (v : Int) (es : List Rune) (hv : Spells v r)
    (h : SplitMultiElement r = some es) :
    2 ≤ es.length ∧
    (∀ e ∈ es, 0x3131 ≤ e.toInt ∧ e.toInt ≤ 0x3163 ∧ IsJaeum e = IsJaeum r ∧
      IsMoeum e = IsMoeum r) ∧
    es.flatMap (fun e => basics e.toInt) = basics v := by
  obtain ⟨h0, e⟩ := (spells_iff v r).1 hv
  rw [SplitMultiElement_compat] at h
  have hcl := (C11_conversions r).2.2.1 h0
  rw [← e, ← hcl.1, ← hcl.2]
  have key := forall_compat (fun c => ∀ es ∈ SplitMultiElement c,
      2 ≤ es.length ∧
      (∀ e ∈ es, 0x3131 ≤ e.toInt ∧ e.toInt ≤ 0x3163 ∧ IsJaeum e = IsJaeum c ∧
        IsMoeum e = IsMoeum c) ∧
      es.flatMap (fun e => basics e.toInt) = basics c.toInt)
    (by decide +kernel) (by decide +kernel) r
  exact key es h

/-- C12: all spellings of a letter get the same answer. -/
theorem C12_spelling (v : Int) (r r' : Rune) (h : Spells v r) (h' : Spells v r') :
    SplitMultiElement r = SplitMultiElement r' := by
  rw [SplitMultiElement_compat r, SplitMultiElement_compat r', compat_eq_of_spells h h']

/-- ㄺ: trailing jamo U+11B0 and letter U+313A. -/
example : Spells 0x313A 0x11B0 ∧ Spells 0x313A 0x313A ∧ IsComposite 0x313A ∧
    SplitMultiElement 0x11B0 = some [0x3139, 0x3131] := by decide +kernel

/-! ## C13 -/

/-- C13 as stated is false: ㅞ is split into ㅜ and ㅔ, and ㅔ splits again. -/
theorem C13_fully_split_fails :
    ¬ ∀ (r : Rune) (es : List Rune), SplitMultiElement r = some es →
        ∀ e ∈ es, SplitMultiElement e = none := by
  intro h
  have := h 0x315E [0x315C, 0x3154] (by decide +kernel) 0x3154 (by simp)
  exact absurd this (by decide +kernel)

/-- C13, what holds: ㅞ is the only exception; every other composite letter is split into basic
letters, exactly those it is made of. -/
theorem C13_fully_split_partial (r : Rune) (es : List Rune) (hr : ¬ Spells 0x315E r)
    (h : SplitMultiElement r = some es) :
    (∀ e ∈ es, SplitMultiElement e = none) ∧ ∀ v, Spells v r → es.map Int32.toInt = basics v := by
  rw [SplitMultiElement_compat] at h
  have hne : CompatJamo r ≠ 0x315E := by
    intro he
    exact hr ((spells_iff _ r).2 (by rw [he]; decide))
  have key := forall_compat (fun c => c ≠ 0x315E → ∀ es ∈ SplitMultiElement c,
      (∀ e ∈ es, SplitMultiElement e = none) ∧ es.map Int32.toInt = basics c.toInt)
    (by decide +kernel) (by decide +kernel) r hne es h
  exact ⟨key.1, fun v hv => by rw [← compat_of_spells hv]; exact key.2⟩

example : ¬ Spells 0x315E 0x3159 ∧ SplitMultiElement 0x3159 = some [0x3157, 0x314F, 0x3163] := by
  decide +kernel  -- ㅙ

/-! ## C14 -/

/-- No operation of the history stores into a returned slice. -/
def NoWrites (ops : List Op) : Prop := ∀ op ∈ ops, ∀ h i v, op ≠ .write h i v

/-- C14 as stated is false: after `es, _ := SplitMultiElement(GG); es[0] = B` the next
`SplitMultiElement(GG)` and `Stroke(GG)` return something else. -/
theorem C14_history_independent_fails :
    ¬ ∀ (ops : List Op) (r : Rune),
        ((Pkg.init.run ops).step (.split r)).2 = .elements (SplitMultiElement r) ∧
        ((Pkg.init.run ops).step (.stroke r)).2 = .count (Stroke r) := by
  intro h
  have := (h [.split GG, .write 0 0 B] GG).2
  exact absurd this (by decide +kernel)

theorem mapGet_writeElem_ne (t : List (Rune × List Rune)) (k k' : Rune) (i : Nat) (v : Rune)
    (h : k ≠ k') : mapGet (writeElem t k i v) k' = mapGet t k' := by
  induction t with
  | nil => rfl
  | cons e t ih =>
    obtain ⟨a, es⟩ := e
    unfold writeElem
    by_cases ha : a = k
    · subst ha; simp [mapGet, h]
    · simp [ha, mapGet, ih]

/-- The letters whose slice the history stored into. -/
def Written (s : Pkg) : List Op → List Rune
  | [] => []
  | op :: ops =>
    (match op with
      | .write h _ _ => (s.handles[h]?).toList
      | _ => []) ++ Written (s.step op).1 ops

theorem run_untouched (s : Pkg) (ops : List Op) (k : Rune) (h : k ∉ Written s ops) :
    mapGet (s.run ops).tbl k = mapGet s.tbl k := by
  induction ops generalizing s with
  | nil => rfl
  | cons op ops ih =>
    unfold Written at h
    rw [List.mem_append, not_or] at h
    unfold Pkg.run
    rw [ih _ h.2]
    cases op with
    | split r => simp only [Pkg.step]; split <;> rfl
    | stroke r => rfl
    | append _ _ => rfl
    | write hd i v =>
      simp only [Pkg.step]
      split
      · next k' hk' =>
        have : k' ≠ k := by
          intro e
          apply h.1
          simp [hk', e]
        exact mapGet_writeElem_ne _ _ _ _ _ this
      · rfl

/-- C14, what holds for every history: the answer of `SplitMultiElement` for a letter changes only
if the caller stored into a slice returned for that same letter. -/
theorem C14_split_partial (ops : List Op) (r : Rune)
    (h : CompatJamo r ∉ Written Pkg.init ops) :
    ((Pkg.init.run ops).step (.split r)).2 = .elements (SplitMultiElement r) := by
  have e : SplitMultiElementT (Pkg.init.run ops).tbl r = SplitMultiElement r := by
    unfold SplitMultiElementT
    rw [run_untouched _ _ _ h]; rfl
  simp only [Pkg.step, e]
  cases SplitMultiElement r <;> rfl

theorem noWrites_written (s : Pkg) (ops : List Op) (h : NoWrites ops) : Written s ops = [] := by
  induction ops generalizing s with
  | nil => rfl
  | cons op ops ih =>
    unfold Written
    rw [ih _ (fun o ho => h o (by simp [ho]))]
    cases op with
    | write hd i v => exact absurd rfl (h _ (by simp) hd i v)
    | _ => rfl

theorem noWrites_tbl (s : Pkg) (ops : List Op) (h : NoWrites ops) : (s.run ops).tbl = s.tbl := by
  induction ops generalizing s with
  | nil => rfl
  | cons op ops ih =>
    unfold Pkg.run
    rw [ih _ (fun o ho => h o (by simp [ho]))]
    cases op with
    | split r => simp only [Pkg.step]; split <;> rfl
    | stroke r => rfl
    | append _ _ => rfl
    | write hd i v => exact absurd rfl (h _ (by simp) hd i v)

/-- C14, what holds: in every history without stores into returned slices (calls, reads and
`append`s in any number and order), both functions always give the same answer. -/
theorem C14_history_independent_partial (ops : List Op) (r : Rune) (h : NoWrites ops) :
    ((Pkg.init.run ops).step (.split r)).2 = .elements (SplitMultiElement r) ∧
    ((Pkg.init.run ops).step (.stroke r)).2 = .count (Stroke r) := by
  refine ⟨C14_split_partial ops r (by rw [noWrites_written _ _ h]; simp), ?_⟩
  simp only [Pkg.step]
  rw [noWrites_tbl _ _ h]
  rfl

theorem StrokeT_congr {t t' : List (Rune × List Rune)} {r : Rune}
    (h : ¬ IsSyllable r → mapGet t (CompatJamo r) = mapGet t' (CompatJamo r))
    (hs : IsSyllable r → mapGet t (SplitCompat r).1 = mapGet t' (SplitCompat r).1 ∧
      mapGet t (SplitCompat r).2.1 = mapGet t' (SplitCompat r).2.1 ∧
      mapGet t (SplitCompat r).2.2 = mapGet t' (SplitCompat r).2.2) :
    StrokeT t 2 r = StrokeT t' 2 r := by
  have letter : ∀ (n : Nat) (r : Rune), ¬ IsSyllable r →
      mapGet t (CompatJamo r) = mapGet t' (CompatJamo r) → StrokeT t (n + 1) r = StrokeT t' (n + 1) r := by
    intro n r hr e
    rw [StrokeT_letter _ _ _ hr, StrokeT_letter _ _ _ hr]
    simp only [SplitMultiElementT, compat_idem, e]
  by_cases hr : IsSyllable r
  · obtain ⟨h1, h2, h3⟩ := parts_not_syllable hr
    obtain ⟨e1, e2, e3⟩ := hs hr
    simp only [SplitCompat] at e1 e2 e3
    rw [StrokeT_syllable _ _ _ hr, StrokeT_syllable _ _ _ hr, letter 0 _ h1 e1, letter 0 _ h2 e2,
      letter 0 _ h3 e3]
  · exact letter 1 r hr (h hr)

/-- C14, what holds for every history: the answer of `Stroke` for a letter or syllable changes only if
the caller stored into a slice returned for that letter or one of the syllable's letters. -/
theorem C14_stroke_partial (ops : List Op) (r : Rune)
    (h : ¬ IsSyllable r → CompatJamo r ∉ Written Pkg.init ops)
    (hs : IsSyllable r → (SplitCompat r).1 ∉ Written Pkg.init ops ∧
      (SplitCompat r).2.1 ∉ Written Pkg.init ops ∧ (SplitCompat r).2.2 ∉ Written Pkg.init ops) :
    ((Pkg.init.run ops).step (.stroke r)).2 = .count (Stroke r) := by
  simp only [Pkg.step, Stroke]
  rw [StrokeT_congr (t' := multiElements) (fun hr => run_untouched _ _ _ (h hr))
    (fun hr => ⟨run_untouched _ _ _ (hs hr).1, run_untouched _ _ _ (hs hr).2.1,
      run_untouched _ _ _ (hs hr).2.2⟩)]

theorem mapGet_writeElem_length (t : List (Rune × List Rune)) (k k' : Rune) (i : Nat) (v : Rune) :
    (mapGet (writeElem t k i v) k').map List.length = (mapGet t k').map List.length := by
  induction t with
  | nil => rfl
  | cons e t ih =>
    obtain ⟨a, es⟩ := e
    unfold writeElem
    by_cases ha : a = k
    · subst ha; by_cases hk : a = k' <;> simp [mapGet, hk]
    · by_cases hk : a = k'
      · subst hk; simp [ha, mapGet]
      · simp [ha, mapGet, ih, hk]

theorem run_length (s : Pkg) (ops : List Op) (k : Rune) :
    (mapGet (s.run ops).tbl k).map List.length = (mapGet s.tbl k).map List.length := by
  induction ops generalizing s with
  | nil => rfl
  | cons op ops ih =>
    unfold Pkg.run
    rw [ih]
    cases op with
    | split r => simp only [Pkg.step]; split <;> rfl
    | stroke r => rfl
    | append _ _ => rfl
    | write hd i v =>
      simp only [Pkg.step]
      split
      · exact mapGet_writeElem_length _ _ _ _ _
      · rfl

/-- C14, what holds after every history whatsoever, stores included: which runes `SplitMultiElement`
splits, and into how many elements, never changes. -/
theorem C14_shape_partial (ops : List Op) (r : Rune) :
    ∃ es, ((Pkg.init.run ops).step (.split r)).2 = .elements es ∧
      es.map List.length = (SplitMultiElement r).map List.length := by
  refine ⟨SplitMultiElementT (Pkg.init.run ops).tbl r, ?_, run_length _ _ _⟩
  simp only [Pkg.step]
  cases SplitMultiElementT (Pkg.init.run ops).tbl r <;> rfl

/-- After a store into the slice of ㄲ, 각 still has its count but 깎 has not. -/
example : let ops := [Op.split GG, .write 0 0 B]
    (SplitCompat 0xAC01).1 ∉ Written Pkg.init ops ∧ (SplitCompat 0xAC01).2.1 ∉ Written Pkg.init ops ∧
    (SplitCompat 0xAC01).2.2 ∉ Written Pkg.init ops ∧
    ((Pkg.init.run ops).step (.stroke 0xAE4E)).2 ≠ .count (Stroke 0xAE4E) := by decide +kernel
example : NoWrites [.split GG, .append 0 A, .stroke WE] := by
  intro op ho h i v e; subst e; simp at ho
example : CompatJamo TailGS ∉ Written Pkg.init [.split GG, .write 0 0 B] := by decide +kernel

/-! ## C15 -/

/-- C15: a syllable's strokes are the sum of its parts', in both spellings. -/
theorem C15_stroke_syllable (s : Rune) (h : IsSyllable s) :
    Stroke s = Stroke (Split s).1 + Stroke (Split s).2.1 + Stroke (Split s).2.2 ∧
    Stroke s = Stroke (SplitCompat s).1 + Stroke (SplitCompat s).2.1 + Stroke (SplitCompat s).2.2 := by
  have e := Stroke_syllable h
  obtain ⟨h1, h2, h3⟩ := parts_not_syllable h
  refine ⟨e, ?_⟩
  rw [e, Stroke_compat h1, Stroke_compat h2, Stroke_compat h3]
  simp only [SplitCompat]

/-- C15: outside the syllables the count depends only on the letter, not on its spelling. -/
theorem C15_stroke_spelling (r : Rune) (h : ¬ IsSyllable r) : Stroke r = Stroke (CompatJamo r) :=
  Stroke_compat h

/-- C15: any two spellings of a letter have the same count. -/
theorem C15_stroke_same_letter (v : Int) (r r' : Rune) (h : Spells v r) (h' : Spells v r') :
    Stroke r = Stroke r' := by
  have ns : ∀ {r}, Spells v r → ¬ IsSyllable r := by
    rintro r ⟨⟨h1, h2⟩, h | ⟨i, hi, h, e⟩ | ⟨j, hj, h, e⟩ | ⟨k, hk, h, e⟩⟩ <;>
      (unfold IsSyllable; omega)
  rw [Stroke_compat (ns h), Stroke_compat (ns h'), compat_eq_of_spells h h']

/-! ## C16 -/

theorem stroke_letter_bounds (r : Rune) (h : ¬ IsSyllable r) :
    0 ≤ Stroke r ∧ Stroke r ≤ 8 ∧ (Stroke r = 0 ↔ CompatJamo r = 0) := by
  rw [Stroke_compat h]
  exact forall_compat (fun c => 0 ≤ Stroke c ∧ Stroke c ≤ 8 ∧ (Stroke c = 0 ↔ c = 0))
    (by decide +kernel) (by decide +kernel) r

/-- C16: `Stroke` is 0 exactly off Hangul, never negative, at most 8 for a letter and 20 for a
syllable. -/
theorem C16_stroke_positive (r : Rune) :
    (Stroke r = 0 ↔ IsHangul r = false) ∧ 0 ≤ Stroke r ∧ (¬ IsSyllable r → Stroke r ≤ 8) ∧
      Stroke r ≤ 20 := by
  by_cases h : IsSyllable r
  · have e := Stroke_syllable h
    have hh : IsHangul r = true := (IsHangul_iff r).2 (Or.inl h)
    obtain ⟨i, j, k, hi, hj, hk, rfl⟩ := exists_syllable h
    rw [Split_syllable hi hj hk] at e
    have a := (by decide +kernel : ∀ i, i < 19 →
      (1 ≤ Stroke (cp (0x1100 + i)) ∧ Stroke (cp (0x1100 + i)) ≤ 8)) i hi
    have b := (by decide +kernel : ∀ i, i < 21 →
      (1 ≤ Stroke (cp (0x1161 + i)) ∧ Stroke (cp (0x1161 + i)) ≤ 5)) j hj
    have c := (by decide +kernel : ∀ i, i < 28 →
      (0 ≤ Stroke (tailJamo i) ∧ Stroke (tailJamo i) ≤ 7)) k hk
    simp only at e
    rw [hh]
    refine ⟨⟨fun h0 => by omega, fun h0 => by simp at h0⟩, by omega, fun h' => absurd h h', by omega⟩
  · have hb := stroke_letter_bounds r h
    refine ⟨?_, hb.1, fun _ => hb.2.1, by omega⟩
    rw [hb.2.2, Bool.eq_false_iff, ne_eq, IsHangul_iff, not_or]
    have := (C11_conversions r).1
    constructor
    · intro h0
      exact ⟨h, fun h1 => absurd h0 (this.2 h1)⟩
    · rintro ⟨_, h1⟩
      by_cases h0 : CompatJamo r = 0
      · exact h0
      · exact absurd (this.1 h0) h1

/-- The bounds are attained: the syllable ㅃ+ㅙ+ㄿ has 20 strokes, the letter ㅃ has 8. -/
example : Stroke 0x3143 = 8 ∧ Stroke (syllable 8 10 14) = 20 := by decide +kernel

/-! ## C17 -/

/-- C17 as stated is false: ㅞ counts 2 although ㅜ counts 2 and ㅔ counts 3. -/
theorem C17_stroke_additive_fails :
    ¬ ∀ (r : Rune) (es : List Rune), SplitMultiElement r = some es →
        Stroke r = (es.map Stroke).sum := by
  intro h
  have := h 0x315E [0x315C, 0x3154] (by decide +kernel)
  exact absurd this (by decide +kernel)

/-- C17, what holds: for every letter other than ㅞ, the count is the sum over the returned
elements. -/
theorem C17_stroke_additive_partial (r : Rune) (es : List Rune) (hr : ¬ Spells 0x315E r)
    (h : SplitMultiElement r = some es) : Stroke r = (es.map Stroke).sum := by
  have hs : ∃ v, Spells v r := by
    obtain ⟨v, hv, _⟩ := (C12_domain r).1 (by rw [h]; rfl)
    exact ⟨v, hv⟩
  obtain ⟨v, hv⟩ := hs
  have hns : ¬ IsSyllable r := by
    intro hy
    have := not_inJamo_of_ge (r := r) (by unfold IsSyllable at hy; omega)
    exact absurd (CompatJamo_outside this) ((spells_iff v r).1 hv).1
  have hne : CompatJamo r ≠ 0x315E := by
    intro he
    exact hr ((spells_iff _ r).2 (by rw [he]; decide))
  rw [Stroke_compat hns]
  rw [SplitMultiElement_compat] at h
  exact forall_compat (fun c => c ≠ 0x315E → ∀ es ∈ SplitMultiElement c,
      Stroke c = (es.map Stroke).sum)
    (by decide +kernel) (by decide +kernel) r hne es h

/-- C17, against the independent stroke table: every letter other than ㅞ gets the sum over the basic
letters it is made of; ㅞ gets 3 strokes too few. -/
theorem C17_stroke_letters_partial (v : Int) (r : Rune) (h : Spells v r) :
    Stroke r = letterStrokes v - (if v = 0x315E then 3 else 0) := by
  have hc := (spells_iff v r).1 h
  have hns : ¬ IsSyllable r := by
    intro hy
    have := not_inJamo_of_ge (r := r) (by unfold IsSyllable at hy; omega)
    exact absurd (CompatJamo_outside this) hc.1
  rw [Stroke_compat hns, ← hc.2]
  exact forall_compat (fun c => c ≠ 0 →
      Stroke c = letterStrokes c.toInt - (if c.toInt = 0x315E then 3 else 0))
    (by decide +kernel) (by decide +kernel) r hc.1

end Hangul
