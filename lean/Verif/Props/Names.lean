import Verif.Props.Hangul
import Verif.Hangul.ConstNames
import Verif.Spec.Unicode
/-! Property theorems C75: constants and conversions against the Unicode character names. -/
namespace Props
open Go Spec Hangul

/-- `r` is the character that the list calls `x`. -/
def Named (l : List (Nat × String)) (r : Rune) (x : String) : Prop := ∃ n, (n, x) ∈ l ∧ r.toInt = n

/-- What the names of `T` make of a character with a name in `D`. -/
def byName (D T : List (Nat × String)) (r : Rune) : Rune :=
  match D.find? (fun d => decide (r.toInt = d.1)) with
  | some d =>
    match T.find? (fun t => t.2 == d.2) with
    | some t => Int32.ofNat t.1
    | none => 0
  | none => 0

/-- No character and no name twice, codes positive. -/
def proper (l : List (Nat × String)) : Bool :=
  l.all fun a => decide (0 < a.1 ∧ a.1 < 2147483648) && l.all fun b => (a.1 == b.1) == (a.2 == b.2)

theorem find_eq {α : Type} {l : List α} {p : α → Bool} {a : α} (ha : a ∈ l) (hp : p a = true)
    (hu : ∀ b ∈ l, p b = true → b = a) : l.find? p = some a := by
  cases h : l.find? p with
  | none => exact absurd hp (by simpa using List.find?_eq_none.1 h a ha)
  | some b => rw [hu b (List.mem_of_find?_eq_some h) (List.find?_some h)]

theorem byName_iff {D T : List (Nat × String)} (hD : (D.all fun a => D.all fun b => a.1 != b.1 || a.2 == b.2) = true)
    (hT : proper T = true) (r c : Rune) :
    (byName D T r = c ∧ c ≠ 0) ↔ ∃ x, Named D r x ∧ Named T c x := by
  have dU : ∀ a ∈ D, ∀ b ∈ D, a.1 = b.1 → a = b := by
    intro a ha b hb h
    have := List.all_eq_true.1 (List.all_eq_true.1 hD a ha) b hb
    simp only [bne_iff_ne, ne_eq, Bool.or_eq_true, beq_iff_eq] at this
    exact Prod.ext h (this.resolve_left (fun x => x h))
  unfold proper at hT
  have tP : ∀ a ∈ T, (0 < a.1 ∧ a.1 < 2147483648) ∧ ∀ b ∈ T, (a.1 = b.1 ↔ a.2 = b.2) := by
    intro a ha
    have := List.all_eq_true.1 hT a ha
    rw [Bool.and_eq_true, decide_eq_true_eq] at this
    refine ⟨this.1, fun b hb => ?_⟩
    have := List.all_eq_true.1 this.2 b hb
    rw [beq_iff_eq, Bool.eq_iff_iff, beq_iff_eq, beq_iff_eq] at this
    exact this
  constructor
  · rintro ⟨h, h0⟩
    unfold byName at h
    cases hd : D.find? (fun d => decide (r.toInt = d.1)) with
    | none => rw [hd] at h; exact absurd h.symm h0
    | some d =>
      rw [hd] at h
      simp only at h
      cases ht : T.find? (fun t => t.2 == d.2) with
      | none => rw [ht] at h; exact absurd h.symm h0
      | some t =>
        rw [ht] at h
        simp only at h
        have h1 := List.find?_some hd
        have h2 := List.find?_some ht
        have h3 := List.mem_of_find?_eq_some ht
        simp only [decide_eq_true_eq, beq_iff_eq] at h1 h2
        refine ⟨d.2, ⟨d.1, List.mem_of_find?_eq_some hd, h1⟩, t.1, by rw [← h2]; exact h3, ?_⟩
        rw [← h, toInt_ofNat_lt (tP t h3).1.2]
  · rintro ⟨x, ⟨n, hn, hr⟩, m, hm, hc⟩
    have e1 : D.find? (fun d => decide (r.toInt = d.1)) = some (n, x) :=
      find_eq hn (by simpa using hr) (fun b hb h => dU b hb _ hn (by
        simp only [decide_eq_true_eq] at h
        simp only; omega))
    have e2 : T.find? (fun t => t.2 == x) = some (m, x) :=
      find_eq hm (by simp) (fun b hb h => Prod.ext (((tP b hb).2 _ hm).2 (by simpa using h)) (by simpa using h))
    have hb := (tP _ hm).1
    simp only at hb
    unfold byName
    rw [e1]
    simp only
    rw [e2]
    simp only
    refine ⟨(rune_eq_ofNat hc hb.2).symm, fun h0 => ?_⟩
    rw [h0] at hc
    simp at hc
    omega

/-- C75: each exported constant of constant.go is the character its comment names, in the order of the standard, and
there is one for each character. -/
theorem C75_constants :
    namesLetter.map (fun e => (e.1.toInt, e.2)) = letterNames.map (fun e => ((e.1 : Int), e.2)) ∧
    namesChoseong.map (fun e => (e.1.toInt, e.2)) = choseongNames.map (fun e => ((e.1 : Int), e.2)) ∧
    namesJungseong.map (fun e => (e.1.toInt, e.2)) = jungseongNames.map (fun e => ((e.1 : Int), e.2)) ∧
    namesJongseong.map (fun e => (e.1.toInt, e.2)) = jongseongNames.map (fun e => ((e.1 : Int), e.2)) ∧
    Named letterNames NG "IEUNG" := by
  refine ⟨?_, ?_, ?_, ?_, 0x3147, ?_, ?_⟩ <;> decide +kernel

theorem byName_outside {D T : List (Nat × String)}
    (hD : (D.all fun d => decide ((0x1100 ≤ d.1 ∧ d.1 < 0x1200) ∨ (0x3130 ≤ d.1 ∧ d.1 < 0x3190))) = true) {r : Rune}
    (hr : ¬ inJamo r) : byName D T r = 0 := by
  have : D.find? (fun d => decide (r.toInt = d.1)) = none := by
    rw [List.find?_eq_none]
    intro d hd
    have := List.all_eq_true.1 hD d hd
    rw [decide_eq_true_eq] at this
    unfold inJamo at hr
    rw [decide_eq_true_eq]
    omega
  unfold byName
  rw [this]

/-- C75: `CompatJamo` gives the letter of the same name, for the characters that have one, and 0 for all others. -/
theorem C75_compat (r c : Rune) :
    (CompatJamo r = c ∧ c ≠ 0) ↔
      ∃ x, Named (letterNames ++ choseongNames ++ jungseongNames ++ jongseongNames) r x ∧ Named letterNames c x := by
  rw [← byName_iff (by decide +kernel) (by decide +kernel)]
  suffices CompatJamo r = byName (letterNames ++ choseongNames ++ jungseongNames ++ jongseongNames) letterNames r by
    rw [this]
  by_cases hr : inJamo r
  · exact forall_jamo (fun r => CompatJamo r =
      byName (letterNames ++ choseongNames ++ jungseongNames ++ jongseongNames) letterNames r)
      (by decide +kernel) (by decide +kernel) r hr
  · rw [CompatJamo_outside hr, byName_outside (by decide +kernel) hr]

/-- C75: so do `Lead`, `Medial` and `Tail`, from the letters and the conjoining jamo of their own kind. -/
theorem C75_conjoining (r c : Rune) :
    ((Lead r = c ∧ c ≠ 0) ↔ ∃ x, Named (letterNames ++ choseongNames) r x ∧ Named choseongNames c x) ∧
    ((Medial r = c ∧ c ≠ 0) ↔ ∃ x, Named (letterNames ++ jungseongNames) r x ∧ Named jungseongNames c x) ∧
    ((Tail r = c ∧ c ≠ 0) ↔ ∃ x, Named (letterNames ++ jongseongNames) r x ∧ Named jongseongNames c x) := by
  rw [← byName_iff (by decide +kernel) (by decide +kernel), ← byName_iff (by decide +kernel) (by decide +kernel),
    ← byName_iff (by decide +kernel) (by decide +kernel)]
  suffices Lead r = byName (letterNames ++ choseongNames) choseongNames r ∧
      Medial r = byName (letterNames ++ jungseongNames) jungseongNames r ∧
      Tail r = byName (letterNames ++ jongseongNames) jongseongNames r by
    rw [this.1, this.2.1, this.2.2]
    simp
  by_cases hr : inJamo r
  · exact forall_jamo (fun r => Lead r = byName (letterNames ++ choseongNames) choseongNames r ∧
      Medial r = byName (letterNames ++ jungseongNames) jungseongNames r ∧
      Tail r = byName (letterNames ++ jongseongNames) jongseongNames r)
      (by decide +kernel) (by decide +kernel) r hr
  · rw [Lead_outside hr, Medial_outside hr, Tail_outside hr, byName_outside (by decide +kernel) hr,
      byName_outside (by decide +kernel) hr, byName_outside (by decide +kernel) hr]
    simp

/-- The name of a consonant that consists of those named `x` and `y`. -/
def DoubleName (x y z : String) : Prop := z = x ++ "-" ++ y ∨ (x = y ∧ z = "SSANG" ++ x)

instance (x y z) : Decidable (DoubleName x y z) := by unfold DoubleName; infer_instance

/-- What `z` begins with if its first part is named `x`. -/
def firstPart (x z : String) : Bool := (x.toList ++ ['-']).isPrefixOf z.toList || z.toList == "SSANG".toList ++ x.toList

theorem firstPart_of {x y z : String} (h : DoubleName x y z) : firstPart x z = true := by
  unfold firstPart
  rcases h with rfl | ⟨_, rfl⟩
  · rw [String.toList_append, String.toList_append, Bool.or_eq_true]
    exact .inl (List.isPrefixOf_iff_prefix.2 (List.prefix_append _ _))
  · rw [String.toList_append, Bool.or_eq_true]
    exact .inr (beq_self_eq_true _)

def splitsAsNamed : Bool :=
  (letterNames.filter fun e => decide (e.1 ≤ 0x314E)).all fun e =>
    (match SplitMultiElement (Int32.ofNat e.1) with
      | some es => letterNames.any fun a => letterNames.any fun b =>
          es == [Int32.ofNat a.1, Int32.ofNat b.1] && decide (DoubleName a.2 b.2 e.2)
      | none => true) &&
    letterNames.all fun a => bif firstPart a.2 e.2 then letterNames.all fun b =>
      if DoubleName a.2 b.2 e.2 then SplitMultiElement (Int32.ofNat e.1) == some [Int32.ofNat a.1, Int32.ofNat b.1] else true
      else true

theorem splitsAsNamed_ok : splitsAsNamed = true := by decide +kernel

/-- C75: `SplitMultiElement` takes a consonant apart as its name says (`RIEUL-KIYEOK`, `SSANGKIYEOK`), and leaves it
whole if its name is not of this form. -/
theorem C75_elements (r : Rune) (z : String) (h : Named letterNames r z) (hr : r.toInt ≤ 0x314E) (es : List Rune) :
    SplitMultiElement r = some es ↔
      ∃ a b x y, es = [a, b] ∧ Named letterNames a x ∧ Named letterNames b y ∧ DoubleName x y z := by
  obtain ⟨n, hn, hrn⟩ := h
  have hb : ∀ e ∈ letterNames, e.1 < 2147483648 := by decide +kernel
  have hk := List.all_eq_true.1 splitsAsNamed_ok (n, z) (List.mem_filter.2 ⟨hn, by simp; omega⟩)
  rw [Bool.and_eq_true] at hk
  simp only at hk
  rw [rune_eq_ofNat hrn (hb _ hn)]
  constructor
  · intro h
    have h1 := hk.1
    rw [h] at h1
    simp only [List.any_eq_true, Bool.and_eq_true, decide_eq_true_eq, beq_iff_eq] at h1
    obtain ⟨a, ha, b, hb', h2, h3⟩ := h1
    exact ⟨_, _, a.2, b.2, h2, ⟨a.1, ha, toInt_ofNat_lt (hb _ ha)⟩, ⟨b.1, hb', toInt_ofNat_lt (hb _ hb')⟩, h3⟩
  · rintro ⟨a, b, x, y, rfl, ⟨i, hi, hi'⟩, ⟨j, hj, hj'⟩, h3⟩
    have := List.all_eq_true.1 hk.2 _ hi
    simp only [firstPart_of h3, cond_true] at this
    have := List.all_eq_true.1 this _ hj
    rw [if_pos h3, beq_iff_eq] at this
    rw [this, rune_eq_ofNat hi' (hb _ hi), rune_eq_ofNat hj' (hb _ hj)]

example : Named letterNames LG "RIEUL-KIYEOK" ∧ LG.toInt ≤ 0x314E ∧ DoubleName "RIEUL" "KIYEOK" "RIEUL-KIYEOK" ∧
    Named choseongNames LeadG "KIYEOK" ∧ Named jongseongNames TailG "KIYEOK" :=
  ⟨⟨0x313A, by decide +kernel, by decide⟩, by decide, .inl (by decide +kernel), ⟨0x1100, by decide +kernel, by decide⟩,
    0x11A8, by decide +kernel, by decide⟩

end Props
