import Verif.Props.HanjaChart
import Verif.Spec.InitialLaw
/-! Property theorems C115: the initial-sound law in converted texts. -/
namespace Hanja
open Go Spec Hangul Cp949 KSort

private def areaPart : List (Nat × Nat) := rawTo.filter fun e => inHanja e.2

private theorem readings_law : (force (bitsOf areaPart) fun s => areaPart.all (fun e => hasBit s e.1) &&
    (sortedFrom 0 (msort (rawTable.filter fun e => hasBit s e.1)) &&
    (join (msort (rawTable.filter fun e => hasBit s e.1)) areaPart).all fun e => barred e.2 == inBarredRange e.1)) = true := by
  decide +kernel

attribute [local irreducible] fromTable toTable rawFrom rawTo rawTable table

private theorem reading_law {c u v : Nat} (h : Chart c u) (hc : HanjaCode c) (hv : (u, v) ∈ rawTable) :
    barred v = inBarredRange c := by
  have key := readings_law
  rw [force_eq, Bool.and_eq_true, Bool.and_eq_true] at key
  obtain ⟨k1, k2, k3⟩ := key
  have hm : (u, c) ∈ areaPart := List.mem_filter.2 ⟨(mem_rawTo u c).2 h, (inHanja_iff c).2 hc⟩
  have hb := List.all_eq_true.1 k1 (u, c) hm
  have := List.all_eq_true.1 k3 _ (mem_join (sortedFrom_spec _ _ k2).2 ((sortedFrom_spec _ _ rawTo_sorted).2.filter _)
    ((msort_perm _).mem_iff.2 (List.mem_filter.2 ⟨hv, hb⟩)) hm)
  exact beq_iff_eq.1 this

/-- What one character becomes. -/
private theorem conv_law {c d : Char} (hr : InRepertoire c) (h : conv (runeOf c) = runeOf d) :
    (isSyl d.toNat = true ↔ isSyl c.toNat = true ∨ IsIdeograph c.toNat) ∧
    (barred d.toNat = true ↔ barred c.toNat = true ∨
      ∃ code, HanjaCode code ∧ inBarredRange code = true ∧ Chart code c.toNat ∧ c.toNat < 0xF900) := by
  have noSyl : IsIdeograph c.toNat → isSyl c.toNat = false := by
    intro hi
    unfold IsIdeograph at hi
    simp only [List.mem_cons, List.not_mem_nil, or_false] at hi
    rw [isSyl, Bool.and_eq_false_iff]
    simp only [← Bool.not_eq_true, Nat.ble_eq]
    omega
  by_cases hh : IsHanja (runeOf c) = true
  · have hi : IsIdeograph c.toNat := by rw [C22_isHanja, runeOf_toNat] at hh; exact hh
    have hn := noSyl hi
    have hb : barred c.toNat = false := by rw [barred, hn, Bool.false_and]
    rcases conv_step c d h with rfl | ⟨_, _, h3, h4, h5, _⟩
    · have := conv_not_hanja (runeOf d)
      rw [h, hh] at this
      cases this
    · refine ⟨⟨fun _ => .inr hi, fun _ => ?_⟩, ?_⟩
      · rw [isSyl, Bool.and_eq_true, Nat.ble_eq, Nat.ble_eq]; omega
      · rw [hb]
        have hi' := hi
        unfold IsIdeograph at hi'
        simp only [List.mem_cons, List.not_mem_nil, or_false] at hi'
        rcases hr with hr | ⟨code, hch⟩
        · omega
        · have hc := (hanja_area_iff hch).2 (by omega)
          have hu := hanja_char hch hc
          rw [reading_law hch hc (reading_mem hh h5)]
          constructor
          · intro hx
            exact .inr ⟨code, hc, hx, hch, by omega⟩
          · rintro (hx | ⟨code', _, hx, hch', _⟩)
            · cases hx
            · rw [char_unique hch hch']
              exact hx
  · have hi : ¬ IsIdeograph c.toNat := by rw [C22_isHanja, runeOf_toNat] at hh; exact hh
    rw [conv_of_not_hanja (Bool.eq_false_iff.2 hh)] at h
    rw [← runeOf_inj h]
    refine ⟨⟨.inl, fun hx => hx.resolve_right hi⟩, ⟨.inl, fun hx => hx.resolve_right ?_⟩⟩
    rintro ⟨code, hc, _, hch, hu⟩
    have := hanja_char hch hc
    exact hi (.inr (.inl (by omega)))

/-- C115, exactly when a converted text breaks the law (partial: it should only if it did so before): for every text that CP949 can
represent, if in it a run of hanja and syllables begins with a syllable that breaks the law, or with a hanja that stands in one of
the ranges `barredRanges` of KS X 1001 and is not a compatibility ideograph. -/
theorem C115_law_iff_partial (cs : List Char) (h : ∀ c ∈ cs, InRepertoire c) :
    ∃ ds : List Char, Convert (utf8 cs) = utf8 ds ∧
      (BreaksLaw ds ↔ ∃ pre c post, cs = pre ++ c :: post ∧
        (∀ d ∈ pre.getLast?, ¬ (isSyl d.toNat = true ∨ IsIdeograph d.toNat)) ∧
        (barred c.toNat = true ∨
          ∃ code, HanjaCode code ∧ inBarredRange code = true ∧ Chart code c.toNat ∧ c.toNat < 0xF900)) := by
  have hg : ∃ g : Char → Char, ∀ c, conv (runeOf c) = runeOf (g c) :=
    ⟨fun c => (conv_char c).choose, fun c => (conv_char c).choose_spec⟩
  obtain ⟨g, hg⟩ := hg
  refine ⟨cs.map g, Convert_chars (runes_utf8 cs) (by simp [List.map_map, Function.comp_def, hg]), ⟨?_, ?_⟩⟩
  · rintro ⟨pre, c, post, e, hp, hb⟩
    obtain ⟨p, q, rfl, rfl, hq⟩ := List.map_eq_append_iff.1 e
    obtain ⟨a, q, rfl, rfl, rfl⟩ := List.map_eq_cons_iff.1 hq
    refine ⟨p, a, q, rfl, fun d hd hx => ?_, (conv_law (h a (by simp)) (hg a)).2.1 hb⟩
    have hm : d ∈ p := List.mem_of_getLast? hd
    have := hp (g d) (by rw [List.getLast?_map, Option.mem_def, Option.mem_def.1 hd]; rfl)
    rw [(conv_law (h d (by simp [hm])) (hg d)).1.2 hx] at this
    cases this
  · rintro ⟨pre, c, post, rfl, hp, hb⟩
    refine ⟨pre.map g, g c, post.map g, by simp, fun d hd => ?_, (conv_law (h c (by simp)) (hg c)).2.2 hb⟩
    rw [List.getLast?_map, Option.mem_def, Option.map_eq_some_iff] at hd
    obtain ⟨a, ha, rfl⟩ := hd
    have hm : a ∈ pre := List.mem_of_getLast? ha
    rw [Bool.eq_false_iff]
    intro hx
    exact hp a ha ((conv_law (h a (by simp [hm])) (hg a)).1.1 hx)

/-- C115 is false: 女子 becomes 녀자 (it is written 여자), 異 becomes 리 (이). -/
theorem C115_law_fails :
    Convert (utf8 ['女', '子']) = utf8 ['녀', '자'] ∧ BreaksLaw ['녀', '자'] ∧
    Convert (utf8 ['異']) = utf8 ['리'] ∧ BreaksLaw ['리'] := by
  have hm : (rawTable.any fun e => Nat.beq e.1 0x5973 && Nat.beq e.2 0xB140) = true ∧
      (rawTable.any fun e => Nat.beq e.1 0x5B50 && Nat.beq e.2 0xC790) = true ∧
      (rawTable.any fun e => Nat.beq e.1 0x7570 && Nat.beq e.2 0xB9AC) = true := by decide +kernel
  have conv1 : ∀ {c d : Char}, (rawTable.any fun e => Nat.beq e.1 c.toNat && Nat.beq e.2 d.toNat) = true →
      conv (runeOf c) = runeOf d := by
    intro c d h
    obtain ⟨⟨a, b⟩, he, h⟩ := List.any_eq_true.1 h
    simp only [Bool.and_eq_true, Nat.beq_eq] at h
    rw [h.1, h.2] at he
    have : mapGet table (runeOf c) = some (runeOf d) := by
      refine (lookup_iff _ _).2 ?_
      unfold table
      exact List.mem_map.2 ⟨_, he, rfl⟩
    simp [conv, this]
  have h1 : Convert (utf8 ['女', '子']) = utf8 ['녀', '자'] := by
    apply Convert_chars (runes_utf8 _)
    simp only [List.map_cons, List.map_nil, conv1 (c := '女') (d := '녀') hm.1, conv1 (c := '子') (d := '자') hm.2.1]
  have h2 : Convert (utf8 ['異']) = utf8 ['리'] := by
    apply Convert_chars (runes_utf8 _)
    simp only [List.map_cons, List.map_nil, conv1 (c := '異') (d := '리') hm.2.2]
  exact ⟨h1, ⟨[], '녀', ['자'], rfl, by simp, by decide⟩, h2, ⟨[], '리', [], rfl, by simp, by decide⟩⟩

/-- A text to which it applies: 女 stands in a range, 子 does not. -/
example : (∀ c ∈ ['女', '子'], InRepertoire c) ∧ inBarredRange 0xD2B3 = true ∧ inBarredRange 0xEDAD = false ∧ ¬ BreaksLaw ['여', '자'] := by
  refine ⟨?_, by decide, by decide, ?_⟩
  · intro c hc
    simp only [List.mem_cons, List.not_mem_nil, or_false] at hc
    rcases hc with rfl | rfl
    · exact .inr ⟨0xD2B3, by unfold Chart; decide +kernel⟩
    · exact .inr ⟨0xEDAD, by unfold Chart; decide +kernel⟩
  · rintro ⟨pre, c, post, e, _, hb⟩
    have : c ∈ ['여', '자'] := by rw [e]; simp
    simp only [List.mem_cons, List.not_mem_nil, or_false] at this
    rcases this with rfl | rfl
    · exact absurd hb (by decide)
    · exact absurd hb (by decide)

end Hanja
