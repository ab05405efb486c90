import Verif.Lemmas.Chart
import Verif.Lemmas.Hanja
/-! Hanja of KS X 1001 and their readings, by kernel evaluation over the whole tables. -/
namespace KSort

/-- Go through both lists, sorted by first component, and pair what belongs to equal ones. -/
def joinIn (a : Nat × Nat) (k : List (Nat × Nat) → List (Nat × Nat)) : List (Nat × Nat) → List (Nat × Nat)
  | [] => []
  | b :: m => bif Nat.blt a.1 b.1 then k (b :: m) else bif Nat.beq a.1 b.1 then (b.2, a.2) :: k m
      else joinIn a k m

def join : List (Nat × Nat) → List (Nat × Nat) → List (Nat × Nat)
  | [] => fun _ => []
  | a :: l => joinIn a (join l)

theorem mem_join {l m : List (Nat × Nat)} (hl : l.Pairwise (fun a b => a.1 < b.1))
    (hm : m.Pairwise (fun a b => a.1 < b.1)) {u v c : Nat} (h1 : (u, v) ∈ l) (h2 : (u, c) ∈ m) :
    (c, v) ∈ join l m := by
  induction l generalizing m with
  | nil => simp at h1
  | cons a l ih =>
    rw [List.pairwise_cons] at hl
    simp only [join]
    induction m with
    | nil => simp at h2
    | cons b m ihm =>
      have hm0 := hm
      rw [List.pairwise_cons] at hm
      have ha : a = (u, v) ∨ a.1 < u := by
        rcases List.mem_cons.1 h1 with h | h
        · exact .inl h.symm
        · exact .inr (hl.1 _ h)
      have hb : b = (u, c) ∨ b.1 < u := by
        rcases List.mem_cons.1 h2 with h | h
        · exact .inl h.symm
        · exact .inr (hm.1 _ h)
      unfold joinIn
      cases hlt : Nat.blt a.1 b.1 with
      | true =>
        rw [Nat.blt_eq] at hlt
        refine ih hl.2 hm0 ?_ h2
        rcases List.mem_cons.1 h1 with h | h
        · rw [← h] at hlt
          rcases hb with hb | hb
          · rw [hb] at hlt; exact absurd hlt (Nat.lt_irrefl _)
          · simp only at hlt; omega
        · exact h
      | false =>
        cases heq : Nat.beq a.1 b.1 with
        | true =>
          rw [Nat.beq_eq] at heq
          simp only [cond_false, cond_true]
          rcases ha with ha | ha
          · have hb : b = (u, c) := by
              rcases hb with hb | hb
              · exact hb
              · rw [ha] at heq; simp only at heq; omega
            rw [ha, hb]
            exact List.mem_cons_self ..
          · refine List.mem_cons_of_mem _ (ih hl.2 hm.2 ?_ ?_)
            · rcases List.mem_cons.1 h1 with h | h
              · rw [← h] at ha; exact absurd ha (Nat.lt_irrefl _)
              · exact h
            · rcases List.mem_cons.1 h2 with h | h
              · rw [← h] at heq; simp only at heq; omega
              · exact h
        | false =>
          simp only [cond_false]
          refine ihm hm.2 ?_
          rcases List.mem_cons.1 h2 with h | h
          · rw [← h] at hlt heq
            rcases ha with ha | ha
            · rw [ha] at heq
              simp at heq
            · have : Nat.blt a.1 u = true := by rw [Nat.blt_eq]; exact ha
              rw [this] at hlt
              exact absurd hlt (by decide)
          · exact h

/-- First components strictly increasing, second components not decreasing. -/
def monoFrom : Nat → Nat → List (Nat × Nat) → Bool
  | _, _, [] => true
  | lo, v, a :: l => (Nat.ble (lo + 1) a.1 && Nat.ble v a.2) && monoFrom a.1 a.2 l

theorem monoFrom_spec : ∀ lo v l, monoFrom lo v l = true →
    (∀ e ∈ l, lo < e.1 ∧ v ≤ e.2) ∧ l.Pairwise (fun a b => a.1 < b.1 ∧ a.2 ≤ b.2)
  | _, _, [], _ => ⟨by simp, .nil⟩
  | lo, v, a :: l, h => by
    simp only [monoFrom, Bool.and_eq_true, Nat.ble_eq] at h
    obtain ⟨h1, h2⟩ := monoFrom_spec a.1 a.2 l h.2
    refine ⟨?_, List.pairwise_cons.2 ⟨h1, h2⟩⟩
    intro e he
    rcases List.mem_cons.1 he with rfl | he
    · omega
    · have := h1 e he; omega

theorem mono_of_mem {l : List (Nat × Nat)} {lo v : Nat} (h : monoFrom lo v l = true) {a b : Nat × Nat}
    (ha : a ∈ l) (hb : b ∈ l) (hab : a.1 < b.1) : a.2 ≤ b.2 := by
  have hp := (monoFrom_spec _ _ _ h).2
  obtain ⟨i, hi, rfl⟩ := List.getElem_of_mem ha
  obtain ⟨j, hj, rfl⟩ := List.getElem_of_mem hb
  have := List.pairwise_iff_getElem.1 hp
  rcases Nat.lt_trichotomy i j with hl | rfl | hl
  · exact (this i j hi hj hl).2
  · exact Nat.le_refl _
  · have := (this j i hj hi hl).1
    omega

end KSort

namespace Cp949
open KSort Spec

def inHanja (c : Nat) : Bool :=
  (Nat.ble 0xCA (c / 256) && Nat.ble (c / 256) 0xFD) && (Nat.ble 0xA1 (c % 256) && Nat.ble (c % 256) 0xFE)

theorem inHanja_iff (c : Nat) : inHanja c = true ↔ HanjaCode c := by
  simp only [inHanja, HanjaCode, Bool.and_eq_true, Nat.ble_eq]

def hanjaCodes : List Nat := codes 0xCA 52 (List.range' 0xA1 94)

theorem mem_hanjaCodes {c : Nat} (h : HanjaCode c) : c ∈ hanjaCodes := by
  obtain ⟨h1, h2⟩ := h
  exact mem_codes (by omega) (by omega) (by rw [List.mem_range'_1]; omega)

def hanjaPart : List (Nat × Nat) := rawFrom.filter fun e => inHanja e.1

theorem hanja_codes : eqKeys hanjaPart hanjaCodes = true := by decide +kernel

/-- In the hanja area there are unified and compatibility ideographs, and nowhere else. -/
theorem hanja_area : (rawFrom.all fun e => inHanja e.1 ==
    ((Nat.ble 0x3400 e.2 && Nat.ble e.2 0x9FA5) || (Nat.ble 0xF900 e.2 && Nat.ble e.2 0xFA2D))) = true := by
  decide +kernel

theorem hanja_chars : (hanjaPart.all fun e =>
    (Nat.ble 0x4E00 e.2 && Nat.ble e.2 0x9FA5) || (Nat.ble 0xF900 e.2 && Nat.ble e.2 0xFA0B)) = true := by
  decide +kernel

def plainHanja (e : Nat × Nat) : Bool :=
  inHanja e.2 && !(otherReading.any fun u => Nat.beq u e.1)

def plainPart : List (Nat × Nat) := rawTo.filter plainHanja

theorem reading_order : (force (bitsOf plainPart) fun s => plainPart.all (fun e => hasBit s e.1) &&
    (sortedFrom 0 (msort (Hanja.rawTable.filter fun e => hasBit s e.1)) &&
    monoFrom 0 0 (msort (join (msort (Hanja.rawTable.filter fun e => hasBit s e.1)) plainPart)))) = true := by
  decide +kernel

/-- The hanja whose reading 쵀 is not a syllable of KS X 1001. -/
def rareReading : List Nat := [0x555B, 0x797D, 0x49A4, 0x930A, 0x5550]

def isRare (u : Nat) : Bool := rareReading.any fun w => Nat.beq w u

/-- All other readings are. -/
theorem readings_ks : (force (bitsOf (ksPart.map fun e => (e.2, e.1))) fun s =>
    Hanja.rawTable.all fun e => hasBit s e.2 || isRare e.1) = true := by decide +kernel

/-- And those hanja are not in CP949. -/
theorem rare_outside : (rawFrom.all fun e => !(isRare e.2)) = true := by decide +kernel

attribute [local irreducible] rawFrom rawTo Hanja.rawTable

theorem reading_ks {c u v : Nat} (h : Chart c u) (hv : (u, v) ∈ Hanja.rawTable) :
    ∃ code, KsCode code ∧ Chart code v := by
  have key := readings_ks
  rw [force_eq] at key
  have h1 := List.all_eq_true.1 key (u, v) hv
  have h2 := List.all_eq_true.1 rare_outside (c, u) (chart_iff.1 h)
  simp only [Bool.not_eq_true'] at h2
  simp only [h2, Bool.or_false] at h1
  obtain ⟨⟨_, code⟩, he, rfl⟩ := List.mem_map.1 (bitsOf_mem h1)
  obtain ⟨⟨a, b⟩, he, hab⟩ := List.mem_map.1 he
  obtain ⟨hm, hk⟩ := List.mem_filter.1 he
  simp only [Prod.mk.injEq] at hab
  obtain ⟨rfl, rfl⟩ := hab
  exact ⟨a, (inKs_iff a).1 hk, chart_iff.2 hm⟩

theorem reading_mono {c c' u u' v v' : Nat} (h : Chart c u) (h' : Chart c' u') (hc : HanjaCode c)
    (hc' : HanjaCode c') (ho : u ∉ otherReading) (ho' : u' ∉ otherReading) (hv : (u, v) ∈ Hanja.rawTable)
    (hv' : (u', v') ∈ Hanja.rawTable) (hlt : c < c') : v ≤ v' := by
  have key := reading_order
  rw [force_eq, Bool.and_eq_true, Bool.and_eq_true] at key
  obtain ⟨k1, k2, k3⟩ := key
  have part : ∀ {c u v : Nat}, Chart c u → HanjaCode c → u ∉ otherReading → (u, v) ∈ Hanja.rawTable →
      (c, v) ∈ msort (join (msort (Hanja.rawTable.filter fun e => hasBit (bitsOf plainPart) e.1)) plainPart) := by
    intro c u v h hc ho hv
    have hm : (u, c) ∈ plainPart := by
      refine List.mem_filter.2 ⟨(mem_rawTo u c).2 h, ?_⟩
      simp only [plainHanja, Bool.and_eq_true, (inHanja_iff c).2 hc, true_and, Bool.not_eq_true']
      rw [Bool.eq_false_iff]
      intro hx
      obtain ⟨w, hw, e⟩ := List.any_eq_true.1 hx
      rw [Nat.beq_eq] at e
      rw [e] at hw
      exact ho hw
    refine (msort_perm _).mem_iff.2 (mem_join (sortedFrom_spec _ _ k2).2
      ((sortedFrom_spec _ _ rawTo_sorted).2.filter _) ((msort_perm _).mem_iff.2 ?_) hm)
    have hb := List.all_eq_true.1 k1 (u, c) hm
    exact List.mem_filter.2 ⟨hv, hb⟩
  exact mono_of_mem k3 (part h hc ho hv) (part h' hc' ho' hv') hlt

theorem hanja_full {c : Nat} (hc : HanjaCode c) : ∃ u, Chart c u := by
  have hm := mem_hanjaCodes hc
  rw [← eqKeys_eq _ _ hanja_codes] at hm
  obtain ⟨⟨c', u⟩, he, rfl⟩ := List.mem_map.1 hm
  exact ⟨u, chart_iff.2 (List.mem_filter.1 he).1⟩

theorem hanja_area_iff {c u : Nat} (h : Chart c u) :
    HanjaCode c ↔ (0x3400 ≤ u ∧ u ≤ 0x9FA5) ∨ (0xF900 ≤ u ∧ u ≤ 0xFA2D) := by
  have := List.all_eq_true.1 hanja_area _ (chart_iff.1 h)
  rw [beq_iff_eq, Bool.eq_iff_iff, Bool.or_eq_true, Bool.and_eq_true, Bool.and_eq_true, inHanja_iff, Nat.ble_eq,
    Nat.ble_eq, Nat.ble_eq, Nat.ble_eq] at this
  exact this

theorem hanja_char {c u : Nat} (h : Chart c u) (hc : HanjaCode c) :
    (0x4E00 ≤ u ∧ u ≤ 0x9FA5) ∨ (0xF900 ≤ u ∧ u ≤ 0xFA0B) := by
  have := List.all_eq_true.1 hanja_chars _ (List.mem_filter.2 ⟨chart_iff.1 h, (inHanja_iff c).2 hc⟩)
  rw [Bool.or_eq_true, Bool.and_eq_true, Bool.and_eq_true, Nat.ble_eq, Nat.ble_eq, Nat.ble_eq, Nat.ble_eq] at this
  exact this

end Cp949
