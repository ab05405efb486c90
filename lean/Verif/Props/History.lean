import Verif.Spec.History
import Verif.Props.Hangul
/-! C14, exactly: what `SplitMultiElement` answers after stores into its results. -/
namespace Hangul
open Go Spec

theorem mapGet_writeElem (t : List (Rune × List Rune)) (k k' : Rune) (i : Nat) (v : Rune) :
    mapGet (writeElem t k i v) k' = if k = k' then (mapGet t k').map (·.set i v) else mapGet t k' := by
  split
  · rename_i h
    subst h
    induction t with
    | nil => rfl
    | cons e t ih =>
      obtain ⟨a, es⟩ := e
      unfold writeElem
      by_cases ha : a = k
      · simp [ha, mapGet]
      · simp [ha, mapGet, ih]
  · rename_i h
    exact mapGet_writeElem_ne t k k' i v h

theorem set_mapIdx (es : List Rune) (j : Nat) (v : Rune) : es.set j v = es.mapIdx fun i x => if j = i then v else x := by
  apply List.ext_getElem?
  intro n
  rw [List.getElem?_mapIdx, List.getElem?_set]
  by_cases h : j = n
  · subst h
    by_cases hl : j < es.length
    · simp [hl]
    · simp [hl]
  · simp [h]

theorem run_stored (k : Rune) (ops : List Op) : ∀ s : Pkg,
    (∀ r, (SplitMultiElementT s.tbl r).isSome = (SplitMultiElement r).isSome) →
    mapGet (s.run ops).tbl k =
      (mapGet s.tbl k).map fun es => es.mapIdx fun i x => (lastStored k i s.handles ops).getD x := by
  induction ops with
  | nil =>
    intro s _
    simp only [Pkg.run, lastStored, Option.getD_none]
    cases mapGet s.tbl k with
    | none => rfl
    | some es => simp [List.mapIdx_eq_zipIdx_map]
  | cons op ops ih =>
    intro s hs
    have hh : (s.step op).1.handles = s.handles ++ handsOut op := by
      cases op with
      | split r =>
        have := hs r
        simp only [Pkg.step, handsOut]
        cases h : SplitMultiElementT s.tbl r with
        | none => rw [h] at this; simp [← this]
        | some es => rw [h] at this; simp [← this]
      | stroke r => simp [Pkg.step, handsOut]
      | append _ _ => simp [Pkg.step, handsOut]
      | write h i v => simp only [Pkg.step, handsOut]; split <;> simp
    have ht : ∀ k, mapGet (s.step op).1.tbl k =
        (mapGet s.tbl k).map fun es => es.mapIdx fun i x => (stores s.handles k i op).getD x := by
      intro k
      have same : mapGet s.tbl k = (mapGet s.tbl k).map fun es => es.mapIdx fun _ x => x := by
        cases mapGet s.tbl k with
        | none => rfl
        | some es => simp [List.mapIdx_eq_zipIdx_map]
      cases op with
      | split r =>
        simp only [Pkg.step, stores, Option.getD_none]
        split <;> exact same
      | stroke r => simpa only [Pkg.step, stores, Option.getD_none] using same
      | append _ _ => simpa only [Pkg.step, stores, Option.getD_none] using same
      | write h j v =>
        simp only [Pkg.step, stores]
        cases hh : s.handles[h]? with
        | none => simpa using same
        | some k0 =>
          simp only [mapGet_writeElem]
          by_cases hk : k0 = k
          · subst hk
            simp only [if_true, true_and]
            cases mapGet s.tbl k0 with
            | none => rfl
            | some es =>
              simp only [Option.map_some, Option.some.injEq, set_mapIdx]
              congr 1
              funext i x
              by_cases hj : j = i <;> simp [hj]
          · simpa [hk] using same
    have hs' : ∀ r, (SplitMultiElementT (s.step op).1.tbl r).isSome = (SplitMultiElement r).isSome := by
      intro r
      rw [← hs r]
      unfold SplitMultiElementT
      rw [ht]
      cases mapGet s.tbl (CompatJamo r) <;> rfl
    rw [Pkg.run, ih _ hs', ht, hh]
    cases mapGet s.tbl k with
    | none => rfl
    | some es =>
      simp only [Option.map_some, Option.some.injEq, List.mapIdx_mapIdx]
      congr 1
      funext i x
      simp only [Function.comp, lastStored]
      cases lastStored k i (s.handles ++ handsOut op) ops <;> rfl

/-- C14, what `SplitMultiElement` answers after every history (partial: this is not the same answer always): the elements of the
letter, each replaced by what the program stored last in its place in any slice it was handed for this letter. -/
theorem C14_stored_partial (ops : List Op) (r : Rune) :
    ((Pkg.init.run ops).step (.split r)).2 =
      .elements ((SplitMultiElement r).map fun es => es.mapIdx fun i x => (lastStored (CompatJamo r) i [] ops).getD x) := by
  have h := run_stored (CompatJamo r) ops Pkg.init fun _ => rfl
  have e : SplitMultiElementT (Pkg.init.run ops).tbl r =
      (SplitMultiElement r).map fun es => es.mapIdx fun i x => (lastStored (CompatJamo r) i [] ops).getD x := h
  simp only [Pkg.step, e]
  cases SplitMultiElement r <;> rfl

/-- C14 (partial as above): after every history, `Stroke` of a syllable is the sum of what `Stroke` then gives for its parts. -/
theorem C14_sum_partial (ops : List Op) (s : Rune) (h : IsSyllable s) (a b c : Int)
    (ha : ((Pkg.init.run ops).step (.stroke (Split s).1)).2 = .count a)
    (hb : ((Pkg.init.run ops).step (.stroke (Split s).2.1)).2 = .count b)
    (hc : ((Pkg.init.run ops).step (.stroke (Split s).2.2)).2 = .count c) :
    ((Pkg.init.run ops).step (.stroke s)).2 = .count (a + b + c) := by
  obtain ⟨h1, h2, h3⟩ := parts_not_syllable h
  simp only [Pkg.step, Out.count.injEq] at ha hb hc ⊢
  rw [StrokeT_letter _ _ _ h1] at ha
  rw [StrokeT_letter _ _ _ h2] at hb
  rw [StrokeT_letter _ _ _ h3] at hc
  rw [StrokeT_syllable _ _ _ h, StrokeT_letter _ _ _ h1, StrokeT_letter _ _ _ h2, StrokeT_letter _ _ _ h3, ha, hb, hc]

/-- C14 applies: two stores into slices of ㄳ, the second of them through a slice handed out later. -/
example : ((Pkg.init.run [.split GS, .split TailGS, .write 0 1 B, .write 1 1 H]).step (.split GS)).2 =
    .elements (some [G, H]) ∧
    lastStored GS 1 [] [.split GS, .split TailGS, .write 0 1 B, .write 1 1 H] = some H ∧ IsSyllable 0xAC01 := by
  decide +kernel

end Hangul
