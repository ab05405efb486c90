import Verif.Props.Hangul
import Verif.Spec.HangulConc
/-! Property theorems C95: `SplitMultiElement` and `Stroke` in goroutines. -/
namespace Props
open Go Spec Hangul

/-! ## A call of `Stroke` -/

/-- The strokes of a list of letters. -/
def strokesOf (es : List Rune) : Int := (es.map strokesAt).sum

theorem foldl_strokes (es : List Rune) (a : Int) :
    es.foldl (fun c e => c + strokesAt e) a = a + strokesOf es := by
  induction es generalizing a with
  | nil => simp [strokesOf]
  | cons e es ih => rw [List.foldl_cons, ih]; simp only [strokesOf, List.map_cons, List.sum_cons]; omega

/-- The count that a call will return if the table is `t` from now on. -/
def outcome (t : List (Rune × List Rune)) (c : StrokeCall) : Int :=
  c.acc + (match c.cur with
    | some (k, i) => strokesOf (((mapGet t k).getD []).drop i)
    | none => 0) + (c.todo.map (StrokeT t 2)).sum

/-- A call of `Stroke(r)` only looks at letters of `r`. -/
def Within (r : Rune) (c : StrokeCall) : Prop :=
  (∀ k i, c.cur = some (k, i) → k ∈ lettersIn r) ∧
  (c = .start r ∨ ∀ x ∈ c.todo, ¬ IsSyllable x ∧ CompatJamo x ∈ lettersIn r)

/-- How many steps a call can still take. -/
def budget (c : StrokeCall) : Nat :=
  (match c.cur with
    | some (_, i) => 3 - i + 1
    | none => 0) + (c.todo.map fun r => if IsSyllable r then 16 else 5).sum

/-- What a step of the call does. -/
theorem step_cases (t : List (Rune × List Rune)) (c : StrokeCall) (hf : c.finished = false) :
    (∃ k i e, c.cur = some (k, i) ∧ elementAt t k i = some e ∧
      c.step t = (⟨c.todo, some (k, i + 1), c.acc + strokesAt e⟩, some (k, i))) ∨
    (∃ k i, c.cur = some (k, i) ∧ elementAt t k i = none ∧ c.step t = (⟨c.todo, none, c.acc⟩, none)) ∨
    (∃ r rest, c.cur = none ∧ c.todo = r :: rest ∧ IsSyllable r ∧
      c.step t = (⟨(Split r).1 :: (Split r).2.1 :: (Split r).2.2 :: rest, none, c.acc⟩, none)) ∨
    (∃ r rest es, c.cur = none ∧ c.todo = r :: rest ∧ ¬ IsSyllable r ∧ mapGet t (CompatJamo r) = some es ∧
      c.step t = (⟨rest, some (CompatJamo r, 0), c.acc⟩, none)) ∨
    (∃ r rest, c.cur = none ∧ c.todo = r :: rest ∧ ¬ IsSyllable r ∧ mapGet t (CompatJamo r) = none ∧
      c.step t = (⟨rest, none, c.acc + strokesAt (CompatJamo r)⟩, none)) := by
  obtain ⟨todo, cur, acc⟩ := c
  cases cur with
  | some x =>
    obtain ⟨k, i⟩ := x
    cases h : elementAt t k i with
    | some e => exact .inl ⟨k, i, e, rfl, h, by simp only [StrokeCall.step, h]⟩
    | none => exact .inr (.inl ⟨k, i, rfl, h, by simp only [StrokeCall.step, h]⟩)
  | none =>
    cases todo with
    | nil => simp [StrokeCall.finished] at hf
    | cons r rest =>
      by_cases hr : IsSyllable r
      · exact .inr (.inr (.inl ⟨r, rest, rfl, rfl, hr, by
          simp only [StrokeCall.step, syllable_test hr]; rfl⟩))
      · cases h : mapGet t (CompatJamo r) with
        | some es => exact .inr (.inr (.inr (.inl ⟨r, rest, es, rfl, rfl, hr, h, by
            simp only [StrokeCall.step, not_syllable_test hr, SplitMultiElementT, compat_idem, h]; rfl⟩)))
        | none => exact .inr (.inr (.inr (.inr ⟨r, rest, rfl, rfl, hr, h, by
            simp only [StrokeCall.step, not_syllable_test hr, SplitMultiElementT, compat_idem, h]; rfl⟩)))

theorem StrokeT_letter2 (t : List (Rune × List Rune)) {r : Rune} (h : ¬ IsSyllable r) :
    StrokeT t 2 r = match mapGet t (CompatJamo r) with
      | some es => strokesOf es
      | none => strokesAt (CompatJamo r) := by
  rw [StrokeT_letter _ _ _ h]
  simp only [SplitMultiElementT, compat_idem]
  cases mapGet t (CompatJamo r) with
  | none => rfl
  | some es => simp only [foldl_strokes]; omega

theorem StrokeT_syllable2 (t : List (Rune × List Rune)) {r : Rune} (h : IsSyllable r) :
    StrokeT t 2 r = StrokeT t 2 (Split r).1 + StrokeT t 2 (Split r).2.1 + StrokeT t 2 (Split r).2.2 := by
  obtain ⟨h1, h2, h3⟩ := parts_not_syllable h
  rw [StrokeT_syllable _ _ _ h]
  simp only [StrokeT_letter _ _ _ h1, StrokeT_letter _ _ _ h2, StrokeT_letter _ _ _ h3]

theorem within_start (r : Rune) : Within r (.start r) :=
  ⟨fun _ _ h => by simp [StrokeCall.start] at h, .inl rfl⟩

theorem within_todo {r x : Rune} {rest : List Rune} {c : StrokeCall} (h : Within r c)
    (ht : c.todo = x :: rest) (hx : ¬ IsSyllable x) :
    CompatJamo x ∈ lettersIn r ∧ ∀ y ∈ rest, ¬ IsSyllable y ∧ CompatJamo y ∈ lettersIn r := by
  rcases h.2 with rfl | h
  · simp only [StrokeCall.start, List.cons.injEq] at ht
    obtain ⟨rfl, rfl⟩ := ht
    exact ⟨by simp [lettersIn, hx], fun y hy => by simp at hy⟩
  · rw [ht] at h
    exact ⟨(h x (by simp)).2, fun y hy => h y (by simp [hy])⟩

theorem within_step {t : List (Rune × List Rune)} {r : Rune} {c : StrokeCall} (h : Within r c)
    (hf : c.finished = false) : Within r (c.step t).1 := by
  rcases step_cases t c hf with ⟨k, i, e, h1, -, h2⟩ | ⟨k, i, h1, -, h2⟩ | ⟨x, rest, h1, h3, h4, h2⟩ |
    ⟨x, rest, es, h1, h3, h4, -, h2⟩ | ⟨x, rest, h1, h3, h4, -, h2⟩ <;> rw [h2]
  · refine ⟨fun k' i' h' => ?_, ?_⟩
    · simp only [Option.some.injEq, Prod.mk.injEq] at h'
      rw [← h'.1]; exact h.1 k i h1
    · rcases h.2 with rfl | h
      · simp [StrokeCall.start] at h1
      · exact .inr h
  · refine ⟨fun k' i' h' => by simp at h', ?_⟩
    rcases h.2 with rfl | h
    · simp [StrokeCall.start] at h1
    · exact .inr h
  · refine ⟨fun k' i' h' => by simp at h', .inr ?_⟩
    rcases h.2 with rfl | h
    · simp only [StrokeCall.start, List.cons.injEq] at h3
      obtain ⟨rfl, rfl⟩ := h3
      obtain ⟨p1, p2, p3⟩ := parts_not_syllable h4
      intro y hy
      simp only [List.mem_cons, List.not_mem_nil, or_false] at hy
      simp only [lettersIn, if_pos h4, SplitCompat]
      rcases hy with rfl | rfl | rfl
      · exact ⟨p1, by simp⟩
      · exact ⟨p2, by simp⟩
      · exact ⟨p3, by simp⟩
    · exact ((h x (by rw [h3]; simp)).1 h4).elim
  · obtain ⟨q1, q2⟩ := within_todo h h3 h4
    refine ⟨fun k' i' h' => ?_, .inr q2⟩
    simp only [Option.some.injEq, Prod.mk.injEq] at h'
    rw [← h'.1]; exact q1
  · obtain ⟨-, q2⟩ := within_todo h h3 h4
    exact ⟨fun k' i' h' => by simp at h', .inr q2⟩

theorem drop_element {es : List Rune} {i : Nat} {e : Rune} (h : es[i]? = some e) :
    strokesOf (es.drop i) = strokesAt e + strokesOf (es.drop (i + 1)) := by
  obtain ⟨hi, he⟩ := List.getElem?_eq_some_iff.1 h
  rw [List.drop_eq_getElem_cons hi, he]
  simp [strokesOf]

/-- A step taken while the letters of `r` are as they were in `t0` does not change the outcome. -/
theorem outcome_step {t t0 : List (Rune × List Rune)} {r : Rune} {c : StrokeCall} (h : Within r c)
    (hf : c.finished = false) (he : ∀ k ∈ lettersIn r, mapGet t k = mapGet t0 k) :
    outcome t0 (c.step t).1 = outcome t0 c := by
  obtain ⟨todo, cur, acc⟩ := c
  rcases step_cases t _ hf with ⟨k, i, e, h1, h3, h2⟩ | ⟨k, i, h1, h3, h2⟩ | ⟨x, rest, h1, h3, h4, h2⟩ |
    ⟨x, rest, es, h1, h3, h4, h5, h2⟩ | ⟨x, rest, h1, h3, h4, h5, h2⟩ <;> rw [h2]
  · have hk := he k (h.1 k i h1)
    simp only [elementAt, hk] at h3
    simp only at h1
    subst h1
    cases hm : mapGet t0 k with
    | none => rw [hm] at h3; simp at h3
    | some es =>
      rw [hm] at h3
      simp only [outcome, hm, Option.getD_some, drop_element (by simpa using h3 : es[i]? = some e)]
      omega
  · have hk := he k (h.1 k i h1)
    simp only [elementAt, hk] at h3
    simp only at h1
    subst h1
    cases hm : mapGet t0 k with
    | none => simp [outcome, hm, strokesOf]
    | some es =>
      rw [hm] at h3
      have : es.length ≤ i := List.getElem?_eq_none_iff.1 (by simpa using h3)
      simp [outcome, hm, List.drop_eq_nil_of_le this, strokesOf]
  · simp only at h1 h3
    subst h1 h3
    simp only [outcome, List.map_cons, List.sum_cons, StrokeT_syllable2 t0 h4]
    omega
  · simp only at h1 h3
    have hk := he _ (within_todo h h3 h4).1
    subst h1 h3
    simp only [outcome, List.map_cons, List.sum_cons, StrokeT_letter2 t0 h4, ← hk, h5,
      Option.getD_some, List.drop_zero]
    omega
  · simp only at h1 h3
    have hk := he _ (within_todo h h3 h4).1
    subst h1 h3
    simp only [outcome, List.map_cons, List.sum_cons, StrokeT_letter2 t0 h4, ← hk, h5]
    omega

theorem budget_step {t : List (Rune × List Rune)} {c : StrokeCall} (hf : c.finished = false)
    (hl : ∀ k es, mapGet t k = some es → es.length ≤ 3) : budget (c.step t).1 + 1 ≤ budget c := by
  obtain ⟨todo, cur, acc⟩ := c
  rcases step_cases t _ hf with ⟨k, i, e, h1, h3, h2⟩ | ⟨k, i, h1, h3, h2⟩ | ⟨x, rest, h1, h3, h4, h2⟩ |
    ⟨x, rest, es, h1, h3, h4, h5, h2⟩ | ⟨x, rest, h1, h3, h4, h5, h2⟩ <;> rw [h2] <;> simp only at h1 <;>
    subst h1
  · cases hm : mapGet t k with
    | none => simp [elementAt, hm] at h3
    | some es =>
      have h3 : es[i]? = some e := by simpa [elementAt, hm] using h3
      obtain ⟨hi, -⟩ := List.getElem?_eq_some_iff.1 h3
      have := hl k es hm
      simp only [budget]
      omega
  · simp only [budget]; omega
  · simp only at h3
    subst h3
    obtain ⟨p1, p2, p3⟩ := parts_not_syllable h4
    simp only [budget, List.map_cons, List.sum_cons, if_pos h4, if_neg p1, if_neg p2, if_neg p3]
    omega
  · simp only at h3
    subst h3
    simp only [budget, List.map_cons, List.sum_cons, if_neg h4]
    omega
  · simp only at h3
    subst h3
    simp only [budget, List.map_cons, List.sum_cons, if_neg h4]
    omega

theorem budget_zero {c : StrokeCall} (h : budget c = 0) : c.finished = true := by
  obtain ⟨todo, cur, acc⟩ := c
  cases cur with
  | some x => simp only [budget] at h; omega
  | none =>
    cases todo with
    | nil => rfl
    | cons r rest =>
      simp only [budget, List.map_cons, List.sum_cons] at h
      split at h <;> omega

theorem outcome_finished {t : List (Rune × List Rune)} {c : StrokeCall} (h : c.finished = true) :
    outcome t c = c.acc := by
  obtain ⟨todo, cur, acc⟩ := c
  cases cur with
  | some x => simp [StrokeCall.finished] at h
  | none =>
    cases todo with
    | nil => simp [outcome]
    | cons r rest => simp [StrokeCall.finished] at h

theorem outcome_start (t : List (Rune × List Rune)) (r : Rune) : outcome t (.start r) = StrokeT t 2 r := by
  simp [outcome, StrokeCall.start]

/-! ## Programs -/

/-- What is true of every goroutine after `as`. -/
structure GorOk (as : List HAct) (g : Gor) : Prop where
  call : ∀ r n c, g.call = some (r, n, c) → Within r c ∧ n + budget c ≤ 16 ∧
    ((∀ k ∈ lettersIn r, NoStoresTo k as) → outcome multiElements c = Stroke r)
  counts : ∀ x ∈ g.counts, (∀ k ∈ lettersIn x.1, NoStoresTo k as) → x.2 = Stroke x.1
  loads : ∀ x ∈ g.loads, NoStoresTo (CompatJamo x.1) as →
    elementAt multiElements (CompatJamo x.1) x.2.1 = some x.2.2

structure HWorldOk (as : List HAct) (w : HWorld) : Prop where
  len : ∀ k, (mapGet w.tbl k).map List.length = (mapGet multiElements k).map List.length
  same : ∀ k, NoStoresTo k as → mapGet w.tbl k = mapGet multiElements k
  gs : ∀ g ∈ w.gs, GorOk as g
  log : NoStores as → ∀ a ∈ w.log, a.store = false

theorem noStoresTo_init {k : Rune} {as : List HAct} {a : HAct} (h : NoStoresTo k (as ++ [a])) : NoStoresTo k as :=
  fun i h' j v hm => h i h' j v (by simp [hm])

theorem noStores_init {as : List HAct} {a : HAct} (h : NoStores (as ++ [a])) : NoStores as :=
  fun i h' j k v hm => h i h' j k v (by simp [hm])

theorem gorOk_mono {as : List HAct} {a : HAct} {g : Gor} (h : GorOk as g) : GorOk (as ++ [a]) g where
  call r n c e := ⟨(h.call r n c e).1, (h.call r n c e).2.1,
    fun hk => (h.call r n c e).2.2 (fun k hm => noStoresTo_init (hk k hm))⟩
  counts x hx hk := h.counts x hx (fun k hm => noStoresTo_init (hk k hm))
  loads x hx hk := h.loads x hx (noStoresTo_init hk)

theorem multi_len : ∀ k es, mapGet multiElements k = some es → es.length ≤ 3 := by
  intro k es h
  have key : ∀ (t : List (Rune × List Rune)), (t.all fun x => decide (x.2.length ≤ 3)) = true →
      mapGet t k = some es → es.length ≤ 3 := by
    intro t ht h
    induction t with
    | nil => cases h
    | cons x t ih =>
      obtain ⟨k', v⟩ := x
      simp only [List.all_cons, Bool.and_eq_true, decide_eq_true_eq] at ht
      unfold mapGet at h
      split at h
      · injection h with h; rw [← h]; exact ht.1
      · exact ih ht.2 h
  exact key _ (by decide) h

theorem set_ok {as : List HAct} {gs : List Gor} {i : Nat} {g : Gor} (h : ∀ g ∈ gs, GorOk as g)
    (hg : GorOk as g) : ∀ g' ∈ gs.set i g, GorOk as g' := by
  intro g' hg'
  rcases List.mem_or_eq_of_mem_set hg' with h' | rfl
  · exact h g' h'
  · exact hg

theorem does_ok {as : List HAct} {a : HAct} {w w' : HWorld} (h : HWorldOk as w) (d : HDoes w a w') :
    HWorldOk (as ++ [a]) w' := by
  have old : ∀ g ∈ w.gs, GorOk (as ++ [a]) g := fun g hg => gorOk_mono (h.gs g hg)
  have get : ∀ {i g}, w.gs[i]? = some g → GorOk (as ++ [a]) g := fun hi =>
    old _ (List.mem_of_getElem? hi)
  have len3 : ∀ k es, mapGet w.tbl k = some es → es.length ≤ 3 := by
    intro k es hk
    have := h.len k
    rw [hk] at this
    cases hm : mapGet multiElements k with
    | none => rw [hm] at this; simp at this
    | some es' =>
      rw [hm] at this
      have := multi_len k es' hm
      simp_all
  cases d with
  | go =>
    refine ⟨h.len, fun k hk => h.same k (noStoresTo_init hk), ?_, fun hs => h.log (noStores_init hs)⟩
    intro g hg
    rcases List.mem_append.1 hg with hg | hg
    · exact old g hg
    · rw [List.mem_singleton.1 hg]
      exact ⟨fun r n c e => by simp at e, fun x hx => by simp at hx, fun x hx => by simp at hx⟩
  | split hi hc _ =>
    refine ⟨h.len, fun k hk => h.same k (noStoresTo_init hk), set_ok old ?_, fun hs => h.log (noStores_init hs)⟩
    exact ⟨(get hi).call, (get hi).counts, (get hi).loads⟩
  | @load i g hh j k v hi hc hk he =>
    refine ⟨h.len, fun k hk => h.same k (noStoresTo_init hk), set_ok old ?_, ?_⟩
    · refine ⟨(get hi).call, (get hi).counts, ?_⟩
      intro x hx hn
      rcases List.mem_append.1 hx with hx | hx
      · exact (get hi).loads x hx hn
      · rw [List.mem_singleton.1 hx] at hn ⊢
        rw [elementAt, ← h.same _ (noStoresTo_init hn)]
        exact he
    · intro hs x hx
      rcases List.mem_append.1 hx with hx | hx
      · exact h.log (noStores_init hs) x hx
      · rw [List.mem_singleton.1 hx]
  | @store i g hh j r o v hi hc hk he =>
    refine ⟨fun k' => (mapGet_writeElem_length _ _ _ _ _).trans (h.len k'), ?_, old, ?_⟩
    · intro k' hn
      have : CompatJamo r ≠ k' := by
        rintro rfl
        exact hn i hh j v (by simp)
      rw [← h.same k' (noStoresTo_init hn)]
      exact mapGet_writeElem_ne _ _ _ _ _ this
    · intro hs
      exact (hs i hh j (CompatJamo r) v (by simp)).elim
  | @stroke i g r hi hc =>
    refine ⟨h.len, fun k hk => h.same k (noStoresTo_init hk), set_ok old ?_, fun hs => h.log (noStores_init hs)⟩
    refine ⟨?_, (get hi).counts, (get hi).loads⟩
    intro r' n c e
    simp only [Option.some.injEq, Prod.mk.injEq] at e
    obtain ⟨rfl, rfl, rfl⟩ := e
    refine ⟨within_start r, ?_, fun _ => outcome_start _ r⟩
    simp only [budget, StrokeCall.start, List.map_cons, List.map_nil, List.sum_cons, List.sum_nil]
    split <;> omega
  | @step i g r n c hi hc hf =>
    obtain ⟨c1, c2, c3⟩ := (get hi).call r n c hc
    refine ⟨h.len, fun k hk => h.same k (noStoresTo_init hk), set_ok old ?_, ?_⟩
    · refine ⟨?_, (get hi).counts, (get hi).loads⟩
      intro r' n' c' e
      simp only [Option.some.injEq, Prod.mk.injEq] at e
      obtain ⟨rfl, rfl, rfl⟩ := e
      have := budget_step hf len3
      refine ⟨within_step c1 hf, by omega, fun hk => ?_⟩
      rw [outcome_step c1 hf (fun k hm => h.same k (noStoresTo_init (hk k hm)))]
      exact c3 hk
    · intro hs x hx
      rcases List.mem_append.1 hx with hx | hx
      · exact h.log (noStores_init hs) x hx
      · cases ho : (c.step w.tbl).2 with
        | none => rw [ho] at hx; simp at hx
        | some y => rw [ho] at hx; simp at hx; rw [hx]
  | @ret i g r n c hi hc hf =>
    obtain ⟨c1, c2, c3⟩ := (get hi).call r n c hc
    refine ⟨h.len, fun k hk => h.same k (noStoresTo_init hk), set_ok old ?_, fun hs => h.log (noStores_init hs)⟩
    refine ⟨fun r n c e => by simp at e, ?_, (get hi).loads⟩
    intro x hx hk
    rcases List.mem_append.1 hx with hx | hx
    · exact (get hi).counts x hx hk
    · rw [List.mem_singleton.1 hx] at hk ⊢
      have := c3 hk
      rw [outcome_finished hf] at this
      exact this

theorem runs_ok {as : List HAct} {w : HWorld} (h : HRuns .init as w) : HWorldOk as w := by
  induction h with
  | nil =>
    exact ⟨fun _ => rfl, fun _ _ => rfl, fun g hg => by simp [HWorld.init] at hg,
      fun _ a ha => by simp [HWorld.init] at ha⟩
  | snoc _ d ih => exact does_ok ih d

theorem split_of_element {r e : Rune} {i : Nat} (h : elementAt multiElements (CompatJamo r) i = some e) :
    ∃ es, SplitMultiElement r = some es ∧ es[i]? = some e := by
  unfold elementAt at h
  cases hm : mapGet multiElements (CompatJamo r) with
  | none => rw [hm] at h; cases h
  | some es => exact ⟨es, hm, by rw [hm] at h; exact h⟩

/-! ## C95 -/

/-- C95, what holds: as long as no goroutine stores into what `SplitMultiElement` returned to it, there is
no data race, every call of `Stroke` returns the count of its rune, and every element seen in a result of
`SplitMultiElement` is the one that the letter has. -/
theorem C95_goroutines_partial (as : List HAct) (w : HWorld) (h : HRuns .init as w) (hs : NoStores as) :
    ¬ HRace w ∧ ∀ g ∈ w.gs, (∀ x ∈ g.counts, x.2 = Stroke x.1) ∧
      ∀ x ∈ g.loads, ∃ es, SplitMultiElement x.1 = some es ∧ es[x.2.1]? = some x.2.2 := by
  have ok := runs_ok h
  refine ⟨?_, fun g hg => ⟨fun x hx => ?_, fun x hx => ?_⟩⟩
  · rintro ⟨a, ha, b, -, -, -, -, h'⟩
    rw [ok.log hs a ha] at h'
    cases h'
  · exact (ok.gs g hg).counts x hx (fun k _ i h j v => hs i h j k v)
  · exact split_of_element ((ok.gs g hg).loads x hx (fun i h j v => hs i h j _ v))

/-- C95, what holds even if goroutines store into their results: a count is right if nobody stored into a result
for one of the letters of the rune, and an element seen is right if nobody stored into a result for that letter. -/
theorem C95_untouched_partial (as : List HAct) (w : HWorld) (h : HRuns .init as w) (g : Gor) (hg : g ∈ w.gs) :
    (∀ x ∈ g.counts, (∀ k ∈ lettersIn x.1, NoStoresTo k as) → x.2 = Stroke x.1) ∧
    ∀ x ∈ g.loads, NoStoresTo (CompatJamo x.1) as →
      ∃ es, SplitMultiElement x.1 = some es ∧ es[x.2.1]? = some x.2.2 :=
  ⟨((runs_ok h).gs g hg).counts, fun x hx hs => split_of_element (((runs_ok h).gs g hg).loads x hx hs)⟩

/-- C95: whatever the goroutines do, a call of `Stroke` has returned or can return after 16 steps of its own. -/
theorem C95_returns (as : List HAct) (w : HWorld) (h : HRuns .init as w) (g : Gor) (hg : g ∈ w.gs) (r : Rune)
    (n : Nat) (c : StrokeCall) (hc : g.call = some (r, n, c)) :
    n ≤ 16 ∧ (n = 16 → c.finished = true) := by
  obtain ⟨-, h2, -⟩ := ((runs_ok h).gs g hg).call r n c hc
  exact ⟨by omega, fun e => budget_zero (by omega)⟩

/-! ## Cases -/

/-- Plays an action, if it is possible. -/
def play (w : HWorld) : HAct → Option HWorld
  | .go => some { w with gs := w.gs ++ [⟨[], none, [], []⟩] }
  | .split i r =>
    match w.gs[i]? with
    | some g => if g.call = none ∧ (SplitMultiElementT w.tbl r).isSome then
        some { w with gs := w.gs.set i { g with handles := g.handles ++ [r] } } else none
    | none => none
  | .load i h j =>
    match w.gs[i]? with
    | some g => match g.handles[h]? with
      | some r => match elementAt w.tbl (CompatJamo r) j with
        | some v => if g.call = none then some { w with
            gs := w.gs.set i { g with loads := g.loads ++ [(r, j, v)] },
            log := w.log ++ [⟨i, CompatJamo r, j, false⟩] } else none
        | none => none
      | none => none
    | none => none
  | .store i h j k v =>
    match w.gs[i]? with
    | some g => match g.handles[h]? with
      | some r => if g.call = none ∧ k = CompatJamo r ∧ (elementAt w.tbl (CompatJamo r) j).isSome then some { w with
            tbl := writeElem w.tbl (CompatJamo r) j v, log := w.log ++ [⟨i, CompatJamo r, j, true⟩] } else none
      | none => none
    | none => none
  | .stroke i r =>
    match w.gs[i]? with
    | some g => if g.call = none then
        some { w with gs := w.gs.set i { g with call := some (r, 0, .start r) } } else none
    | none => none
  | .step i =>
    match w.gs[i]? with
    | some g => match g.call with
      | some (r, n, c) => if c.finished = false then some { w with
          gs := w.gs.set i { g with call := some (r, n + 1, (c.step w.tbl).1) },
          log := w.log ++ ((c.step w.tbl).2.map fun a => (⟨i, a.1, a.2, false⟩ : HAccess)).toList } else none
      | none => none
    | none => none
  | .ret i =>
    match w.gs[i]? with
    | some g => match g.call with
      | some (r, _, c) => if c.finished = true then some { w with
          gs := w.gs.set i { g with call := none, counts := g.counts ++ [(r, c.acc)] } } else none
      | none => none
    | none => none

theorem play_does {w w' : HWorld} {a : HAct} (h : play w a = some w') : HDoes w a w' := by
  cases a with
  | go => injection h with h; subst h; exact .go
  | split i r =>
    simp only [play] at h
    split at h
    · next g hg =>
      split at h
      · next hc =>
        injection h with h; subst h
        obtain ⟨es, he⟩ := Option.isSome_iff_exists.1 hc.2
        exact .split hg hc.1 he
      · cases h
    · cases h
  | load i hh j =>
    simp only [play] at h
    split at h
    · next g hg =>
      split at h
      · next r hr =>
        split at h
        · next v hv =>
          split at h
          · next hc => injection h with h; subst h; exact .load hg hc hr hv
          · cases h
        · cases h
      · cases h
    · cases h
  | store i hh j k v =>
    simp only [play] at h
    split at h
    · next g hg =>
      split at h
      · next r hr =>
        split at h
        · next hc =>
          injection h with h; subst h
          obtain ⟨hc, rfl, hs⟩ := hc
          obtain ⟨o, ho⟩ := Option.isSome_iff_exists.1 hs
          exact .store hg hc hr ho
        · cases h
      · cases h
    · cases h
  | stroke i r =>
    simp only [play] at h
    split at h
    · next g hg =>
      split at h
      · next hc => injection h with h; subst h; exact .stroke hg hc
      · cases h
    · cases h
  | step i =>
    simp only [play] at h
    split at h
    · next g hg =>
      split at h
      · next r n c hc =>
        split at h
        · next hf => injection h with h; subst h; exact .step hg hc hf
        · cases h
      · cases h
    · cases h
  | ret i =>
    simp only [play] at h
    split at h
    · next g hg =>
      split at h
      · next r n c hc =>
        split at h
        · next hf => injection h with h; subst h; exact .ret hg hc hf
        · cases h
      · cases h
    · cases h

/-- Plays a list of actions from the start of the program. -/
def played (as : List HAct) : Option HWorld := as.foldl (fun w a => w.bind (play · a)) (some .init)

theorem played_runs {as : List HAct} {w : HWorld} (h : played as = some w) : HRuns .init as w := by
  have key : ∀ (bs as : List HAct) (w0 w : HWorld), HRuns .init as w0 →
      bs.foldl (fun w a => w.bind (play · a)) (some w0) = some w → HRuns .init (as ++ bs) w := by
    intro bs
    induction bs with
    | nil => intro as w0 w h0 h; injection h with h; subst h; rw [List.append_nil]; exact h0
    | cons b bs ih =>
      intro as w0 w h0 h
      rw [List.foldl_cons, Option.bind_some] at h
      cases hp : play w0 b with
      | none =>
        rw [hp] at h
        have none' : ∀ l : List HAct, l.foldl (fun (w : Option HWorld) a => w.bind (play · a)) none = none := by
          intro l; induction l with
          | nil => rfl
          | cons _ _ ih => exact ih
        rw [none'] at h; cases h
      | some w1 =>
        rw [hp] at h
        have := ih _ w1 w (.snoc h0 (play_does hp)) h
        rwa [List.append_assoc] at this
  exact key as [] .init w .nil h

/-- One goroutine has ㄲ split and overwrites the result, another is counting the strokes of ㄲ. -/
def clash : List HAct :=
  [.go, .go, .split 0 GG, .stroke 1 GG, .step 1, .step 1, .store 0 0 0 GG H, .store 0 0 1 GG B, .step 1, .step 1, .ret 1]

/-- C95 as stated is false: there is a program in which each goroutine only stores into its own results, with a
data race and a count of 5 strokes for ㄲ, which has 2 (nor did the table ever hold two letters with 5 strokes: after the
first store it would be 4, after the second 7). -/
theorem C95_goroutines_fails :
    ∃ w, HRuns .init clash w ∧ HRace w ∧ (∃ g ∈ w.gs, (GG, 5) ∈ g.counts) ∧ Stroke GG = 2 ∧
      StrokeT (writeElem multiElements GG 0 H) 2 GG = 4 ∧ StrokeT w.tbl 2 GG = 7 := by
  have key : (played clash).any (fun w => decide ((⟨0, GG, 0, true⟩ : HAccess) ∈ w.log ∧ ⟨1, GG, 0, false⟩ ∈ w.log ∧
      (∃ g ∈ w.gs, (GG, 5) ∈ g.counts) ∧ StrokeT w.tbl 2 GG = 7)) = true := by decide +kernel
  cases hp : played clash with
  | none => rw [hp] at key; cases key
  | some w =>
    rw [hp] at key
    obtain ⟨k1, k2, k3, k4⟩ := of_decide_eq_true key
    exact ⟨w, played_runs hp, ⟨_, k1, _, k2, by decide, rfl, rfl, rfl⟩, k3, by decide +kernel, by decide +kernel, k4⟩

/-- Two goroutines count the strokes of 깎 and ㄲ side by side, a third one looks at its result for ㄲ. -/
def peaceful : List HAct :=
  [.go, .go, .go, .split 2 GG, .stroke 0 0xAE4E, .stroke 1 GG, .step 0, .step 1, .step 0, .step 1, .step 0, .load 2 0 1, .step 1,
    .step 0, .step 1, .step 0, .step 0, .step 0, .step 0, .step 0, .step 0, .ret 1, .ret 0]

example : ∃ w, HRuns .init peaceful w ∧ NoStores peaceful ∧ (∃ g ∈ w.gs, (0xAE4E, 6) ∈ g.counts) ∧
    (∃ g ∈ w.gs, (GG, 2) ∈ g.counts) ∧ ∃ g ∈ w.gs, (GG, 1, G) ∈ g.loads := by
  have key : (played peaceful).any (fun w => decide ((∃ g ∈ w.gs, (0xAE4E, 6) ∈ g.counts) ∧
    (∃ g ∈ w.gs, (GG, 2) ∈ g.counts) ∧ ∃ g ∈ w.gs, (GG, 1, G) ∈ g.loads)) = true := by decide +kernel
  cases hp : played peaceful with
  | none => rw [hp] at key; cases key
  | some w =>
    rw [hp] at key
    refine ⟨w, played_runs hp, ?_, of_decide_eq_true key⟩
    intro i h j k v hm
    simp [peaceful] at hm

/-- In `clash`, ㄳ and 각 are untouched. -/
example : (∀ k ∈ lettersIn GS, NoStoresTo k clash) ∧ ∀ k ∈ lettersIn 0xAC01, NoStoresTo k clash := by
  constructor <;> intro k hk i h j v hm <;> simp only [clash, List.mem_cons, reduceCtorEq, false_or, HAct.store.injEq,
    List.not_mem_nil, or_false] at hm <;> rcases hm with ⟨-, -, -, rfl, -⟩ | ⟨-, -, -, rfl, -⟩ <;>
    exact absurd hk (by decide +kernel)

end Props
