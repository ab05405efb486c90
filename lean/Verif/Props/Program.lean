import Verif.Spec.Program
import Verif.Props.Mem
/-! Property theorem C85: whole programs that use package cp949. -/
namespace Props
open Go Spec Cp949

attribute [local irreducible] fromTable toTable rawFrom rawTo

variable {σ τ : Type}

/-- The slices of the program, of a reader, of a writer. -/
def parts (w : World σ τ) : Option (Bool × Nat) → List Slice
  | none => w.own
  | some (false, i) => [(w.rd i).scratch, (w.rd i).cdata, (w.rd i).rdata]
  | some (true, j) => [(w.wr j).scratch]

/-- What holds throughout a run: all slices lie in memory, none of one party shares memory with one of another. -/
structure Inv (w : World σ τ) (r : Nat → Reader σ) : Prop where
  wf : ∀ p, ∀ t ∈ parts w p, WF w.heap t
  apart : ∀ p q, p ≠ q → ∀ t ∈ parts w p, ∀ s ∈ parts w q, Apart t s
  rel : ∀ i, Rel w.heap (w.rd i) (r i)
  relw : ∀ j, RelW w.heap (w.wr j)

theorem inv_parts {w w' : World σ τ} (p : Option (Bool × Nat))
    (ha : ∀ q q', q ≠ q' → ∀ t ∈ parts w q, ∀ s ∈ parts w q', Apart t s)
    (hq : ∀ q, q ≠ p → parts w' q = parts w q)
    (hk : ∀ q, q ≠ p → ∀ t ∈ parts w q, WF w'.heap t)
    (hp : ∀ t ∈ parts w' p, WF w'.heap t ∧ ∀ q, q ≠ p → ∀ s ∈ parts w q, Apart t s) :
    (∀ q, ∀ t ∈ parts w' q, WF w'.heap t) ∧
    (∀ q q', q ≠ q' → ∀ t ∈ parts w' q, ∀ s ∈ parts w' q', Apart t s) := by
  refine ⟨fun q t ht => ?_, fun q q' hne t ht s hs => ?_⟩
  · by_cases h : q = p
    · subst h; exact (hp t ht).1
    · rw [hq q h] at ht; exact hk q h t ht
  · by_cases h : q = p
    · subst h
      rw [hq q' hne.symm] at hs
      exact (hp t ht).2 q' hne.symm s hs
    · rw [hq q h] at ht
      by_cases h' : q' = p
      · subst h'
        exact ((hp s hs).2 q h t ht).symm
      · rw [hq q' h'] at hs
        exact ha q q' hne t ht s hs

/-- A step of the program itself: memory of readers and writers is kept. -/
theorem inv_own {w : World σ τ} {r : Nat → Reader σ} (inv : Inv w r) {h : Heap} {own : List Slice}
    (hk : ∀ q, q ≠ none → ∀ t ∈ parts w q, Same w.heap h t)
    (hp : ∀ t ∈ own, WF h t ∧ ∀ q, q ≠ none → ∀ s ∈ parts w q, Apart t s) :
    Inv { w with heap := h, own := own } r := by
  obtain ⟨h1, h2⟩ := inv_parts (w := w) (w' := { w with heap := h, own := own }) none inv.apart
    (fun q hq => by rcases q with _ | ⟨_ | _, _⟩ <;> first | exact absurd rfl hq | rfl)
    (fun q hq t ht => (hk q hq t ht).1) hp
  refine ⟨h1, h2, fun i => ?_, fun j => ?_⟩
  · have k := hk (some (false, i)) (by simp)
    exact rel_leaves (inv.rel i) ⟨k _ (by simp [parts]), k _ (by simp [parts]), k _ (by simp [parts])⟩
  · have k := hk (some (true, j)) (by simp)
    have rw' := inv.relw j
    exact ⟨rw'.1, (k _ (by simp [parts])).1, ⟨rw'.2.2.1.1, .inl rw'.2.2.2⟩, rw'.2.2.2⟩

theorem apart_clip {t s : Slice} (ws : s.len ≤ s.cap) (a : Apart t s) : Apart t (clip s) := by
  unfold Apart clip at *
  simp only
  omega

theorem apart_part {t s x : Slice} (p : Part t s) (a : Apart s x) : Apart t x := by
  obtain ⟨p1, p2, p3, p4⟩ := p
  unfold Apart at *
  rw [p1]
  omega

theorem wf_part {h : Heap} {t s : Slice} (p : Part t s) (w : WF h s) : WF h t := by
  obtain ⟨p1, p2, p3, p4⟩ := p
  refine ⟨p4, ?_⟩
  rw [p1]
  rcases w.2 with h0 | h0 <;> omega

theorem clear_of {w : World σ τ} {r : Nat → Reader σ} (inv : Inv w r) {i : Nat} {q} (hq : q ≠ some (false, i)) {t : Slice}
    (ht : t ∈ parts w q) : Clear (w.rd i) t :=
  ⟨inv.apart _ _ hq t ht _ (by simp [parts]), inv.apart _ _ hq t ht _ (by simp [parts]),
    inv.apart _ _ hq t ht _ (by simp [parts])⟩

theorem clear_clip {m : ReaderM σ} {s : Slice} (ws : s.len ≤ s.cap) (c : Clear m s) : Clear m (clip s) :=
  ⟨(apart_clip ws c.1.symm).symm, (apart_clip ws c.2.1.symm).symm, (apart_clip ws c.2.2.symm).symm⟩

theorem transform_wf (grow : Nat → Nat → Nat) {h h' : Heap} {dst src : Slice} {e : Bool} {n k err} (wd : WF h dst)
    (ws : WF h src) (hd : decoderTransformM grow h dst src e = some (n, k, err, h') ∨
      encoderTransformM grow h dst src e = some (n, k, err, h')) (t : Slice) (wt : WF h t) : WF h' t := by
  have key : ∀ {out err' h1}, (∀ t, WF h t → WF h1 t ∧ h1.read t = h.read t ∧ Apart t out) → WF h1 out →
      (if err' ≠ none then some (0, 0, err', h1) else some (out.len, src.len, none, (copyM h1 dst out).2)) =
        some (n, k, err, h') → WF h' t := by
    intro out err' h1 g4 g3 hq
    split at hq
    · simp only [Option.some.injEq, Prod.mk.injEq] at hq
      obtain ⟨_, _, _, rfl⟩ := hq
      exact (g4 t wt).1
    · simp only [Option.some.injEq, Prod.mk.injEq] at hq
      obtain ⟨_, _, _, rfl⟩ := hq
      exact (copyM_buf (wf_clip (g4 dst wd).1) g3).2.2.1 t (g4 t wt).1
  rcases hd with hd | hd
  · obtain ⟨out, err', h1, g1, _, g3, g4⟩ := FromM_spec grow h src ws
    unfold decoderTransformM at hd
    rw [g1] at hd
    exact key g4 g3 hd
  · obtain ⟨out, err', h1, g1, _, g3, g4⟩ := ToM_spec grow h src ws
    unfold encoderTransformM at hd
    rw [g1] at hd
    exact key g4 g3 hd

/-- What a call of one of the functions is right to return. -/
def Right : Happening → Prop
  | .from_ d res => res = From d
  | .to d res => res = To d
  | .decode dst src e res => res = decoderTransform dst src e
  | .encode dst src e res => res = encoderTransform dst src e
  | _ => True

theorem put_same {α : Type} (f : Nat → α) (i : Nat) (x : α) : put f i x i = x := by simp [put]
theorem put_other {α : Type} (f : Nat → α) {i k : Nat} (x : α) (h : k ≠ i) : put f i x k = f k := by simp [put, h]

/-- One step. The contents-level readers and writers make the same step. -/
theorem step_inv {grow : Nat → Nat → Nat} {src : SourceM σ} {sink : Sink τ} {w w' : World σ τ} {e : Happening}
    (st : ProgStep grow src sink w e w') {r : Nat → Reader σ} (inv : Inv w r) :
    ∃ r', Inv w' r' ∧ Right e ∧
      (∀ i, Reads (plain src) (r i) (bufsOf i [e]) (resultsOf i [e]) (r' i)) ∧
      (∀ j, Writes sink ⟨(w.wr j).sink, []⟩ (dataOf j [e]) (countsOf j [e]) ⟨(w'.wr j).sink, []⟩) := by
  have wfo : ∀ t ∈ w.own, WF w.heap t := inv.wf none
  have apo : ∀ t ∈ w.own, ∀ q, q ≠ none → ∀ s ∈ parts w q, Apart t s := fun t ht q hq s hs =>
    inv.apart none q hq.symm t ht s hs
  cases st with
  | alloc bs =>
    obtain ⟨_, f2, f3⟩ := push_frame w.heap .nil bs bs.length bs.length
    refine ⟨r, inv_own inv (fun q hq t ht => ⟨f2 t (inv.wf q t ht), (f3 t (inv.wf q t ht)).1⟩) ?_, trivial,
      fun i => .nil _, fun j => .nil _⟩
    intro t ht
    rcases List.mem_cons.1 ht with rfl | ht
    · exact ⟨⟨Nat.le_refl _, .inr (by simp [arr_push])⟩, fun q _ s hs => ((f3 s (inv.wf q s hs)).2).symm⟩
    · exact ⟨f2 t (wfo t ht), apo t ht⟩
  | @reslice s t hs hp =>
    refine ⟨r, inv_own inv (fun q hq t ht => ⟨inv.wf q t ht, rfl⟩) ?_, trivial, fun i => .nil _, fun j => .nil _⟩
    intro t ht
    rcases List.mem_cons.1 ht with rfl | ht
    · exact ⟨wf_part hp (wfo s hs), fun q hq x hx => apart_part hp (apo s hs q hq x hx)⟩
    · exact ⟨wfo t ht, apo t ht⟩
  | @store s i bs hs hi =>
    obtain ⟨f1, f2, _⟩ := write_frame (wfo s hs) i bs hi
    refine ⟨r, inv_own inv (fun q hq t ht => ?_) (fun t ht => ⟨f2 t (wfo t ht), apo t ht⟩), trivial, fun i => .nil _,
      fun j => .nil _⟩
    obtain ⟨a, b, _⟩ := f1 t (inv.wf q t ht) (apo s hs q hq t ht).symm
    exact ⟨a, b⟩
  | @read i buf fuel n err h m hb hm =>
    have hcl : Clear (w.rd i) buf := clear_of inv (q := none) (by simp) hb
    have wb := wfo buf hb
    have sim := readLoopM_sim grow src fuel (inv.rel i) (wf_clip wb) (clear_clip wb.1 hcl)
    cases hq : readLoop (plain src) fuel (r i) (w.heap.read buf) with
    | panic => rw [hq] at sim; simp only at sim; rw [hm] at sim; simp at sim
    | running => rw [hq] at sim; simp only at sim; rw [hm] at sim; simp at sim
    | ret n' err' buf' r1 =>
      rw [hq] at sim
      obtain ⟨h', m', s1, s2, s3, _, s5⟩ := sim
      rw [hm] at s1
      simp only [ReadOutM.ret.injEq] at s1
      obtain ⟨rfl, rfl, rfl, rfl⟩ := s1
      subst s2
      have keep : ∀ q, q ≠ some (false, i) → ∀ t ∈ parts w q, WF h t ∧ Clear m t ∧
          (q ≠ none → h.read t = w.heap.read t) := by
        intro q hne t ht
        obtain ⟨a, b, c⟩ := s5 t (inv.wf q t ht) (clear_of inv hne ht)
        exact ⟨a, b, fun h0 => c (apart_clip wb.1 (apo buf hb q h0 t ht).symm)⟩
      have hpq : ∀ q, q ≠ some (false, i) → parts { w with heap := h, rd := put w.rd i m } q = parts w q := by
        intro q hne
        rcases q with _ | ⟨_ | _, k⟩
        · rfl
        · simp only [parts]; rw [put_other _ _ (by rintro rfl; exact hne rfl)]
        · rfl
      obtain ⟨h1, h2⟩ := inv_parts (w := w) (w' := { w with heap := h, rd := put w.rd i m }) (some (false, i))
        inv.apart hpq (fun q hne t ht => (keep q hne t ht).1) (by
          intro t ht
          simp only [parts, put_same, List.mem_cons, List.not_mem_nil, or_false] at ht
          rcases ht with rfl | rfl | rfl
          · exact ⟨s3.wfs, fun q hne s hs => ((keep q hne s hs).2.1.1).symm⟩
          · exact ⟨s3.wfc, fun q hne s hs => ((keep q hne s hs).2.1.2.1).symm⟩
          · exact ⟨s3.wfr, fun q hne s hs => ((keep q hne s hs).2.1.2.2).symm⟩)
      refine ⟨put r i r1, ⟨h1, h2, fun k => ?_, fun j => ?_⟩, trivial, fun k => ?_, fun j => .nil _⟩
      · by_cases hk : k = i
        · subst hk; simp only [put_same]; exact s3
        · simp only [put_other _ _ hk]
          have kk := fun t ht => keep (some (false, k)) (by simpa using hk) t ht
          have sm : ∀ t ∈ parts w (some (false, k)), Same w.heap h t := fun t ht => ⟨(kk t ht).1, (kk t ht).2.2 (by simp)⟩
          exact rel_leaves (inv.rel k) ⟨sm _ (by simp [parts]), sm _ (by simp [parts]), sm _ (by simp [parts])⟩
      · have rw' := inv.relw j
        exact ⟨rw'.1, (keep (some (true, j)) (by simp) _ (by simp [parts])).1, ⟨rw'.2.2.1.1, .inl rw'.2.2.2⟩, rw'.2.2.2⟩
      · by_cases hk : i = k
        · subst hk
          simp only [bufsOf, resultsOf, List.filterMap_cons, if_true, List.filterMap_nil, put_same]
          exact .cons ⟨fuel, hq⟩ (.nil _)
        · simp only [bufsOf, resultsOf, List.filterMap_cons, if_neg hk, List.filterMap_nil]
          rw [put_other _ _ (Ne.symm hk)]
          exact .nil _
  | @write j data n err h m hd hm =>
    have wd := wfo data hd
    obtain ⟨n', err', h', m', g1, g2, g3, g4⟩ := WriteM_spec grow sink (inv.relw j) wd
      (apo data hd (some (true, j)) (by simp) _ (by simp [parts]))
    rw [hm] at g1
    simp only [Option.some.injEq, Prod.mk.injEq] at g1
    obtain ⟨rfl, rfl, rfl, rfl⟩ := g1
    have keep : ∀ q, q ≠ some (true, j) → ∀ t ∈ parts w q, Same w.heap h t ∧ Apart t m.scratch := by
      intro q hne t ht
      obtain ⟨a, b, c⟩ := g4 t (inv.wf q t ht) (inv.apart q _ hne t ht _ (by simp [parts]))
      exact ⟨⟨a, b⟩, c⟩
    have hpq : ∀ q, q ≠ some (true, j) → parts { w with heap := h, wr := put w.wr j m } q = parts w q := by
      intro q hne
      rcases q with _ | ⟨_ | _, k⟩
      · rfl
      · rfl
      · simp only [parts]; rw [put_other _ _ (by rintro rfl; exact hne rfl)]
    obtain ⟨h1, h2⟩ := inv_parts (w := w) (w' := { w with heap := h, wr := put w.wr j m }) (some (true, j))
      inv.apart hpq (fun q hne t ht => (keep q hne t ht).1.1) (by
        intro t ht
        simp only [parts, put_same, List.mem_cons, List.not_mem_nil, or_false] at ht
        subst ht
        exact ⟨g3.2.1, fun q hne s hs => ((keep q hne s hs).2).symm⟩)
    refine ⟨r, ⟨h1, h2, fun k => ?_, fun k => ?_⟩, trivial, fun k => .nil _, fun k => ?_⟩
    · have sm := fun t ht => (keep (some (false, k)) (by simp) t ht).1
      exact rel_leaves (inv.rel k) ⟨sm _ (by simp [parts]), sm _ (by simp [parts]), sm _ (by simp [parts])⟩
    · by_cases hk : k = j
      · subst hk; simp only [put_same]; exact g3
      · simp only [put_other _ _ hk]
        have rw' := inv.relw k
        exact ⟨rw'.1, (keep (some (true, k)) (by simpa using hk) _ (by simp [parts])).1.1,
          ⟨rw'.2.2.1.1, .inl rw'.2.2.2⟩, rw'.2.2.2⟩
    · by_cases hk : j = k
      · subst hk
        simp only [dataOf, countsOf, List.filterMap_cons, if_true, List.filterMap_nil, put_same]
        exact .cons g2 (.nil _)
      · simp only [dataOf, countsOf, List.filterMap_cons, if_neg hk, List.filterMap_nil]
        rw [put_other _ _ (Ne.symm hk)]
        exact .nil _
  | @from_ data out err h hd hm =>
    obtain ⟨out', err', h', g1, g2, g3, g4⟩ := FromM_spec grow w.heap data (wfo data hd)
    rw [hm] at g1
    simp only [Option.some.injEq, Prod.mk.injEq] at g1
    obtain ⟨rfl, rfl, rfl⟩ := g1
    refine ⟨r, inv_own inv (fun q hq t ht => ⟨(g4 t (inv.wf q t ht)).1, (g4 t (inv.wf q t ht)).2.1⟩) ?_, g2,
      fun i => .nil _, fun j => .nil _⟩
    intro t ht
    rcases List.mem_cons.1 ht with rfl | ht
    · exact ⟨g3, fun q _ s hs => (g4 s (inv.wf q s hs)).2.2.symm⟩
    · exact ⟨(g4 t (wfo t ht)).1, apo t ht⟩
  | @to data out err h hd hm =>
    obtain ⟨out', err', h', g1, g2, g3, g4⟩ := ToM_spec grow w.heap data (wfo data hd)
    rw [hm] at g1
    simp only [Option.some.injEq, Prod.mk.injEq] at g1
    obtain ⟨rfl, rfl, rfl⟩ := g1
    refine ⟨r, inv_own inv (fun q hq t ht => ⟨(g4 t (inv.wf q t ht)).1, (g4 t (inv.wf q t ht)).2.1⟩) ?_, g2,
      fun i => .nil _, fun j => .nil _⟩
    intro t ht
    rcases List.mem_cons.1 ht with rfl | ht
    · exact ⟨g3, fun q _ s hs => (g4 s (inv.wf q s hs)).2.2.symm⟩
    · exact ⟨(g4 t (wfo t ht)).1, apo t ht⟩
  | @decode dst data e n k err h hd hs hm =>
    obtain ⟨n', k', err', h', g1, g2, g3⟩ := C56_decoder grow w.heap dst data e (wfo dst hd) (wfo data hs)
    rw [hm] at g1
    simp only [Option.some.injEq, Prod.mk.injEq] at g1
    obtain ⟨rfl, rfl, rfl, rfl⟩ := g1
    exact ⟨r, inv_own inv
      (fun q hq t ht => g3 t (inv.wf q t ht) (apart_clip (wfo dst hd).1 (apo dst hd q hq t ht).symm))
      (fun t ht => ⟨transform_wf grow (wfo dst hd) (wfo data hs) (.inl hm) t (wfo t ht), apo t ht⟩), g2.symm,
      fun i => .nil _, fun j => .nil _⟩
  | @encode dst data e n k err h hd hs hm =>
    obtain ⟨n', k', err', h', g1, g2, g3⟩ := C56_encoder grow w.heap dst data e (wfo dst hd) (wfo data hs)
    rw [hm] at g1
    simp only [Option.some.injEq, Prod.mk.injEq] at g1
    obtain ⟨rfl, rfl, rfl, rfl⟩ := g1
    exact ⟨r, inv_own inv
      (fun q hq t ht => g3 t (inv.wf q t ht) (apart_clip (wfo dst hd).1 (apo dst hd q hq t ht).symm))
      (fun t ht => ⟨transform_wf grow (wfo dst hd) (wfo data hs) (.inr hm) t (wfo t ht), apo t ht⟩), g2.symm,
      fun i => .nil _, fun j => .nil _⟩

theorem Reads_append {src : Source σ} {r r1 r2 : Reader σ} {bs bs' : List Str} {xs xs' : List Result}
    (h : Reads src r bs xs r1) (h' : Reads src r1 bs' xs' r2) : Reads src r (bs ++ bs') (xs ++ xs') r2 := by
  induction h with
  | nil => exact h'
  | cons h1 _ ih => exact .cons h1 (ih h')

theorem Writes_append {sink : Sink τ} {w w1 w2 : Writer τ} {ds ds' : List Str} {xs xs'}
    (h : Writes sink w ds xs w1) (h' : Writes sink w1 ds' xs' w2) : Writes sink w (ds ++ ds') (xs ++ xs') w2 := by
  induction h with
  | nil => exact h'
  | cons h1 _ ih => exact .cons h1 (ih h')

theorem runs_inv {grow : Nat → Nat → Nat} {src : SourceM σ} {sink : Sink τ} {w w' : World σ τ} {es : List Happening}
    (h : Runs grow src sink w es w') : ∀ {r : Nat → Reader σ}, Inv w r →
    ∃ r', Inv w' r' ∧ (∀ e ∈ es, Right e) ∧
      (∀ i, Reads (plain src) (r i) (bufsOf i es) (resultsOf i es) (r' i)) ∧
      (∀ j, Writes sink ⟨(w.wr j).sink, []⟩ (dataOf j es) (countsOf j es) ⟨(w'.wr j).sink, []⟩) := by
  induction h with
  | nil w => intro r inv; exact ⟨r, inv, by simp, fun i => .nil _, fun j => .nil _⟩
  | @cons w e w1 es w2 st _ ih =>
    intro r inv
    obtain ⟨r1, inv1, a1, a2, a3⟩ := step_inv st inv
    obtain ⟨r2, inv2, b1, b2, b3⟩ := ih inv1
    refine ⟨r2, inv2, ?_, fun i => ?_, fun j => ?_⟩
    · intro x hx
      rcases List.mem_cons.1 hx with rfl | hx
      · exact a1
      · exact b1 x hx
    · have := Reads_append (a2 i) (b2 i)
      unfold bufsOf resultsOf at *
      rwa [← List.filterMap_append, ← List.filterMap_append] at this
    · have := Writes_append (a3 j) (b3 j)
      unfold dataOf countsOf at *
      rwa [← List.filterMap_append, ← List.filterMap_append] at this

theorem inv_start (h : Heap) (own : List Slice) (ho : ∀ t ∈ own, WF h t) (s : Nat → σ) (t : Nat → τ) :
    Inv (start h own s t) (fun i => NewReader (s i)) := by
  have nilp : ∀ q, q ≠ none → ∀ x ∈ parts (start h own s t) q, x = .nil := by
    intro q hq x hx
    rcases q with _ | ⟨_ | _, k⟩
    · exact absurd rfl hq
    · simpa [parts, start, NewReaderM] using hx
    · simpa [parts, start, NewWriterM] using hx
  refine ⟨fun p x hx => ?_, fun p q hne x hx y hy => ?_, fun i => rel_new h (s i), fun j => relW_new h (t j)⟩
  · by_cases hp : p = none
    · subst hp; exact ho x hx
    · rw [nilp p hp x hx]; exact wf_nil _
  · by_cases hp : p = none
    · subst hp
      rw [nilp q hne.symm y hy]; exact apart_nil _
    · rw [nilp p hp x hx]; exact nil_apart _

/-- C85: in every run of every program, each reader behaves as it would if it were alone and its buffers were not
memory but contents; so does each writer; and each call of the other functions returns what it returns for the
contents of its arguments. -/
theorem C85_as_alone (grow : Nat → Nat → Nat) (src : SourceM σ) (sink : Sink τ) (h : Heap) (own : List Slice)
    (ho : ∀ t ∈ own, WF h t) (s : Nat → σ) (t : Nat → τ) (es : List Happening) (w : World σ τ)
    (hr : Runs grow src sink (start h own s t) es w) :
    (∀ i, ∃ r, Reads (plain src) (NewReader (s i)) (bufsOf i es) (resultsOf i es) r) ∧
    (∀ j, ∃ w', Writes sink (NewWriter (t j)) (dataOf j es) (countsOf j es) w' ∧ w'.sink = (w.wr j).sink) ∧
    (∀ d res, .from_ d res ∈ es → res = From d) ∧ (∀ d res, .to d res ∈ es → res = To d) ∧
    (∀ x d e res, .decode x d e res ∈ es → res = decoderTransform x d e) ∧
    (∀ x d e res, .encode x d e res ∈ es → res = encoderTransform x d e) := by
  obtain ⟨r, _, h1, h2, h3⟩ := runs_inv hr (inv_start h own ho s t)
  exact ⟨fun i => ⟨r i, h2 i⟩, fun j => ⟨_, h3 j, rfl⟩, fun d res hm => h1 _ hm, fun d res hm => h1 _ hm,
    fun x d e res hm => h1 _ hm, fun x d e res hm => h1 _ hm⟩

/-- What the program holds is only changed by itself: a call changes no slice of the program's, apart from the visible part of
the buffer passed to `Read` or to `Transform`. -/
theorem C85_only_the_buffer (grow : Nat → Nat → Nat) (src : SourceM σ) (sink : Sink τ) (h : Heap) (own : List Slice)
    (ho : ∀ t ∈ own, WF h t) (s : Nat → σ) (t : Nat → τ) (es : List Happening) (w : World σ τ)
    (hr : Runs grow src sink (start h own s t) es w) (x : Slice) (hx : x ∈ w.own) :
    (∀ i buf fuel n err h' m, buf ∈ w.own → readLoopM grow src fuel w.heap (w.rd i) buf = .ret n err h' m →
      Apart x (clip buf) → h'.read x = w.heap.read x) ∧
    (∀ j d n err h' m, d ∈ w.own → WriteM grow sink w.heap (w.wr j) d = some (n, err, h', m) →
      h'.read x = w.heap.read x) ∧
    (∀ d out err h', d ∈ w.own → FromM grow w.heap d = some (out, err, h') ∨ ToM grow w.heap d = some (out, err, h') →
      h'.read x = w.heap.read x ∧ Apart x out) ∧
    (∀ y d e n k err h', y ∈ w.own → d ∈ w.own → decoderTransformM grow w.heap y d e = some (n, k, err, h') ∨
      encoderTransformM grow w.heap y d e = some (n, k, err, h') → Apart x (clip y) → h'.read x = w.heap.read x) := by
  obtain ⟨r, inv, _⟩ := runs_inv hr (inv_start h own ho s t)
  have wfo : ∀ t ∈ w.own, WF w.heap t := inv.wf none
  refine ⟨?_, ?_, ?_, ?_⟩
  · intro i buf fuel n err h' m hb hm ha
    have wb := wfo buf hb
    have sim := readLoopM_sim grow src fuel (inv.rel i) (wf_clip wb)
      (clear_clip wb.1 (clear_of inv (q := none) (by simp) hb))
    cases hq : readLoop (plain src) fuel (r i) (w.heap.read buf) with
    | panic => rw [hq] at sim; simp only at sim; rw [hm] at sim; simp at sim
    | running => rw [hq] at sim; simp only at sim; rw [hm] at sim; simp at sim
    | ret n' err' buf' r1 =>
      rw [hq] at sim
      obtain ⟨h1, m', s1, _, _, _, s5⟩ := sim
      rw [hm] at s1
      simp only [ReadOutM.ret.injEq] at s1
      obtain ⟨_, _, rfl, _⟩ := s1
      exact (s5 x (wfo x hx) (clear_of inv (q := none) (by simp) hx)).2.2 ha
  · intro j d n err h' m hd hm
    have ap : ∀ y ∈ w.own, Apart y (w.wr j).scratch := fun y hy =>
      inv.apart none (some (true, j)) (by simp) y hy _ (by simp [parts])
    obtain ⟨_, _, _, _, g1, _, _, g4⟩ := WriteM_spec grow sink (inv.relw j) (wfo d hd) (ap d hd)
    rw [hm] at g1
    simp only [Option.some.injEq, Prod.mk.injEq] at g1
    obtain ⟨_, _, rfl, _⟩ := g1
    exact (g4 x (wfo x hx) (ap x hx)).2.1
  · rintro d out err h' hd (hm | hm)
    · obtain ⟨_, _, _, g1, _, _, g4⟩ := FromM_spec grow w.heap d (wfo d hd)
      rw [hm] at g1
      simp only [Option.some.injEq, Prod.mk.injEq] at g1
      obtain ⟨rfl, _, rfl⟩ := g1
      exact (g4 x (wfo x hx)).2
    · obtain ⟨_, _, _, g1, _, _, g4⟩ := ToM_spec grow w.heap d (wfo d hd)
      rw [hm] at g1
      simp only [Option.some.injEq, Prod.mk.injEq] at g1
      obtain ⟨rfl, _, rfl⟩ := g1
      exact (g4 x (wfo x hx)).2
  · rintro y d e n k err h' hy hd (hm | hm) ha
    · obtain ⟨_, _, _, _, g1, _, g3⟩ := C56_decoder grow w.heap y d e (wfo y hy) (wfo d hd)
      rw [hm] at g1
      simp only [Option.some.injEq, Prod.mk.injEq] at g1
      obtain ⟨_, _, _, rfl⟩ := g1
      exact (g3 x (wfo x hx) ha).2
    · obtain ⟨_, _, _, _, g1, _, g3⟩ := C56_encoder grow w.heap y d e (wfo y hy) (wfo d hd)
      rw [hm] at g1
      simp only [Option.some.injEq, Prod.mk.injEq] at g1
      obtain ⟨_, _, _, rfl⟩ := g1
      exact (g3 x (wfo x hx) ha).2

/-- No call gets stuck: `From`, `To`, `Write` and the two `Transform`s return, whatever the program has done before; `Read` panics
or goes on for ever only if it does so for that reader alone. -/
theorem C85_returns (grow : Nat → Nat → Nat) (src : SourceM σ) (sink : Sink τ) (h : Heap) (own : List Slice)
    (ho : ∀ t ∈ own, WF h t) (s : Nat → σ) (t : Nat → τ) (es : List Happening) (w : World σ τ)
    (hr : Runs grow src sink (start h own s t) es w) (x y : Slice) (hx : x ∈ w.own) (hy : y ∈ w.own) (e : Bool) :
    (∃ z, FromM grow w.heap x = some z) ∧ (∃ z, ToM grow w.heap x = some z) ∧
    (∀ j, ∃ z, WriteM grow sink w.heap (w.wr j) x = some z) ∧
    (∃ z, decoderTransformM grow w.heap x y e = some z) ∧ (∃ z, encoderTransformM grow w.heap x y e = some z) ∧
    ∀ i r, Reads (plain src) (NewReader (s i)) (bufsOf i es) (resultsOf i es) r → ∀ fuel,
      (readLoopM grow src fuel w.heap (w.rd i) x = .panic ↔ readLoop (plain src) fuel r (w.heap.read x) = .panic) ∧
      (readLoopM grow src fuel w.heap (w.rd i) x = .running ↔ readLoop (plain src) fuel r (w.heap.read x) = .running) := by
  obtain ⟨r0, inv, _, hreads, _⟩ := runs_inv hr (inv_start h own ho s t)
  have wfo : ∀ t ∈ w.own, WF w.heap t := inv.wf none
  refine ⟨?_, ?_, fun j => ?_, ?_, ?_, fun i r hrd fuel => ?_⟩
  · obtain ⟨_, _, _, g1, _⟩ := FromM_spec grow w.heap x (wfo x hx); exact ⟨_, g1⟩
  · obtain ⟨_, _, _, g1, _⟩ := ToM_spec grow w.heap x (wfo x hx); exact ⟨_, g1⟩
  · obtain ⟨_, _, _, _, g1, _⟩ := WriteM_spec grow sink (inv.relw j) (wfo x hx)
      (inv.apart none (some (true, j)) (by simp) x hx _ (by simp [parts]))
    exact ⟨_, g1⟩
  · obtain ⟨_, _, _, _, g1, _⟩ := C56_decoder grow w.heap x y e (wfo x hx) (wfo y hy); exact ⟨_, g1⟩
  · obtain ⟨_, _, _, _, g1, _⟩ := C56_encoder grow w.heap x y e (wfo x hx) (wfo y hy); exact ⟨_, g1⟩
  · obtain rfl : r0 i = r := (Reads_det (hreads i) hrd).2
    have wb := wfo x hx
    have sim := readLoopM_sim grow src fuel (inv.rel i) (wf_clip wb)
      (clear_clip wb.1 (clear_of inv (q := none) (by simp) hx))
    cases hq : readLoop (plain src) fuel (r0 i) (w.heap.read x) with
    | panic => rw [hq] at sim; simp only at sim; rw [sim]; simp
    | running => rw [hq] at sim; simp only at sim; rw [sim]; simp
    | ret n' err' buf' r1 =>
      rw [hq] at sim
      obtain ⟨_, _, s1, _⟩ := sim
      rw [s1]; simp

theorem Reads_last {src : Source σ} {bs : List Str} {b : Str} {r r' : Reader σ} {xs : List Result}
    (h : Reads src r (bs ++ [b]) xs r') : ∃ xs' r1 n err b', Reads src r bs xs' r1 ∧ Returns src r1 b n err b' r' := by
  induction bs generalizing r xs with
  | nil =>
    cases h with
    | cons h1 h2 => cases h2 with
      | nil => exact ⟨[], _, _, _, _, .nil _, h1⟩
  | cons c bs ih =>
    cases h with
    | cons h1 h2 =>
      obtain ⟨xs', r1, n, err, b', h3, h4⟩ := ih h2
      exact ⟨_, r1, n, err, b', .cons h1 h3, h4⟩

/-- So in every program each reader over a stream that decodes delivers the decoded stream and then the source's error, whatever
else the program does; and as long as the program passes non-empty buffers, the next `Read` returns too. -/
theorem C85_delivers (grow : Nat → Nat → Nat) (src : SourceM σ) (sink : Sink τ) (h : Heap) (own : List Slice)
    (ho : ∀ t ∈ own, WF h t) (s : Nat → σ) (t : Nat → τ) (es : List Happening) (w : World σ τ)
    (hr : Runs grow src sink (start h own s t) es w) (i : Nat) (e : Err) (D : Str) (hd : Delivers (plain src) e (s i) D)
    (hD : (From D).2 = none) (hb : ∀ b ∈ bufsOf i es, b ≠ []) :
    (∃ good rest, resultsOf i es = good ++ rest ∧
      (∀ x ∈ good, 0 < x.1 ∧ x.1 ≤ x.2.2.length ∧ x.2.1 = none) ∧
      (∀ x ∈ rest, x.1 = 0 ∧ x.2.1 = some e) ∧
      delivered good <+: (From D).1 ∧
      (rest ≠ [] → delivered good = (From D).1) ∧
      ((From D).1.length < (bufsOf i es).length → rest ≠ [])) ∧
    ∀ x ∈ w.own, 0 < x.len → ∃ fuel n err h' m', readLoopM grow src fuel w.heap (w.rd i) x = .ret n err h' m' := by
  obtain ⟨r, inv, _, hreads, _⟩ := runs_inv hr (inv_start h own ho s t)
  refine ⟨?_, fun x hx hl => ?_⟩
  · obtain ⟨good, rest, r', h2, h3⟩ := C39_delivers (plain src) e (s i) D hd hD _ hb
    exact ⟨good, rest, (Reads_det (hreads i) h2).1, h3⟩
  · have wx := inv.wf none x hx
    have hne : w.heap.read x ≠ [] := by
      intro h0
      have := read_length wx
      rw [h0] at this
      simp at this
      omega
    obtain ⟨good, rest, r', h2, _⟩ := C39_delivers (plain src) e (s i) D hd hD (bufsOf i es ++ [w.heap.read x])
      (fun b hm => by
        rcases List.mem_append.1 hm with hm | hm
        · exact hb b hm
        · rw [List.mem_singleton.1 hm]; exact hne)
    obtain ⟨xs', r1, n, err, b', h3, fuel, h4⟩ := Reads_last h2
    obtain rfl : r i = r1 := (Reads_det (hreads i) h3).2
    have sim := readLoopM_sim grow src fuel (inv.rel i) (wf_clip wx)
      (clear_clip wx.1 (clear_of inv (q := none) (by simp) hx))
    rw [h4] at sim
    obtain ⟨h', m', s1, _⟩ := sim
    exact ⟨fuel, n, err, h', m', s1⟩

/-- A program: one array; two readers read into it by turns, a writer writes from it, and it is decoded. -/
example (grow : Nat → Nat → Nat) : ∃ es w, Runs grow messy discard
    (start [] [] (fun i => if i = 0 then [[0xB0], [0xA1]] else [[0x41]]) fun _ => ()) es w ∧
    (bufsOf 0 es).length = 1 ∧ (bufsOf 1 es).length = 1 ∧ (dataOf 0 es).length = 1 ∧ ∃ d res, Happening.from_ d res ∈ es := by
  have ho : ∀ t ∈ ([] : List Slice), WF [] t := by simp
  let s : Nat → List Str := fun i => if i = 0 then [[0xB0], [0xA1]] else [[0x41]]
  let b : Slice := ⟨0, 0, 3, 3⟩
  have snoc : ∀ {w w1 w2 : World (List Str) Unit} {es e}, Runs grow messy discard w es w1 →
      ProgStep grow messy discard w1 e w2 → Runs grow messy discard w (es ++ [e]) w2 := by
    intro w w1 w2 es e h st
    induction h with
    | nil => exact .cons st (.nil _)
    | cons h1 _ ih => exact .cons h1 (ih st)
  have h0 : Runs grow messy discard (start [] [] s fun _ => ()) [.quiet] _ := .cons (.alloc _ [9, 9, 9]) (.nil _)
  obtain ⟨f1, n1, e1, h1, m1, g1⟩ := (C85_delivers grow messy discard [] [] ho s _ _ _ h0 0 .eof [0xB0, 0xA1]
    (C39_every_chunking [[0xB0], [0xA1]] (by simp)) (by decide +kernel) (by simp [bufsOf])).2 b
    (List.mem_cons_self ..) (by decide)
  have r1 := snoc h0 (.read _ 0 (buf := b) (List.mem_cons_self ..) g1)
  obtain ⟨f2, n2, e2, h2, m2, g2⟩ := (C85_delivers grow messy discard [] [] ho s _ _ _ r1 1 .eof [0x41]
    (C39_every_chunking [[0x41]] (by simp)) (by decide +kernel) (by simp [bufsOf])).2 b
    (List.mem_cons_self ..) (by decide)
  have r2 := snoc r1 (.read _ 1 (buf := b) (List.mem_cons_self ..) g2)
  obtain ⟨⟨n3, e3, h3, m3⟩, g3⟩ := (C85_returns grow messy discard [] [] ho s _ _ _ r2 b b (List.mem_cons_self ..)
    (List.mem_cons_self ..) true).2.2.1 0
  have r3 := snoc r2 (.write _ 0 (data := b) (List.mem_cons_self ..) g3)
  obtain ⟨⟨out, e4, h4⟩, g4⟩ := (C85_returns grow messy discard [] [] ho s _ _ _ r3 b b (List.mem_cons_self ..)
    (List.mem_cons_self ..) true).1
  have r4 := snoc r3 (.from_ _ (data := b) (List.mem_cons_self ..) g4)
  exact ⟨_, _, r4, by simp [bufsOf], by simp [bufsOf], by simp [dataOf], _, _, List.mem_append_right _ (List.mem_singleton.2 rfl)⟩

end Props
