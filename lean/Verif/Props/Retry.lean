import Verif.Spec.Retry
import Verif.Props.Pipe
import Verif.Props.Sections
import Verif.Lemmas.Writer
/-! Property theorems C107, C108 (package cp949: streams with temporary errors). -/
namespace Props
open Go Spec Cp949

attribute [local irreducible] fromTable toTable rawFrom rawTo

/-! ### C107 -/

/-- Exactly what the sink has taken in the end: the beginnings taken by the calls that failed, and then everything. -/
theorem resumes_exact (e : Err) (d : Str) (hd : d ≠ []) (ks : List Nat) (got : Str) (w' : Writer (List Nat × Str)) :
    Resumes (faltering e) ⟨(ks, got), []⟩ d w' ↔
      w' = ⟨([], got ++ ks.flatMap (fun k => (To d).1.take k) ++ (To d).1), []⟩ := by
  induction ks generalizing got with
  | nil =>
    have hw : Write (faltering e) ⟨([], got), []⟩ d = (d.length, none, ⟨([], got ++ (To d).1), []⟩) := by
      rw [write_cons _ _ _ hd]; rfl
    constructor
    · intro h
      cases h with
      | done h => rw [hw] at h; simp only [Prod.mk.injEq] at h; rw [← h.2.2]; simp
      | again h _ => rw [hw] at h; simp at h
    · rintro rfl
      rw [List.flatMap_nil, List.append_nil]
      exact .done hw
  | cons k ks ih =>
    have hw : Write (faltering e) ⟨(k :: ks, got), []⟩ d = (0, some e, ⟨(ks, got ++ (To d).1.take k), []⟩) := by
      rw [write_cons _ _ _ hd]; rfl
    have he : got ++ (k :: ks).flatMap (fun k => (To d).1.take k) ++ (To d).1 =
        got ++ (To d).1.take k ++ ks.flatMap (fun k => (To d).1.take k) ++ (To d).1 := by simp
    rw [he]
    constructor
    · intro h
      cases h with
      | done h => rw [hw] at h; simp at h
      | again h h' =>
        rw [hw] at h
        simp only [Prod.mk.injEq] at h
        obtain ⟨rfl, -, rfl⟩ := h
        exact (ih _).1 h'
    · intro h
      exact .again hw ((ih _).2 h)

/-- FALSE as stated: a `Write` that fails returns 0 even if bytes have been written, so that they are written twice. -/
theorem C107_resume_fails (e : Err) : ∃ ks d w', d ≠ [] ∧ Resumes (faltering e) (NewWriter (ks, [])) d w' ∧ w'.sink.2 ≠ (To d).1 := by
  have hA : To [0x41, 0x42] = ([0x41, 0x42], none) := (C34_ascii [0x41, 0x42] (by simp)).2
  refine ⟨[1], [0x41, 0x42], _, by simp, (resumes_exact e _ (by simp) _ _ _).2 rfl, ?_⟩
  rw [hA]
  simp

/-- Exactly when it holds: the sink has taken the encoded text once if and only if no call that failed had taken anything. (The caller
does get to the end.) Missing: the other sinks. -/
theorem C107_resume_iff_partial (e : Err) (ks : List Nat) (d : Str) :
    (∃ w', Resumes (faltering e) (NewWriter (ks, [])) d w') ∧
    ∀ w', Resumes (faltering e) (NewWriter (ks, [])) d w' → d ≠ [] →
      (w'.sink.2 = (To d).1 ↔ ∀ k ∈ ks, k = 0) := by
  constructor
  · by_cases hd : d = []
    · subst hd; exact ⟨_, .done (write_nil _ _)⟩
    · exact ⟨_, (resumes_exact e d hd ks [] _).2 rfl⟩
  · intro w' h hd
    rw [(resumes_exact e d hd ks [] w').1 h]
    simp only [List.nil_append]
    have hne := List.length_pos_iff.2 (To_ne_nil hd)
    constructor
    · intro h k hk
      have h0 : ks.flatMap (fun k => (To d).1.take k) = [] := by
        have := congrArg List.length h
        rw [List.length_append] at this
        exact List.length_eq_zero_iff.1 (by omega)
      have := congrArg List.length (List.flatMap_eq_nil_iff.1 h0 k hk)
      rw [List.length_take, List.length_nil] at this
      omega
    · intro h
      have h0 : ks.flatMap (fun k => (To d).1.take k) = [] := by
        rw [List.flatMap_eq_nil_iff]
        intro k hk
        rw [h k hk, List.take_zero]
      rw [h0, List.nil_append]

/-- C107 applies, with sinks of both kinds. -/
example : (∀ k ∈ [0, 0], k = 0) ∧ ¬ (∀ k ∈ [0, 1], k = 0) := by decide

/-! ### C108 -/

theorem interrupted_rest (e : Err) {l : List Str} {D : Str} (h : Delivers chunked .eof l D) :
    Delivers (interrupted e) .eof (l, none) D := by
  induction h with
  | mk l D h1 h2 h3 h4 ih =>
    have he : ∀ k, interrupted e (l, none) k = ((chunked l k).1, (chunked l k).2.1, ((chunked l k).2.2, none)) := by
      intro k; cases l <;> rfl
    refine .mk _ _ ?_ ?_ ?_ ?_ <;> intro k hk <;> simp only [he]
    · exact h1 k hk
    · exact h2 k hk
    · exact h3 k hk
    · exact ih k hk

theorem interrupted_first (e : Err) (m : List Str) {l : List Str} {D : Str} (h : Delivers chunked .eof l D) :
    Delivers (interrupted e) e (l, some m) D := by
  induction h with
  | mk l D h1 h2 h3 h4 ih =>
    cases l with
    | nil =>
      have hD : D = [] := ((h3 1 (by simp) (by simp [chunked])).1).symm
      subst hD
      refine .mk _ _ ?_ ?_ ?_ ?_ <;> intro k hk <;> simp [interrupted]
    | cons c cs =>
      have he : ∀ k, interrupted e (c :: cs, some m) k =
          ((chunked (c :: cs) k).1, (chunked (c :: cs) k).2.1, ((chunked (c :: cs) k).2.2, some m)) := fun _ => rfl
      have hn : ∀ k, (chunked (c :: cs) k).2.1 = none := by intro k; simp only [chunked]; split <;> rfl
      refine .mk _ _ ?_ ?_ ?_ ?_ <;> intro k hk <;> simp only [he]
      · exact h1 k hk
      · exact h2 k hk
      · exact fun h => absurd (hn k) h
      · exact ih k hk

/-- FALSE as stated: the source delivers A, fails once and then has B to deliver, but the Reader returns the error for ever (as it
always does, `C43_error_is_final`). -/
theorem C108_same_reader_fails (e : Err) : ∃ r, Reads (interrupted e) (NewReader ([[0x41]], some [[0x42]])) [[0], [0]]
      [(1, none, [0x41]), (0, some e, [0])] r ∧ Delivers (interrupted e) .eof r.src [0x42] ∧
    ∀ bufs, Reads (interrupted e) r bufs (bufs.map fun b => (0, some e, b)) r := by
  have h2 : Returns (interrupted e) ⟨([], some [[0x42]]), [], [], 1, none⟩ [0] 0 (some e) [0]
      ⟨([[0x42]], none), [], [], 1, some e⟩ := ⟨2, rfl⟩
  exact ⟨⟨([[0x42]], none), [], [], 1, some e⟩,
    .cons (r' := ⟨([], some [[0x42]]), [], [], 1, none⟩) ⟨2, rfl⟩ (.cons h2 (.nil _)),
    interrupted_rest e (chunked_delivers [[0x42]] (by simp)),
    C43_error_is_final _ _ _ _ _ _ _ h2 _⟩

/-- What holds: a new Reader over the same source goes on, if and only if the source had not been interrupted inside a character.
(Of sources that deliver, then fail, and then deliver the rest, the whole being decodable.) Missing: the others, and the same Reader. -/
theorem C108_new_reader_iff_partial (src : Source σ) (e e' : Err) (s : σ) (D D' : Str) (hD : (From (D ++ D')).2 = none)
    (h : Delivers src e s D) (bufs bufs' : List Str) (hb : ∀ b ∈ bufs, b ≠ []) (hb' : ∀ b ∈ bufs', b ≠ [])
    (hl : 3 * D.length < 2 * bufs.length) (hl' : 3 * D'.length < 2 * bufs'.length)
    (res res' : List Result) (r r' : Reader σ) (hr : Reads src (NewReader s) bufs res r) (h' : Delivers src e' r.src D')
    (hr' : Reads src (NewReader r.src) bufs' res' r') :
    res.getLast?.map (·.2.1) = some (some e) ∧
    (delivered res ++ delivered res' = (From (D ++ D')).1 ↔ (From D).2 = none) := by
  have ht : (D ++ D').take D.length = D := List.take_left
  have hd : (D ++ D').drop D.length = D' := List.drop_left
  constructor
  · obtain ⟨good, rest, r1, g1, g2, -, g4, -⟩ := C40_any_stream_partial src e s D h bufs hb hl
    obtain ⟨rfl, -⟩ := Reads_det hr g1
    rw [List.getLast?_append, List.getLast?_eq_some_getLast g2]
    exact congrArg some (g4 _ (List.getLast_mem g2)).2
  · have := C105_sections_iff_partial src src e e' s r.src (D ++ D') D.length hD (by rw [ht]; exact h) (by rw [hd]; exact h')
      bufs bufs' hb hb' (by rw [ht]; exact hl) (by rw [hd]; exact hl') res res' r r' hr hr'
    rw [ht] at this
    exact this

/-- C108_new_reader_iff_partial applies: 가 and A, interrupted before A, and inside 가. -/
example (e : Err) : Delivers (interrupted e) e ([[0xB0, 0xA1]], some [[0x41]]) [0xB0, 0xA1] ∧
    Delivers (interrupted e) e ([[0xB0]], some [[0xA1, 0x41]]) [0xB0] ∧
    Delivers (interrupted e) .eof ([[0x41]], none) [0x41] ∧ Delivers (interrupted e) .eof ([[0xA1, 0x41]], none) [0xA1, 0x41] ∧
    (From ([0xB0, 0xA1] ++ [0x41])).2 = none ∧ (From [0xB0, 0xA1]).2 = none ∧ (From [0xB0]).2 ≠ none :=
  ⟨interrupted_first e _ (chunked_delivers [[0xB0, 0xA1]] (by simp)), interrupted_first e _ (chunked_delivers [[0xB0]] (by simp)),
    interrupted_rest e (chunked_delivers [[0x41]] (by simp)), interrupted_rest e (chunked_delivers [[0xA1, 0x41]] (by simp)),
    by decide +kernel, by decide +kernel, by decide +kernel⟩

end Props
