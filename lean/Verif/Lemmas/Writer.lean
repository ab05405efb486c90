import Verif.Spec.Stream
import Verif.Lemmas.Reader
/-! Lemmas about the stream writer, and bounds on the length of conversions. -/
namespace Cp949
open Go Spec

attribute [local irreducible] fromTable toTable rawFrom rawTo

variable {τ : Type}

theorem write_nil (sink : Sink τ) (t : τ) : Write sink ⟨t, []⟩ [] = (0, none, ⟨t, []⟩) := by
  unfold Write
  simp [toTranslate_eq]

theorem write_cons (sink : Sink τ) (t : τ) (d : Str) (hd : d ≠ []) :
    Write sink ⟨t, []⟩ d =
      (if (sink t (To d).1).2.1 = none then d.length else 0, (sink t (To d).1).2.1,
        ⟨(sink t (To d).1).2.2, []⟩) := by
  have hl := List.length_pos_iff.2 hd
  unfold Write
  simp only [toTranslate_eq, To_eq, List.length_nil, Nat.lt_irrefl, gt_iff_lt, if_false, if_pos hl]
  by_cases h : (sink t ((runes d).flatMap toUnit)).2.1 = none
  · simp [h]
  · simp [h]

theorem writes_buf {sink : Sink τ} {w w' : Writer τ} {ds res} (h : Writes sink w ds res w')
    (hw : w.buf = []) : w'.buf = [] := by
  induction h with
  | nil => exact hw
  | @cons w d n err w' ds res w'' h1 _ ih =>
    apply ih
    obtain ⟨t, buf⟩ := w
    simp only at hw
    subst hw
    by_cases hd : d = []
    · subst hd; rw [write_nil] at h1; simp only [Prod.mk.injEq] at h1; rw [← h1.2.2]
    · rw [write_cons _ _ _ hd] at h1; simp only [Prod.mk.injEq] at h1; rw [← h1.2.2]

/-- Any writes to a sink that accepts everything. -/
theorem writes_accept (sink : Sink τ) (hs : ∀ t d, (sink t d).2.1 = none) (t : τ) (log : List Str)
    (ds : List Str) :
    ∃ t', Writes (loggedSink sink) ⟨(t, log), []⟩ ds (ds.map fun d => (d.length, none))
      ⟨(t', log ++ (ds.filter (· ≠ [])).map fun d => (To d).1), []⟩ := by
  induction ds generalizing t log with
  | nil => exact ⟨t, by simpa using Writes.nil _⟩
  | cons d ds ih =>
    by_cases hd : d = []
    · subst hd
      obtain ⟨t', h⟩ := ih t log
      refine ⟨t', .cons (write_nil _ _) ?_⟩
      simpa using h
    · obtain ⟨t', h⟩ := ih (sink t (To d).1).2.2 (log ++ [(To d).1])
      refine ⟨t', .cons (w' := ⟨((sink t (To d).1).2.2, log ++ [(To d).1]), []⟩) ?_ ?_⟩
      · rw [write_cons _ _ _ hd]
        simp [loggedSink, hs]
      · simpa [hd] using h

theorem To_nil : To [] = ([], none) := by rw [To_eq]; rfl

theorem flatten_received (ds : List Str) :
    ((ds.filter (· ≠ [])).map fun d => (To d).1).flatten = ds.flatMap fun d => (To d).1 := by
  induction ds with
  | nil => rfl
  | cons d ds ih =>
    by_cases hd : d = []
    · subst hd; simpa [To_nil] using ih
    · simp [hd] at ih ⊢
      exact ih

theorem boundary_flatten (ds : List Str) (h : ∀ d ∈ ds, Boundary d) : Boundary ds.flatten := by
  induction ds with
  | nil => intro b t h; simp at h
  | cons d ds ih =>
    cases d with
    | nil => exact ih fun d hd => h d (by simp [hd])
    | cons x xs =>
      intro b t hb
      simp only [List.flatten_cons, List.cons_append, List.cons.injEq] at hb
      exact h (x :: xs) (by simp) b xs (by rw [hb.1])

theorem To_flatten (ds : List Str) (h : ∀ d ∈ ds.tail, Boundary d) :
    (To ds.flatten).1 = ds.flatMap fun d => (To d).1 := by
  induction ds with
  | nil => rw [List.flatten_nil, To_nil]; rfl
  | cons d ds ih =>
    rw [List.flatten_cons, C33_concat_boundary _ _ (boundary_flatten ds h), List.flatMap_cons,
      ih fun x hx => h x (List.mem_of_mem_tail hx)]

theorem boundary_isUtf8 {d : Str} (h : IsUtf8 d) : Boundary d := by
  obtain ⟨cs, rfl⟩ := h
  exact boundary_utf8 cs

theorem runes_length (s : Str) : (runes s).length ≤ s.length := by
  refine decode_induction (P := fun s => (runes s).length ≤ s.length) (by simp [runes_nil]) ?_ ?_ s
  · intro c rest ih
    have := (utf8EncodeChar_length c).1
    rw [runes_char, List.length_cons, List.length_append]
    omega
  · intro b p h ih
    rw [runes_cons, h]
    simpa using ih

theorem toUnit_length (r : Rune) : (toUnit r).length ≤ 2 := by
  unfold toUnit toUnitT
  split
  · simp
  · simp only
    split
    · rw [if_neg (by omega)]; simp
    · split <;> simp

theorem To_length (s : Str) : (To s).1.length ≤ 2 * s.length := by
  rw [To_eq]
  have h := runes_length s
  simp only
  generalize runes s = l at *
  have : (l.flatMap toUnit).length ≤ 2 * l.length := by
    clear h
    induction l with
    | nil => simp
    | cons r l ih =>
      have := toUnit_length r
      simp only [List.flatMap_cons, List.length_append, List.length_cons]
      omega
  omega

theorem From_length (b : Str) : 2 * (From b).1.length ≤ 3 * b.length := by
  rcases dec_cases b with ⟨cs, h⟩ | h
  · rw [From_dec h]; exact dec_length h
  · rw [From_truncated h]; simp

end Cp949
