import Verif.Lemmas.Writer
/-! Property theorems C46–C48 (package cp949: `NewWriter`). -/
namespace Props
open Go Spec Cp949

attribute [local irreducible] fromTable toTable rawFrom rawTo

/-- A sink that accepts everything and keeps nothing. -/
def discard : Sink Unit := fun _ d => (d.length, none, ())

/-! ### C46 -/

/-- The sink (any that reports no error) has received `To` of everything written so far, each call
has returned the length of its argument and no error. As this holds after any list of calls, nothing is held
back after any of them. -/
theorem C46_forwards {τ : Type} (sink : Sink τ) (hs : ∀ t d, (sink t d).2.1 = none) (t : τ)
    (ds : List Str) (h : ∀ d ∈ ds, IsUtf8 d) :
    ∃ w', Writes (loggedSink sink) (NewWriter (t, [])) ds (ds.map fun d => (d.length, none)) w' ∧
      w'.sink.2.flatten = (To ds.flatten).1 ∧ w'.buf = [] := by
  obtain ⟨t', hw⟩ := writes_accept sink hs t [] ds
  refine ⟨_, hw, ?_, rfl⟩
  simp only [List.nil_append]
  rw [flatten_received, To_flatten]
  exact fun d hd => boundary_isUtf8 (h d (List.mem_of_mem_tail hd))

/-- In terms of texts: if the whole text can be written in CP949, the sink holds its encoding. -/
theorem C46_encodes {τ : Type} (sink : Sink τ) (hs : ∀ t d, (sink t d).2.1 = none) (t : τ)
    (texts : List (List Char)) (b : Str) (h : Enc texts.flatten b) :
    ∃ res w', Writes (loggedSink sink) (NewWriter (t, [])) (texts.map utf8) res w' ∧
      w'.sink.2.flatten = b := by
  obtain ⟨w', h1, h2, _⟩ := C46_forwards sink hs t (texts.map utf8) (by
    intro d hd
    obtain ⟨cs, _, rfl⟩ := List.mem_map.1 hd
    exact ⟨cs, rfl⟩)
  refine ⟨_, w', h1, ?_⟩
  have : (texts.map utf8).flatten = utf8 texts.flatten := by
    clear h h1 h2
    induction texts with
    | nil => rfl
    | cons x xs ih => rw [List.map_cons, List.flatten_cons, ih, List.flatten_cons, utf8_append]
  rw [h2, this, To_enc h]

/-- Calls have one outcome. -/
theorem C46_deterministic {τ : Type} (sink : Sink τ) (w w₁ w₂ : Writer τ) (ds : List Str)
    (res res' : List (Nat × Option Err)) (h : Writes sink w ds res w₁) (h' : Writes sink w ds res' w₂) :
    res = res' ∧ w₁ = w₂ := by
  induction h generalizing res' w₂ with
  | nil => cases h'; exact ⟨rfl, rfl⟩
  | cons h1 _ ih =>
    cases h' with
    | cons h1' h2' =>
      rw [h1] at h1'
      simp only [Prod.mk.injEq] at h1'
      obtain ⟨rfl, rfl, rfl⟩ := h1'
      obtain ⟨rfl, rfl⟩ := ih _ _ h2'
      exact ⟨rfl, rfl⟩

example : (∀ t d, (discard t d).2.1 = none) ∧ ∀ d ∈ [utf8 ['가'], [], utf8 ['A']], IsUtf8 d :=
  ⟨fun _ _ => rfl, by
    intro d hd
    simp only [List.mem_cons, List.not_mem_nil, or_false] at hd
    rcases hd with rfl | rfl | rfl
    · exact ⟨_, rfl⟩
    · exact ⟨[], rfl⟩
    · exact ⟨_, rfl⟩⟩

/-! ### C47 -/

theorem To_ga_cut : (To [0xEA]).1 ++ (To [0xB0, 0x80]).1 = List.replicate 6 0x3F := by
  have h : toUnit (runeOf fffd) = [0x3F, 0x3F] :=
    toUnit_double (by rw [fffd_toNat]; omega) (by rw [fffd_toNat]; omega)
  rw [To_eq, To_eq]
  have h1 : runes [0xEA] = [runeOf fffd] := by decide +kernel
  have h2 : runes [0xB0, 0x80] = [runeOf fffd, runeOf fffd] := by decide +kernel
  rw [h1, h2]
  simp [h]

/-- FALSE as stated: 가 written whole arrives as its two-byte code; cut after its first UTF-8 byte it
arrives as six question marks. -/
theorem C47_split_fails :
    ∃ whole pieces w w' res res', pieces.flatten = whole ∧
      Writes (loggedSink discard) (NewWriter ((), [])) [whole] res w ∧
      Writes (loggedSink discard) (NewWriter ((), [])) pieces res' w' ∧
      w.sink.2.flatten.length = 2 ∧ Enc ['가'] w.sink.2.flatten ∧
      w'.sink.2.flatten = List.replicate 6 0x3F := by
  obtain ⟨code, hc⟩ := chart_ga
  rw [← ga_toNat] at hc
  obtain ⟨hi, lo, he⟩ : ∃ hi lo, Enc ['가'] [hi, lo] := by
    have := enc_code hc .nil
    exact ⟨_, _, this⟩
  obtain ⟨t1, h1⟩ := writes_accept discard (fun _ _ => rfl) () [] [utf8 ['가']]
  obtain ⟨t2, h2⟩ := writes_accept discard (fun _ _ => rfl) () [] [[0xEA], [0xB0, 0x80]]
  have hw : (([utf8 ['가']].filter (· ≠ [])).map fun d => (To d).1).flatten = [hi, lo] := by
    rw [flatten_received]
    simp [To_enc he]
  refine ⟨utf8 ['가'], [[0xEA], [0xB0, 0x80]], _, _, _, _, by decide, h1, h2, ?_, ?_, ?_⟩
  · simp only [List.nil_append]; rw [hw]; rfl
  · simp only [List.nil_append]; rw [hw]; exact he
  · simp only [List.nil_append]; rw [flatten_received]
    simpa using To_ga_cut

/-- What holds (1): pieces that begin at character boundaries; the text itself may be any bytes.
Missing: cuts inside a character. -/
theorem C47_split_partial {τ : Type} (sink : Sink τ) (hs : ∀ t d, (sink t d).2.1 = none) (t : τ)
    (ds ds' : List Str) (h : ∀ d ∈ ds.tail, Boundary d) (h' : ∀ d ∈ ds'.tail, Boundary d)
    (he : ds.flatten = ds'.flatten) :
    ∃ res w res' w', Writes (loggedSink sink) (NewWriter (t, [])) ds res w ∧
      Writes (loggedSink sink) (NewWriter (t, [])) ds' res' w' ∧
      w.sink.2.flatten = w'.sink.2.flatten := by
  obtain ⟨t1, h1⟩ := writes_accept sink hs t [] ds
  obtain ⟨t2, h2⟩ := writes_accept sink hs t [] ds'
  refine ⟨_, _, _, _, h1, h2, ?_⟩
  simp only [List.nil_append]
  rw [flatten_received, flatten_received, ← To_flatten _ h, ← To_flatten _ h', he]

/-- What holds (2): for any pieces at all, what the sink receives is `To` of each piece on its own. -/
theorem C47_exact {τ : Type} (sink : Sink τ) (hs : ∀ t d, (sink t d).2.1 = none) (t : τ)
    (ds : List Str) :
    ∃ res w, Writes (loggedSink sink) (NewWriter (t, [])) ds res w ∧
      w.sink.2.flatten = ds.flatMap fun d => (To d).1 := by
  obtain ⟨t1, h1⟩ := writes_accept sink hs t [] ds
  exact ⟨_, _, h1, by simp only [List.nil_append]; exact flatten_received ds⟩

example : ∀ d ∈ [utf8 ['가'], utf8 ['나', '다']].tail, Boundary d := by
  intro d hd
  simp only [List.tail_cons, List.mem_singleton] at hd
  subst hd
  exact boundary_utf8 _

/-! ### C48 -/

/-- After any history, with any sink: a non-empty `Write(d)` makes exactly one call to the sink, with
`To(d)`; it returns the length of `d` and no error, or `0` and the sink's error. An empty one does
nothing. A failed call leaves nothing behind that would change later ones. -/
theorem C48_reports {τ : Type} (sink : Sink τ) (t : τ) (ds : List Str) (res : List (Nat × Option Err))
    (w : Writer τ) (h : Writes sink (NewWriter t) ds res w) (d : Str) :
    (d = [] → Write sink w d = (0, none, w)) ∧
    (d ≠ [] → ∀ n err t', sink w.sink (To d).1 = (n, err, t') →
      (err = none → Write sink w d = (d.length, none, ⟨t', w.buf⟩)) ∧
      (∀ e, err = some e → Write sink w d = (0, some e, ⟨t', w.buf⟩))) := by
  have hb := writes_buf h rfl
  obtain ⟨t1, buf⟩ := w
  simp only at hb
  subst hb
  refine ⟨?_, ?_⟩
  · rintro rfl; exact write_nil ..
  · intro hd n err t' hs
    simp only at hs
    rw [write_cons _ _ _ hd, hs]
    refine ⟨?_, ?_⟩
    · rintro rfl; rfl
    · rintro e rfl; rfl

/-- The number of calls to the sink: one for each non-empty `Write`, in order. -/
theorem C48_one_call_each {τ : Type} (sink : Sink τ) (t : τ) (ds : List Str)
    (res : List (Nat × Option Err)) (w : Writer (τ × List Str))
    (h : Writes (loggedSink sink) (NewWriter (t, [])) ds res w) :
    w.sink.2 = (ds.filter (· ≠ [])).map fun d => (To d).1 := by
  have main : ∀ (t : τ) (log : List Str), Writes (loggedSink sink) ⟨(t, log), []⟩ ds res w →
      w.sink.2 = log ++ (ds.filter (· ≠ [])).map fun d => (To d).1 := by
    clear h
    induction ds generalizing res with
    | nil => intro t log h; cases h; simp
    | cons d ds ih =>
      intro t log h
      cases h with
      | @cons _ _ n err w' _ res _ h1 h2 =>
        by_cases hd : d = []
        · subst hd
          rw [write_nil] at h1
          simp only [Prod.mk.injEq] at h1
          rw [← h1.2.2] at h2
          simpa using ih _ t log h2
        · rw [write_cons _ _ _ hd] at h1
          simp only [Prod.mk.injEq] at h1
          rw [← h1.2.2] at h2
          have := ih _ _ _ h2
          simpa [hd, loggedSink] using this
  simpa using main t [] h

/-- A sink that refuses its second call. -/
def refuseSecond : Sink Nat := fun k d => if k = 1 then (0, some .eof, k + 1) else (d.length, none, k + 1)

example : ∃ w, Writes refuseSecond (NewWriter 0) [[0x41], [0x42], [0x43]]
    [(1, none), (0, some .eof), (1, none)] w :=
  ⟨_, .cons (write_cons _ _ _ (by simp)) (.cons (write_cons _ _ _ (by simp))
    (.cons (write_cons _ _ _ (by simp)) (.nil _)))⟩

end Props
