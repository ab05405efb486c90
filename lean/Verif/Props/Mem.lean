import Verif.Lemmas.MemReader
import Verif.Props.Encoding
import Verif.Props.Reader
/-! Property theorems C52–C56 (package cp949: buffers and aliasing). -/
namespace Props
open Go Spec Cp949

attribute [local irreducible] fromTable toTable rawFrom rawTo

/-! ### C52 -/

/-- The output is at most 3/2, respectively twice, as long as the input. -/
theorem C52_growth (b s : Str) :
    2 * (From b).1.length ≤ 3 * b.length ∧ (To s).1.length ≤ 2 * s.length :=
  ⟨From_length b, To_length s⟩

/-- Appending a rune: for any buffer, it does not panic; the new buffer holds the old contents and
the rune, and the old buffer still holds what it did. Other slices do not change. -/
theorem C52_append_rune (h : Heap) (s : Slice) (r : Rune) (w : WF h s) :
    ∃ s' h', appendRuneM h s r = some (s', h') ∧ h'.read s' = h.read s ++ encodeRune r ∧ WF h' s' ∧
      Same h h' s ∧ ∀ t, WF h t → Apart t s → Same h h' t ∧ Apart t s' := by
  obtain ⟨s', h', h1, e⟩ := appendRuneM_ext w r
  refine ⟨s', h', h1, e.read, e.wf, appendRuneM_old w h1, fun t wt a => ?_⟩
  obtain ⟨t1, t2, t3⟩ := e.frame t wt a
  exact ⟨⟨t1, t2⟩, t3⟩

/-- Making room: the room is there, the contents are the same. -/
theorem C52_ensure_cap (h : Heap) (s : Slice) (n : Nat) (w : WF h s) :
    n ≤ (ensureCapM h s n).1.cap ∧ WF (ensureCapM h s n).2 (ensureCapM h s n).1 ∧
    (ensureCapM h s n).2.read (ensureCapM h s n).1 = h.read s ∧
    ∀ t, WF h t → Apart t s → Same h (ensureCapM h s n).2 t ∧ Apart t (ensureCapM h s n).1 := by
  obtain ⟨e, _, hc⟩ := ensureCapM_ext w n
  refine ⟨by rw [hc]; exact ensureCapCap_ge .., e.wf, by rw [e.read, List.append_nil], fun t wt a => ?_⟩
  obtain ⟨t1, t2, t3⟩ := e.frame t wt a
  exact ⟨⟨t1, t2⟩, t3⟩

/-- The loop that finds the new capacity ends by its own condition, within `n` rounds, and with enough:
more fuel makes no difference. -/
theorem C52_grow_terminates (k m n : Nat) (hm : 0 < m) (hn : m < n) :
    growLoop (n + k) m n = growLoop n m n ∧ n ≤ growLoop n m n :=
  ⟨growLoop_fuel n k m n hm (by omega) (by omega),
    growLoop_ge n m n hm (by omega)⟩

/-- The bounds are reached: by a Hangul syllable, and by a byte that is not UTF-8. -/
example : (From [0xB0, 0xA1]).1.length = 3 ∧ (To [0xFF]).1.length = 2 := by
  constructor
  · rw [From_enc (cs := ['가']) (.pair (by unfold Chart; decide +kernel) .nil)]
    decide +kernel
  · rw [To_eq, show runes [0xFF] = [runeOf '\uFFFD'] by decide, List.flatMap_cons, List.flatMap_nil, List.append_nil,
      toUnit_double (by decide) (by decide)]
    rfl

/-- A buffer with spare capacity in the middle of an array, and one without. -/
example : WF [[1, 2, 3, 4, 5, 6, 7, 8]] ⟨0, 1, 2, 6⟩ ∧ WF [[1, 2, 3]] ⟨0, 1, 2, 2⟩ := by
  unfold WF; decide

/-! ### C53 -/

/-- `From` on memory. -/
theorem C53_from (grow : Nat → Nat → Nat) (h : Heap) (in_ : Slice) (w : WF h in_) :
    ∃ out err h', FromM grow h in_ = some (out, err, h') ∧ (h'.read out, err) = From (h.read in_) ∧
      WF h' out ∧ ∀ t, WF h t → Same h h' t ∧ Apart t out := by
  obtain ⟨out, err, h', h1, h2, h3, h4⟩ := FromM_spec grow h in_ w
  exact ⟨out, err, h', h1, h2, h3, fun t wt => ⟨⟨(h4 t wt).1, (h4 t wt).2.1⟩, (h4 t wt).2.2⟩⟩

/-- `To` on memory. -/
theorem C53_to (grow : Nat → Nat → Nat) (h : Heap) (in_ : Slice) (w : WF h in_) :
    ∃ out err h', ToM grow h in_ = some (out, err, h') ∧ (h'.read out, err) = To (h.read in_) ∧
      WF h' out ∧ ∀ t, WF h t → Same h h' t ∧ Apart t out := by
  obtain ⟨out, err, h', h1, h2, h3, h4⟩ := ToM_spec grow h in_ w
  exact ⟨out, err, h', h1, h2, h3, fun t wt => ⟨⟨(h4 t wt).1, (h4 t wt).2.1⟩, (h4 t wt).2.2⟩⟩

/-- What `Apart` is for: a write into (the capacity of) one slice does not show in the other. -/
theorem C53_apart (h : Heap) (s t : Slice) (ws : WF h s) (wt : WF h t) (a : Apart t s) (i : Nat)
    (bs : Str) (hi : i + bs.length ≤ s.cap) : Same h (h.write s.arr (s.off + i) bs) t := by
  obtain ⟨f, _, _⟩ := write_frame ws i bs hi
  exact ⟨(f t wt a).1, (f t wt a).2.1⟩

/-! ### C54 -/

/-- Every sequence of calls on memory is one on contents. -/
theorem C54_same_as_copies {σ : Type} (grow : Nat → Nat → Nat) (src : SourceM σ) (s : σ) (h h' : Heap)
    (m' : ReaderM σ) (bufs : List Str) (res : List Result)
    (hr : ReadsM grow src h (NewReaderM s) bufs res h' m') :
    ∃ r', Reads (plain src) (NewReader s) bufs res r' := by
  obtain ⟨r', h1, _⟩ := readsM_sim hr (rel_new h s)
  exact ⟨r', h1⟩

/-- After any such sequence, a further call returns on memory exactly when it does on contents, and with
the same results; neither panics unless both do. Of the caller's slices (those clear of the reader's
buffers) only those that overlap the buffer passed change. -/
theorem C54_next_call {σ : Type} (grow : Nat → Nat → Nat) (src : SourceM σ) (s : σ) (h h₁ h₂ : Heap)
    (m : ReaderM σ) (r : Reader σ) (bufs : List Str) (res : List Result)
    (hm : ReadsM grow src h (NewReaderM s) bufs res h₁ m)
    (hr : Reads (plain src) (NewReader s) bufs res r)
    (hl : Leaves m h₁ h₂) (buf : Slice) (wb : WF h₂ (clip buf)) (cb : Clear m (clip buf)) (fuel : Nat) :
    (∀ n err buf' r', readLoop (plain src) fuel r (h₂.read buf) = .ret n err buf' r' →
      ∃ h₃ m', readLoopM grow src fuel h₂ m buf = .ret n err h₃ m' ∧ h₃.read buf = buf' ∧
        ∀ t, WF h₂ t → Clear m t → WF h₃ t ∧ Clear m' t ∧ (Apart t (clip buf) → h₃.read t = h₂.read t)) ∧
    (readLoop (plain src) fuel r (h₂.read buf) = .panic →
      readLoopM grow src fuel h₂ m buf = .panic) ∧
    (readLoop (plain src) fuel r (h₂.read buf) = .running →
      readLoopM grow src fuel h₂ m buf = .running) := by
  obtain ⟨r1, h1, h2⟩ := readsM_sim hm (rel_new h s)
  obtain rfl : r1 = r := (Reads_det h1 hr).2
  have sim := readLoopM_sim grow src fuel (rel_leaves h2 hl) wb cb
  refine ⟨fun n err buf' r' hq => ?_, fun hq => ?_, fun hq => ?_⟩
  · rw [hq] at sim
    obtain ⟨h3, m', g1, g2, _, _, g5⟩ := sim
    exact ⟨h3, m', g1, g2, g5⟩
  · rw [hq] at sim; exact sim
  · rw [hq] at sim; exact sim

/-- So the delivery property of C39 holds on memory: whatever else happens to memory between the calls,
and whatever the source scribbles behind its data. -/
theorem C54_delivers {σ : Type} (grow : Nat → Nat → Nat) (src : SourceM σ) (e : Err) (s : σ) (D : Str)
    (h : Delivers (plain src) e s D) (hD : (From D).2 = none) (h₀ h' : Heap) (m' : ReaderM σ)
    (bufs : List Str) (res : List Result) (hb : ∀ b ∈ bufs, b ≠ [])
    (hr : ReadsM grow src h₀ (NewReaderM s) bufs res h' m') :
    ∃ good rest, res = good ++ rest ∧
      (∀ x ∈ good, 0 < x.1 ∧ x.1 ≤ x.2.2.length ∧ x.2.1 = none) ∧
      (∀ x ∈ rest, x.1 = 0 ∧ x.2.1 = some e) ∧
      delivered good <+: (From D).1 ∧
      (rest ≠ [] → delivered good = (From D).1) ∧
      ((From D).1.length < bufs.length → rest ≠ []) := by
  obtain ⟨r', h1⟩ := C54_same_as_copies grow src s h₀ h' m' bufs res hr
  obtain ⟨good, rest, r'', h2, h3⟩ := C39_delivers (plain src) e s D h hD bufs hb
  exact ⟨good, rest, (C39_deterministic _ _ _ _ _ _ _ h1 h2).1, h3⟩

/-- A source that leaves two bytes of rubbish behind its data. -/
def messy : SourceM (List Str) := fun s k =>
  ((chunked s k).1, [0xEE, 0xEE], (chunked s k).2.1, (chunked s k).2.2)

/-- 가, cut in two, is read with a three-byte buffer that is a piece of a larger array. -/
example (grow : Nat → Nat → Nat) : ∃ res h' m',
    ReadsM grow messy [[7, 9, 9, 9, 7]] (NewReaderM [[0xB0], [0xA1]]) [[9, 9, 9]] res h' m' := by
  obtain ⟨good, rest, r', h, _⟩ := C39_delivers chunked .eof [[0xB0], [0xA1]] [0xB0, 0xA1]
    (C39_every_chunking [[0xB0], [0xA1]] (by simp)) (by decide +kernel) [[9, 9, 9]] (by simp)
  generalize good ++ rest = res at h
  cases h with
  | cons h1 _ =>
    obtain ⟨fuel, h1⟩ := h1
    have wb : WF [[7, 9, 9, 9, 7]] (clip ⟨0, 1, 3, 4⟩) := by unfold WF; decide
    have cb : Clear (NewReaderM ([[0xB0], [0xA1]] : List Str)) (clip ⟨0, 1, 3, 4⟩) :=
      ⟨apart_nil _, apart_nil _, apart_nil _⟩
    have lv : Leaves (NewReaderM ([[0xB0], [0xA1]] : List Str)) [[7, 9, 9, 9, 7]] [[7, 9, 9, 9, 7]] :=
      ⟨⟨wf_nil _, rfl⟩, ⟨wf_nil _, rfl⟩, ⟨wf_nil _, rfl⟩⟩
    obtain ⟨h3, m', g1, _⟩ := (C54_next_call grow messy [[0xB0], [0xA1]] _ _ [[7, 9, 9, 9, 7]] _ _ [] []
      (.nil [[7, 9, 9, 9, 7]] _) (.nil _) lv ⟨0, 1, 3, 4⟩ wb cb fuel).1 _ _ _ _ h1
    have s1 := ReadsM.cons (buf := ⟨0, 1, 3, 4⟩) lv wb cb g1 (.nil _ _)
    rw [show Heap.read [[7, 9, 9, 9, 7]] ⟨0, 1, 3, 4⟩ = [9, 9, 9] from rfl] at s1
    exact ⟨_, h3, m', s1⟩

/-! ### C55 -/

/-- Every sequence of calls on memory is one on contents. -/
theorem C55_same_as_copies {τ : Type} (grow : Nat → Nat → Nat) (sink : Sink τ) (t : τ) (h h' : Heap)
    (m' : WriterM τ) (ds : List Str) (res : List (Nat × Option Err))
    (hw : WritesM grow sink h (NewWriterM t) ds res h' m') :
    Writes sink (NewWriter t) ds res ⟨m'.sink, []⟩ :=
  (writesM_sim hw (relW_new h t)).1

/-- After any such sequence, a further call returns without panic, and changes neither `data` nor any other
slice outside the writer's scratch buffer. -/
theorem C55_next_call {τ : Type} (grow : Nat → Nat → Nat) (sink : Sink τ) (s : τ) (h h₁ h₂ : Heap)
    (m : WriterM τ) (ds : List Str) (res : List (Nat × Option Err))
    (hm : WritesM grow sink h (NewWriterM s) ds res h₁ m)
    (l₁ : Same h₁ h₂ m.scratch) (l₂ : Same h₁ h₂ m.buf) (data : Slice) (wd : WF h₂ data)
    (ap : Apart data m.scratch) :
    ∃ n err h₃ m', WriteM grow sink h₂ m data = some (n, err, h₃, m') ∧
      Write sink ⟨m.sink, []⟩ (h₂.read data) = (n, err, ⟨m'.sink, []⟩) ∧
      ∀ t, WF h₂ t → Apart t m.scratch → Same h₂ h₃ t ∧ Apart t m'.scratch := by
  have rel := (writesM_sim hm (relW_new h s)).2
  obtain ⟨n, err, h3, m', g1, g2, _, g4⟩ :=
    WriteM_spec grow sink (h := h₂) ⟨rel.1, l₁.1, l₂.1, rel.2.2.2⟩ wd ap
  exact ⟨n, err, h3, m', g1, g2, fun t wt a => ⟨⟨(g4 t wt a).1, (g4 t wt a).2.1⟩, (g4 t wt a).2.2⟩⟩

/-- Two writes from one slice, whose contents the caller changes in between. -/
example (grow : Nat → Nat → Nat) : ∃ res h' m',
    WritesM grow discard [[0x41, 0x42]] (NewWriterM ()) [[0x41, 0x42], [0x43, 0x42]] res h' m' := by
  have w0 : WF [[0x41, 0x42]] (⟨0, 0, 2, 2⟩ : Slice) := by unfold WF; decide
  obtain ⟨n, err, h3, m', g1, _, g3⟩ := C55_next_call grow discard () [[0x41, 0x42]] _ [[0x41, 0x42]] _
    [] [] (.nil _ _) ⟨wf_nil _, rfl⟩ ⟨wf_nil _, rfl⟩ ⟨0, 0, 2, 2⟩ w0 (apart_nil _)
  have s1 : WritesM grow discard [[0x41, 0x42]] (NewWriterM ()) [[0x41, 0x42]] [(n, err)] h3 m' :=
    .cons (data := ⟨0, 0, 2, 2⟩) (h₁ := [[0x41, 0x42]]) ⟨wf_nil _, rfl⟩ ⟨wf_nil _, rfl⟩ w0 (apart_nil _) g1
      (.nil _ _)
  obtain ⟨⟨w3, r3⟩, a3⟩ := g3 ⟨0, 0, 2, 2⟩ w0 (apart_nil _)
  have ws := (writesM_sim s1 (relW_new _ _)).2
  obtain ⟨f, f2, _⟩ := write_frame w3 0 [0x43] (by decide)
  obtain ⟨b1, b2, b3⟩ := f m'.scratch ws.2.1 a3.symm
  have l1 : Same h3 (h3.write 0 (0 + 0) [0x43]) m'.scratch := ⟨b1, b2⟩
  have l2 : Same h3 (h3.write 0 (0 + 0) [0x43]) m'.buf :=
    ⟨f2 _ ws.2.2.1, by rw [read_empty ws.1, read_empty ws.1]⟩
  have w4 := f2 _ w3
  obtain ⟨n4, err4, h4, m4, g4, _⟩ := C55_next_call grow discard () [[0x41, 0x42]] h3 _ m' _ _
    s1 l1 l2 ⟨0, 0, 2, 2⟩ w4 a3
  have hread : (h3.write 0 (0 + 0) [0x43]).read ⟨0, 0, 2, 2⟩ = [0x43, 0x42] := by
    refine List.ext_getElem? fun j => ?_
    have := write_read w3 0 [0x43] (by decide) 2 (by decide) j
    have e : ∀ h : Heap, h.read ((⟨0, 0, 2, 2⟩ : Slice).upTo 2) = h.read ⟨0, 0, 2, 2⟩ := fun _ => rfl
    rw [e] at this
    rw [this]
    have r3' : (h3.arr 0).take 2 = [0x41, 0x42] := by
      have := r3
      unfold Heap.read at this
      simp only [List.drop_zero] at this
      exact this
    rcases j with _ | _ | j
    · rfl
    · have := congrArg (·[1]?) r3'
      simpa using this
    · rw [if_neg (by omega)]; rfl
  have s2 := WritesM.cons (sink := discard) (data := ⟨0, 0, 2, 2⟩) l1 l2 w4 a3 g4 (.nil _ _)
  rw [hread] at s2
  exact ⟨_, _, _, .cons (data := ⟨0, 0, 2, 2⟩) (h₁ := [[0x41, 0x42]]) ⟨wf_nil _, rfl⟩ ⟨wf_nil _, rfl⟩ w0
    (apart_nil _) g1 s2⟩

/-! ### C56 -/

/-- The decoder, `dst` and `src` overlapping in any way. -/
theorem C56_decoder (grow : Nat → Nat → Nat) (h : Heap) (dst src : Slice) (atEOF : Bool) (wd : WF h dst)
    (ws : WF h src) :
    ∃ n k err h', decoderTransformM grow h dst src atEOF = some (n, k, err, h') ∧
      decoderTransform (h.read dst) (h.read src) atEOF = ⟨h'.read dst, n, k, err⟩ ∧
      ∀ t, WF h t → Apart t (clip dst) → Same h h' t := by
  obtain ⟨out, err, h1, g1, g2, g3, g4⟩ := FromM_spec grow h src ws
  unfold decoderTransformM decoderTransform
  rw [g1, ← g2]
  by_cases he : err = none
  · subst he
    simp only [ne_eq, not_true_eq_false, if_false]
    obtain ⟨d1, d2, _⟩ := g4 dst wd
    obtain ⟨c1, c2, c3, c4⟩ := copyM_buf (wf_clip d1) g3
    refine ⟨_, _, _, _, rfl, ?_, fun t wt a => ?_⟩
    · rw [c2, d2, read_length g3, read_length ws]
    · obtain ⟨t1, t2, _⟩ := g4 t wt
      exact ⟨c3 t t1, (c4 t t1 a).trans t2⟩
  · obtain ⟨e, rfl⟩ := Option.ne_none_iff_exists'.1 he
    simp only [ne_eq, reduceCtorEq, not_false_eq_true, if_true]
    refine ⟨_, _, _, _, rfl, ?_, fun t wt _ => ⟨(g4 t wt).1, (g4 t wt).2.1⟩⟩
    rw [(g4 dst wd).2.1]

/-- The encoder, `dst` and `src` overlapping in any way. -/
theorem C56_encoder (grow : Nat → Nat → Nat) (h : Heap) (dst src : Slice) (atEOF : Bool) (wd : WF h dst)
    (ws : WF h src) :
    ∃ n k err h', encoderTransformM grow h dst src atEOF = some (n, k, err, h') ∧
      encoderTransform (h.read dst) (h.read src) atEOF = ⟨h'.read dst, n, k, err⟩ ∧
      ∀ t, WF h t → Apart t (clip dst) → Same h h' t := by
  obtain ⟨out, err, h1, g1, g2, g3, g4⟩ := ToM_spec grow h src ws
  unfold encoderTransformM encoderTransform
  rw [g1, ← g2]
  by_cases he : err = none
  · subst he
    simp only [ne_eq, not_true_eq_false, if_false]
    obtain ⟨d1, d2, _⟩ := g4 dst wd
    obtain ⟨c1, c2, c3, c4⟩ := copyM_buf (wf_clip d1) g3
    refine ⟨_, _, _, _, rfl, ?_, fun t wt a => ?_⟩
    · rw [c2, d2, read_length g3, read_length ws]
    · obtain ⟨t1, t2, _⟩ := g4 t wt
      exact ⟨c3 t t1, (c4 t t1 a).trans t2⟩
  · obtain ⟨e, rfl⟩ := Option.ne_none_iff_exists'.1 he
    simp only [ne_eq, reduceCtorEq, not_false_eq_true, if_true]
    refine ⟨_, _, _, _, rfl, ?_, fun t wt _ => ⟨(g4 t wt).1, (g4 t wt).2.1⟩⟩
    rw [(g4 dst wd).2.1]

/-- `dst` and `src` are the same slice, or overlap by a byte. -/
example : WF [[0xB0, 0xA1, 0, 0]] ⟨0, 0, 4, 4⟩ ∧ WF [[0xB0, 0xA1, 0, 0]] ⟨0, 1, 3, 3⟩ ∧
    ¬ Apart ⟨0, 0, 4, 4⟩ ⟨0, 1, 3, 3⟩ := by
  unfold WF Apart; decide

end Props
