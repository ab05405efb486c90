import Verif.Lemmas.Goroutines
import Verif.Props.Reader
/-!
C90: goroutines may use readers, writers, `Transform`, `From` and `To` at the same time, as long as no reader or writer
is used by two goroutines at once.

A program is a memory and a list of tasks (readers, writers, and calls of `Transform`, `From` and `To`). Every running
call takes single steps (`Cp949.RdState.step`, `Cp949.WrState.step`, `Cp949.TrState.step`, `Cp949.Call.step`); between any two steps other tasks may be
started or take steps and the rest of the program may do anything to memory outside the tasks' own buffers and the
arguments of running calls (`Spec.GEvent`).
-/
namespace Props
open Go Cp949 Spec

attribute [local irreducible] fromTable toTable rawFrom rawTo

variable {σ τ : Type}

theorem rests_false_of {p : RdState σ} (h : ¬ RdState.rests p = true) : RdState.rests p = false := by
  cases e : RdState.rests p
  · rfl
  · exact (h e).elim

theorem reads_length {src : Source σ} {r r' : Reader σ} {bufs : List Str} {res : List Result} (h : Reads src r bufs res r') :
    res.length = bufs.length := by
  induction h with
  | nil => rfl
  | cons _ _ ih => simp [ih]

theorem writes_length {sink : Sink τ} {w w' : Writer τ} {ds : List Str} {res : List (Nat × Option Err)}
    (h : Writes sink w ds res w') : res.length = ds.length := by
  induction h with
  | nil => rfl
  | cons _ _ ih => simp [ih]

theorem reads_last {src : Source σ} {r r' : Reader σ} {pre : List Str} {b : Str} {res : List Result}
    (h : Reads src r (pre ++ [b]) res r') :
    ∃ (r₁ : Reader σ) (res₁ : List Result) (out : Result), Reads src r pre res₁ r₁ ∧ ∃ fuel, readLoop src fuel r₁ b = .ret out.1 out.2.1 out.2.2 r' := by
  induction pre generalizing r res with
  | nil =>
    cases h with
    | cons h1 h2 =>
      cases h2
      exact ⟨r, [], (_, _, _), .nil _, h1⟩
  | cons a pre ih =>
    cases h with
    | cons h1 h2 =>
      obtain ⟨r₁, res₁, out, h3, h4⟩ := ih h2
      exact ⟨r₁, _, out, .cons h1 h3, h4⟩

/-- Whatever else has happened: the calls of `Read` on a reader that have returned have returned what they return when
nobody else does anything, in number, error and contents of the buffer. Between calls, all calls made have returned, and
the source is in the state in which the reader used alone leaves it. -/
theorem C90_readers {grow : Nat → Nat → Nat} {src : SourceM σ} {sink : Sink τ} {h₀ h : Heap} {ts : List (Task σ τ)}
    (e : GEvents grow src sink h₀ [] h ts) {i : Nat} {x : RdTask σ} (hx : ts[i]? = some (.rd x)) :
    ∃ r, Reads (plain src) (NewReader x.init) (x.bufs.take x.res.length) x.res r ∧
      (RdState.rests x.st = true → x.st.pc ≠ .panic → x.res.length = x.bufs.length ∧ x.st.m.src = r.src) := by
  rcases (gevents_ok e).ok i _ hx with ⟨_, _, r, h3, rel⟩ | ⟨h1, _, _, pre, b, r, h4, h5, _⟩ | ⟨pre, b, r, h1, h2, g⟩
  · have hl := reads_length h3
    exact ⟨r, by rw [hl, List.take_length]; exact h3, fun _ _ => ⟨hl, rel.src⟩⟩
  · have hl := reads_length h5
    refine ⟨r, ?_, fun _ h => (h h1).elim⟩
    rw [h4, hl, List.take_left' rfl]
    exact h5
  · have hl := reads_length h2
    refine ⟨r, ?_, fun h => by rw [rdRun_runs g] at h; cases h⟩
    rw [h1, hl, List.take_left' rfl]
    exact h2

/-- So a reader over a stream `D` delivers `From(D)` no matter what other goroutines do. -/
theorem C90_delivers {grow : Nat → Nat → Nat} {src : SourceM σ} {sink : Sink τ} {h₀ h : Heap} {ts : List (Task σ τ)}
    (e : GEvents grow src sink h₀ [] h ts) {i : Nat} {x : RdTask σ} (hx : ts[i]? = some (.rd x))
    {err : Err} {D : Str} (hs : Delivers (plain src) err x.init D) (hD : (From D).2 = none) (hb : ∀ b ∈ x.bufs, b ≠ []) :
    ∃ good rest, x.res = good ++ rest ∧ (∀ y ∈ good, 0 < y.1 ∧ y.1 ≤ y.2.2.length ∧ y.2.1 = none) ∧
      (∀ y ∈ rest, y.1 = 0 ∧ y.2.1 = some err) ∧ delivered good <+: (From D).1 ∧
      (rest ≠ [] → delivered good = (From D).1) ∧ ((From D).1.length < x.res.length → rest ≠ []) := by
  obtain ⟨r, hr, _⟩ := C90_readers e hx
  obtain ⟨good, rest, r', h1, h2, h3, h4, h5, h6⟩ := C39_delivers (plain src) err x.init D hs hD
    (x.bufs.take x.res.length) (fun b h => hb b (List.mem_of_mem_take h))
  refine ⟨good, rest, (Reads_det hr h1).1, h2, h3, h4, h5, fun h => h6 ?_⟩
  rw [← reads_length hr]
  exact h

/-- The calls of `Write` on a writer that have returned have returned what they return when nobody else does
anything, and its sink is in the state in which these calls alone leave it. -/
theorem C90_writers {grow : Nat → Nat → Nat} {src : SourceM σ} {sink : Sink τ} {h₀ h : Heap} {ts : List (Task σ τ)}
    (e : GEvents grow src sink h₀ [] h ts) {i : Nat} {x : WrTask τ} (hx : ts[i]? = some (.wr x)) :
    (∃ w, Writes sink (NewWriter x.init) (x.ds.take x.res.length) x.res w ∧ x.st.m.sink = w.sink) ∧
    (WrState.rests x.st = true → x.res.length = x.ds.length) := by
  rcases (gevents_ok e).ok i _ hx with ⟨_, _, _, h3⟩ | ⟨pre, d, h1, h2, g⟩
  · have hl := writes_length h3
    exact ⟨⟨_, by rw [hl, List.take_length]; exact h3, rfl⟩, fun _ => hl⟩
  · have hl := writes_length h2
    refine ⟨⟨⟨x.st.m.sink, []⟩, ?_, rfl⟩, fun h => by rw [wrRun_runs g] at h; cases h⟩
    rw [h1, hl, List.take_left' rfl]
    exact h2

/-- The step with which a call of `From` or `To` returns: it returns what the function returns on what its argument held
when it was called. -/
theorem C90_conversions {grow : Nat → Nat → Nat} {src : SourceM σ} {sink : Sink τ} {h₀ h : Heap} {ts : List (Task σ τ)}
    (e : GEvents grow src sink h₀ [] h ts) {i : Nat} {x : Thread} (hx : ts[i]? = some (.cv x)) (hl : Live x.call)
    {p' : Call} {h' : Heap} (hs : x.call.step grow h = (p', h')) {out : Slice} {err : Option Err}
    (hp : p'.pc = .done out err) :
    (h'.read out, err) = expected x.fn x.input ∧ WF h' out ∧
    ∀ j y, ts[j]? = some y → j ≠ i → (∀ a ∈ Task.args y, Apart a out) ∧ ∀ b ∈ Task.own y, Apart out b := by
  have a := gevents_ok e
  obtain ⟨g, hd, _⟩ := a.ok i _ hx hl
  obtain ⟨hr, _, hf⟩ := step_good grow g
  have hdir := step_dir grow h x.call
  rw [hs] at hr hf hdir
  simp only at hr hf hdir
  rcases hr with hr | hr
  · exact (good_live hr out err hp).elim
  · obtain ⟨out', err', hp', hw, heq, ho, _⟩ := hr
    rw [hp] at hp'
    cases hp'
    rw [hdir, hd] at heq
    refine ⟨heq, hw, ?_⟩
    intro j y hy hji
    have hb' : p'.scratch ∈ bufs p' := by unfold bufs; rw [hp]; simp
    rcases ho with rfl | rfl
    · refine ⟨fun q hq => ?_, fun b hb => ?_⟩
      · refine (hf q (ok_args (a.ok j y hy) q hq).1 fun b hb => a.arg j i y _ hy hx hji q hq b ?_).2.2 _ hb'
        simp only [Task.own, live_own hl]
        exact hb
      · refine ((hf b (ok_own (a.ok j y hy) b hb) fun c hc => a.sep j i y _ hy hx hji b hb c ?_).2.2 _ hb').symm
        simp only [Task.own, live_own hl]
        exact hc
    · exact ⟨fun q _ => apart_nil _, fun b _ => nil_apart b⟩

/-- A call of `Transform` that has returned has returned what it returns when nobody else does anything, and has left in
`dst` what it then leaves there; this although other goroutines may be calling `Transform` of the same decoder or
encoder. The results are there exactly if it has returned. -/
theorem C90_transforms {grow : Nat → Nat → Nat} {src : SourceM σ} {sink : Sink τ} {h₀ h : Heap} {ts : List (Task σ τ)}
    (e : GEvents grow src sink h₀ [] h ts) {i : Nat} {x : TrTask} (hx : ts[i]? = some (.tr x)) :
    (∀ t, x.res = some t → ∀ atEOF, t = transformed x.fn x.old x.input atEOF) ∧
    ((∃ n m err, x.st.pc = .ret n m err) ↔ x.res.isSome = true) := by
  obtain ⟨_, ⟨n, m, err, h1, h2⟩ | ⟨h1, g⟩⟩ := (gevents_ok e).ok i _ hx
  · refine ⟨fun t ht atEOF => ?_, fun _ => by rw [h2 false]; rfl, fun _ => ⟨n, m, err, h1⟩⟩
    rw [h2 atEOF] at ht
    exact (Option.some.inj ht).symm
  · refine ⟨fun t ht => (by rw [h1] at ht; cases ht), fun ⟨n, m, err, h2⟩ => (trRun_runs g n m err h2).elim, fun h2 => ?_⟩
    rw [h1] at h2
    cases h2

/-- The step with which a call of `Transform` returns leaves in `dst` what the call of `Transform` on its own leaves
there. -/
theorem C90_transform_leaves {grow : Nat → Nat → Nat} {src : SourceM σ} {sink : Sink τ} {h₀ h : Heap} {ts : List (Task σ τ)}
    (e : GEvents grow src sink h₀ [] h ts) {i : Nat} {x : TrTask} (hx : ts[i]? = some (.tr x)) (hr : x.res = none)
    {p : TrState} {h' : Heap} (hs : x.st.step grow h = (p, h')) {n m : Nat} {err : Option Err} (hp : p.pc = .ret n m err)
    (atEOF : Bool) : transformed x.fn x.old x.input atEOF = ⟨h'.read x.st.dst, n, m, err⟩ := by
  obtain ⟨h0, ⟨n', m', err', h1, h2⟩ | ⟨_, g⟩⟩ := (gevents_ok e).ok i _ hx
  · rw [h2 atEOF] at hr
    cases hr
  · have := (tr_step grow g).1
    rw [hs] at this
    rcases this with g' | ⟨n', m', err', h1, h2⟩
    · exact (trRun_runs g' n m err hp).elim
    · simp only at h1
      rw [hp] at h1
      cases h1
      rw [← h0]
      exact h2 atEOF

/-- Nothing ever panics if no source returns more bytes than it was asked for; writers, `Transform`,
`From` and `To` never panic at all. -/
theorem C90_no_panic {grow : Nat → Nat → Nat} {src : SourceM σ} {sink : Sink τ} {h₀ h : Heap} {ts : List (Task σ τ)}
    (e : GEvents grow src sink h₀ [] h ts) {i : Nat} :
    (∀ x, ts[i]? = some (.rd x) → (∀ s k, (src s k).1.length ≤ k) → x.st.pc ≠ .panic) ∧
    (∀ x, ts[i]? = some (.wr x) → x.st.pc ≠ .panic) ∧ (∀ x, ts[i]? = some (.cv x) → x.call.pc ≠ .panic) ∧
    (∀ x, ts[i]? = some (.tr x) → x.st.pc ≠ .panic) := by
  refine ⟨?_, ?_, ?_, ?_⟩
  · intro x hx hk he
    rcases (gevents_ok e).ok i _ hx with ⟨_, h1, _⟩ | ⟨_, _, ⟨s, k, h1⟩, _⟩ | ⟨_, _, _, _, _, g⟩
    · exact h1 he
    · have := hk s k; omega
    · have := rdRun_runs g
      rw [rests_panic he] at this
      cases this
  · intro x hx he
    rcases (gevents_ok e).ok i _ hx with ⟨_, h1, _⟩ | ⟨_, _, _, _, g⟩
    · exact h1 he
    · have := g.2.2.2.2
      rw [he] at this
      exact this
  · intro x hx he
    have hl : Live x.call := fun out err h => by rw [he] at h; cases h
    exact good_no_panic ((gevents_ok e).ok i _ hx hl).1 he
  · intro x hx he
    obtain ⟨_, ⟨n, m, err, h1, _⟩ | ⟨_, g⟩⟩ := (gevents_ok e).ok i _ hx
    · rw [he] at h1; cases h1
    · have := g.2.2.2
      rw [he] at this
      exact this

/-- Whatever else happens, a call of `Read` panics only if it panics when nobody else does anything. -/
theorem C90_panics {grow : Nat → Nat → Nat} {src : SourceM σ} {sink : Sink τ} {h₀ h : Heap} {ts : List (Task σ τ)}
    (e : GEvents grow src sink h₀ [] h ts) {i : Nat} {x : RdTask σ} (hx : ts[i]? = some (.rd x)) (hp : x.st.pc = .panic) :
    ∃ pre b r, x.bufs = pre ++ [b] ∧ Reads (plain src) (NewReader x.init) pre x.res r ∧
      ∃ fuel, readLoop (plain src) fuel r b = .panic := by
  rcases (gevents_ok e).ok i _ hx with ⟨_, h2, _⟩ | ⟨_, _, _, h2⟩ | ⟨_, _, _, _, _, g⟩
  · exact (h2 hp).elim
  · exact h2
  · have := rdRun_runs g
    rw [rests_panic hp] at this
    cases this

/-- No call of `Read` waits for another task: if a call with the buffer `b` on a reader in the state `r` comes to an end when
nobody else does anything, then there is a number of steps after which it has come to an end in every program, whatever the
program does between these steps. -/
theorem C90_reads_return {src : SourceM σ} {r : Reader σ} {b : Str} {fuel : Nat}
    (hf : readLoop (plain src) fuel r b ≠ .running) :
    ∃ N, ∀ (grow : Nat → Nat → Nat) (sink : Sink τ) (h₀ h : Heap) (ts : List (Task σ τ)), GEvents grow src sink h₀ [] h ts →
      ∀ (i : Nat) (x : RdTask σ) (pre : List Str) (res : List Result), ts[i]? = some (.rd x) → x.bufs = pre ++ [b] →
        Reads (plain src) (NewReader x.init) pre res r → N ≤ x.steps → RdState.rests x.st = true := by
  refine ⟨work (plain src) b fuel r + 1, ?_⟩
  intro grow sink h₀ h ts e i x pre res hx hb hr hn
  rcases (gevents_ok e).ok i _ hx with ⟨h1, _⟩ | ⟨h1, _⟩ | ⟨pre', b', r', h1, h2, g⟩
  · exact h1
  · exact rests_panic h1
  · rw [hb] at h1
    obtain ⟨h3, h4⟩ := List.append_inj' h1 rfl
    cases h4
    subst h3
    obtain ⟨_, rfl⟩ := Reads_det h2 hr
    have := rdRun_bound g hf
    omega

/-- In particular, every call with room in the buffer on a reader over a stream that can be decoded. -/
theorem C90_stream_returns {src : SourceM σ} {err : Err} {s : σ} {D : Str} (hs : Delivers (plain src) err s D)
    (hD : (From D).2 = none) (bufs : List Str) (hb : ∀ b ∈ bufs, b ≠ []) :
    ∃ N, ∀ (grow : Nat → Nat → Nat) (sink : Sink τ) (h₀ h : Heap) (ts : List (Task σ τ)), GEvents grow src sink h₀ [] h ts →
      ∀ (i : Nat) (x : RdTask σ), ts[i]? = some (.rd x) → x.init = s → x.bufs = bufs → N ≤ x.steps →
        RdState.rests x.st = true := by
  rcases List.eq_nil_or_concat bufs with rfl | ⟨pre, b, rfl⟩
  · refine ⟨0, ?_⟩
    intro grow sink h₀ h ts e i x hx _ hb' _
    rcases (gevents_ok e).ok i _ hx with ⟨h1, _⟩ | ⟨h1, _⟩ | ⟨pre', b', r', h1, h2, g⟩
    · exact h1
    · exact rests_panic h1
    · rw [hb'] at h1
      simp at h1
  · rw [List.concat_eq_append] at hb ⊢
    obtain ⟨_, _, r'', h1, _⟩ := C39_delivers (plain src) err s D hs hD (pre ++ [b]) hb
    obtain ⟨r, res, out, h2, fuel, h3⟩ := reads_last h1
    obtain ⟨N, hN⟩ := C90_reads_return (τ := τ) (src := src) (r := r) (b := b) (fuel := fuel) (by rw [h3]; simp)
    refine ⟨N, ?_⟩
    intro grow sink h₀ h ts e i x hx hi hb' hn
    exact hN grow sink h₀ h ts e i x pre res hx hb' (by rw [hi]; exact h2) hn

/-- A call of `Write` with `n` bytes has returned after so many steps, whatever happens between these steps. -/
theorem C90_writes_return {grow : Nat → Nat → Nat} {src : SourceM σ} {sink : Sink τ} {h₀ h : Heap} {ts : List (Task σ τ)}
    (e : GEvents grow src sink h₀ [] h ts) {i : Nat} {x : WrTask τ} (hx : ts[i]? = some (.wr x)) {pre : List Str} {d : Str}
    (hd : x.ds = pre ++ [d]) (hn : d.length * (8 * d.length + 15) + 3 ≤ x.steps) :
    WrState.rests x.st = true ∧ x.res.length = x.ds.length := by
  rcases (gevents_ok e).ok i _ hx with ⟨h1, _, _, h2⟩ | ⟨pre', d', h1, h2, g⟩
  · exact ⟨h1, writes_length h2⟩
  · rw [hd] at h1
    obtain ⟨_, h4⟩ := List.append_inj' h1 rfl
    cases h4
    have := wrRun_bound g
    unfold maxSteps at this
    omega

/-- A call of `From` or `To` with `n` bytes has returned after so many steps, whatever happens between these steps. -/
theorem C90_conversions_return {grow : Nat → Nat → Nat} {src : SourceM σ} {sink : Sink τ} {h₀ h : Heap} {ts : List (Task σ τ)}
    (e : GEvents grow src sink h₀ [] h ts) {i : Nat} {x : Thread} (hx : ts[i]? = some (.cv x))
    (hn : x.input.length * (8 * x.input.length + 15) + 1 ≤ x.steps) : ∃ out err, x.call.pc = .done out err := by
  refine not_live fun hl => ?_
  obtain ⟨g, _, hs⟩ := (gevents_ok e).ok i _ hx hl
  obtain ⟨_, hlt, _⟩ := step_good grow g
  unfold maxSteps at hs
  omega

/-- A call of `Transform` has returned after so many steps, whatever happens between these steps. -/
theorem C90_transforms_return {grow : Nat → Nat → Nat} {src : SourceM σ} {sink : Sink τ} {h₀ h : Heap} {ts : List (Task σ τ)}
    (e : GEvents grow src sink h₀ [] h ts) {i : Nat} {x : TrTask} (hx : ts[i]? = some (.tr x))
    (hn : x.input.length * (8 * x.input.length + 15) + x.old.length + 3 ≤ x.steps) :
    ∀ atEOF, x.res = some (transformed x.fn x.old x.input atEOF) := by
  obtain ⟨_, ⟨n, m, err, h1, h2⟩ | ⟨_, g⟩⟩ := (gevents_ok e).ok i _ hx
  · exact h2
  · have := trRun_bound g
    unfold maxSteps at this
    omega

/-- A step of a task changes nothing outside the memory the task works in, and what is outside this memory stays outside. -/
theorem C90_frame {grow : Nat → Nat → Nat} {src : SourceM σ} {sink : Sink τ} {h₀ h : Heap} {ts : List (Task σ τ)}
    (e : GEvents grow src sink h₀ [] h ts) {i : Nat} {x : Task σ τ} (hx : ts[i]? = some x) {t : Slice} (w : WF h t)
    (ht : ∀ b ∈ Task.own x, Apart t b) :
    Same h (x.step grow src sink h).2 t ∧ ∀ b ∈ Task.own (x.step grow src sink h).1, Apart t b := by
  obtain ⟨h1, h2, h3⟩ := (ok_step grow ((gevents_ok e).ok i x hx)).2.1 t w ht
  exact ⟨⟨h1, h2⟩, h3⟩

/-- There is no data race: what one task writes shares nothing with what another task reads or writes, nor (except for
`Transform`, which may be called with a `dst` and a `src` that overlap) with what it has itself been given to read. -/
theorem C90_no_race {grow : Nat → Nat → Nat} {src : SourceM σ} {sink : Sink τ} {h₀ h : Heap} {ts : List (Task σ τ)}
    (e : GEvents grow src sink h₀ [] h ts) {i j : Nat} {x y : Task σ τ} (hx : ts[i]? = some x) (hy : ts[j]? = some y) :
    (i ≠ j ∨ (∀ z, x ≠ .tr z) → ∀ a ∈ Task.args x, ∀ b ∈ Task.own y, Apart a b) ∧
    (i ≠ j → ∀ a ∈ Task.own x, ∀ b ∈ Task.own y, Apart a b) := by
  refine ⟨fun hij a ha b hb => ?_, (gevents_ok e).sep i j x y hx hy⟩
  by_cases h1 : i = j
  · subst h1
    rw [hx] at hy
    cases hy
    exact (ok_args ((gevents_ok e).ok i x hx) a ha).2 (hij.resolve_left fun h => h rfl) b hb
  · exact (gevents_ok e).arg i j x y hx hy h1 a ha b hb

/-! ### A concrete case: two readers, a writer and calls of `From` and `Transform`, taking turns -/
namespace GoroutinesCase

/-- Sources that hand over pieces, and scribble behind them. -/
def src : SourceM (List Str) := fun s k => ((chunked s k).1, [9, 9], (chunked s k).2.1, (chunked s k).2.2)

/-- Sinks that keep what they get. -/
def sink : Sink (List Str) := fun t d => (d.length, none, t ++ [d])

def grow : Nat → Nat → Nat := fun _ _ => 0

/-- Let the tasks with these numbers take a step, one after the other. -/
def turns (src : SourceM σ) (s : Heap × List (Task σ (List Str))) : List Nat → Heap × List (Task σ (List Str))
  | [] => s
  | i :: is =>
    match s.2[i]? with
    | none => turns src s is
    | some x => turns src ((x.step grow src sink s.1).2, s.2.set i (x.step grow src sink s.1).1) is

theorem turns_events {src : SourceM σ} {h₀ : Heap} (is : List Nat) :
    ∀ s : Heap × List (Task σ (List Str)), GEvents grow src sink h₀ [] s.1 s.2 →
      GEvents grow src sink h₀ [] (turns src s is).1 (turns src s is).2 := by
  induction is with
  | nil => intro s e; exact e
  | cons i is ih =>
    intro s e
    unfold turns
    split
    · exact ih s e
    · rename_i x hx
      exact ih _ (e.snoc (.step i x hx))

local instance (t s : Slice) : Decidable (Apart t s) := by unfold Apart; infer_instance

/-- Two buffers for `Read`, the bytes `A`, `B`, and `dst` and `src` for `Transform`, which overlap. -/
def before : Heap := [[1, 1], [2, 2], [65, 66], [7, 71, 72]]

def buf0 : Slice := ⟨0, 0, 2, 2⟩
def buf1 : Slice := ⟨1, 0, 2, 2⟩
def arg : Slice := ⟨2, 0, 2, 2⟩
def dst : Slice := ⟨3, 0, 2, 3⟩
def data : Slice := ⟨3, 1, 2, 2⟩

/-- `Read` is called on both readers, `Write` and `From` with the same argument, and `Transform`. -/
def five : List (Task (List Str) (List Str)) :=
  [.rd ⟨(RdState.new [[67, 68]]).call buf0, [[67, 68]], [[1, 1]], [], 0⟩,
   .rd ⟨(RdState.new [[69], [70]]).call buf1, [[69], [70]], [[2, 2]], [], 0⟩,
   .wr ⟨(WrState.new []).call arg, [], [[65, 66]], [], 0⟩,
   .cv ⟨.start .from_ arg, .from_, [65, 66], 0⟩,
   .tr ⟨.call .to_ dst data, .to_, [7, 71], [71, 72], none, 0⟩]

theorem five_events : GEvents grow src sink before [] before five := by
  have e1 := (GEvents.nil (grow := grow) (src := src) (sink := sink) before []).snoc (.newReader [[67, 68]])
  have e2 := e1.snoc (.newReader [[69], [70]])
  have e3 := e2.snoc (.newWriter [])
  have e4 := e3.snoc (.read 0 _ buf0 rfl rfl (fun h => by cases h) ⟨by decide, by decide⟩ (by decide) (by decide))
  have e5 := e4.snoc (.read 1 _ buf1 rfl rfl (fun h => by cases h) ⟨by decide, by decide⟩ (by decide) (by decide))
  have e6 := e5.snoc (.write 2 _ arg rfl rfl (fun h => by cases h) ⟨by decide, by decide⟩ (by decide))
  have e7 := e6.snoc (.conv .from_ arg ⟨by decide, by decide⟩ (by decide))
  exact e7.snoc (.transform .to_ dst data ⟨by decide, by decide⟩ ⟨by decide, by decide⟩ (by decide) (by decide) (by decide))

/-- Whether a call is running, the results of `Read` and of `Transform` and of `Write` (with `true` for an error), and what
the sink has got. -/
def seen : Task (List Str) (List Str) → Bool × List (Nat × Bool × List UInt8) × List (Nat × Bool) × List (List UInt8)
  | .rd x => (!RdState.rests x.st, x.res.map fun y => (y.1, y.2.1.isSome, y.2.2), [], [])
  | .wr x => (!WrState.rests x.st, [], x.res.map fun y => (y.1, y.2.isSome), x.st.m.sink)
  | .cv x => (!(Spec.Call.own x.call).isEmpty, [], [], [])
  | .tr x => (!x.res.isSome, x.res.toList.map fun y => (y.nDst, y.err.isSome, y.dst), [], [])

set_option synthInstance.maxSize 1000 in
/-- After 17 rounds the second reader, the writer and `From` have returned, and so has `Transform`, while the first
reader is still busy. -/
example : ∃ h ts, GEvents grow src sink before [] h ts ∧ ts.map seen =
    [(true, [], [], []), (false, [(1, false, [69, 2])], [], []), (false, [], [(2, false)], [[65, 66]]), (false, [], [], []),
      (false, [(2, false, [71, 72])], [], [])] :=
  ⟨_, _, turns_events (src := src) (List.replicate 17 [0, 1, 2, 3, 4]).flatten (before, five) five_events, by decide +kernel⟩

set_option synthInstance.maxSize 1000 in
/-- After 24 rounds all calls have returned. -/
example : ∃ h ts, GEvents grow src sink before [] h ts ∧ ts.map seen =
    [(false, [(2, false, [67, 68])], [], []), (false, [(1, false, [69, 2])], [], []), (false, [], [(2, false)], [[65, 66]]),
      (false, [], [], []), (false, [(2, false, [71, 72])], [], [])] :=
  ⟨_, _, turns_events (src := src) (List.replicate 24 [0, 1, 2, 3, 4]).flatten (before, five) five_events, by decide +kernel⟩

/-- The streams of the readers can be decoded, the buffers have room: `C90_delivers`, `C90_reads_return` and
`C90_stream_returns` apply. -/
example : Delivers (plain src) .eof [[67, 68]] [67, 68] ∧ (From [67, 68]).2 = none ∧ (∀ b ∈ [([1, 1] : Str)], b ≠ []) ∧
    readLoop (plain src) 2 (NewReader [[67, 68]]) [1, 1] ≠ .running := by
  refine ⟨C39_every_chunking [[67, 68]] (by simp), ?_, by simp, ?_⟩
  · rcases dec_cases [67, 68] with ⟨cs, h⟩ | h
    · rw [From_dec h]
    · cases h with
      | pair h1 _ => exact absurd h1 (by decide)
      | ascii _ h => cases h with
        | lone h => exact absurd h (by decide)
        | ascii _ h => cases h
  have : (match readLoop (plain src) 2 (NewReader [[67, 68]]) [1, 1] with | .running => true | _ => false) = false := by
    decide +kernel
  intro e
  rw [e] at this
  cases this

set_option synthInstance.maxSize 1000 in
/-- After 70 rounds the calls have taken 70 steps: enough for `C90_writes_return`, `C90_conversions_return` and
`C90_transforms_return`. -/
example : ∃ h ts, GEvents grow src sink before [] h ts ∧ ts.map (fun
      | .rd x => (RdState.rests x.st, x.steps, 0)
      | .wr x => (WrState.rests x.st, x.steps, (x.ds.map fun d => d.length * (8 * d.length + 15) + 3).sum)
      | .cv x => ((Spec.Call.own x.call).isEmpty, x.steps, x.input.length * (8 * x.input.length + 15) + 1)
      | .tr x => (x.res.isSome, x.steps, x.input.length * (8 * x.input.length + 15) + x.old.length + 3)) =
    [(true, 70, 0), (true, 70, 0), (true, 70, 65), (true, 70, 63), (true, 70, 67)] :=
  ⟨_, _, turns_events (src := src) (List.replicate 70 [0, 1, 2, 3, 4]).flatten (before, five) five_events, by decide +kernel⟩

/-- A source that returns more than it was asked for. -/
def bad : SourceM Unit := fun _ k => (List.replicate (k + 1) 65, [], none, ())

/-- A reader on such a source panics. -/
example : ∃ (h : Heap) (ts : List (Task Unit (List Str))), GEvents grow bad sink before [] h ts ∧
    ts.map (fun | .rd x => (match x.st.pc with | .panic => true | _ => false) | _ => false) = [true] := by
  have e1 := (GEvents.nil (grow := grow) (src := bad) (sink := sink) before []).snoc (.newReader ())
  have e2 := e1.snoc (.read 0 _ buf0 rfl rfl (fun h => by cases h) ⟨by decide, by decide⟩ (by decide) (by decide))
  exact ⟨_, _, turns_events [0, 0, 0, 0] (_, _) e2, by decide +kernel⟩

end GoroutinesCase
end Props
