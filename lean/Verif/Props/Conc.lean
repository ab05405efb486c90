import Verif.Lemmas.Conc
/-!
C69: any number of goroutines may call `From` and `To` at the same time.

A program is a memory and a list of calls, each of which takes single steps (`Cp949.Call.step`: one byte read,
copied or stored, or one array allocated). Between any two steps of a call, other calls may start or take steps, and
the rest of the program may do anything to memory outside the arguments and private buffers of running
calls (`Spec.Event`). Arguments of calls may overlap or be the same slice.
-/
namespace Props
open Go Cp949 Spec

attribute [local irreducible] fromTable toTable rawFrom rawTo

/-- The step with which a call returns: it returns what the function returns on the contents its argument had when it
was called, whatever else has happened since. The result is memory of its own: no running call reads or writes it. -/
theorem C69_result {grow : Nat → Nat → Nat} {h₀ : Heap} {s : State} (e : Events grow ⟨h₀, []⟩ s)
    {i : Nat} {x : Thread} (hx : s.threads[i]? = some x) (hl : Live x.call)
    {p' : Call} {h' : Heap} (hs : x.call.step grow s.heap = (p', h')) {out : Slice} {err : Option Err}
    (hp : p'.pc = .done out err) :
    (h'.read out, err) = expected x.fn x.input ∧ WF h' out ∧
    ∀ j y, s.threads[j]? = some y → j ≠ i → Live y.call →
      Apart y.call.data out ∧ ∀ b ∈ bufs y.call, Apart out b := by
  have a := events_good e
  obtain ⟨g, hd, _⟩ := a.good i x hx hl
  obtain ⟨hr, _, hf⟩ := step_good grow g
  have hdir := step_dir grow s.heap x.call
  rw [hs] at hr hf hdir
  simp only at hr hf hdir
  rcases hr with hr | hr
  · exact (good_live hr out err hp).elim
  · obtain ⟨out', err', hp', hw, heq, ho⟩ := hr
    rw [hp] at hp'
    cases hp'
    rw [hdir, hd] at heq
    refine ⟨heq, hw, ?_⟩
    intro j y hy hji hly
    obtain ⟨gy, _, _⟩ := a.good j y hy hly
    have hb' : p'.scratch ∈ bufs p' := by unfold bufs; rw [hp]; simp
    rcases ho with rfl | rfl
    · refine ⟨?_, ?_⟩
      · exact (hf y.call.data gy.wfd (fun b hb => a.input j i y x hy hx hly hl b hb)).2.2 _ hb'
      · intro b hb
        exact ((hf b (bufs_wf gy b hb) (fun c hc => a.sep j i y x hy hx hji hly hl b hb c hc)).2.2 _ hb').symm
    · exact ⟨apart_nil _, fun b _ => nil_apart b⟩

/-- No call ever panics. -/
theorem C69_no_panic {grow : Nat → Nat → Nat} {h₀ : Heap} {s : State} (e : Events grow ⟨h₀, []⟩ s)
    {i : Nat} {x : Thread} (hx : s.threads[i]? = some x) : x.call.pc ≠ .panic := by
  intro he
  have hl : Live x.call := fun out err h => by rw [he] at h; cases h
  exact good_no_panic ((events_good e).good i x hx hl).1 he

/-- A call that has taken as many steps as this has returned: however the steps of other calls are mixed in, no
call waits for another. -/
theorem C69_returns {grow : Nat → Nat → Nat} {h₀ : Heap} {s : State} (e : Events grow ⟨h₀, []⟩ s)
    {i : Nat} {x : Thread} (hx : s.threads[i]? = some x)
    (hn : x.input.length * (8 * x.input.length + 15) + 1 ≤ x.steps) : ∃ out err, x.call.pc = .done out err := by
  have hnl : ¬ Live x.call := by
    intro hl
    obtain ⟨g, _, hs⟩ := (events_good e).good i x hx hl
    obtain ⟨_, hlt, _⟩ := step_good grow g
    unfold maxSteps at hs
    omega
  cases hp : x.call.pc with
  | done out err => exact ⟨out, err, rfl⟩
  | _ => exact (hnl fun out err h => by rw [hp] at h; cases h).elim

/-- A step of a call changes nothing that is not in its private buffers: not its argument, not the arguments or buffers
of other running calls, no result of a call that has returned. -/
theorem C69_frame {grow : Nat → Nat → Nat} {h₀ : Heap} {s : State} (e : Events grow ⟨h₀, []⟩ s)
    {i : Nat} {x : Thread} (hx : s.threads[i]? = some x) {t : Slice} (w : WF s.heap t)
    (ht : Live x.call → ∀ b ∈ bufs x.call, Apart t b) :
    Same s.heap (x.call.step grow s.heap).2 t ∧
    (Live (x.call.step grow s.heap).1 → ∀ b ∈ bufs (x.call.step grow s.heap).1, Apart t b) := by
  by_cases hl : Live x.call
  · obtain ⟨g, _, _⟩ := (events_good e).good i x hx hl
    obtain ⟨h1, h2, h3⟩ := (step_good grow g).2.2 t w (ht hl)
    exact ⟨⟨h1, h2⟩, fun _ => h3⟩
  · rw [step_done grow s.heap hl]
    exact ⟨⟨w, rfl⟩, fun h => (hl h).elim⟩

/-- There is no data race: the buffers one running call writes share nothing with what another running call reads or
writes, nor with any running call's argument. -/
theorem C69_no_race {grow : Nat → Nat → Nat} {h₀ : Heap} {s : State} (e : Events grow ⟨h₀, []⟩ s)
    {i j : Nat} {x y : Thread} (hx : s.threads[i]? = some x) (hy : s.threads[j]? = some y)
    (hlx : Live x.call) (hly : Live y.call) :
    (∀ b ∈ bufs y.call, Apart x.call.data b) ∧ (i ≠ j → ∀ a ∈ bufs x.call, ∀ b ∈ bufs y.call, Apart a b) :=
  ⟨(events_good e).input i j x y hx hy hlx hly, fun hij => (events_good e).sep i j x y hx hy hij hlx hly⟩

/-- The argument of a running call still holds the rest of what it held at the call. -/
theorem C69_argument {grow : Nat → Nat → Nat} {h₀ : Heap} {s : State} (e : Events grow ⟨h₀, []⟩ s)
    {i : Nat} {x : Thread} (hx : s.threads[i]? = some x) (hl : Live x.call) :
    s.heap.read x.call.data = x.input.drop x.call.c :=
  ((events_good e).good i x hx hl).1.arg

/-! ### A concrete case: two calls on the same memory, mixed with a change elsewhere -/
namespace ConcCase

/-- Let the calls with these numbers take a step, one after the other. -/
def turns (s : State) : List Nat → State
  | [] => s
  | i :: is =>
    match s.threads[i]? with
    | none => turns s is
    | some x => turns ⟨(x.call.step (fun _ _ => 0) s.heap).2,
        s.threads.set i ⟨(x.call.step (fun _ _ => 0) s.heap).1, x.fn, x.input, x.steps + 1⟩⟩ is

theorem turns_events {s₀ : State} (is : List Nat) :
    ∀ s, Events (fun _ _ => 0) s₀ s → Events (fun _ _ => 0) s₀ (turns s is) := by
  induction is with
  | nil => intro s e; exact e
  | cons i is ih =>
    intro s e
    unfold turns
    split
    · exact ih s e
    · rename_i x hx
      exact ih _ (e.snoc (.step i x hx))

/-- The bytes `A`, `B` and one more array. -/
def before : Heap := [[65, 66], [7]]

def arg : Slice := ⟨0, 0, 2, 2⟩

/-- `From` and `To` called on the same slice. -/
def two : State :=
  ⟨before, [⟨.start .from_ arg, .from_, [65, 66], 0⟩, ⟨.start .to_ arg, .to_, [65, 66], 0⟩]⟩

theorem two_events : Events (fun _ _ => 0) ⟨before, []⟩ two := by
  have e1 := (Events.nil (grow := fun _ _ => 0) ⟨before, []⟩).snoc
    (.call .from_ arg ⟨by decide, by decide⟩ (by simp))
  exact e1.snoc (.call .to_ arg ⟨by decide, by decide⟩ (by
    intro x hx _ b hb
    simp at hx
    subst hx
    simp [bufs, Call.start] at hb
    subst hb
    exact apart_nil _))

/-- After 19 steps taken by turns, the first call is about to return, the second is still copying
its buffer, and the next step of the first returns the two bytes. -/
example : ∃ s x y out, Events (fun _ _ => 0) ⟨before, []⟩ s ∧ s.threads[0]? = some x ∧ s.threads[1]? = some y ∧
    x.call.pc = .round ∧ (∃ t, y.call.pc = .grow t 1) ∧
    (x.call.step (fun _ _ => 0) s.heap).1.pc = .done out none ∧
    (x.call.step (fun _ _ => 0) s.heap).2.read out = [65, 66] :=
  ⟨turns two [0, 1, 0, 0, 1, 0, 1, 0, 1, 0, 1, 1, 0, 0, 1, 0, 1, 0, 0], _, _, _, turns_events _ _ two_events,
    rfl, rfl, rfl, ⟨_, rfl⟩, rfl, rfl⟩

/-- The rest of the program may write elsewhere while the calls run. -/
example : Events (fun _ _ => 0) ⟨before, []⟩ ⟨[[65, 66], [8]], two.threads⟩ := by
  refine two_events.snoc (.other _ ?_)
  intro x hx _
  simp only [List.mem_cons, List.not_mem_nil, or_false] at hx
  rcases hx with rfl | rfl
  all_goals
    refine ⟨⟨⟨by decide, by decide⟩, by decide⟩, ?_⟩
    intro b hb
    simp [bufs, Call.start] at hb
    subst hb
    exact ⟨⟨by decide, by decide⟩, by decide⟩

end ConcCase
end Props
