import Verif.Cp949.Step
import Verif.Spec.Mem
/-! Vocabulary for statements about goroutines. -/
namespace Spec
open Go Cp949

/-- A call, with what an observer notes about it: which function was called, what its argument held then, and how
many steps it has taken. -/
structure Thread where
  call : Call
  fn : Dir
  input : Str
  steps : Nat

/-- The call has not returned. -/
def Live (p : Call) : Prop := ∀ out err, p.pc ≠ .done out err

/-- The memory a running call works in. -/
def bufs (p : Call) : List Slice :=
  match p.pc with
  | .grow t _ => [p.scratch, t]
  | _ => [p.scratch]

/-- A slice with all its capacity. -/
def full (s : Slice) : Slice := s.upTo s.cap

/-- A program: its memory and the calls of `From` and `To` made so far. -/
structure State where
  heap : Heap
  threads : List Thread

/-- One event in a program with any number of goroutines. -/
inductive Event (grow : Nat → Nat → Nat) : State → State → Prop
  /-- a goroutine calls `From` or `To`, with a slice of memory that is not inside a running call's buffer (nobody
  else has a reference to these) -/
  | call {h ts} (d : Dir) (in_ : Slice) : WF h in_ →
      (∀ x ∈ ts, Live x.call → ∀ b ∈ bufs x.call, Apart in_ b) →
      Event grow ⟨h, ts⟩ ⟨h, ts ++ [⟨.start d in_, d, h.read in_, 0⟩]⟩
  /-- the `i`-th call takes a step -/
  | step {h ts} (i : Nat) (x : Thread) : ts[i]? = some x →
      Event grow ⟨h, ts⟩
        ⟨(x.call.step grow h).2, ts.set i ⟨(x.call.step grow h).1, x.fn, x.input, x.steps + 1⟩⟩
  /-- any goroutine does anything to memory, apart from the arguments and the buffers of running calls -/
  | other {h ts} (h' : Heap) :
      (∀ x ∈ ts, Live x.call → Same h h' x.call.data ∧ ∀ b ∈ bufs x.call, Same h h' (full b)) →
      Event grow ⟨h, ts⟩ ⟨h', ts⟩

/-- Any finite sequence of events. -/
inductive Events (grow : Nat → Nat → Nat) : State → State → Prop
  | nil (s) : Events grow s s
  | snoc {s s' s''} : Events grow s s' → Event grow s' s'' → Events grow s s''

/-- What `From` or `To` is to return. -/
def expected (d : Dir) (input : Str) : Str × Option Err :=
  match d with
  | .from_ => From input
  | .to_ => To input

end Spec
