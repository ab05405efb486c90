import Verif.Cp949.Mem
import Verif.Spec.Stream
/-! Vocabulary for statements about memory. -/
namespace Spec
open Go Cp949

/-- A slice lies within its array. -/
def WF (h : Heap) (s : Slice) : Prop :=
  s.len ≤ s.cap ∧ (s.cap = 0 ∨ s.off + s.cap ≤ (h.arr s.arr).length)

/-- Two slices share no byte, even with all their capacity. -/
def Apart (t s : Slice) : Prop :=
  t.cap = 0 ∨ s.cap = 0 ∨ t.arr ≠ s.arr ∨ t.off + t.cap ≤ s.off ∨ s.off + s.cap ≤ t.off

/-- The visible part of a slice only. -/
def clip (s : Slice) : Slice := { s with cap := s.len }

/-- `t` keeps its place and contents from `h` to `h'`. -/
def Same (h h' : Heap) (t : Slice) : Prop := WF h' t ∧ h'.read t = h.read t

/-- The source without the bytes it scribbles behind its data. -/
def plain {σ : Type} (src : SourceM σ) : Source σ := fun s k =>
  ((src s k).1, (src s k).2.2.1, (src s k).2.2.2)

/-- `t` shares nothing with the reader's buffers. -/
def Clear {σ : Type} (m : ReaderM σ) (t : Slice) : Prop :=
  Apart t m.scratch ∧ Apart t m.cdata ∧ Apart t m.rdata

/-- What the caller may do between two calls: anything that leaves the reader's buffers alone. -/
def Leaves {σ : Type} (m : ReaderM σ) (h h' : Heap) : Prop :=
  Same h h' m.scratch ∧ Same h h' m.cdata ∧ Same h h' m.rdata

/-- A sequence of calls of `Read` on the heap: the caller may change the heap before each call
(`Leaves`) and passes a buffer clear of the reader's. Listed are the contents of the buffers before
the calls, and the results (`n`, error, contents of the buffer after the call). -/
inductive ReadsM {σ : Type} (grow : Nat → Nat → Nat) (src : SourceM σ) :
    Heap → ReaderM σ → List Str → List Result → Heap → ReaderM σ → Prop
  | nil (h m) : ReadsM grow src h m [] [] h m
  | cons {h m h₁ buf fuel n err h₂ m₂ bufs res h₃ m₃} : Leaves m h h₁ → WF h₁ (clip buf) →
      Clear m (clip buf) → readLoopM grow src fuel h₁ m buf = .ret n err h₂ m₂ →
      ReadsM grow src h₂ m₂ bufs res h₃ m₃ →
      ReadsM grow src h m (h₁.read buf :: bufs) ((n, err, h₂.read buf) :: res) h₃ m₃

/-- A sequence of calls of `Write` on the heap: the caller may change the heap before each call, except
for the writer's buffers, and passes data that lies outside them. Listed are the contents of the data, and
the results. -/
inductive WritesM {τ : Type} (grow : Nat → Nat → Nat) (sink : Sink τ) :
    Heap → WriterM τ → List Str → List (Nat × Option Err) → Heap → WriterM τ → Prop
  | nil (h w) : WritesM grow sink h w [] [] h w
  | cons {h w h₁ data n err h₂ w₂ ds res h₃ w₃} : Same h h₁ w.scratch → Same h h₁ w.buf → WF h₁ data →
      Apart data w.scratch → WriteM grow sink h₁ w data = some (n, err, h₂, w₂) →
      WritesM grow sink h₂ w₂ ds res h₃ w₃ →
      WritesM grow sink h w (h₁.read data :: ds) ((n, err) :: res) h₃ w₃

end Spec
