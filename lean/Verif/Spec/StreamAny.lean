import Verif.Spec.Stream
import Verif.Cp949.ReaderAny
/-! Vocabulary for sources that break the contract of `io.Reader`. -/
namespace Spec
open Go Cp949

/-- The source with a log of what it has handed over; a negative count takes back as many bytes. -/
def loggedAny {σ : Type} (src : SourceAny σ) : SourceAny (σ × Str) := fun s k =>
  ((src s.1 k).1, (src s.1 k).2.1, (src s.1 k).2.2.1, (src s.1 k).2.2.2,
    if 0 ≤ (src s.1 k).2.1 then s.2 ++ buffer (src s.1 k).1 (src s.1 k).2.1.toNat
    else s.2.take (s.2.length - (src s.1 k).2.1.natAbs))

/-- A call of `Read` returns. -/
def ReturnsAny {σ : Type} (src : SourceAny σ) (r : Reader σ) (buf : Str) (n : Nat) (err : Option Err)
    (buf' : Str) (r' : Reader σ) : Prop :=
  ∃ fuel, readLoopAny src fuel r buf = .ret n err buf' r'

/-- A sequence of calls of `Read` with the buffers `bufs`, their results, and the state after. -/
inductive ReadsAny {σ : Type} (src : SourceAny σ) : Reader σ → List Str → List Result → Reader σ → Prop
  | nil (r) : ReadsAny src r [] [] r
  | cons {r buf n err buf' r' bufs res r''} : ReturnsAny src r buf n err buf' r' →
      ReadsAny src r' bufs res r'' → ReadsAny src r (buf :: bufs) ((n, err, buf') :: res) r''

/-- The source as one that returns the bytes it counts. -/
def counted {σ : Type} (src : SourceAny σ) : Source σ :=
  fun s k => (buffer (src s k).1 (src s k).2.1.toNat, (src s k).2.2.1, (src s k).2.2.2)

end Spec
