import Verif.Cp949.Reader
/-!
`cp949Reader.Read` (encoding/cp949/public.go:59-94) once more, over sources that break the contract of `io.Reader`: the
count they return is any integer, and the buffer holds anything afterwards. `Verif.Cp949.Reader` is the case of counts
that are not negative (`C78_same`). Simplification: what the source leaves in the buffer does not depend on what was in
it; but it may be anything, also what was in it.
-/
namespace Cp949
open Go

/-- The `io.Reader` of public.go:42, of any behaviour: `src s k` is a call of `Read` with a buffer of length `k`; it gives the contents
of the buffer after the call (position by position), the count and the error returned, and the next state. -/
abbrev SourceAny (σ : Type) := σ → Nat → (Nat → Byte) × Int × Option Err × σ

/-- The first `k` bytes of the buffer that is passed in public.go:68. -/
def buffer (b : Nat → Byte) (k : Nat) : Str := (List.range k).map b

/-- public.go:67-74: `rdata[0:len(rdata)+n]` panics if the new length is negative or beyond the capacity; otherwise `n < 0`
makes `rdata` shorter. An `n` so large that `len(rdata)+n` overflows makes it negative in Go and panics too. -/
def fillAny {σ : Type} (src : SourceAny σ) (r : Reader σ) (len : Nat) : Option (Reader σ) :=
  let cap := ensureCapCap r.rcap (r.rdata.length + len)
  let k := cap - r.rdata.length
  let (b, n, err, s) := src r.src k
  let err := if n = 0 ∧ err = none then some Err.eof else err
  let m := (r.rdata.length : Int) + n
  if 0 ≤ m ∧ m ≤ cap then
    some { r with src := s, rdata := (r.rdata ++ buffer b k).take m.toNat, rcap := cap, err := err }
  else none

/-- public.go:59-94, the loop of `Read`; one unit of fuel per round. -/
def readLoopAny {σ : Type} (src : SourceAny σ) : (fuel : Nat) → Reader σ → (buf : Str) → ReadOut σ
  | 0, _, _ => .running
  | fuel + 1, r, buf =>
    if r.cdata.length > 0 then
      let (buf', n) := copy buf r.cdata
      .ret n none buf' { r with cdata := r.cdata.drop n }
    else if r.err = none then
      match fillAny src r buf.length with
      | none => .panic
      | some r => readLoopAny src fuel (convert r) buf
    else if r.rdata.length = 0 then .ret 0 r.err buf r
    else readLoopAny src fuel (convert r) buf

end Cp949
