import Verif.Cp949.Public
/-!
Model of the stream reader of encoding/cp949/public.go:41-94.

The underlying `io.Reader` is an arbitrary state machine. Simplifications: what it returns may not
depend on the old contents of the buffer it is handed, and it does not keep that buffer; the number of
bytes it returns is not negative. That `cdata` lives in the translator's scratch buffer is the subject of
`Verif.Cp949.Mem`.
-/
namespace Cp949
open Go

/-- The `io.Reader` of public.go:42 with state `σ`: `src s k` is a call of `Read` (public.go:68) with a buffer of length `k`; it gives
the bytes read, the error and the next state. -/
abbrev Source (σ : Type) := σ → Nat → Str × Option Err × σ

/-- The loop of `ensureCap`, cp949.go:130-139: the first capacity reached that is at least `n`.
`fuel` only makes the recursion structural (`growLoop_ge` shows `n` rounds are enough for `m > 0`). -/
def growLoop : (fuel m n : Nat) → Nat
  | 0, m, _ => m
  | fuel + 1, m, n =>
    let m := if m < 1024 then m + m else m + m / 4
    if m ≥ n then m else growLoop fuel m n

/-- The capacity of the result of `ensureCap(s, n)` for `cap(s) = c`, cp949.go:121-144. -/
def ensureCapCap (c n : Nat) : Nat :=
  if n ≤ c then c else if c = 0 then n else growLoop n c n

/-- public.go:41-47. `src` is the state of the underlying reader `r`; `rcap` is `cap(rdata)`.
The translator `tr` has no state visible here. -/
structure Reader (σ : Type) where
  src : σ
  cdata : Str
  rdata : Str
  rcap : Nat
  err : Option Err

/-- public.go:50-57 -/
def NewReader {σ : Type} (s : σ) : Reader σ := ⟨s, [], [], 0, none⟩

/-- How a call of `Read` (public.go:59-94) ends: it returns `n`, `err` and leaves `buf` and the reader as given; or it
panics; or the loop is still running when the fuel is used up. -/
inductive ReadOut (σ : Type) where
  | ret (n : Nat) (err : Option Err) (buf : Str) (r : Reader σ)
  | panic
  | running

/-- public.go:78-91: translate `rdata` and drop what has been consumed. The error of the
translator is ignored, as in the code. -/
def convert {σ : Type} (r : Reader σ) : Reader σ :=
  let (nc, cdata, _) := fromTranslate fromTable r.rdata
  let nc := if nc = 0 ∧ r.err ≠ none then r.rdata.length else nc
  { r with cdata := cdata, rdata := r.rdata.drop nc }

/-- public.go:67-74: one read from the source into the spare capacity of `rdata`; `none` is the
panic of slicing beyond the capacity. -/
def fill {σ : Type} (src : Source σ) (r : Reader σ) (len : Nat) : Option (Reader σ) :=
  let cap := ensureCapCap r.rcap (r.rdata.length + len)
  let (bs, err, s) := src r.src (cap - r.rdata.length)
  let err := if bs.length = 0 ∧ err = none then some Err.eof else err
  if r.rdata.length + bs.length ≤ cap then
    some { r with src := s, rdata := r.rdata ++ bs, rcap := cap, err := err }
  else none

/-- public.go:59-94, the loop of `Read`; one unit of fuel per round. -/
def readLoop {σ : Type} (src : Source σ) : (fuel : Nat) → Reader σ → (buf : Str) → ReadOut σ
  | 0, _, _ => .running
  | fuel + 1, r, buf =>
    if r.cdata.length > 0 then
      let (buf', n) := copy buf r.cdata
      .ret n none buf' { r with cdata := r.cdata.drop n }
    else if r.err = none then
      match fill src r buf.length with
      | none => .panic
      | some r => readLoop src fuel (convert r) buf
    else if r.rdata.length = 0 then .ret 0 r.err buf r
    else readLoop src fuel (convert r) buf

end Cp949
