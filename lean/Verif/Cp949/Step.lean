import Verif.Cp949.Mem
/-!
A call of `From` or `To` (encoding/cp949/public.go:12-39) as a sequence of single memory accesses, for statements
about several goroutines. Between two steps of a call other goroutines may run.

Simplifications: the bytes of one character are read from the input in one step (nobody writes to the input
of a running call in the statements); the lookup tables are never written, so reading them is no step.
-/
namespace Cp949
open Go

/-- Which function runs: public.go:12 or :27. -/
inductive Dir where
  | from_
  | to_
  deriving DecidableEq

/-- Bytes the translator is about to append to its scratch buffer: with `appendRune`
(cp949.go:59,61), which makes room for four bytes first, or with `append` (cp949.go:39,77,93,98,101). -/
structure Req where
  rune : Bool
  bytes : Str

/-- Where the call is in cp949.go:34-67 or :72-108; bookkeeping of the model. -/
inductive Pc where
  /-- at the head of the loop, or about to start the next append -/
  | round
  /-- the larger array `t` is allocated and the first `i` bytes are copied to it -/
  | grow (t : Slice) (i : Nat)
  /-- the first `i` bytes to append are stored -/
  | store (i : Nat)
  /-- returned -/
  | done (out : Slice) (err : Option Err)
  | panic

/-- A call: the variables `data`, `scratch`, `c` of cp949.go:34-67 and :72-108. -/
structure Call where
  dir : Dir
  data : Slice
  scratch : Slice
  c : Nat
  todo : List Req
  pc : Pc

/-- public.go:12-13 and :27-28: a new translator, with a nil scratch buffer. -/
def Call.start (d : Dir) (in_ : Slice) : Call := ⟨d, in_, .nil, 0, [], .round⟩

/-- cp949.go:35 and :73: a call of `Translate` of a translator that has been used before, as the Reader and the Writer
make it. -/
def Call.resume (d : Dir) (scratch data : Slice) : Call := ⟨d, data, scratch.upTo 0, 0, [], .round⟩

/-- The capacity an append needs: cp949.go:148-149 or the language's `append`. -/
def Req.need (q : Req) (s : Slice) : Nat := if q.rune then s.len + 4 else s.len + q.bytes.length

/-- The capacity of the new array: cp949.go:121-144 or the language's `append` with any growth policy. -/
def Req.newCap (grow : Nat → Nat → Nat) (q : Req) (s : Slice) : Nat :=
  if q.rune then ensureCapCap s.cap (q.need s) else q.need s + grow s.cap (q.need s)

/-- One round of cp949.go:37-66 up to its append. -/
def Call.fromRound (h : Heap) (p : Call) : Call :=
  if p.data.len = 0 then { p with pc := .done p.scratch none }
  else if byteAt h p.data 0 &&& 0x80 = 0 then
    { p with data := p.data.from 1, c := p.c + 1, todo := [⟨false, [byteAt h p.data 0]⟩] }
  else if p.data.len < 2 then { p with pc := .done .nil (some .unexpectedStream) }
  else
    let n := (byteAt h p.data 0).toUInt16 <<< 8 ||| (byteAt h p.data 1).toUInt16
    let fi := searchCp949 fromTable n
    let r := if fi < fromTable.length ∧ n = (fromTable.getD fi default).cp949 then
        Int32.ofNat (fromTable.getD fi default).ucs2.toNat
      else RuneError
    { p with data := p.data.from 2, c := p.c + 2, todo := [⟨true, encodeRune r⟩] }

/-- One round of cp949.go:75-107 up to its appends. -/
def Call.toRound (h : Heap) (p : Call) : Call :=
  if p.data.len = 0 then { p with pc := .done p.scratch none }
  else if byteAt h p.data 0 &&& 0x80 = 0 then
    { p with data := p.data.from 1, c := p.c + 1, todo := [⟨false, [byteAt h p.data 0]⟩] }
  else
    let (r, s) := DecodeRune (h.read p.data)
    let rUcs2 := r.toUInt32.toUInt16
    let fi := searchUcs2 toTable rUcs2
    let first : List Req := if fi ≥ toTable.length then [⟨false, [0x3F]⟩] else []
    let last : Req :=
      if fi < toTable.length ∧ rUcs2 = (toTable.getD fi default).ucs2 then
        ⟨false, [((toTable.getD fi default).cp949 >>> 8).toUInt8, ((toTable.getD fi default).cp949 &&& 0xFF).toUInt8]⟩
      else ⟨false, [0x3F]⟩
    { p with data := p.data.from s, c := p.c + s, todo := first ++ [last] }

/-- One step of a call of public.go:12-39, running cp949.go:34-67 or :72-108 with the appends of cp949.go:121-152.
Simplified: one step is one test, one allocation or one byte copied or stored. A call that has returned does nothing. -/
def Call.step (grow : Nat → Nat → Nat) (h : Heap) (p : Call) : Call × Heap :=
  match p.pc, p.todo with
  | .done _ _, _ => (p, h)
  | .panic, _ => (p, h)
  | .round, [] => (match p.dir with | .from_ => p.fromRound h | .to_ => p.toRound h, h)
  | .round, q :: _ =>
    if q.need p.scratch ≤ p.scratch.cap then ({ p with pc := .store 0 }, h)
    else
      let m := q.newCap grow p.scratch
      ({ p with pc := .grow ⟨h.length, 0, p.scratch.len, m⟩ 0 }, h ++ [List.replicate m 0])
  | .grow t i, todo =>
    if i < p.scratch.len then
      ({ p with pc := .grow t (i + 1) }, h.write t.arr (t.off + i) [byteAt h p.scratch i])
    else
      match todo with
      | [] => ({ p with pc := .panic }, h)
      | q :: _ =>
        if q.need t ≤ t.cap then ({ p with scratch := t, pc := .store 0 }, h) else ({ p with pc := .panic }, h)
  | .store _, [] => ({ p with pc := .panic }, h)
  | .store i, q :: todo =>
    if i < q.bytes.length then
      ({ p with pc := .store (i + 1) },
        h.write p.scratch.arr (p.scratch.off + (p.scratch.len + i)) [q.bytes.getD i 0])
    else ({ p with scratch := p.scratch.upTo (p.scratch.len + q.bytes.length), todo := todo, pc := .round }, h)

end Cp949
