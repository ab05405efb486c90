import Verif.Cp949.Step
/-!
Calls of `Read` and `Write` (encoding/cp949/public.go:59-94 and :112-133) and of the two `Transform` methods
(encoding/cp949/encoding.go:28-38 and :43-53) as sequences of single memory accesses, for statements about several
goroutines. Between two steps of a call other goroutines may run.

Simplifications, besides those of `Verif.Cp949.Step`: the fields of a reader or writer are its own and reading or
writing them is no step (in the statements a reader or writer is used by one goroutine at a time); the source is asked
in one step and then stores byte by byte; the sink is handed all bytes in one step.
-/
namespace Cp949
open Go

/-- Where a call of `Read` is in public.go:59-94; bookkeeping of the model. -/
inductive RPc where
  /-- no call has been made -/
  | idle
  /-- at the head of the loop, public.go:60 -/
  | top
  /-- public.go:67, in `ensureCap` (cp949.go:121-144): the array `t` is allocated and the first `i` bytes are copied to it -/
  | grow (t : Slice) (i : Nat)
  /-- public.go:68, about to ask the source -/
  | fetch
  /-- public.go:68-74: the source has returned `n` and `err` (as corrected in :70-72); the first `i` of the bytes `bs` it
  stores are stored -/
  | fill (bs : Str) (n : Nat) (err : Option Err) (i : Nat)
  /-- public.go:78, in `Translate` -/
  | trans (c : Call)
  /-- public.go:91: the first `i` bytes are moved down by `nc` -/
  | compact (nc i : Nat)
  /-- public.go:62: the first `i` of `n` bytes are copied to the caller -/
  | deliver (n i : Nat)
  /-- the call has returned -/
  | ret (n : Nat) (err : Option Err)
  | panic

/-- A reader (public.go:41-47), the argument of the call of `Read` (:59) made last, and where the call is. -/
structure RdState (σ : Type) where
  m : ReaderM σ
  buf : Slice
  pc : RPc

/-- public.go:50-57 -/
def RdState.new {σ : Type} (s : σ) : RdState σ := ⟨NewReaderM s, .nil, .idle⟩

/-- public.go:59: `Read(buf)` is called. -/
def RdState.call {σ : Type} (p : RdState σ) (buf : Slice) : RdState σ := ⟨p.m, buf, .top⟩

/-- One step of public.go:59-94. -/
def RdState.step {σ : Type} (grow : Nat → Nat → Nat) (src : SourceM σ) (h : Heap) (p : RdState σ) : RdState σ × Heap :=
  match p.pc with
  | .idle => (p, h)
  | .ret _ _ => (p, h)
  | .panic => (p, h)
  | .top =>
    if p.m.cdata.len > 0 then ({ p with pc := .deliver (min p.buf.len p.m.cdata.len) 0 }, h)
    else if p.m.err = none then
      if p.m.rdata.len + p.buf.len ≤ p.m.rdata.cap then ({ p with pc := .fetch }, h)
      else
        let c := ensureCapCap p.m.rdata.cap (p.m.rdata.len + p.buf.len)
        ({ p with pc := .grow ⟨h.length, 0, p.m.rdata.len, c⟩ 0 }, h ++ [List.replicate c 0])
    else if p.m.rdata.len = 0 then ({ p with pc := .ret 0 p.m.err }, h)
    else ({ p with pc := .trans (.resume .from_ p.m.scratch p.m.rdata) }, h)
  | .grow t i =>
    if i < p.m.rdata.len then
      ({ p with pc := .grow t (i + 1) }, h.write t.arr (t.off + i) [byteAt h p.m.rdata i])
    else ({ p with m := { p.m with rdata := t }, pc := .fetch }, h)
  | .fetch =>
    let k := p.m.rdata.cap - p.m.rdata.len
    let (bs, junk, err, s) := src p.m.src k
    let err := if bs.length = 0 ∧ err = none then some Err.eof else err
    if p.m.rdata.len + bs.length ≤ p.m.rdata.cap then
      ({ p with m := { p.m with src := s }, pc := .fill ((bs ++ junk).take k) bs.length err 0 }, h)
    else ({ p with pc := .panic }, h)
  | .fill bs n err i =>
    if i < bs.length then
      ({ p with pc := .fill bs n err (i + 1) },
        h.write p.m.rdata.arr (p.m.rdata.off + (p.m.rdata.len + i)) [bs.getD i 0])
    else
      let rdata := p.m.rdata.upTo (p.m.rdata.len + n)
      ({ p with m := { p.m with rdata := rdata, err := err }, pc := .trans (.resume .from_ p.m.scratch rdata) }, h)
  | .trans c =>
    match c.pc with
    | .done out err =>
      let n := if err = none then c.c else 0
      let nc := if n = 0 ∧ p.m.err ≠ none then p.m.rdata.len else n
      ({ p with m := { p.m with scratch := c.scratch, cdata := out }, pc := .compact nc 0 }, h)
    | .panic => ({ p with pc := .panic }, h)
    | _ => ({ p with pc := .trans (c.step grow h).1 }, (c.step grow h).2)
  | .compact nc i =>
    if i < p.m.rdata.len - nc then
      ({ p with pc := .compact nc (i + 1) },
        h.write p.m.rdata.arr (p.m.rdata.off + i) [byteAt h p.m.rdata (nc + i)])
    else ({ p with m := { p.m with rdata := p.m.rdata.upTo (p.m.rdata.len - nc) }, pc := .top }, h)
  | .deliver n i =>
    if i < n then
      ({ p with pc := .deliver n (i + 1) }, h.write p.buf.arr (p.buf.off + i) [byteAt h p.m.cdata i])
    else ({ p with m := { p.m with cdata := p.m.cdata.from n }, pc := .ret n none }, h)

/-- Where a call of `Write` is in public.go:112-133; bookkeeping of the model. -/
inductive WPc where
  /-- no call has been made -/
  | idle
  /-- public.go:113 -/
  | top
  /-- public.go:118, in `Translate(wdata)` -/
  | trans (wdata : Slice) (c : Call)
  /-- the call has returned -/
  | ret (n : Nat) (err : Option Err)
  | panic

/-- A writer (public.go:96-100), the argument of the call of `Write` (:112) made last, and where the call is. -/
structure WrState (τ : Type) where
  m : WriterM τ
  data : Slice
  pc : WPc

/-- public.go:103-110 -/
def WrState.new {τ : Type} (t : τ) : WrState τ := ⟨NewWriterM t, .nil, .idle⟩

/-- public.go:112: `Write(data)` is called. -/
def WrState.call {τ : Type} (p : WrState τ) (data : Slice) : WrState τ := ⟨p.m, data, .top⟩

/-- One step of public.go:112-133. Simplified: the two appends to `w.buf` are one step each (C46 shows that they never
append anything). -/
def WrState.step {τ : Type} (grow : Nat → Nat → Nat) (sink : Sink τ) (h : Heap) (p : WrState τ) : WrState τ × Heap :=
  match p.pc with
  | .idle => (p, h)
  | .ret _ _ => (p, h)
  | .panic => (p, h)
  | .top =>
    if p.m.buf.len > 0 then
      let (buf, h) := appendM grow h p.m.buf (h.read p.data)
      ({ p with m := { p.m with buf := buf }, pc := .trans buf (.resume .to_ p.m.scratch buf) }, h)
    else ({ p with pc := .trans p.data (.resume .to_ p.m.scratch p.data) }, h)
  | .trans wdata c =>
    match c.pc with
    | .done out err =>
      let n := if err = none then c.c else 0
      let (err, s) := if n > 0 then
          let (_, err, s) := sink p.m.sink (h.read out)
          (err, s)
        else (none, p.m.sink)
      if err ≠ none then ({ p with m := ⟨s, c.scratch, p.m.buf⟩, pc := .ret 0 err }, h)
      else
        let buf := p.m.buf.upTo 0
        let (buf, h) := if n < wdata.len then appendM grow h buf (h.read (wdata.from n)) else (buf, h)
        ({ p with m := ⟨s, c.scratch, buf⟩, pc := .ret p.data.len none }, h)
    | .panic => ({ p with pc := .panic }, h)
    | _ => ({ p with pc := .trans wdata (c.step grow h).1 }, (c.step grow h).2)

/-- Where a call of `Transform` is in encoding.go:28-38 or :43-53; bookkeeping of the model. -/
inductive TPc where
  /-- encoding.go:30 or :45, in `From` or `To` -/
  | conv (c : Call)
  /-- encoding.go:36 or :51: the first `i` bytes of the converted data are copied to `dst` -/
  | copy (out : Slice) (i : Nat)
  /-- the call has returned -/
  | ret (nDst nSrc : Nat) (err : Option Err)
  | panic

/-- A call of `Transform` (encoding.go:28, :43; of the decoder if `dir` is `from_`, of the encoder if it is `to_`), and where it is. -/
structure TrState where
  dir : Dir
  dst : Slice
  src : Slice
  pc : TPc

/-- encoding.go:28-30 and :43-45: `Transform(dst, src, atEOF)` is called; `atEOF` is not looked at. -/
def TrState.call (d : Dir) (dst src : Slice) : TrState := ⟨d, dst, src, .conv (.start d src)⟩

/-- One step of encoding.go:28-38 or :43-53. -/
def TrState.step (grow : Nat → Nat → Nat) (h : Heap) (p : TrState) : TrState × Heap :=
  match p.pc with
  | .ret _ _ _ => (p, h)
  | .panic => (p, h)
  | .conv c =>
    match c.pc with
    | .done out err =>
      if err ≠ none then ({ p with pc := .ret 0 0 err }, h) else ({ p with pc := .copy out 0 }, h)
    | .panic => ({ p with pc := .panic }, h)
    | _ => ({ p with pc := .conv (c.step grow h).1 }, (c.step grow h).2)
  | .copy out i =>
    if i < min p.dst.len out.len then
      ({ p with pc := .copy out (i + 1) }, h.write p.dst.arr (p.dst.off + i) [byteAt h out i])
    else ({ p with pc := .ret out.len p.src.len none }, h)

end Cp949
