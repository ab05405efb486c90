import Verif.Cp949.StepStream
import Verif.Cp949.Encoding
import Verif.Spec.Conc
/-! Vocabulary for statements about goroutines that use readers, writers, transformers, `From` and `To`. -/
namespace Spec
open Go Cp949

variable {σ τ : Type}

/-- A reader, with what an observer notes about it: the state in which its source was handed to it, the contents of the
buffers passed to `Read`, the results (with the contents of the buffer on return), and how many steps the call made last
has taken. -/
structure RdTask (σ : Type) where
  st : RdState σ
  init : σ
  bufs : List Str
  res : List Result
  steps : Nat

/-- A writer, with what an observer notes about it. -/
structure WrTask (τ : Type) where
  st : WrState τ
  init : τ
  ds : List Str
  res : List (Nat × Option Err)
  steps : Nat

/-- A call of `Transform`, with what an observer notes about it: whose method was called, what `dst` and `src` held then,
the results (with the contents of `dst` on return), and how many steps it has taken. -/
structure TrTask where
  st : TrState
  fn : Dir
  old : Str
  input : Str
  res : Option Transformed
  steps : Nat

/-- Something the program has in hand. -/
inductive Task (σ τ : Type) where
  /-- a call of `From` or `To` -/
  | cv (x : Thread)
  | rd (x : RdTask σ)
  | wr (x : WrTask τ)
  /-- a call of `Transform` -/
  | tr (x : TrTask)

/-- No call of `Read` is running. -/
def RdState.rests (p : RdState σ) : Bool :=
  match p.pc with
  | .idle => true
  | .ret _ _ => true
  | .panic => true
  | _ => false

/-- No call of `Write` is running. -/
def WrState.rests (p : WrState τ) : Bool :=
  match p.pc with
  | .idle => true
  | .ret _ _ => true
  | .panic => true
  | _ => false

/-- The memory a call of `From` or `To` works in; nothing once it has returned. -/
def Call.own (c : Call) : List Slice :=
  match c.pc with
  | .done _ _ => []
  | _ => bufs c

/-- The memory a reader works in; during a call this includes the visible part of the buffer passed. -/
def RdState.own (p : RdState σ) : List Slice :=
  match p.pc with
  | .idle => [p.m.scratch, p.m.cdata, p.m.rdata]
  | .ret _ _ => [p.m.scratch, p.m.cdata, p.m.rdata]
  | .panic => [p.m.scratch, p.m.cdata, p.m.rdata]
  | .grow t _ => [p.m.scratch, p.m.cdata, p.m.rdata, clip p.buf, t]
  | .trans c => [p.m.scratch, p.m.cdata, p.m.rdata, clip p.buf] ++ bufs c
  | _ => [p.m.scratch, p.m.cdata, p.m.rdata, clip p.buf]

/-- The memory a writer works in. -/
def WrState.own (p : WrState τ) : List Slice :=
  match p.pc with
  | .trans _ c => [p.m.scratch, p.m.buf] ++ bufs c
  | _ => [p.m.scratch, p.m.buf]

/-- The memory a call of `Transform` works in, which includes the visible part of `dst`; nothing once it has returned. -/
def TrState.own (p : TrState) : List Slice :=
  match p.pc with
  | .conv c => clip p.dst :: bufs c
  | .copy out _ => [clip p.dst, out]
  | _ => []

/-- What a call of `Transform` reads. -/
def TrState.args (p : TrState) : List Slice :=
  match p.pc with
  | .conv _ => [p.src]
  | _ => []

/-- The memory only this task may use. -/
def Task.own : Task σ τ → List Slice
  | .cv x => Call.own x.call
  | .rd x => RdState.own x.st
  | .wr x => WrState.own x.st
  | .tr x => TrState.own x.st

/-- The memory this task reads; nobody may change it while the call runs. -/
def Task.args : Task σ τ → List Slice
  | .cv x => match x.call.pc with | .done _ _ => [] | _ => [x.call.data]
  | .rd _ => []
  | .wr x => if WrState.rests x.st then [] else [x.st.data]
  | .tr x => TrState.args x.st

/-- A task takes one step; when a call returns, the observer notes its results. -/
def Task.step (grow : Nat → Nat → Nat) (src : SourceM σ) (sink : Sink τ) (h : Heap) : Task σ τ → Task σ τ × Heap
  | .cv x => (.cv ⟨(x.call.step grow h).1, x.fn, x.input, x.steps + 1⟩, (x.call.step grow h).2)
  | .rd x =>
    let (p, h') := x.st.step grow src h
    (.rd { x with
      st := p
      res := match RdState.rests x.st, p.pc with
        | false, .ret n err => x.res ++ [(n, err, h'.read p.buf)]
        | _, _ => x.res
      steps := x.steps + 1 }, h')
  | .wr x =>
    let (p, h') := x.st.step grow sink h
    (.wr { x with
      st := p
      res := match WrState.rests x.st, p.pc with
        | false, .ret n err => x.res ++ [(n, err)]
        | _, _ => x.res
      steps := x.steps + 1 }, h')

  | .tr x =>
    let (p, h') := x.st.step grow h
    (.tr { x with
      st := p
      res := match x.res, p.pc with
        | none, .ret n k err => some ⟨h'.read p.dst, n, k, err⟩
        | r, _ => r
      steps := x.steps + 1 }, h')

/-- One event in a program with any number of goroutines. -/
inductive GEvent (grow : Nat → Nat → Nat) (src : SourceM σ) (sink : Sink τ) :
    Heap → List (Task σ τ) → Heap → List (Task σ τ) → Prop
  | newReader {h ts} (s : σ) : GEvent grow src sink h ts h (ts ++ [.rd ⟨.new s, s, [], [], 0⟩])
  | newWriter {h ts} (t : τ) : GEvent grow src sink h ts h (ts ++ [.wr ⟨.new t, t, [], [], 0⟩])
  /-- a goroutine calls `From` or `To` with memory no task works in -/
  | conv {h ts} (d : Dir) (in_ : Slice) : WF h in_ → (∀ y ∈ ts, ∀ b ∈ Task.own y, Apart in_ b) →
      GEvent grow src sink h ts h (ts ++ [.cv ⟨.start d in_, d, h.read in_, 0⟩])
  /-- a goroutine calls `Read` on a reader that nobody is using, with a buffer nobody else is using -/
  | read {h ts} (i : Nat) (x : RdTask σ) (buf : Slice) : ts[i]? = some (.rd x) → RdState.rests x.st = true →
      x.st.pc ≠ .panic → WF h (clip buf) → (∀ y ∈ ts, ∀ b ∈ Task.own y, Apart (clip buf) b) →
      (∀ y ∈ ts, ∀ a ∈ Task.args y, Apart a (clip buf)) →
      GEvent grow src sink h ts h (ts.set i (.rd ⟨x.st.call buf, x.init, x.bufs ++ [h.read buf], x.res, 0⟩))
  /-- a goroutine calls `Write` on a writer that nobody is using, with data no task works in -/
  | write {h ts} (i : Nat) (x : WrTask τ) (data : Slice) : ts[i]? = some (.wr x) → WrState.rests x.st = true →
      x.st.pc ≠ .panic → WF h data → (∀ y ∈ ts, ∀ b ∈ Task.own y, Apart data b) →
      GEvent grow src sink h ts h (ts.set i (.wr ⟨x.st.call data, x.init, x.ds ++ [h.read data], x.res, 0⟩))
  /-- a goroutine calls the method `Transform` of any decoder or encoder, of which others may be using the same, with a
  `dst` nobody else is using and a `src` no task works in; `dst` and `src` may overlap -/
  | transform {h ts} (d : Dir) (dst data : Slice) : WF h (clip dst) → WF h data →
      (∀ y ∈ ts, ∀ b ∈ Task.own y, Apart (clip dst) b) → (∀ y ∈ ts, ∀ a ∈ Task.args y, Apart a (clip dst)) →
      (∀ y ∈ ts, ∀ b ∈ Task.own y, Apart data b) →
      GEvent grow src sink h ts h (ts ++ [.tr ⟨.call d dst data, d, h.read dst, h.read data, none, 0⟩])
  /-- the `i`-th task takes a step -/
  | step {h ts} (i : Nat) (x : Task σ τ) : ts[i]? = some x →
      GEvent grow src sink h ts (x.step grow src sink h).2 (ts.set i (x.step grow src sink h).1)
  /-- any goroutine does anything to memory, apart from what tasks work in and what running calls read -/
  | other {h ts} (h' : Heap) :
      (∀ y ∈ ts, (∀ b ∈ Task.own y, Same h h' (full b)) ∧ ∀ a ∈ Task.args y, Same h h' a) →
      GEvent grow src sink h ts h' ts

/-- What the `Transform` of the decoder or of the encoder is to return, and to leave in `dst`. -/
def transformed (d : Dir) (dst data : Str) (atEOF : Bool) : Transformed :=
  match d with
  | .from_ => decoderTransform dst data atEOF
  | .to_ => encoderTransform dst data atEOF

/-- Any finite sequence of events. -/
inductive GEvents (grow : Nat → Nat → Nat) (src : SourceM σ) (sink : Sink τ) :
    Heap → List (Task σ τ) → Heap → List (Task σ τ) → Prop
  | nil (h ts) : GEvents grow src sink h ts h ts
  | snoc {h ts h' ts' h'' ts''} : GEvents grow src sink h ts h' ts' → GEvent grow src sink h' ts' h'' ts'' →
      GEvents grow src sink h ts h'' ts''

end Spec
