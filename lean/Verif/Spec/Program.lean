import Verif.Spec.Mem
/-! Programs that use package cp949: any number of readers and writers, and calls of the other functions, in any order. -/
namespace Spec
open Go Cp949

/-- The memory of the program, the slices it holds (its own variables), its readers and its writers. `NewReader` and
`NewWriter` allocate no bytes, so that all those the program will ever use may stand ready from the start. -/
structure World (σ τ : Type) where
  heap : Heap
  own : List Slice
  rd : Nat → ReaderM σ
  wr : Nat → WriterM τ

/-- One of a family is replaced. -/
def put {α : Type} (f : Nat → α) (i : Nat) (x : α) : Nat → α := fun k => if k = i then x else f k

/-- `t` is cut out of `s`, with no more capacity than `s` has. -/
def Part (t s : Slice) : Prop :=
  t.arr = s.arr ∧ s.off ≤ t.off ∧ t.off + t.cap ≤ s.off + s.cap ∧ t.len ≤ t.cap

/-- What is observed of a step: for a call, which reader or writer, the contents of the arguments, and the results. -/
inductive Happening where
  | quiet
  | read (i : Nat) (buf : Str) (res : Result)
  | write (j : Nat) (data : Str) (res : Nat × Option Err)
  | from_ (data : Str) (res : Str × Option Err)
  | to (data : Str) (res : Str × Option Err)
  | decode (dst src : Str) (atEOF : Bool) (res : Transformed)
  | encode (dst src : Str) (atEOF : Bool) (res : Transformed)

variable {σ τ : Type}

/-- The steps of a program. It can allocate, reslice and store, but only within the slices it holds; it passes only slices it
holds; it gets hold of what `From` and `To` return, but not of the buffers of readers and writers. -/
inductive ProgStep (grow : Nat → Nat → Nat) (src : SourceM σ) (sink : Sink τ) : World σ τ → Happening → World σ τ → Prop
  | alloc (w : World σ τ) (bs : Str) :
      ProgStep grow src sink w .quiet
        { w with heap := w.heap ++ [bs], own := ⟨w.heap.length, 0, bs.length, bs.length⟩ :: w.own }
  | reslice (w : World σ τ) {s t : Slice} : s ∈ w.own → Part t s →
      ProgStep grow src sink w .quiet { w with own := t :: w.own }
  | store (w : World σ τ) {s : Slice} (i : Nat) (bs : Str) : s ∈ w.own → i + bs.length ≤ s.cap →
      ProgStep grow src sink w .quiet { w with heap := w.heap.write s.arr (s.off + i) bs }
  | read (w : World σ τ) (i : Nat) {buf : Slice} {fuel n err h m} : buf ∈ w.own →
      readLoopM grow src fuel w.heap (w.rd i) buf = .ret n err h m →
      ProgStep grow src sink w (.read i (w.heap.read buf) (n, err, h.read buf)) { w with heap := h, rd := put w.rd i m }
  | write (w : World σ τ) (j : Nat) {data : Slice} {n err h m} : data ∈ w.own →
      WriteM grow sink w.heap (w.wr j) data = some (n, err, h, m) →
      ProgStep grow src sink w (.write j (w.heap.read data) (n, err)) { w with heap := h, wr := put w.wr j m }
  | from_ (w : World σ τ) {data out : Slice} {err h} : data ∈ w.own → FromM grow w.heap data = some (out, err, h) →
      ProgStep grow src sink w (.from_ (w.heap.read data) (h.read out, err)) { w with heap := h, own := out :: w.own }
  | to (w : World σ τ) {data out : Slice} {err h} : data ∈ w.own → ToM grow w.heap data = some (out, err, h) →
      ProgStep grow src sink w (.to (w.heap.read data) (h.read out, err)) { w with heap := h, own := out :: w.own }
  | decode (w : World σ τ) {dst data : Slice} {atEOF n k err h} : dst ∈ w.own → data ∈ w.own →
      decoderTransformM grow w.heap dst data atEOF = some (n, k, err, h) →
      ProgStep grow src sink w (.decode (w.heap.read dst) (w.heap.read data) atEOF ⟨h.read dst, n, k, err⟩)
        { w with heap := h }
  | encode (w : World σ τ) {dst data : Slice} {atEOF n k err h} : dst ∈ w.own → data ∈ w.own →
      encoderTransformM grow w.heap dst data atEOF = some (n, k, err, h) →
      ProgStep grow src sink w (.encode (w.heap.read dst) (w.heap.read data) atEOF ⟨h.read dst, n, k, err⟩)
        { w with heap := h }

/-- A run of a program. -/
inductive Runs (grow : Nat → Nat → Nat) (src : SourceM σ) (sink : Sink τ) :
    World σ τ → List Happening → World σ τ → Prop
  | nil (w) : Runs grow src sink w [] w
  | cons {w e w₁ es w₂} : ProgStep grow src sink w e w₁ → Runs grow src sink w₁ es w₂ → Runs grow src sink w (e :: es) w₂

/-- The start: some memory, all of which the program may hold in any way; readers and writers are new. -/
def start (h : Heap) (own : List Slice) (s : Nat → σ) (t : Nat → τ) : World σ τ :=
  ⟨h, own, fun i => NewReaderM (s i), fun j => NewWriterM (t j)⟩

/-- The calls of `Read` on one reader: the contents of the buffers passed. -/
def bufsOf (i : Nat) (es : List Happening) : List Str :=
  es.filterMap fun | .read k b _ => if k = i then some b else none | _ => none

/-- The results of the calls of `Read` on one reader. -/
def resultsOf (i : Nat) (es : List Happening) : List Result :=
  es.filterMap fun | .read k _ r => if k = i then some r else none | _ => none

/-- The calls of `Write` on one writer: the contents of the data passed. -/
def dataOf (j : Nat) (es : List Happening) : List Str :=
  es.filterMap fun | .write k d _ => if k = j then some d else none | _ => none

/-- The results of the calls of `Write` on one writer. -/
def countsOf (j : Nat) (es : List Happening) : List (Nat × Option Err) :=
  es.filterMap fun | .write k _ r => if k = j then some r else none | _ => none

end Spec
