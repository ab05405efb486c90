import Verif.Go.Mem
import Verif.Cp949.Reader
import Verif.Cp949.Writer
import Verif.Cp949.Encoding
/-!
The code of encoding/cp949 once more, at the level of backing arrays: the scratch buffer of the
translators, which is used again in every call and handed out to the caller of `Translate`;
the buffers of reader and writer. `Verif.Lemmas.Mem` shows that these definitions compute what the ones on
contents do.
-/
namespace Cp949
open Go

/-- cp949.go:121-144 -/
def ensureCapM (h : Heap) (s : Slice) (n : Nat) : Slice × Heap :=
  if n ≤ s.cap then (s, h)
  else
    let m := ensureCapCap s.cap n
    let t : Slice := ⟨h.length, 0, s.len, m⟩
    let h := h ++ [List.replicate m 0]
    (t, (copyM h t s).2)

/-- cp949.go:147-152. `utf8.EncodeRune` writes only the bytes of the encoding. `none` is the panic of
slicing beyond the capacity. -/
def appendRuneM (h : Heap) (buf : Slice) (r : Rune) : Option (Slice × Heap) :=
  let n := buf.len
  let (buf, h) := ensureCapM h buf (n + 4)
  if n + 4 ≤ buf.cap then
    some (buf.upTo (n + (encodeRune r).length), h.write buf.arr (buf.off + n) (encodeRune r))
  else none

/-- `data[i]` in cp949.go:38-49 and :76-77. -/
def byteAt (h : Heap) (data : Slice) (i : Nat) : Byte := (h.read data).getD i 0

/-- What `Translate` (cp949.go:34-67, :72-108) leaves behind: the translator's scratch slice, the heap, and the results. -/
structure TransM where
  scratch : Slice
  heap : Heap
  n : Nat
  out : Slice
  err : Option Err

/-- The loop of cp949.go:37-66. One unit of fuel per round; `none` if it runs out or on a panic. -/
def fromLoopM (grow : Nat → Nat → Nat) (table : LookupTable) :
    (fuel : Nat) → (h : Heap) → (data scratch : Slice) → (c : Nat) → Option TransM
  | 0, _, _, _, _ => none
  | fuel + 1, h, data, scratch, c =>
    if data.len = 0 then some ⟨scratch, h, c, scratch, none⟩
    else if byteAt h data 0 &&& 0x80 = 0 then
      let (scratch, h) := appendM grow h scratch [byteAt h data 0]
      fromLoopM grow table fuel h (data.from 1) scratch (c + 1)
    else if data.len < 2 then some ⟨scratch, h, 0, .nil, some .unexpectedStream⟩
    else
      let n := (byteAt h data 0).toUInt16 <<< 8 ||| (byteAt h data 1).toUInt16
      let fi := searchCp949 table n
      let r := if fi < table.length ∧ n = (table.getD fi default).cp949 then
          Int32.ofNat (table.getD fi default).ucs2.toNat
        else RuneError
      match appendRuneM h scratch r with
      | none => none
      | some (scratch, h) => fromLoopM grow table fuel h (data.from 2) scratch (c + 2)

/-- cp949.go:34-67. Every round consumes a byte, so `len(data) + 1` rounds are enough. -/
def fromTranslateM (grow : Nat → Nat → Nat) (table : LookupTable) (h : Heap) (scratch data : Slice) :
    Option TransM :=
  fromLoopM grow table (data.len + 1) h data (scratch.upTo 0) 0

/-- The loop of cp949.go:75-107. -/
def toLoopM (grow : Nat → Nat → Nat) (table : LookupTable) :
    (fuel : Nat) → (h : Heap) → (data scratch : Slice) → (c : Nat) → Option TransM
  | 0, _, _, _, _ => none
  | fuel + 1, h, data, scratch, c =>
    if data.len = 0 then some ⟨scratch, h, c, scratch, none⟩
    else if byteAt h data 0 &&& 0x80 = 0 then
      let (scratch, h) := appendM grow h scratch [byteAt h data 0]
      toLoopM grow table fuel h (data.from 1) scratch (c + 1)
    else
      let (r, s) := DecodeRune (h.read data)
      let rUcs2 := r.toUInt32.toUInt16
      let fi := searchUcs2 table rUcs2
      let (scratch, h) := if fi ≥ table.length then appendM grow h scratch [0x3F] else (scratch, h)
      let (scratch, h) :=
        if fi < table.length ∧ rUcs2 = (table.getD fi default).ucs2 then
          appendM grow h scratch [((table.getD fi default).cp949 >>> 8).toUInt8,
            ((table.getD fi default).cp949 &&& 0xFF).toUInt8]
        else appendM grow h scratch [0x3F]
      toLoopM grow table fuel h (data.from s) scratch (c + s)

/-- cp949.go:72-108 -/
def toTranslateM (grow : Nat → Nat → Nat) (table : LookupTable) (h : Heap) (scratch data : Slice) :
    Option TransM :=
  toLoopM grow table (data.len + 1) h data (scratch.upTo 0) 0

/-- public.go:12-24: a new translator, with a nil scratch. Result: slice, error and heap. -/
def FromM (grow : Nat → Nat → Nat) (h : Heap) (in_ : Slice) : Option (Slice × Option Err × Heap) :=
  match fromTranslateM grow fromTable h .nil in_ with
  | none => none
  | some t => if t.err ≠ none then some (.nil, t.err, t.heap) else some (t.out, none, t.heap)

/-- public.go:27-39 -/
def ToM (grow : Nat → Nat → Nat) (h : Heap) (in_ : Slice) : Option (Slice × Option Err × Heap) :=
  match toTranslateM grow toTable h .nil in_ with
  | none => none
  | some t => if t.err ≠ none then some (.nil, t.err, t.heap) else some (t.out, none, t.heap)

/-- The `io.Reader` of public.go:42, called in :68, that is handed a buffer of `k` bytes: the bytes it delivers, what else it writes
in the rest of the buffer (`io.Reader` allows that), the error and the next state. -/
abbrev SourceM (σ : Type) := σ → Nat → Str × Str × Option Err × σ

/-- public.go:41-47, with `tr.scratch`. -/
structure ReaderM (σ : Type) where
  src : σ
  scratch : Slice
  cdata : Slice
  rdata : Slice
  err : Option Err

/-- public.go:50-57 -/
def NewReaderM {σ : Type} (s : σ) : ReaderM σ := ⟨s, .nil, .nil, .nil, none⟩

/-- How a call of `Read` (public.go:59-94) ends. -/
inductive ReadOutM (σ : Type) where
  | ret (n : Nat) (err : Option Err) (h : Heap) (r : ReaderM σ)
  | panic
  | running

/-- public.go:78-91 -/
def convertM {σ : Type} (grow : Nat → Nat → Nat) (h : Heap) (r : ReaderM σ) :
    Option (Heap × ReaderM σ) :=
  match fromTranslateM grow fromTable h r.scratch r.rdata with
  | none => none
  | some t =>
    let nc := if t.n = 0 ∧ r.err ≠ none then r.rdata.len else t.n
    let (n, h) := copyM t.heap r.rdata (r.rdata.from nc)
    some (h, { r with scratch := t.scratch, cdata := t.out, rdata := r.rdata.upTo n })

/-- public.go:67-74. The source may write `junk` behind the bytes it delivers, within the buffer. -/
def fillM {σ : Type} (src : SourceM σ) (h : Heap) (r : ReaderM σ) (len : Nat) :
    Option (Heap × ReaderM σ) :=
  let (rdata, h) := ensureCapM h r.rdata (r.rdata.len + len)
  let k := rdata.cap - rdata.len
  let (bs, junk, err, s) := src r.src k
  let err := if bs.length = 0 ∧ err = none then some Err.eof else err
  if rdata.len + bs.length ≤ rdata.cap then
    some (h.write rdata.arr (rdata.off + rdata.len) ((bs ++ junk).take k),
      { r with src := s, rdata := rdata.upTo (rdata.len + bs.length), err := err })
  else none

/-- public.go:59-94 -/
def readLoopM {σ : Type} (grow : Nat → Nat → Nat) (src : SourceM σ) :
    (fuel : Nat) → Heap → ReaderM σ → (buf : Slice) → ReadOutM σ
  | 0, _, _, _ => .running
  | fuel + 1, h, r, buf =>
    if r.cdata.len > 0 then
      let (n, h) := copyM h buf r.cdata
      .ret n none h { r with cdata := r.cdata.from n }
    else if r.err = none then
      match fillM src h r buf.len with
      | none => .panic
      | some (h, r) =>
        match convertM grow h r with
        | none => .panic
        | some (h, r) => readLoopM grow src fuel h r buf
    else if r.rdata.len = 0 then .ret 0 r.err h r
    else
      match convertM grow h r with
      | none => .panic
      | some (h, r) => readLoopM grow src fuel h r buf

/-- public.go:96-100, with `tr.scratch`. -/
structure WriterM (τ : Type) where
  sink : τ
  scratch : Slice
  buf : Slice

/-- public.go:103-110 -/
def NewWriterM {τ : Type} (t : τ) : WriterM τ := ⟨t, .nil, .nil⟩

/-- public.go:112-133. The sink is handed the contents of `cdata` and keeps no reference to it. -/
def WriteM {τ : Type} (grow : Nat → Nat → Nat) (sink : Sink τ) (h : Heap) (w : WriterM τ) (data : Slice) :
    Option (Nat × Option Err × Heap × WriterM τ) :=
  let (buf, h) := if w.buf.len > 0 then appendM grow h w.buf (h.read data) else (w.buf, h)
  let wdata := if w.buf.len > 0 then buf else data
  match toTranslateM grow toTable h w.scratch wdata with
  | none => none
  | some t =>
    let (err, s) := if t.n > 0 then
        let (_, err, s) := sink w.sink (t.heap.read t.out)
        (err, s)
      else (none, w.sink)
    if err ≠ none then some (0, err, t.heap, ⟨s, t.scratch, buf⟩)
    else
      let buf := buf.upTo 0
      let (buf, h) := if t.n < wdata.len then
          appendM grow t.heap buf (t.heap.read (wdata.from t.n))
        else (buf, t.heap)
      some (data.len, none, h, ⟨s, t.scratch, buf⟩)

/-- encoding.go:28-38 -/
def decoderTransformM (grow : Nat → Nat → Nat) (h : Heap) (dst src : Slice) (_atEOF : Bool) :
    Option (Nat × Nat × Option Err × Heap) :=
  match FromM grow h src with
  | none => none
  | some (converted, err, h) =>
    if err ≠ none then some (0, 0, err, h)
    else some (converted.len, src.len, none, (copyM h dst converted).2)

/-- encoding.go:43-53 -/
def encoderTransformM (grow : Nat → Nat → Nat) (h : Heap) (dst src : Slice) (_atEOF : Bool) :
    Option (Nat × Nat × Option Err × Heap) :=
  match ToM grow h src with
  | none => none
  | some (converted, err, h) =>
    if err ≠ none then some (0, 0, err, h)
    else some (converted.len, src.len, none, (copyM h dst converted).2)

end Cp949
