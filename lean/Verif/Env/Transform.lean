import Verif.Cp949.Encoding
import Verif.Cp949.Reader
import Verif.Cp949.Writer
/-!
Environment model: the parts of golang.org/x/text v0.14.0 (go.mod:5) through which the transformers of
encoding/cp949/encoding.go are used. encoding.go:16-23 hands the two transformers to `encoding.Decoder` and
`encoding.Encoder`, whose methods `Bytes`, `Reader` and `Writer` do no more than call
`transform.Bytes`, `transform.NewReader` and `transform.NewWriter` with them.

This is third-party code which is not in /repo and whose text is not available here: the functions below
are written from memory of the published source and have not been compared with it. They are part of the trusted base of the theorems about them
(C66–C68, C74, C118, C119), and of no others. Simplification: the buffers have cap equal to len, as `make` creates them.
-/
namespace XText
open Go Cp949

/-- A `transform.Transformer`: `Transform(dst, src, atEOF)`. -/
abbrev Transformer := Str → Str → Bool → Transformed

/-- How a call ends. -/
inductive Out (α : Type) where
  | ret (a : α)
  | panic
  | running

/-- x/text transform.go, `defaultBufSize`. -/
def defaultBufSize : Nat := 4096

/-- x/text transform.go, `grow`: a longer buffer with the first `n` bytes of `b`. -/
def grow (b : Str) (n : Nat) : Str :=
  let m := b.length
  let m := if m ≤ 32 then 64 else if m ≤ 256 then 2 * m else m + m / 2
  (copy (List.replicate m 0) (b.take n)).1

/-- x/text transform.go, the loop of `doAppend`. The result is the converted bytes, the number of source
bytes consumed and the error. -/
def doAppend (T : Transformer) : (fuel : Nat) → (dst src : Str) → (pDst pSrc : Nat) →
    Out (Str × Nat × Option Err)
  | 0, _, _, _, _ => .running
  | fuel + 1, dst, src, pDst, pSrc =>
    if pDst ≤ dst.length ∧ pSrc ≤ src.length then
      let t := T (dst.drop pDst) (src.drop pSrc) true
      let dst := dst.take pDst ++ t.dst
      let pDst := pDst + t.nDst
      let pSrc := pSrc + t.nSrc
      if t.err ≠ some .shortDst then
        if pDst ≤ dst.length then .ret (dst.take pDst, pSrc, t.err) else .panic
      else if t.nDst = 0 then doAppend T fuel (grow dst pDst) src pDst pSrc
      else doAppend T fuel dst src pDst pSrc
    else .panic

/-- x/text transform.go, `Bytes`. -/
def transformBytes (T : Transformer) (fuel : Nat) (b : Str) : Out (Str × Nat × Option Err) :=
  doAppend T fuel (List.replicate b.length 0) b 0 0

/-- x/text encoding.go, `(*Decoder).Bytes` and `(*Encoder).Bytes`: on an error the bytes are nil. -/
def codecBytes (T : Transformer) (fuel : Nat) (b : Str) : Out (Str × Option Err) :=
  match transformBytes T fuel b with
  | .ret (r, _, none) => .ret (r, none)
  | .ret (_, _, some e) => .ret ([], some e)
  | .panic => .panic
  | .running => .running

/-- x/text transform.go, `Reader`. `rd` is the state of the underlying reader. -/
structure Reader (σ : Type) where
  rd : σ
  err : Option Err
  dst : Str
  dst0 : Nat
  dst1 : Nat
  src : Str
  src0 : Nat
  src1 : Nat
  transformComplete : Bool

/-- x/text transform.go, `NewReader`. -/
def NewReader {σ : Type} (s : σ) : Reader σ :=
  ⟨s, none, List.replicate defaultBufSize 0, 0, 0, List.replicate defaultBufSize 0, 0, 0, false⟩

/-- x/text transform.go, `(*Reader).Read`, the end of the loop body: move what has not been transformed to the
start of the buffer and read more. `none` is a panic (a source that claims more bytes than fit). -/
def Reader.more {σ : Type} (src : Source σ) (r : Reader σ) : Option (Reader σ) :=
  let rest := (r.src.take r.src1).drop r.src0
  let buf := if r.src0 ≠ 0 then (copy r.src rest).1 else r.src
  let src0 := 0
  let src1 := if r.src0 ≠ 0 then rest.length else r.src1
  let (bs, err, s) := src r.rd (buf.length - src1)
  if src1 + bs.length ≤ buf.length then
    some { r with
      rd := s, err := err, src := buf.take src1 ++ bs ++ buf.drop (src1 + bs.length)
      src0 := src0, src1 := src1 + bs.length }
  else none

/-- x/text transform.go, `(*Reader).Read`; one unit of fuel per round of the loop. The result is `n`, the error,
the buffer `p` afterwards and the reader afterwards. -/
def Reader.read {σ : Type} (T : Transformer) (src : Source σ) :
    (fuel : Nat) → Reader σ → (p : Str) → Out (Nat × Option Err × Str × Reader σ)
  | 0, _, _ => .running
  | fuel + 1, r, p =>
    if r.dst0 ≠ r.dst1 then
      if r.dst0 ≤ r.dst1 ∧ r.dst1 ≤ r.dst.length then
        let (p', n) := copy p ((r.dst.take r.dst1).drop r.dst0)
        let r := { r with dst0 := r.dst0 + n }
        if r.dst0 = r.dst1 ∧ r.transformComplete then .ret (n, r.err, p', r) else .ret (n, none, p', r)
      else .panic
    else if r.transformComplete then .ret (0, r.err, p, r)
    else if r.src0 ≠ r.src1 ∨ r.err ≠ none then
      let t := T r.dst ((r.src.take r.src1).drop r.src0) (r.err = some .eof)
      let r := { r with dst := t.dst, dst0 := 0, dst1 := t.nDst, src0 := r.src0 + t.nSrc }
      if t.err = none then
        let r := if r.src0 ≠ r.src1 then { r with err := some .inconsistentByteCount } else r
        read T src fuel { r with transformComplete := r.err.isSome } p
      else if t.err = some .shortDst ∧ (r.dst1 ≠ 0 ∨ t.nSrc ≠ 0) then read T src fuel r p
      else if t.err = some .shortSrc ∧ r.src1 - r.src0 ≠ r.src.length ∧ r.err = none then
        match r.more src with
        | none => .panic
        | some r => read T src fuel r p
      else
        read T src fuel { r with
          transformComplete := true
          err := if r.err = none ∨ r.err = some .eof then t.err else r.err } p
    else
      match r.more src with
      | none => .panic
      | some r => read T src fuel r p

/-- x/text transform.go, `Writer`. `sink` is the state of the underlying writer. -/
structure Writer (τ : Type) where
  sink : τ
  dst : Str
  src : Str
  n : Nat

/-- x/text transform.go, `NewWriter`. -/
def NewWriter {τ : Type} (t : τ) : Writer τ :=
  ⟨t, List.replicate defaultBufSize 0, List.replicate defaultBufSize 0, 0⟩

/-- x/text transform.go, the loop of `(*Writer).Write`; `data` is the argument, `src` what is left to do. -/
def Writer.loop {τ : Type} (T : Transformer) (sink : Sink τ) :
    (fuel : Nat) → Writer τ → (data src : Str) → (n : Nat) → Out (Nat × Option Err × Writer τ)
  | 0, _, _, _, _ => .running
  | fuel + 1, w, data, src, n =>
    let t := T w.dst src false
    if t.nDst ≤ t.dst.length ∧ t.nSrc ≤ src.length then
      let (_, werr, s) := sink w.sink (t.dst.take t.nDst)
      let w := { w with dst := t.dst, sink := s }
      if werr ≠ none then .ret (n, werr, w)
      else
        let src := src.drop t.nSrc
        if w.n ≠ 0 ∧ src.length ≤ n ∧ n - src.length < data.length ∧ (t.err = none ∨ t.err = some .shortSrc) then
          loop T sink fuel { w with n := 0 } data (data.drop (n - src.length)) (n - src.length)
        else
          let n' := if w.n = 0 then n + t.nSrc else if src.length ≤ n then n - src.length else n
          let src' := if w.n ≠ 0 ∧ src.length ≤ n then data.drop n' else src
          let w := if w.n ≠ 0 ∧ src.length ≤ n then { w with n := 0 } else w
          if t.err = some .shortDst ∧ (t.nDst > 0 ∨ t.nSrc > 0) then loop T sink fuel w data src' n'
          else if t.err = some .shortSrc ∧ src'.length < w.src.length then
            .ret (if w.n = 0 then n' + src'.length else n', none,
              { w with src := (copy w.src src').1, n := src'.length })
          else if t.err = some .shortSrc ∧ (t.nDst > 0 ∨ t.nSrc > 0) then loop T sink fuel w data src' n'
          else if t.err = none ∧ src'.length > 0 then .ret (n', some .inconsistentByteCount, w)
          else .ret (n', t.err, w)
    else .panic

/-- x/text transform.go, `(*Writer).Write`. -/
def Writer.write {τ : Type} (T : Transformer) (sink : Sink τ) (fuel : Nat) (w : Writer τ) (data : Str) :
    Out (Nat × Option Err × Writer τ) :=
  if w.n > 0 then
    let (tail, n) := copy (w.src.drop w.n) data
    let buf := w.src.take w.n ++ tail
    loop T sink fuel { w with src := buf, n := w.n + n } data (buf.take (w.n + n)) n
  else loop T sink fuel w data data 0

end XText
