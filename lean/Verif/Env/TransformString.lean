import Verif.Env.Transform
/-!
Environment model, continued: `transform.String` of golang.org/x/text v0.14.0 (go.mod:5), which the `String`
methods of `encoding.Decoder` and `encoding.Encoder` call with the transformers of encoding/cp949/encoding.go.
As `Env/Transform`: third-party code, written from memory of the published source and not compared with it,
trusted only for the theorems about it (C74). Simplification: buffers have cap equal to len (so they do: `buf[:initialBufSize:initialBufSize]`, the rest of the array,
and `make`).
-/
namespace XText
open Go Cp949

/-- x/text transform.go, `initialBufSize`. -/
def initialBufSize : Nat := 128

/-- x/text transform.go, `String`, the second loop ("Transform the remaining input, growing dst and src buffers as
necessary"). -/
def stringRest (T : Transformer) (s : Str) : (fuel : Nat) → (dst src : Str) → (pDst pSrc : Nat) →
    Out (Str × Nat × Option Err)
  | 0, _, _, _, _ => .running
  | fuel + 1, dst, src, pDst, pSrc =>
    if pDst ≤ dst.length ∧ pSrc ≤ s.length then
      let (src, n) := copy src (s.drop pSrc)
      let atEOF := decide (pSrc + n = s.length)
      let t := T (dst.drop pDst) (src.take n) atEOF
      let dst := dst.take pDst ++ t.dst
      let pDst := pDst + t.nDst
      let pSrc := pSrc + t.nSrc
      let ret := if pDst ≤ dst.length then Out.ret (dst.take pDst, pSrc, t.err) else .panic
      if t.err = some .shortDst then
        if t.nDst = 0 then stringRest T s fuel (grow dst pDst) src pDst pSrc
        else stringRest T s fuel dst src pDst pSrc
      else if t.err = some .shortSrc then
        if atEOF then ret
        else if t.nSrc = 0 then stringRest T s fuel dst (grow src 0) pDst pSrc
        else stringRest T s fuel dst src pDst pSrc
      else if t.err ≠ none ∨ pSrc = s.length then ret
      else stringRest T s fuel dst src pDst pSrc
    else .panic

/-- x/text transform.go, `String`, between the two loops: put the unchanged prefix and what follows it together.
`pSrc` and `pDst` include the last call's `nSrc` and `nDst`. -/
def stringJoin (T : Transformer) (s : Str) (fuel : Nat) (dst src : Str) (pPrefix nDst nSrc pDst pSrc : Nat)
    (err : Option Err) : Out (Str × Nat × Option Err) :=
  let size := if pPrefix ≠ 0 ∧ pDst > dst.length then s.length + nDst - nSrc else dst.length
  if pPrefix ≠ 0 ∧ (s.length + nDst < nSrc ∨ size < pDst ∨ pDst < pPrefix) then .panic
  else
    let dst := if pPrefix ≠ 0 then
        let new := if pDst > dst.length then List.replicate size 0 else dst
        let new := new.take pPrefix ++ (copy ((new.take pDst).drop pPrefix) (dst.take nDst)).1 ++ new.drop pDst
        (copy (new.take pPrefix) (s.take pPrefix)).1 ++ new.drop pPrefix
      else dst
    if (err = none ∧ pSrc = s.length) ∨ (err ≠ none ∧ err ≠ some .shortDst ∧ err ≠ some .shortSrc) then
      if pDst ≤ dst.length then .ret (dst.take pDst, pSrc, err) else .panic
    else stringRest T s fuel dst src pDst pSrc

/-- x/text transform.go, `String`, the first loop: as long as the text is not changed. At the start of a round
`pDst`, `pSrc` and `pPrefix` are equal. -/
def stringScan (T : Transformer) (s : Str) : (fuel : Nat) → (dst src : Str) → (p : Nat) →
    Out (Str × Nat × Option Err)
  | 0, _, _, _ => .running
  | fuel + 1, dst, src, p =>
    if p ≤ s.length then
      let (src, n) := copy src (s.drop p)
      let t := T dst (src.take n) (decide (p + n = s.length))
      let dst := t.dst
      if t.nDst ≤ dst.length ∧ t.nSrc ≤ src.length then
        if dst.take t.nDst ≠ src.take t.nSrc then
          stringJoin T s fuel dst src p t.nDst t.nSrc (p + t.nDst) (p + t.nSrc) t.err
        else
          let p := p + t.nSrc
          if t.err = some .shortDst ∨ (t.err = some .shortSrc ∧ t.nSrc = 0) then
            stringJoin T s fuel dst src p t.nDst t.nSrc p p t.err
          else if t.err ≠ some .shortSrc ∧ (t.err ≠ none ∨ p = s.length) then
            if p ≤ s.length then .ret (s.take p, p, t.err) else .panic
          else stringScan T s fuel dst src p
      else .panic
    else .panic

/-- x/text transform.go, `String`; the fast path for the empty string first. -/
def transformString (T : Transformer) (fuel : Nat) (s : Str) : Out (Str × Nat × Option Err) :=
  if s = [] ∧ (T [] [] true).err = none then .ret ([], 0, none)
  else stringScan T s fuel (List.replicate initialBufSize 0) (List.replicate initialBufSize 0) 0

/-- x/text encoding.go, `(*Decoder).String` and `(*Encoder).String`: on an error the string is empty. -/
def codecString (T : Transformer) (fuel : Nat) (s : Str) : Out (Str × Option Err) :=
  match transformString T fuel s with
  | .ret (r, _, none) => .ret (r, none)
  | .ret (_, _, some e) => .ret ([], some e)
  | .panic => .panic
  | .running => .running

end XText
