import Verif.Env.Transform
/-!
Environment model: `encoding.ReplaceUnsupported` and `encoding.HTMLEscapeUnsupported` of golang.org/x/text v0.14.0
(go.mod:5), which wrap an encoder so that characters its encoding lacks are replaced.

This code is not in /repo and its text is not available here: the functions below are written from memory of the
published source and have not been compared with it. They are part of the trusted base of the theorem about it (C92), and of no others.
-/
namespace XText
open Go Cp949

/-- x/text encoding.go, the loop of `errorHandler.Transform`: `t` is what the encoder has returned so far, with the contents
of the destination. `lacks` tells which errors are `repertoireError`s; `handler` is given the rest of the destination and the
rune, and gives what it has then in it and the number of bytes it has written, or nothing if they do not fit. -/
def handleLoop (T : Transformer) (lacks : Err → Bool) (handler : Str → Rune → Option (Str × Nat)) (src : Str) (atEOF : Bool) :
    (fuel : Nat) → Transformed → Out Transformed
  | 0, _ => .running
  | fuel + 1, t =>
    match t.err with
    | none => .ret t
    | some e =>
      if lacks e then
        if t.nSrc ≤ src.length ∧ t.nDst ≤ t.dst.length then
          let (r, size) := DecodeRune (src.drop t.nSrc)
          match handler (t.dst.drop t.nDst) r with
          | none => .ret { t with err := some .shortDst }
          | some (d, n) =>
            let dst := t.dst.take t.nDst ++ d
            let nDst := t.nDst + n
            let nSrc := t.nSrc + size
            if nSrc < src.length then
              if nDst ≤ dst.length then
                let u := T (dst.drop nDst) (src.drop nSrc) atEOF
                handleLoop T lacks handler src atEOF fuel ⟨dst.take nDst ++ u.dst, nDst + u.nDst, nSrc + u.nSrc, u.err⟩
              else .panic
            else handleLoop T lacks handler src atEOF fuel ⟨dst, nDst, nSrc, none⟩
        else .panic
      else .ret t

/-- x/text encoding.go, `errorHandler.Transform`. -/
def errorHandler (T : Transformer) (lacks : Err → Bool) (handler : Str → Rune → Option (Str × Nat)) (fuel : Nat)
    (dst src : Str) (atEOF : Bool) : Out Transformed :=
  handleLoop T lacks handler src atEOF fuel (T dst src atEOF)

end XText
