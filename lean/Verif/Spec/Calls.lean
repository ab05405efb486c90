import Verif.Spec.Stream
/-! Vocabulary for statements about readers made of readers. -/
namespace Spec
open Go Cp949

/-- A sequence of calls `r.Read(buf)` with the buffers `bufs`, their results, and the reader after; `read` is the meaning of one
call. (`Reads src` is `Calls (Returns src)`.) -/
inductive Calls {ρ : Type} (read : ρ → Str → Nat → Option Err → Str → ρ → Prop) :
    ρ → List Str → List Result → ρ → Prop
  | nil (r) : Calls read r [] [] r
  | cons {r buf n err buf' r' bufs res r''} : read r buf n err buf' r' → Calls read r' bufs res r'' →
      Calls read r (buf :: bufs) ((n, err, buf') :: res) r''

/-- Source by source, the data they deliver; each ends with the end of file. -/
inductive Files {σ : Type} (src : Source σ) : List σ → List Str → Prop
  | nil : Files src [] []
  | cons {s ss D Ds} : Delivers src .eof s D → Files src ss Ds → Files src (s :: ss) (D :: Ds)

end Spec
