import Verif.Cp949.Reader
/-! The loop of `Read` once more, with its work counted. -/
namespace Cp949
open Go

/-- public.go:59-94 as in `readLoop`, with the number of bytes that have been handed to the translator (line 78) counted
in `w`. -/
def readLoopCost {σ : Type} (src : Source σ) : (fuel w : Nat) → Reader σ → (buf : Str) → ReadOut σ × Nat
  | 0, w, _, _ => (.running, w)
  | fuel + 1, w, r, buf =>
    if r.cdata.length > 0 then
      let (buf', n) := copy buf r.cdata
      (.ret n none buf' { r with cdata := r.cdata.drop n }, w)
    else if r.err = none then
      match fill src r buf.length with
      | none => (.panic, w)
      | some r => readLoopCost src fuel (w + r.rdata.length) (convert r) buf
    else if r.rdata.length = 0 then (.ret 0 r.err buf r, w)
    else readLoopCost src fuel (w + r.rdata.length) (convert r) buf

end Cp949
