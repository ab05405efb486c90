import Verif.Cp949.ReaderCost
import Verif.Spec.Stream
/-! Vocabulary for statements about the work of reading a stream. -/
namespace Spec
open Go Cp949

/-- A sequence of calls of `Read`, in which `w'` bytes in all have been handed to the translator if it was `w` before. -/
inductive Works {σ : Type} (src : Source σ) : Reader σ → Nat → List Str → List Result → Reader σ → Nat → Prop
  | nil (r w) : Works src r w [] [] r w
  | cons {fuel r w buf n err buf' r' w' bufs res r'' w''} :
      readLoopCost src fuel w r buf = (.ret n err buf' r', w') →
      Works src r' w' bufs res r'' w'' → Works src r w (buf :: bufs) ((n, err, buf') :: res) r'' w''

/-- `n + 1` times 가 (B0 A1) in pieces that, but for the last, end inside a character. -/
def cutPieces (n : Nat) : List Str := [0xB0] :: List.replicate n [0xA1, 0xB0] ++ [[0xA1]]

end Spec
