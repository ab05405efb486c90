import Verif.Env.Io
import Verif.Spec.Text
/-! What a user of a `bufio.Writer` sees. -/
namespace Spec
open Go Cp949 GoIo

/-- The calls `Write(d)`, one after the other, on a `bufio.Writer` with a buffer of `size` bytes, their results, and the
writer afterwards. -/
inductive BufWrites {τ : Type} (sink : Sink τ) (size : Nat) :
    BufWriter τ → List Str → List (Nat × Option Err) → BufWriter τ → Prop
  | nil (b) : BufWrites sink size b [] [] b
  | cons {b d n err b' ds res b''} : (∃ fuel, bufWrite sink size fuel b d = some (n, err, b')) →
      BufWrites sink size b' ds res b'' → BufWrites sink size b (d :: ds) ((n, err) :: res) b''

/-- Some character has bytes on both sides of a multiple of `size`. -/
def Straddles (size : Nat) (cs : List Char) : Prop :=
  ∃ xs c ys k, cs = xs ++ c :: ys ∧ (utf8 xs).length < k * size ∧ k * size < (utf8 xs).length + (utf8 [c]).length

end Spec
