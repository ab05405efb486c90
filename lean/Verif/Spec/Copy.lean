import Verif.Spec.Stream
import Verif.Spec.Text
/-! Sources for io.Copy. -/
namespace Spec
open Go Cp949

/-- A call of `Read` on a source: it fills the beginning of the buffer and leaves the rest. -/
def ReadsFrom {σ : Type} (src : Source σ) (s : σ) (buf : Str) (n : Nat) (err : Option Err) (buf' : Str) (s' : σ) : Prop :=
  ∃ d, src s buf.length = (d, err, s') ∧ d.length = n ∧ buf' = d ++ buf.drop n

/-- A file, as `os.File` reads it: as much as fits the buffer, then the end of file. -/
def file : Source Str := fun s k => if s = [] then ([], some .eof, []) else (s.take k, none, s.drop k)

end Spec
