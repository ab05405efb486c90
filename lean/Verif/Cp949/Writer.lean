import Verif.Cp949.Public
/-!
Model of the stream writer of encoding/cp949/public.go:96-133.

The underlying `io.Writer` is an arbitrary state machine. Simplification: it does not modify the slice it
is handed and does not keep it (as the documentation of `io.Writer` demands).
-/
namespace Cp949
open Go

/-- The `io.Writer` of public.go:97 with state `τ`: `sink t d` is a call of `Write(d)` (:123); it gives the count, the error and
the next state. -/
abbrev Sink (τ : Type) := τ → Str → Nat × Option Err × τ

/-- public.go:96-100. `sink` is the state of the underlying writer `w`. The translator `tr` has no state
visible here. -/
structure Writer (τ : Type) where
  sink : τ
  buf : Str

/-- public.go:103-110. `toCp949` never fails, so the returned error is always nil. -/
def NewWriter {τ : Type} (t : τ) : Writer τ := ⟨t, []⟩

/-- public.go:112-133. The result is `n`, `err` and the writer afterwards. The error of the
translator is ignored, and so is the count returned by the underlying writer, as in the code. -/
def Write {τ : Type} (sink : Sink τ) (w : Writer τ) (data : Str) : Nat × Option Err × Writer τ :=
  let buf := if w.buf.length > 0 then w.buf ++ data else w.buf
  let wdata := if w.buf.length > 0 then buf else data
  let (n, cdata, _) := toTranslate toTable wdata
  let (err, t) := if n > 0 then
      let (_, err, t) := sink w.sink cdata
      (err, t)
    else (none, w.sink)
  if err ≠ none then (0, err, ⟨t, buf⟩)
  else (data.length, none, ⟨t, if n < wdata.length then wdata.drop n else []⟩)

end Cp949
