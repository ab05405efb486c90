import Verif.Cp949.Reader
/-!
Environment model: `io.MultiReader`, which makes one `io.Reader` of several.

This code is not in /repo and its text is not available here: the definitions below are written from memory of the
published source (Go 1.21) and have not been compared with it. They are part of the trusted base of the theorems about
them (C103), and of no others. Left out: the flattening of a MultiReader that is the last element of another, an
optimisation.
-/
namespace GoIo
open Go Cp949

/-- io.MultiReader(s₁, s₂, …).Read with a buffer of `k` bytes, for sources: the bytes, the error, and the sources that are left. -/
def multi {σ : Type} (src : Source σ) : Source (List σ)
  | [], _ => ([], some .eof, [])
  | s :: ss, k =>
    if (src s k).2.1 = some .eof then
      if (src s k).1 ≠ [] then ((src s k).1, if ss = [] then some .eof else none, ss)
      else multi src ss k
    else ((src s k).1, (src s k).2.1, (src s k).2.2 :: ss)

/-- The same for readers given by a relation; `read` is the meaning of a call `r.Read(buf)`: its results, what is in `buf`
afterwards, and the reader afterwards. -/
inductive MultiRead {ρ : Type} (read : ρ → Str → Nat → Option Err → Str → ρ → Prop) :
    List ρ → Str → Nat → Option Err → Str → List ρ → Prop
  | none {buf} : MultiRead read [] buf 0 (some .eof) buf []
  | next {r rs buf buf' r' n err buf'' rs'} : read r buf 0 (some .eof) buf' r' →
      MultiRead read rs buf' n err buf'' rs' → MultiRead read (r :: rs) buf n err buf'' rs'
  | last {r rs buf n buf' r'} : read r buf n (some .eof) buf' r' → 0 < n →
      MultiRead read (r :: rs) buf n (if rs = [] then some .eof else Option.none) buf' rs
  | here {r rs buf n err buf' r'} : read r buf n err buf' r' → err ≠ some .eof →
      MultiRead read (r :: rs) buf n err buf' (r' :: rs)

end GoIo
