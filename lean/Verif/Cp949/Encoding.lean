import Verif.Cp949.Public
/-!
Model of encoding/cp949/encoding.go. The `encoding.Decoder` and `encoding.Encoder` wrappers of
golang.org/x/text (lines 16-23) are third-party code, modelled in `Env/Transform`; the two `Transform`
methods are what they call. `Reset` (lines 56-57) does nothing.
-/
namespace Cp949
open Go

/-- What `Transform` (encoding.go:28-38, :43-53) returns, and the contents of `dst` afterwards. -/
structure Transformed where
  dst : Str
  nDst : Nat
  nSrc : Nat
  err : Option Err
  deriving DecidableEq

/-- encoding.go:28-38, `(*cp949Decoder).Transform`; `atEOF` is not looked at. -/
def decoderTransform (dst src : Str) (_atEOF : Bool) : Transformed :=
  match From src with
  | (_, some err) => ⟨dst, 0, 0, some err⟩
  | (converted, none) => ⟨(copy dst converted).1, converted.length, src.length, none⟩

/-- encoding.go:43-53, `(*cp949Encoder).Transform`; `atEOF` is not looked at. -/
def encoderTransform (dst src : Str) (_atEOF : Bool) : Transformed :=
  match To src with
  | (_, some err) => ⟨dst, 0, 0, some err⟩
  | (converted, none) => ⟨(copy dst converted).1, converted.length, src.length, none⟩

end Cp949
