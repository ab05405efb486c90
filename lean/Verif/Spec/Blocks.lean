import Verif.Spec.Stream
/-! Cutting a text into blocks. -/
namespace Spec
open Go

/-- The text `X` is laid into the buffers one after the other, after it comes the error `e`. Listed are the number of bytes, the
error and the contents for each buffer: a buffer is full, or it has got what was left of the text, with error `cut` if that
was something and the text ended with the end of the file, and with `e` otherwise; the bytes not filled keep their contents. -/
inductive Blocks (cut e : Err) : Str → List Str → List Result → Prop
  | nil (X) : Blocks cut e X [] []
  | full {x Y b bs res} : x.length = b.length → Blocks cut e Y bs res →
      Blocks cut e (x ++ Y) (b :: bs) ((b.length, none, x) :: res)
  | part {X b bs res} : X ≠ [] → X.length < b.length → Blocks cut e [] bs res →
      Blocks cut e X (b :: bs) ((X.length, some (if e = .eof then cut else e), X ++ b.drop X.length) :: res)
  | none {b bs res} : b ≠ [] → Blocks cut e [] bs res → Blocks cut e [] (b :: bs) ((0, some e, b) :: res)

end Spec
