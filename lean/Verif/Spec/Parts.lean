import Verif.Go.Basic
/-! A text taken apart after each occurrence of a byte, for C116. -/
namespace Spec
open Go

/-- A text and its parts: each part but the last ends in `d` and has no other `d`; the last has none and may be empty. -/
inductive Parts (d : Byte) : Str → List Str → Prop
  | last {l} : d ∉ l → Parts d l [l]
  | part {l rest ls} : d ∉ l → Parts d rest ls → Parts d (l ++ d :: rest) ((l ++ [d]) :: ls)

end Spec
