import Verif.Spec.Cut
/-! What becomes of a text that is handed over in pieces to a function that works character by character. -/
namespace Spec
open Go

open Classical in
/-- The characters from byte position `off` on: a character that is not cut arrives, one that is cut arrives as U+FFFD
once for each of its bytes. -/
noncomputable def cutChars (ds : List Str) : (off : Nat) → List Char → List Char
  | _, [] => []
  | off, c :: cs =>
    (if Inside ds off (off + (utf8 [c]).length) then List.replicate (utf8 [c]).length (Char.ofNat 0xFFFD) else [c]) ++
      cutChars ds (off + (utf8 [c]).length) cs

end Spec
