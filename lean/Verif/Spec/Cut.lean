import Verif.Cp949.Public
import Verif.Spec.Text
/-! What becomes of a text that is handed to a Writer in pieces, whatever they are. -/
namespace Spec
open Go Cp949

/-- One of the cuts between the pieces lies strictly between the byte positions `lo` and `hi` of the whole. -/
def Inside (ds : List Str) (lo hi : Nat) : Prop :=
  ∃ k, lo < (ds.take k).flatten.length ∧ (ds.take k).flatten.length < hi

open Classical in
/-- The characters from byte position `off` on: a character that is not cut is encoded as it is alone, one that is cut
becomes two question marks for each of its bytes. -/
noncomputable def cutText (ds : List Str) : (off : Nat) → List Char → Str
  | _, [] => []
  | off, c :: cs =>
    (if Inside ds off (off + (utf8 [c]).length) then List.replicate (2 * (utf8 [c]).length) 0x3F
      else (To (utf8 [c])).1) ++ cutText ds (off + (utf8 [c]).length) cs

/-- Some character of the text is cut by the boundary of a piece. -/
def CutChar (ds : List Str) (cs : List Char) : Prop :=
  ∃ xs c ys, cs = xs ++ c :: ys ∧ Inside ds (utf8 xs).length ((utf8 xs).length + (utf8 [c]).length)

end Spec
