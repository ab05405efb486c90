import Verif.Hangul.Hangul
/- stroke.go -/
namespace Hangul
open Go

/-- stroke.go:7-32.  -/
def strokes : List (Rune × Int) :=
  [(G, 1), (N, 1), (D, 2), (L, 3), (M, 3), (B, 4), (S, 2), (ZS, 1), (J, 3), (C, 4), (K, 2),
    (T, 3), (P, 4), (H, 3), (A, 2), (YA, 3), (EO, 2), (YEO, 3), (O, 2), (YO, 3), (U, 2),
    (YU, 3), (EU, 1), (I, 1)]

/-- `strokes[e]`: the zero value 0 for a missing key (stroke.go:47, :50). -/
def strokesAt (e : Rune) : Int :=
  match mapGet strokes e with
  | some c => c
  | none => 0

/-- stroke.go:35-53 for arbitrary contents of `multiElements`. The Go function calls itself on the
three parts of a syllable; `fuel` bounds the recursion depth
(`Hangul.StrokeT_fuel`: depth 2 is always enough, i.e. the recursion terminates). -/
def StrokeT (tbl : List (Rune × List Rune)) : (fuel : Nat) → Rune → Int
  | 0, _ => 0
  | fuel + 1, r =>
    if 0xAC00 ≤ r && r ≤ 0xD7A3 then
      let (i, m, f) := Split r
      StrokeT tbl fuel i + StrokeT tbl fuel m + StrokeT tbl fuel f
    else
      let jm := CompatJamo r
      match SplitMultiElementT tbl jm with
      | some es => es.foldl (fun c e => c + strokesAt e) 0
      | none => strokesAt jm

/-- stroke.go:35-53 with the initial contents of `multiElements`. -/
def Stroke (r : Rune) : Int := StrokeT multiElements 2 r

end Hangul
