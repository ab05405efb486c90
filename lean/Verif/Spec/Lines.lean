import Verif.Go.Basic
/-! Lines of a text, for C96. -/
namespace Spec
open Go

/-- `x` without a carriage return at its end: `x'`. -/
inductive NoCR : Str → Str → Prop
  | cr (l) : NoCR (l ++ [13]) l
  | other {l} : (∀ l', l ≠ l' ++ [13]) → NoCR l l

/-- A text and its lines, without the line ends LF or CR LF. The last line need not have a line end; after a line end at the
end of the text there is no further line. -/
inductive Lines : Str → List Str → Prop
  | nil : Lines [] []
  | last {l l'} : l ≠ [] → 10 ∉ l → NoCR l l' → Lines l [l']
  | line {l l' rest ls} : 10 ∉ l → NoCR l l' → Lines rest ls → Lines (l ++ 10 :: rest) (l' :: ls)

/-- No `n` bytes in a row without a line feed. -/
def ShortLines (n : Nat) (t : Str) : Prop := ∀ a l b, t = a ++ l ++ b → 10 ∉ l → l.length < n

end Spec
