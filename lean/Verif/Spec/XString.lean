import Verif.Go.Basic
/-! Vocabulary for statements about the `String` methods of golang.org/x/text. -/
namespace Spec
open Go

/-- A string cut every 128 bytes (the empty string is one piece). -/
def chunks (s : Str) : List Str :=
  if s.length ≤ 128 then [s] else s.take 128 :: chunks (s.drop 128)
termination_by s.length
decreasing_by rw [List.length_drop]; omega

/-- The conversion of `s`, chunk by chunk, fits the buffer of `transform.String`: that has 128 bytes, but if some
chunks `as` are converted to themselves before the first other chunk `p`, it is made anew, as long as `s` would be if
`p` were the only chunk whose length changes. -/
def Fits (conv : Str → Str) (s : Str) : Prop :=
  ∀ as p qs, chunks s = as ++ p :: qs → (∀ a ∈ as, conv a = a) → conv p ≠ p →
    (conv p).length ≤ 128 ∧
    ((as ++ p :: qs).flatMap conv).length ≤ if as = [] then 128 else s.length + (conv p).length - p.length

end Spec
