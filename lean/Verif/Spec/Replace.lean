import Verif.Go.Basic
/-! What strings.ReplaceAll and bytes.ReplaceAll do, for C117. -/
namespace Spec

/-- `s` with every `old` replaced by `new`: the first occurrence is replaced, and the same is done with what follows it. For
`old` not empty. -/
inductive Replaced {α : Type} (old new : List α) : List α → List α → Prop
  | none {s} : ¬ old <:+: s → Replaced old new s s
  | first {a b b'} : (∀ x y, a ++ old ++ b = x ++ old ++ y → a.length ≤ x.length) → Replaced old new b b' →
      Replaced old new (a ++ old ++ b) (a ++ new ++ b')

end Spec
