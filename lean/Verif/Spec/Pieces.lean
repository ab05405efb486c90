import Verif.Spec.XText
/-! Vocabulary for statements about `transform.NewReader`: the pieces a source hands over. -/
namespace Spec
open Go Cp949

/-- A source that, asked for 4096 bytes at a time, hands over the pieces `cs`, the last of them together with the error `e`. -/
inductive Pieces {σ : Type} (src : Source σ) (e : Err) : σ → List Str → Prop
  | more {s c s' cs} : src s 4096 = (c, none, s') → c.length ≤ 4096 → Pieces src e s' cs → Pieces src e s (c :: cs)
  | last {s c s'} : src s 4096 = (c, some e, s') → c.length ≤ 4096 → Pieces src e s [c]

end Spec
