import Verif.Spec.Stream
/-! Sources that remember the pieces they handed over. -/
namespace Spec
open Go Cp949

/-- The source with a record of what each read brought; the record does not influence what it does. -/
def recorded {σ : Type} (src : Source σ) : Source (σ × List Str) :=
  fun s k => ((src s.1 k).1, (src s.1 k).2.1, ((src s.1 k).2.2, s.2 ++ [(src s.1 k).1]))

end Spec
