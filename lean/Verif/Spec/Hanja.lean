/-! Specification of the hanja repertoire, from the Unicode block charts; independent of the model. -/
namespace Spec

/-- CJK Extension A (as of Unicode 3.0), the CJK unified ideographs (as of Unicode 1.1) and the
twelve unified ideographs of the compatibility block. -/
def IsIdeograph (n : Int) : Prop :=
  (0x3400 ≤ n ∧ n ≤ 0x4DB5) ∨ (0x4E00 ≤ n ∧ n ≤ 0x9FA5) ∨
    n ∈ [0xFA0E, 0xFA0F, 0xFA11, 0xFA13, 0xFA14, 0xFA1F, 0xFA21, 0xFA23, 0xFA24, 0xFA27, 0xFA28, 0xFA29]

instance (n) : Decidable (IsIdeograph n) := by unfold IsIdeograph; infer_instance

end Spec
