import Verif.Spec.Unicode
/-!
Unicode normal form NFC of a character, for texts that have been CP949: there are no combining marks and no conjoining
jamo among the characters of CP949, so normalisation acts on each character alone (checked by `tools/gen_unicode.py`).
-/
namespace Spec

/-- The normal form of a character of CP949. -/
def nfc (c : Char) : Char :=
  match (ideographs ++ singletons).find? fun e => e.1 == c.toNat with
  | some e => Char.ofNat e.2
  | none => c

end Spec
