import Verif.Spec.Text
/-! Specification of how a byte string that need not be valid UTF-8 reads as text. -/
namespace Spec
open Go

/-- Read from the left, the bytes are encoded characters and stray bytes (`none`): bytes at which no encoding of
a character begins. -/
inductive Items : Str → List (Option Char) → Prop
  | nil : Items [] []
  | char (c : Char) {s : Str} {is : List (Option Char)} : Items s is → Items (String.utf8EncodeChar c ++ s) (some c :: is)
  | stray {b : Byte} {s : Str} {is : List (Option Char)} : (∀ c t, b :: s ≠ String.utf8EncodeChar c ++ t) → Items s is →
      Items (b :: s) (none :: is)

/-- A stray byte is shown as U+FFFD, the replacement character. -/
def shown : Option Char → Char
  | some c => c
  | none => '�'

end Spec
