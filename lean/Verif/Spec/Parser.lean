import Verif.Spec.Ascii
/-! Programs that take a text apart looking only at ASCII punctuation, digits and control characters: readers of CSV, HTML,
configuration files. For C100. -/
namespace Spec
open Go

/-- What such a program does with a byte: it belongs to the current part of the text, or to none, or it ends the current part. -/
inductive Act where
  | keep
  | drop
  | cut (kind : Nat)
  deriving DecidableEq

/-- A program with states `Q`. Bytes that are letters, `?` or not ASCII are all the same to it, and a second of them
right after a first changes nothing; all others it may tell apart. -/
structure Parser (Q : Type) where
  punct : Q → Byte → Q × Act
  other : Q → Q × Bool
  stable : ∀ q, other (other q).1 = other q

/-- What it finds in a text: the parts, each with the kind of its end; the last one ends with the text. -/
def Parser.run {Q : Type} (P : Parser Q) : (q : Q) → (part : Str) → Str → List (Str × Option Nat)
  | _, part, [] => [(part, none)]
  | q, part, b :: rest =>
    if isMeta b then
      match P.punct q b with
      | (q', .keep) => P.run q' (part ++ [b]) rest
      | (q', .drop) => P.run q' part rest
      | (q', .cut k) => (part, some k) :: P.run q' [] rest
    else P.run (P.other q).1 (if (P.other q).2 then part ++ [b] else part) rest

/-- State of a reader of CSV. -/
inductive CsvState where
  | plain
  | quoted
  | quote
  deriving DecidableEq

/-- A reader of CSV (RFC 4180): fields end at a comma, records at LF; between quotes all is kept, and a doubled quote is one.
CR outside quotes is dropped. -/
def csv : Parser CsvState where
  punct q b :=
    match q with
    | .quoted => if b = 0x22 then (.quote, .drop) else (.quoted, .keep)
    | .quote =>
      if b = 0x22 then (.quoted, .keep)
      else if b = 0x2C then (.plain, .cut 0) else if b = 10 then (.plain, .cut 1) else if b = 13 then (.plain, .drop) else (.plain, .keep)
    | .plain =>
      if b = 0x22 then (.quoted, .drop)
      else if b = 0x2C then (.plain, .cut 0) else if b = 10 then (.plain, .cut 1) else if b = 13 then (.plain, .drop) else (.plain, .keep)
  other q := match q with
    | .quoted => (.quoted, true)
    | _ => (.plain, true)
  stable q := by cases q <;> rfl

/-- Upper-case ASCII letters made lower-case, in bytes and in characters. For C101. -/
def lowerByte (b : Byte) : Byte := if 0x41 ≤ b.toNat ∧ b.toNat ≤ 0x5A then UInt8.ofNat (b.toNat + 32) else b
def lowerChar (c : Char) : Char := if 0x41 ≤ c.toNat ∧ c.toNat ≤ 0x5A then Char.ofNat (c.toNat + 32) else c

/-- Lower-case ASCII letters made upper-case, in bytes and in characters. -/
def upperByte (b : Byte) : Byte := if 0x61 ≤ b.toNat ∧ b.toNat ≤ 0x7A then UInt8.ofNat (b.toNat - 32) else b
def upperChar (c : Char) : Char := if 0x61 ≤ c.toNat ∧ c.toNat ≤ 0x7A then Char.ofNat (c.toNat - 32) else c

end Spec
