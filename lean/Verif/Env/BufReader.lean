import Verif.Env.Scanner
/-!
Environment model: `bufio.Reader` with its method `ReadRune`, the usual way to read a text character by character.

This code is not in /repo and its text is not available here: the definitions below are written from memory of the
published source (Go 1.21) and have not been compared with it. They are part of the trusted base of the theorems about
them (C102, C116, C120), and of no others.
-/
namespace GoIo
open Go Cp949

/-- utf8.FullRune: does `p` begin with a full encoding of a rune? Bytes that are not UTF-8 count as full. -/
def fullRune : Str → Bool
  | [] => false
  | p0 :: rest =>
    if p0.toNat < 0x80 then true
    else
      match firstInfo p0.toNat with
      | none => true
      | some (sz, lo, hi) =>
        if sz ≤ rest.length + 1 then true
        else
          match rest with
          | [] => false
          | b1 :: rest =>
            if b1.toNat < lo ∨ hi < b1.toNat then true
            else
              match rest with
              | [] => false
              | b2 :: _ => decide (b2.toNat < 0x80 ∨ 0xBF < b2.toNat)

/-- bufio.Reader: `rd` is the state of the underlying reader, `start` and `stop` are `b.r` and `b.w`. Left out: `lastByte` and
`lastRuneSize`, which only `UnreadByte` and `UnreadRune` look at. -/
structure BufReader (ρ : Type) where
  rd : ρ
  buf : Str
  start : Nat
  stop : Nat
  err : Option Err

/-- bufio.NewReaderSize with a buffer of `size` bytes (`NewReader`: 4096; never less than 16). -/
def NewBufReader {ρ : Type} (rd : ρ) (size : Nat) : BufReader ρ := ⟨rd, List.replicate size 0, 0, 0, none⟩

/-- `b.buf[b.r:b.w]`. -/
def BufReader.window {ρ : Type} (b : BufReader ρ) : Str := (b.buf.take b.stop).drop b.start

/-- bufio.Reader.fill, "slide existing data to beginning". -/
def BufReader.slide {ρ : Type} (b : BufReader ρ) : BufReader ρ :=
  if b.start > 0 then { b with buf := (copy b.buf b.window).1, start := 0, stop := b.stop - b.start } else b

/-- bufio.Reader.fill after that: at most `i` reads in a row without a result. The panics for a full buffer and for a negative
count are left out: `ReadRune` does not call it with a full buffer, and counts here are not negative. `read` is the meaning
of a call `r.Read(buf)`, as in `ReadAllLoop`. -/
inductive BufFill {ρ : Type} (read : ρ → Str → Nat → Option Err → Str → ρ → Prop) :
    (i : Nat) → BufReader ρ → BufReader ρ → Prop
  | noProgress {b} : BufFill read 0 b { b with err := some errNoProgress }
  | err {i b n e p r'} : read b.rd (b.buf.drop b.stop) n (some e) p r' →
      BufFill read (i + 1) b { b with rd := r', buf := b.buf.take b.stop ++ p, stop := b.stop + n, err := some e }
  | data {i b n p r'} : read b.rd (b.buf.drop b.stop) n none p r' → 0 < n →
      BufFill read (i + 1) b { b with rd := r', buf := b.buf.take b.stop ++ p, stop := b.stop + n }
  | again {i b p r' b'} : read b.rd (b.buf.drop b.stop) 0 none p r' →
      BufFill read i { b with rd := r', buf := b.buf.take b.stop ++ p } b' → BufFill read (i + 1) b b'

/-- bufio.Reader.ReadRune, the condition of its loop. -/
def BufReader.wants {ρ : Type} (b : BufReader ρ) : Prop :=
  b.start + 4 > b.stop ∧ fullRune b.window = false ∧ b.err = none ∧ b.stop - b.start < b.buf.length

/-- bufio.Reader.ReadRune: the results `r`, `size` and `err`, and the reader afterwards. `readErr` hands out the error and
clears it. -/
inductive ReadRune {ρ : Type} (read : ρ → Str → Nat → Option Err → Str → ρ → Prop) :
    BufReader ρ → Rune → Nat → Option Err → BufReader ρ → Prop
  | fill {b b1 r size err b2} : b.wants → BufFill read 100 b.slide b1 → ReadRune read b1 r size err b2 →
      ReadRune read b r size err b2
  | nothing {b} : ¬ b.wants → b.start = b.stop → ReadRune read b 0 0 b.err { b with err := none }
  | rune {b} : ¬ b.wants → b.start ≠ b.stop → ReadRune read b (DecodeRune b.window).1 (DecodeRune b.window).2 none
      { b with start := b.start + (DecodeRune b.window).2 }

/-- `for { r, size, err := b.ReadRune(); if err != nil { break }; … }`: the runes with their sizes, and the error. -/
inductive ReadRunes {ρ : Type} (read : ρ → Str → Nat → Option Err → Str → ρ → Prop) :
    BufReader ρ → List (Rune × Nat) → Err → Prop
  | stop {b r size e b'} : ReadRune read b r size (some e) b' → ReadRunes read b [] e
  | next {b r size b' rs e} : ReadRune read b r size none b' → ReadRunes read b' rs e →
      ReadRunes read b ((r, size) :: rs) e

end GoIo
