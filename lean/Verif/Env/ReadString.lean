import Verif.Env.BufReader
/-!
Environment model: the methods `ReadSlice` and `ReadString` of `bufio.Reader` (`ReadBytes` does the same), the usual way to read
lines of any length.

This code is not in /repo and its text is not available here: the definitions below are written from memory of the
published source (Go 1.21) and have not been compared with it. They are part of the trusted base of the theorems about
them (C116, C120), and of no others.
-/
namespace GoIo
open Go Cp949

/-- bufio.ErrBufferFull. -/
def errBufferFull : Err := .other 9

/-- bufio.Reader.ReadSlice: the result `line`, `err`, and the reader afterwards; `s` is the local variable of that name, the
number of bytes of the window that have been searched. The search with `bytes.IndexByte` is rendered by what it finds: the
bytes `x` before the first `delim`. Left out: `lastByte`, which only `UnreadByte` looks at. `line` is a slice of the buffer;
`ReadString` copies it before the next read. -/
inductive ReadSlice {ρ : Type} (read : ρ → Str → Nat → Option Err → Str → ρ → Prop) (delim : Byte) :
    BufReader ρ → (s : Nat) → Str → Option Err → BufReader ρ → Prop
  | found {b s x y} : b.window.drop s = x ++ delim :: y → delim ∉ x →
      ReadSlice read delim b s (b.window.take (x.length + s + 1)) none { b with start := b.start + (x.length + s + 1) }
  | err {b s e} : delim ∉ b.window.drop s → b.err = some e →
      ReadSlice read delim b s b.window (some e) { b with start := b.stop, err := none }
  | full {b s} : delim ∉ b.window.drop s → b.err = none → b.stop - b.start ≥ b.buf.length →
      ReadSlice read delim b s b.buf (some errBufferFull) { b with start := b.stop }
  | fill {b s b1 line err b2} : delim ∉ b.window.drop s → b.err = none → b.stop - b.start < b.buf.length →
      BufFill read 100 b.slide b1 → ReadSlice read delim b1 (b.stop - b.start) line err b2 →
      ReadSlice read delim b s line err b2

/-- bufio.Reader.ReadString with its helper `collectFragments`: `acc` are the full buffers collected so far. -/
inductive ReadString {ρ : Type} (read : ρ → Str → Nat → Option Err → Str → ρ → Prop) (delim : Byte) :
    BufReader ρ → (acc : Str) → Str → Option Err → BufReader ρ → Prop
  | found {b acc frag b'} : ReadSlice read delim b 0 frag none b' → ReadString read delim b acc (acc ++ frag) none b'
  | err {b acc frag e b'} : ReadSlice read delim b 0 frag (some e) b' → e ≠ errBufferFull →
      ReadString read delim b acc (acc ++ frag) (some e) b'
  | full {b acc frag b' out err b''} : ReadSlice read delim b 0 frag (some errBufferFull) b' →
      ReadString read delim b' (acc ++ frag) out err b'' → ReadString read delim b acc out err b''

/-- `for { s, err := b.ReadString(delim); …; if err != nil { break } }`: the strings, with the one that came with the error, and
the error. -/
inductive ReadStrings {ρ : Type} (read : ρ → Str → Nat → Option Err → Str → ρ → Prop) (delim : Byte) :
    BufReader ρ → List Str → Err → Prop
  | stop {b l e b'} : ReadString read delim b [] l (some e) b' → ReadStrings read delim b [l] e
  | next {b l b' ls e} : ReadString read delim b [] l none b' → ReadStrings read delim b' ls e →
      ReadStrings read delim b (l :: ls) e

end GoIo
