import Verif.Cp949.Reader
import Verif.Cp949.Writer
/-!
Environment model: the parts of Go's standard library through which the stream reader and writer of
encoding/cp949/public.go are commonly used: `io.ReadAll`, with which encoding_test.go:15 reads from a decoder, `io.Copy`, and
`bufio.Writer`.

This code is not in /repo and its text is not available here: the definitions below are written from memory of the
published source (Go 1.21) and have not been compared with it. They are part of the trusted base of the theorems about them (C86–C89, C123), and of no others.
-/
namespace GoIo
open Go Cp949

/-- io.ReadAll, `if len(b) == cap(b) { b = append(b, 0)[:len(b)] }`. `mem` is `b[:cap(b)]`. How much `append` adds is
up to the Go runtime: at least one byte, `grow c` more. -/
def room (grow : Nat → Nat) (mem : Str) (len : Nat) : Str :=
  if len = mem.length then mem ++ List.replicate (1 + grow mem.length) 0 else mem

/-- The loop of io.ReadAll on a `cp949.Reader`: `mem` is `b[:cap(b)]` and `len` is `len(b)`. `read` is the meaning of
one call `r.Read(buf)`: its results, what is in `buf` afterwards, and the reader afterwards. The result is what
`ReadAll` returns and the reader afterwards. -/
inductive ReadAllLoop {ρ : Type} (read : ρ → Str → Nat → Option Err → Str → ρ → Prop) (grow : Nat → Nat) :
    ρ → Str → Nat → Str → Option Err → ρ → Prop
  | stop {r mem len n e buf r'} : read r (mem.drop len) n (some e) buf r' →
      ReadAllLoop read grow r mem len ((mem.take len ++ buf).take (len + n)) (if e = .eof then none else some e) r'
  | more {r mem len n buf r' out err r''} : read r (mem.drop len) n none buf r' →
      ReadAllLoop read grow r' (room grow (mem.take len ++ buf) (len + n)) (len + n) out err r'' →
      ReadAllLoop read grow r mem len out err r''

/-- io.ReadAll: `b := make([]byte, 0, 512)` and the loop. -/
def ReadAll {ρ : Type} (read : ρ → Str → Nat → Option Err → Str → ρ → Prop) (grow : Nat → Nat) (r : ρ) (out : Str)
    (err : Option Err) (r' : ρ) : Prop :=
  ReadAllLoop read grow r (List.replicate 512 0) 0 out err r'

/-- io.ErrShortWrite. -/
def errShortWrite : Err := .other 1

/-- io.errInvalidWrite. -/
def errInvalidWrite : Err := .other 2

/-- io.Copy, what it does with the `n` bytes of a read: `d` is `buf[0:nr]`, `w` is `written`. The result is the error with
which it gives up, `written`, and the state of the destination. -/
def copyWrite {τ : Type} (sink : Sink τ) (t : τ) (w : Nat) (d : Str) : Option Err × Nat × τ :=
  if d.length > 0 then
    let (nw, ew, t) := sink t d
    let (nw, ew) := if d.length < nw then (0, if ew = none then some errInvalidWrite else ew) else (nw, ew)
    if ew ≠ none then (ew, w + nw, t)
    else if d.length ≠ nw then (some errShortWrite, w + nw, t)
    else (none, w + nw, t)
  else (none, w, t)

/-- The loop of io.Copy, for a source without a method `WriteTo` and a destination without a method `ReadFrom` (the Reader
and the Writer have neither). `buf` is what is in the buffer. The result is what `Copy` returns, and the source and the
destination afterwards. -/
inductive CopyLoop {ρ τ : Type} (read : ρ → Str → Nat → Option Err → Str → ρ → Prop) (sink : Sink τ) :
    ρ → τ → Str → Nat → Nat → Option Err → ρ → τ → Prop
  | fail {r t buf w n er buf' r' e w' t'} : read r buf n er buf' r' →
      copyWrite sink t w (buf'.take n) = (some e, w', t') → CopyLoop read sink r t buf w w' (some e) r' t'
  | stop {r t buf w n e buf' r' w' t'} : read r buf n (some e) buf' r' →
      copyWrite sink t w (buf'.take n) = (none, w', t') →
      CopyLoop read sink r t buf w w' (if e = .eof then none else some e) r' t'
  | more {r t buf w n buf' r' w' t' w'' err r'' t''} : read r buf n none buf' r' →
      copyWrite sink t w (buf'.take n) = (none, w', t') →
      CopyLoop read sink r' t' buf' w' w'' err r'' t'' → CopyLoop read sink r t buf w w'' err r'' t''

/-- io.Copy: `buf = make([]byte, 32*1024)` and the loop. -/
def Copy {ρ τ : Type} (read : ρ → Str → Nat → Option Err → Str → ρ → Prop) (sink : Sink τ) (r : ρ) (t : τ)
    (written : Nat) (err : Option Err) (r' : ρ) (t' : τ) : Prop :=
  CopyLoop read sink r t (List.replicate 32768 0) 0 written err r' t'

/-- bufio.Writer: `wr` is the state of the underlying writer, `buf` is `b.buf[0:b.n]`, `err` is `b.err`. -/
structure BufWriter (τ : Type) where
  wr : τ
  buf : Str
  err : Option Err

/-- bufio.NewWriterSize. -/
def NewBufWriter {τ : Type} (t : τ) : BufWriter τ := ⟨t, [], none⟩

/-- bufio.Writer.Flush. -/
def flush {τ : Type} (sink : Sink τ) (b : BufWriter τ) : BufWriter τ :=
  if b.err ≠ none then b
  else if b.buf.length = 0 then b
  else
    let (n, err, t) := sink b.wr b.buf
    let err := if n < b.buf.length ∧ err = none then some errShortWrite else err
    if err ≠ none then ⟨t, b.buf.drop n, err⟩ else ⟨t, [], none⟩

/-- The loop of bufio.Writer.Write, for a buffer of `size` bytes: results `nn`, what is left of `p`, and the writer;
`none` if the loop has not ended after `fuel` rounds. -/
def bufLoop {τ : Type} (sink : Sink τ) (size : Nat) : (fuel : Nat) → BufWriter τ → (p : Str) → (nn : Nat) →
    Option (Nat × Str × BufWriter τ)
  | 0, _, _, _ => none
  | fuel + 1, b, p, nn =>
    if p.length > size - b.buf.length ∧ b.err = none then
      if b.buf.length = 0 then
        let (n, err, t) := sink b.wr p
        bufLoop sink size fuel ⟨t, b.buf, err⟩ (p.drop n) (nn + n)
      else
        let n := min (size - b.buf.length) p.length
        bufLoop sink size fuel (flush sink { b with buf := b.buf ++ p.take n }) (p.drop n) (nn + n)
    else some (nn, p, b)

/-- bufio.Writer.Write: the results `nn` and `err`, and the writer afterwards. -/
def bufWrite {τ : Type} (sink : Sink τ) (size fuel : Nat) (b : BufWriter τ) (p : Str) :
    Option (Nat × Option Err × BufWriter τ) :=
  match bufLoop sink size fuel b p 0 with
  | none => none
  | some (nn, p, b) =>
    if b.err ≠ none then some (nn, b.err, b)
    else some (nn + min (size - b.buf.length) p.length, none,
      { b with buf := b.buf ++ p.take (min (size - b.buf.length) p.length) })

end GoIo
