import Verif.Cp949.Reader
/-!
Environment model: `io.ReadAtLeast` and `io.ReadFull`, with which records of a fixed length are read.

This code is not in /repo and its text is not available here: the definitions below are written from memory of the
published source (Go 1.21) and have not been compared with it. They are part of the trusted base of the theorems about
them (C104), and of no others.
-/
namespace GoIo
open Go Cp949

/-- io.ErrUnexpectedEOF. -/
def errUnexpectedEOF : Err := .other 6
/-- io.ErrShortBuffer. -/
def errShortBuffer : Err := .other 7

/-- The loop of io.ReadAtLeast: `mem` is what is in `buf`. `read` is the meaning of a call `r.Read(buf)`, as in `ReadAllLoop`. The
result is `n`, the error with which the loop ends, what is in `buf` then, and the reader. -/
inductive AtLeastLoop {ρ : Type} (read : ρ → Str → Nat → Option Err → Str → ρ → Prop) (min : Nat) :
    ρ → Str → Nat → Nat → Option Err → Str → ρ → Prop
  | done {r mem n} : min ≤ n → AtLeastLoop read min r mem n n none mem r
  | err {r mem n nn e p r'} : n < min → read r (mem.drop n) nn (some e) p r' →
      AtLeastLoop read min r mem n (n + nn) (some e) (mem.take n ++ p) r'
  | more {r mem n nn p r' n' err mem' r''} : n < min → read r (mem.drop n) nn none p r' →
      AtLeastLoop read min r' (mem.take n ++ p) (n + nn) n' err mem' r'' → AtLeastLoop read min r mem n n' err mem' r''

/-- io.ReadAtLeast, what is made of the error after the loop. -/
def atLeastErr (min n : Nat) (err : Option Err) : Option Err :=
  if min ≤ n then none else if n > 0 ∧ err = some .eof then some errUnexpectedEOF else err

/-- io.ReadAtLeast: the results, what is in `buf` afterwards, and the reader. -/
inductive ReadAtLeast {ρ : Type} (read : ρ → Str → Nat → Option Err → Str → ρ → Prop) (min : Nat) :
    ρ → Str → Nat → Option Err → Str → ρ → Prop
  | short {r buf} : buf.length < min → ReadAtLeast read min r buf 0 (some errShortBuffer) buf r
  | loop {r buf n err buf' r'} : min ≤ buf.length → AtLeastLoop read min r buf 0 n err buf' r' →
      ReadAtLeast read min r buf n (atLeastErr min n err) buf' r'

/-- io.ReadFull. -/
def ReadFull {ρ : Type} (read : ρ → Str → Nat → Option Err → Str → ρ → Prop) (r : ρ) (buf : Str) (n : Nat)
    (err : Option Err) (buf' : Str) (r' : ρ) : Prop :=
  ReadAtLeast read buf.length r buf n err buf' r'

end GoIo
