import Verif.Cp949.Reader
/-!
Environment model: `io.LimitReader`, which cuts a source off after so many bytes.

This code is not in /repo and its text is not available here: the definition below is written from memory of the
published source (Go 1.21) and has not been compared with it. It is part of the trusted base of the theorem about
it (C105), and of no others.
-/
namespace GoIo
open Go Cp949

/-- io.LimitedReader.Read with a buffer of `k` bytes; the state is that of the source, and `l.N`, which is not negative here. -/
def limit {σ : Type} (src : Source σ) : Source (σ × Nat) := fun s k =>
  if s.2 = 0 then ([], some .eof, s)
  else
    let (bs, err, s') := src s.1 (min k s.2)
    (bs, err, (s', s.2 - bs.length))

end GoIo
