import Verif.Cp949.Reader
import Verif.Cp949.Writer
/-! Vocabulary for statements about streams. -/
namespace Spec
open Go Cp949

/-- A source that, asked with any non-empty buffers, hands over the data `D` in chunks of its own
choosing (each non-empty, at most as long as the buffer) and ends with error `e`, which
may come together with the last chunk or after it. -/
inductive Delivers {σ : Type} (src : Source σ) (e : Err) : σ → Str → Prop
  | mk (s : σ) (D : Str)
      (size : ∀ k, 0 < k → (src s k).1.length ≤ k)
      (more : ∀ k, 0 < k → (src s k).2.1 = none → (src s k).1 ≠ [] ∧ (src s k).1 <+: D)
      (last : ∀ k, 0 < k → (src s k).2.1 ≠ none → (src s k).1 = D ∧ (src s k).2.1 = some e)
      (next : ∀ k, 0 < k → (src s k).2.1 = none →
        Delivers src e (src s k).2.2 (D.drop (src s k).1.length)) :
      Delivers src e s D

/-- A source that hands over the given chunks one after the other (splitting one that does not fit the
buffer) and then reports `io.EOF` forever. -/
def chunked : Source (List Str)
  | [], _ => ([], some .eof, [])
  | c :: cs, k => if c.length ≤ k then (c, none, cs) else (c.take k, none, c.drop k :: cs)

/-- The source with a log of everything it has handed over; the log does not influence what it does. -/
def logged {σ : Type} (src : Source σ) : Source (σ × Str) :=
  fun s k => ((src s.1 k).1, (src s.1 k).2.1, ((src s.1 k).2.2, s.2 ++ (src s.1 k).1))

/-- A call of `Read` returns. -/
def Returns {σ : Type} (src : Source σ) (r : Reader σ) (buf : Str) (n : Nat) (err : Option Err)
    (buf' : Str) (r' : Reader σ) : Prop :=
  ∃ fuel, readLoop src fuel r buf = .ret n err buf' r'

/-- The results of one call: `n`, the error, and the contents of the buffer afterwards. -/
abbrev Result := Nat × Option Err × Str

/-- A sequence of calls of `Read` with the buffers `bufs`, their results, and the state after. -/
inductive Reads {σ : Type} (src : Source σ) : Reader σ → List Str → List Result → Reader σ → Prop
  | nil (r) : Reads src r [] [] r
  | cons {r buf n err buf' r' bufs res r''} : Returns src r buf n err buf' r' →
      Reads src r' bufs res r'' → Reads src r (buf :: bufs) ((n, err, buf') :: res) r''

/-- What the caller takes as data: `buf[:n]` of each call. -/
def delivered (res : List Result) : Str := res.flatMap fun x => x.2.2.take x.1

/-- The caller chooses each buffer by what it has got so far: its `i`-th buffer is `caller` of the results
of the calls before. `io.ReadAll`, `io.Copy` and `bufio.Scanner` are such callers. -/
def Follows (caller : List Result → Str) (bufs : List Str) (res : List Result) : Prop :=
  ∀ (i : Nat) (h : i < bufs.length), bufs[i] = caller (res.take i)

/-- Successive reads from the source (with buffers of some sizes) bring the pieces `ps`, without an error. -/
inductive Supplies {σ : Type} (src : Source σ) : σ → List Str → σ → Prop
  | nil (s) : Supplies src s [] s
  | cons {s k p s' ps s''} : src s k = (p, none, s') → Supplies src s' ps s'' →
      Supplies src s (p :: ps) s''

/-- The source that reports the end of file where `src` returns 0 bytes and no error. -/
def eofFor {σ : Type} (src : Source σ) : Source σ := fun s k =>
  if (src s k).1 = [] ∧ (src s k).2.1 = none then ([], some .eof, (src s k).2.2) else src s k

/-- The sink with a log of the calls made to it, each with its argument; the log does not influence
what it does. -/
def loggedSink {τ : Type} (sink : Sink τ) : Sink (τ × List Str) :=
  fun t d => ((sink t.1 d).1, (sink t.1 d).2.1, ((sink t.1 d).2.2, t.2 ++ [d]))

/-- A sequence of calls of `Write`, their results, and the writer afterwards. -/
inductive Writes {τ : Type} (sink : Sink τ) :
    Writer τ → List Str → List (Nat × Option Err) → Writer τ → Prop
  | nil (w) : Writes sink w [] [] w
  | cons {w d n err w' ds res w''} : Write sink w d = (n, err, w') → Writes sink w' ds res w'' →
      Writes sink w (d :: ds) ((n, err) :: res) w''

end Spec
