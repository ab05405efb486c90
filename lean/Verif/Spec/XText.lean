import Verif.Env.Transform
import Verif.Spec.Stream
/-! Vocabulary for statements about the wrappers of golang.org/x/text. -/
namespace Spec
open Go Cp949

/-- A call of `Read` on the reader of x/text returns. -/
def XReturns {σ : Type} (T : XText.Transformer) (src : Source σ) (r : XText.Reader σ) (p : Str) (n : Nat)
    (err : Option Err) (p' : Str) (r' : XText.Reader σ) : Prop :=
  ∃ fuel, XText.Reader.read T src fuel r p = .ret (n, err, p', r')

/-- A sequence of calls of `Read`, their results, and the state after. -/
inductive XReads {σ : Type} (T : XText.Transformer) (src : Source σ) :
    XText.Reader σ → List Str → List Result → XText.Reader σ → Prop
  | nil (r) : XReads T src r [] [] r
  | cons {r p n err p' r' ps res r''} : XReturns T src r p n err p' r' →
      XReads T src r' ps res r'' → XReads T src r (p :: ps) ((n, err, p') :: res) r''

/-- A source that, asked for 4096 bytes at a time, hands over `D` in chunks of whole characters whose
conversion has at most 4096 bytes, and ends with error `e`. -/
inductive WholeChunks {σ : Type} (src : Source σ) (e : Err) : σ → Str → Prop
  | more {s c s' D} : src s 4096 = (c, none, s') → c.length ≤ 4096 → (From c).2 = none →
      (From c).1.length ≤ 4096 → WholeChunks src e s' D → WholeChunks src e s (c ++ D)
  | last {s c s'} : src s 4096 = (c, some e, s') → c.length ≤ 4096 → (From c).2 = none →
      (From c).1.length ≤ 4096 → WholeChunks src e s c

/-- A sequence of calls of `Write` on the writer of x/text that all return, their results, and the writer
afterwards. -/
inductive XWrites {τ : Type} (T : XText.Transformer) (sink : Sink τ) :
    XText.Writer τ → List Str → List (Nat × Option Err) → XText.Writer τ → Prop
  | nil (w) : XWrites T sink w [] [] w
  | cons {w d n err w' ds res w'' fuel} : XText.Writer.write T sink fuel w d = .ret (n, err, w') →
      XWrites T sink w' ds res w'' → XWrites T sink w (d :: ds) ((n, err) :: res) w''

end Spec
