import Verif.Spec.Stream
/-! Vocabulary for statements about temporary errors. -/
namespace Spec
open Go Cp949

/-- A sink that at first fails: each of its next calls takes so many bytes as `ks` says (or all, if there are fewer) and returns their
number and the error `e`; after that it takes everything. The second component of the state is what it has taken. -/
def faltering (e : Err) : Sink (List Nat × Str) := fun t d =>
  match t.1 with
  | [] => (d.length, none, ([], t.2 ++ d))
  | k :: ks => (min k d.length, some e, (ks, t.2 ++ d.take k))

/-- A caller that does what the documentation of `io.Writer` lets it: if `Write` returns `n` and an error, it goes on with what is
left after the first `n` bytes, until `Write` returns no error. -/
inductive Resumes {τ : Type} (sink : Sink τ) : Writer τ → Str → Writer τ → Prop
  | done {w d n w'} : Write sink w d = (n, none, w') → Resumes sink w d w'
  | again {w d n e w' w''} : Write sink w d = (n, some e, w') → Resumes sink w' (d.drop n) w'' → Resumes sink w d w''

/-- A source that delivers some chunks, then once the error `e`, and then the others and the end of the file. -/
def interrupted (e : Err) : Source (List Str × Option (List Str)) := fun s k =>
  match s with
  | ([], some l) => ([], some e, (l, none))
  | (l, later) => ((chunked l k).1, (chunked l k).2.1, ((chunked l k).2.2, later))

end Spec
