import Verif.Cp949.Reader
import Verif.Cp949.Writer
/-!
Environment model: `io.Pipe`, with a goroutine that writes texts to it through a `cp949.Writer` and one that reads from it
through a `cp949.Reader`:

    pr, pw := io.Pipe()
    go func() {                                      r, _ := cp949.NewReader(pr)
        w, _ := cp949.NewWriter(pw)                  for more() {
        for _, d := range ds {                           n, err := r.Read(buf())
            if _, err := w.Write(d); err != nil {        if err != nil {
                break                                        break
            }                                            }
        }                                                use(n)
        pw.CloseWithError(fin)                       }
    }()                                              pr.Close()

(`pw.Close()` is the case that `fin` is `io.EOF`.)

`io.Pipe` is not in /repo and its text is not available here: the definitions below are written from memory of the published
source (Go 1.21) and have not been compared with it. They are part of the trusted base of the theorems about them (C106), and of
no others. Simplified: that a reader takes bytes and tells the writer how many (two exchanges over channels, between which neither of
them can do anything else) is one step. The steps of a goroutine in between are as long as they can be, since nothing else
in this program depends on them (for memory, see C90).
-/
namespace GoIo
open Go Cp949

/-- io.ErrClosedPipe. -/
def errClosedPipe : Err := .other 8

/-- What `Write(d)` on the writer `w` asks the underlying writer to write, public.go:112-122: the calls made to it. Until then
`Write` does not depend on the answer. -/
def asked (w : Writer Unit) (d : Str) : List Str :=
  (Write (fun log b => (0, none, log ++ [b])) ⟨[], w.buf⟩ d).2.2.sink

/-- What `Write(d)` on the writer `w` returns, and the writer afterwards, if the underlying writer (if it is called) returns
`n` and `err`, public.go:112-133. -/
def answered (w : Writer Unit) (d : Str) (n : Nat) (err : Option Err) : Nat × Option Err × Writer Unit :=
  Write (fun _ _ => (n, err, ())) w d

/-- The goroutine that writes. -/
inductive WProc where
  /-- it has yet to write the pieces `ds` -/
  | idle (w : Writer Unit) (ds : List Str)
  /-- in `w.Write(d)`, in the method `Write` of the pipe, waiting for somebody to take `b`; `n` bytes have been taken -/
  | send (w : Writer Unit) (d : Str) (ds : List Str) (b : Str) (n : Nat)
  /-- it has closed the pipe and ended -/
  | closed

/-- A call of `Write` has returned. -/
def WProc.returned (ds : List Str) (x : Nat × Option Err × Writer Unit) : WProc :=
  if x.2.1 = none then .idle x.2.2 ds else .closed

/-- One round of the loop of `Read`, public.go:60-91, up to the point where it asks the source (:68). -/
inductive Round where
  | ret (n : Nat) (err : Option Err) (buf : Str) (r : Reader Unit)
  | ask
  | again (r : Reader Unit)

/-- public.go:60-76, and :78-91 if the source is not asked. -/
def round (r : Reader Unit) (buf : Str) : Round :=
  if r.cdata.length > 0 then
    let (buf', n) := copy buf r.cdata
    .ret n none buf' { r with cdata := r.cdata.drop n }
  else if r.err = none then .ask
  else if r.rdata.length = 0 then .ret 0 r.err buf r
  else .again (convert r)

/-- The length of the slice the source is asked to fill, public.go:67-68. -/
def roomFor (r : Reader Unit) (buf : Str) : Nat :=
  ensureCapCap r.rcap (r.rdata.length + buf.length) - r.rdata.length

/-- The goroutine that reads. -/
inductive RProc where
  /-- between calls -/
  | idle (r : Reader Unit)
  /-- in `Read(buf)`, at the head of the loop, public.go:60 -/
  | top (r : Reader Unit) (buf : Str)
  /-- in `Read(buf)`, in the method `Read` of the pipe, public.go:68 -/
  | ask (r : Reader Unit) (buf : Str)
  /-- it has closed the pipe and ended -/
  | closed
  | panic

/-- A call of `Read` has returned the error `err`. -/
def RProc.returned (r : Reader Unit) (err : Option Err) : RProc :=
  if err = none then .idle r else .closed

/-- The pipe has returned `bs` and `err`, public.go:68-91. -/
def RProc.got (r : Reader Unit) (buf bs : Str) (err : Option Err) : RProc :=
  match fill (fun _ _ => (bs, err, ())) r buf.length with
  | none => .panic
  | some r => .top (convert r) buf

/-- The two goroutines, and the results of their calls of `Write` and `Read` so far. -/
structure Piped where
  w : WProc
  wres : List (Nat × Option Err)
  r : RProc
  rres : List (Nat × Option Err × Str)

/-- One step of one of the goroutines, or of both. What the reading goroutine does next may depend on what it has got: it calls `Read`
with the buffer `caller res`, or stops. -/
inductive PipeStep (fin : Err) (caller : List (Nat × Option Err × Str) → Option Str) : Piped → Piped → Prop
  /-- a `Write` that does not call the pipe -/
  | quiet {w d ds wres r rres} : asked w d = [] →
      PipeStep fin caller ⟨.idle w (d :: ds), wres, r, rres⟩
        ⟨.returned ds (answered w d 0 none), wres ++ [((answered w d 0 none).1, (answered w d 0 none).2.1)], r, rres⟩
  /-- a `Write` that does -/
  | write {w d ds wres r rres b} : asked w d = [b] → r ≠ .closed →
      PipeStep fin caller ⟨.idle w (d :: ds), wres, r, rres⟩ ⟨.send w d ds b 0, wres, r, rres⟩
  /-- a `Write` that does, after `pr.Close()` -/
  | refused {w d ds wres rres b} : asked w d = [b] →
      PipeStep fin caller ⟨.idle w (d :: ds), wres, .closed, rres⟩
        ⟨.returned ds (answered w d 0 (some errClosedPipe)),
          wres ++ [((answered w d 0 (some errClosedPipe)).1, (answered w d 0 (some errClosedPipe)).2.1)], .closed, rres⟩
  /-- `pr.Close()` while the pipe's `Write` waits -/
  | broken {w d ds b n wres rres} :
      PipeStep fin caller ⟨.send w d ds b n, wres, .closed, rres⟩
        ⟨.returned ds (answered w d n (some errClosedPipe)),
          wres ++ [((answered w d n (some errClosedPipe)).1, (answered w d n (some errClosedPipe)).2.1)], .closed, rres⟩
  /-- `pw.CloseWithError(fin)` -/
  | close {w wres r rres} : PipeStep fin caller ⟨.idle w [], wres, r, rres⟩ ⟨.closed, wres, r, rres⟩
  /-- `Read` is called -/
  | read {w wres r rres buf} : caller rres = some buf →
      PipeStep fin caller ⟨w, wres, .idle r, rres⟩ ⟨w, wres, .top r buf, rres⟩
  /-- `pr.Close()` -/
  | stop {w wres r rres} : caller rres = none →
      PipeStep fin caller ⟨w, wres, .idle r, rres⟩ ⟨w, wres, .closed, rres⟩
  /-- `Read` returns -/
  | ret {w wres r rres buf n err buf' r'} : round r buf = .ret n err buf' r' →
      PipeStep fin caller ⟨w, wres, .top r buf, rres⟩ ⟨w, wres, .returned r' err, rres ++ [(n, err, buf')]⟩
  /-- `Read` calls the pipe -/
  | ask {w wres r rres buf} : round r buf = .ask →
      PipeStep fin caller ⟨w, wres, .top r buf, rres⟩ ⟨w, wres, .ask r buf, rres⟩
  | again {w wres r rres buf r'} : round r buf = .again r' →
      PipeStep fin caller ⟨w, wres, .top r buf, rres⟩ ⟨w, wres, .top r' buf, rres⟩
  /-- the reader takes some of the bytes; others are left -/
  | some_ {w d ds b n wres r buf rres} : roomFor r buf < b.length →
      PipeStep fin caller ⟨.send w d ds b n, wres, .ask r buf, rres⟩
        ⟨.send w d ds (b.drop (roomFor r buf)) (n + roomFor r buf), wres, .got r buf (b.take (roomFor r buf)) none, rres⟩
  /-- the reader takes all bytes, and the pipe's `Write` returns -/
  | all {w d ds b n wres r buf rres} : b.length ≤ roomFor r buf →
      PipeStep fin caller ⟨.send w d ds b n, wres, .ask r buf, rres⟩
        ⟨.returned ds (answered w d (n + b.length) none),
          wres ++ [((answered w d (n + b.length) none).1, (answered w d (n + b.length) none).2.1)],
          .got r buf b none, rres⟩
  /-- the pipe has been closed by the writer -/
  | end_ {wres r buf rres} :
      PipeStep fin caller ⟨.closed, wres, .ask r buf, rres⟩ ⟨.closed, wres, .got r buf [] (some fin), rres⟩

/-- The program at its start. -/
def Piped.start (ds : List Str) : Piped := ⟨.idle (NewWriter ()) ds, [], .idle (NewReader ()), []⟩

/-- `n` steps. -/
inductive PipeSteps (fin : Err) (caller : List (Nat × Option Err × Str) → Option Str) : Nat → Piped → Piped → Prop
  | nil (s) : PipeSteps fin caller 0 s s
  | snoc {n s s' s''} : PipeSteps fin caller n s s' → PipeStep fin caller s' s'' → PipeSteps fin caller (n + 1) s s''

end GoIo
