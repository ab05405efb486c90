import Verif.Cp949.Reader
/-!
Environment model: `bufio.Scanner` with the split function `bufio.ScanLines`, the usual way to read a text line by line.

This code is not in /repo and its text is not available here: the definitions below are written from memory of the
published source (Go 1.21) and have not been compared with it. They are part of the trusted base of the theorems about
them (C96, C120), and of no others.
-/
namespace GoIo
open Go Cp949

/-- bufio.ErrTooLong. -/
def errTooLong : Err := .other 3
/-- bufio.ErrBadReadCount. -/
def errBadReadCount : Err := .other 4
/-- io.ErrNoProgress. -/
def errNoProgress : Err := .other 5

/-- bufio.dropCR. -/
def dropCR (data : Str) : Str := if data.getLast? = some 13 then data.dropLast else data

/-- bytes.IndexByte(data, '\n'). -/
def indexNL : Str → Option Nat
  | [] => none
  | b :: bs => if b = 10 then some 0 else (indexNL bs).map (· + 1)

/-- bufio.ScanLines: the results `advance` and `token`, or `none` for `0, nil, nil`. The error is always nil. -/
def scanLines (data : Str) (atEOF : Bool) : Option (Nat × Str) :=
  if atEOF && data.isEmpty then none
  else
    match indexNL data with
    | some i => some (i + 1, dropCR (data.take i))
    | none => if atEOF then some (data.length, dropCR data) else none

/-- bufio.Scanner: `r` is the state of the reader, `stop` is `end`. Left out: `token`, which is a result of `scanLoop` here;
`empties`, which counts tokens at the end of the input that do not advance (ScanLines returns none); `scanCalled`; `done`,
which only ErrFinalToken sets. -/
structure Scanner (ρ : Type) where
  r : ρ
  buf : Str
  start : Nat
  stop : Nat
  err : Option Err

/-- bufio.NewScanner, and `Buffer(b, max)` with any `b` (the `max` is a parameter below). -/
def NewScanner {ρ : Type} (r : ρ) (b : Str) : Scanner ρ := ⟨r, b, 0, 0, none⟩

/-- `s.buf[s.start:s.end]`. -/
def Scanner.window {ρ : Type} (s : Scanner ρ) : Str := (s.buf.take s.stop).drop s.start

/-- Scanner.setErr: `if s.err == nil || s.err == io.EOF { s.err = err }`. -/
def Scanner.setErr {ρ : Type} (s : Scanner ρ) (e : Err) : Scanner ρ :=
  if s.err = none ∨ s.err = some .eof then { s with err := some e } else s

/-- Scanner.Scan, "shift data to beginning of buffer if there's lots of empty space or space is needed". -/
def Scanner.shift {ρ : Type} (s : Scanner ρ) : Scanner ρ :=
  if s.start > 0 ∧ (s.stop = s.buf.length ∨ s.start > s.buf.length / 2) then
    { s with buf := (copy s.buf s.window).1, start := 0, stop := s.stop - s.start }
  else s

/-- Scanner.Scan, "is the buffer full? If so, resize"; `none` is ErrTooLong. The test for overflow of `len(s.buf) * 2` is
left out. -/
def Scanner.resize {ρ : Type} (max : Nat) (s : Scanner ρ) : Option (Scanner ρ) :=
  if s.stop = s.buf.length then
    if s.buf.length ≥ max then none
    else
      let newSize := s.buf.length * 2
      let newSize := if newSize = 0 then 4096 else newSize
      let newSize := min newSize max
      some { s with buf := (copy (List.replicate newSize 0) s.window).1, start := 0, stop := s.stop - s.start }
  else some s

/-- Scanner.Scan, the inner loop: reading, at most 100 times in a row without a result. `read` is the meaning of a call
`r.Read(buf)`, as in `ReadAllLoop`. -/
inductive FillLoop {ρ : Type} (read : ρ → Str → Nat → Option Err → Str → ρ → Prop) :
    (loop : Nat) → Scanner ρ → Scanner ρ → Prop
  | bad {loop s n err b r'} : read s.r (s.buf.drop s.stop) n err b r' → s.buf.length - s.stop < n →
      FillLoop read loop s ({ s with r := r', buf := s.buf.take s.stop ++ b }.setErr errBadReadCount)
  | err {loop s n e b r'} : read s.r (s.buf.drop s.stop) n (some e) b r' → n ≤ s.buf.length - s.stop →
      FillLoop read loop s ({ s with r := r', buf := s.buf.take s.stop ++ b, stop := s.stop + n }.setErr e)
  | data {loop s n b r'} : read s.r (s.buf.drop s.stop) n none b r' → n ≤ s.buf.length - s.stop → 0 < n →
      FillLoop read loop s { s with r := r', buf := s.buf.take s.stop ++ b, stop := s.stop + n }
  | again {loop s b r' s'} : read s.r (s.buf.drop s.stop) 0 none b r' → loop + 1 ≤ 100 →
      FillLoop read (loop + 1) { s with r := r', buf := s.buf.take s.stop ++ b } s' → FillLoop read loop s s'
  | noProgress {loop s b r'} : read s.r (s.buf.drop s.stop) 0 none b r' → 100 < loop + 1 →
      FillLoop read loop s ({ s with r := r', buf := s.buf.take s.stop ++ b }.setErr errNoProgress)

/-- What the split function is asked for, if it is. -/
def Scanner.split {ρ : Type} (s : Scanner ρ) : Option (Nat × Str) :=
  if s.stop > s.start ∨ s.err ≠ none then scanLines s.window (s.err ≠ none) else none

/-- Scanner.Scan: the token if it returns true, `none` if it returns false. The checks of `Scanner.advance` never fail with
ScanLines. -/
inductive Scan {ρ : Type} (read : ρ → Str → Nat → Option Err → Str → ρ → Prop) (max : Nat) :
    Scanner ρ → Option Str → Scanner ρ → Prop
  | token {s adv tok} : s.split = some (adv, tok) → Scan read max s (some tok) { s with start := s.start + adv }
  | done {s} : s.split = none → s.err ≠ none → Scan read max s none { s with start := 0, stop := 0 }
  | tooLong {s} : s.split = none → s.err = none → s.shift.resize max = none →
      Scan read max s none (s.shift.setErr errTooLong)
  | more {s s1 s2 t s3} : s.split = none → s.err = none → s.shift.resize max = some s1 →
      FillLoop read 0 s1 s2 → Scan read max s2 t s3 → Scan read max s t s3

/-- `for s.Scan() { … s.Text() … }` and then `s.Err()`: the texts and the error. -/
inductive ScanAll {ρ : Type} (read : ρ → Str → Nat → Option Err → Str → ρ → Prop) (max : Nat) :
    Scanner ρ → List Str → Option Err → Prop
  | stop {s s'} : Scan read max s none s' → ScanAll read max s [] (if s'.err = some .eof then none else s'.err)
  | next {s t s' ts err} : Scan read max s (some t) s' → ScanAll read max s' ts err →
      ScanAll read max s (t :: ts) err

end GoIo
