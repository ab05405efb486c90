# Formal model of suapapa/go_hangul in Lean 4 — design

Properties are listed in `properties.jsonl` (C01…). `MANIFEST.json` maps each to its theorems.

## 1. Layout of the model (`lean/Verif`)

| module | models |
| --- | --- |
| `Go/Basic` | Go run-time pieces the code uses: `rune` = `Int32` (wrapping `+ -`, truncating `/ %`), `sort.Search`, slices/`copy`/`append` |
| `Go/Utf8` | `utf8.DecodeRune`, `utf8.EncodeRune`, `[]rune(string)`, `string([]rune)` on byte lists, valid **and** invalid input |
| `Hangul/Const`, `Hangul/Jamo`, `Hangul/Hangul`, `Hangul/Stroke` | `constant.go`, `jamo.go`, `hangul.go`, `stroke.go` |
| `Hangul/ConstNames` | the comments of `constant.go` (generated) |
| `Hangul/Heap` | the shared `multiElements` map as mutable state (slices are handed out by reference) |
| `Hangul/StrokeStep` | `Stroke` (stroke.go) step by step, for goroutines |
| `Hanja/Table*`, `Hanja/Hanja` | `hanja/table.go` (generated, source order), `hanja/hanja.go` |
| `Cp949/LookupFrom`, `Cp949/LookupTo` | `lookup_from.go`, `lookup_to.go` (generated, source order) |
| `Cp949/Cp949` | `cp949.go`: the two translators, on contents |
| `Cp949/Public` | `public.go`: `From`, `To` |
| `Cp949/Reader`, `Cp949/Writer` | `public.go`: `NewReader`, `cp949Reader.Read`, `NewWriter`, `cp949Writer.Write`; `ensureCap`'s capacities |
| `Cp949/ReaderAny` | `cp949Reader.Read` over sources that break the contract of `io.Reader` |
| `Cp949/ReaderCost` | `cp949Reader.Read` with the bytes handed to the translator counted |
| `Cp949/Encoding` | `encoding.go`: the two `Transform` methods |
| `Go/Mem`, `Cp949/Mem` | all of package cp949 again at the level of backing arrays, offsets, len and cap: `ensureCap`, `appendRune`, translators with their reused scratch buffer, `From`, `To`, `Read`, `Write`, `Transform` |
| `Cp949/Step` | `From` and `To` as sequences of single memory accesses, for goroutines |
| `Cp949/StepStream` | `Read`, `Write` and `Transform` as sequences of single memory accesses, for goroutines |
| `Env/Transform` | environment, not in /repo: the loops of golang.org/x/text v0.14.0 (`transform.Bytes`, `Reader.Read`, `Writer.Write`) that call the two `Transform` methods |
| `Env/Unsupported` | environment, not in /repo: the loop of `encoding.HTMLEscapeUnsupported` and `encoding.ReplaceUnsupported` of x/text |
| `Env/Io` | environment, not in /repo: `io.ReadAll`, `io.Copy` and `bufio.Writer` of Go's standard library, used with the Reader and the Writer |
| `Env/Scanner` | environment, not in /repo: `bufio.Scanner` with `bufio.ScanLines`, used with the Reader |
| `Env/Pipe` | environment, not in /repo: `io.Pipe` between a Writer and a Reader in two goroutines |
| `Env/BufReader`, `Env/ReadString`, `Env/Multi`, `Env/ReadFull`, `Env/Limit` | environment, not in /repo: `bufio.Reader` with `ReadRune` and `ReadString`, `io.MultiReader`, `io.ReadFull` and `io.LimitReader`, used with the Reader |
| `Env/TransformString` | environment, not in /repo: `transform.String` of the same package |
| `Spec/*` | small independent specifications used in the statements |
| `Lemmas/*` | helper lemmas |
| `Validation` | the repository's unit tests, run on the model |
| `Props/*` | the property theorems `Cnn_…` (next to the lemmas only they need), each with a non-vacuity `example` |

The generated tables come from `tools/gen_tables.py`; `tools/check_tables.py` re-parses the Lean
files and compares them, entry by entry and in order, with the Go files. It also compares
both CP949 tables with Python's `cp949` codec and glibc's `iconv`: the same 17048 pairs. The chart in the statements,
`Spec/Cp949Chart`, is generated from Python's codec by `tools/gen_chart.py`, not from /repo; that the tables of the model agree
with it is proved (`Cp949.chart_iff`).

## 2. Modelling decisions

* A rune is `Int32`. Theorems quantify over all of `Int32`, so negative and out-of-range
  runes and the wrap-around in `Split` are covered.
* `int` is unbounded `Int`/`Nat`. The only `int` arithmetic is on jamo indices, lengths and
  capacities; overflow of lengths beyond 2^63 is outside the model.
* A Go string / `[]byte` is `List UInt8`, arbitrary bytes; UTF-8 validity is a predicate.
* A Go map literal is an association list searched for the key; absent keys give the zero value
  through an explicit `Option`.
* `error` is `Option Err`. `panic` is an explicit outcome where the code can panic
  (slice bounds in `Read` if the source returns too large an `n`).
* `for {}` in `Read` takes fuel; the theorems say how much is enough, that more never changes the
  answer, and (C45) that for some infinite source no amount is enough.
* The underlying `io.Reader` is an arbitrary state machine `σ → (buffer size) → bytes × err × σ`;
  the underlying `io.Writer` likewise. Theorems quantify over all of them.

## 3. Properties and how each is proved

* C01–C03, C05–C07: arithmetic on `Int32` reduced to `Int` by `toInt` lemmas, then `omega`; jamo
  tables by kernel evaluation over the complete (finite) table, lifted to every rune by range lemmas.
* C04: false of the code (`Tail` maps a bad rune to 0, which `Join` reads as "no tail").
  Negation with witness; `_partial` states what `Join` does for every bad `t`.
* C08–C12: complete case analysis on ranges, finite tables by kernel evaluation.
* C13: false (ㅞ → ㅜ,ㅔ and ㅔ splits again). Negation; `_partial`: true for all but ㅞ.
* C14: false (the slice handed out is the table's own). Stateful model, negation by a concrete
  history; `_partial`: induction over histories without writes through a returned slice; for all histories, the exact answer
  in terms of what the program stored last in each place (`Spec/History`, `Props/History`).
* C15, C16: by cases and finite evaluation. C17: false for ㅞ; exact `_partial`.
* C18, C20, C21: lemma "decoding `w ++ encode r` ends in `r`" for arbitrary bytes `w`.
* C19: false (`Split` is applied to any rune). Negation; `_partial` with the exact value.
* C22, C23: kernel evaluation over the whole table (sort to a list of consecutive ranges), lifted.
* C24–C27: induction over the decoded rune list, UTF-8 round-trip lemmas. C26 is false for
  invalid UTF-8; `_partial` for valid.
* C28, C29, C31, C35: binary-search correctness + sortedness of both tables + permutation
  between them, each by kernel evaluation over the whole table, then induction over the string.
* C30, C32–C34, C36: induction over the translator loop. C37, C38: false above U+FFE6 / U+FFFF;
  negations, exact `_partial` theorems.
* C39–C45: invariant on the reader state relating delivered, pending and unread bytes; induction
  on the source's remaining data. C40, C42, C44, C45 are false; negations and exact `_partial`s
  (`Props/ReaderExact`: which of the source's reads are decoded, by an invariant over a record of them).
* C79: `Spec/Stray` reads arbitrary bytes with Lean's own UTF-8 encoder; the decoding loops of the model are shown to find exactly
  this reading, by induction on it.
* C80: false; the loop with a counter, shown to be the same loop. Negation by induction on the pieces, upper bounds by an
  invariant over all calls.
* C81: induction over the reading of C79, the ranges of the code chart by kernel evaluation. C82: false; negation for all such pairs, exact
  `_partial`s by induction over the decoding.
* C83: case distinction on whether the bytes before are cut inside a character.
* C84: false; the run of C80 with the capacity looked at, upper bounds by the same induction over all calls.
* C78: the reader again over sources whose count is any integer. False; negation, the exact condition for a panic, and the
  invariant of C41 with a log from which negative counts take bytes back.
* C46, C48: induction over the list of writes. C47 false; negation, `_partial` at rune boundaries;
  `Props/Cut` gives the output for any text in any pieces, by induction on the pieces, and that it is right iff no character is cut.
* C49, C51 false; negations and exact `_partial`s. C50: direct.
* C52: bounds per unit and induction; memory-level model of slices.
* C53–C56: simulation. Each memory-level function is shown to compute on the heap what the
  contents-level function computes on lists, for every heap, every slice and every growth policy of
  `append`, and to change nothing apart from its own buffer (`Frame`). Reader and Writer: simulation
  relation, induction over call sequences between which the caller may change the rest of the heap.
* C85: `Spec/Program` gives the steps of a program that holds slices; invariant that the slices of the program, of each reader and of each
  writer share nothing, from the simulations of C53–C56; induction on the run.
* C86, C88: invariant of the Reader (that of C39), induction on what is still to be delivered. C86 is false for truncated streams.
* C87, C89: false; the calls a Writer gets from `bufio.Writer` or `io.Copy` are computed (blocks of the size of the
  buffer), and C47 says what the sink receives. Negations for classes of texts, exact `_partial`s.
* C57–C59: the layout of KS X 1001 / Unified Hangul Code is written down in `Spec/Chart` from the
  standard; the tables are compared with it completely by kernel evaluation, and lifted to `From`/`To`
  and (C58) to whole texts by induction.
* C60, C61: the hanja area and its order by reading, from the standard, against the hanja table. Both
  false; exact `_partial`s. `Lemmas/Readings` joins the two tables by kernel evaluation of a merge over
  both complete tables.
* C62, C63: unit by unit; that readings of EUC-KR hanja are in EUC-KR by kernel evaluation over the hanja
  table with a bit set of the syllables.
* C64: composition of C46 with C39 for callers that choose buffers by what they have got.
* C65: false; negation for every even buffer size not divisible by 3 (with `io.Copy`'s 32768),
  `_partial` for buffers with room for everything, and for any buffers: right iff no delivery ends within a character.
* C66–C68: false; the two `Transform` methods report more bytes than the destination holds, on which the
  loops of x/text panic, and ignore `atEOF`. Negations for whole classes of inputs and exact `_partial`s; the reader
  by an invariant and induction on the source's chunks.
* C74: false; the outcome of `transform.String` with such transformers is computed in closed form (the string cut every
  128 bytes, converted one by one into one buffer); negations for classes of texts and exact `_partial`s.
* C69: `Cp949/Step` splits a call of `From`/`To` into single memory accesses; `Spec/Conc` lets the steps of any
  number of calls and any other activity happen in any order. Invariant over all running calls (what each has still
  to do leads to its result; their buffers are pairwise apart), a measure for the number of steps.
* C90: the same for `Read`, `Write` and `Transform` (`Cp949/StepStream`, `Spec/Goroutines`): an invariant that says at each program counter how
  far the memory of the call has come on the way of `readLoop`/`Write` on contents, and how many steps its rounds can take at most; the tasks' buffers are
  pairwise apart.
* C70: the same steps with an amortised measure (a full buffer of capacity c leaves a budget that pays for
  copying it); a binary search depends on its table through at most 15 positions.
* C71: false; negation, exact `_partial`s for open and closed decomposed syllables, and when they agree.
* C72: `omega` over the integer form of `Split`. C73: false; negation, exact `_partial` for the direct call,
  `_partial` for converting first (composition of C21, C23, C27).
* C75: the names of the jamo in the Unicode Character Database (`Spec/Unicode`, generated from Python's
  `unicodedata` 14.0.0 by `tools/gen_unicode.py`, not from /repo) against the constants, their comments (`Hangul/ConstNames`)
  and the conversions; kernel evaluation over both jamo blocks, lifted to every rune.
* C76, C77: `Spec/Nfc` gives the normal form of the characters of CP949 from the same data. Induction over the decoded text;
  tables by kernel evaluation. C77 is false; negation and exact `_partial`s.
* C91–C93: what x/text documents of encoders and decoders. All three are false: negation for every text or source concerned, from C28, C30 and
  C50, and `_partial`s for the others. In C92 any recogniser of errors and any handler is allowed.
* C94: `Spec/Letters` spells texts with the letters of `SplitCompat` and `SplitMultiElement`. Such a text is a sequence of blocks
  (consonant, vowels, consonants) and other characters; the first character can be read off, by induction over the letters.
* C95: `Stroke` step by step (`Hangul/StrokeStep`), the goroutines in `Spec/HangulConc`; invariant over all interleavings. False of the
  code: negation with witness, and `_partial`s.
* C96: `Env/Scanner` over the Reader's relation; the invariant of C39 with the scanner's buffer added, induction over what the source
  still has to deliver and over the lines (`Spec/Lines`).
* C97: functions that carry line ends over and treat what is between them on its own (from C27, C33, C34, C79, C81) keep lines,
  by induction over the lines. False of `From`: negation, and `_partial`s.
* C98, C99: from C28 and the reading of a byte string from the left (`Dec`): what follows a whole part is whole. C98 is false of
  searching: negation, and `_partial`s.
* C100: the programs are in `Spec/Parser` (any state machine that treats letters, `?` and non-ASCII bytes alike; CSV as an
  instance); induction over the characters of the text, from C26, C27, C33, C34 and C81.
* C101: induction over the encoded text (`Enc`). False of the code: negation, and `_partial`s that say exactly when it holds.
* C102: the invariant of C96 with the buffer of `bufio.Reader`; a proper beginning of the UTF-8 encoding of a character is never
  "full", so that `ReadRune` waits for the rest.
* C103: a MultiReader over sources that deliver is a source that delivers (`Delivers`, induction over it), then C39; the other way
  round, a MultiReader over Readers, by the invariant of C96. False of files that end inside a character: negation, and `_partial`s;
  for two files exactly when it holds, from C105.
* C104: the invariant of C96; the blocks are in `Spec/Blocks`, which leaves no choice.
* C105: what the Readers deliver is known from C40; that decoding from inside a character never gives the same text is proved by
  induction over the rest of the stream. False as stated: negation, and an `_iff_partial`.
* C106: a transition system of the two goroutines; an invariant (what has been taken is decoded, delivered or waiting; what has
  not been taken is the rest) and a number that every step makes smaller, so that all executions end; progress by cases. That the
  pieces of `Read` and `Write` used there are those of the model is `readLoop_round` and `write_asked`.
* C107: induction over the calls that fail. False as stated: negation, and an `_iff_partial`.
* C108: C43 and C105. False as stated: negation, and an `_iff_partial`.
* C109: whether a two-byte character is open is a two-state automaton over the bytes; its state is the parity of the number of
  bytes from 0x80 at the end, by induction from the end. For the last part two families of texts, one the other with a byte before it.
* C110: what a text in any pieces reads as, character by character (as for C47, but on the level of characters), and that Convert
  keeps their number. False as stated: negation, and two `_iff_partial`.
* C111: C36 and C109. False as stated: negations; what the error and the comparison do tell is proved for all byte strings.
* C112: the arithmetic of Split on all code points (no sample), then CompatJamo's table letter by letter. False for code points
  that are no syllables: negation, and the exact set of code points for each initial.
* C113: bytes of the set are neither inside characters nor made by substitution (C99's argument for `isMeta`), so the first and
  last bytes outside the set are the same on both sides. That the conditions are needed is proved by cases.
* C114: the chart against a list of invisible ranges up to U+FFFF (Spec/Visible, written from the Unicode standard); the place of
  the pair with C109. False for three pairs: negation, and exactly when it happens.
* C115: the readings of all hanja of KS X 1001 against the positions, by kernel evaluation over both tables; then by C24, character by
  character. The law is stated by the arithmetic of syllables (Spec/InitialLaw). False as stated: negation, and exactly when it happens.
* C116: the invariant of C102; `ReadString` is the part of the model in `Env/ReadString`. The error bufio.ErrBufferFull is excluded, and
  shown to be: with it the loop never ends (C116_condition_needed).
* C117: from C98. Replacing is specified for strings of anything (Spec/Replace), and used for characters on the one side and bytes on the
  other. False as stated: negation, and the case in which all matches begin between characters, with a condition on `old` alone that is enough.
* C118, C119: the encoder in the reader of C67 and the decoder in the writer of C68, the other way round. The same invariant; what is
  delivered is the conversion of each piece on its own, which C47's theorems about cuts describe. Both false; negations for classes of
  texts and exact `_partial`s.
* C120: false; safety invariant over any run of the scanner of C96, for any stream (`Props/CutLines`): what has been handed out and what
  is in the window is what the reader has delivered. Negations: no run reports the cut; a short file is lost altogether (which
  also strengthens C42). The same for any run of the `ReadString` loop of C116 (`Props/CutParts`).
* C121: false after ㄹ; `iff` over every word and every further part, from C21's characterisation by the last consonant
  (`Props/Postpositions`).
* C122: table of the 27 last consonants by `decide`, the rest from C02 (`Props/Typing`).
* C123: false of cut streams; safety invariant over any run of io.Copy's loop with any destination, and a measure for its end
  (`Props/CopyReport`, environment model of C88).

`Validation` runs the repository's own unit tests on the model (`decide +kernel`, or the interpreter for those that search
a large table). It proves nothing about other inputs and no theorem depends on it.

There are no commands in /repo. Not modelled: the rest of golang.org/x/text (`Env/Transform*` have only the
loops named above, written from memory of the published source and not compared with it, as the package itself is not available here);
concurrency beyond C69, C90, C95 and C106 (one Reader or Writer used from several goroutines at once is a data race in Go; C69 and C90
interleave single accesses in a sequentially consistent memory, which Go guarantees for programs without data races).

## 4. Trusted base

Lean 4.33.0's kernel; the axioms `propext`, `Classical.choice`, `Quot.sound` (`AXIOMS.tsv` has, for each
theorem, which of them `#print axioms` reports; written by `tools/gen_axioms.py`); the reading of the
Go code recorded in the comments; the Go language/standard library semantics listed in
`Go/*`; for C66–C68, C74, C118 and C119 only, the reading of golang.org/x/text in `Env/Transform` and `Env/TransformString`;
for C92 only, that in `Env/Unsupported`;
for C86–C89 and C123 only, the reading of Go's `io` and `bufio` in `Env/Io`; for C96 and C120 only, that in `Env/Scanner`;
for C102–C106, C116 and C120 only, that in `Env/BufReader`, `Env/ReadString`, `Env/Multi`, `Env/ReadFull`, `Env/Limit` and `Env/Pipe`. Neither Go nor golang.org/x/text is installed here:
`Go/*` and `Env/*`, and what C91–C93 quote of the x/text documentation, are written from memory and have not been compared
with the sources. No `sorry`, no `native_decide`, no `bv_decide`, no own axioms.

## 5. What the log of wrong programs shows

`seeded/LOG.jsonl` has one line for each edit of the model. `theorems_failed` lists the theorems whose proofs no longer go
through, including those that only depend on a lemma that broke (`broken_at`). This does not by itself show that a statement is
false of the edited model: a proof can also break because its script no longer fits. The edit s12 changes nothing
observable and yet breaks all proofs of C90. `refuted_by_evaluation` lists concrete cases that evaluate to false in the edited model, and
`statement_refuted` names a theorem whose negation is proved for the edited model, without `sorry`; these proofs are in
`seeded/refutations/REFUTED.jsonl`. `evidence` says for each edit which of these was found. Runs in which the test set-up itself failed are
left out and repeated. Edits with proof failures only are weak evidence that the theorems are tight.
