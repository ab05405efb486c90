/-
Go language and standard-library pieces used by the modelled code.
Nothing in this file is code of /repo; each definition says where /repo relies on it.
-/
namespace Go

/-- Go `byte`. -/
abbrev Byte := UInt8

/-- Go `rune` is `int32`: two's-complement wrap-around on `+`/`-`, division and remainder truncate
towards zero. Lean's `Int32` has exactly these operations. Used by every file of /repo. -/
abbrev Rune := Int32

/-- A Go `string` or the contents of a `[]byte`: arbitrary bytes, not necessarily UTF-8. -/
abbrev Str := List Byte

/-- `m[k]` on a map literal with constant keys (`v, ok := m[k]`): the first entry with the key.
Go rejects duplicate constant keys in a map literal, so the order is irrelevant.
Used for the maps in jamo.go, stroke.go (hanja/table.go has its own, see `Hanja`). -/
def mapGet {α : Type} (m : List (Rune × α)) (k : Rune) : Option α :=
  match m with
  | [] => none
  | (k', v) :: m => if k' = k then some v else mapGet m k

/-- Loop of Go's `sort.Search(n, f)` (package sort):
```
i, j := 0, n
for i < j {
    h := int(uint(i+j) >> 1)
    if !f(h) { i = h + 1 } else { j = h }
}
return i
```
`fuel` bounds the number of rounds and only serves to make the recursion structural. Used at encoding/cp949/cp949.go:50 and :85. -/
def searchLoop (f : Nat → Bool) : (fuel i j : Nat) → Nat
  | 0, i, _ => i
  | fuel + 1, i, j =>
    if i < j then
      let h := (i + j) / 2
      if f h then searchLoop f fuel i h else searchLoop f fuel (h + 1) j
    else i

/-- Go's `sort.Search(n, f)`; the interval has length `n` and shrinks in every round, so `n`
rounds of fuel are enough (`Go.searchLoop_fuel`). -/
def search (n : Nat) (f : Nat → Bool) : Nat := searchLoop f n 0 n

/-- Go's `copy(dst, src)`: the new contents of `dst` and the number of bytes copied
(`min(len(dst), len(src))`). Used at public.go:62 (`Read`), encoding.go:36,51. -/
def copy (dst src : Str) : Str × Nat :=
  (src.take dst.length ++ dst.drop src.length, min dst.length src.length)

/-- The `error` values that occur: `io.EOF`, `ErrCP949UnexpectedStream`
(encoding/cp949/err.go:10), three errors of golang.org/x/text/transform (used in `Env/Transform` only),
and any other error of a user-supplied reader or writer. -/
inductive Err where
  | eof
  | unexpectedStream
  | shortDst
  | shortSrc
  | inconsistentByteCount
  | other (code : Nat)
  deriving DecidableEq, Repr

end Go
