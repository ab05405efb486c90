import Verif.Go.Basic
/-!
Go byte slices at the level of backing arrays. Language semantics, not code of /repo.
-/
namespace Go

/-- The byte arrays allocated so far; an array is named by its index. Nothing is ever freed. -/
abbrev Heap := List Str

/-- A `[]byte`: `cap` bytes of array `arr` from `off` on, of which the first `len` are visible. -/
structure Slice where
  arr : Nat
  off : Nat
  len : Nat
  cap : Nat
  deriving DecidableEq

/-- The nil slice. (`arr` is irrelevant as there is no capacity.) -/
def Slice.nil : Slice := ⟨0, 0, 0, 0⟩

/-- Contents of an array. -/
def Heap.arr (h : Heap) (a : Nat) : Str := h.getD a []

/-- Contents of a slice. -/
def Heap.read (h : Heap) (s : Slice) : Str := ((h.arr s.arr).drop s.off).take s.len

/-- `bs` written over `xs` from index `i` on. -/
def splice (xs : Str) (i : Nat) (bs : Str) : Str := xs.take i ++ bs ++ xs.drop (i + bs.length)

/-- Store `bs` in array `a` from index `i` on. -/
def Heap.write (h : Heap) (a i : Nat) (bs : Str) : Heap := h.set a (splice (h.arr a) i bs)

/-- `s[i:]`, for `i ≤ len(s)`. -/
def Slice.from (s : Slice) (i : Nat) : Slice := ⟨s.arr, s.off + i, s.len - i, s.cap - i⟩

/-- `s[0:n]`, for `n ≤ cap(s)`. -/
def Slice.upTo (s : Slice) (n : Nat) : Slice := { s with len := n }

/-- `append(s, bs...)`: in place if the capacity suffices, otherwise in a new array. How much larger the
new array is than necessary is up to the run-time: `grow` is arbitrary. -/
def appendM (grow : Nat → Nat → Nat) (h : Heap) (s : Slice) (bs : Str) : Slice × Heap :=
  if s.len + bs.length ≤ s.cap then
    (⟨s.arr, s.off, s.len + bs.length, s.cap⟩, h.write s.arr (s.off + s.len) bs)
  else
    let spare := grow s.cap (s.len + bs.length)
    (⟨h.length, 0, s.len + bs.length, s.len + bs.length + spare⟩,
      h ++ [h.read s ++ bs ++ List.replicate spare 0])

/-- `copy(dst, src)` on slices; the source is read before anything is written (`memmove`). -/
def copyM (h : Heap) (dst src : Slice) : Nat × Heap :=
  let n := min dst.len src.len
  (n, h.write dst.arr dst.off ((h.read src).take n))

end Go
