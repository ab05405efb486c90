import Verif.Spec.Mem
import Verif.Lemmas.Reader
/-! The memory level computes what the level of contents does. -/
namespace Go
open Spec

theorem _root_.Spec.Apart.symm {t s : Slice} (h : Apart t s) : Apart s t := by
  unfold Apart at *
  rcases h with h | h | h | h | h
  · exact .inr (.inl h)
  · exact .inl h
  · exact .inr (.inr (.inl fun e => h e.symm))
  · exact .inr (.inr (.inr (.inr h)))
  · exact .inr (.inr (.inr (.inl h)))

theorem arr_lt {h : Heap} {a i : Nat} (hi : i < (h.arr a).length) : a < h.length := by
  rcases Nat.lt_or_ge a h.length with h1 | h1
  · exact h1
  · unfold Heap.arr at hi
    rw [List.getD_eq_getElem?_getD, List.getElem?_eq_none h1] at hi
    simp at hi

theorem arr_push_lt (h : Heap) (x : Str) {a : Nat} (ha : a < h.length) : Heap.arr (h ++ [x]) a = h.arr a := by
  unfold Heap.arr
  rw [List.getD_eq_getElem?_getD, List.getD_eq_getElem?_getD, List.getElem?_append_left ha]

theorem arr_push (h : Heap) (x : Str) : Heap.arr (h ++ [x]) h.length = x := by
  unfold Heap.arr
  rw [List.getD_eq_getElem?_getD, List.getElem?_append_right (Nat.le_refl _)]
  simp

theorem arr_write (h : Heap) (a i : Nat) (bs : Str) (b : Nat) (hb : i + bs.length ≤ (h.arr a).length) :
    (h.write a i bs).arr b = if b = a then splice (h.arr a) i bs else h.arr b := by
  unfold Heap.write
  rcases Nat.lt_or_ge a h.length with h1 | h1
  · unfold Heap.arr
    rw [List.getD_eq_getElem?_getD, List.getD_eq_getElem?_getD, List.getElem?_set]
    split
    · rename_i e; subst e; simp [h1]
    · rename_i e; rw [if_neg (fun e' => e e'.symm)]; simp
  · have h0 : h.arr a = [] := by
      unfold Heap.arr; rw [List.getD_eq_getElem?_getD, List.getElem?_eq_none h1]; rfl
    rw [h0] at hb ⊢
    have : bs = [] := List.length_eq_zero_iff.1 (by simp only [List.length_nil] at hb; omega)
    subst this
    rw [List.set_eq_of_length_le h1]
    split
    · rename_i e; subst e; rw [h0]; simp [splice]
    · rfl

theorem splice_nil (xs : Str) (i : Nat) : splice xs i [] = xs := by
  simp [splice]

theorem write_nil (h : Heap) (a i : Nat) : h.write a i [] = h := by
  unfold Heap.write
  rw [splice_nil]
  rcases Nat.lt_or_ge a h.length with h1 | h1
  · unfold Heap.arr
    rw [List.getD_eq_getElem?_getD, List.getElem?_eq_getElem h1]
    simp
  · exact List.set_eq_of_length_le h1

theorem splice_length (xs : Str) (i : Nat) (bs : Str) (h : i + bs.length ≤ xs.length) :
    (splice xs i bs).length = xs.length := by
  simp only [splice, List.length_append, List.length_take, List.length_drop]
  omega

theorem splice_getElem? (xs : Str) (i : Nat) (bs : Str) (h : i + bs.length ≤ xs.length) (j : Nat) :
    (splice xs i bs)[j]? =
      if j < i then xs[j]? else if j < i + bs.length then bs[j - i]? else xs[j]? := by
  unfold splice
  have l1 : (xs.take i).length = i := by rw [List.length_take]; omega
  rw [List.append_assoc, List.getElem?_append]
  rw [l1]
  split
  · rw [List.getElem?_take]; simp [*]
  · rw [List.getElem?_append]
    by_cases hj : j < i + bs.length
    · rw [if_pos (by omega), if_pos hj]
    · rw [if_neg (by omega), if_neg hj, List.getElem?_drop]
      congr 1
      omega

theorem read_getElem? (h : Heap) (s : Slice) (j : Nat) :
    (h.read s)[j]? = if j < s.len then (h.arr s.arr)[s.off + j]? else none := by
  unfold Heap.read
  rw [List.getElem?_take, List.getElem?_drop]

theorem read_lt (h : Heap) {s : Slice} {j : Nat} (hj : j < s.len) :
    (h.read s)[j]? = (h.arr s.arr)[s.off + j]? := by rw [read_getElem?, if_pos hj]

theorem read_ge (h : Heap) {s : Slice} {j : Nat} (hj : ¬ j < s.len) : (h.read s)[j]? = none := by
  rw [read_getElem?, if_neg hj]

theorem len_from (s : Slice) (i : Nat) : (s.from i).len = s.len - i := rfl

theorem read_length {h : Heap} {s : Slice} (w : WF h s) : (h.read s).length = s.len := by
  unfold Heap.read
  rw [List.length_take, List.length_drop]
  have := w.1
  rcases w.2 with h0 | h0 <;> omega

theorem read_empty {h : Heap} {s : Slice} (hs : s.len = 0) : h.read s = [] := by
  unfold Heap.read; rw [hs]; simp

theorem read_from (h : Heap) (s : Slice) (i : Nat) : h.read (s.from i) = (h.read s).drop i := by
  refine List.ext_getElem? fun j => ?_
  rw [List.getElem?_drop]
  have hl := len_from s i
  by_cases hj : j < s.len - i
  · rw [read_lt h (by omega), read_lt h (by omega)]
    simp only [Slice.from]
    congr 1
    omega
  · rw [read_ge h (by omega), read_ge h (by omega)]

theorem read_upTo (h : Heap) (s : Slice) (n : Nat) (hn : n ≤ s.len) :
    h.read (s.upTo n) = (h.read s).take n := by
  refine List.ext_getElem? fun j => ?_
  rw [List.getElem?_take]
  by_cases hj : j < n
  · rw [read_lt h (s := s.upTo n) hj, if_pos hj, read_lt h (by omega)]
    rfl
  · rw [read_ge h (s := s.upTo n) hj, if_neg hj]

theorem wf_from {h : Heap} {s : Slice} (w : WF h s) (i : Nat) (hi : i ≤ s.len) : WF h (s.from i) := by
  obtain ⟨w1, w2⟩ := w
  unfold WF
  simp only [Slice.from]
  refine ⟨by omega, ?_⟩
  rcases w2 with w2 | w2
  · left; omega
  · right; omega

theorem wf_upTo {h : Heap} {s : Slice} (w : WF h s) (n : Nat) (hn : n ≤ s.cap) : WF h (s.upTo n) :=
  ⟨hn, w.2⟩

theorem apart_upTo {t s : Slice} (n : Nat) (h : Apart t s) : Apart t (s.upTo n) := h

theorem apart_from {t s : Slice} (i : Nat) (h : Apart t s) : Apart (t.from i) s := by
  unfold Apart at *
  simp only [Slice.from]
  omega

theorem wf_nil (h : Heap) : WF h .nil := ⟨Nat.le_refl _, .inl rfl⟩

theorem apart_nil (t : Slice) : Apart t .nil := .inr (.inl rfl)

theorem nil_apart (t : Slice) : Apart .nil t := .inl rfl

/-- Every slice apart from `s` is well-formed and the same in both heaps, and apart from `s'`. -/
def Frame (h : Heap) (s : Slice) (h' : Heap) (s' : Slice) : Prop :=
  ∀ t, WF h t → Apart t s → WF h' t ∧ h'.read t = h.read t ∧ Apart t s'

theorem Frame.trans {h h1 h2 : Heap} {s s1 s2 : Slice} (f : Frame h s h1 s1) (g : Frame h1 s1 h2 s2) :
    Frame h s h2 s2 := by
  intro t w a
  obtain ⟨w1, r1, a1⟩ := f t w a
  obtain ⟨w2, r2, a2⟩ := g t w1 a1
  exact ⟨w2, r2.trans r1, a2⟩

theorem Frame.refl (h : Heap) (s : Slice) : Frame h s h s := fun _ w a => ⟨w, rfl, a⟩

/-- Writing within the capacity of a slice. -/
theorem write_frame {h : Heap} {s : Slice} (w : WF h s) (i : Nat) (bs : Str) (hi : i + bs.length ≤ s.cap) :
    Frame h s (h.write s.arr (s.off + i) bs) s ∧
    (∀ t : Slice, WF h t → WF (h.write s.arr (s.off + i) bs) t) ∧
    (h.write s.arr (s.off + i) bs).length = h.length := by
  have hlen : (h.write s.arr (s.off + i) bs).length = h.length := by
    unfold Heap.write; rw [List.length_set]
  by_cases hb : bs = []
  · subst hb
    rw [write_nil]
    exact ⟨Frame.refl h s, fun _ w => w, rfl⟩
  have hb' := List.length_pos_iff.2 hb
  have hs : s.off + s.cap ≤ (h.arr s.arr).length := by
    rcases w.2 with h0 | h0 <;> omega
  have harr : ∀ b, (h.write s.arr (s.off + i) bs).arr b =
      if b = s.arr then splice (h.arr s.arr) (s.off + i) bs else h.arr b :=
    fun b => arr_write h s.arr (s.off + i) bs b (by omega)
  have hwf : ∀ t : Slice, WF h t → WF (h.write s.arr (s.off + i) bs) t := by
    intro t wt
    refine ⟨wt.1, ?_⟩
    rcases wt.2 with h0 | h0
    · exact .inl h0
    · right
      rw [harr]
      split
      · rename_i e; rw [splice_length _ _ _ (by omega), ← e]; exact h0
      · exact h0
  refine ⟨?_, hwf, hlen⟩
  · intro t wt at'
    refine ⟨hwf t wt, ?_, at'⟩
    refine List.ext_getElem? fun j => ?_
    rw [read_getElem?, read_getElem?]
    split
    · rename_i hj
      have := wt.1
      rw [harr]
      split
      · rename_i e
        rw [splice_getElem? _ _ _ (by omega)]
        unfold Apart at at'
        have h1 : t.off + t.cap ≤ s.off ∨ s.off + s.cap ≤ t.off := by
          rcases at' with h | h | h | h | h
          · omega
          · omega
          · exact absurd e h
          · exact .inl h
          · exact .inr h
        rw [e]
        split
        · rfl
        · rw [if_neg (by omega)]
      · rfl
    · rfl

theorem write_read {h : Heap} {s : Slice} (w : WF h s) (i : Nat) (bs : Str) (hi : i + bs.length ≤ s.cap)
    (n : Nat) (hn : n ≤ s.cap) (j : Nat) :
    ((h.write s.arr (s.off + i) bs).read (s.upTo n))[j]? =
      if j < n then
        if j < i then (h.arr s.arr)[s.off + j]? else
        if j < i + bs.length then bs[j - i]? else (h.arr s.arr)[s.off + j]?
      else none := by
  by_cases hj : j < n
  · have hs : s.off + s.cap ≤ (h.arr s.arr).length := by
      rcases w.2 with h0 | h0 <;> omega
    rw [read_lt _ (s := s.upTo n) hj, if_pos hj]
    simp only [Slice.upTo]
    rw [arr_write _ _ _ _ _ (by omega), if_pos rfl, splice_getElem? _ _ _ (by omega)]
    by_cases h1 : j < i
    · rw [if_pos h1, if_pos (by omega)]
    · rw [if_neg h1, if_neg (by omega)]
      by_cases h2 : j < i + bs.length
      · rw [if_pos h2, if_pos (by omega)]; congr 1; omega
      · rw [if_neg h2, if_neg (by omega)]
  · rw [read_ge _ (s := s.upTo n) hj, if_neg hj]

/-- A new array. -/
theorem push_frame (h : Heap) (s : Slice) (x : Str) (n m : Nat) :
    Frame h s (h ++ [x]) ⟨h.length, 0, n, m⟩ ∧ (∀ t : Slice, WF h t → WF (h ++ [x]) t) ∧
    (∀ t : Slice, WF h t → Heap.read (h ++ [x]) t = h.read t ∧ Apart t ⟨h.length, 0, n, m⟩) := by
  have hall : ∀ t : Slice, WF h t → WF (h ++ [x]) t ∧ Heap.read (h ++ [x]) t = h.read t ∧
      Apart t ⟨h.length, 0, n, m⟩ := by
    intro t wt
    rcases wt.2 with h0 | h0
    · refine ⟨⟨wt.1, .inl h0⟩, ?_, .inl h0⟩
      have := wt.1
      rw [read_empty (by omega), read_empty (by omega)]
    · by_cases hc : t.cap = 0
      · refine ⟨⟨wt.1, .inl hc⟩, ?_, .inl hc⟩
        have := wt.1
        rw [read_empty (by omega), read_empty (by omega)]
      · have ha := arr_lt (h := h) (a := t.arr) (i := t.off) (by omega)
        have e := arr_push_lt h x ha
        refine ⟨⟨wt.1, .inr (by rw [e]; exact h0)⟩, ?_, ?_⟩
        · unfold Heap.read; rw [e]
        · right; right; left
          exact Nat.ne_of_lt ha
  exact ⟨fun t w _ => hall t w, fun t w => (hall t w).1, fun t w => (hall t w).2⟩

/-- `s'` in `h'` is `s` in `h` with `bs` behind it, and nothing apart from `s` has changed. -/
structure Ext (h : Heap) (s : Slice) (h' : Heap) (s' : Slice) (bs : Str) : Prop where
  wf : WF h' s'
  read : h'.read s' = h.read s ++ bs
  frame : Frame h s h' s'

theorem Ext.trans {h h1 h2 : Heap} {s s1 s2 : Slice} {a b : Str} (x : Ext h s h1 s1 a)
    (y : Ext h1 s1 h2 s2 b) : Ext h s h2 s2 (a ++ b) :=
  ⟨y.wf, by rw [y.read, x.read, List.append_assoc], x.frame.trans y.frame⟩

theorem Ext.refl {h : Heap} {s : Slice} (w : WF h s) : Ext h s h s [] :=
  ⟨w, by simp, Frame.refl h s⟩

/-- Writing behind the visible part of a slice. -/
theorem write_ext {h : Heap} {s : Slice} (w : WF h s) (bs : Str) (hc : s.len + bs.length ≤ s.cap) :
    Ext h s (h.write s.arr (s.off + s.len) bs) ⟨s.arr, s.off, s.len + bs.length, s.cap⟩ bs := by
  obtain ⟨hf, hwf, _⟩ := write_frame w s.len bs hc
  refine ⟨⟨hc, (hwf s w).2⟩, ?_, hf⟩
  refine List.ext_getElem? fun j => ?_
  have := write_read w s.len bs hc (s.len + bs.length) hc j
  simp only [Slice.upTo] at this
  rw [this, List.getElem?_append, read_length w, read_getElem?]
  by_cases h1 : j < s.len
  · rw [if_pos (by omega), if_pos h1, if_pos h1, if_pos h1]
  · rw [if_neg h1, if_neg h1]
    by_cases h2 : j < s.len + bs.length
    · rw [if_pos h2, if_pos h2]
    · rw [if_neg h2]
      exact (List.getElem?_eq_none (by omega)).symm

theorem appendM_ext (grow : Nat → Nat → Nat) {h : Heap} {s : Slice} (w : WF h s) (bs : Str) :
    Ext h s (appendM grow h s bs).2 (appendM grow h s bs).1 bs := by
  unfold appendM
  split
  · rename_i hc
    exact write_ext w bs hc
  · simp only
    refine ⟨⟨by simp only; omega, .inr ?_⟩, ?_, (push_frame ..).1⟩
    · rw [arr_push]
      simp only [List.length_append, List.length_replicate, read_length w]
      omega
    · unfold Heap.read
      simp only
      rw [arr_push, List.drop_zero]
      have hl : (h.read s ++ bs).length = s.len + bs.length := by
        rw [List.length_append, read_length w]
      rw [List.take_append_of_le_length (by
        have := hl; unfold Heap.read at this; omega)]
      have := hl
      unfold Heap.read at this
      rw [List.take_of_length_le (by omega)]

end Go

namespace Cp949
open Go Spec

attribute [local irreducible] fromTable toTable rawFrom rawTo

theorem ensureCapCap_lt {c n : Nat} (h : ¬ n ≤ c) : c < ensureCapCap c n :=
  Nat.lt_of_lt_of_le (by omega) (ensureCapCap_ge c n)

theorem ensureCapM_ext {h : Heap} {s : Slice} (w : WF h s) (n : Nat) :
    Ext h s (ensureCapM h s n).2 (ensureCapM h s n).1 [] ∧
    (ensureCapM h s n).1.len = s.len ∧ (ensureCapM h s n).1.cap = ensureCapCap s.cap n := by
  unfold ensureCapM
  split
  · rename_i hc
    refine ⟨Ext.refl w, rfl, ?_⟩
    unfold ensureCapCap; rw [if_pos hc]
  · rename_i hc
    simp only
    have hm := ensureCapCap_lt hc
    generalize ensureCapCap s.cap n = m at hm ⊢
    have w1 := w.1
    obtain ⟨f1, f2, f3⟩ := push_frame h s (List.replicate m 0) s.len m
    have wt : WF (h ++ [List.replicate m 0]) ⟨h.length, 0, s.len, m⟩ :=
      ⟨by simp only; omega, .inr (by rw [arr_push]; simp)⟩
    refine ⟨?_, trivial, trivial⟩
    unfold copyM
    simp only [Nat.min_self]
    rw [(f3 s w).1, List.take_of_length_le (by rw [read_length w]; omega)]
    have g := write_frame wt 0 (h.read s) (by rw [read_length w]; simp only; omega)
    simp only [Nat.add_zero] at g
    refine ⟨g.2.1 _ wt, ?_, f1.trans g.1⟩
    refine List.ext_getElem? fun j => ?_
    have := write_read wt 0 (h.read s) (by rw [read_length w]; simp only; omega) s.len (by simp only; omega) j
    simp only [Slice.upTo, Nat.add_zero, Nat.zero_add, Nat.not_lt_zero, if_false, Nat.sub_zero,
      read_length w] at this
    rw [this, List.append_nil]
    split
    · rfl
    · exact (List.getElem?_eq_none (by rw [read_length w]; omega)).symm

theorem encodeRune_length (r : Rune) : (encodeRune r).length ≤ 4 := by
  unfold encodeRune
  simp only
  split
  · simp
  · split
    · simp
    · split
      · simp
      · split <;> simp

theorem appendRuneM_ext {h : Heap} {s : Slice} (w : WF h s) (r : Rune) :
    ∃ s' h', appendRuneM h s r = some (s', h') ∧ Ext h s h' s' (encodeRune r) := by
  obtain ⟨e, hl, hc⟩ := ensureCapM_ext w (s.len + 4)
  have hr := encodeRune_length r
  unfold appendRuneM
  simp only
  generalize (ensureCapM h s (s.len + 4)).1 = s1 at *
  generalize (ensureCapM h s (s.len + 4)).2 = h1 at *
  have hge := ensureCapCap_ge s.cap (s.len + 4)
  rw [if_pos (by omega)]
  refine ⟨_, _, rfl, ?_⟩
  have := e.trans (write_ext e.wf (encodeRune r) (by omega))
  rw [List.nil_append, hl] at this
  exact this

/-! ### The translators -/

/-- A translation agrees with the one on contents. -/
structure Agrees (h : Heap) (scratch : Slice) (t : TransM) (res : Nat × Str × Option Err) : Prop where
  n : t.n = res.1
  out : t.heap.read t.out = res.2.1
  err : t.err = res.2.2
  wf : WF t.heap t.scratch
  wfo : WF t.heap t.out
  frame : Frame h scratch t.heap t.scratch
  where_ : t.out = t.scratch ∨ t.out = .nil

theorem Agrees.of_ext {h h' : Heap} {s s' : Slice} {bs : Str} {t : TransM} {res}
    (e : Ext h s h' s' bs) (a : Agrees h' s' t res) : Agrees h s t res :=
  ⟨a.n, a.out, a.err, a.wf, a.wfo, e.frame.trans a.frame, a.where_⟩

theorem byteAt_cons {h : Heap} {data : Slice} {b : Byte} {rest : Str} (e : h.read data = b :: rest) :
    byteAt h data 0 = b := by
  unfold byteAt; rw [e]; rfl

theorem read_cons {h : Heap} {s : Slice} (w : WF h s) (hl : s.len ≠ 0) :
    ∃ b rest, h.read s = b :: rest := by
  have := read_length w
  cases e : h.read s with
  | nil => rw [e] at this; simp at this; omega
  | cons b rest => exact ⟨b, rest, rfl⟩

theorem fromLoopM_spec (grow : Nat → Nat → Nat) (table : LookupTable) (fuel : Nat) :
    ∀ (h : Heap) (data scratch : Slice) (c : Nat), data.len ≤ fuel → WF h data → WF h scratch →
      Apart data scratch →
      ∃ t, fromLoopM grow table (fuel + 1) h data scratch c = some t ∧
        Agrees h scratch t (fromLoop table (h.read data) (h.read scratch) c) := by
  induction fuel with
  | zero =>
    intro h data scratch c hl _ ws _
    have hl : data.len = 0 := by omega
    rw [fromLoopM, if_pos hl, read_empty hl, fromLoop]
    exact ⟨_, rfl, rfl, rfl, rfl, ws, ws, Frame.refl h scratch, .inl rfl⟩
  | succ fuel ih =>
    intro h data scratch c hl wd ws ap
    rw [fromLoopM]
    by_cases h0 : data.len = 0
    · rw [if_pos h0, read_empty h0, fromLoop]
      exact ⟨_, rfl, rfl, rfl, rfl, ws, ws, Frame.refl h scratch, .inl rfl⟩
    · rw [if_neg h0]
      obtain ⟨b, rest, er⟩ := read_cons wd h0
      rw [byteAt_cons er]
      by_cases hb : b &&& 0x80 = 0
      · rw [if_pos hb]
        have ex := appendM_ext grow ws [b]
        simp only
        generalize (appendM grow h scratch [b]).1 = s1 at *
        generalize (appendM grow h scratch [b]).2 = h1 at *
        obtain ⟨wd1, rd1, ap1⟩ := ex.frame _ (wf_from wd 1 (by omega)) (apart_from 1 ap)
        obtain ⟨t, ht, ha⟩ := ih h1 (data.from 1) s1 (c + 1)
          (by simp only [Slice.from]; omega) wd1 ex.wf ap1
        refine ⟨t, ht, ?_⟩
        rw [er, fromLoop_ascii ((ascii_bit b).1 hb)]
        rw [rd1, read_from, er, ex.read] at ha
        exact Agrees.of_ext ex ha
      · rw [if_neg hb]
        by_cases h2 : data.len < 2
        · rw [if_pos h2]
          have hr : rest = [] := by
            have := read_length wd
            rw [er, List.length_cons] at this
            exact List.length_eq_zero_iff.1 (by omega)
          rw [er, hr, fromLoop, if_neg hb]
          exact ⟨_, rfl, rfl, read_empty rfl, rfl, ws, wf_nil h, Frame.refl h scratch, .inr rfl⟩
        · rw [if_neg h2]
          obtain ⟨b1, rest, rfl⟩ : ∃ b1 rest', rest = b1 :: rest' := by
            have := read_length wd
            rw [er, List.length_cons] at this
            cases rest with
            | nil => simp at this; omega
            | cons b1 rest => exact ⟨b1, rest, rfl⟩
          have e1 : byteAt h data 1 = b1 := by unfold byteAt; rw [er]; rfl
          rw [e1]
          simp only
          generalize hn : b.toUInt16 <<< 8 ||| b1.toUInt16 = n
          generalize hr : (if searchCp949 table n < table.length ∧
              n = (table.getD (searchCp949 table n) default).cp949 then
                Int32.ofNat (table.getD (searchCp949 table n) default).ucs2.toNat
              else RuneError) = r
          obtain ⟨s1, h1, ea, ex⟩ := appendRuneM_ext ws r
          rw [ea]
          obtain ⟨wd1, rd1, ap1⟩ := ex.frame _ (wf_from wd 2 (by omega)) (apart_from 2 ap)
          obtain ⟨t, ht, ha⟩ := ih h1 (data.from 2) s1 (c + 2)
            (by simp only [Slice.from]; omega) wd1 ex.wf ap1
          refine ⟨t, ht, ?_⟩
          rw [er, fromLoop, if_neg hb]
          rw [rd1, read_from, er, ex.read] at ha
          have hs : (if searchCp949 table n < table.length ∧
              n = (table.getD (searchCp949 table n) default).cp949 then
                appendRune (h.read scratch)
                  (Int32.ofNat (table.getD (searchCp949 table n) default).ucs2.toNat)
              else appendRune (h.read scratch) RuneError) = h.read scratch ++ encodeRune r := by
            rw [← hr]
            split <;> rfl
          simp only [hn, hs]
          exact Agrees.of_ext ex ha

theorem fromTranslateM_spec (grow : Nat → Nat → Nat) (table : LookupTable) (h : Heap)
    (scratch data : Slice) (wd : WF h data) (ws : WF h scratch) (ap : Apart data scratch) :
    ∃ t, fromTranslateM grow table h scratch data = some t ∧
      Agrees h scratch t (fromTranslate table (h.read data)) := by
  obtain ⟨t, ht, ha⟩ := fromLoopM_spec grow table data.len h data (scratch.upTo 0) 0 (Nat.le_refl _)
    wd (wf_upTo ws 0 (by omega)) ap
  rw [read_empty (s := scratch.upTo 0) rfl] at ha
  exact ⟨t, ht, ha.n, ha.out, ha.err, ha.wf, ha.wfo, ha.frame, ha.where_⟩

theorem width_pos (b : Byte) (rest : Str) : 1 ≤ (DecodeRune (b :: rest)).2 ∧
    (DecodeRune (b :: rest)).2 ≤ (b :: rest).length :=
  have h := decodeCode_valid b rest
  ⟨h.2.1, h.2.2⟩

theorem toLoopM_spec (grow : Nat → Nat → Nat) (table : LookupTable) (fuel : Nat) :
    ∀ (h : Heap) (data scratch : Slice) (c : Nat), data.len ≤ fuel → WF h data → WF h scratch →
      Apart data scratch →
      ∃ t, toLoopM grow table (fuel + 1) h data scratch c = some t ∧
        Agrees h scratch t (toLoop table fuel (h.read data) (h.read scratch) c) := by
  induction fuel with
  | zero =>
    intro h data scratch c hl _ ws _
    have hl : data.len = 0 := by omega
    rw [toLoopM, if_pos hl, read_empty hl, toLoop]
    exact ⟨_, rfl, rfl, rfl, rfl, ws, ws, Frame.refl h scratch, .inl rfl⟩
  | succ fuel ih =>
    intro h data scratch c hl wd ws ap
    rw [toLoopM]
    by_cases h0 : data.len = 0
    · rw [if_pos h0, read_empty h0, toLoop]
      exact ⟨_, rfl, rfl, rfl, rfl, ws, ws, Frame.refl h scratch, .inl rfl⟩
    · rw [if_neg h0]
      obtain ⟨b, rest, er⟩ := read_cons wd h0
      rw [byteAt_cons er]
      by_cases hb : b &&& 0x80 = 0
      · rw [if_pos hb]
        have ex := appendM_ext grow ws [b]
        simp only
        generalize (appendM grow h scratch [b]).1 = s1 at *
        generalize (appendM grow h scratch [b]).2 = h1 at *
        obtain ⟨wd1, rd1, ap1⟩ := ex.frame _ (wf_from wd 1 (by omega)) (apart_from 1 ap)
        obtain ⟨t, ht, ha⟩ := ih h1 (data.from 1) s1 (c + 1)
          (by simp only [Slice.from]; omega) wd1 ex.wf ap1
        refine ⟨t, ht, ?_⟩
        rw [er, toLoop]
        simp only
        rw [if_pos hb]
        rw [rd1, read_from, er, ex.read] at ha
        exact Agrees.of_ext ex ha
      · rw [if_neg hb]
        obtain ⟨hw1, hw2⟩ := width_pos b rest
        have hlen := read_length wd
        rw [er] at hlen
        rw [er, toLoop]
        simp only
        rw [if_neg hb]
        generalize DecodeRune (b :: rest) = d at *
        obtain ⟨r, s⟩ := d
        simp only at hw1 hw2 ⊢
        generalize hu : r.toUInt32.toUInt16 = u
        generalize hfi : searchUcs2 table u = fi
        have e1 : ∃ h1 s1 bs, (if fi ≥ table.length then appendM grow h scratch [0x3F]
            else (scratch, h)) = (s1, h1) ∧ Ext h scratch h1 s1 bs ∧
            (if fi ≥ table.length then h.read scratch ++ [0x3F] else h.read scratch) =
              h.read scratch ++ bs := by
          split
          · exact ⟨_, _, _, rfl, appendM_ext grow ws [0x3F], rfl⟩
          · exact ⟨_, _, [], rfl, Ext.refl ws, by simp⟩
        obtain ⟨h1, s1, bs1, e1, x1, r1⟩ := e1
        rw [e1, r1]
        simp only
        have e2 : ∃ h2 s2 bs, (if fi < table.length ∧ u = (table.getD fi default).ucs2 then
            appendM grow h1 s1 [((table.getD fi default).cp949 >>> 8).toUInt8,
              ((table.getD fi default).cp949 &&& 0xFF).toUInt8]
            else appendM grow h1 s1 [0x3F]) = (s2, h2) ∧ Ext h1 s1 h2 s2 bs ∧
            (if fi < table.length ∧ u = (table.getD fi default).ucs2 then
              h.read scratch ++ bs1 ++ [((table.getD fi default).cp949 >>> 8).toUInt8,
                ((table.getD fi default).cp949 &&& 0xFF).toUInt8]
            else h.read scratch ++ bs1 ++ [0x3F]) = h.read scratch ++ bs1 ++ bs := by
          split
          · exact ⟨_, _, _, rfl, appendM_ext grow x1.wf _, rfl⟩
          · exact ⟨_, _, _, rfl, appendM_ext grow x1.wf _, rfl⟩
        obtain ⟨h2, s2, bs2, e2, x2, r2⟩ := e2
        rw [e2, r2]
        simp only
        have ex := x1.trans x2
        obtain ⟨wd1, rd1, ap1⟩ := ex.frame _ (wf_from wd s (by omega)) (apart_from s ap)
        obtain ⟨t, ht, ha⟩ := ih h2 (data.from s) s2 (c + s)
          (by simp only [Slice.from]; omega) wd1 ex.wf ap1
        refine ⟨t, ht, ?_⟩
        rw [rd1, read_from, er, ex.read, ← List.append_assoc] at ha
        exact Agrees.of_ext ex ha

theorem toTranslateM_spec (grow : Nat → Nat → Nat) (table : LookupTable) (h : Heap)
    (scratch data : Slice) (wd : WF h data) (ws : WF h scratch) (ap : Apart data scratch) :
    ∃ t, toTranslateM grow table h scratch data = some t ∧
      Agrees h scratch t (toTranslate table (h.read data)) := by
  obtain ⟨t, ht, ha⟩ := toLoopM_spec grow table data.len h data (scratch.upTo 0) 0 (Nat.le_refl _)
    wd (wf_upTo ws 0 (by omega)) ap
  rw [read_empty (s := scratch.upTo 0) rfl] at ha
  refine ⟨t, ht, ?_⟩
  unfold toTranslate
  rw [read_length wd]
  exact ⟨ha.n, ha.out, ha.err, ha.wf, ha.wfo, ha.frame, ha.where_⟩

/-- `From` on the heap: the result and the error are those of `From` on the contents; every slice in
the caller's hands keeps its contents and is apart from the result. -/
theorem FromM_spec (grow : Nat → Nat → Nat) (h : Heap) (in_ : Slice) (w : WF h in_) :
    ∃ out err h', FromM grow h in_ = some (out, err, h') ∧ (h'.read out, err) = From (h.read in_) ∧
      WF h' out ∧ ∀ t, WF h t → WF h' t ∧ h'.read t = h.read t ∧ Apart t out := by
  obtain ⟨t, ht, ha⟩ := fromTranslateM_spec grow fromTable h .nil in_ w (wf_nil h) (apart_nil in_)
  unfold FromM From
  rw [ht]
  have hn := ha.n; have ho := ha.out; have he := ha.err
  generalize fromTranslate fromTable (h.read in_) = res at *
  obtain ⟨n, out, err⟩ := res
  simp only at hn ho he ⊢
  cases err with
  | some e =>
    rw [he, if_pos (by simp)]
    exact ⟨_, _, _, rfl, by rw [read_empty rfl], wf_nil _, fun t w =>
      ⟨(ha.frame t w (apart_nil t)).1, (ha.frame t w (apart_nil t)).2.1, apart_nil t⟩⟩
  | none =>
    rw [he, if_neg (by simp)]
    refine ⟨_, _, _, rfl, by rw [ho], ha.wfo, fun t w => ?_⟩
    obtain ⟨f1, f2, f3⟩ := ha.frame t w (apart_nil t)
    refine ⟨f1, f2, ?_⟩
    rcases ha.where_ with e | e
    · rw [e]; exact f3
    · rw [e]; exact apart_nil t

theorem ToM_spec (grow : Nat → Nat → Nat) (h : Heap) (in_ : Slice) (w : WF h in_) :
    ∃ out err h', ToM grow h in_ = some (out, err, h') ∧ (h'.read out, err) = To (h.read in_) ∧
      WF h' out ∧ ∀ t, WF h t → WF h' t ∧ h'.read t = h.read t ∧ Apart t out := by
  obtain ⟨t, ht, ha⟩ := toTranslateM_spec grow toTable h .nil in_ w (wf_nil h) (apart_nil in_)
  unfold ToM To
  rw [ht]
  have hn := ha.n; have ho := ha.out; have he := ha.err
  generalize toTranslate toTable (h.read in_) = res at *
  obtain ⟨n, out, err⟩ := res
  simp only at hn ho he ⊢
  cases err with
  | some e =>
    rw [he, if_pos (by simp)]
    exact ⟨_, _, _, rfl, by rw [read_empty rfl], wf_nil _, fun t w =>
      ⟨(ha.frame t w (apart_nil t)).1, (ha.frame t w (apart_nil t)).2.1, apart_nil t⟩⟩
  | none =>
    rw [he, if_neg (by simp)]
    refine ⟨_, _, _, rfl, by rw [ho], ha.wfo, fun t w => ?_⟩
    obtain ⟨f1, f2, f3⟩ := ha.frame t w (apart_nil t)
    refine ⟨f1, f2, ?_⟩
    rcases ha.where_ with e | e
    · rw [e]; exact f3
    · rw [e]; exact apart_nil t

end Cp949
