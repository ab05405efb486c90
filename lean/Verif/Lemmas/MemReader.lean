import Verif.Lemmas.Mem
import Verif.Lemmas.Writer
/-! The memory-level reader and writer behave like the ones on contents. -/
namespace Cp949
open Go Spec

attribute [local irreducible] fromTable toTable rawFrom rawTo

variable {σ : Type}

/-- The memory-level reader `m` in heap `h` represents `r`. -/
structure Rel (h : Heap) (m : ReaderM σ) (r : Reader σ) : Prop where
  src : m.src = r.src
  err : m.err = r.err
  cdata : h.read m.cdata = r.cdata
  rdata : h.read m.rdata = r.rdata
  cap : m.rdata.cap = r.rcap
  wfs : WF h m.scratch
  wfc : WF h m.cdata
  wfr : WF h m.rdata
  aprs : Apart m.rdata m.scratch
  apcr : Apart m.cdata m.rdata

/-- Slices that are clear of the reader keep their contents. -/
def Keeps (h : Heap) (m : ReaderM σ) (h' : Heap) (m' : ReaderM σ) : Prop :=
  ∀ t, WF h t → Clear m t → WF h' t ∧ h'.read t = h.read t ∧ Clear m' t

theorem Keeps.trans {h h1 h2 : Heap} {m m1 m2 : ReaderM σ} (f : Keeps h m h1 m1)
    (g : Keeps h1 m1 h2 m2) : Keeps h m h2 m2 := by
  intro t w a
  obtain ⟨w1, r1, a1⟩ := f t w a
  obtain ⟨w2, r2, a2⟩ := g t w1 a1
  exact ⟨w2, r2.trans r1, a2⟩

theorem rel_new (h : Heap) (s : σ) : Rel h (NewReaderM s) (NewReader s) :=
  ⟨rfl, rfl, read_empty rfl, read_empty rfl, rfl, wf_nil h, wf_nil h, wf_nil h, apart_nil _, apart_nil _⟩

theorem rel_cdata {h : Heap} {m : ReaderM σ} {r : Reader σ} (rel : Rel h m r) :
    m.cdata.len = r.cdata.length := by rw [← rel.cdata, read_length rel.wfc]

theorem rel_rdata {h : Heap} {m : ReaderM σ} {r : Reader σ} (rel : Rel h m r) :
    m.rdata.len = r.rdata.length := by rw [← rel.rdata, read_length rel.wfr]

theorem write_behind {h : Heap} {s : Slice} (w : WF h s) (bs junk : Str)
    (hc : s.len + bs.length ≤ s.cap) :
    (h.write s.arr (s.off + s.len) ((bs ++ junk).take (s.cap - s.len))).read
      (s.upTo (s.len + bs.length)) = h.read s ++ bs := by
  have hl : s.len + ((bs ++ junk).take (s.cap - s.len)).length ≤ s.cap := by
    rw [List.length_take]; omega
  have hl2 : bs.length ≤ ((bs ++ junk).take (s.cap - s.len)).length := by
    rw [List.length_take, List.length_append]; omega
  refine List.ext_getElem? fun j => ?_
  rw [write_read w s.len _ hl _ hc j, List.getElem?_append, read_length w]
  by_cases h1 : j < s.len
  · rw [if_pos (by omega), if_pos h1, if_pos h1, read_lt h h1]
  · rw [if_neg h1, if_neg h1]
    by_cases h2 : j < s.len + bs.length
    · rw [if_pos h2, if_pos (by omega), List.getElem?_take, if_pos (by omega),
        List.getElem?_append_left (by omega)]
    · rw [if_neg h2]
      exact (List.getElem?_eq_none (by omega)).symm

theorem fillM_sim (src : SourceM σ) {h : Heap} {m : ReaderM σ} {r : Reader σ} (rel : Rel h m r)
    (len : Nat) :
    (fill (plain src) r len = none ∧ fillM src h m len = none) ∨
    ∃ r' h' m', fill (plain src) r len = some r' ∧ fillM src h m len = some (h', m') ∧
      Rel h' m' r' ∧ Keeps h m h' m' := by
  obtain ⟨e, hl, hc⟩ := ensureCapM_ext rel.wfr (m.rdata.len + len)
  have hrl := rel_rdata rel
  have hge := ensureCapCap_ge m.rdata.cap (m.rdata.len + len)
  unfold fill fillM
  simp only
  rw [← rel.cap, ← hrl, ← hc]
  rw [← hc] at hge
  generalize (ensureCapM h m.rdata (m.rdata.len + len)).1 = rd at *
  generalize (ensureCapM h m.rdata (m.rdata.len + len)).2 = h1 at *
  rw [← hl, rel.src]
  obtain ⟨bs, junk, err, s, ha, hp⟩ : ∃ bs junk err s, src r.src (rd.cap - rd.len) = (bs, junk, err, s) ∧
      plain src r.src (rd.cap - rd.len) = (bs, err, s) := ⟨_, _, _, _, rfl, rfl⟩
  rw [ha, hp]
  simp only
  by_cases hb : rd.len + bs.length ≤ rd.cap
  · right
    rw [if_pos hb, if_pos hb]
    refine ⟨_, _, _, rfl, rfl, ?_⟩
    have hw : rd.len + ((bs ++ junk).take (rd.cap - rd.len)).length ≤ rd.cap := by
      rw [List.length_take]; omega
    obtain ⟨wf1, wf2, _⟩ := write_frame e.wf rd.len ((bs ++ junk).take (rd.cap - rd.len)) hw
    have fr : Frame h m.rdata (h1.write rd.arr (rd.off + rd.len) ((bs ++ junk).take (rd.cap - rd.len))) rd :=
      e.frame.trans wf1
    obtain ⟨s1, s2, s3⟩ := fr m.scratch rel.wfs rel.aprs.symm
    obtain ⟨c1, c2, c3⟩ := fr m.cdata rel.wfc rel.apcr
    refine ⟨⟨rfl, rfl, ?_, ?_, rfl, s1, c1, ?_, s3.symm, c3⟩, ?_⟩
    · simp only; rw [c2, rel.cdata]
    · simp only
      rw [write_behind e.wf bs junk hb, e.read, List.append_nil, rel.rdata]
    · exact wf_upTo (wf2 rd e.wf) _ hb
    · intro t wt ct
      obtain ⟨t1, t2, t3⟩ := fr t wt ct.2.2
      exact ⟨t1, t2, ct.1, ct.2.1, t3⟩
  · left
    rw [if_neg hb, if_neg hb]
    exact ⟨rfl, rfl⟩

theorem translate_le (data : Str) : (fromTranslate fromTable data).1 ≤ data.length := by
  rcases dec_cases data with ⟨cs, h⟩ | h
  · rw [fromTranslate_dec h]; exact Nat.le_refl _
  · rw [fromTranslate_truncated h]; exact Nat.zero_le _

theorem convertM_sim (grow : Nat → Nat → Nat) {h : Heap} {m : ReaderM σ} {r : Reader σ}
    (rel : Rel h m r) :
    ∃ h' m', convertM grow h m = some (h', m') ∧ Rel h' m' (convert r) ∧ Keeps h m h' m' := by
  obtain ⟨t, ht, ha⟩ := fromTranslateM_spec grow fromTable h m.scratch m.rdata rel.wfr rel.wfs rel.aprs
  have hrl := rel_rdata rel
  have hle := translate_le r.rdata
  unfold convertM convert
  rw [ht]
  rw [rel.rdata] at ha
  have hn := ha.n; have ho := ha.out; have he := ha.err
  generalize fromTranslate fromTable r.rdata = res at *
  obtain ⟨n, out, err⟩ := res
  simp only at hn ho he hle ⊢
  rw [hn, rel.err, hrl]
  have hnc : (if n = 0 ∧ r.err ≠ none then r.rdata.length else n) ≤ r.rdata.length := by
    split <;> omega
  generalize (if n = 0 ∧ r.err ≠ none then r.rdata.length else n) = nc at *
  obtain ⟨r1, r2, r3⟩ := ha.frame m.rdata rel.wfr rel.aprs
  have hmin : min m.rdata.len (m.rdata.from nc).len = r.rdata.length - nc := by
    rw [len_from]; omega
  have hsrc : (t.heap.read (m.rdata.from nc)).take (r.rdata.length - nc) = r.rdata.drop nc := by
    rw [read_from, r2, rel.rdata, List.take_of_length_le]
    rw [List.length_drop]; omega
  unfold copyM
  simp only [hmin, hsrc]
  refine ⟨_, _, rfl, ?_⟩
  have hcap := rel.wfr.1
  have hwl : 0 + (r.rdata.drop nc).length ≤ m.rdata.cap := by rw [List.length_drop]; omega
  obtain ⟨f1, f2, _⟩ := write_frame r1 0 (r.rdata.drop nc) hwl
  rw [Nat.add_zero] at f1 f2
  have apo : Apart t.out m.rdata := by
    rcases ha.where_ with e | e
    · rw [e]; exact r3.symm
    · rw [e]; exact nil_apart _
  obtain ⟨o1, o2, _⟩ := f1 t.out ha.wfo apo
  refine ⟨⟨rel.src, rfl, ?_, ?_, rel.cap, f2 _ ha.wf, o1, ?_, r3, apo⟩, ?_⟩
  · simp only; rw [o2, ho]
  · simp only
    refine List.ext_getElem? fun j => ?_
    have := write_read r1 0 (r.rdata.drop nc) hwl (r.rdata.length - nc) (by omega) j
    rw [Nat.add_zero] at this
    rw [this]
    by_cases hj : j < r.rdata.length - nc
    · rw [if_pos hj, if_neg (by omega), if_pos (by rw [List.length_drop]; omega), Nat.sub_zero]
    · rw [if_neg hj]
      exact (List.getElem?_eq_none (by rw [List.length_drop]; omega)).symm
  · exact wf_upTo (f2 _ r1) _ (by omega)
  · intro x wx cx
    obtain ⟨x1, x2, x3⟩ := ha.frame x wx cx.1
    obtain ⟨y1, y2, _⟩ := f1 x x1 cx.2.2
    refine ⟨y1, y2.trans x2, x3, ?_, cx.2.2⟩
    rcases ha.where_ with e | e
    · simp only [e]; exact x3
    · simp only [e]; exact apart_nil _

theorem wf_clip {h : Heap} {s : Slice} (w : WF h s) : WF h (clip s) := by
  refine ⟨Nat.le_refl _, ?_⟩
  have := w.1
  simp only [clip]
  rcases w.2 with h0 | h0
  · left; omega
  · right; omega

/-- Copying decoded bytes to the caller's buffer. -/
theorem copyM_buf {h : Heap} {buf c : Slice} (wb : WF h (clip buf)) (wc : WF h c) :
    (copyM h buf c).1 = (copy (h.read buf) (h.read c)).2 ∧
    (copyM h buf c).2.read buf = (copy (h.read buf) (h.read c)).1 ∧
    (∀ t, WF h t → WF (copyM h buf c).2 t) ∧
    (∀ t, WF h t → Apart t (clip buf) → (copyM h buf c).2.read t = h.read t) := by
  unfold copyM copy
  have hbl : (h.read buf).length = buf.len := read_length (s := clip buf) wb
  simp only [hbl, read_length wc]
  have hl : ((h.read c).take (min buf.len c.len)).length = min buf.len c.len := by
    rw [List.length_take, read_length wc]; omega
  have wcl := wb
  obtain ⟨f1, f2, _⟩ := write_frame wcl 0 ((h.read c).take (min buf.len c.len))
    (by rw [hl]; simp only [clip]; omega)
  rw [Nat.add_zero] at f1 f2
  refine ⟨by trivial, ?_, f2, fun t w a => (f1 t w a).2.1⟩
  refine List.ext_getElem? fun j => ?_
  have := write_read wcl 0 ((h.read c).take (min buf.len c.len))
    (by rw [hl]; simp only [clip]; omega) buf.len (by simp only [clip]; omega) j
  rw [Nat.add_zero, hl] at this
  have e : h.write (clip buf).arr (clip buf).off ((h.read c).take (min buf.len c.len)) =
    h.write buf.arr buf.off ((h.read c).take (min buf.len c.len)) := rfl
  rw [e] at this
  have e2 : ∀ h' : Heap, h'.read ((clip buf).upTo buf.len) = h'.read buf := fun h' => rfl
  rw [e2] at this
  rw [this, List.getElem?_append, List.length_take, read_length wc]
  by_cases h1 : j < buf.len
  · rw [if_pos h1, if_neg (by omega)]
    by_cases h2 : j < min buf.len c.len
    · rw [if_pos (by omega), if_pos (by omega), Nat.sub_zero, List.getElem?_take, List.getElem?_take,
        if_pos h2, if_pos (by omega)]
    · rw [if_neg (by omega), if_neg (by omega), List.getElem?_drop, read_lt h (by omega)]
      simp only [clip]
      congr 1
      omega
  · rw [if_neg h1, if_neg (by omega), List.getElem?_drop, read_ge h (by omega)]

/-- One call of `Read`. -/
theorem readLoopM_sim (grow : Nat → Nat → Nat) (src : SourceM σ) (fuel : Nat) :
    ∀ {h : Heap} {m : ReaderM σ} {r : Reader σ} {buf : Slice}, Rel h m r → WF h (clip buf) →
      Clear m (clip buf) →
      match readLoop (plain src) fuel r (h.read buf) with
      | .ret n err buf' r' => ∃ h' m', readLoopM grow src fuel h m buf = .ret n err h' m' ∧
          h'.read buf = buf' ∧ Rel h' m' r' ∧ Clear m' (clip buf) ∧
          ∀ t, WF h t → Clear m t → WF h' t ∧ Clear m' t ∧ (Apart t (clip buf) → h'.read t = h.read t)
      | .panic => readLoopM grow src fuel h m buf = .panic
      | .running => readLoopM grow src fuel h m buf = .running := by
  induction fuel with
  | zero => intro h m r buf _ _ _; rfl
  | succ fuel ih =>
    intro h m r buf rel wb cb
    have hbl : (h.read buf).length = buf.len := read_length (s := clip buf) wb
    have again : ∀ {h1 : Heap} {m1 : ReaderM σ} {r1 : Reader σ}, Rel h1 m1 r1 → Keeps h m h1 m1 →
        match readLoop (plain src) fuel r1 (h.read buf) with
        | .ret n err buf' r' => ∃ h' m', readLoopM grow src fuel h1 m1 buf = .ret n err h' m' ∧
            h'.read buf = buf' ∧ Rel h' m' r' ∧ Clear m' (clip buf) ∧
            ∀ t, WF h t → Clear m t → WF h' t ∧ Clear m' t ∧
              (Apart t (clip buf) → h'.read t = h.read t)
        | .panic => readLoopM grow src fuel h1 m1 buf = .panic
        | .running => readLoopM grow src fuel h1 m1 buf = .running := by
      intro h1 m1 r1 rel1 k1
      obtain ⟨b1, b2, b3⟩ := k1 (clip buf) wb cb
      have b2 : h1.read buf = h.read buf := b2
      have := ih rel1 b1 b3
      rw [b2] at this
      cases hr : readLoop (plain src) fuel r1 (h.read buf) with
      | ret n err buf' r' =>
        rw [hr] at this
        obtain ⟨h', m', g1, g2, g3, g4, g5⟩ := this
        refine ⟨h', m', g1, g2, g3, g4, fun t wt ct => ?_⟩
        obtain ⟨t1, t2, t3⟩ := k1 t wt ct
        obtain ⟨u1, u2, u3⟩ := g5 t t1 t3
        exact ⟨u1, u2, fun a => (u3 a).trans t2⟩
      | panic => rw [hr] at this; exact this
      | running => rw [hr] at this; exact this
    rw [readLoop, readLoopM]
    rw [← rel_cdata rel]
    by_cases hc : m.cdata.len > 0
    · rw [if_pos hc, if_pos hc, ← rel.cdata]
      obtain ⟨c1, c2, c3, c4⟩ := copyM_buf wb rel.wfc
      simp only
      have hn : (copyM h buf m.cdata).1 ≤ m.cdata.len := by unfold copyM; simp only; omega
      refine ⟨(copyM h buf m.cdata).2, { m with cdata := m.cdata.from (copyM h buf m.cdata).1 },
        by rw [c1], c2, ?_, ?_, ?_⟩
      · refine ⟨rel.src, rel.err, ?_, ?_, rel.cap, c3 _ rel.wfs, wf_from (c3 _ rel.wfc) _ hn,
          c3 _ rel.wfr, rel.aprs, apart_from _ rel.apcr⟩
        · simp only
          rw [read_from, c4 _ rel.wfc cb.2.1.symm, c1]
        · simp only
          rw [c4 _ rel.wfr cb.2.2.symm, rel.rdata]
      · exact ⟨cb.1, (apart_from _ cb.2.1.symm).symm, cb.2.2⟩
      · intro t wt ct
        exact ⟨c3 t wt, ⟨ct.1, (apart_from _ ct.2.1.symm).symm, ct.2.2⟩, c4 t wt⟩
    · rw [if_neg hc, if_neg hc, ← rel.err]
      by_cases he : m.err = none
      · rw [if_pos he, if_pos he, hbl]
        rcases fillM_sim src rel buf.len with ⟨f1, f2⟩ | ⟨r1, h1, m1, f1, f2, rel1, k1⟩
        · rw [f1, f2]
        · rw [f1, f2]
          obtain ⟨h2, m2, g1, rel2, k2⟩ := convertM_sim grow rel1
          simp only
          rw [g1]
          exact again rel2 (k1.trans k2)
      · rw [if_neg he, if_neg he, ← rel_rdata rel]
        by_cases hr : m.rdata.len = 0
        · rw [if_pos hr, if_pos hr]
          exact ⟨h, m, rfl, rfl, rel, cb, fun t wt ct => ⟨wt, ct, fun _ => rfl⟩⟩
        · rw [if_neg hr, if_neg hr]
          obtain ⟨h2, m2, g1, rel2, k2⟩ := convertM_sim grow rel
          rw [g1]
          exact again rel2 k2

end Cp949

namespace Cp949
open Go Spec

attribute [local irreducible] fromTable toTable rawFrom rawTo

variable {σ τ : Type}

theorem rel_leaves {h h1 : Heap} {m : ReaderM σ} {r : Reader σ} (rel : Rel h m r) (l : Leaves m h h1) :
    Rel h1 m r :=
  ⟨rel.src, rel.err, l.2.1.2.trans rel.cdata, l.2.2.2.trans rel.rdata, rel.cap, l.1.1, l.2.1.1, l.2.2.1,
    rel.aprs, rel.apcr⟩

theorem readsM_sim {grow : Nat → Nat → Nat} {src : SourceM σ} {h h' : Heap} {m m' : ReaderM σ}
    {bufs : List Str} {res : List Result} (hr : ReadsM grow src h m bufs res h' m') :
    ∀ {r : Reader σ}, Rel h m r → ∃ r', Reads (plain src) r bufs res r' ∧ Rel h' m' r' := by
  induction hr with
  | nil h m => intro r rel; exact ⟨r, .nil r, rel⟩
  | @cons h m h1 buf fuel n err h2 m2 bufs res h3 m3 l wb cb hm _ ih =>
    intro r rel
    have s := readLoopM_sim grow src fuel (rel_leaves rel l) wb cb
    cases hq : readLoop (plain src) fuel r (h1.read buf) with
    | ret n' err' buf' r1 =>
      rw [hq] at s
      obtain ⟨h2', m2', s1, s2, s3, _⟩ := s
      rw [hm] at s1
      simp only [ReadOutM.ret.injEq] at s1
      obtain ⟨rfl, rfl, rfl, rfl⟩ := s1
      subst s2
      obtain ⟨r', g1, g2⟩ := ih s3
      exact ⟨r', .cons ⟨fuel, hq⟩ g1, g2⟩
    | panic => rw [hq] at s; simp only at s; rw [hm] at s; simp at s
    | running => rw [hq] at s; simp only at s; rw [hm] at s; simp at s

/-! ### The writer -/

/-- The writer's own buffers are in order, and nothing is held back. -/
def RelW (h : Heap) (m : WriterM τ) : Prop := m.buf.len = 0 ∧ WF h m.scratch ∧ WF h m.buf ∧
  m.buf.cap = 0

theorem relW_new (h : Heap) (t : τ) : RelW h (NewWriterM t) := ⟨rfl, wf_nil h, wf_nil h, rfl⟩

theorem WriteM_spec (grow : Nat → Nat → Nat) (sink : Sink τ) {h : Heap} {m : WriterM τ} {data : Slice}
    (rel : RelW h m) (wd : WF h data) (ap : Apart data m.scratch) :
    ∃ n err h' m', WriteM grow sink h m data = some (n, err, h', m') ∧
      Write sink ⟨m.sink, []⟩ (h.read data) = (n, err, ⟨m'.sink, []⟩) ∧ RelW h' m' ∧
      Frame h m.scratch h' m'.scratch := by
  obtain ⟨hb, ws, wb, cb⟩ := rel
  obtain ⟨t, ht, ha⟩ := toTranslateM_spec grow toTable h m.scratch data wd ws ap
  have hlen := read_length wd
  have hn := ha.n; have ho := ha.out; have he := ha.err
  rw [toTranslate_eq] at hn ho he
  simp only at hn ho he
  unfold WriteM Write
  simp only [hb, Nat.lt_irrefl, gt_iff_lt, if_false, List.length_nil]
  rw [ht, toTranslate_eq]
  simp only [ho, hn]
  have relw : ∀ s : τ, RelW t.heap ⟨s, t.scratch, m.buf⟩ := fun s => ⟨hb, ha.wf, ⟨wb.1, .inl cb⟩, cb⟩
  by_cases h0 : 0 < (h.read data).length
  · simp only [if_pos h0]
    generalize sink m.sink ((runes (h.read data)).flatMap toUnit) = ans
    obtain ⟨k, err, s⟩ := ans
    simp only
    by_cases hq : err = none
    · subst hq
      simp only [ne_eq, not_true_eq_false, if_false, hlen, Nat.lt_irrefl]
      exact ⟨_, _, _, _, rfl, rfl, ⟨rfl, ha.wf, ⟨Nat.zero_le _, .inl cb⟩, cb⟩, ha.frame⟩
    · simp only [ne_eq, hq, not_false_eq_true, if_true]
      exact ⟨_, _, _, _, rfl, rfl, relw s, ha.frame⟩
  · have hd : data.len = 0 := by omega
    have hl0 : (h.read data).length = 0 := by omega
    simp only [ne_eq, if_false, hlen, Nat.lt_irrefl]
    refine ⟨data.len, none, t.heap, ⟨m.sink, t.scratch, m.buf.upTo 0⟩, ?_, ?_,
      ⟨rfl, ha.wf, ⟨Nat.zero_le _, .inl cb⟩, cb⟩, ha.frame⟩
    · simp [hd]
    · simp [hd]

theorem writesM_sim {grow : Nat → Nat → Nat} {sink : Sink τ} {h h' : Heap} {m m' : WriterM τ}
    {ds : List Str} {res} (hw : WritesM grow sink h m ds res h' m') :
    RelW h m → Writes sink ⟨m.sink, []⟩ ds res ⟨m'.sink, []⟩ ∧ RelW h' m' := by
  induction hw with
  | nil h m => intro rel; exact ⟨.nil _, rel⟩
  | @cons h m h1 data n err h2 m2 ds res h3 m3 l1 l2 wd ap hm _ ih =>
    intro rel
    obtain ⟨n', err', h', m', g1, g2, g3, _⟩ :=
      WriteM_spec grow sink (h := h1) ⟨rel.1, l1.1, l2.1, rel.2.2.2⟩ wd ap
    rw [hm] at g1
    simp only [Option.some.injEq, Prod.mk.injEq] at g1
    obtain ⟨rfl, rfl, rfl, rfl⟩ := g1
    obtain ⟨i1, i2⟩ := ih g3
    exact ⟨.cons g2 i1, i2⟩

/-- The old slice still holds its contents after `appendRune`. -/
theorem appendRuneM_old {h : Heap} {s s' : Slice} {h' : Heap} {r : Rune} (w : WF h s)
    (ha : appendRuneM h s r = some (s', h')) : Same h h' s := by
  have hr := encodeRune_length r
  have w1 := w.1
  unfold appendRuneM ensureCapM at ha
  simp only at ha
  by_cases hc : s.len + 4 ≤ s.cap
  · rw [if_pos hc] at ha
    simp only [hc, if_true, Option.some.injEq, Prod.mk.injEq] at ha
    obtain ⟨_, rfl⟩ := ha
    obtain ⟨f, g, _⟩ := write_frame (wf_from w s.len (Nat.le_refl _)) 0 (encodeRune r)
      (by simp only [Slice.from]; omega)
    refine ⟨g s w, (f (clip s) (wf_clip w) ?_).2.1⟩
    unfold Apart
    simp only [clip, Slice.from]
    omega
  · have hm := ensureCapCap_lt hc
    have hge := ensureCapCap_ge s.cap (s.len + 4)
    rw [if_neg hc] at ha
    simp only at ha
    generalize ensureCapCap s.cap (s.len + 4) = m at hm hge ha
    rw [if_pos hge] at ha
    simp only [Option.some.injEq, Prod.mk.injEq] at ha
    obtain ⟨_, rfl⟩ := ha
    obtain ⟨f1, f2, f3⟩ := push_frame h s (List.replicate m 0) s.len m
    have wt : WF (h ++ [List.replicate m 0]) ⟨h.length, 0, s.len, m⟩ :=
      ⟨by simp only; omega, .inr (by rw [arr_push]; simp)⟩
    unfold copyM
    simp only
    have g := write_frame wt 0 (List.take (min s.len s.len) (Heap.read (h ++ [List.replicate m 0]) s))
      (by rw [List.length_take]; simp only; omega)
    simp only [Nat.add_zero] at g
    have k := write_frame (g.2.1 _ wt) s.len (encodeRune r) (by simp only; omega)
    obtain ⟨a1, a2, a3⟩ := g.1 s (f2 s w) (f3 s w).2
    obtain ⟨b1, b2, _⟩ := k.1 s a1 a3
    exact ⟨b1, b2.trans (a2.trans (f3 s w).1)⟩

theorem growLoop_fuel (fuel k m n : Nat) (hm : 0 < m) (h : n ≤ fuel + m) (hf : 0 < fuel) :
    growLoop (fuel + k) m n = growLoop fuel m n := by
  induction fuel generalizing m with
  | zero => omega
  | succ fuel ih =>
    rw [show fuel + 1 + k = (fuel + k) + 1 by omega]
    simp only [growLoop]
    have hm' : m + 1 ≤ (if m < 1024 then m + m else m + m / 4) := by split <;> omega
    generalize (if m < 1024 then m + m else m + m / 4) = m' at *
    split
    · rfl
    · exact ih m' (by omega) (by omega) (by omega)

end Cp949
