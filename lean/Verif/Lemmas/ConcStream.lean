import Verif.Spec.Goroutines
import Verif.Lemmas.Conc
import Verif.Lemmas.MemReader
/-! Lemmas about single steps of `Read` and `Write`. -/
namespace Cp949
open Go Spec

attribute [local irreducible] fromTable toTable rawFrom rawTo

variable {σ τ : Type}

/-! ### Writing one byte -/

theorem read_set {h : Heap} {s : Slice} (w : WF h s) {i : Nat} (hi : i < s.len) (b : Byte) :
    (h.write s.arr (s.off + i) [b]).read s = (h.read s).set i b := by
  have w1 := w.1
  refine List.ext_getElem? fun j => ?_
  have := write_read w i [b] (by simp; omega) s.len w.1 j
  rw [show s.upTo s.len = s from rfl] at this
  rw [this, List.getElem?_set, read_length w, read_getElem?]
  by_cases hj : j < s.len
  · rw [if_pos hj, if_pos hj]
    by_cases h1 : j < i
    · rw [if_pos h1, if_neg (by omega)]
    · rw [if_neg h1]
      by_cases h2 : j = i
      · subst h2
        rw [if_pos (by simp), if_pos rfl, if_pos hj]
        simp
      · rw [if_neg (by simp; omega), if_neg (by omega)]
  · rw [if_neg hj, if_neg hj, if_neg (by omega)]

theorem set_progress {l old : Str} {i : Nat} (hl : i < l.length) (ho : i < old.length) :
    (l.take i ++ old.drop i).set i (l.getD i 0) = l.take (i + 1) ++ old.drop (i + 1) := by
  rw [List.set_append_right _ _ (by rw [List.length_take]; omega), List.length_take, Nat.min_eq_left (by omega), Nat.sub_self,
    List.drop_eq_getElem_cons ho, List.set_cons_zero, List.take_succ_eq_append_getElem hl, List.append_assoc,
    List.getD_eq_getElem?_getD, List.getElem?_eq_getElem hl]
  rfl

/-- A slice that is apart from the one written to. -/
theorem byte_frame {h : Heap} {s : Slice} (w : WF h s) {i : Nat} (hi : i < s.cap) (b : Byte) :
    (∀ t, WF h t → WF (h.write s.arr (s.off + i) [b]) t) ∧
    ∀ t, WF h t → Apart t s → (h.write s.arr (s.off + i) [b]).read t = h.read t := by
  obtain ⟨f, g, _⟩ := write_frame w i [b] (by simp; omega)
  exact ⟨g, fun t wt a => (f t wt a).2.1⟩

theorem same_of_full {h h' : Heap} {s : Slice} (w : WF h s) (e : Same h h' (full s)) : Same h h' s := by
  refine ⟨wf_of_full w.1 e.1, ?_⟩
  have e1 := read_full (h := h') s w.1
  have e2 := read_full (h := h) s w.1
  rw [show s.upTo s.len = s from rfl] at e1 e2
  rw [e1, e2, e.2]

theorem same_upTo {h h' : Heap} {s : Slice} (e : Same h h' (full s)) {n : Nat} (hn : n ≤ s.cap) :
    h'.read (s.upTo n) = h.read (s.upTo n) := by
  rw [read_full s hn, read_full s hn, e.2]

theorem wf_from_any {h : Heap} {s : Slice} (w : WF h s) (k : Nat) : WF h (s.from k) := by
  obtain ⟨w1, w2⟩ := w
  unfold WF
  simp only [Slice.from]
  omega

theorem same_from {h h' : Heap} {s : Slice} (e : Same h h' s) (k : Nat) : Same h h' (s.from k) :=
  ⟨wf_from_any e.1 k, by rw [read_from, read_from, e.2]⟩

theorem from_from (s : Slice) (i j : Nat) : (s.from i).from j = s.from (i + j) := by
  simp only [Slice.from, Slice.mk.injEq]
  refine ⟨trivial, ?_, ?_, ?_⟩ <;> omega

/-! ### Where a call of `Read` stands -/

/-- The most steps the rounds of a call of `Read` can take, for so many rounds. -/
def work (src : Source σ) (b0 : Str) : Nat → Reader σ → Nat
  | 0, _ => 0
  | f + 1, r =>
    if r.cdata.length > 0 then b0.length + 2
    else if r.err = none then
      match fill src r b0.length with
      | none => r.rdata.length + 4
      | some r' => r.rdata.length + ensureCapCap r.rcap (r.rdata.length + b0.length) + maxSteps r'.rdata.length +
          r'.rdata.length + 6 + work src b0 f (convert r')
    else if r.rdata.length = 0 then 1
    else maxSteps r.rdata.length + r.rdata.length + 3 + work src b0 f (convert r)

/-- Going on from `a` leads to what the whole call is to do, and there are `n` steps of the whole before that. -/
def Leads (src : Source σ) (r0 : Reader σ) (b0 : Str) (a : Reader σ) (n : Nat) : Prop :=
  ∃ j, ∀ f, readLoop src (f + j) r0 b0 = readLoop src f a b0 ∧ n + work src b0 f a ≤ work src b0 (f + j) r0

/-- `c` is translating `rdata`. -/
structure TransOk (h : Heap) (c : Call) (d : Dir) (data : Slice) (input : Str) : Prop where
  dir : c.dir = d
  good : Good h c input ∨ Returned h c input
  part : ∃ k, c.data = data.from k
  ap : ∀ b ∈ bufs c, Apart data b

/-- A call of `Read` on a reader that was in state `r0`, with a buffer that held `b0`, is on its way and has taken `n`
steps. -/
def RdRun (src : SourceM σ) (h : Heap) (p : RdState σ) (n : Nat) (r0 : Reader σ) (b0 : Str) : Prop :=
  WF h (clip p.buf) ∧ Clear p.m (clip p.buf) ∧ p.buf.len = b0.length ∧
  match p.pc with
  | .top => ∃ a, Leads (plain src) r0 b0 a n ∧ Rel h p.m a ∧ h.read p.buf = b0
  | .grow t i => ∃ a s, Leads (plain src) r0 b0 a s ∧ n ≤ s + 1 + i ∧ Rel h p.m a ∧ h.read p.buf = b0 ∧ a.cdata = [] ∧ a.err = none ∧
      WF h t ∧ t.len = p.m.rdata.len ∧ t.cap = ensureCapCap a.rcap (a.rdata.length + b0.length) ∧
      Apart p.m.scratch t ∧ Apart p.m.cdata t ∧ Apart p.m.rdata t ∧ Apart (clip p.buf) t ∧ i ≤ p.m.rdata.len ∧
      (h.read t).take i = (h.read p.m.rdata).take i
  | .fetch => ∃ a s, Leads (plain src) r0 b0 a s ∧ n ≤ s + a.rdata.length + 2 ∧ Rel h p.m a ∧ h.read p.buf = b0 ∧ a.cdata = [] ∧
      a.err = none ∧ p.m.rdata.len + p.buf.len ≤ p.m.rdata.cap
  | .fill bs k err i => ∃ a s, Leads (plain src) r0 b0 (convert { a with rdata := a.rdata ++ bs.take k, err := err }) s ∧
      n + (bs.length - i) + maxSteps (a.rdata.length + k) + (a.rdata.length + k) + 3 ≤ s ∧
      Rel h p.m a ∧ h.read p.buf = b0 ∧ a.cdata = [] ∧ k ≤ bs.length ∧ p.m.rdata.len + bs.length ≤ p.m.rdata.cap ∧
      i ≤ bs.length ∧ h.read (p.m.rdata.upTo (p.m.rdata.len + i)) = a.rdata ++ bs.take i
  | .trans c => ∃ a s, Leads (plain src) r0 b0 (convert a) s ∧ n + left a.rdata.length c + a.rdata.length + 2 ≤ s ∧
      Rel h p.m a ∧ h.read p.buf = b0 ∧ a.cdata = [] ∧
      TransOk h c .from_ p.m.rdata a.rdata ∧ ∀ b ∈ bufs c, Apart (clip p.buf) b
  | .compact nc i => ∃ (a : Reader σ) (old : Str) (s : Nat), Leads (plain src) r0 b0 a s ∧ n + (old.length - nc - i) + 1 ≤ s ∧
      a.rdata = old.drop nc ∧ nc ≤ old.length ∧
      i ≤ old.length - nc ∧ Rel h p.m { a with rdata := (old.drop nc).take i ++ old.drop i } ∧ h.read p.buf = b0
  | .deliver k i => ∃ a s, Leads (plain src) r0 b0 a s ∧ n ≤ s + 1 + i ∧ Rel h p.m a ∧ 0 < a.cdata.length ∧
      k = min b0.length a.cdata.length ∧ i ≤ k ∧ h.read p.buf = a.cdata.take i ++ b0.drop i
  | _ => False

/-- What a step may do: nothing to slices apart from the memory of the task. -/
def OwnFrame (h : Heap) (own : List Slice) (h' : Heap) (own' : List Slice) : Prop :=
  ∀ t, WF h t → (∀ b ∈ own, Apart t b) → WF h' t ∧ h'.read t = h.read t ∧ ∀ b ∈ own', Apart t b

theorem ownFrame_same {h : Heap} {own own' : List Slice} (hs : ∀ t, (∀ b ∈ own, Apart t b) → ∀ b ∈ own', Apart t b) :
    OwnFrame h own h own' := fun t w a => ⟨w, rfl, hs t a⟩

theorem ownFrame_byte {h : Heap} {s : Slice} {own own' : List Slice} (w : WF h s) (hm : s ∈ own) {i : Nat} (hi : i < s.cap)
    (b : Byte) (hs : ∀ t, (∀ b ∈ own, Apart t b) → ∀ b ∈ own', Apart t b) :
    OwnFrame h own (h.write s.arr (s.off + i) [b]) own' := fun t wt a =>
  ⟨(byte_frame w hi b).1 t wt, (byte_frame w hi b).2 t wt (a s hm), hs t a⟩

theorem apart_from_right {t s : Slice} (k : Nat) (h : Apart t s) : Apart t (s.from k) := (apart_from k h.symm).symm

/-! ### The contents-level loop -/

theorem leads_fill {src : Source σ} {r0 : Reader σ} {b0 : Str} {a a2 : Reader σ} {n : Nat} (l : Leads src r0 b0 a n)
    (hc : a.cdata = []) (he : a.err = none) (hf : fill src a b0.length = some a2) :
    Leads src r0 b0 (convert a2) (n + (a.rdata.length + ensureCapCap a.rcap (a.rdata.length + b0.length) +
      maxSteps a2.rdata.length + a2.rdata.length + 6)) := by
  obtain ⟨j, l⟩ := l
  refine ⟨1 + j, fun f => ?_⟩
  obtain ⟨l1, l2⟩ := l (f + 1)
  rw [readLoop, if_neg (by rw [hc]; simp), if_pos he, hf] at l1
  rw [work, if_neg (by rw [hc]; simp), if_pos he, hf] at l2
  rw [← Nat.add_assoc]
  exact ⟨l1, by simp only at l2; omega⟩

theorem leads_convert {src : Source σ} {r0 : Reader σ} {b0 : Str} {a : Reader σ} {n : Nat} (l : Leads src r0 b0 a n)
    (hc : a.cdata = []) (he : a.err ≠ none) (hr : a.rdata.length ≠ 0) :
    Leads src r0 b0 (convert a) (n + (maxSteps a.rdata.length + a.rdata.length + 3)) := by
  obtain ⟨j, l⟩ := l
  refine ⟨1 + j, fun f => ?_⟩
  obtain ⟨l1, l2⟩ := l (f + 1)
  rw [readLoop, if_neg (by rw [hc]; simp), if_neg he, if_neg hr] at l1
  rw [work, if_neg (by rw [hc]; simp), if_neg he, if_neg hr] at l2
  rw [← Nat.add_assoc]
  exact ⟨l1, by omega⟩

theorem leads_cap {src : Source σ} {r0 : Reader σ} {b0 : Str} {a : Reader σ} {n : Nat} (l : Leads src r0 b0 a n)
    (hc : a.cdata = []) (he : a.err = none) :
    Leads src r0 b0 { a with rcap := ensureCapCap a.rcap (a.rdata.length + b0.length) } n := by
  obtain ⟨j, l⟩ := l
  refine ⟨j, fun f => ?_⟩
  obtain ⟨l1, l2⟩ := l f
  rw [l1]
  cases f with
  | zero => exact ⟨rfl, l2⟩
  | succ f =>
    have hcap : ensureCapCap (ensureCapCap a.rcap (a.rdata.length + b0.length)) (a.rdata.length + b0.length) =
        ensureCapCap a.rcap (a.rdata.length + b0.length) := by
      have := ensureCapCap_ge a.rcap (a.rdata.length + b0.length)
      rw [ensureCapCap, if_pos this]
    have hfill : fill src { a with rcap := ensureCapCap a.rcap (a.rdata.length + b0.length) } b0.length =
        fill src a b0.length := by
      unfold fill
      simp only [hcap]
    refine ⟨?_, ?_⟩
    · rw [readLoop, readLoop, if_neg (by rw [hc]; simp), if_pos he, if_neg (by rw [hc]; simp), if_pos he, hfill]
    · have e : work src b0 (f + 1) { a with rcap := ensureCapCap a.rcap (a.rdata.length + b0.length) } = work src b0 (f + 1) a := by
        rw [work, work, if_neg (by rw [hc]; simp), if_pos he, if_neg (by rw [hc]; simp), if_pos he, hfill]
        simp only [hcap]
      rw [e]
      exact l2

theorem leads_ret {src : Source σ} {r0 : Reader σ} {b0 : Str} {a : Reader σ} {n : Nat} (l : Leads src r0 b0 a n)
    {out : ReadOut σ} (h : readLoop src 1 a b0 = out) : ∃ f, readLoop src f r0 b0 = out := by
  obtain ⟨j, l⟩ := l
  exact ⟨1 + j, (l 1).1.trans h⟩

theorem leads_le {src : Source σ} {r0 : Reader σ} {b0 : Str} {a : Reader σ} {n m : Nat} (l : Leads src r0 b0 a n)
    (h : m ≤ n) : Leads src r0 b0 a m := by
  obtain ⟨j, l⟩ := l
  exact ⟨j, fun f => ⟨(l f).1, Nat.le_trans (Nat.add_le_add_right h _) (l f).2⟩⟩

theorem left_resume (d : Dir) (scratch data : Slice) : left data.len (.resume d scratch data) = maxSteps data.len := by
  simp [left, Call.resume, cost, maxSteps]

/-! ### Stability -/

theorem rel_stable {h h' : Heap} {m : ReaderM σ} {a : Reader σ} (rel : Rel h m a) (h1 : Same h h' (full m.scratch))
    (h2 : Same h h' (full m.cdata)) (h3 : Same h h' (full m.rdata)) : Rel h' m a :=
  rel_leaves rel ⟨same_of_full rel.wfs h1, same_of_full rel.wfc h2, same_of_full rel.wfr h3⟩

theorem returned_stable {h h' : Heap} {c : Call} {input : Str} (g : Returned h c input)
    (hb : ∀ b ∈ bufs c, Same h h' (full b)) : Returned h' c input := by
  obtain ⟨out, err, h1, h2, h3, h4, h5, h6⟩ := g
  have hs : Same h h' c.scratch := same_of_full h5 (hb _ (by unfold bufs; rw [h1]; simp))
  rcases h4 with rfl | rfl
  · exact ⟨_, err, h1, hs.1, by rw [hs.2]; exact h3, .inl rfl, hs.1, h6⟩
  · refine ⟨_, err, h1, wf_nil _, ?_, .inr rfl, hs.1, h6⟩
    rw [read_empty rfl] at h3 ⊢
    exact h3

theorem transOk_stable {h h' : Heap} {c : Call} {d : Dir} {data : Slice} {input : Str} (g : TransOk h c d data input)
    (hd : Same h h' data) (hb : ∀ b ∈ bufs c, Same h h' (full b)) : TransOk h' c d data input := by
  refine ⟨g.dir, ?_, g.part, g.ap⟩
  obtain ⟨k, hdata⟩ := g.part
  rcases g.good with gg | gg
  · exact .inl (good_stable gg (by rw [hdata]; exact same_from hd k) hb)
  · exact .inr (returned_stable gg hb)

theorem rdRun_stable {src : SourceM σ} {h h' : Heap} {p : RdState σ} {k : Nat} {r0 : Reader σ} {b0 : Str} (g : RdRun src h p k r0 b0)
    (hb : ∀ b ∈ RdState.own p, Same h h' (full b)) : RdRun src h' p k r0 b0 := by
  obtain ⟨wb, cl, hl, g⟩ := g
  have hbuf : ∀ {b0 : Str}, Same h h' (full (clip p.buf)) → h.read p.buf = b0 → h'.read p.buf = b0 := by
    intro b0 e hr
    rw [← hr]
    exact (same_of_full wb e).2
  unfold RdRun
  cases hpc : p.pc with
  | idle => rw [hpc] at g; exact g.elim
  | ret n err => rw [hpc] at g; exact g.elim
  | panic => rw [hpc] at g; exact g.elim
  | top =>
    rw [hpc] at g
    simp only [RdState.own, hpc, List.mem_cons, List.not_mem_nil, or_false, forall_eq_or_imp, forall_eq] at hb
    obtain ⟨s1, s2, s3, s4⟩ := hb
    obtain ⟨a, l, rel, hr⟩ := g
    exact ⟨s4.1, cl, hl, a, l, rel_stable rel s1 s2 s3, hbuf s4 hr⟩
  | grow t i =>
    rw [hpc] at g
    simp only [RdState.own, hpc, List.mem_cons, List.not_mem_nil, or_false, forall_eq_or_imp, forall_eq] at hb
    obtain ⟨s1, s2, s3, s4, s5⟩ := hb
    obtain ⟨a, s, l, ln, rel, hr, x1, x2, x3, x4, x5, x6, x7, x8, x9, x10, x11⟩ := g
    have st := same_of_full x3 s5
    have sr := same_of_full rel.wfr s3
    exact ⟨s4.1, cl, hl, a, s, l, ln, rel_stable rel s1 s2 s3, hbuf s4 hr, x1, x2, st.1, x4, x5, x6, x7, x8, x9, x10,
      by rw [st.2, sr.2]; exact x11⟩
  | fetch =>
    rw [hpc] at g
    simp only [RdState.own, hpc, List.mem_cons, List.not_mem_nil, or_false, forall_eq_or_imp, forall_eq] at hb
    obtain ⟨s1, s2, s3, s4⟩ := hb
    obtain ⟨a, s, l, ln, rel, hr, x⟩ := g
    exact ⟨s4.1, cl, hl, a, s, l, ln, rel_stable rel s1 s2 s3, hbuf s4 hr, x⟩
  | fill bs n err i =>
    rw [hpc] at g
    simp only [RdState.own, hpc, List.mem_cons, List.not_mem_nil, or_false, forall_eq_or_imp, forall_eq] at hb
    obtain ⟨s1, s2, s3, s4⟩ := hb
    obtain ⟨a, s, l, ln, rel, hr, x1, x2, x3, x4, x5⟩ := g
    exact ⟨s4.1, cl, hl, a, s, l, ln, rel_stable rel s1 s2 s3, hbuf s4 hr, x1, x2, x3, x4,
      by rw [same_upTo s3 (by omega)]; exact x5⟩
  | trans c =>
    rw [hpc] at g
    simp only [RdState.own, hpc, List.mem_append, List.mem_cons, List.not_mem_nil, or_false] at hb
    have s1 := hb p.m.scratch (by simp)
    have s2 := hb p.m.cdata (by simp)
    have s3 := hb p.m.rdata (by simp)
    have s4 := hb (clip p.buf) (by simp)
    obtain ⟨a, s, l, ln, rel, hr, x1, x2, x3⟩ := g
    exact ⟨s4.1, cl, hl, a, s, l, ln, rel_stable rel s1 s2 s3, hbuf s4 hr, x1,
      transOk_stable x2 (same_of_full rel.wfr s3) (fun b h => hb b (.inr h)), x3⟩
  | compact nc i =>
    rw [hpc] at g
    simp only [RdState.own, hpc, List.mem_cons, List.not_mem_nil, or_false, forall_eq_or_imp, forall_eq] at hb
    obtain ⟨s1, s2, s3, s4⟩ := hb
    obtain ⟨a, old, s, l, ln, x1, x2, x3, rel, hr⟩ := g
    exact ⟨s4.1, cl, hl, a, old, s, l, ln, x1, x2, x3, rel_stable rel s1 s2 s3, hbuf s4 hr⟩
  | deliver n i =>
    rw [hpc] at g
    simp only [RdState.own, hpc, List.mem_cons, List.not_mem_nil, or_false, forall_eq_or_imp, forall_eq] at hb
    obtain ⟨s1, s2, s3, s4⟩ := hb
    obtain ⟨a, s, l, ln, rel, x1, x2, x3, hr⟩ := g
    exact ⟨s4.1, cl, hl, a, s, l, ln, rel_stable rel s1 s2 s3, x1, x2, x3, hbuf s4 hr⟩

/-! ### Steps -/

/-- No step of a call takes memory away. -/
theorem step_wf (grow : Nat → Nat → Nat) {h : Heap} {p : Call} {input : Str} (g : Good h p input) :
    ∀ t, WF h t → WF (p.step grow h).2 t := by
  intro t wt
  have hpcok := g.pc
  unfold PcOk at hpcok
  unfold Call.step
  split
  · exact wt
  · exact wt
  · exact wt
  · split
    · exact wt
    · exact (push_frame h p.scratch _ 0 0).2.1 t wt
  · rename_i s i he
    rw [he] at hpcok
    obtain ⟨q, rest, ht, ws, hl, hi, _⟩ := hpcok
    have := ws.1
    split
    · exact (byte_frame ws (by omega) _).1 t wt
    · split
      · exact wt
      · split <;> exact wt
  · exact wt
  · rename_i i q rest he ht
    rw [he] at hpcok
    obtain ⟨q', rest', ht', hneed, hi, _⟩ := hpcok
    rw [ht] at ht'
    obtain ⟨rfl, rfl⟩ : q = q' ∧ rest = rest' := by cases ht'; exact ⟨rfl, rfl⟩
    have := need_ge p.scratch (g.small q (by rw [ht]; simp))
    split
    · exact (byte_frame g.wfs (by omega) _).1 t wt
    · exact wt

theorem transOk_step (grow : Nat → Nat → Nat) {h : Heap} {c : Call} {d : Dir} {data : Slice} {input : Str}
    (t : TransOk h c d data input) (g : Good h c input) (wd : WF h data) :
    TransOk (c.step grow h).2 (c.step grow h).1 d data input := by
  obtain ⟨h1, h2, h3⟩ := step_good grow g
  obtain ⟨k, hk⟩ := t.part
  refine ⟨by rw [step_dir]; exact t.dir, h1, ?_, (h3 data wd t.ap).2.2⟩
  obtain ⟨j, hj | hj⟩ := step_data grow h c
  · exact ⟨k, hj.trans hk⟩
  · exact ⟨k + j, by rw [hj, hk, from_from]⟩

theorem transOk_resume {h : Heap} (d : Dir) {data scratch : Slice} (w : WF h data) (ws : WF h scratch) (ap : Apart data scratch) :
    TransOk h (.resume d scratch data) d data (h.read data) :=
  ⟨rfl, .inl (resume_good d w ws ap), ⟨0, by simp [Slice.from, Call.resume]⟩, by
    intro b hb
    simp only [bufs, Call.resume, List.mem_singleton] at hb
    subst hb
    exact apart_upTo 0 ap⟩


/-- The step stayed within the call, or the call returned, or the source returned more than it was asked for. -/
def RdNext (src : SourceM σ) (h' : Heap) (p p' : RdState σ) (k : Nat) (r0 : Reader σ) (b0 : Str) : Prop :=
  RdRun src h' p' (k + 1) r0 b0 ∨
  (∃ n err r', p'.pc = .ret n err ∧ Returns (plain src) r0 b0 n err (h'.read p.buf) r' ∧ Rel h' p'.m r') ∨
  (p'.pc = .panic ∧ (∃ a, Rel h' p'.m a) ∧ (∃ s k, k < (src s k).1.length) ∧ ∃ f, readLoop (plain src) f r0 b0 = .panic)

theorem rd_top (grow : Nat → Nat → Nat) {src : SourceM σ} {h : Heap} {p : RdState σ} {k : Nat} {r0 : Reader σ} {b0 : Str}
    (g : RdRun src h p k r0 b0) (hpc : p.pc = .top) :
    RdNext src (p.step grow src h).2 p (p.step grow src h).1 k r0 b0 ∧
    OwnFrame h (RdState.own p) (p.step grow src h).2 (RdState.own (p.step grow src h).1) ∧
    (p.step grow src h).1.buf = p.buf := by
  obtain ⟨wb, cl, hl, g⟩ := g
  rw [hpc] at g
  obtain ⟨a, l, rel, hr⟩ := g
  have hown : RdState.own p = [p.m.scratch, p.m.cdata, p.m.rdata, clip p.buf] := by unfold RdState.own; rw [hpc]
  have hc := rel_cdata rel
  have hd := rel_rdata rel
  unfold RdState.step
  rw [hpc]
  simp only
  by_cases h1 : p.m.cdata.len > 0
  · rw [if_pos h1]
    refine ⟨.inl ⟨wb, cl, hl, a, k, l, Nat.le_refl _, rel, by omega, by rw [hl, hc], Nat.zero_le _, by simpa using hr⟩, ?_, rfl⟩
    exact ownFrame_same fun t at_ => by rw [hown] at at_; exact at_
  · rw [if_neg h1]
    have hcd : a.cdata = [] := List.eq_nil_of_length_eq_zero (by omega)
    by_cases h2 : p.m.err = none
    · rw [if_pos h2]
      have he : a.err = none := rel.err ▸ h2
      by_cases h3 : p.m.rdata.len + p.buf.len ≤ p.m.rdata.cap
      · rw [if_pos h3]
        refine ⟨.inl ⟨wb, cl, hl, a, k, l, by omega, rel, hr, hcd, he, h3⟩, ?_, rfl⟩
        exact ownFrame_same fun t at_ => by rw [hown] at at_; exact at_
      · rw [if_neg h3]
        simp only
        have hge := ensureCapCap_ge p.m.rdata.cap (p.m.rdata.len + p.buf.len)
        have hcap : ensureCapCap p.m.rdata.cap (p.m.rdata.len + p.buf.len) =
            ensureCapCap a.rcap (a.rdata.length + b0.length) := by rw [rel.cap, hd, hl]
        generalize ensureCapCap p.m.rdata.cap (p.m.rdata.len + p.buf.len) = c at hge hcap
        obtain ⟨_, hw, hrd⟩ := push_frame h p.m.rdata (List.replicate c 0) p.m.rdata.len c
        have wt : WF (h ++ [List.replicate c 0]) ⟨h.length, 0, p.m.rdata.len, c⟩ := by
          refine ⟨by simp only; omega, .inr ?_⟩
          simp only
          rw [arr_push]
          simp
        have rel' : Rel (h ++ [List.replicate c 0]) p.m a := rel_leaves rel
          ⟨⟨hw _ rel.wfs, (hrd _ rel.wfs).1⟩, ⟨hw _ rel.wfc, (hrd _ rel.wfc).1⟩, ⟨hw _ rel.wfr, (hrd _ rel.wfr).1⟩⟩
        refine ⟨.inl ⟨hw _ wb, cl, hl, a, k, l, Nat.le_refl _, rel', ?_, hcd, he, wt, rfl, hcap, (hrd _ rel.wfs).2, (hrd _ rel.wfc).2,
          (hrd _ rel.wfr).2, (hrd _ wb).2, Nat.zero_le _, by simp⟩, ?_, trivial⟩
        · exact ((hrd _ wb).1).trans hr
        · intro t wt at_
          refine ⟨hw _ wt, (hrd _ wt).1, fun b hb => ?_⟩
          simp only [RdState.own, List.mem_cons, List.not_mem_nil, or_false] at hb
          rw [hown] at at_
          rcases hb with rfl | rfl | rfl | rfl | rfl
          · exact at_ _ (by simp)
          · exact at_ _ (by simp)
          · exact at_ _ (by simp)
          · exact at_ _ (by simp)
          · exact (hrd _ wt).2
    · rw [if_neg h2]
      have he : a.err ≠ none := rel.err ▸ h2
      by_cases h3 : p.m.rdata.len = 0
      · rw [if_pos h3]
        refine ⟨.inr (.inl ⟨0, p.m.err, a, rfl, ?_, rel⟩), ?_, rfl⟩
        · refine leads_ret l ?_
          rw [readLoop, if_neg (by omega), if_neg he, if_pos (by omega), hr, rel.err]
        · exact ownFrame_same fun t at_ b hb => by
            rw [hown] at at_
            simp only [RdState.own, List.mem_cons, List.not_mem_nil, or_false] at hb
            exact at_ b (by simp only [List.mem_cons]; rcases hb with h | h | h <;> simp [h])
      · rw [if_neg h3]
        refine ⟨.inl ⟨wb, cl, hl, a, _, leads_convert l hcd he (by omega), ?_, rel, hr, hcd, ?_, ?_⟩, ?_, rfl⟩
        · rw [← hd, left_resume]
          omega
        · have := transOk_resume .from_ rel.wfr rel.wfs rel.aprs
          rw [rel.rdata] at this
          exact this
        · intro b hb
          simp only [bufs, Call.resume, List.mem_singleton] at hb
          subst hb
          exact apart_upTo 0 cl.1
        · exact ownFrame_same fun t at_ b hb => by
            rw [hown] at at_
            simp only [RdState.own, bufs, Call.resume, List.mem_append, List.mem_singleton] at hb
            rcases hb with hb | rfl
            · exact at_ b hb
            · exact apart_upTo 0 (at_ p.m.scratch (by simp))

theorem rd_grow (grow : Nat → Nat → Nat) {src : SourceM σ} {h : Heap} {p : RdState σ} {k : Nat} {r0 : Reader σ} {b0 : Str} {t : Slice}
    {i : Nat} (g : RdRun src h p k r0 b0) (hpc : p.pc = .grow t i) :
    RdNext src (p.step grow src h).2 p (p.step grow src h).1 k r0 b0 ∧
    OwnFrame h (RdState.own p) (p.step grow src h).2 (RdState.own (p.step grow src h).1) ∧
    (p.step grow src h).1.buf = p.buf := by
  obtain ⟨wb, cl, hl, g⟩ := g
  rw [hpc] at g
  obtain ⟨a, s, l, ln, rel, hr, hcd, he, wt, htl, htc, a1, a2, a3, a4, hi, htk⟩ := g
  have hown : RdState.own p = [p.m.scratch, p.m.cdata, p.m.rdata, clip p.buf, t] := by unfold RdState.own; rw [hpc]
  unfold RdState.step
  rw [hpc]
  simp only
  have wt1 := wt.1
  by_cases h1 : i < p.m.rdata.len
  · rw [if_pos h1]
    have hlr := read_length rel.wfr
    have hlt := read_length wt
    obtain ⟨hw, hf⟩ := byte_frame wt (i := i) (by omega) (byteAt h p.m.rdata i)
    have hs : (h.write t.arr (t.off + i) [byteAt h p.m.rdata i]).read t = (h.read t).set i (byteAt h p.m.rdata i) :=
      read_set wt (by omega) _
    refine ⟨.inl ⟨hw _ wb, cl, hl, a, s, l, by omega, ?_, ?_, hcd, he, hw _ wt, htl, htc, a1, a2, a3, a4, h1, ?_⟩, ?_, rfl⟩
    · exact rel_leaves rel ⟨⟨hw _ rel.wfs, hf _ rel.wfs a1⟩, ⟨hw _ rel.wfc, hf _ rel.wfc a2⟩, ⟨hw _ rel.wfr, hf _ rel.wfr a3⟩⟩
    · exact (hf _ wb a4).trans hr
    · simp only
      rw [hs, hf _ rel.wfr a3]
      have hsplit : h.read t = (h.read p.m.rdata).take i ++ (h.read t).drop i := by
        rw [← htk, List.take_append_drop]
      rw [hsplit]
      unfold byteAt
      rw [set_progress (by omega) (by omega), List.take_append_of_le_length (by rw [List.length_take]; omega),
        List.take_take, Nat.min_self]
    · refine ownFrame_byte wt (by rw [hown]; simp) (by omega) _ fun u au => ?_
      rw [hown] at au
      exact au
  · rw [if_neg h1]
    have hrt : h.read t = h.read p.m.rdata := by
      have l1 := read_length wt
      have l2 := read_length rel.wfr
      rw [List.take_of_length_le (by omega), List.take_of_length_le (by omega)] at htk
      exact htk
    have hd := rel_rdata rel
    have hge := ensureCapCap_ge a.rcap (a.rdata.length + b0.length)
    refine ⟨.inl ⟨wb, ⟨cl.1, cl.2.1, a4⟩, hl, { a with rcap := ensureCapCap a.rcap (a.rdata.length + b0.length) },
      s, leads_cap l hcd he, by simp only; omega, ?_, hr, hcd, he, ?_⟩, ?_, rfl⟩
    · exact ⟨rel.src, rel.err, rel.cdata, hrt.trans rel.rdata, htc, rel.wfs, rel.wfc, wt, a1.symm, a2⟩
    · simp only
      omega
    · exact ownFrame_same fun u au b hb => by
        rw [hown] at au
        simp only [RdState.own, List.mem_cons, List.not_mem_nil, or_false] at hb
        exact au b (by simp only [List.mem_cons]; rcases hb with h | h | h | h <;> simp [h])

theorem rd_fetch (grow : Nat → Nat → Nat) {src : SourceM σ} {h : Heap} {p : RdState σ} {k : Nat} {r0 : Reader σ} {b0 : Str}
    (g : RdRun src h p k r0 b0) (hpc : p.pc = .fetch) :
    RdNext src (p.step grow src h).2 p (p.step grow src h).1 k r0 b0 ∧
    OwnFrame h (RdState.own p) (p.step grow src h).2 (RdState.own (p.step grow src h).1) ∧
    (p.step grow src h).1.buf = p.buf := by
  obtain ⟨wb, cl, hl, g⟩ := g
  rw [hpc] at g
  obtain ⟨a, s0, l, ln, rel, hr, hcd, he, hfit⟩ := g
  have hown : RdState.own p = [p.m.scratch, p.m.cdata, p.m.rdata, clip p.buf] := by unfold RdState.own; rw [hpc]
  have hd := rel_rdata rel
  have hcap := rel.cap
  unfold RdState.step
  rw [hpc]
  simp only
  obtain ⟨bs, junk, err, s, ha, hp⟩ : ∃ bs junk err s, src p.m.src (p.m.rdata.cap - p.m.rdata.len) = (bs, junk, err, s) ∧
      plain src p.m.src (p.m.rdata.cap - p.m.rdata.len) = (bs, err, s) := ⟨_, _, _, _, rfl, rfl⟩
  have wr1 := rel.wfr.1
  rw [ha]
  simp only
  by_cases h1 : p.m.rdata.len + bs.length ≤ p.m.rdata.cap
  · rw [if_pos h1]
    have hfill : fill (plain src) a b0.length = some { a with
        src := s
        rdata := a.rdata ++ bs
        err := if bs.length = 0 ∧ err = none then some Err.eof else err } := by
      unfold fill
      have : ensureCapCap a.rcap (a.rdata.length + b0.length) = a.rcap := by
        rw [ensureCapCap, if_pos (by omega)]
      simp only [this]
      rw [← rel.src, ← hd, ← rel.cap, hp]
      simp only
      rw [if_pos h1]
    have hl' := leads_fill l hcd he hfill
    have htake : ((bs ++ junk).take (p.m.rdata.cap - p.m.rdata.len)).take bs.length = bs := by
      rw [List.take_take, Nat.min_eq_left (by omega), List.take_left' rfl]
    refine ⟨.inl ⟨wb, cl, hl, { a with src := s }, _, (by rw [htake]; exact hl'), ?_, ?_, hr, hcd, ?_, ?_, Nat.zero_le _, ?_⟩, ?_, rfl⟩
    · have hb : ((bs ++ junk).take (p.m.rdata.cap - p.m.rdata.len)).length ≤ p.m.rdata.cap - p.m.rdata.len := by
        rw [List.length_take]; omega
      have hq : ensureCapCap a.rcap (a.rdata.length + b0.length) = a.rcap := by
        rw [ensureCapCap, if_pos (by omega)]
      simp only [List.length_append, hq]
      omega
    · exact ⟨rfl, rel.err, rel.cdata, rel.rdata, rel.cap, rel.wfs, rel.wfc, rel.wfr, rel.aprs, rel.apcr⟩
    · rw [List.length_take, List.length_append]; omega
    · simp only; rw [List.length_take]; omega
    · rw [List.take_zero, List.append_nil]; exact rel.rdata
    · exact ownFrame_same fun u au => by rw [hown] at au; exact au
  · rw [if_neg h1]
    refine ⟨.inr (.inr ⟨rfl, ⟨a, rel⟩, ⟨p.m.src, p.m.rdata.cap - p.m.rdata.len, ?_⟩, leads_ret l ?_⟩), ?_, rfl⟩
    · rw [ha]; simp only; omega
    · have hfill : fill (plain src) a b0.length = none := by
        unfold fill
        have : ensureCapCap a.rcap (a.rdata.length + b0.length) = a.rcap := by
          rw [ensureCapCap, if_pos (by omega)]
        simp only [this]
        rw [← rel.src, ← hd, ← rel.cap, hp]
        simp only
        rw [if_neg h1]
      rw [readLoop, if_neg (by rw [hcd]; simp), if_pos he, hfill]
    · exact ownFrame_same fun u au b hb => by
        rw [hown] at au
        simp only [RdState.own, List.mem_cons, List.not_mem_nil, or_false] at hb
        exact au b (by simp only [List.mem_cons]; rcases hb with h | h | h <;> simp [h])

theorem rd_fill (grow : Nat → Nat → Nat) {src : SourceM σ} {h : Heap} {p : RdState σ} {k : Nat} {r0 : Reader σ} {b0 : Str} {bs : Str}
    {n : Nat} {err : Option Err} {i : Nat} (g : RdRun src h p k r0 b0) (hpc : p.pc = .fill bs n err i) :
    RdNext src (p.step grow src h).2 p (p.step grow src h).1 k r0 b0 ∧
    OwnFrame h (RdState.own p) (p.step grow src h).2 (RdState.own (p.step grow src h).1) ∧
    (p.step grow src h).1.buf = p.buf := by
  obtain ⟨wb, cl, hl, g⟩ := g
  rw [hpc] at g
  obtain ⟨a, s, l, ln, rel, hr, hcd, hn, hfit, hi, hrd⟩ := g
  have hown : RdState.own p = [p.m.scratch, p.m.cdata, p.m.rdata, clip p.buf] := by unfold RdState.own; rw [hpc]
  have hd := rel_rdata rel
  unfold RdState.step
  rw [hpc]
  simp only
  by_cases h1 : i < bs.length
  · rw [if_pos h1]
    obtain ⟨hw, hf⟩ := byte_frame rel.wfr (i := p.m.rdata.len + i) (by omega) (bs.getD i 0)
    have wfull := wf_upTo rel.wfr (p.m.rdata.len + (i + 1)) (by omega)
    have hs : (h.write p.m.rdata.arr (p.m.rdata.off + (p.m.rdata.len + i)) [bs.getD i 0]).read
        (p.m.rdata.upTo (p.m.rdata.len + (i + 1))) =
        (h.read (p.m.rdata.upTo (p.m.rdata.len + (i + 1)))).set (p.m.rdata.len + i) (bs.getD i 0) :=
      read_set (s := p.m.rdata.upTo (p.m.rdata.len + (i + 1))) wfull (by simp only [Slice.upTo]; omega) _
    generalize h.write p.m.rdata.arr (p.m.rdata.off + (p.m.rdata.len + i)) [bs.getD i 0] = h' at *
    have hpre : ∀ k, k ≤ p.m.rdata.len + i → h'.read (p.m.rdata.upTo k) = h.read (p.m.rdata.upTo k) := by
      intro k hk
      have e1 := read_upTo h' (p.m.rdata.upTo (p.m.rdata.len + (i + 1))) k (by simp only [Slice.upTo]; omega)
      have e2 := read_upTo h (p.m.rdata.upTo (p.m.rdata.len + (i + 1))) k (by simp only [Slice.upTo]; omega)
      have e3 : ∀ m, (p.m.rdata.upTo m).upTo k = p.m.rdata.upTo k := fun _ => rfl
      rw [e3] at e1 e2
      rw [e1, e2, hs, List.take_set_of_le (by omega)]
    have hsame : h'.read p.m.rdata = h.read p.m.rdata := hpre p.m.rdata.len (by omega)
    refine ⟨.inl ⟨hw _ wb, cl, hl, a, s, l, by omega, ?_, ?_, hcd, hn, hfit, h1, ?_⟩, ?_, rfl⟩
    · exact rel_leaves rel ⟨⟨hw _ rel.wfs, hf _ rel.wfs rel.aprs.symm⟩, ⟨hw _ rel.wfc, hf _ rel.wfc rel.apcr⟩,
        ⟨hw _ rel.wfr, hsame⟩⟩
    · exact (hf _ wb cl.2.2).trans hr
    · simp only
      rw [hs]
      have hlen := read_length wfull
      have hsplit : h.read (p.m.rdata.upTo (p.m.rdata.len + (i + 1))) =
          (a.rdata ++ bs).take (p.m.rdata.len + i) ++ (h.read (p.m.rdata.upTo (p.m.rdata.len + (i + 1)))).drop (p.m.rdata.len + i) := by
        have : (a.rdata ++ bs).take (p.m.rdata.len + i) = a.rdata ++ bs.take i := by
          rw [hd, List.take_length_add_append]
        rw [this, ← hrd]
        have e2 := read_upTo h (p.m.rdata.upTo (p.m.rdata.len + (i + 1))) (p.m.rdata.len + i) (by simp only [Slice.upTo]; omega)
        have e3 : ∀ m k, (p.m.rdata.upTo m).upTo k = p.m.rdata.upTo k := fun _ _ => rfl
        rw [e3] at e2
        rw [e2, List.take_append_drop]
      have hget : bs.getD i 0 = (a.rdata ++ bs).getD (p.m.rdata.len + i) 0 := by
        rw [List.getD_eq_getElem?_getD, List.getD_eq_getElem?_getD, hd, List.getElem?_append_right (by omega),
          Nat.add_sub_cancel_left]
      rw [hsplit, hget, set_progress (by rw [List.length_append]; omega) (by rw [hlen]; simp only [Slice.upTo]; omega),
        List.drop_of_length_le (by rw [hlen]; simp only [Slice.upTo]; omega), List.append_nil, Nat.add_assoc, hd,
        List.take_length_add_append]
    · intro u wu au
      rw [hown] at au
      exact ⟨hw u wu, hf u wu (au p.m.rdata (by simp)), au⟩
  · rw [if_neg h1]
    have hii : i = bs.length := by omega
    subst hii
    have wr' := wf_upTo rel.wfr (p.m.rdata.len + n) (by omega)
    have hrn : h.read (p.m.rdata.upTo (p.m.rdata.len + n)) = a.rdata ++ bs.take n := by
      have e2 := read_upTo h (p.m.rdata.upTo (p.m.rdata.len + bs.length)) (p.m.rdata.len + n) (by simp only [Slice.upTo]; omega)
      have e3 : ∀ m k, (p.m.rdata.upTo m).upTo k = p.m.rdata.upTo k := fun _ _ => rfl
      rw [e3] at e2
      rw [e2, hrd, List.take_length, hd, List.take_length_add_append]
    refine ⟨.inl ⟨wb, cl, hl, _, s, l, ?_, ?_, hr, hcd, ?_, ?_⟩, ?_, rfl⟩
    · have hx : (a.rdata ++ bs.take n).length = a.rdata.length + n := by
        rw [List.length_append, List.length_take]; omega
      simp only [hx]
      rw [show a.rdata.length + n = (p.m.rdata.upTo (p.m.rdata.len + n)).len by simp only [Slice.upTo]; omega, left_resume]
      simp only [Slice.upTo]
      rw [hd]
      omega
    · exact ⟨rel.src, rfl, rel.cdata, hrn, rel.cap, rel.wfs, rel.wfc, wr', rel.aprs, rel.apcr⟩
    · have := transOk_resume (h := h) .from_ wr' rel.wfs (show Apart (p.m.rdata.upTo (p.m.rdata.len + n)) p.m.scratch from rel.aprs)
      rw [hrn] at this
      exact this
    · intro b hb
      simp only [bufs, Call.resume, List.mem_singleton] at hb
      subst hb
      exact apart_upTo 0 cl.1
    · exact ownFrame_same fun t at_ b hb => by
        rw [hown] at at_
        simp only [RdState.own, bufs, Call.resume, List.mem_append, List.mem_cons, List.not_mem_nil, or_false] at hb
        rcases hb with (rfl | rfl | rfl | rfl) | rfl
        · exact at_ _ (by simp)
        · exact at_ _ (by simp)
        · exact apart_upTo _ (at_ p.m.rdata (by simp))
        · exact at_ _ (by simp)
        · exact apart_upTo 0 (at_ p.m.scratch (by simp))


theorem rd_trans (grow : Nat → Nat → Nat) {src : SourceM σ} {h : Heap} {p : RdState σ} {k : Nat} {r0 : Reader σ} {b0 : Str} {c : Call}
    (g : RdRun src h p k r0 b0) (hpc : p.pc = .trans c) :
    RdNext src (p.step grow src h).2 p (p.step grow src h).1 k r0 b0 ∧
    OwnFrame h (RdState.own p) (p.step grow src h).2 (RdState.own (p.step grow src h).1) ∧
    (p.step grow src h).1.buf = p.buf := by
  obtain ⟨wb, cl, hl, g⟩ := g
  rw [hpc] at g
  obtain ⟨a, s, l, ln, rel, hr, hcd, t, apb⟩ := g
  have hown : RdState.own p = [p.m.scratch, p.m.cdata, p.m.rdata, clip p.buf] ++ bufs c := by unfold RdState.own; rw [hpc]
  have hd := rel_rdata rel
  have hc := rel_cdata rel
  rcases t.good with gg | gg
  · have hstep : p.step grow src h = ({ p with pc := .trans (c.step grow h).1 }, (c.step grow h).2) := by
      have hnp := good_no_panic gg
      have hlive := good_live gg
      unfold RdState.step
      rw [hpc]
      simp only
      split
      · rename_i out err he; exact (hlive out err he).elim
      · rename_i he; exact (hnp he).elim
      · rfl
    rw [hstep]
    simp only
    obtain ⟨_, hlt, hfr⟩ := step_good grow gg
    have hwf := step_wf grow gg
    have ht := transOk_step grow t gg rel.wfr
    generalize (c.step grow h).1 = c' at *
    generalize (c.step grow h).2 = h' at *
    obtain ⟨b1, b2, b3⟩ := hfr (clip p.buf) wb apb
    obtain ⟨r1, r2, _⟩ := hfr p.m.rdata rel.wfr t.ap
    refine ⟨.inl ⟨b1, cl, hl, a, s, l, by omega, ?_, b2.trans hr, hcd, ht, b3⟩, ?_, trivial⟩
    · refine ⟨rel.src, rel.err, ?_, r2.trans rel.rdata, rel.cap, hwf _ rel.wfs, hwf _ rel.wfc, r1, rel.aprs, rel.apcr⟩
      rw [hcd, read_empty (by rw [hc, hcd]; rfl)]
    · intro u wu au
      rw [hown] at au
      obtain ⟨u1, u2, u3⟩ := hfr u wu (fun b hb => au b (List.mem_append_right _ hb))
      refine ⟨u1, u2, fun b hb => ?_⟩
      simp only [RdState.own, List.mem_append] at hb
      rcases hb with hb | hb
      · exact au b (List.mem_append_left _ hb)
      · exact u3 b hb
  · obtain ⟨out, err, he, wo, hres, hout, ws, hcc⟩ := gg
    rw [t.dir] at hres
    simp only [expected] at hres
    have hbufs : bufs c = [c.scratch] := by unfold bufs; rw [he]
    have aps : Apart p.m.rdata c.scratch := t.ap _ (by rw [hbufs]; simp)
    have apo : Apart out p.m.rdata := by
      rcases hout with rfl | rfl
      · exact aps.symm
      · exact nil_apart _
    have hle := translate_le a.rdata
    have htr : (fromTranslate fromTable a.rdata).1 = (if err = none then c.c else 0) ∧
        (fromTranslate fromTable a.rdata).2.1 = h.read out := by
      unfold From at hres
      rcases dec_cases a.rdata with ⟨cs, h1⟩ | h1
      · rw [fromTranslate_dec h1] at hres ⊢
        simp only [Prod.mk.injEq] at hres
        refine ⟨?_, hres.1.symm⟩
        rw [if_pos hres.2, hcc hres.2]
      · rw [fromTranslate_truncated h1] at hres ⊢
        simp only [Prod.mk.injEq] at hres
        refine ⟨?_, hres.1.symm⟩
        rw [if_neg (by rw [hres.2]; simp)]
    have hstep : p.step grow src h =
        ({ p with
          m := { p.m with scratch := c.scratch, cdata := out }
          pc := .compact (if (if err = none then c.c else 0) = 0 ∧ p.m.err ≠ none then p.m.rdata.len else
            if err = none then c.c else 0) 0 }, h) := by
      unfold RdState.step
      rw [hpc]
      simp only [he]
    rw [hstep]
    obtain ⟨t1, t2⟩ := htr
    rw [← t1] at *
    have hconv : convert a = { a with
        cdata := h.read out
        rdata := a.rdata.drop (if (fromTranslate fromTable a.rdata).1 = 0 ∧ p.m.err ≠ none then p.m.rdata.len else
          (fromTranslate fromTable a.rdata).1) } := by
      unfold convert
      rw [← t2, rel.err, hd]
    have hnc : (if (fromTranslate fromTable a.rdata).1 = 0 ∧ p.m.err ≠ none then p.m.rdata.len else
        (fromTranslate fromTable a.rdata).1) ≤ a.rdata.length := by split <;> omega
    generalize (if (fromTranslate fromTable a.rdata).1 = 0 ∧ p.m.err ≠ none then p.m.rdata.len else
        (fromTranslate fromTable a.rdata).1) = nc at *
    have apc : Apart (clip p.buf) c.scratch := apb _ (by rw [hbufs]; simp)
    refine ⟨.inl ⟨wb, ⟨apc, ?_, cl.2.2⟩, hl, convert a, a.rdata, s, l, by omega, by rw [hconv], hnc, Nat.zero_le _, ?_, hr⟩, ?_, rfl⟩
    · rcases hout with rfl | rfl
      · exact apc
      · exact apart_nil _
    · rw [hconv]
      exact ⟨rel.src, rel.err, rfl, rel.rdata, rel.cap, ws, wo, rel.wfr, aps, apo⟩
    · exact ownFrame_same fun u au b hb => by
        rw [hown, hbufs] at au
        simp only [RdState.own, List.mem_cons, List.not_mem_nil, or_false] at hb
        rcases hb with rfl | rfl | rfl | rfl
        · exact au _ (by simp)
        · rcases hout with rfl | rfl
          · exact au _ (by simp)
          · exact apart_nil _
        · exact au _ (by simp)
        · exact au _ (by simp)

theorem rd_compact (grow : Nat → Nat → Nat) {src : SourceM σ} {h : Heap} {p : RdState σ} {k : Nat} {r0 : Reader σ} {b0 : Str}
    {nc i : Nat} (g : RdRun src h p k r0 b0) (hpc : p.pc = .compact nc i) :
    RdNext src (p.step grow src h).2 p (p.step grow src h).1 k r0 b0 ∧
    OwnFrame h (RdState.own p) (p.step grow src h).2 (RdState.own (p.step grow src h).1) ∧
    (p.step grow src h).1.buf = p.buf := by
  obtain ⟨wb, cl, hl, g⟩ := g
  rw [hpc] at g
  obtain ⟨a, old, s, l, ln, ho, hnc, hi, rel, hr⟩ := g
  have hown : RdState.own p = [p.m.scratch, p.m.cdata, p.m.rdata, clip p.buf] := by unfold RdState.own; rw [hpc]
  have hd : p.m.rdata.len = old.length := by
    rw [rel_rdata rel]
    simp only [List.length_append, List.length_take, List.length_drop]
    omega
  have hrd := rel.rdata
  simp only at hrd
  have wr1 := rel.wfr.1
  unfold RdState.step
  rw [hpc]
  simp only
  by_cases h1 : i < p.m.rdata.len - nc
  · rw [if_pos h1]
    obtain ⟨hw, hf⟩ := byte_frame rel.wfr (i := i) (by omega) (byteAt h p.m.rdata (nc + i))
    have hs : (h.write p.m.rdata.arr (p.m.rdata.off + i) [byteAt h p.m.rdata (nc + i)]).read p.m.rdata = _ :=
      read_set rel.wfr (by omega) _
    have hb : byteAt h p.m.rdata (nc + i) = (old.drop nc).getD i 0 := by
      unfold byteAt
      rw [hrd, List.getD_eq_getElem?_getD, List.getD_eq_getElem?_getD, List.getElem?_append_right (by
        rw [List.length_take]; omega), List.length_take, List.length_drop, List.getElem?_drop, List.getElem?_drop]
      congr 2
      omega
    rw [hb, hrd, set_progress (by rw [List.length_drop]; omega) (by omega)] at hs
    rw [hb] at hw hf ⊢
    generalize h.write p.m.rdata.arr (p.m.rdata.off + i) [(old.drop nc).getD i 0] = h' at *
    refine ⟨.inl ⟨hw _ wb, cl, hl, a, old, s, l, by omega, ho, hnc, by omega, ?_, (hf _ wb cl.2.2).trans hr⟩, ?_, rfl⟩
    · exact ⟨rel.src, rel.err, (hf _ rel.wfc rel.apcr).trans rel.cdata, hs, rel.cap, hw _ rel.wfs, hw _ rel.wfc, hw _ rel.wfr,
        rel.aprs, rel.apcr⟩
    · intro u wu au
      rw [hown] at au
      exact ⟨hw u wu, hf u wu (au p.m.rdata (by simp)), au⟩
  · rw [if_neg h1]
    have hii : i = old.length - nc := by omega
    refine ⟨.inl ⟨wb, cl, hl, a, leads_le l (by omega), ?_, hr⟩, ?_, rfl⟩
    · refine ⟨rel.src, rel.err, rel.cdata, ?_, rel.cap, rel.wfs, rel.wfc, wf_upTo rel.wfr _ (by omega), rel.aprs, rel.apcr⟩
      simp only
      rw [read_upTo _ _ _ (by omega), hrd, ho, List.take_append_of_le_length (by
        rw [List.length_take, List.length_drop]; omega), List.take_take, List.take_of_length_le (by rw [List.length_drop]; omega)]
    · exact ownFrame_same fun u au b hb => by
        rw [hown] at au
        simp only [RdState.own, List.mem_cons, List.not_mem_nil, or_false] at hb
        rcases hb with rfl | rfl | rfl | rfl
        · exact au _ (by simp)
        · exact au _ (by simp)
        · exact apart_upTo _ (au p.m.rdata (by simp))
        · exact au _ (by simp)

theorem rd_deliver (grow : Nat → Nat → Nat) {src : SourceM σ} {h : Heap} {p : RdState σ} {k : Nat} {r0 : Reader σ} {b0 : Str}
    {n i : Nat} (g : RdRun src h p k r0 b0) (hpc : p.pc = .deliver n i) :
    RdNext src (p.step grow src h).2 p (p.step grow src h).1 k r0 b0 ∧
    OwnFrame h (RdState.own p) (p.step grow src h).2 (RdState.own (p.step grow src h).1) ∧
    (p.step grow src h).1.buf = p.buf := by
  obtain ⟨wb, cl, hl, g⟩ := g
  rw [hpc] at g
  obtain ⟨a, s, l, ln, rel, hpos, hn, hi, hr⟩ := g
  have hown : RdState.own p = [p.m.scratch, p.m.cdata, p.m.rdata, clip p.buf] := by unfold RdState.own; rw [hpc]
  have hc := rel_cdata rel
  unfold RdState.step
  rw [hpc]
  simp only
  by_cases h1 : i < n
  · rw [if_pos h1]
    obtain ⟨hw, hf⟩ := byte_frame wb (i := i) (by simp only [clip]; omega) (byteAt h p.m.cdata i)
    have hs : (h.write (clip p.buf).arr ((clip p.buf).off + i) [byteAt h p.m.cdata i]).read (clip p.buf) = _ :=
      read_set wb (by simp only [clip]; omega) _
    have e1 : ∀ h : Heap, h.read (clip p.buf) = h.read p.buf := fun _ => rfl
    have e2 : (clip p.buf).arr = p.buf.arr := rfl
    have e3 : (clip p.buf).off = p.buf.off := rfl
    rw [e1, e1, e2, e3] at hs
    rw [e2, e3] at hw hf
    have hb : byteAt h p.m.cdata i = a.cdata.getD i 0 := by
      unfold byteAt
      rw [rel.cdata]
    rw [hb, hr, set_progress (by omega) (by omega)] at hs
    rw [hb] at hw hf ⊢
    generalize h.write p.buf.arr (p.buf.off + i) [a.cdata.getD i 0] = h' at *
    refine ⟨.inl ⟨hw _ wb, cl, hl, a, s, l, by omega, ?_, hpos, hn, h1, hs⟩, ?_, rfl⟩
    · exact rel_leaves rel ⟨⟨hw _ rel.wfs, hf _ rel.wfs cl.1.symm⟩, ⟨hw _ rel.wfc, hf _ rel.wfc cl.2.1.symm⟩,
        ⟨hw _ rel.wfr, hf _ rel.wfr cl.2.2.symm⟩⟩
    · intro u wu au
      rw [hown] at au
      exact ⟨hw u wu, hf u wu (au _ (by simp)), au⟩
  · rw [if_neg h1]
    have hii : i = n := by omega
    subst hii
    refine ⟨.inr (.inl ⟨i, none, { a with cdata := a.cdata.drop i }, rfl, ?_, ?_⟩), ?_, rfl⟩
    · refine leads_ret l ?_
      rw [readLoop, if_pos hpos]
      unfold copy
      simp only
      rw [hr, ← hn]
      congr 1
      rcases Nat.le_total b0.length a.cdata.length with hle | hle
      · rw [Nat.min_eq_left hle] at hn
        rw [hn, List.drop_of_length_le hle, List.drop_length]
      · rw [Nat.min_eq_right hle] at hn
        rw [hn, List.take_of_length_le hle, List.take_length]
    · refine ⟨rel.src, rel.err, ?_, rel.rdata, rel.cap, rel.wfs, wf_from_any rel.wfc _, rel.wfr, rel.aprs, apart_from _ rel.apcr⟩
      simp only
      rw [read_from, rel.cdata]
    · exact ownFrame_same fun u au b hb => by
        rw [hown] at au
        simp only [RdState.own, List.mem_cons, List.not_mem_nil, or_false] at hb
        rcases hb with rfl | rfl | rfl
        · exact au _ (by simp)
        · exact apart_from_right _ (au p.m.cdata (by simp))
        · exact au _ (by simp)

/-- One step of a call of `Read`. -/
theorem rd_step (grow : Nat → Nat → Nat) {src : SourceM σ} {h : Heap} {p : RdState σ} {k : Nat} {r0 : Reader σ} {b0 : Str}
    (g : RdRun src h p k r0 b0) :
    RdNext src (p.step grow src h).2 p (p.step grow src h).1 k r0 b0 ∧
    OwnFrame h (RdState.own p) (p.step grow src h).2 (RdState.own (p.step grow src h).1) ∧
    (p.step grow src h).1.buf = p.buf := by
  cases hpc : p.pc with
  | idle => have := g.2.2.2; rw [hpc] at this; exact this.elim
  | ret n err => have := g.2.2.2; rw [hpc] at this; exact this.elim
  | panic => have := g.2.2.2; rw [hpc] at this; exact this.elim
  | top => exact rd_top grow g hpc
  | grow t i => exact rd_grow grow g hpc
  | fetch => exact rd_fetch grow g hpc
  | fill bs n err i => exact rd_fill grow g hpc
  | trans c => exact rd_trans grow g hpc
  | compact nc i => exact rd_compact grow g hpc
  | deliver n i => exact rd_deliver grow g hpc

theorem returned_wf {h : Heap} {c : Call} {input : Str} (g : Returned h c input) : ∀ b ∈ bufs c, WF h b := by
  obtain ⟨out, err, he, _, _, _, ws, _⟩ := g
  intro b hb
  unfold bufs at hb
  rw [he] at hb
  simp only [List.mem_singleton] at hb
  subst hb
  exact ws

theorem transOk_wf {h : Heap} {c : Call} {d : Dir} {data : Slice} {input : Str} (t : TransOk h c d data input) :
    ∀ b ∈ bufs c, WF h b := t.good.elim bufs_wf returned_wf

theorem rdRun_wf {src : SourceM σ} {h : Heap} {p : RdState σ} {k : Nat} {r0 : Reader σ} {b0 : Str} (g : RdRun src h p k r0 b0) :
    ∀ b ∈ RdState.own p, WF h b := by
  obtain ⟨wb, cl, hl, g⟩ := g
  unfold RdState.own
  cases hpc : p.pc with
  | idle => rw [hpc] at g; exact g.elim
  | ret n err => rw [hpc] at g; exact g.elim
  | panic => rw [hpc] at g; exact g.elim
  | top =>
    rw [hpc] at g
    obtain ⟨a, _, rel, _⟩ := g
    simp only [List.mem_cons, List.not_mem_nil, or_false, forall_eq_or_imp, forall_eq]
    exact ⟨rel.wfs, rel.wfc, rel.wfr, wb⟩
  | grow t i =>
    rw [hpc] at g
    obtain ⟨a, _, _, _, rel, _, _, _, wt, _⟩ := g
    simp only [List.mem_cons, List.not_mem_nil, or_false, forall_eq_or_imp, forall_eq]
    exact ⟨rel.wfs, rel.wfc, rel.wfr, wb, wt⟩
  | fetch =>
    rw [hpc] at g
    obtain ⟨a, _, _, _, rel, _⟩ := g
    simp only [List.mem_cons, List.not_mem_nil, or_false, forall_eq_or_imp, forall_eq]
    exact ⟨rel.wfs, rel.wfc, rel.wfr, wb⟩
  | fill bs n err i =>
    rw [hpc] at g
    obtain ⟨a, _, _, _, rel, _⟩ := g
    simp only [List.mem_cons, List.not_mem_nil, or_false, forall_eq_or_imp, forall_eq]
    exact ⟨rel.wfs, rel.wfc, rel.wfr, wb⟩
  | trans c =>
    rw [hpc] at g
    obtain ⟨a, _, _, _, rel, _, _, t, _⟩ := g
    intro b hb
    simp only [List.mem_append, List.mem_cons, List.not_mem_nil, or_false] at hb
    rcases hb with (rfl | rfl | rfl | rfl) | hb
    · exact rel.wfs
    · exact rel.wfc
    · exact rel.wfr
    · exact wb
    · exact transOk_wf t b hb
  | compact nc i =>
    rw [hpc] at g
    obtain ⟨a, old, _, _, _, _, _, _, rel, _⟩ := g
    simp only [List.mem_cons, List.not_mem_nil, or_false, forall_eq_or_imp, forall_eq]
    exact ⟨rel.wfs, rel.wfc, rel.wfr, wb⟩
  | deliver n i =>
    rw [hpc] at g
    obtain ⟨a, _, _, _, rel, _⟩ := g
    simp only [List.mem_cons, List.not_mem_nil, or_false, forall_eq_or_imp, forall_eq]
    exact ⟨rel.wfs, rel.wfc, rel.wfr, wb⟩

theorem leads_bound {src : Source σ} {r0 : Reader σ} {b0 : Str} {a : Reader σ} {n : Nat} (l : Leads src r0 b0 a n)
    {F : Nat} (hF : readLoop src F r0 b0 ≠ .running) : ∃ f, n + work src b0 (f + 1) a ≤ work src b0 F r0 := by
  obtain ⟨j, l⟩ := l
  by_cases hj : F ≤ j
  · refine (hF ?_).elim
    have h0 := (l 0).1
    rw [readLoop] at h0
    by_cases hr : readLoop src F r0 b0 = .running
    · exact hr
    · have := readLoop_mono src F (j - F) r0 b0 _ rfl hr
      rw [show F + (j - F) = 0 + j by omega, h0] at this
      exact this.symm
  · have := (l (F - j - 1 + 1)).2
    rw [show F - j - 1 + 1 + j = F by omega] at this
    exact ⟨_, this⟩

/-- A call of `Read` that would end on its own has taken no more than so many steps. -/
theorem rdRun_bound {src : SourceM σ} {h : Heap} {p : RdState σ} {k : Nat} {r0 : Reader σ} {b0 : Str} (g : RdRun src h p k r0 b0)
    {F : Nat} (hF : readLoop (plain src) F r0 b0 ≠ .running) : k ≤ work (plain src) b0 F r0 := by
  obtain ⟨wb, cl, hl, g⟩ := g
  cases hpc : p.pc with
  | idle => rw [hpc] at g; exact g.elim
  | ret n err => rw [hpc] at g; exact g.elim
  | panic => rw [hpc] at g; exact g.elim
  | top =>
    rw [hpc] at g
    obtain ⟨a, l, _⟩ := g
    obtain ⟨f, hf⟩ := leads_bound l hF
    omega
  | grow t i =>
    rw [hpc] at g
    obtain ⟨a, s, l, ln, rel, _, hc, he, _, _, _, _, _, _, _, hi, _⟩ := g
    obtain ⟨f, hf⟩ := leads_bound l hF
    rw [rel_rdata rel] at hi
    rw [work, if_neg (by rw [hc]; simp), if_pos he] at hf
    split at hf <;> omega
  | fetch =>
    rw [hpc] at g
    obtain ⟨a, s, l, ln, rel, _, hc, he, _⟩ := g
    obtain ⟨f, hf⟩ := leads_bound l hF
    rw [work, if_neg (by rw [hc]; simp), if_pos he] at hf
    split at hf <;> omega
  | fill bs n err i =>
    rw [hpc] at g
    obtain ⟨a, s, l, ln, _⟩ := g
    obtain ⟨f, hf⟩ := leads_bound l hF
    omega
  | trans c =>
    rw [hpc] at g
    obtain ⟨a, s, l, ln, _⟩ := g
    obtain ⟨f, hf⟩ := leads_bound l hF
    omega
  | compact nc i =>
    rw [hpc] at g
    obtain ⟨a, old, s, l, ln, _⟩ := g
    obtain ⟨f, hf⟩ := leads_bound l hF
    omega
  | deliver n i =>
    rw [hpc] at g
    obtain ⟨a, s, l, ln, rel, hc, hn, hi, _⟩ := g
    obtain ⟨f, hf⟩ := leads_bound l hF
    rw [work, if_pos hc] at hf
    omega

end Cp949
