import Verif.Spec.Conc
import Verif.Lemmas.Mem
/-! Lemmas about single steps of `From` and `To`, and about several calls at once. -/
namespace Cp949
open Go Spec

attribute [local irreducible] fromTable toTable rawFrom rawTo

/-- The bytes still to be appended in this round. -/
def pending (todo : List Req) : Str := todo.flatMap fun q => q.bytes

/-- Going on with `data` and `scratch` leads to what the whole call is to return. -/
def Cont (d : Dir) (c : Nat) (data scratch input : Str) : Prop :=
  match d with
  | .from_ => fromLoop fromTable data scratch c = fromTranslate fromTable input
  | .to_ => ∃ fuel, data.length ≤ fuel ∧ toLoop toTable fuel data scratch c = toTranslate toTable input

def PcOk (h : Heap) (p : Call) : Prop :=
  match p.pc with
  | .round => True
  | .grow t i => ∃ q rest, p.todo = q :: rest ∧ WF h t ∧ t.len = p.scratch.len ∧ i ≤ p.scratch.len ∧
      Apart p.data t ∧ Apart p.scratch t ∧ (h.read t).take i = (h.read p.scratch).take i ∧ q.need t ≤ t.cap
  | .store i => ∃ q rest, p.todo = q :: rest ∧ q.need p.scratch ≤ p.scratch.cap ∧ i ≤ q.bytes.length ∧
      h.read (p.scratch.upTo (p.scratch.len + i)) = h.read p.scratch ++ q.bytes.take i
  | .done _ _ => False
  | .panic => False

/-- A running call is on its way to the right result. -/
structure Good (h : Heap) (p : Call) (input : Str) : Prop where
  wfd : WF h p.data
  wfs : WF h p.scratch
  ap : Apart p.data p.scratch
  cont : Cont p.dir p.c (h.read p.data) (h.read p.scratch ++ pending p.todo) input
  small : ∀ q ∈ p.todo, q.bytes.length ≤ 4
  pc : PcOk h p
  total : p.c + p.data.len = input.length
  bound : p.scratch.len + (pending p.todo).length ≤ 4 * p.c
  arg : h.read p.data = input.drop p.c

/-- A call has returned what it should. -/
def Returned (h : Heap) (p : Call) (input : Str) : Prop :=
  ∃ out err, p.pc = .done out err ∧ WF h out ∧ (h.read out, err) = expected p.dir input ∧
    (out = p.scratch ∨ out = .nil) ∧ WF h p.scratch ∧ (err = none → p.c = input.length)

/-- A step changes nothing outside the call's own memory. -/
def StepFrame (h : Heap) (p : Call) (h' : Heap) (p' : Call) : Prop :=
  ∀ t, WF h t → (∀ b ∈ bufs p, Apart t b) → WF h' t ∧ h'.read t = h.read t ∧ ∀ b ∈ bufs p', Apart t b

/-- How many steps are left at most. -/
def cost (n : Nat) (todo : List Req) : Nat := (todo.map fun q => 4 * n + q.bytes.length + 3).sum

def left (n : Nat) (p : Call) : Nat :=
  match p.pc, p.todo with
  | .round, todo => p.data.len * (8 * n + 15) + 1 + cost n todo
  | .grow _ i, q :: todo => p.data.len * (8 * n + 15) + 1 + (4 * n - i + 2 + q.bytes.length) + cost n todo
  | .store i, q :: todo => p.data.len * (8 * n + 15) + 1 + (q.bytes.length - i + 1) + cost n todo
  | _, _ => 0

theorem need_ge {q : Req} (s : Slice) (h : q.bytes.length ≤ 4) : s.len + q.bytes.length ≤ q.need s := by
  unfold Req.need
  split <;> omega

theorem newCap_ge (grow : Nat → Nat → Nat) (q : Req) (s : Slice) : q.need s ≤ q.newCap grow s := by
  unfold Req.newCap
  split
  · exact ensureCapCap_ge ..
  · omega

theorem good_live {h : Heap} {p : Call} {input : Str} (g : Good h p input) : Live p := by
  intro out err he
  have := g.pc
  unfold PcOk at this
  rw [he] at this
  exact this

/-- The first part of a slice, from the slice with all its capacity. -/
theorem read_full {h : Heap} (s : Slice) {n : Nat} (hn : n ≤ s.cap) :
    h.read (s.upTo n) = (h.read (full s)).take n :=
  read_upTo h (full s) n hn

theorem wf_full {h : Heap} {s : Slice} (w : WF h s) : WF h (full s) := ⟨Nat.le_refl _, w.2⟩

theorem wf_of_full {h : Heap} {s : Slice} (hs : s.len ≤ s.cap) (w : WF h (full s)) : WF h s := ⟨hs, w.2⟩

/-- What happens elsewhere does not matter to a running call. -/
theorem good_stable {h h' : Heap} {p : Call} {input : Str} (g : Good h p input) (hd : Same h h' p.data)
    (hb : ∀ b ∈ bufs p, Same h h' (full b)) : Good h' p input := by
  have hs : Same h h' (full p.scratch) := by
    apply hb
    unfold bufs
    split <;> simp
  have rs : ∀ n, n ≤ p.scratch.cap → h'.read (p.scratch.upTo n) = h.read (p.scratch.upTo n) := by
    intro n hn
    rw [read_full _ hn, read_full _ hn, hs.2]
  have rs0 : h'.read p.scratch = h.read p.scratch := rs p.scratch.len g.wfs.1
  refine ⟨hd.1, wf_of_full g.wfs.1 hs.1, g.ap, ?_, g.small, ?_, g.total, g.bound, by rw [hd.2]; exact g.arg⟩
  · rw [hd.2, rs0]; exact g.cont
  · have hp := g.pc
    unfold PcOk at hp ⊢
    unfold bufs at hb
    split
    · trivial
    · rename_i t i he
      rw [he] at hp hb
      obtain ⟨q, rest, h1, h2, h3, h4, h5, h6, h7, h8⟩ := hp
      have ht : Same h h' (full t) := hb t (by simp)
      have rt : h'.read t = h.read t := by
        have e1 := read_full (h := h') t h2.1
        have e2 := read_full (h := h) t h2.1
        have e3 : t.upTo t.len = t := rfl
        rw [e3] at e1 e2
        rw [e1, e2, ht.2]
      exact ⟨q, rest, h1, wf_of_full h2.1 ht.1, h3, h4, h5, h6, by rw [rt, rs0]; exact h7, h8⟩
    · rename_i i he
      rw [he] at hp
      obtain ⟨q, rest, h1, h2, h3, h4⟩ := hp
      have := need_ge p.scratch (g.small q (by rw [h1]; simp))
      exact ⟨q, rest, h1, h2, h3, by rw [rs _ (by omega), rs0]; exact h4⟩
    · rename_i he
      rw [he] at hp
      exact hp
    · rename_i he
      rw [he] at hp
      exact hp

theorem cost_nil (n : Nat) : cost n [] = 0 := rfl

theorem cost_cons (n : Nat) (q : Req) (todo : List Req) :
    cost n (q :: todo) = 4 * n + q.bytes.length + 3 + cost n todo := by
  simp [cost]

theorem pending_cons (q : Req) (todo : List Req) : pending (q :: todo) = q.bytes ++ pending todo := by
  simp [pending]

theorem pending_nil : pending [] = [] := rfl

theorem frame_refl {h : Heap} {p p' : Call} (hb : bufs p' = bufs p) : StepFrame h p h p' :=
  fun _ w a => ⟨w, rfl, by rw [hb]; exact a⟩

/-- The head of a round of `From`. -/
theorem fromRound_good {h : Heap} {p : Call} {input : Str} (g : Good h p input) (hd : p.dir = .from_)
    (hpc : p.pc = .round) (ht : p.todo = []) :
    (Good h (p.fromRound h) input ∨ Returned h (p.fromRound h) input) ∧
    left input.length (p.fromRound h) < left input.length p ∧ bufs (p.fromRound h) = bufs p := by
  have hbufs : bufs p = [p.scratch] := by unfold bufs; rw [hpc]
  have hleft : left input.length p = p.data.len * (8 * input.length + 15) + 1 := by
    unfold left; rw [hpc, ht]; rfl
  have hc := g.cont
  rw [hd, ht, pending_nil, List.append_nil] at hc
  simp only [Cont] at hc
  have hb := g.bound
  rw [ht, pending_nil, List.length_nil] at hb
  have htot := g.total
  unfold Call.fromRound
  by_cases h0 : p.data.len = 0
  · rw [if_pos h0]
    refine ⟨.inr ⟨_, _, rfl, g.wfs, ?_, .inl rfl, g.wfs, fun _ => by simp only; omega⟩, ?_, ?_⟩
    · rw [read_empty h0] at hc
      simp only [hd, expected, From]
      rw [← hc]
      rfl
    · rw [hleft]; simp [left]
    · rw [hbufs]; rfl
  · rw [if_neg h0]
    obtain ⟨b, rest, hr⟩ := read_cons g.wfd h0
    have hlen := read_length g.wfd
    have hb0 := byteAt_cons hr
    rw [hb0]
    have hmul : ∀ k, 1 ≤ k → k ≤ p.data.len →
        (p.data.len - k) * (8 * input.length + 15) + (8 * input.length + 15) ≤
          p.data.len * (8 * input.length + 15) := by
      intro k h1 h2
      rw [← Nat.succ_mul]
      exact Nat.mul_le_mul_right _ (by omega)
    by_cases hb1 : b &&& 0x80 = 0
    · rw [if_pos hb1]
      refine ⟨.inl ⟨?_, g.wfs, apart_from 1 g.ap, ?_, ?_, ?_, ?_, ?_, by
        simp only [read_from, g.arg, List.drop_drop]⟩, ?_, ?_⟩
      · exact wf_from g.wfd 1 (by omega)
      · simp only [hd, Cont, read_from, hr, pending_cons, pending_nil, List.append_nil, List.drop_one, List.tail_cons]
        rw [← hc, hr]
        cases rest with
        | nil => simp [fromLoop, hb1]
        | cons b1 rest => rw [fromLoop, if_pos hb1]
      · simp
      · unfold PcOk; simp only [hpc]
      · simp only [Slice.from]; omega
      · simp only [pending_cons, pending_nil]; simp; omega
      · rw [hleft]
        unfold left
        simp only [hpc, cost_cons, cost_nil, Slice.from, List.length_cons, List.length_nil]
        have := hmul 1 (Nat.le_refl _) (by omega)
        omega
      · rw [hbufs]; unfold bufs; simp only [hpc]
    · rw [if_neg hb1]
      by_cases h2 : p.data.len < 2
      · rw [if_pos h2]
        refine ⟨.inr ⟨_, _, rfl, wf_nil h, ?_, .inr rfl, g.wfs, fun h => by cases h⟩, ?_, ?_⟩
        · rw [hr] at hlen
          cases rest with
          | cons b1 rest => simp at hlen; omega
          | nil =>
            rw [hr] at hc
            simp only [fromLoop, if_neg hb1] at hc
            simp only [hd, expected, From]
            rw [← hc]
            rw [read_empty rfl]
        · rw [hleft]; simp [left]
        · rw [hbufs]; rfl
      · rw [if_neg h2]
        cases rest with
        | nil => rw [hr] at hlen; simp at hlen; omega
        | cons b1 rest =>
          have hb2 : byteAt h p.data 1 = b1 := by unfold byteAt; rw [hr]; rfl
          rw [hb2]
          simp only
          generalize hrr : (if searchCp949 fromTable (b.toUInt16 <<< 8 ||| b1.toUInt16) < fromTable.length ∧
              b.toUInt16 <<< 8 ||| b1.toUInt16 =
                (fromTable.getD (searchCp949 fromTable (b.toUInt16 <<< 8 ||| b1.toUInt16)) default).cp949 then
            Int32.ofNat (fromTable.getD (searchCp949 fromTable (b.toUInt16 <<< 8 ||| b1.toUInt16)) default).ucs2.toNat
            else RuneError) = r
          have hel := encodeRune_length r
          refine ⟨.inl ⟨?_, g.wfs, apart_from 2 g.ap, ?_, ?_, ?_, ?_, ?_, by
            simp only [read_from, g.arg, List.drop_drop]⟩, ?_, ?_⟩
          · exact wf_from g.wfd 2 (by omega)
          · simp only [hd, Cont, read_from, hr, pending_cons, pending_nil, List.append_nil]
            rw [← hc, hr, fromLoop, if_neg hb1]
            simp only [List.drop_succ_cons, List.drop_zero]
            congr 1
            rw [← hrr]
            unfold appendRune
            split <;> rfl
          · simp only [List.mem_singleton]
            rintro q rfl
            exact hel
          · unfold PcOk; simp only [hpc]
          · simp only [Slice.from]; omega
          · simp only [pending_cons, pending_nil, List.append_nil]; omega
          · rw [hleft]
            unfold left
            simp only [hpc, cost_cons, cost_nil, Slice.from]
            have := hmul 2 (by omega) (by omega)
            omega
          · rw [hbufs]; unfold bufs; simp only [hpc]

/-- The head of a round of `To`. -/
theorem toRound_good {h : Heap} {p : Call} {input : Str} (g : Good h p input) (hd : p.dir = .to_)
    (hpc : p.pc = .round) (ht : p.todo = []) :
    (Good h (p.toRound h) input ∨ Returned h (p.toRound h) input) ∧
    left input.length (p.toRound h) < left input.length p ∧ bufs (p.toRound h) = bufs p := by
  have hbufs : bufs p = [p.scratch] := by unfold bufs; rw [hpc]
  have hleft : left input.length p = p.data.len * (8 * input.length + 15) + 1 := by
    unfold left; rw [hpc, ht]; rfl
  have hc := g.cont
  rw [hd, ht, pending_nil, List.append_nil] at hc
  simp only [Cont] at hc
  obtain ⟨fuel, hf, hc⟩ := hc
  have hb := g.bound
  rw [ht, pending_nil, List.length_nil] at hb
  have htot := g.total
  unfold Call.toRound
  by_cases h0 : p.data.len = 0
  · rw [if_pos h0]
    refine ⟨.inr ⟨_, _, rfl, g.wfs, ?_, .inl rfl, g.wfs, fun _ => by simp only; omega⟩, ?_, ?_⟩
    · rw [read_empty h0] at hc
      have : toLoop toTable fuel [] (h.read p.scratch) p.c = (p.c, h.read p.scratch, none) := by
        cases fuel <;> rfl
      rw [this] at hc
      simp only [hd, expected, To]
      rw [← hc]
    · rw [hleft]; simp [left]
    · rw [hbufs]; rfl
  · rw [if_neg h0]
    obtain ⟨b, rest, hr⟩ := read_cons g.wfd h0
    have hlen := read_length g.wfd
    have hb0 := byteAt_cons hr
    rw [hb0]
    have hmul : ∀ k, 1 ≤ k → k ≤ p.data.len →
        (p.data.len - k) * (8 * input.length + 15) + (8 * input.length + 15) ≤
          p.data.len * (8 * input.length + 15) := by
      intro k h1 h2
      rw [← Nat.succ_mul]
      exact Nat.mul_le_mul_right _ (by omega)
    cases fuel with
    | zero => rw [hr] at hf; simp at hf
    | succ fuel =>
      rw [hr] at hf
      simp only [List.length_cons] at hf
      by_cases hb1 : b &&& 0x80 = 0
      · rw [if_pos hb1]
        refine ⟨.inl ⟨?_, g.wfs, apart_from 1 g.ap, ?_, ?_, ?_, ?_, ?_, by
        simp only [read_from, g.arg, List.drop_drop]⟩, ?_, ?_⟩
        · exact wf_from g.wfd 1 (by omega)
        · simp only [hd, Cont, read_from, hr, pending_cons, pending_nil, List.append_nil, List.drop_one, List.tail_cons]
          refine ⟨fuel, by omega, ?_⟩
          rw [← hc, hr]
          simp only [toLoop, if_pos hb1]
        · simp
        · unfold PcOk; simp only [hpc]
        · simp only [Slice.from]; omega
        · simp only [pending_cons, pending_nil]; simp; omega
        · rw [hleft]
          unfold left
          simp only [hpc, cost_cons, cost_nil, Slice.from, List.length_cons, List.length_nil]
          have := hmul 1 (Nat.le_refl _) (by omega)
          omega
        · rw [hbufs]; unfold bufs; simp only [hpc]
      · rw [if_neg hb1]
        have hw := width_pos b rest
        rw [hr] at hlen ⊢
        simp only [List.length_cons] at hlen hw
        rw [hr] at hc
        simp only [toLoop, if_neg hb1] at hc
        generalize hdr : DecodeRune (b :: rest) = rs at hc hw
        obtain ⟨r, s⟩ := rs
        simp only at hc hw ⊢
        generalize r.toUInt32.toUInt16 = u at hc
        generalize searchUcs2 toTable u = fi at hc
        generalize hfirst : (if fi ≥ toTable.length then [(⟨false, [0x3F]⟩ : Req)] else []) = first
        generalize hlast : (if fi < toTable.length ∧ u = (toTable.getD fi default).ucs2 then
          (⟨false, [((toTable.getD fi default).cp949 >>> 8).toUInt8, ((toTable.getD fi default).cp949 &&& 0xFF).toUInt8]⟩ : Req)
          else ⟨false, [0x3F]⟩) = last
        have hpf : pending first = if fi ≥ toTable.length then [0x3F] else [] := by
          rw [← hfirst]; split <;> rfl
        have hpl : last.bytes = if fi < toTable.length ∧ u = (toTable.getD fi default).ucs2 then
            [((toTable.getD fi default).cp949 >>> 8).toUInt8, ((toTable.getD fi default).cp949 &&& 0xFF).toUInt8]
            else [0x3F] := by
          rw [← hlast]; split <;> rfl
        have hll : last.bytes.length ≤ 2 := by rw [hpl]; split <;> simp
        have hpa : pending (first ++ [last]) = pending first ++ last.bytes := by
          simp [pending]
        have hfl : (pending first).length ≤ 1 := by rw [hpf]; split <;> simp
        have hfs : ∀ q ∈ first, q.bytes.length ≤ 4 := by
          rw [← hfirst]; split <;> simp
        have hcf : cost input.length (first ++ [last]) ≤ 8 * input.length + 10 := by
          have : cost input.length first ≤ 4 * input.length + 4 := by
            rw [← hfirst]; split <;> simp [cost]
          have e : cost input.length (first ++ [last]) = cost input.length first + (4 * input.length + last.bytes.length + 3) := by
            simp [cost]
          omega
        refine ⟨.inl ⟨?_, g.wfs, apart_from s g.ap, ?_, ?_, ?_, ?_, ?_, by
          simp only [read_from, g.arg, List.drop_drop]⟩, ?_, ?_⟩
        · exact wf_from g.wfd s (by omega)
        · simp only [hd, Cont, read_from, hr]
          refine ⟨fuel, by rw [List.length_drop, List.length_cons]; omega, ?_⟩
          rw [← hc]
          congr 1
          rw [hpa, hpf, hpl]
          by_cases hfi : fi ≥ toTable.length
          · rw [if_pos hfi, if_pos hfi, if_neg (by omega), if_neg (by omega)]
            simp
          · rw [if_neg hfi, if_neg hfi]
            split <;> simp
        · intro q hq
          rcases List.mem_append.1 hq with hq | hq
          · exact hfs q hq
          · simp only [List.mem_singleton] at hq
            subst hq
            omega
        · unfold PcOk; simp only [hpc]
        · simp only [Slice.from]; omega
        · simp only [hpa, List.length_append]; omega
        · rw [hleft]
          unfold left
          simp only [hpc, Slice.from]
          have := hmul s (by omega) (by omega)
          omega
        · rw [hbufs]; unfold bufs; simp only [hpc]

/-- One step of a running call. -/
theorem step_good (grow : Nat → Nat → Nat) {h : Heap} {p : Call} {input : Str} (g : Good h p input) :
    (Good (p.step grow h).2 (p.step grow h).1 input ∨ Returned (p.step grow h).2 (p.step grow h).1 input) ∧
    left input.length (p.step grow h).1 < left input.length p ∧
    StepFrame h p (p.step grow h).2 (p.step grow h).1 := by
  have hpcok := g.pc
  unfold PcOk at hpcok
  have hb := g.bound
  have htot := g.total
  unfold Call.step
  split
  · rename_i he
    rw [he] at hpcok
    exact hpcok.elim
  · rename_i he
    rw [he] at hpcok
    exact hpcok.elim
  · rename_i he ht
    cases hd : p.dir with
    | from_ =>
      obtain ⟨h1, h2, h3⟩ := fromRound_good g hd he ht
      exact ⟨h1, h2, frame_refl h3⟩
    | to_ =>
      obtain ⟨h1, h2, h3⟩ := toRound_good g hd he ht
      exact ⟨h1, h2, frame_refl h3⟩
  · rename_i q rest he ht
    have hq4 := g.small q (by rw [ht]; simp)
    have hng := need_ge p.scratch hq4
    have hbufs : bufs p = [p.scratch] := by unfold bufs; rw [he]
    have hleft : left input.length p =
        p.data.len * (8 * input.length + 15) + 1 + (4 * input.length + q.bytes.length + 3 + cost input.length rest) := by
      unfold left; rw [he, ht, ← cost_cons]
    rw [ht, pending_cons, List.length_append] at hb
    split
    · rename_i hc
      refine ⟨.inl ⟨g.wfd, g.wfs, g.ap, g.cont, g.small, ?_, g.total, g.bound, g.arg⟩, ?_, ?_⟩
      · exact ⟨q, rest, ht, hc, by omega, by simp [Slice.upTo]⟩
      · rw [hleft]
        unfold left
        simp only [ht]
        omega
      · exact frame_refl (by rw [hbufs]; rfl)
    · rename_i hc
      simp only
      have hcap := newCap_ge grow q p.scratch
      generalize q.newCap grow p.scratch = m at hcap
      obtain ⟨_, hw, hr⟩ := push_frame h p.scratch (List.replicate m 0) p.scratch.len m
      have hwt : WF (h ++ [List.replicate m 0]) ⟨h.length, 0, p.scratch.len, m⟩ := by
        refine ⟨by simp only; omega, .inr ?_⟩
        simp only
        rw [arr_push]
        simp
      refine ⟨.inl ⟨hw _ g.wfd, hw _ g.wfs, g.ap, ?_, g.small, ?_, g.total, g.bound, by
        simp only; rw [(hr _ g.wfd).1]; exact g.arg⟩, ?_, ?_⟩
      · simp only
        rw [(hr _ g.wfd).1, (hr _ g.wfs).1]
        exact g.cont
      · exact ⟨q, rest, ht, hwt, rfl, by omega, (hr _ g.wfd).2, (hr _ g.wfs).2, by simp, by
          unfold Req.need at hcap ⊢; exact hcap⟩
      · rw [hleft]
        unfold left
        simp only [ht]
        omega
      · intro t wt at_
        refine ⟨hw _ wt, (hr _ wt).1, ?_⟩
        intro b hb
        simp only [bufs, List.mem_cons, List.not_mem_nil, or_false] at hb
        rcases hb with rfl | rfl
        · exact at_ _ (by rw [hbufs]; simp)
        · exact (hr _ wt).2
  · rename_i t i he
    rw [he] at hpcok
    obtain ⟨q, rest, ht, wt, hl, hi, hdt, hst, htake, hneed⟩ := hpcok
    have hbufs : bufs p = [p.scratch, t] := by unfold bufs; rw [he]
    have hq4 := g.small q (by rw [ht]; simp)
    have hng := need_ge t hq4
    have hleft : left input.length p = p.data.len * (8 * input.length + 15) + 1 +
        (4 * input.length - i + 2 + q.bytes.length) + cost input.length rest := by
      unfold left; rw [he, ht]
    split
    · rename_i hlt
      have hcap : i + 1 ≤ t.cap := by have := wt.1; omega
      obtain ⟨hf, hw, _⟩ := write_frame wt i [byteAt h p.scratch i] hcap
      have hrd := write_read wt i [byteAt h p.scratch i] hcap t.len wt.1
      have hu : t.upTo t.len = t := rfl
      rw [hu] at hrd
      generalize h.write t.arr (t.off + i) [byteAt h p.scratch i] = h' at *
      obtain ⟨wd', rd', _⟩ := hf _ g.wfd hdt
      obtain ⟨ws', rs', _⟩ := hf _ g.wfs hst
      refine ⟨.inl ⟨wd', ws', g.ap, ?_, g.small, ?_, g.total, g.bound, rd'.trans g.arg⟩, ?_, ?_⟩
      · simp only
        rw [rd', rs']
        exact g.cont
      · refine ⟨q, rest, ht, hw _ wt, hl, hlt, hdt, hst, ?_, hneed⟩
        simp only
        refine List.ext_getElem? fun j => ?_
        rw [List.getElem?_take, List.getElem?_take, hrd j, rs']
        have hj0 := congrArg (fun l => l[j]?) htake
        simp only [List.getElem?_take] at hj0
        by_cases hj : j < i
        · rw [if_pos hj, if_pos hj, read_lt h (by omega)] at hj0
          rw [if_pos (by omega), if_pos (by omega), if_pos hj, if_pos (by omega), hj0]
        · by_cases hj2 : j = i
          · subst hj2
            rw [if_pos (by omega), if_pos (by omega), if_neg hj, if_pos (by simp), if_pos (by omega)]
            have hlen := read_length g.wfs
            have hlt' : j < (h.read p.scratch).length := by rw [hlen]; exact hlt
            unfold byteAt
            rw [List.getD_eq_getElem?_getD, List.getElem?_eq_getElem hlt']
            simp
          · rw [if_neg (by omega), if_neg (by omega)]
      · rw [hleft]
        unfold left
        simp only [ht]
        omega
      · intro u wu au
        obtain ⟨w1, r1, a1⟩ := hf u wu (au t (by rw [hbufs]; simp))
        refine ⟨w1, r1, ?_⟩
        intro b hb
        refine au b ?_
        rw [hbufs]
        exact hb
    · rename_i hlt
      have hii : i = p.scratch.len := by omega
      rw [ht]
      simp only
      rw [if_pos hneed]
      have hrt : h.read t = h.read p.scratch := by
        have l1 := read_length wt
        have l2 := read_length g.wfs
        rw [List.take_of_length_le (by omega), List.take_of_length_le (by omega)] at htake
        exact htake
      refine ⟨.inl ⟨g.wfd, wt, hdt, ?_, ?_, ?_, g.total, ?_, g.arg⟩, ?_, ?_⟩
      · simp only
        rw [hrt, ← ht]
        exact g.cont
      · simp only
        rw [← ht]
        exact g.small
      · exact ⟨q, rest, rfl, hneed, by omega, by simp [Slice.upTo]⟩
      · simp only
        rw [hl, ← ht]
        exact g.bound
      · rw [hleft]
        unfold left
        simp only
        omega
      · intro u wu au
        refine ⟨wu, rfl, ?_⟩
        intro b hb
        refine au b ?_
        rw [hbufs]
        simp only [bufs, List.mem_singleton] at hb
        rw [hb]
        simp
  · rename_i i he ht
    rw [he] at hpcok
    obtain ⟨q, rest, ht', _⟩ := hpcok
    rw [ht] at ht'
    cases ht'
  · rename_i i q rest he ht
    rw [he] at hpcok
    obtain ⟨q', rest', ht', hneed, hi, hrd⟩ := hpcok
    rw [ht] at ht'
    obtain ⟨rfl, rfl⟩ : q = q' ∧ rest = rest' := by cases ht'; exact ⟨rfl, rfl⟩
    have hbufs : bufs p = [p.scratch] := by unfold bufs; rw [he]
    have hq4 := g.small q (by rw [ht]; simp)
    have hng := need_ge p.scratch hq4
    have hleft : left input.length p = p.data.len * (8 * input.length + 15) + 1 +
        (q.bytes.length - i + 1) + cost input.length rest := by
      unfold left; rw [he, ht]
    split
    · rename_i hlt
      have hcap : p.scratch.len + i + 1 ≤ p.scratch.cap := by omega
      obtain ⟨hf, hw, _⟩ := write_frame g.wfs (p.scratch.len + i) [q.bytes.getD i 0] hcap
      have hwr := fun n hn => write_read g.wfs (p.scratch.len + i) [q.bytes.getD i 0] hcap n hn
      generalize h.write p.scratch.arr (p.scratch.off + (p.scratch.len + i)) [q.bytes.getD i 0] = h' at *
      obtain ⟨wd', rd', _⟩ := hf _ g.wfd g.ap
      have rs' : h'.read p.scratch = h.read p.scratch := by
        refine List.ext_getElem? fun j => ?_
        have := hwr p.scratch.len g.wfs.1 j
        have hu : p.scratch.upTo p.scratch.len = p.scratch := rfl
        rw [hu] at this
        rw [this, read_getElem?]
        by_cases hj : j < p.scratch.len
        · rw [if_pos hj, if_pos hj, if_pos (by omega)]
        · rw [if_neg hj, if_neg hj]
      refine ⟨.inl ⟨wd', hw _ g.wfs, g.ap, ?_, g.small, ?_, g.total, g.bound, rd'.trans g.arg⟩, ?_, ?_⟩
      · simp only
        rw [rd', rs']
        exact g.cont
      · refine ⟨q, rest, ht, hneed, hlt, ?_⟩
        simp only
        refine List.ext_getElem? fun j => ?_
        rw [hwr _ (by omega) j, rs']
        have hl := read_length g.wfs
        have hj0 := congrArg (fun l => l[j]?) hrd
        simp only [List.getElem?_append, List.getElem?_take, hl, read_getElem?, Slice.upTo] at hj0 ⊢
        by_cases hj : j < p.scratch.len + i
        · rw [if_pos hj] at hj0
          rw [if_pos (by omega), if_pos hj, hj0]
          split
          · rfl
          · rw [if_pos (by omega), if_pos (by omega)]
        · by_cases hj2 : j = p.scratch.len + i
          · subst hj2
            rw [if_pos (by omega), if_neg hj, if_pos (by simp), if_neg (by omega), if_pos (by omega)]
            rw [List.getD_eq_getElem?_getD, Nat.sub_self, Nat.add_sub_cancel_left,
              List.getElem?_eq_getElem hlt]
            simp
          · rw [if_neg (by omega), if_neg (by omega), if_neg (by omega)]
      · rw [hleft]
        unfold left
        simp only [ht]
        omega
      · intro u wu au
        obtain ⟨w1, r1, a1⟩ := hf u wu (au _ (by rw [hbufs]; simp))
        refine ⟨w1, r1, ?_⟩
        intro b hb
        refine au b ?_
        rw [hbufs]
        exact hb
    · rename_i hlt
      have hii : i = q.bytes.length := by omega
      subst hii
      rw [List.take_length] at hrd
      rw [ht, pending_cons, List.length_append] at hb
      refine ⟨.inl ⟨g.wfd, wf_upTo g.wfs _ (by omega), apart_upTo _ g.ap, ?_, ?_, ?_, g.total, ?_, g.arg⟩, ?_, ?_⟩
      · simp only
        rw [hrd]
        have := g.cont
        rw [ht, pending_cons, ← List.append_assoc] at this
        exact this
      · intro r hr
        exact g.small r (by rw [ht]; exact List.mem_cons_of_mem _ hr)
      · unfold PcOk
        trivial
      · simp only [Slice.upTo]
        omega
      · rw [hleft]
        unfold left
        simp only
        omega
      · intro u wu au
        refine ⟨wu, rfl, ?_⟩
        intro b hb
        simp only [bufs, List.mem_singleton] at hb
        subst hb
        exact apart_upTo _ (au _ (by rw [hbufs]; simp))

/-- A translator is called, with a scratch buffer from before. -/
theorem resume_good {h : Heap} (d : Dir) {in_ scratch : Slice} (w : WF h in_) (ws : WF h scratch) (ap : Apart in_ scratch) :
    Good h (Call.resume d scratch in_) (h.read in_) := by
  refine ⟨w, wf_upTo ws 0 (Nat.zero_le _), apart_upTo 0 ap, ?_, ?_, trivial, ?_, ?_, rfl⟩
  · cases d with
    | from_ => simp only [Call.resume, Cont, pending_nil]; rw [read_empty (s := scratch.upTo 0) rfl]; rfl
    | to_ => simp only [Call.resume, Cont, pending_nil]; rw [read_empty (s := scratch.upTo 0) rfl]; exact ⟨_, Nat.le_refl _, rfl⟩
  · simp [Call.resume]
  · simp only [Call.resume]; rw [read_length w]; omega
  · simp [Call.resume, pending, Slice.upTo]

/-- A new call. -/
theorem start_good {h : Heap} (d : Dir) {in_ : Slice} (w : WF h in_) :
    Good h (Call.start d in_) (h.read in_) := by
  refine ⟨w, wf_nil h, apart_nil in_, ?_, ?_, trivial, ?_, ?_, rfl⟩
  · cases d with
    | from_ => simp only [Call.start, Cont, pending_nil]; rw [read_empty (s := .nil) rfl]; rfl
    | to_ => simp only [Call.start, Cont, pending_nil]; rw [read_empty (s := .nil) rfl]; exact ⟨_, Nat.le_refl _, rfl⟩
  · simp [Call.start]
  · simp only [Call.start]; rw [read_length w]; omega
  · simp [Call.start, pending, Slice.nil]

theorem returned_not_live {h : Heap} {p : Call} {input : Str} (r : Returned h p input) : ¬ Live p := by
  obtain ⟨out, err, he, _⟩ := r
  exact fun hl => hl out err he

/-- The most steps a call with an argument of `n` bytes can take. -/
def maxSteps (n : Nat) : Nat := n * (8 * n + 15) + 1

theorem step_dir (grow : Nat → Nat → Nat) (h : Heap) (p : Call) : (p.step grow h).1.dir = p.dir := by
  unfold Call.step
  split <;> try rfl
  · split
    · unfold Call.fromRound; split
      · rfl
      · split
        · rfl
        · split <;> rfl
    · unfold Call.toRound; split
      · rfl
      · split <;> rfl
  · split <;> rfl
  · split
    · rfl
    · split
      · rfl
      · split <;> rfl
  · split <;> rfl

/-- The argument only gets shorter from the front. -/
theorem step_data (grow : Nat → Nat → Nat) (h : Heap) (p : Call) :
    ∃ k, (p.step grow h).1.data = p.data ∨ (p.step grow h).1.data = p.data.from k := by
  unfold Call.step
  split <;> try exact ⟨0, .inl rfl⟩
  · simp only
    split
    · unfold Call.fromRound; split
      · exact ⟨0, .inl rfl⟩
      · split
        · exact ⟨_, .inr rfl⟩
        · split
          · exact ⟨0, .inl rfl⟩
          · exact ⟨_, .inr rfl⟩
    · unfold Call.toRound; split
      · exact ⟨0, .inl rfl⟩
      · split
        · exact ⟨_, .inr rfl⟩
        · exact ⟨_, .inr rfl⟩
  · split <;> exact ⟨0, .inl rfl⟩
  · split
    · exact ⟨0, .inl rfl⟩
    · split
      · exact ⟨0, .inl rfl⟩
      · split <;> exact ⟨0, .inl rfl⟩
  · split <;> exact ⟨0, .inl rfl⟩

theorem apart_full {t s : Slice} : Apart (full t) s ↔ Apart t s := Iff.rfl

/-- All calls are well. -/
structure AllGood (s : State) : Prop where
  good : ∀ (i : Nat) (x : Thread), s.threads[i]? = some x → Live x.call →
    Good s.heap x.call x.input ∧ x.call.dir = x.fn ∧
      x.steps + left x.input.length x.call ≤ maxSteps x.input.length
  sep : ∀ (i j : Nat) (x y : Thread), s.threads[i]? = some x → s.threads[j]? = some y → i ≠ j →
    Live x.call → Live y.call → ∀ a ∈ bufs x.call, ∀ b ∈ bufs y.call, Apart a b
  input : ∀ (i j : Nat) (x y : Thread), s.threads[i]? = some x → s.threads[j]? = some y →
    Live x.call → Live y.call → ∀ b ∈ bufs y.call, Apart x.call.data b

theorem bufs_wf {h : Heap} {p : Call} {input : Str} (g : Good h p input) : ∀ b ∈ bufs p, WF h b := by
  have hp := g.pc
  unfold PcOk at hp
  unfold bufs
  split
  · rename_i t i he
    rw [he] at hp
    obtain ⟨q, rest, _, wt, _⟩ := hp
    intro b hb
    simp only [List.mem_cons, List.not_mem_nil, or_false] at hb
    rcases hb with rfl | rfl
    · exact g.wfs
    · exact wt
  · intro b hb
    simp only [List.mem_singleton] at hb
    subst hb
    exact g.wfs

theorem data_apart {h : Heap} {p : Call} {input : Str} (g : Good h p input) : ∀ b ∈ bufs p, Apart p.data b := by
  have hp := g.pc
  unfold PcOk at hp
  unfold bufs
  split
  · rename_i t i he
    rw [he] at hp
    obtain ⟨q, rest, _, wt, _, _, hd, _⟩ := hp
    intro b hb
    simp only [List.mem_cons, List.not_mem_nil, or_false] at hb
    rcases hb with rfl | rfl
    · exact g.ap
    · exact hd
  · intro b hb
    simp only [List.mem_singleton] at hb
    subst hb
    exact g.ap

theorem apart_step_data (grow : Nat → Nat → Nat) (h : Heap) (p : Call) {b : Slice} (hb : Apart p.data b) :
    Apart (p.step grow h).1.data b := by
  obtain ⟨k, hk | hk⟩ := step_data grow h p <;> rw [hk]
  · exact hb
  · exact apart_from k hb

/-- A returned call does nothing. -/
theorem step_done (grow : Nat → Nat → Nat) (h : Heap) {p : Call} (hp : ¬ Live p) : p.step grow h = (p, h) := by
  unfold Live at hp
  have : ∃ out err, p.pc = .done out err := by
    cases e : p.pc with
    | done out err => exact ⟨out, err, rfl⟩
    | _ => exact (hp (fun out err h' => by rw [e] at h'; cases h')).elim
  obtain ⟨out, err, he⟩ := this
  unfold Call.step
  rw [he]

/-- Threads after a step. -/
theorem set_cases {ts : List Thread} {i j : Nat} {y z : Thread}
    (h : (ts.set i y)[j]? = some z) : (j = i ∧ z = y) ∨ (j ≠ i ∧ ts[j]? = some z) := by
  rw [List.getElem?_set] at h
  split at h
  · rename_i e
    split at h
    · left
      exact ⟨e.symm, by cases h; rfl⟩
    · cases h
  · rename_i e
    exact .inr ⟨fun e' => e e'.symm, h⟩

theorem event_good {grow : Nat → Nat → Nat} {s s' : State} (a : AllGood s) (e : Event grow s s') : AllGood s' := by
  cases e with
  | @call h ts d in_ w ap =>
    have new : ∀ (i : Nat) (x : Thread), (ts ++ [⟨.start d in_, d, h.read in_, 0⟩])[i]? = some x →
        ts[i]? = some x ∨ (i = ts.length ∧ x = ⟨.start d in_, d, h.read in_, 0⟩) := by
      intro i x hx
      rcases Nat.lt_trichotomy i ts.length with h1 | h1 | h1
      · rw [List.getElem?_append_left h1] at hx
        exact .inl hx
      · subst h1
        rw [List.getElem?_append_right (Nat.le_refl _)] at hx
        simp at hx
        exact .inr ⟨rfl, hx.symm⟩
      · rw [List.getElem?_append_right (by omega)] at hx
        rw [List.getElem?_eq_none (by simp; omega)] at hx
        cases hx
    have hnb : bufs (Call.start d in_) = [.nil] := rfl
    refine ⟨?_, ?_, ?_⟩
    · intro i x hx hl
      rcases new i x hx with hx | ⟨_, rfl⟩
      · exact a.good i x hx hl
      · refine ⟨start_good d w, rfl, ?_⟩
        simp only [left, Call.start, maxSteps, cost_nil]
        rw [read_length w]
        omega
    · intro i j x y hx hy hij hlx hly
      rcases new i x hx with hx | ⟨hi, rfl⟩
      · rcases new j y hy with hy | ⟨_, rfl⟩
        · exact a.sep i j x y hx hy hij hlx hly
        · intro p hp q hq
          rw [hnb, List.mem_singleton] at hq
          subst hq
          exact apart_nil p
      · intro p hp q hq
        rw [hnb, List.mem_singleton] at hp
        subst hp
        exact nil_apart q
    · intro i j x y hx hy hlx hly b hb
      rcases new j y hy with hy | ⟨_, rfl⟩
      · rcases new i x hx with hx | ⟨_, rfl⟩
        · exact a.input i j x y hx hy hlx hly b hb
        · exact ap y (List.mem_of_getElem? hy) hly b hb
      · rw [hnb, List.mem_singleton] at hb
        subst hb
        exact apart_nil _
  | @step h ts i x hx =>
    by_cases hl : Live x.call
    · obtain ⟨g, hdir, hst⟩ := a.good i x hx hl
      obtain ⟨hres, hleft, hfr⟩ := step_good grow g
      have hdata := step_data grow h x.call
      have hd := step_dir grow h x.call
      have had := fun b (hb : Apart x.call.data b) => apart_step_data grow h x.call hb
      simp only at g hst
      generalize x.call.step grow h = r at *
      obtain ⟨p', h'⟩ := r
      simp only at *
      have hgood : Live p' → Good h' p' x.input := fun hl' =>
        hres.resolve_right fun hr => returned_not_live hr hl'
      -- another call sees nothing of this
      have other : ∀ j y, ts[j]? = some y → j ≠ i → Live y.call →
          Good h' y.call y.input ∧ (∀ a ∈ bufs y.call, ∀ b ∈ bufs p', Apart a b) ∧
          (∀ b ∈ bufs p', Apart y.call.data b) := by
        intro j y hy hji hly
        obtain ⟨gy, _, _⟩ := a.good j y hy hly
        obtain ⟨w1, r1, a1⟩ := hfr y.call.data gy.wfd (fun b hb => a.input j i y x hy hx hly hl b hb)
        have hb : ∀ c ∈ bufs y.call, Same h h' (full c) ∧ ∀ b ∈ bufs p', Apart c b := by
          intro c hc
          obtain ⟨w2, r2, a2⟩ := hfr (full c) (wf_full (bufs_wf gy c hc))
            (fun b hb => apart_full.2 (a.sep j i y x hy hx hji hly hl c hc b hb))
          exact ⟨⟨w2, r2⟩, fun b hb => apart_full.1 (a2 b hb)⟩
        exact ⟨good_stable gy ⟨w1, r1⟩ fun c hc => (hb c hc).1, fun c hc => (hb c hc).2, a1⟩
      refine ⟨?_, ?_, ?_⟩
      · intro j y hy hly
        rcases set_cases hy with ⟨rfl, rfl⟩ | ⟨hji, hy⟩
        · exact ⟨hgood hly, by simp only; rw [hd, hdir], by simp only; omega⟩
        · obtain ⟨_, hd, hs⟩ := a.good j y hy hly
          exact ⟨(other j y hy hji hly).1, hd, hs⟩
      · intro j k y z hy hz hjk hly hlz
        rcases set_cases hy with ⟨hj, rfl⟩ | ⟨hji, hy⟩
        · rcases set_cases hz with ⟨hk, rfl⟩ | ⟨hki, hz⟩
          · omega
          · intro p hp q hq
            exact ((other k z hz hki hlz).2.1 q hq p hp).symm
        · rcases set_cases hz with ⟨hk, rfl⟩ | ⟨hki, hz⟩
          · intro p hp q hq
            exact (other j y hy hji hly).2.1 p hp q hq
          · exact a.sep j k y z hy hz hjk hly hlz
      · intro j k y z hy hz hly hlz b hb
        rcases set_cases hy with ⟨hj, rfl⟩ | ⟨hji, hy⟩
        · rcases set_cases hz with ⟨hk, rfl⟩ | ⟨hki, hz⟩
          · exact data_apart (hgood hly) b hb
          · exact had b (a.input i k x z hx hz hl hlz b hb)
        · rcases set_cases hz with ⟨hk, rfl⟩ | ⟨hki, hz⟩
          · exact (other j y hy hji hly).2.2 b hb
          · exact a.input j k y z hy hz hly hlz b hb
    · rw [step_done grow h hl]
      simp only
      have old : ∀ (j : Nat) (y : Thread), (ts.set i ⟨x.call, x.fn, x.input, x.steps + 1⟩)[j]? = some y → Live y.call →
          ts[j]? = some y := by
        intro j y hy hly
        rcases set_cases hy with ⟨hj, rfl⟩ | ⟨hji, hy⟩
        · exact (hl hly).elim
        · exact hy
      refine ⟨?_, ?_, ?_⟩
      · intro j y hy hly
        exact a.good j y (old j y hy hly) hly
      · intro j k y z hy hz hjk hly hlz
        exact a.sep j k y z (old j y hy hly) (old k z hz hlz) hjk hly hlz
      · intro j k y z hy hz hly hlz
        exact a.input j k y z (old j y hy hly) (old k z hz hlz) hly hlz
  | @other h ts h' hs =>
    refine ⟨?_, a.sep, a.input⟩
    intro j y hy hly
    obtain ⟨g, hd, hst⟩ := a.good j y hy hly
    obtain ⟨h1, h2⟩ := hs y (List.mem_of_getElem? hy) hly
    exact ⟨good_stable g h1 h2, hd, hst⟩

theorem events_good {grow : Nat → Nat → Nat} {h : Heap} {s : State} (e : Events grow ⟨h, []⟩ s) : AllGood s := by
  induction e with
  | nil =>
    refine ⟨?_, ?_, ?_⟩
    · intro i x hx; simp at hx
    · intro i j x y hx; simp at hx
    · intro i j x y hx; simp at hx
  | snoc _ e ih => exact event_good ih e

theorem good_no_panic {h : Heap} {p : Call} {input : Str} (g : Good h p input) : p.pc ≠ .panic := by
  intro he
  have := g.pc
  unfold PcOk at this
  rw [he] at this
  exact this

end Cp949
