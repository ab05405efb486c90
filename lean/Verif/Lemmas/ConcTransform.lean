import Verif.Lemmas.ConcStream
/-! Lemmas about single steps of `Transform`. -/
namespace Cp949
open Go Spec

attribute [local irreducible] fromTable toTable rawFrom rawTo

/-- A call of `Transform` is on its way and has taken `k` steps; `d0` and `s0` are what `dst` and `src` held. -/
def TrRun (h : Heap) (p : TrState) (k : Nat) (d0 s0 : Str) : Prop :=
  WF h (clip p.dst) ∧ p.dst.len = d0.length ∧ p.src.len = s0.length ∧
  match p.pc with
  | .conv c => WF h p.src ∧ h.read p.src = s0 ∧ h.read p.dst = d0 ∧ TransOk h c p.dir p.src s0 ∧
      (∀ b ∈ bufs c, Apart (clip p.dst) b) ∧ k + left s0.length c ≤ maxSteps s0.length
  | .copy out i => WF h out ∧ (h.read out, none) = expected p.dir s0 ∧ Apart (clip p.dst) out ∧ i ≤ min d0.length out.len ∧
      h.read p.dst = (h.read out).take i ++ d0.drop i ∧ k ≤ maxSteps s0.length + 1 + i
  | _ => False

theorem trRun_stable {h h' : Heap} {p : TrState} {k : Nat} {d0 s0 : Str} (g : TrRun h p k d0 s0)
    (hb : ∀ b ∈ TrState.own p, Same h h' (full b)) (ha : ∀ a ∈ TrState.args p, Same h h' a) : TrRun h' p k d0 s0 := by
  obtain ⟨wd, hl, hl', g⟩ := g
  unfold TrRun
  unfold TrState.own at hb
  unfold TrState.args at ha
  cases hpc : p.pc with
  | ret n k err => rw [hpc] at g; exact g.elim
  | panic => rw [hpc] at g; exact g.elim
  | conv c =>
    rw [hpc] at hb ha g
    obtain ⟨ws, hs, hd, t, ap, hk⟩ := g
    have sd := same_of_full wd (hb _ (by simp))
    have ss := ha p.src (by simp)
    exact ⟨sd.1, hl, hl', ss.1, ss.2.trans hs, sd.2.trans hd,
      transOk_stable t ss (fun b hb' => hb b (List.mem_cons_of_mem _ hb')), ap, hk⟩
  | copy out i =>
    rw [hpc] at hb g
    obtain ⟨wo, ho, ap, hi, hd, hk⟩ := g
    have sd := same_of_full wd (hb _ (by simp))
    have so := same_of_full wo (hb _ (by simp))
    exact ⟨sd.1, hl, hl', so.1, by rw [so.2]; exact ho, ap, hi, by rw [so.2]; exact sd.2.trans hd, hk⟩

theorem trRun_wf {h : Heap} {p : TrState} {k : Nat} {d0 s0 : Str} (g : TrRun h p k d0 s0) :
    (∀ b ∈ TrState.own p, WF h b) ∧ ∀ a ∈ TrState.args p, WF h a := by
  obtain ⟨wd, hl, hl', g⟩ := g
  unfold TrState.own TrState.args
  cases hpc : p.pc with
  | ret n k err => rw [hpc] at g; exact g.elim
  | panic => rw [hpc] at g; exact g.elim
  | conv c =>
    rw [hpc] at g
    obtain ⟨ws, hs, hd, t, ap, hk⟩ := g
    refine ⟨fun b hb => ?_, fun a ha => ?_⟩
    · rw [List.mem_cons] at hb
      rcases hb with rfl | hb
      · exact wd
      · exact transOk_wf t b hb
    · rw [List.mem_singleton] at ha
      subst ha
      exact ws
  | copy out i =>
    rw [hpc] at g
    refine ⟨fun b hb => ?_, fun a ha => by cases ha⟩
    simp only [List.mem_cons, List.not_mem_nil, or_false] at hb
    rcases hb with rfl | rfl
    · exact wd
    · exact g.1

theorem transformed_done {d : Dir} {d0 s0 out : Str} (e : (out, none) = expected d s0) (atEOF : Bool) :
    transformed d d0 s0 atEOF = ⟨(Go.copy d0 out).1, out.length, s0.length, none⟩ := by
  cases d with
  | from_ => simp only [expected] at e; simp only [transformed, decoderTransform, ← e]
  | to_ => simp only [expected] at e; simp only [transformed, encoderTransform, ← e]

theorem transformed_failed {d : Dir} {d0 s0 out : Str} {err : Err} (e : (out, some err) = expected d s0) (atEOF : Bool) :
    transformed d d0 s0 atEOF = ⟨d0, 0, 0, some err⟩ := by
  cases d with
  | from_ => simp only [expected] at e; simp only [transformed, decoderTransform, ← e]
  | to_ => simp only [expected] at e; simp only [transformed, encoderTransform, ← e]

/-- The step stayed within the call, or the call returned. -/
def TrNext (h' : Heap) (p p' : TrState) (k : Nat) (d0 s0 : Str) : Prop :=
  TrRun h' p' (k + 1) d0 s0 ∨
  ∃ n m err, p'.pc = .ret n m err ∧ ∀ atEOF, transformed p.dir d0 s0 atEOF = ⟨h'.read p.dst, n, m, err⟩

theorem tr_step (grow : Nat → Nat → Nat) {h : Heap} {p : TrState} {k : Nat} {d0 s0 : Str} (g : TrRun h p k d0 s0) :
    TrNext (p.step grow h).2 p (p.step grow h).1 k d0 s0 ∧
    OwnFrame h (TrState.own p) (p.step grow h).2 (TrState.own (p.step grow h).1) ∧
    (p.step grow h).1.dir = p.dir ∧ (p.step grow h).1.dst = p.dst ∧ (p.step grow h).1.src = p.src := by
  obtain ⟨wd, hl, hl', g⟩ := g
  cases hpc : p.pc with
  | ret n k err => rw [hpc] at g; exact g.elim
  | panic => rw [hpc] at g; exact g.elim
  | conv c =>
    rw [hpc] at g
    obtain ⟨ws, hs, hd, t, ap, hk⟩ := g
    have hown : TrState.own p = clip p.dst :: bufs c := by unfold TrState.own; rw [hpc]
    rcases t.good with gg | gg
    · have hstep : p.step grow h = ({ p with pc := .conv (c.step grow h).1 }, (c.step grow h).2) := by
        have hnp := good_no_panic gg
        have hlive := good_live gg
        unfold TrState.step
        rw [hpc]
        simp only
        split
        · rename_i out err he; exact (hlive out err he).elim
        · rename_i he; exact (hnp he).elim
        · rfl
      rw [hstep]
      simp only
      obtain ⟨_, hlt, hfr⟩ := step_good grow gg
      have ht := transOk_step grow t gg ws
      generalize (c.step grow h).1 = c' at *
      generalize (c.step grow h).2 = h' at *
      obtain ⟨d1, d2, d3⟩ := hfr (clip p.dst) wd ap
      obtain ⟨s1, s2, _⟩ := hfr p.src ws t.ap
      refine ⟨.inl ⟨d1, hl, hl', s1, s2.trans hs, d2.trans hd, ht, d3, by omega⟩, ?_, trivial, trivial, trivial⟩
      intro u wu au
      rw [hown] at au
      obtain ⟨u1, u2, u3⟩ := hfr u wu (fun b hb => au b (List.mem_cons_of_mem _ hb))
      refine ⟨u1, u2, fun b hb => ?_⟩
      simp only [TrState.own, List.mem_cons] at hb
      rcases hb with rfl | hb
      · exact au _ (by simp)
      · exact u3 b hb
    · obtain ⟨out, err, he, wo, hres, hout, _, _⟩ := gg
      rw [t.dir] at hres
      have hbufs : bufs c = [c.scratch] := by unfold bufs; rw [he]
      have apo : ∀ u, Apart u c.scratch → Apart u out := by
        intro u hu
        rcases hout with rfl | rfl
        · exact hu
        · exact apart_nil _
      unfold TrState.step
      rw [hpc]
      simp only [he]
      cases err with
      | some e =>
        rw [if_pos (by simp)]
        refine ⟨.inr ⟨0, 0, some e, rfl, fun atEOF => ?_⟩, ?_, rfl, rfl, rfl⟩
        · rw [transformed_failed hres, hd]
        · intro u wu au
          exact ⟨wu, rfl, fun b hb => by cases hb⟩
      | none =>
        rw [if_neg (by simp)]
        refine ⟨.inl ⟨wd, hl, hl', wo, hres, ?_, Nat.zero_le _, by simpa using hd, by omega⟩, ?_, rfl, rfl, rfl⟩
        · exact apo _ (ap _ (by rw [hbufs]; simp))
        · exact ownFrame_same fun u au b hb => by
            rw [hown, hbufs] at au
            simp only [TrState.own, List.mem_cons, List.not_mem_nil, or_false] at hb
            rcases hb with rfl | rfl
            · exact au _ (by simp)
            · exact apo _ (au _ (by simp))
  | copy out i =>
    rw [hpc] at g
    obtain ⟨wo, ho, ap, hi, hd, hk⟩ := g
    have hown : TrState.own p = [clip p.dst, out] := by unfold TrState.own; rw [hpc]
    have hlo := read_length wo
    unfold TrState.step
    rw [hpc]
    simp only
    rw [hl]
    by_cases h1 : i < min d0.length out.len
    · rw [if_pos h1]
      obtain ⟨hw, hf⟩ := byte_frame wd (i := i) (by simp only [clip]; omega) (byteAt h out i)
      have hs : (h.write (clip p.dst).arr ((clip p.dst).off + i) [byteAt h out i]).read (clip p.dst) = _ :=
        read_set wd (by simp only [clip]; omega) _
      have e1 : ∀ h : Heap, h.read (clip p.dst) = h.read p.dst := fun _ => rfl
      have e2 : (clip p.dst).arr = p.dst.arr := rfl
      have e3 : (clip p.dst).off = p.dst.off := rfl
      rw [e1, e1, e2, e3] at hs
      rw [e2, e3] at hw hf
      have hb : byteAt h out i = (h.read out).getD i 0 := rfl
      rw [hb, hd, set_progress (by omega) (by omega)] at hs
      rw [hb] at hw hf ⊢
      have hfo := hf _ wo ap.symm
      generalize h.write p.dst.arr (p.dst.off + i) [(h.read out).getD i 0] = h' at *
      refine ⟨.inl ⟨hw _ wd, hl, hl', hw _ wo, by rw [hfo]; exact ho, ap, by omega, by rw [hfo]; exact hs, by omega⟩, ?_,
        rfl, rfl, rfl⟩
      intro u wu au
      rw [hown] at au
      exact ⟨hw u wu, hf u wu (au _ (by simp)), au⟩
    · rw [if_neg h1]
      have hii : i = min d0.length out.len := by omega
      refine ⟨.inr ⟨_, _, _, rfl, fun atEOF => ?_⟩, fun u wu _ => ⟨wu, rfl, fun b hb => by cases hb⟩, rfl, rfl, rfl⟩
      rw [transformed_done ho, hlo, hl', hd, hii]
      congr 1
      unfold Go.copy
      simp only
      rcases Nat.le_total d0.length out.len with hle | hle
      · rw [Nat.min_eq_left hle, List.drop_of_length_le (by omega), List.drop_length]
      · rw [Nat.min_eq_right hle, List.take_of_length_le (by omega), List.take_of_length_le (by omega), hlo]

theorem trRun_bound {h : Heap} {p : TrState} {k : Nat} {d0 s0 : Str} (g : TrRun h p k d0 s0) :
    k ≤ maxSteps s0.length + 1 + d0.length := by
  obtain ⟨_, _, _, g⟩ := g
  cases hpc : p.pc with
  | ret n k err => rw [hpc] at g; exact g.elim
  | panic => rw [hpc] at g; exact g.elim
  | conv c => rw [hpc] at g; have := g.2.2.2.2.2; omega
  | copy out i => rw [hpc] at g; have := g.2.2.2.1; have := g.2.2.2.2.2; omega

theorem trRun_call {h : Heap} (d : Dir) {dst data : Slice} (wd : WF h (clip dst)) (ws : WF h data) :
    TrRun h (.call d dst data) 0 (h.read dst) (h.read data) := by
  have hld := read_length wd
  have hls := read_length ws
  have hb : ∀ b ∈ bufs (Call.start d data), b = .nil := by simp [bufs, Call.start]
  refine ⟨wd, hld.symm, hls.symm, ws, rfl, rfl, ⟨rfl, .inl (start_good d ws), ⟨0, by simp [Slice.from, Call.start, TrState.call]⟩, ?_⟩, ?_, ?_⟩
  · intro b h
    rw [hb b h]
    exact apart_nil _
  · intro b h
    rw [hb b h]
    exact apart_nil _
  · simp only [left, Call.start, maxSteps, cost_nil]
    rw [hls]
    omega

theorem trRun_runs {h : Heap} {p : TrState} {k : Nat} {d0 s0 : Str} (g : TrRun h p k d0 s0) (n m : Nat) (err : Option Err) :
    p.pc ≠ .ret n m err := by
  intro e
  have := g.2.2.2
  rw [e] at this
  exact this

end Cp949
