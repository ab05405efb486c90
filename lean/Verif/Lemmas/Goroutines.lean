import Verif.Lemmas.ConcTransform
/-! Goroutines that use readers, writers, transformers, `From` and `To`. -/
namespace Cp949
open Go Spec

attribute [local irreducible] fromTable toTable rawFrom rawTo

variable {σ τ : Type}

/-! ### Writers -/

/-- A call of `Write` is on its way and has taken `k` steps; `d0` is what its argument held. -/
def WrRun (h : Heap) (p : WrState τ) (k : Nat) (d0 : Str) : Prop :=
  RelW h p.m ∧ WF h p.data ∧ h.read p.data = d0 ∧ Apart p.data p.m.scratch ∧
  match p.pc with
  | .top => k = 0
  | .trans wd c => wd = p.data ∧ TransOk h c .to_ p.data d0 ∧ k + left d0.length c ≤ maxSteps d0.length + 1
  | _ => False

theorem relW_stable {h h' : Heap} {m : WriterM τ} (r : RelW h m) (h1 : Same h h' (full m.scratch)) : RelW h' m :=
  ⟨r.1, (same_of_full r.2.1 h1).1, ⟨r.2.2.1.1, .inl r.2.2.2⟩, r.2.2.2⟩

theorem wrRun_stable {h h' : Heap} {p : WrState τ} {k : Nat} {d0 : Str} (g : WrRun h p k d0)
    (hb : ∀ b ∈ WrState.own p, Same h h' (full b)) (hd : Same h h' p.data) : WrRun h' p k d0 := by
  obtain ⟨rel, wd, hr, ap, g⟩ := g
  unfold WrRun
  unfold WrState.own at hb
  cases hpc : p.pc with
  | idle => rw [hpc] at g; exact g.elim
  | ret n err => rw [hpc] at g; exact g.elim
  | panic => rw [hpc] at g; exact g.elim
  | top =>
    rw [hpc] at hb g
    exact ⟨relW_stable rel (hb _ (by simp)), hd.1, hd.2.trans hr, ap, g⟩
  | trans w c =>
    rw [hpc] at hb g
    exact ⟨relW_stable rel (hb _ (by simp)), hd.1, hd.2.trans hr, ap, g.1,
      transOk_stable g.2.1 hd (fun b h => hb b (List.mem_append_right _ h)), g.2.2⟩

theorem wrRun_wf {h : Heap} {p : WrState τ} {k : Nat} {d0 : Str} (g : WrRun h p k d0) : ∀ b ∈ WrState.own p, WF h b := by
  obtain ⟨rel, wd, hr, ap, g⟩ := g
  unfold WrState.own
  cases hpc : p.pc with
  | idle => rw [hpc] at g; exact g.elim
  | ret n err => rw [hpc] at g; exact g.elim
  | panic => rw [hpc] at g; exact g.elim
  | top =>
    simp only [List.mem_cons, List.not_mem_nil, or_false, forall_eq_or_imp, forall_eq]
    exact ⟨rel.2.1, rel.2.2.1⟩
  | trans w c =>
    rw [hpc] at g
    intro b hb
    simp only [List.mem_append, List.mem_cons, List.not_mem_nil, or_false] at hb
    rcases hb with (rfl | rfl) | hb
    · exact rel.2.1
    · exact rel.2.2.1
    · exact transOk_wf g.2.1 b hb

theorem wrRun_apart {h : Heap} {p : WrState τ} {k : Nat} {d0 : Str} (g : WrRun h p k d0) : ∀ b ∈ WrState.own p, Apart p.data b := by
  obtain ⟨rel, wd, hr, ap, g⟩ := g
  unfold WrState.own
  have hbuf : Apart p.data p.m.buf := .inr (.inl rel.2.2.2)
  cases hpc : p.pc with
  | idle => rw [hpc] at g; exact g.elim
  | ret n err => rw [hpc] at g; exact g.elim
  | panic => rw [hpc] at g; exact g.elim
  | top =>
    simp only [List.mem_cons, List.not_mem_nil, or_false, forall_eq_or_imp, forall_eq]
    exact ⟨ap, hbuf⟩
  | trans w c =>
    rw [hpc] at g
    intro b hb
    simp only [List.mem_append, List.mem_cons, List.not_mem_nil, or_false] at hb
    rcases hb with (rfl | rfl) | hb
    · exact ap
    · exact hbuf
    · exact g.2.1.ap b hb

/-- The step stayed within the call, or the call returned. -/
def WrNext (sink : Sink τ) (h' : Heap) (p p' : WrState τ) (k : Nat) (d0 : Str) : Prop :=
  (WrRun h' p' (k + 1) d0 ∧ p'.m.sink = p.m.sink) ∨
  ∃ n err, p'.pc = .ret n err ∧ Write sink ⟨p.m.sink, []⟩ d0 = (n, err, ⟨p'.m.sink, []⟩) ∧ RelW h' p'.m

theorem wr_step (grow : Nat → Nat → Nat) (sink : Sink τ) {h : Heap} {p : WrState τ} {k : Nat} {d0 : Str} (g : WrRun h p k d0) :
    WrNext sink (p.step grow sink h).2 p (p.step grow sink h).1 k d0 ∧
    OwnFrame h (WrState.own p) (p.step grow sink h).2 (WrState.own (p.step grow sink h).1) ∧
    (p.step grow sink h).1.data = p.data := by
  have hwf := wrRun_wf g
  have hap := wrRun_apart g
  obtain ⟨rel, wd, hr, ap, g⟩ := g
  have hlen := read_length wd
  cases hpc : p.pc with
  | idle => rw [hpc] at g; exact g.elim
  | ret n err => rw [hpc] at g; exact g.elim
  | panic => rw [hpc] at g; exact g.elim
  | top =>
    have hown : WrState.own p = [p.m.scratch, p.m.buf] := by unfold WrState.own; rw [hpc]
    unfold WrState.step
    rw [hpc]
    simp only
    rw [if_neg (by rw [rel.1]; omega)]
    rw [hpc] at g
    refine ⟨.inl ⟨⟨rel, wd, hr, ap, rfl, ?_, ?_⟩, rfl⟩, ?_, rfl⟩
    rotate_left
    · rw [g, ← hr, hlen, left_resume]
      omega
    rotate_left
    · have := transOk_resume .to_ wd rel.2.1 ap
      rw [hr] at this
      exact this
    · exact ownFrame_same fun t at_ b hb => by
        rw [hown] at at_
        simp only [WrState.own, bufs, Call.resume, List.mem_append, List.mem_singleton] at hb
        rcases hb with hb | rfl
        · exact at_ b hb
        · exact apart_upTo 0 (at_ p.m.scratch (by simp))
  | trans w c =>
    rw [hpc] at g
    obtain ⟨rfl, t, tk⟩ := g
    have hown : WrState.own p = [p.m.scratch, p.m.buf] ++ bufs c := by unfold WrState.own; rw [hpc]
    rcases t.good with gg | gg
    · have hstep : p.step grow sink h = ({ p with pc := .trans p.data (c.step grow h).1 }, (c.step grow h).2) := by
        have hnp := good_no_panic gg
        have hlive := good_live gg
        unfold WrState.step
        rw [hpc]
        simp only
        split
        · rename_i out err he; exact (hlive out err he).elim
        · rename_i he; exact (hnp he).elim
        · rfl
      rw [hstep]
      simp only
      obtain ⟨_, hlt, hfr⟩ := step_good grow gg
      have hswf := step_wf grow gg
      have ht := transOk_step grow t gg wd
      generalize (c.step grow h).1 = c' at *
      generalize (c.step grow h).2 = h' at *
      obtain ⟨d1, d2, _⟩ := hfr p.data wd t.ap
      refine ⟨.inl ⟨⟨⟨rel.1, hswf _ rel.2.1, hswf _ rel.2.2.1, rel.2.2.2⟩, d1, d2.trans hr, ap, rfl, ht, by omega⟩, rfl⟩, ?_, trivial⟩
      intro u wu au
      rw [hown] at au
      obtain ⟨u1, u2, u3⟩ := hfr u wu (fun b hb => au b (List.mem_append_right _ hb))
      refine ⟨u1, u2, fun b hb => ?_⟩
      simp only [WrState.own, List.mem_append] at hb
      rcases hb with hb | hb
      · exact au b (List.mem_append_left _ hb)
      · exact u3 b hb
    · obtain ⟨out, err, he, wo, hres, hout, ws, hcc⟩ := gg
      rw [t.dir] at hres
      simp only [expected, To_eq, Prod.mk.injEq] at hres
      obtain ⟨ho, rfl⟩ := hres
      have hcc := hcc rfl
      have hbufs : bufs c = [c.scratch] := by unfold bufs; rw [he]
      have hd0 : p.data.len = d0.length := by rw [← hr, hlen]
      have hframe : ∀ (s : τ) (b : Slice) (pc : WPc) (hb : b.cap = 0), (∀ w c, pc ≠ .trans w c) →
          OwnFrame h (WrState.own p) h (WrState.own ⟨⟨s, c.scratch, b⟩, p.data, pc⟩) := by
        intro s b pc hb hpc'
        refine ownFrame_same fun u au x hx => ?_
        rw [hown, hbufs] at au
        have : WrState.own (⟨⟨s, c.scratch, b⟩, p.data, pc⟩ : WrState τ) = [c.scratch, b] := by
          unfold WrState.own
          split
          · rename_i w c' e; exact (hpc' w c' e).elim
          · rfl
        rw [this] at hx
        simp only [List.mem_cons, List.not_mem_nil, or_false] at hx
        rcases hx with rfl | rfl
        · exact au _ (by simp)
        · exact .inr (.inl hb)
      unfold WrState.step
      rw [hpc]
      simp only [he, if_true, hcc, ho, hd0, Nat.lt_irrefl, if_false]
      have hwr : Write sink ⟨p.m.sink, []⟩ d0 =
          (if (if d0.length > 0 then ((sink p.m.sink ((runes d0).flatMap toUnit)).2.1,
              (sink p.m.sink ((runes d0).flatMap toUnit)).2.2) else (none, p.m.sink)).1 ≠ none then
            (0, (if d0.length > 0 then ((sink p.m.sink ((runes d0).flatMap toUnit)).2.1,
              (sink p.m.sink ((runes d0).flatMap toUnit)).2.2) else (none, p.m.sink)).1,
              ⟨(if d0.length > 0 then ((sink p.m.sink ((runes d0).flatMap toUnit)).2.1,
              (sink p.m.sink ((runes d0).flatMap toUnit)).2.2) else (none, p.m.sink)).2, []⟩)
          else (d0.length, none, ⟨(if d0.length > 0 then ((sink p.m.sink ((runes d0).flatMap toUnit)).2.1,
              (sink p.m.sink ((runes d0).flatMap toUnit)).2.2) else (none, p.m.sink)).2, []⟩)) := by
        unfold Write
        simp only [List.length_nil, gt_iff_lt, Nat.lt_irrefl, if_false]
        rw [toTranslate_eq]
        simp
      generalize (if d0.length > 0 then ((sink p.m.sink ((runes d0).flatMap toUnit)).2.1,
          (sink p.m.sink ((runes d0).flatMap toUnit)).2.2) else (none, p.m.sink)) = ans at hwr ⊢
      obtain ⟨er, s⟩ := ans
      simp only at hwr ⊢
      by_cases hq : er = none
      · subst hq
        simp only [ne_eq, not_true_eq_false, if_false] at hwr ⊢
        refine ⟨.inr ⟨_, _, rfl, hwr, rfl, ws, ⟨Nat.zero_le _, .inl rel.2.2.2⟩, rel.2.2.2⟩, ?_, trivial⟩
        exact hframe s (p.m.buf.upTo 0) _ rel.2.2.2 (fun _ _ => by simp)
      · simp only [ne_eq, hq, not_false_eq_true, if_true] at hwr ⊢
        refine ⟨.inr ⟨_, _, rfl, hwr, rel.1, ws, rel.2.2.1, rel.2.2.2⟩, ?_, trivial⟩
        exact hframe s p.m.buf _ rel.2.2.2 (fun _ _ => by simp)


theorem wrRun_bound {h : Heap} {p : WrState τ} {k : Nat} {d0 : Str} (g : WrRun h p k d0) : k ≤ maxSteps d0.length + 1 := by
  obtain ⟨_, _, _, _, g⟩ := g
  cases hpc : p.pc with
  | idle => rw [hpc] at g; exact g.elim
  | ret n err => rw [hpc] at g; exact g.elim
  | panic => rw [hpc] at g; exact g.elim
  | top => rw [hpc] at g; simp only at g; omega
  | trans w c => rw [hpc] at g; have := g.2.2; omega

/-! ### Tasks -/

/-- What is known about a reader. -/
def RdOk (src : SourceM σ) (h : Heap) (x : RdTask σ) : Prop :=
  (RdState.rests x.st = true ∧ x.st.pc ≠ .panic ∧
    ∃ r, Reads (plain src) (NewReader x.init) x.bufs x.res r ∧ Rel h x.st.m r) ∨
  (x.st.pc = .panic ∧ (∃ a, Rel h x.st.m a) ∧ (∃ s k, k < (src s k).1.length) ∧
    ∃ pre b r, x.bufs = pre ++ [b] ∧ Reads (plain src) (NewReader x.init) pre x.res r ∧
      ∃ f, readLoop (plain src) f r b = .panic) ∨
  (∃ pre b r, x.bufs = pre ++ [b] ∧ Reads (plain src) (NewReader x.init) pre x.res r ∧ RdRun src h x.st x.steps r b)

/-- What is known about a writer. -/
def WrOk (sink : Sink τ) (h : Heap) (x : WrTask τ) : Prop :=
  (WrState.rests x.st = true ∧ x.st.pc ≠ .panic ∧ RelW h x.st.m ∧
    Writes sink (NewWriter x.init) x.ds x.res ⟨x.st.m.sink, []⟩) ∨
  (∃ pre d, x.ds = pre ++ [d] ∧ Writes sink (NewWriter x.init) pre x.res ⟨x.st.m.sink, []⟩ ∧ WrRun h x.st x.steps d)

/-- What is known about a call of `From` or `To`. -/
def CvOk (h : Heap) (x : Thread) : Prop :=
  Live x.call → Good h x.call x.input ∧ x.call.dir = x.fn ∧
    x.steps + left x.input.length x.call ≤ maxSteps x.input.length

/-- What is known about a call of `Transform`. -/
def TrOk (h : Heap) (x : TrTask) : Prop :=
  x.st.dir = x.fn ∧
  ((∃ n m err, x.st.pc = .ret n m err ∧ ∀ atEOF, x.res = some (transformed x.fn x.old x.input atEOF)) ∨
    (x.res = none ∧ TrRun h x.st x.steps x.old x.input))

def TaskOk (src : SourceM σ) (sink : Sink τ) (h : Heap) : Task σ τ → Prop
  | .cv x => CvOk h x
  | .rd x => RdOk src h x
  | .wr x => WrOk sink h x
  | .tr x => TrOk h x

theorem rdRun_runs {src : SourceM σ} {h : Heap} {p : RdState σ} {k : Nat} {r0 : Reader σ} {b0 : Str} (g : RdRun src h p k r0 b0) :
    RdState.rests p = false := by
  have := g.2.2.2
  unfold RdState.rests
  cases hpc : p.pc <;> rw [hpc] at this <;> first | rfl | exact this.elim

theorem wrRun_runs {h : Heap} {p : WrState τ} {k : Nat} {d0 : Str} (g : WrRun h p k d0) : WrState.rests p = false := by
  have := g.2.2.2.2
  unfold WrState.rests
  cases hpc : p.pc <;> rw [hpc] at this <;> first | rfl | exact this.elim

theorem rd_rest_own {p : RdState σ} (hp : RdState.rests p = true) : RdState.own p = [p.m.scratch, p.m.cdata, p.m.rdata] := by
  unfold RdState.rests at hp
  unfold RdState.own
  cases hpc : p.pc <;> rw [hpc] at hp <;> first | rfl | cases hp

theorem wr_rest_own {p : WrState τ} (hp : WrState.rests p = true) : WrState.own p = [p.m.scratch, p.m.buf] := by
  unfold WrState.rests at hp
  unfold WrState.own
  cases hpc : p.pc <;> rw [hpc] at hp <;> first | rfl | cases hp

theorem rel_own {h : Heap} {p : RdState σ} {a : Reader σ} (hp : RdState.rests p = true) (rel : Rel h p.m a) :
    ∀ b ∈ RdState.own p, WF h b := by
  rw [rd_rest_own hp]
  simp only [List.mem_cons, List.not_mem_nil, or_false, forall_eq_or_imp, forall_eq]
  exact ⟨rel.wfs, rel.wfc, rel.wfr⟩

theorem rests_panic {p : RdState σ} (hp : p.pc = .panic) : RdState.rests p = true := by unfold RdState.rests; rw [hp]

theorem live_own {c : Call} (hl : Live c) : Spec.Call.own c = bufs c := by
  unfold Spec.Call.own
  split
  · rename_i out err he; exact (hl out err he).elim
  · rfl

theorem not_live {c : Call} (hl : ¬ Live c) : ∃ out err, c.pc = .done out err := by
  cases e : c.pc with
  | done out err => exact ⟨out, err, rfl⟩
  | _ => exact (hl (fun out err h' => by rw [e] at h'; cases h')).elim

theorem done_own {c : Call} (hl : ¬ Live c) : Spec.Call.own c = [] := by
  obtain ⟨out, err, he⟩ := not_live hl
  unfold Spec.Call.own
  rw [he]

theorem live_args {x : Thread} (hl : Live x.call) : Task.args (.cv x : Task σ τ) = [x.call.data] := by
  unfold Task.args
  simp only
  split
  · rename_i out err he; exact (hl out err he).elim
  · rfl

theorem done_args {x : Thread} (hl : ¬ Live x.call) : Task.args (.cv x : Task σ τ) = [] := by
  obtain ⟨out, err, he⟩ := not_live hl
  unfold Task.args
  simp only [he]

theorem tr_ret_own {p : TrState} {n m : Nat} {err : Option Err} (hp : p.pc = .ret n m err) : TrState.own p = [] := by
  unfold TrState.own; rw [hp]

theorem tr_ret_args {p : TrState} {n m : Nat} {err : Option Err} (hp : p.pc = .ret n m err) : TrState.args p = [] := by
  unfold TrState.args; rw [hp]

theorem ok_own {src : SourceM σ} {sink : Sink τ} {h : Heap} {x : Task σ τ} (g : TaskOk src sink h x) :
    ∀ b ∈ Task.own x, WF h b := by
  cases x with
  | cv x =>
    by_cases hl : Live x.call
    · simp only [Task.own, live_own hl]
      exact bufs_wf (g hl).1
    · simp only [Task.own, done_own hl]
      simp
  | rd x =>
    rcases g with ⟨h1, _, r, _, rel⟩ | ⟨h1, ⟨a, rel⟩, _⟩ | ⟨_, _, _, _, _, g⟩
    · exact rel_own h1 rel
    · exact rel_own (rests_panic h1) rel
    · exact rdRun_wf g
  | wr x =>
    rcases g with ⟨h1, _, rel, _⟩ | ⟨_, _, _, _, g⟩
    · simp only [Task.own, wr_rest_own h1, List.mem_cons, List.not_mem_nil, or_false, forall_eq_or_imp, forall_eq]
      exact ⟨rel.2.1, rel.2.2.1⟩
    · exact wrRun_wf g
  | tr x =>
    rcases g with ⟨_, ⟨n, m, err, h1, _⟩ | ⟨_, g⟩⟩
    · simp [Task.own, tr_ret_own h1]
    · exact (trRun_wf g).1

theorem ok_args {src : SourceM σ} {sink : Sink τ} {h : Heap} {x : Task σ τ} (g : TaskOk src sink h x) :
    ∀ a ∈ Task.args x, WF h a ∧ ((∀ z, x ≠ .tr z) → ∀ b ∈ Task.own x, Apart a b) := by
  cases x with
  | cv x =>
    by_cases hl : Live x.call
    · simp only [live_args hl, Task.own, live_own hl, List.mem_singleton, forall_eq]
      exact ⟨(g hl).1.wfd, fun _ => data_apart (g hl).1⟩
    · rw [done_args hl]
      simp
  | rd x => simp [Task.args]
  | wr x =>
    rcases g with ⟨h1, _⟩ | ⟨_, _, _, _, g⟩
    · simp [Task.args, h1]
    · simp only [Task.args, wrRun_runs g, Bool.false_eq_true, if_false, List.mem_singleton, forall_eq]
      exact ⟨g.2.1, fun _ => wrRun_apart g⟩
  | tr x =>
    rcases g with ⟨_, ⟨n, m, err, h1, _⟩ | ⟨_, g⟩⟩
    · simp [Task.args, tr_ret_args h1]
    · exact fun a ha => ⟨(trRun_wf g).2 a ha, fun h => (h x rfl).elim⟩

/-- What happens elsewhere does not matter. -/
theorem ok_stable {src : SourceM σ} {sink : Sink τ} {h h' : Heap} {x : Task σ τ} (g : TaskOk src sink h x)
    (hb : ∀ b ∈ Task.own x, Same h h' (full b)) (ha : ∀ a ∈ Task.args x, Same h h' a) : TaskOk src sink h' x := by
  cases x with
  | cv x =>
    intro hl
    obtain ⟨g1, g2⟩ := g hl
    rw [live_args hl] at ha
    simp only [Task.own, live_own hl] at hb
    exact ⟨good_stable g1 (ha _ (by simp)) hb, g2⟩
  | rd x =>
    have hrel : ∀ {a : Reader σ}, RdState.rests x.st = true → Rel h x.st.m a → Rel h' x.st.m a := by
      intro a h1 rel
      simp only [Task.own, rd_rest_own h1] at hb
      exact rel_stable rel (hb _ (by simp)) (hb _ (by simp)) (hb _ (by simp))
    rcases g with ⟨h1, h2, r, h3, rel⟩ | ⟨h1, ⟨a, rel⟩, h2⟩ | ⟨pre, b, r, h1, h2, g⟩
    · exact .inl ⟨h1, h2, r, h3, hrel h1 rel⟩
    · exact .inr (.inl ⟨h1, ⟨a, hrel (rests_panic h1) rel⟩, h2⟩)
    · exact .inr (.inr ⟨pre, b, r, h1, h2, rdRun_stable g hb⟩)
  | wr x =>
    rcases g with ⟨h1, h2, rel, h3⟩ | ⟨pre, d, h1, h2, g⟩
    · simp only [Task.own, wr_rest_own h1] at hb
      exact .inl ⟨h1, h2, relW_stable rel (hb _ (by simp)), h3⟩
    · refine .inr ⟨pre, d, h1, h2, wrRun_stable g hb (ha _ ?_)⟩
      simp [Task.args, wrRun_runs g]
  | tr x =>
    obtain ⟨h0, ⟨n, m, err, h1⟩ | ⟨h1, g⟩⟩ := g
    · exact ⟨h0, .inl ⟨n, m, err, h1⟩⟩
    · exact ⟨h0, .inr ⟨h1, trRun_stable g hb ha⟩⟩

theorem reads_snoc {src : Source σ} {r r' r'' : Reader σ} {bufs : List Str} {res : List Result} {b b' : Str} {n : Nat}
    {err : Option Err} (h : Reads src r bufs res r') (hr : Returns src r' b n err b' r'') :
    Reads src r (bufs ++ [b]) (res ++ [(n, err, b')]) r'' := by
  induction h with
  | nil r => exact .cons hr (.nil _)
  | cons h1 _ ih => exact .cons h1 (ih hr)

theorem writes_snoc {sink : Sink τ} {w w' w'' : Writer τ} {ds : List Str} {res : List (Nat × Option Err)} {d : Str} {n : Nat}
    {err : Option Err} (h : Writes sink w ds res w') (hr : Write sink w' d = (n, err, w'')) :
    Writes sink w (ds ++ [d]) (res ++ [(n, err)]) w'' := by
  induction h with
  | nil r => exact .cons hr (.nil _)
  | cons h1 _ ih => exact .cons h1 (ih hr)

theorem rd_rest_step (grow : Nat → Nat → Nat) (src : SourceM σ) (h : Heap) {p : RdState σ} (hp : RdState.rests p = true) :
    p.step grow src h = (p, h) := by
  unfold RdState.rests at hp
  unfold RdState.step
  cases hpc : p.pc <;> rw [hpc] at hp <;> first | rfl | cases hp

theorem wr_rest_step (grow : Nat → Nat → Nat) (sink : Sink τ) (h : Heap) {p : WrState τ} (hp : WrState.rests p = true) :
    p.step grow sink h = (p, h) := by
  unfold WrState.rests at hp
  unfold WrState.step
  cases hpc : p.pc <;> rw [hpc] at hp <;> first | rfl | cases hp

theorem tr_ret_step (grow : Nat → Nat → Nat) (h : Heap) {p : TrState} {n m : Nat} {err : Option Err}
    (hp : p.pc = .ret n m err) : p.step grow h = (p, h) := by
  unfold TrState.step; rw [hp]

theorem tr_args_mono (grow : Nat → Nat → Nat) {h : Heap} {p : TrState} {a : Slice}
    (ha : a ∈ TrState.args (p.step grow h).1) : a = p.src ∧ p.src ∈ TrState.args p := by
  unfold TrState.step at ha
  cases hpc : p.pc with
  | ret n k err => simp [hpc, TrState.args] at ha
  | panic => simp [hpc, TrState.args] at ha
  | copy out i =>
    rw [hpc] at ha
    simp only at ha
    split at ha <;> simp [TrState.args] at ha
  | conv c =>
    have : p.src ∈ TrState.args p := by simp [TrState.args, hpc]
    refine ⟨?_, this⟩
    rw [hpc] at ha
    simp only at ha
    split at ha
    · split at ha <;> simp [TrState.args] at ha
    · simp [TrState.args] at ha
    · simpa [TrState.args] using ha

theorem ok_step (grow : Nat → Nat → Nat) {src : SourceM σ} {sink : Sink τ} {h : Heap} {x : Task σ τ}
    (g : TaskOk src sink h x) :
    TaskOk src sink (x.step grow src sink h).2 (x.step grow src sink h).1 ∧
    OwnFrame h (Task.own x) (x.step grow src sink h).2 (Task.own (x.step grow src sink h).1) ∧
    ∀ a' ∈ Task.args (x.step grow src sink h).1, ∃ a ∈ Task.args x, ∀ b, Apart a b → Apart a' b := by
  cases x with
  | cv x =>
    simp only [Task.step]
    by_cases hl : Live x.call
    · obtain ⟨g1, g2, g3⟩ := g hl
      obtain ⟨h1, h2, h3⟩ := step_good grow g1
      refine ⟨?_, ?_, ?_⟩
      · intro hl'
        refine ⟨h1.resolve_right fun hr => returned_not_live hr hl', by simp only; rw [step_dir]; exact g2, ?_⟩
        simp only
        omega
      · intro t wt at_
        simp only [Task.own, live_own hl] at at_ ⊢
        obtain ⟨t1, t2, t3⟩ := h3 t wt at_
        refine ⟨t1, t2, fun b hb => t3 b ?_⟩
        by_cases hl' : Live (x.call.step grow h).1
        · rw [live_own hl'] at hb; exact hb
        · rw [done_own hl'] at hb; cases hb
      · intro a' ha'
        rw [live_args hl]
        refine ⟨_, List.mem_singleton.2 rfl, fun b hb => ?_⟩
        by_cases hl' : Live (x.call.step grow h).1
        · rw [live_args (x := ⟨(x.call.step grow h).1, x.fn, x.input, x.steps + 1⟩) hl', List.mem_singleton] at ha'
          rw [ha']
          exact apart_step_data grow h x.call hb
        · rw [done_args (x := ⟨(x.call.step grow h).1, x.fn, x.input, x.steps + 1⟩) hl'] at ha'
          cases ha'
    · rw [step_done grow h hl]
      refine ⟨fun hl' => (hl hl').elim, ownFrame_same fun t at_ => at_, fun a' ha' => ?_⟩
      rw [done_args (x := ⟨x.call, x.fn, x.input, x.steps + 1⟩) hl] at ha'
      cases ha'
  | rd x =>
    simp only [Task.step]
    have rest : RdState.rests x.st = true →
        TaskOk src sink (x.st.step grow src h).2 (.rd ⟨(x.st.step grow src h).1, x.init, x.bufs,
          match RdState.rests x.st, (x.st.step grow src h).1.pc with
          | false, .ret n err => x.res ++ [(n, err, (x.st.step grow src h).2.read (x.st.step grow src h).1.buf)]
          | _, _ => x.res, x.steps + 1⟩) ∧
        OwnFrame h (RdState.own x.st) (x.st.step grow src h).2 (RdState.own (x.st.step grow src h).1) := by
      intro h1
      rw [rd_rest_step grow src h h1, h1]
      refine ⟨?_, ownFrame_same fun t at_ => at_⟩
      rcases g with g | g | ⟨_, _, _, _, _, g⟩
      · exact .inl g
      · exact .inr (.inl g)
      · rw [rdRun_runs g] at h1; cases h1
    rcases g with ⟨h1, h2, r, h3, rel⟩ | ⟨h1, h2⟩ | ⟨pre, b, r, h1, h2, g⟩
    · exact ⟨(rest h1).1, (rest h1).2, by simp [Task.args]⟩
    · exact ⟨(rest (rests_panic h1)).1, (rest (rests_panic h1)).2, by simp [Task.args]⟩
    · obtain ⟨s1, s2, s3⟩ := rd_step grow g
      refine ⟨?_, s2, by simp [Task.args]⟩
      rw [rdRun_runs g]
      rcases s1 with s1 | ⟨n, err, r', e, hret, rel⟩ | ⟨e, ⟨a, rel⟩, hk, hpan⟩
      · refine .inr (.inr ⟨pre, b, r, h1, ?_, s1⟩)
        have hrun := rdRun_runs s1
        split
        · rename_i n err e1 e2
          unfold RdState.rests at hrun
          rw [e2] at hrun
          cases hrun
        · exact h2
      · refine .inl ⟨?_, ?_, r', ?_, rel⟩
        · unfold RdState.rests; simp only; rw [e]
        · simp only; rw [e]; simp
        · simp only [e, s3]
          rw [h1]
          exact reads_snoc h2 hret
      · refine .inr (.inl ⟨e, ⟨a, rel⟩, hk, pre, b, r, h1, ?_, hpan⟩)
        simp only [e]
        exact h2
  | wr x =>
    simp only [Task.step]
    rcases g with ⟨h1, h2, rel, h3⟩ | ⟨pre, d, h1, h2, g⟩
    · rw [wr_rest_step grow sink h h1, h1]
      exact ⟨.inl ⟨h1, h2, rel, h3⟩, ownFrame_same fun t at_ => at_, by simp [Task.args, h1]⟩
    · obtain ⟨s1, s2, s3⟩ := wr_step grow sink g
      refine ⟨?_, s2, ?_⟩
      · rw [wrRun_runs g]
        rcases s1 with ⟨s1, s4⟩ | ⟨n, err, e, hret, rel⟩
        · refine .inr ⟨pre, d, h1, ?_, s1⟩
          have hrun := wrRun_runs s1
          simp only
          rw [s4]
          split
          · rename_i n err e1 e2
            unfold WrState.rests at hrun
            rw [e2] at hrun
            cases hrun
          · exact h2
        · refine .inl ⟨?_, ?_, rel, ?_⟩
          · unfold WrState.rests; simp only; rw [e]
          · simp only; rw [e]; simp
          · simp only [e]
            rw [h1]
            exact writes_snoc h2 hret
      · intro a' ha'
        refine ⟨x.st.data, by simp [Task.args, wrRun_runs g], fun b hb => ?_⟩
        simp only [Task.args] at ha'
        split at ha'
        · cases ha'
        · rw [List.mem_singleton] at ha'
          rw [ha', s3]
          exact hb
  | tr x =>
    simp only [Task.step]
    obtain ⟨h0, ⟨n, m, err, h1, h2⟩ | ⟨h1, g⟩⟩ := g
    · rw [tr_ret_step grow h h1, h2 false]
      refine ⟨⟨h0, .inl ⟨n, m, err, h1, fun atEOF => (h2 false).symm.trans (h2 atEOF)⟩⟩, ownFrame_same fun t at_ => at_, ?_⟩
      simp [Task.args, tr_ret_args h1]
    · obtain ⟨s1, s2, s3, s4, s5⟩ := tr_step grow g
      refine ⟨⟨s3.trans h0, ?_⟩, s2, ?_⟩
      · rw [h1]
        rcases s1 with s1 | ⟨n, m, err, e, hret⟩
        · refine .inr ⟨?_, s1⟩
          simp only
          split
          · rename_i n m err _ e
            exact (trRun_runs s1 n m err e).elim
          · rfl
        · refine .inl ⟨n, m, err, e, fun atEOF => ?_⟩
          simp only [e, s4]
          rw [← h0, hret]
      · intro a' ha'
        obtain ⟨rfl, h2⟩ := tr_args_mono grow ha'
        exact ⟨_, h2, fun b hb => hb⟩

/-! ### Programs -/

structure AllOk (src : SourceM σ) (sink : Sink τ) (h : Heap) (ts : List (Task σ τ)) : Prop where
  ok : ∀ (i : Nat) x, ts[i]? = some x → TaskOk src sink h x
  sep : ∀ (i j : Nat) x y, ts[i]? = some x → ts[j]? = some y → i ≠ j → ∀ a ∈ Task.own x, ∀ b ∈ Task.own y, Apart a b
  arg : ∀ (i j : Nat) x y, ts[i]? = some x → ts[j]? = some y → i ≠ j → ∀ a ∈ Task.args x, ∀ b ∈ Task.own y, Apart a b

theorem get_snoc {α : Type} {ts : List α} {x y : α} {i : Nat} (h : (ts ++ [x])[i]? = some y) :
    ts[i]? = some y ∨ (i = ts.length ∧ y = x) := by
  rcases Nat.lt_trichotomy i ts.length with h1 | h1 | h1
  · rw [List.getElem?_append_left h1] at h
    exact .inl h
  · subst h1
    rw [List.getElem?_append_right (Nat.le_refl _)] at h
    simp at h
    exact .inr ⟨rfl, h.symm⟩
  · rw [List.getElem?_eq_none (by simp; omega)] at h
    cases h

theorem get_set {α : Type} {ts : List α} {i j : Nat} {y z : α}
    (h : (ts.set i y)[j]? = some z) : (j = i ∧ z = y) ∨ (j ≠ i ∧ ts[j]? = some z) := by
  rw [List.getElem?_set] at h
  split at h
  · rename_i e
    split at h
    · rename_i hlt
      exact .inl ⟨e.symm, (Option.some.inj h).symm⟩
    · cases h
  · rename_i e
    exact .inr ⟨fun e' => e e'.symm, h⟩

/-- A new task whose memory is apart from everything. -/
theorem allOk_snoc {src : SourceM σ} {sink : Sink τ} {h : Heap} {ts : List (Task σ τ)} (a : AllOk src sink h ts)
    {x : Task σ τ} (g : TaskOk src sink h x) (hown : ∀ b ∈ Task.own x, ∀ y ∈ ts, ∀ t, t ∈ Task.own y ∨ t ∈ Task.args y → Apart t b)
    (harg : ∀ y ∈ ts, ∀ a ∈ Task.args x, ∀ b ∈ Task.own y, Apart a b) : AllOk src sink h (ts ++ [x]) := by
  refine ⟨?_, ?_, ?_⟩
  · intro i y hy
    rcases get_snoc hy with hy' | ⟨_, rfl⟩
    · exact a.ok i y hy'
    · exact g
  · intro i j y z hy hz hij p hp q hq
    rcases get_snoc hz with hz' | ⟨_, rfl⟩
    · rcases get_snoc hy with hy' | ⟨_, rfl⟩
      · exact a.sep i j y z hy' hz' hij p hp q hq
      · exact (hown p hp z (List.mem_of_getElem? hz') q (.inl hq)).symm
    · rcases get_snoc hy with hy' | ⟨_, rfl⟩
      · exact hown q hq y (List.mem_of_getElem? hy') p (.inl hp)
      · omega
  · intro i j y z hy hz hij p hp q hq
    rcases get_snoc hz with hz' | ⟨_, rfl⟩
    · rcases get_snoc hy with hy' | ⟨_, rfl⟩
      · exact a.arg i j y z hy' hz' hij p hp q hq
      · exact harg z (List.mem_of_getElem? hz') p hp q hq
    · rcases get_snoc hy with hy' | ⟨_, rfl⟩
      · exact hown q hq y (List.mem_of_getElem? hy') p (.inr hp)
      · omega

/-- A task changes while memory changes only where the task works. -/
theorem allOk_set {src : SourceM σ} {sink : Sink τ} {h h' : Heap} {ts : List (Task σ τ)} (a : AllOk src sink h ts)
    {i : Nat} {x' : Task σ τ} (g : TaskOk src sink h' x')
    (hf : ∀ j y, ts[j]? = some y → j ≠ i →
      (∀ b ∈ Task.own y, Same h h' (full b) ∧ ∀ c ∈ Task.own x', Apart b c) ∧
      (∀ p ∈ Task.args y, Same h h' p ∧ ∀ c ∈ Task.own x', Apart p c) ∧
      (∀ p ∈ Task.args x', ∀ b ∈ Task.own y, Apart p b)) : AllOk src sink h' (ts.set i x') := by
  refine ⟨?_, ?_, ?_⟩
  · intro j y hy
    rcases get_set hy with ⟨_, rfl⟩ | ⟨hj, hy'⟩
    · exact g
    · obtain ⟨f1, f2, _⟩ := hf j y hy' hj
      exact ok_stable (a.ok j y hy') (fun b hb => (f1 b hb).1) (fun b hb => (f2 b hb).1)
  · intro j k y z hy hz hjk p hp q hq
    rcases get_set hy with ⟨e, rfl⟩ | ⟨hj, hy'⟩
    · rcases get_set hz with ⟨e', rfl⟩ | ⟨hk, hz'⟩
      · omega
      · exact (((hf k z hz' hk).1 q hq).2 p hp).symm
    · rcases get_set hz with ⟨e', rfl⟩ | ⟨hk, hz'⟩
      · exact ((hf j y hy' hj).1 p hp).2 q hq
      · exact a.sep j k y z hy' hz' hjk p hp q hq
  · intro j k y z hy hz hjk p hp q hq
    rcases get_set hy with ⟨e, rfl⟩ | ⟨hj, hy'⟩
    · rcases get_set hz with ⟨e', rfl⟩ | ⟨hk, hz'⟩
      · omega
      · exact (hf k z hz' hk).2.2 p hp q hq
    · rcases get_set hz with ⟨e', rfl⟩ | ⟨hk, hz'⟩
      · exact ((hf j y hy' hj).2.1 p hp).2 q hq
      · exact a.arg j k y z hy' hz' hjk p hp q hq

theorem gevent_ok {grow : Nat → Nat → Nat} {src : SourceM σ} {sink : Sink τ} {h h' : Heap} {ts ts' : List (Task σ τ)}
    (a : AllOk src sink h ts) (e : GEvent grow src sink h ts h' ts') : AllOk src sink h' ts' := by
  cases e with
  | newReader s =>
    refine allOk_snoc a (.inl ⟨rfl, by simp [RdState.new], _, .nil _, rel_new h s⟩) ?_ (by simp [Task.args])
    intro b hb _ _ t _
    simp only [Task.own, RdState.own, RdState.new, NewReaderM, List.mem_cons, List.not_mem_nil, or_false, or_self] at hb
    subst hb
    exact apart_nil t
  | newWriter s =>
    refine allOk_snoc a (.inl ⟨rfl, by simp [WrState.new], relW_new h s, .nil _⟩) ?_
      (by simp [Task.args, WrState.rests, WrState.new])
    intro b hb _ _ t _
    simp only [Task.own, WrState.own, WrState.new, NewWriterM, List.mem_cons, List.not_mem_nil, or_false, or_self] at hb
    subst hb
    exact apart_nil t
  | conv d in_ w ap =>
    refine allOk_snoc a ?_ ?_ ?_
    · intro _
      refine ⟨start_good d w, rfl, ?_⟩
      simp only [left, Call.start, maxSteps, cost_nil]
      rw [read_length w]
      omega
    · intro b hb _ _ t _
      simp only [Task.own, Spec.Call.own, Call.start, bufs, List.mem_singleton] at hb
      subst hb
      exact apart_nil t
    · intro y hy p hp b hb
      simp only [Task.args, Call.start, List.mem_singleton] at hp
      subst hp
      exact ap y hy b hb
  | read i x buf hx hr hnp wb ap apa =>
    have hown := rd_rest_own hr
    have hmem := List.mem_of_getElem? hx
    have hlen := read_length wb
    have hcl : Clear x.st.m (clip buf) := by
      have := ap _ hmem
      simp only [Task.own, hown, List.mem_cons, List.not_mem_nil, or_false, forall_eq_or_imp, forall_eq] at this
      exact this
    refine allOk_set a ?_ ?_
    · rcases a.ok i _ hx with ⟨_, _, r, h3, rel⟩ | ⟨h1, _⟩ | ⟨pre, b, r, h1, h2, g⟩
      · exact .inr (.inr ⟨x.bufs, h.read buf, r, rfl, h3, wb, hcl, hlen.symm, r, ⟨0, fun f => ⟨rfl, by simp only; rw [Nat.zero_add]; exact Nat.le_refl _⟩⟩, rel, rfl⟩)
      · exact (hnp h1).elim
      · rw [rdRun_runs g] at hr; cases hr
    · intro j y hy hj
      have hown' : Task.own (.rd ⟨x.st.call buf, x.init, x.bufs ++ [h.read buf], x.res, 0⟩ : Task σ τ) =
        [x.st.m.scratch, x.st.m.cdata, x.st.m.rdata] ++ [clip buf] := rfl
      rw [hown']
      have hymem := List.mem_of_getElem? hy
      refine ⟨fun b hb => ⟨⟨wf_full (ok_own (a.ok j y hy) b hb), rfl⟩, fun c hc => ?_⟩,
        fun p hp => ⟨⟨(ok_args (a.ok j y hy) p hp).1, rfl⟩, fun c hc => ?_⟩, by simp [Task.args]⟩
      · rw [List.mem_append, List.mem_singleton] at hc
        rcases hc with hc | rfl
        · exact a.sep j i y _ hy hx hj b hb c (by simp only [Task.own, hown]; exact hc)
        · exact (ap y hymem b hb).symm
      · rw [List.mem_append, List.mem_singleton] at hc
        rcases hc with hc | rfl
        · exact a.arg j i y _ hy hx hj p hp c (by simp only [Task.own, hown]; exact hc)
        · exact apa y hymem p hp
  | write i x data hx hr hnp wd ap =>
    have hown := wr_rest_own hr
    have hmem := List.mem_of_getElem? hx
    refine allOk_set a ?_ ?_
    · rcases a.ok i _ hx with ⟨_, _, rel, h3⟩ | ⟨pre, d, h1, h2, g⟩
      · refine .inr ⟨x.ds, h.read data, rfl, h3, rel, wd, rfl, ?_, rfl⟩
        exact ap _ hmem x.st.m.scratch (by simp only [Task.own, hown]; simp)
      · rw [wrRun_runs g] at hr; cases hr
    · intro j y hy hj
      have hown' : Task.own (.wr ⟨x.st.call data, x.init, x.ds ++ [h.read data], x.res, 0⟩ : Task σ τ) = Task.own (.wr x : Task σ τ) := by
        simp only [Task.own, hown]
        rfl
      rw [hown']
      have hymem := List.mem_of_getElem? hy
      refine ⟨fun b hb => ⟨⟨wf_full (ok_own (a.ok j y hy) b hb), rfl⟩, a.sep j i y _ hy hx hj b hb⟩,
        fun p hp => ⟨⟨(ok_args (a.ok j y hy) p hp).1, rfl⟩, a.arg j i y _ hy hx hj p hp⟩, ?_⟩
      intro p hp b hb
      simp only [Task.args, WrState.rests, WrState.call, Bool.false_eq_true, if_false, List.mem_singleton] at hp
      subst hp
      exact ap y hymem b hb
  | transform d dst data wd ws ap apa aps =>
    have hbufs : bufs (Call.start d data) = [.nil] := rfl
    refine allOk_snoc a ⟨rfl, .inr ⟨rfl, trRun_call d wd ws⟩⟩ ?_ ?_
    · intro b hb y hy t ht
      simp only [Task.own, TrState.own, TrState.call, hbufs, List.mem_cons, List.not_mem_nil, or_false] at hb
      rcases hb with rfl | rfl
      · rcases ht with ht | ht
        · exact (ap y hy t ht).symm
        · exact apa y hy t ht
      · exact apart_nil t
    · intro y hy p hp b hb
      simp only [Task.args, TrState.args, TrState.call, List.mem_singleton] at hp
      subst hp
      exact aps y hy b hb
  | step i x hx =>
    obtain ⟨s1, s2, s3⟩ := ok_step grow (a.ok i x hx)
    refine allOk_set a s1 ?_
    intro j y hy hj
    refine ⟨fun b hb => ?_, fun p hp => ?_, fun p hp b hb => ?_⟩
    · obtain ⟨f1, f2, f3⟩ := s2 (full b) (wf_full (ok_own (a.ok j y hy) b hb))
        (fun c hc => apart_full.2 (a.sep j i y x hy hx hj b hb c hc))
      exact ⟨⟨f1, f2⟩, fun c hc => apart_full.1 (f3 c hc)⟩
    · obtain ⟨f1, f2, f3⟩ := s2 p (ok_args (a.ok j y hy) p hp).1 (fun c hc => a.arg j i y x hy hx hj p hp c hc)
      exact ⟨⟨f1, f2⟩, f3⟩
    · obtain ⟨q, hq, hqb⟩ := s3 p hp
      exact hqb b (a.arg i j x y hx hy (Ne.symm hj) q hq b hb)
  | other h' hs =>
    refine ⟨fun j y hy => ?_, a.sep, a.arg⟩
    obtain ⟨h1, h2⟩ := hs y (List.mem_of_getElem? hy)
    exact ok_stable (a.ok j y hy) h1 h2

theorem gevents_ok {grow : Nat → Nat → Nat} {src : SourceM σ} {sink : Sink τ} {h h' : Heap} {ts : List (Task σ τ)}
    (e : GEvents grow src sink h [] h' ts) : AllOk src sink h' ts := by
  induction e with
  | nil =>
    refine ⟨?_, ?_, ?_⟩
    · intro i x hx; simp at hx
    · intro i j x y hx; simp at hx
    · intro i j x y hx; simp at hx
  | snoc _ e ih => exact gevent_ok ih e

end Cp949
