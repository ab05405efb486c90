import Verif.Lemmas.Conc
/-! Lemmas about the number of steps a conversion takes. -/
namespace Cp949
open Go Spec

attribute [local irreducible] fromTable toTable rawFrom rawTo

theorem growLoop_mono (fuel m n : Nat) : m ≤ growLoop fuel m n := by
  induction fuel generalizing m with
  | zero => exact Nat.le_refl _
  | succ fuel ih =>
    simp only [growLoop]
    have hm' : m ≤ (if m < 1024 then m + m else m + m / 4) := by split <;> omega
    generalize (if m < 1024 then m + m else m + m / 4) = m' at *
    split
    · exact hm'
    · exact Nat.le_trans hm' (ih m')

/-- Growing adds at least a quarter. -/
theorem ensureCapCap_quarter {c n : Nat} (h : c < n) : c + c / 4 ≤ ensureCapCap c n := by
  unfold ensureCapCap
  rw [if_neg (by omega)]
  split
  · omega
  · obtain ⟨k, rfl⟩ : ∃ k, n = k + 1 := ⟨n - 1, by omega⟩
    simp only [growLoop]
    have hm' : c + c / 4 ≤ (if c < 1024 then c + c else c + c / 4) := by split <;> omega
    generalize (if c < 1024 then c + c else c + c / 4) = m' at *
    split
    · exact hm'
    · exact Nat.le_trans hm' (growLoop_mono k m' (k + 1))

theorem newCap_quarter {grow : Nat → Nat → Nat} (hg : ∀ c n, c < n → c + c / 4 ≤ n + grow c n) {q : Req} {s : Slice}
    (h : s.cap < q.need s) : s.cap + s.cap / 4 ≤ q.newCap grow s := by
  unfold Req.newCap
  split
  · exact ensureCapCap_quarter h
  · exact hg _ _ h

/-- Steps for the appends of a round, apart from copying. -/
def ops (todo : List Req) : Nat := (todo.map fun q => q.bytes.length + 3).sum

/-- What copying to new arrays can still cost, for a buffer of this capacity. -/
def budget (n c : Nat) : Nat := if c < 4 * n + 4 then 9 * (4 * n + 4) - 8 * c else 0

theorem budget_pay {n c m l : Nat} (hc : c < 4 * n + 4) (hm : c + c / 4 ≤ m) (hm' : c < m) (hl : l ≤ c) :
    l + budget n m ≤ budget n c := by
  unfold budget
  rw [if_pos hc]
  split
  · omega
  · omega

def lin (n : Nat) (p : Call) : Nat :=
  match p.pc, p.todo with
  | .round, todo => p.data.len * 10 + 1 + ops todo + budget n p.scratch.cap
  | .grow t i, q :: todo => p.data.len * 10 + 1 + (q.bytes.length + 2) + ops todo + (p.scratch.len - i) + budget n t.cap
  | .store i, q :: todo => p.data.len * 10 + 1 + (q.bytes.length - i + 1) + ops todo + budget n p.scratch.cap
  | _, _ => 0

theorem fromRound_shape (h : Heap) (p : Call) :
    (∃ out err, (p.fromRound h).pc = .done out err) ∨
    ((p.fromRound h).pc = p.pc ∧ (p.fromRound h).scratch = p.scratch ∧ (p.fromRound h).data.len + 1 ≤ p.data.len ∧
      ops (p.fromRound h).todo ≤ 9) := by
  unfold Call.fromRound
  split
  · exact .inl ⟨_, _, rfl⟩
  · rename_i h0
    split
    · exact .inr ⟨rfl, rfl, by simp only [Slice.from]; omega, by simp [ops]⟩
    · split
      · exact .inl ⟨_, _, rfl⟩
      · refine .inr ⟨rfl, rfl, by simp only [Slice.from]; omega, ?_⟩
        simp only [ops, List.map_cons, List.map_nil, List.sum_cons, List.sum_nil]
        have := fun r => encodeRune_length r
        generalize hr : encodeRune _ = bs
        have : bs.length ≤ 4 := by rw [← hr]; exact encodeRune_length _
        omega

theorem toRound_shape {h : Heap} {p : Call} (w : WF h p.data) :
    (∃ out err, (p.toRound h).pc = .done out err) ∨
    ((p.toRound h).pc = p.pc ∧ (p.toRound h).scratch = p.scratch ∧ (p.toRound h).data.len + 1 ≤ p.data.len ∧
      ops (p.toRound h).todo ≤ 9) := by
  unfold Call.toRound
  split
  · exact .inl ⟨_, _, rfl⟩
  · rename_i h0
    split
    · exact .inr ⟨rfl, rfl, by simp only [Slice.from]; omega, by simp [ops]⟩
    · obtain ⟨b, rest, hr⟩ := read_cons w h0
      have hw := width_pos b rest
      rw [← hr] at hw
      refine .inr ⟨rfl, rfl, ?_, ?_⟩
      · simp only [Slice.from]; omega
      · simp only [ops, List.map_append, List.sum_append, List.map_cons, List.map_nil, List.sum_cons, List.sum_nil]
        split <;> split <;> simp

/-- Every step uses up some of the budget. -/
theorem step_lin {grow : Nat → Nat → Nat} (hg : ∀ c n, c < n → c + c / 4 ≤ n + grow c n) {h : Heap} {p : Call}
    {input : Str} (g : Good h p input) : lin input.length (p.step grow h).1 < lin input.length p := by
  have hpcok := g.pc
  unfold PcOk at hpcok
  have hb := g.bound
  have htot := g.total
  have round_lt : ∀ p' : Call, p.pc = .round → p.todo = [] →
      ((∃ out err, p'.pc = .done out err) ∨
        (p'.pc = p.pc ∧ p'.scratch = p.scratch ∧ p'.data.len + 1 ≤ p.data.len ∧ ops p'.todo ≤ 9)) →
      lin input.length p' < lin input.length p := by
    intro p' he ht hp'
    have hleft : lin input.length p = p.data.len * 10 + 1 + budget input.length p.scratch.cap := by
      unfold lin; rw [he, ht]; rfl
    rw [hleft]
    rcases hp' with ⟨out, err, hd⟩ | ⟨h1, h2, h3, h4⟩
    · have : lin input.length p' = 0 := by unfold lin; rw [hd]
      omega
    · unfold lin
      rw [h1, he]
      simp only
      rw [h2]
      omega
  unfold Call.step
  split
  · rename_i he
    rw [he] at hpcok
    exact hpcok.elim
  · rename_i he
    rw [he] at hpcok
    exact hpcok.elim
  · rename_i he ht
    cases hd : p.dir with
    | from_ => exact round_lt _ he ht (fromRound_shape h p)
    | to_ => exact round_lt _ he ht (toRound_shape g.wfd)
  · rename_i q rest he ht
    have hq4 := g.small q (by rw [ht]; simp)
    have hng := need_ge p.scratch hq4
    have hle : q.need p.scratch ≤ p.scratch.len + 4 := by unfold Req.need; split <;> omega
    have hleft : lin input.length p = p.data.len * 10 + 1 + (q.bytes.length + 3 + ops rest) +
        budget input.length p.scratch.cap := by
      unfold lin; rw [he, ht]; simp [ops]
    split
    · rw [hleft]
      unfold lin
      simp only [ht]
      omega
    · rename_i hc
      have hm := newCap_ge grow q p.scratch
      have hm4 := newCap_quarter hg (q := q) (s := p.scratch) (by omega)
      have := budget_pay (n := input.length) (c := p.scratch.cap) (m := q.newCap grow p.scratch) (l := p.scratch.len)
        (by omega) hm4 (by omega) g.wfs.1
      rw [hleft]
      unfold lin
      simp only [ht]
      omega
  · rename_i t i he
    rw [he] at hpcok
    obtain ⟨q, rest, ht, wt, hl, hi, hdt, hst, htake, hneed⟩ := hpcok
    have hleft : lin input.length p = p.data.len * 10 + 1 + (q.bytes.length + 2) + ops rest +
        (p.scratch.len - i) + budget input.length t.cap := by
      unfold lin; rw [he, ht]
    rw [hleft]
    split
    · unfold lin
      simp only [ht]
      omega
    · rw [ht]
      simp only
      rw [if_pos hneed]
      unfold lin
      simp only
      omega
  · rename_i i he ht
    rw [he] at hpcok
    obtain ⟨q, rest, ht', _⟩ := hpcok
    rw [ht] at ht'
    cases ht'
  · rename_i i q rest he ht
    have hleft : lin input.length p = p.data.len * 10 + 1 + (q.bytes.length - i + 1) + ops rest +
        budget input.length p.scratch.cap := by
      unfold lin; rw [he, ht]
    rw [hleft]
    split
    · unfold lin
      simp only [ht]
      omega
    · unfold lin
      simp only [Slice.upTo]
      omega

theorem events_lin {grow : Nat → Nat → Nat} (hg : ∀ c n, c < n → c + c / 4 ≤ n + grow c n) {h : Heap} {s : State}
    (e : Events grow ⟨h, []⟩ s) : ∀ (i : Nat) (x : Thread), s.threads[i]? = some x → Live x.call →
      x.steps + lin x.input.length x.call ≤ 46 * x.input.length + 37 := by
  induction e with
  | nil => intro i x hx; simp at hx
  | @snoc s' s'' e' ev ih =>
    have a := events_good e'
    cases ev with
    | @call h ts d in_ w ap =>
      intro i x hx hl
      simp only at hx
      rw [List.getElem?_append] at hx
      split at hx
      · exact ih i x hx hl
      · rw [List.getElem?_singleton] at hx
        split at hx
        · cases hx
          have hb : budget (h.read in_).length 0 = 9 * (4 * (h.read in_).length + 4) := by
            unfold budget; rw [if_pos (by omega)]; omega
          have hs : lin (h.read in_).length (Call.start d in_) =
              in_.len * 10 + 1 + 0 + budget (h.read in_).length 0 := rfl
          simp only
          rw [hs, hb, read_length w]
          omega
        · cases hx
    | @step h ts j y hy =>
      intro i x hx hl
      rcases set_cases hx with ⟨hi, rfl⟩ | ⟨hi, hx⟩
      · by_cases hly : Live y.call
        · have h1 := step_lin hg (a.good j y hy hly).1
          have h2 := ih j y hy hly
          simp only at h1 h2 ⊢
          omega
        · simp only at hl
          rw [step_done grow h hly] at hl
          exact (hly hl).elim
      · exact ih i x hx hl
    | @other h ts h' hs =>
      intro i x hx hl
      exact ih i x hx hl

/-- Which positions a binary search looks at. -/
theorem searchLoop_probes (f : Nat → Bool) (fuel : Nat) : ∀ (i j k : Nat), j - i < 2 ^ k →
    ∃ ps : List Nat, ps.length ≤ k ∧ (∀ p ∈ ps, i ≤ p ∧ p < j) ∧
      ∀ g : Nat → Bool, (∀ p ∈ ps, g p = f p) → searchLoop g fuel i j = searchLoop f fuel i j := by
  induction fuel with
  | zero => intro i j k _; exact ⟨[], by simp, by simp, fun g _ => rfl⟩
  | succ fuel ih =>
    intro i j k hk
    by_cases hij : i < j
    · cases k with
      | zero => simp at hk; omega
      | succ k =>
        rw [Nat.pow_succ] at hk
        by_cases hf : f ((i + j) / 2) = true
        · obtain ⟨ps, h1, h2, h3⟩ := ih i ((i + j) / 2) k (by omega)
          refine ⟨(i + j) / 2 :: ps, by simp; omega, ?_, ?_⟩
          · intro p hp
            rcases List.mem_cons.1 hp with rfl | hp
            · omega
            · have := h2 p hp; omega
          · intro g hg
            have hg0 := hg _ (List.mem_cons_self ..)
            simp only [searchLoop, if_pos hij, hg0, hf, if_true]
            exact h3 g fun p hp => hg p (List.mem_cons_of_mem _ hp)
        · obtain ⟨ps, h1, h2, h3⟩ := ih ((i + j) / 2 + 1) j k (by omega)
          refine ⟨(i + j) / 2 :: ps, by simp; omega, ?_, ?_⟩
          · intro p hp
            rcases List.mem_cons.1 hp with rfl | hp
            · omega
            · have := h2 p hp; omega
          · intro g hg
            have hg0 := hg _ (List.mem_cons_self ..)
            simp only [searchLoop, if_pos hij, hg0, hf]
            exact h3 g fun p hp => hg p (List.mem_cons_of_mem _ hp)
    · refine ⟨[], by simp, by simp, fun g _ => ?_⟩
      simp only [searchLoop, if_neg hij]

end Cp949
