import Verif.Spec.StreamCost
import Verif.Props.Stream
/-! Property theorem C80: the work of reading a stream. -/
namespace Props
open Go Spec Cp949

attribute [local irreducible] fromTable toTable rawFrom rawTo

variable {σ : Type}

theorem cost_fst (src : Source σ) (fuel w : Nat) (r : Reader σ) (buf : Str) :
    (readLoopCost src fuel w r buf).1 = readLoop src fuel r buf := by
  induction fuel generalizing w r with
  | zero => rfl
  | succ fuel ih =>
    rw [readLoopCost, readLoop]
    split
    · rfl
    · split
      · cases fill src r buf.length with
        | none => rfl
        | some r1 => exact ih _ _
      · split
        · rfl
        · exact ih _ _

/-- C80: the count changes nothing: the calls are those of C39–C45, and each sequence of calls has a count. -/
theorem C80_same (src : Source σ) (r : Reader σ) (w : Nat) (bufs : List Str) (res : List Result) (r' : Reader σ) :
    Reads src r bufs res r' ↔ ∃ w', Works src r w bufs res r' w' := by
  constructor
  · intro h
    induction h generalizing w with
    | nil r => exact ⟨w, .nil r w⟩
    | @cons r buf n err buf' r' bufs res r'' h1 _ ih =>
      obtain ⟨fuel, h1⟩ := h1
      have := cost_fst src fuel w r buf
      rw [h1] at this
      obtain ⟨w', h2⟩ := ih (readLoopCost src fuel w r buf).2
      exact ⟨w', .cons (fuel := fuel) (Prod.ext this rfl) h2⟩
  · rintro ⟨w', h⟩
    induction h with
    | nil r => exact .nil r
    | @cons fuel r w buf n err buf' r' w' bufs res r'' w'' h1 _ ih =>
      refine .cons ⟨fuel, ?_⟩ ih
      rw [← cost_fst src fuel w r buf, h1]

/-- A relation of state and count that survives filling and translating holds when `Read` is about to return. -/
theorem cost_ind {src : Source σ} {buf : Str} (P : Reader σ → Nat → Prop)
    (hfill : ∀ r r' w, P r w → r.cdata = [] → r.err = none → fill src r buf.length = some r' →
      P (convert r') (w + r'.rdata.length))
    (hconv : ∀ r w, P r w → r.cdata = [] → r.err ≠ none → r.rdata ≠ [] → P (convert r) (w + r.rdata.length))
    (hout : ∀ r w c, P r w → P { r with cdata := c } w)
    {r : Reader σ} {w : Nat} (hr : P r w) {fuel n err buf' r' w'}
    (h : readLoopCost src fuel w r buf = (.ret n err buf' r', w')) : P r' w' := by
  induction fuel generalizing r w with
  | zero => rw [readLoopCost] at h; simp at h
  | succ fuel ih =>
    rw [readLoopCost] at h
    by_cases hc : r.cdata.length > 0
    · rw [if_pos hc] at h
      simp only [Prod.mk.injEq, ReadOut.ret.injEq] at h
      obtain ⟨⟨_, _, _, h4⟩, rfl⟩ := h
      rw [← h4]
      exact hout r w _ hr
    · rw [if_neg hc] at h
      have hc : r.cdata = [] := List.length_eq_zero_iff.1 (by omega)
      by_cases he : r.err = none
      · rw [if_pos he] at h
        cases hf : fill src r buf.length with
        | none => rw [hf] at h; simp at h
        | some r1 => rw [hf] at h; exact ih (hfill r r1 w hr hc he hf) h
      · rw [if_neg he] at h
        by_cases hl : r.rdata.length = 0
        · rw [if_pos hl] at h
          simp only [Prod.mk.injEq, ReadOut.ret.injEq] at h
          obtain ⟨⟨_, _, _, h4⟩, rfl⟩ := h
          rw [← h4]
          exact hr
        · rw [if_neg hl] at h
          exact ih (hconv r w hr hc he fun e => hl (by rw [e]; rfl)) h

theorem works_ind {src : Source σ} {bufs : List Str} {Q : Nat → Prop} (hb : ∀ b ∈ bufs, Q b.length)
    (P : Reader σ → Nat → Prop)
    (hfill : ∀ r r' w k, P r w → r.cdata = [] → r.err = none → Q k → fill src r k = some r' →
      P (convert r') (w + r'.rdata.length))
    (hconv : ∀ r w, P r w → r.cdata = [] → r.err ≠ none → r.rdata ≠ [] → P (convert r) (w + r.rdata.length))
    (hout : ∀ r w c, P r w → P { r with cdata := c } w)
    {r : Reader σ} {w : Nat} (hr : P r w) {res r' w'} (h : Works src r w bufs res r' w') : P r' w' := by
  induction h with
  | nil => exact hr
  | @cons fuel r w buf n err buf' r' w' bufs res r'' w'' h1 _ ih =>
    have hbuf := hb buf (by simp)
    exact ih (fun b h => hb b (by simp [h]))
      (cost_ind P (fun r r' w h1 h2 h3 h4 => hfill r r' w _ h1 h2 h3 hbuf h4) hconv hout hr h1)

/-- What a read of a source with finite data does to the remainder. -/
theorem fill_delivers {src : Source σ} {e : Err} {r r' : Reader σ} {R : Str} {len : Nat} (hl : 0 < len)
    (hd : Delivers src e r.src R) (hf : fill src r len = some r') :
    ∃ k c R', 0 < k ∧ c = (src r.src k).1 ∧ r'.src = (src r.src k).2.2 ∧ R = c ++ R' ∧ r'.rdata = r.rdata ++ c ∧
      ((r'.err = none ∧ c ≠ [] ∧ Delivers src e r'.src R') ∨ (r'.err ≠ none ∧ R' = [])) := by
  obtain ⟨k, hk, _, _, rfl⟩ := fill_some hf
  have hk : 0 < k := by omega
  cases hd with
  | mk _ _ size more last next =>
    by_cases hn : (src r.src k).2.1 = none
    · obtain ⟨hb, R', hR⟩ := more k hk hn
      have hnext := next k hk hn
      rw [show R.drop (src r.src k).1.length = R' by rw [← hR]; simp] at hnext
      exact ⟨k, _, R', hk, rfl, rfl, hR.symm, rfl, .inl ⟨by simp [hb, hn], hb, hnext⟩⟩
    · obtain ⟨hb, _⟩ := last k hk hn
      exact ⟨k, _, [], hk, rfl, rfl, by simp [hb], rfl, .inr ⟨by simp [hn], rfl⟩⟩

theorem convert_err (r : Reader σ) : (convert r).err = r.err := rfl
theorem convert_src (r : Reader σ) : (convert r).src = r.src := rfl

theorem convert_rdata_le (r : Reader σ) : (convert r).rdata.length ≤ r.rdata.length := by
  unfold convert
  simp only [List.length_drop]
  omega

theorem convert_rdata_end {r : Reader σ} (h : r.err ≠ none) : (convert r).rdata = [] := by
  rcases dec_cases r.rdata with ⟨cs, hd⟩ | ht
  · rw [convert_dec hd]
  · rw [convert_truncated_end ht h]

theorem quadratic {a c d w : Nat} (h : 2 * w ≤ a * (a + 1)) (hc : 0 < c) (hd : d ≤ a + c) :
    2 * (w + d) ≤ (a + c) * (a + c + 1) := by
  have h1 : a ≤ a * c := Nat.le_mul_of_pos_right a hc
  have h2 : c ≤ c * c := Nat.le_mul_of_pos_right c hc
  have h3 : (a + c) * (a + c + 1) = a * a + a * c + a * c + c * c + a + c := by
    simp only [Nat.add_mul, Nat.mul_add, Nat.mul_one, Nat.mul_comm c a]
    omega
  rw [Nat.mul_add, Nat.mul_one] at h
  omega

/-- C80, what holds for every source with finite data (partial: it is not linear): reading a stream of `n` bytes,
with any non-empty buffers, hands the translator at most `n * (n + 3) / 2` bytes. -/
theorem C80_quadratic_partial (src : Source σ) (e : Err) (s : σ) (D : Str) (h : Delivers src e s D)
    (bufs : List Str) (hb : ∀ b ∈ bufs, b ≠ []) (res : List Result) (r : Reader σ) (w : Nat)
    (hw : Works src (NewReader s) 0 bufs res r w) : 2 * w ≤ D.length * (D.length + 3) := by
  have key := works_ind (Q := (0 < ·)) (fun b hx => List.length_pos_iff.2 (hb b hx))
    (fun r w => ∃ a R, a + R = D.length ∧ r.rdata.length ≤ a ∧
      ((r.err = none ∧ (∃ R', Delivers src e r.src R' ∧ R'.length = R) ∧ 2 * w ≤ a * (a + 1)) ∨
       (r.err ≠ none ∧ r.rdata = [] ∧ 2 * w ≤ D.length * (D.length + 3))))
    (hfill := by
      rintro r r' w k ⟨a, R, ha, hl, hcase⟩ hc he hk hf
      rcases hcase with ⟨_, ⟨R', hd, hR⟩, hw⟩ | ⟨h, _⟩
      · obtain ⟨_, c, R'', _, _, _, hR2, hrd, hcase⟩ := fill_delivers hk hd hf
        have hle := convert_rdata_le r'
        rw [hR2, List.length_append] at hR
        rcases hcase with ⟨h1, h2, h3⟩ | ⟨h1, h2⟩
        · have hc := List.length_pos_iff.2 h2
          refine ⟨a + c.length, R''.length, by omega, by rw [hrd, List.length_append] at hle; omega,
            .inl ⟨h1, ⟨R'', h3, rfl⟩, quadratic hw hc ?_⟩⟩
          rw [hrd, List.length_append]
          omega
        · refine ⟨D.length, 0, by omega, ?_, .inr ⟨h1, convert_rdata_end h1, ?_⟩⟩
          · rw [convert_rdata_end h1]; simp
          · have : a * (a + 1) ≤ D.length * (D.length + 1) := Nat.mul_le_mul (by omega) (by omega)
            have h4 : D.length * (D.length + 3) = D.length * (D.length + 1) + 2 * D.length := by
              rw [Nat.mul_add, Nat.mul_add]; omega
            rw [h4, hrd, List.length_append]
            rw [h2] at hR
            simp only [List.length_nil] at hR
            omega
      · exact absurd he h)
    (hconv := by
      rintro r w ⟨a, R, ha, hl, hcase⟩ hc he hr
      rcases hcase with ⟨h, _⟩ | ⟨_, h, _⟩
      · exact absurd h he
      · exact absurd h hr)
    (hout := fun r w c h => h)
    (r := NewReader s) (w := 0) ⟨0, D.length, by omega, by simp [NewReader], .inl ⟨rfl, ⟨D, h, rfl⟩, by simp⟩⟩ hw
  obtain ⟨a, R, ha, _, hcase⟩ := key
  rcases hcase with ⟨_, _, h⟩ | ⟨_, _, h⟩
  · exact Nat.le_trans h (Nat.mul_le_mul (by omega) (by omega))
  · exact h

/-- C80, what holds (2) (partial: sources that may cut characters are left out): if the source hands over whole
characters only (in all states that can come up, `whole`), no byte is handed to the translator twice. -/
theorem C80_whole_partial (src : Source σ) (e : Err) (s : σ) (D : Str) (h : Delivers src e s D)
    (whole : σ → Prop) (h0 : whole s)
    (hs : ∀ s k, 0 < k → whole s → whole (src s k).2.2 ∧ ∃ cs, Dec (src s k).1 cs) (bufs : List Str) (hb : ∀ b ∈ bufs, b ≠ []) (res : List Result)
    (r : Reader σ) (w : Nat) (hw : Works src (NewReader s) 0 bufs res r w) : w ≤ D.length := by
  have key := works_ind (Q := (0 < ·)) (fun b hx => List.length_pos_iff.2 (hb b hx))
    (fun r w => r.rdata = [] ∧ whole r.src ∧ ∃ R, w + R = D.length ∧
      ((r.err = none ∧ ∃ R', Delivers src e r.src R' ∧ R'.length = R) ∨ r.err ≠ none))
    (hfill := by
      rintro r r' w k ⟨h0, hwh, R, ha, hcase⟩ hc he hk hf
      rcases hcase with ⟨_, R', hd, hR⟩ | h
      · obtain ⟨k', c, R'', hk', hcc, hsrc, hR2, hrd, hcase⟩ := fill_delivers hk hd hf
        obtain ⟨hwh', cs, hcs⟩ := hs r.src k' hk' hwh
        rw [hR2, List.length_append] at hR
        rw [h0, List.nil_append] at hrd
        have hz : (convert r').rdata = [] := by
          rw [← hcc, ← hrd] at hcs
          rw [convert_dec hcs]
        refine ⟨hz, by rw [convert_src, hsrc]; exact hwh', R''.length, by rw [hrd]; omega, ?_⟩
        rcases hcase with ⟨h1, h2, h3⟩ | ⟨h1, h2⟩
        · exact .inl ⟨h1, R'', h3, rfl⟩
        · exact .inr h1
      · exact absurd he h)
    (hconv := by
      rintro r w ⟨h, _⟩ hc he hr
      exact absurd h hr)
    (hout := fun r w c h => h)
    (r := NewReader s) (w := 0) ⟨rfl, h0, D.length, by omega, .inl ⟨rfl, D, h, rfl⟩⟩ hw
  obtain ⟨_, _, R, ha, _⟩ := key
  omega

/-! ## The negation -/

/-- `n` times 가. -/
def gaBytes (n : Nat) : Str := (List.replicate n [0xB0, 0xA1]).flatten

theorem gaBytes_succ (n : Nat) : gaBytes (n + 1) = gaBytes n ++ [0xB0, 0xA1] := by
  unfold gaBytes
  rw [List.replicate_succ', List.flatten_append]
  rfl

theorem gaBytes_length (n : Nat) : (gaBytes n).length = 2 * n := by
  induction n with
  | zero => rfl
  | succ n ih => rw [gaBytes_succ, List.length_append, ih]; simp only [List.length_cons, List.length_nil]; omega

theorem gaBytes_dec (n : Nat) : ∃ cs, Dec (gaBytes n) cs := by
  rcases dec_cases (gaBytes n) with h | h
  · exact h
  · exfalso
    induction n with
    | zero => cases h
    | succ n ih =>
      have e : gaBytes (n + 1) = 0xB0 :: 0xA1 :: gaBytes n := by
        unfold gaBytes; rw [List.replicate_succ, List.flatten_cons]; rfl
      rw [e] at h
      cases h with
      | ascii h _ => simp at h
      | pair _ h => exact ih h

theorem gaBytes_truncated (n : Nat) : Truncated (gaBytes n ++ [0xB0]) := by
  induction n with
  | zero => exact .lone (by decide)
  | succ n ih =>
    have e : gaBytes (n + 1) = 0xB0 :: 0xA1 :: gaBytes n := by
      unfold gaBytes; rw [List.replicate_succ, List.flatten_cons]; rfl
    rw [e]
    exact .pair (by decide) ih

/-- One round on a piece that leaves a character cut. -/
theorem cut_round {cs : List Str} {c : Str} {r : Reader (List Str)} {buf : Str} (hc : r.cdata = [])
    (he : r.err = none) (hs : r.src = c :: cs) (h0 : c ≠ []) (hl : c.length ≤ buf.length) (fuel w : Nat) :
    ∃ r1, r1.cdata = [] ∧ r1.err = none ∧ r1.src = cs ∧ r1.rdata = r.rdata ++ c ∧ r1.rdata.length ≤ r1.rcap ∧
      readLoopCost chunked (fuel + 1) w r buf =
        readLoopCost chunked fuel (w + r.rdata.length + c.length) (convert r1) buf := by
  have hk : ∀ k, buf.length ≤ k → chunked r.src k = (c, none, cs) := by
    intro k hk
    rw [hs, chunked, if_pos (by omega)]
  obtain ⟨r1, hf⟩ := fill_isSome (src := chunked) (r := r) (len := buf.length)
    (fun k h => by rw [hk k h]; simp only; omega)
  refine ⟨r1, ?_⟩
  have hstep : readLoopCost chunked (fuel + 1) w r buf =
      readLoopCost chunked fuel (w + r1.rdata.length) (convert r1) buf := by
    rw [readLoopCost, if_neg (by rw [hc]; simp), if_pos he, hf]
  obtain ⟨k, h1, h2, _, e⟩ := fill_some hf
  rw [hk k h1] at e
  rw [hstep, e]
  refine ⟨hc, by simp [h0], rfl, rfl, by simp only [List.length_append]; omega, ?_⟩
  simp only [List.length_append, Nat.add_assoc]

/-- The rounds on all pieces that are left. -/
theorem cut_rounds (m : Nat) : ∀ (i : Nat) {r : Reader (List Str)} {buf : Str}, r.cdata = [] → r.err = none →
    r.src = List.replicate m [0xA1, 0xB0] ++ [[0xA1]] → r.rdata = gaBytes i ++ [0xB0] → 2 ≤ buf.length → ∀ w,
    ∃ n buf' r' w', readLoopCost chunked (m + 2) w r buf = (.ret n none buf' r', w') ∧
      w' + (i + 1) * (i + 1) = w + (i + m + 1) * (i + m + 1) + 2 * (i + m + 1) ∧ 2 * (i + m + 1) ≤ r'.rcap := by
  induction m with
  | zero =>
    intro i r buf hc he hs hr hb w
    obtain ⟨r1, h1, h2, h3, h4, hcap, h5⟩ := cut_round (c := [0xA1]) (cs := []) (buf := buf) hc he hs (by simp)
      (by simp only [List.length_cons, List.length_nil]; omega) 1 w
    obtain ⟨cs, hd⟩ := gaBytes_dec (i + 1)
    have hrd : r1.rdata = gaBytes (i + 1) := by rw [h4, hr, gaBytes_succ, List.append_assoc]; rfl
    rw [← hrd] at hd
    have hcv : (convert r1).cdata = utf8 cs := by rw [convert_dec hd]
    have hpos : (convert r1).cdata.length > 0 := by
      rw [hcv]
      cases cs with
      | nil =>
        have : (gaBytes (i + 1)).length = 0 := by
          rw [← hrd]
          generalize r1.rdata = x at hd
          cases hd
          rfl
        rw [gaBytes_length] at this
        omega
      | cons c cs =>
        have := (utf8EncodeChar_length c).1
        rw [utf8_cons, List.length_append]
        omega
    refine ⟨(copy buf (convert r1).cdata).2, (copy buf (convert r1).cdata).1,
      { convert r1 with cdata := (convert r1).cdata.drop (copy buf (convert r1).cdata).2 }, w + r.rdata.length + 1, ?_, ?_, ?_⟩
    rotate_left 2
    · rw [hrd, gaBytes_length] at hcap
      exact hcap
    · rw [show 0 + 2 = 1 + 1 from rfl, h5, readLoopCost, if_pos hpos]
      rfl
    · rw [hr, List.length_append, gaBytes_length]
      simp only [List.length_cons, List.length_nil]
      rw [show i + 0 + 1 = i + 1 by omega]
      omega
  | succ m ih =>
    intro i r buf hc he hs hr hb w
    rw [List.replicate_succ, List.cons_append] at hs
    obtain ⟨r1, h1, h2, h3, h4, hcap, h5⟩ := cut_round (buf := buf) hc he hs (by simp) (by simp; omega) (m + 2) w
    have hrd : r1.rdata = gaBytes (i + 1) ++ [0xB0] := by
      rw [h4, hr, gaBytes_succ, List.append_assoc, List.append_assoc]; rfl
    have ht : convert r1 = { r1 with cdata := [] } :=
      convert_truncated_more (by rw [hrd]; exact gaBytes_truncated (i + 1)) h2
    obtain ⟨n, buf', r', w', h6, h7, h8⟩ := ih (i + 1) (r := convert r1) (buf := buf) (by rw [ht]) (by rw [ht]; exact h2)
      (by rw [ht]; exact h3) (by rw [ht]; exact hrd) hb (w + r.rdata.length + 2)
    refine ⟨n, buf', r', w', ?_, ?_, by rw [show i + (m + 1) + 1 = i + 1 + m + 1 by omega]; exact h8⟩
    · rw [show m + 1 + 2 = m + 2 + 1 by omega, h5]
      exact h6
    · rw [hr, List.length_append, gaBytes_length] at h7
      simp only [List.length_cons, List.length_nil] at h7
      rw [show i + (m + 1) + 1 = i + 1 + m + 1 by omega]
      have : (i + 1 + 1) * (i + 1 + 1) = (i + 1) * (i + 1) + 2 * i + 3 := by
        simp only [Nat.mul_add, Nat.add_mul]; omega
      omega

theorem cutPieces_ne (n : Nat) : ∀ d ∈ cutPieces n, d ≠ [] := by
  intro d hd
  unfold cutPieces at hd
  simp only [List.cons_append, List.mem_cons, List.mem_append, List.mem_replicate, List.not_mem_nil, or_false] at hd
  rcases hd with rfl | ⟨_, rfl⟩ | rfl <;> simp

theorem cut_all (n : Nat) (buf : Str) (hb : 2 ≤ buf.length) :
    (cutPieces n).flatten.length = 2 * n + 2 ∧ Delivers chunked .eof (cutPieces n) (cutPieces n).flatten ∧
    ∃ res r w, Works chunked (NewReader (cutPieces n)) 0 [buf] res r w ∧ w = (n + 1) * (n + 1) + 2 * (n + 1) ∧
      2 * (n + 1) ≤ r.rcap := by
  have hlen : ∀ n, (List.replicate n [(0xA1 : Byte), 0xB0]).flatten.length = 2 * n := by
    intro n
    induction n with
    | zero => rfl
    | succ n ih =>
      rw [List.replicate_succ, List.flatten_cons, List.length_append, ih]
      simp only [List.length_cons, List.length_nil]; omega
  refine ⟨?_, chunked_delivers _ (cutPieces_ne n), ?_⟩
  · unfold cutPieces
    rw [List.cons_append, List.flatten_cons, List.flatten_append, List.length_append, List.length_append, hlen]
    simp
    omega
  · obtain ⟨r1, h1, h2, h3, h4, hcap, h5⟩ := cut_round (r := NewReader (cutPieces n)) (buf := buf) rfl rfl
      (show (NewReader (cutPieces n)).src = [0xB0] :: (List.replicate n [0xA1, 0xB0] ++ [[0xA1]]) from rfl)
      (by simp) (by simp; omega) (n + 2) 0
    have hrd : r1.rdata = gaBytes 0 ++ [0xB0] := h4
    have ht : convert r1 = { r1 with cdata := [] } :=
      convert_truncated_more (by rw [hrd]; exact gaBytes_truncated 0) h2
    obtain ⟨m, buf', r', w', h6, h7, h8⟩ := cut_rounds n 0 (r := convert r1) (buf := buf) (by rw [ht]) (by rw [ht]; exact h2)
      (by rw [ht]; exact h3) (by rw [ht]; exact hrd) hb 1
    refine ⟨_, _, w', .cons (fuel := n + 2 + 1) (w' := w') (n := m) (err := none) (buf' := buf') (r' := r') ?_ (.nil _ _), ?_, ?_⟩
    · rw [h5]
      exact h6
    · rw [show 0 + n + 1 = n + 1 by omega] at h7
      omega
    · rw [show 0 + n + 1 = n + 1 by omega] at h8
      exact h8

/-- C80 is false of the code: `n + 1` times 가, in pieces that all but the last end inside a character, costs one
`Read` with any buffer of at least two bytes a quarter of the square of the length of the stream, since the
translator starts again from the beginning after each piece. -/
theorem C80_linear_fails (n : Nat) (buf : Str) (hb : 2 ≤ buf.length) :
    (cutPieces n).flatten.length = 2 * n + 2 ∧ Delivers chunked .eof (cutPieces n) (cutPieces n).flatten ∧
    ∃ res r w, Works chunked (NewReader (cutPieces n)) 0 [buf] res r w ∧ w = (n + 1) * (n + 1) + 2 * (n + 1) := by
  obtain ⟨h1, h2, res, r, w, h3, h4, _⟩ := cut_all n buf hb
  exact ⟨h1, h2, res, r, w, h3, h4⟩

/-- So no factor is large enough for all streams. -/
theorem C80_no_factor_fails : ¬ ∃ c : Nat, ∀ (ds : List Str) (bufs : List Str) (res : List Result) (r : Reader (List Str))
    (w : Nat), (∀ d ∈ ds, d ≠ []) → (∀ b ∈ bufs, b ≠ []) → Works chunked (NewReader ds) 0 bufs res r w →
      w ≤ c * ds.flatten.length + c := by
  rintro ⟨c, h⟩
  obtain ⟨h1, _, res, r, w, h2, h3⟩ := C80_linear_fails (2 * c) [0, 0] (by decide)
  have := h _ _ _ _ _ (by
    exact cutPieces_ne _) (by simp) h2
  rw [h1, h3] at this
  simp only [Nat.mul_add, Nat.add_mul, Nat.mul_one, Nat.one_mul, Nat.mul_assoc, Nat.mul_left_comm c 2] at this
  omega

/-- A source that hands over `A` as often as its state says. -/
def manyAs : Source Nat
  | 0, _ => ([], some .eof, 0)
  | n + 1, _ => ([0x41], none, n)

example : Delivers manyAs .eof 3 [0x41, 0x41, 0x41] ∧
    ∀ s k, 0 < k → True → True ∧ ∃ cs, Dec (manyAs s k).1 cs := by
  refine ⟨?_, ?_⟩
  · have h0 : Delivers manyAs .eof 0 [] := .mk 0 [] (by simp [manyAs]) (by simp [manyAs]) (by simp [manyAs]) (by simp [manyAs])
    have h1 : ∀ n D, Delivers manyAs .eof n D → Delivers manyAs .eof (n + 1) (0x41 :: D) := fun n D h =>
      .mk _ _ (by intro k hk; simp [manyAs]; omega) (by intro k _ _; simp [manyAs]) (by simp [manyAs]) (by
        intro k _ _; simpa [manyAs] using h)
    exact h1 _ _ (h1 _ _ (h1 _ _ h0))
  · rintro (_ | n) k _ _
    · exact ⟨trivial, [], .nil⟩
    · exact ⟨trivial, ['A'], .ascii (by decide) (by decide) .nil⟩

end Props
