import Verif.Spec.Buffered
import Verif.Props.Cut
/-! C87: a bufio.Writer in front of a Writer. -/
namespace Props
open Go Cp949 Spec GoIo

variable {τ : Type}

/-- A writer that takes everything. -/
def Takes (S : Sink τ) : Prop := ∀ t d, (S t d).1 = d.length ∧ (S t d).2.1 = none

/-- Its state after some calls. -/
def calls (S : Sink τ) (t : τ) (ps : List Str) : τ := ps.foldl (fun t d => (S t d).2.2) t

theorem sink_eq {S : Sink τ} (hS : Takes S) (t : τ) (d : Str) : S t d = (d.length, none, (S t d).2.2) := by
  obtain ⟨h1, h2⟩ := hS t d
  rw [← h1, ← h2]

theorem flush_full {S : Sink τ} (hS : Takes S) (t : τ) {d : Str} (hd : d ≠ []) :
    flush S ⟨t, d, none⟩ = ⟨calls S t [d], [], none⟩ := by
  rw [flush, if_neg (by simp), if_neg (by simpa using hd)]
  simp only
  rw [sink_eq hS]
  simp [calls]

theorem flush_empty (S : Sink τ) (t : τ) : flush S ⟨t, [], none⟩ = ⟨t, [], none⟩ := by
  rw [flush, if_neg (by simp), if_pos (by simp)]

theorem bufLoop_fits (S : Sink τ) (N f : Nat) (t : τ) (buf p : Str) (nn : Nat) (h : p.length ≤ N - buf.length) :
    bufLoop S N (f + 1) ⟨t, buf, none⟩ p nn = some (nn, p, ⟨t, buf, none⟩) := by
  rw [bufLoop, if_neg (by simp only; omega)]

theorem bufLoop_direct {S : Sink τ} (hS : Takes S) (N f : Nat) (t : τ) (p : Str) (nn : Nat) (h : N < p.length) :
    bufLoop S N (f + 2) ⟨t, [], none⟩ p nn = some (nn + p.length, [], ⟨calls S t [p], [], none⟩) := by
  rw [bufLoop, if_pos ⟨by simpa using h, rfl⟩, if_pos (by simp)]
  simp only
  rw [sink_eq hS]
  simp only
  rw [List.drop_length, bufLoop_fits _ _ _ _ _ _ _ (by simp)]
  rfl

theorem bufLoop_empty {S : Sink τ} (hS : Takes S) (N f : Nat) (t : τ) (p : Str) (nn : Nat) :
    ∃ ps q, bufLoop S N (f + 2) ⟨t, [], none⟩ p nn = some (nn + ps.flatten.length, q, ⟨calls S t ps, [], none⟩) ∧
      ps.flatten ++ q = p ∧ q.length ≤ N ∧ (p.length ≤ N → ps = []) ∧ ∀ x ∈ ps, x ≠ [] := by
  by_cases h : N < p.length
  · refine ⟨[p], [], ?_, by simp, by simp, by omega, ?_⟩
    · rw [bufLoop_direct hS N f t p nn h]; simp
    · intro x hx
      rw [List.mem_singleton] at hx
      subst hx
      rintro rfl
      simp at h
  · exact ⟨[], p, bufLoop_fits _ _ _ _ _ _ _ (by simpa using h), rfl, by omega, by simp, by simp⟩

/-- One `Write`. -/
theorem bufWrite_takes {S : Sink τ} (hS : Takes S) {N : Nat} (t : τ) (buf p : Str) (hb : buf.length ≤ N) :
    ∃ ps buf', bufWrite S N 3 ⟨t, buf, none⟩ p = some (p.length, none, ⟨calls S t ps, buf', none⟩) ∧
      ps.flatten ++ buf' = buf ++ p ∧ buf'.length ≤ N ∧ (p.length ≤ N → ∀ x ∈ ps, x.length = N) ∧
      ∀ x ∈ ps, x ≠ [] := by
  by_cases h : p.length ≤ N - buf.length
  · refine ⟨[], buf ++ p, ?_, rfl, by rw [List.length_append]; omega, by simp, by simp⟩
    rw [bufWrite, bufLoop_fits _ _ _ _ _ _ _ h]
    simp only
    rw [if_neg (by simp), Nat.min_eq_right h, Nat.zero_add, List.take_length]
    rfl
  · by_cases h0 : buf = []
    · subst h0
      simp only [List.length_nil, Nat.sub_zero, Nat.not_le] at h
      refine ⟨[p], [], ?_, by simp, by simp, by omega, ?_⟩
      · rw [bufWrite, bufLoop_direct hS N 1 t p 0 h]
        simp
      · intro x hx
        rw [List.mem_singleton] at hx
        subst hx
        rintro rfl
        simp at h
    · have hlen := List.length_pos_iff.2 h0
      have hmin : min (N - buf.length) p.length = N - buf.length := Nat.min_eq_left (by omega)
      have hfull : (buf ++ p.take (N - buf.length)).length = N := by
        rw [List.length_append, List.length_take]; omega
      have hne : buf ++ p.take (N - buf.length) ≠ [] := by simp [h0]
      obtain ⟨ps, q, g1, g2, g3, g4, g5⟩ := bufLoop_empty hS N 0 (calls S t [buf ++ p.take (N - buf.length)])
        (p.drop (N - buf.length)) (0 + (N - buf.length))
      have hpq : N - buf.length + ps.flatten.length + q.length = p.length := by
        have := congrArg List.length g2
        rw [List.length_append, List.length_drop] at this
        omega
      refine ⟨(buf ++ p.take (N - buf.length)) :: ps, q, ?_, ?_, g3, ?_, ?_⟩
      · rw [bufWrite, bufLoop, if_pos ⟨by simp only; omega, rfl⟩, if_neg (by simpa using h0)]
        simp only
        rw [hmin, flush_full hS t hne, g1]
        simp only
        rw [if_neg (by simp), List.length_nil, Nat.sub_zero, Nat.min_eq_right g3, List.take_length, Nat.zero_add, hpq]
        rfl
      · rw [List.flatten_cons, List.append_assoc, List.append_assoc, g2, List.take_append_drop]
      · intro hp x hx
        rw [g4 (by rw [List.length_drop]; omega)] at hx
        rw [List.mem_singleton] at hx
        rw [hx, hfull]
      · intro x hx
        rcases List.mem_cons.1 hx with rfl | hx
        · exact hne
        · exact g5 x hx

theorem calls_append (S : Sink τ) (t : τ) (ps qs : List Str) : calls S t (ps ++ qs) = calls S (calls S t ps) qs := by
  rw [calls, List.foldl_append]; rfl

/-- Some of them. -/
theorem bufWrites_takes {S : Sink τ} (hS : Takes S) {N : Nat} (ds : List Str) (t : τ) (buf : Str)
    (hb : buf.length ≤ N) :
    ∃ ps buf', BufWrites S N ⟨t, buf, none⟩ ds (ds.map fun d => (d.length, none)) ⟨calls S t ps, buf', none⟩ ∧
      ps.flatten ++ buf' = buf ++ ds.flatten ∧ buf'.length ≤ N ∧
      ((∀ d ∈ ds, d.length ≤ N) → ∀ x ∈ ps, x.length = N) ∧ ∀ x ∈ ps, x ≠ [] := by
  induction ds generalizing t buf with
  | nil => exact ⟨[], buf, .nil _, by simp, hb, by simp, by simp⟩
  | cons d ds ih =>
    obtain ⟨ps, buf1, h1, h2, h3, h4, h5⟩ := bufWrite_takes hS t buf d hb
    obtain ⟨qs, buf2, g1, g2, g3, g4, g5⟩ := ih (calls S t ps) buf1 h3
    refine ⟨ps ++ qs, buf2, .cons ⟨3, h1⟩ (by rw [calls_append]; exact g1), ?_, g3, ?_, ?_⟩
    · rw [List.flatten_append, List.append_assoc, g2, ← List.append_assoc, h2, List.flatten_cons, List.append_assoc]
    · intro h x hx
      rcases List.mem_append.1 hx with hx | hx
      · exact h4 (h d (by simp)) x hx
      · exact g4 (fun d hd => h d (by simp [hd])) x hx
    · intro x hx
      rcases List.mem_append.1 hx with hx | hx
      · exact h5 x hx
      · exact g5 x hx

theorem bufWrite_mono (S : Sink τ) (N : Nat) {fuel : Nat} {b : BufWriter τ} {p : Str} {nn : Nat} {x}
    (h : bufLoop S N fuel b p nn = some x) (k : Nat) : bufLoop S N (fuel + k) b p nn = some x := by
  induction fuel generalizing b p nn with
  | zero => rw [bufLoop] at h; simp at h
  | succ fuel ih =>
    rw [show fuel + 1 + k = (fuel + k) + 1 by omega]
    rw [bufLoop] at h ⊢
    split at h
    · rw [if_pos (by assumption)]
      split at h
      · rw [if_pos (by assumption)]
        exact ih h
      · rw [if_neg (by assumption)]
        exact ih h
    · rw [if_neg (by assumption)]
      exact h

theorem bufWrites_det {S : Sink τ} {N : Nat} {b b1 : BufWriter τ} {ds : List Str} {res : List (Nat × Option Err)}
    (h : BufWrites S N b ds res b1) : ∀ {res' b2}, BufWrites S N b ds res' b2 → res = res' ∧ b1 = b2 := by
  induction h with
  | nil => intro res' b2 h'; cases h'; exact ⟨rfl, rfl⟩
  | cons h _ ih =>
    intro res' b2 h'
    cases h' with
    | cons h' g' =>
      obtain ⟨f, h⟩ := h
      obtain ⟨f', h'⟩ := h'
      rw [bufWrite] at h h'
      split at h
      · simp at h
      · rename_i he
        split at h'
        · simp at h'
        · rename_i he'
          have e1 := bufWrite_mono S N he f'
          have e2 := bufWrite_mono S N he' f
          rw [Nat.add_comm, e1] at e2
          cases e2
          rw [h] at h'
          cases h'
          obtain ⟨rfl, rfl⟩ := ih g'
          exact ⟨rfl, rfl⟩

/-- A Writer takes everything if its sink reports no error. -/
theorem write_takes (sink : Sink τ) (hs : ∀ t d, (sink t d).2.1 = none) : Takes (Write (loggedSink sink)) := by
  intro w d
  have hn : ∀ t d, ((loggedSink sink) t d).2.1 = none := fun t d => hs t.1 d
  rw [Write]
  simp only [hn]
  have h0 : ∀ (c : Prop) [Decidable c] (x y : τ × List Str), (if c then ((none : Option Err), x) else (none, y)).1 = none := by
    intro c _ x y
    split <;> rfl
  rw [if_neg (by rw [h0]; simp)]
  exact ⟨rfl, rfl⟩

theorem writes_calls (sink : Sink τ) (hs : ∀ t d, (sink t d).2.1 = none) (w : Writer (τ × List Str)) (ps : List Str) :
    ∃ res, Writes (loggedSink sink) w ps res (calls (Write (loggedSink sink)) w ps) := by
  induction ps generalizing w with
  | nil => exact ⟨[], .nil _⟩
  | cons p ps ih =>
    obtain ⟨res, h⟩ := ih (Write (loggedSink sink) w p).2.2
    exact ⟨_, .cons (sink_eq (write_takes sink hs) w p) h⟩

theorem blocks_take {N : Nat} (ps : List Str) (buf : Str) (hps : ∀ x ∈ ps, x.length = N) (hb : buf.length ≤ N) (k : Nat) :
    ((ps ++ if buf = [] then [] else [buf]).take k).flatten.length = min (k * N) (ps.length * N + buf.length) := by
  induction ps generalizing k with
  | nil =>
    simp only [List.nil_append, List.length_nil, Nat.zero_mul, Nat.zero_add]
    cases k with
    | zero => simp
    | succ k =>
      have : buf.length ≤ (k + 1) * N := by rw [Nat.succ_mul]; omega
      rw [Nat.min_eq_right this]
      split
      · rename_i h; subst h; simp
      · simp
  | cons p ps ih =>
    cases k with
    | zero => simp
    | succ k =>
      rw [List.cons_append, List.take_succ_cons, List.flatten_cons, List.length_append,
        ih (fun x hx => hps x (by simp [hx])), hps p (by simp), List.length_cons, Nat.succ_mul, Nat.succ_mul]
      omega

theorem flatten_length {N : Nat} (ps : List Str) (hps : ∀ x ∈ ps, x.length = N) : ps.flatten.length = ps.length * N := by
  induction ps with
  | nil => simp
  | cons p ps ih =>
    rw [List.flatten_cons, List.length_append, ih (fun x hx => hps x (by simp [hx])), hps p (by simp), List.length_cons,
      Nat.succ_mul]
    omega

theorem cutChar_blocks {N : Nat} {ps : List Str} {buf : Str} (hps : ∀ x ∈ ps, x.length = N) (hb : buf.length ≤ N)
    {cs : List Char} (h : ps.flatten ++ buf = utf8 cs) :
    CutChar (ps ++ if buf = [] then [] else [buf]) cs ↔ Straddles N cs := by
  have htot : ps.length * N + buf.length = (utf8 cs).length := by
    rw [← h, List.length_append, flatten_length ps hps]
  have hsplit : ∀ {xs c ys}, cs = xs ++ c :: ys → (utf8 xs).length + (utf8 [c]).length ≤ (utf8 cs).length := by
    intro xs c ys hc
    rw [hc, utf8_append, List.length_append, show c :: ys = [c] ++ ys from rfl, utf8_append, List.length_append]
    omega
  constructor
  · rintro ⟨xs, c, ys, hc, k, h1, h2⟩
    rw [blocks_take ps buf hps hb] at h1 h2
    have := hsplit hc
    exact ⟨xs, c, ys, k, hc, by omega, by omega⟩
  · rintro ⟨xs, c, ys, k, hc, h1, h2⟩
    have := hsplit hc
    refine ⟨xs, c, ys, hc, k, ?_, ?_⟩ <;> rw [blocks_take ps buf hps hb] <;> omega

theorem flatten_last (ps : List Str) (buf : Str) : (ps ++ if buf = [] then [] else [buf]).flatten = ps.flatten ++ buf := by
  by_cases h : buf = []
  · subst h; simp
  · simp [h]

theorem flush_calls {S : Sink τ} (hS : Takes S) (t : τ) (ps : List Str) (buf : Str) :
    flush S ⟨calls S t ps, buf, none⟩ = ⟨calls S t (ps ++ if buf = [] then [] else [buf]), [], none⟩ := by
  by_cases h : buf = []
  · subst h
    rw [flush_empty, if_pos rfl, List.append_nil]
  · rw [flush_full hS _ h, if_neg h, calls_append]

/-- C87, what holds (partial: it should hold for all texts), for every buffer size, if no call of `Write` is handed more than
the buffer can hold: every call takes all of its argument and reports no error, and after `Flush` the sink has
received `To` of the text if and only if no character has bytes on both sides of a multiple of the buffer size. Such a
character is cut in two, and C47 says what becomes of it. -/
theorem C87_blocks_partial (sink : Sink τ) (hs : ∀ t d, (sink t d).2.1 = none) (t : τ) (N : Nat) (ds : List Str)
    (hl : ∀ d ∈ ds, d.length ≤ N) (cs : List Char) (h : ds.flatten = utf8 cs) :
    (∃ b, BufWrites (Write (loggedSink sink)) N (NewBufWriter (NewWriter (t, []))) ds
      (ds.map fun d => (d.length, none)) b) ∧
    ∀ res b, BufWrites (Write (loggedSink sink)) N (NewBufWriter (NewWriter (t, []))) ds res b →
      (flush (Write (loggedSink sink)) b).err = none ∧ (flush (Write (loggedSink sink)) b).buf = [] ∧
      ((flush (Write (loggedSink sink)) b).wr.sink.2.flatten = (To (utf8 cs)).1 ↔ ¬ Straddles N cs) := by
  have hS := write_takes sink hs
  obtain ⟨ps, buf, h1, h2, h3, h4, _⟩ := bufWrites_takes (N := N) hS ds (NewWriter (t, [])) [] (by simp)
  refine ⟨⟨_, h1⟩, fun res b g => ?_⟩
  obtain ⟨_, rfl⟩ := bufWrites_det g h1
  rw [flush_calls hS]
  refine ⟨rfl, rfl, ?_⟩
  rw [List.nil_append, h] at h2
  rw [← cutChar_blocks (h4 hl) h3 h2]
  obtain ⟨res1, w, g1, g2⟩ := C47_unchanged_iff_partial sink hs t cs (ps ++ if buf = [] then [] else [buf])
    (by rw [← h2, flatten_last])
  obtain ⟨res2, g3⟩ := writes_calls sink hs (NewWriter (t, [])) (ps ++ if buf = [] then [] else [buf])
  obtain ⟨_, rfl⟩ := C46_deterministic _ _ _ _ _ _ _ g1 g3
  exact g2

/-- C87, what holds for any text in any calls of `Write` (partial, as above): the sink receives the text in pieces, each
encoded on its own. The pieces are not empty and put together give the text. -/
theorem C87_pieces_partial (sink : Sink τ) (hs : ∀ t d, (sink t d).2.1 = none) (t : τ) (N : Nat) (ds : List Str) :
    ∃ b, ∃ ps : List Str, BufWrites (Write (loggedSink sink)) N (NewBufWriter (NewWriter (t, []))) ds
        (ds.map fun d => (d.length, none)) b ∧
      ps.flatten = ds.flatten ∧ (∀ p ∈ ps, p ≠ []) ∧
      (flush (Write (loggedSink sink)) b).err = none ∧
      (flush (Write (loggedSink sink)) b).wr.sink.2 = ps.map fun p => (To p).1 := by
  have hS := write_takes sink hs
  obtain ⟨ps, buf, h1, h2, h3, _, h5⟩ := bufWrites_takes (N := N) hS ds (NewWriter (t, [])) [] (by simp)
  have hne : ∀ p ∈ ps ++ (if buf = [] then [] else [buf]), p ≠ [] := by
    intro p hp
    rcases List.mem_append.1 hp with hp | hp
    · exact h5 p hp
    · split at hp
      · simp at hp
      · rw [List.mem_singleton] at hp
        subst hp
        assumption
  refine ⟨_, ps ++ if buf = [] then [] else [buf], h1, ?_, hne, ?_, ?_⟩
  · rw [List.nil_append] at h2
    rw [← h2, flatten_last]
  · rw [flush_calls hS]
  · rw [flush_calls hS]
    obtain ⟨res2, g3⟩ := writes_calls sink hs (NewWriter (t, [])) (ps ++ if buf = [] then [] else [buf])
    rw [C48_one_call_each sink t _ _ _ g3, List.filter_eq_self.2 (by simpa using hne)]

/-- C87, FALSE as stated: for every buffer of at least 3 bytes (the default is 4096) and every sink there is a text, written
one character at a time, whose encoding arrives whole if it is written to the Writer and does not arrive if it is
written through a buffer. -/
theorem C87_buffer_fails (sink : Sink τ) (hs : ∀ t d, (sink t d).2.1 = none) (t : τ) (N : Nat) (hN : 3 ≤ N) :
    ∃ (cs : List Char) (out : Str), Enc cs out ∧
      (∃ res w, Writes (loggedSink sink) (NewWriter (t, [])) (cs.map fun c => utf8 [c]) res w ∧
        w.sink.2.flatten = out) ∧
      ∃ res b, BufWrites (Write (loggedSink sink)) N (NewBufWriter (NewWriter (t, []))) (cs.map fun c => utf8 [c]) res b ∧
        (flush (Write (loggedSink sink)) b).err = none ∧
        (flush (Write (loggedSink sink)) b).wr.sink.2.flatten ≠ out := by
  obtain ⟨code, hc⟩ := chart_ga
  rw [← ga_toNat] at hc
  have hA : ∀ k, Enc (List.replicate k 'A') (List.replicate k 0x41) := by
    intro k
    induction k with
    | zero => exact .nil
    | succ k ih => exact .ascii (by decide) (by decide) ih
  have hlA : ∀ k, (utf8 (List.replicate k 'A')).length = k := by
    intro k
    induction k with
    | zero => rfl
    | succ k ih =>
      rw [List.replicate_succ, show ('A' :: List.replicate k 'A') = ['A'] ++ List.replicate k 'A' from rfl, utf8_append,
        List.length_append, ih, show (utf8 ['A']).length = 1 by decide]
      omega
  have henc := enc_append (hA (N - 1)) (enc_code hc .nil)
  have hflat : ∀ cs : List Char, (cs.map fun c => utf8 [c]).flatten = utf8 cs := by
    intro cs
    induction cs with
    | nil => rfl
    | cons c cs ih =>
      rw [List.map_cons, List.flatten_cons, ih, ← utf8_append]
      rfl
  refine ⟨_, _, henc, ?_, ?_⟩
  · obtain ⟨w, h1, h2, _⟩ := C46_forwards sink hs t ((List.replicate (N - 1) 'A' ++ ['가']).map fun c => utf8 [c])
      (by
        intro d hd
        obtain ⟨c, _, rfl⟩ := List.mem_map.1 hd
        exact ⟨_, rfl⟩)
    exact ⟨_, w, h1, by rw [h2, hflat, To_enc henc]⟩
  · obtain ⟨⟨b, h1⟩, h2⟩ := C87_blocks_partial sink hs t N
      ((List.replicate (N - 1) 'A' ++ ['가']).map fun c => utf8 [c])
      (by
        intro d hd
        obtain ⟨c, hc, rfl⟩ := List.mem_map.1 hd
        rcases List.mem_append.1 hc with hc | hc
        · rw [List.eq_of_mem_replicate hc, show (utf8 ['A']).length = 1 by decide]
          omega
        · rw [List.mem_singleton.1 hc, show (utf8 ['가']).length = 3 by decide]
          exact hN) _ (hflat _)
    obtain ⟨h3, _, h4⟩ := h2 _ b h1
    refine ⟨_, b, h1, h3, fun h5 => ?_⟩
    rw [To_enc henc] at h4
    refine h4.1 h5 ⟨_, _, [], 1, rfl, ?_, ?_⟩ <;> rw [hlA]
    · omega
    · rw [show (utf8 ['가']).length = 3 by decide]
      omega

/-- 가 three times, written whole, through a buffer of 4 and of 3 bytes. -/
example : (∀ t d, (discard t d).2.1 = none) ∧ (∀ d ∈ [utf8 ['가'], utf8 ['가'], utf8 ['가']], d.length ≤ 3) ∧
    [utf8 ['가'], utf8 ['가'], utf8 ['가']].flatten = utf8 ['가', '가', '가'] ∧
    Straddles 4 ['가', '가', '가'] :=
  ⟨fun _ _ => rfl, by decide, by decide, ⟨['가'], '가', ['가'], 1, rfl, by decide, by decide⟩⟩

end Props
