import Verif.Spec.Stream
import Verif.Lemmas.Cp949
import Verif.Props.Cp949
/-! Lemmas about the stream reader. -/
namespace Cp949
open Go Spec

attribute [local irreducible] fromTable toTable rawFrom rawTo

theorem growLoop_ge (fuel m n : Nat) (hm : 0 < m) (h : n ≤ fuel + m) : n ≤ growLoop fuel m n := by
  induction fuel generalizing m with
  | zero => simpa [growLoop] using h
  | succ fuel ih =>
    simp only [growLoop]
    have hm' : m + 1 ≤ (if m < 1024 then m + m else m + m / 4) := by split <;> omega
    generalize (if m < 1024 then m + m else m + m / 4) = m' at *
    split
    · assumption
    · exact ih m' (by omega) (by omega)

theorem ensureCapCap_ge (c n : Nat) : n ≤ ensureCapCap c n := by
  unfold ensureCapCap
  split
  · assumption
  · split
    · exact Nat.le_refl _
    · exact growLoop_ge n c n (by omega) (by omega)

theorem copy_take (dst src : Str) : (copy dst src).1.take (copy dst src).2 = src.take (copy dst src).2 := by
  simp only [copy]
  by_cases h : dst.length ≤ src.length
  · rw [Nat.min_eq_left h, List.drop_eq_nil_of_le h, List.append_nil, List.take_take, Nat.min_self]
  · rw [Nat.min_eq_right (by omega), List.take_of_length_le (l := src) (by omega),
      List.take_append_of_le_length (Nat.le_refl _)]

theorem copy_drop (dst src : Str) : (copy dst src).1.drop (copy dst src).2 = dst.drop (copy dst src).2 := by
  simp only [copy]
  by_cases h : dst.length ≤ src.length
  · rw [Nat.min_eq_left h, List.drop_eq_nil_of_le h, List.append_nil,
      List.drop_eq_nil_of_le (by rw [List.length_take]; omega), List.drop_eq_nil_of_le (Nat.le_refl _)]
  · rw [Nat.min_eq_right (by omega), List.take_of_length_le (l := src) (by omega),
      List.drop_append_of_le_length (Nat.le_refl _), List.drop_length, List.nil_append]

theorem copy_length (dst src : Str) : (copy dst src).1.length = dst.length := by
  simp only [copy, List.length_append, List.length_take, List.length_drop]
  omega

variable {σ : Type}

theorem readLoop_mono (src : Source σ) (fuel k : Nat) (r : Reader σ) (buf : Str) (out : ReadOut σ)
    (h : readLoop src fuel r buf = out) (ho : out ≠ .running) :
    readLoop src (fuel + k) r buf = out := by
  induction fuel generalizing r with
  | zero => rw [readLoop] at h; exact absurd h.symm ho
  | succ fuel ih =>
    rw [show fuel + 1 + k = (fuel + k) + 1 by omega]
    rw [readLoop] at h ⊢
    split
    · simpa [*] using h
    · rename_i h1
      rw [if_neg h1] at h
      split
      · rename_i h2
        rw [if_pos h2] at h
        cases hf : fill src r buf.length with
        | none => rw [hf] at h; exact h
        | some r' => rw [hf] at h; exact ih _ h
      · rename_i h2
        rw [if_neg h2] at h
        split
        · rename_i h3; rw [if_pos h3] at h; exact h
        · rename_i h3; rw [if_neg h3] at h; exact ih _ h

theorem Returns_det {src : Source σ} {r : Reader σ} {buf : Str} {n n' err err' b b' r1 r2}
    (h : Returns src r buf n err b r1) (h' : Returns src r buf n' err' b' r2) :
    n = n' ∧ err = err' ∧ b = b' ∧ r1 = r2 := by
  obtain ⟨f, h⟩ := h
  obtain ⟨f', h'⟩ := h'
  have h1 := readLoop_mono src f f' r buf _ h (by simp)
  have h2 := readLoop_mono src f' f r buf _ h' (by simp)
  rw [Nat.add_comm f' f, h1] at h2
  simpa using h2

theorem Reads_det {src : Source σ} {r : Reader σ} {bufs : List Str} {res res' r1 r2}
    (h : Reads src r bufs res r1) (h' : Reads src r bufs res' r2) : res = res' ∧ r1 = r2 := by
  induction h generalizing res' r2 with
  | nil => cases h'; exact ⟨rfl, rfl⟩
  | cons h1 _ ih =>
    cases h' with
    | cons h1' h2' =>
      obtain ⟨rfl, rfl, rfl, rfl⟩ := Returns_det h1 h1'
      obtain ⟨rfl, rfl⟩ := ih h2'
      exact ⟨rfl, rfl⟩

/-! ### Induction over one call -/

/-- A property of the reader's state that survives filling and translating holds when `Read` is about to
return. -/
theorem Returns_ind {src : Source σ} {buf : Str} (P : Reader σ → Prop)
    (hfill : ∀ r r', P r → r.cdata = [] → r.err = none → fill src r buf.length = some r' →
      P (convert r'))
    (hconv : ∀ r, P r → r.cdata = [] → r.err ≠ none → r.rdata ≠ [] → P (convert r))
    {r : Reader σ} (hr : P r) {n err buf' r'} (h : Returns src r buf n err buf' r') :
    ∃ m, P m ∧
      ((m.cdata ≠ [] ∧ n = (copy buf m.cdata).2 ∧ err = none ∧ buf' = (copy buf m.cdata).1 ∧
          r' = { m with cdata := m.cdata.drop n }) ∨
       (m.cdata = [] ∧ m.err ≠ none ∧ m.rdata = [] ∧ n = 0 ∧ err = m.err ∧ buf' = buf ∧ r' = m)) := by
  obtain ⟨fuel, h⟩ := h
  induction fuel generalizing r with
  | zero => rw [readLoop] at h; simp at h
  | succ fuel ih =>
    rw [readLoop] at h
    by_cases hc : r.cdata.length > 0
    · rw [if_pos hc] at h
      simp only [ReadOut.ret.injEq] at h
      obtain ⟨h1, h2, h3, h4⟩ := h
      refine ⟨r, hr, .inl ⟨?_, h1.symm, h2.symm, h3.symm, ?_⟩⟩
      · intro e; rw [e] at hc; simp at hc
      · rw [← h4, h1]
    · rw [if_neg hc] at h
      have hc : r.cdata = [] := List.length_eq_zero_iff.1 (by omega)
      by_cases he : r.err = none
      · rw [if_pos he] at h
        cases hf : fill src r buf.length with
        | none => rw [hf] at h; simp at h
        | some r1 => rw [hf] at h; exact ih (hfill r r1 hr hc he hf) h
      · rw [if_neg he] at h
        by_cases hl : r.rdata.length = 0
        · rw [if_pos hl] at h
          simp only [ReadOut.ret.injEq] at h
          obtain ⟨h1, h2, h3, h4⟩ := h
          exact ⟨r, hr, .inr ⟨hc, he, List.length_eq_zero_iff.1 hl, h1.symm, h2.symm, h3.symm, h4.symm⟩⟩
        · rw [if_neg hl] at h
          exact ih (hconv r hr hc he fun e => hl (by rw [e]; rfl)) h

theorem convert_dec {r : Reader σ} {cs : List Char} (h : Dec r.rdata cs) :
    convert r = { r with cdata := utf8 cs, rdata := [] } := by
  unfold convert
  rw [fromTranslate_dec h]
  simp only
  congr 1
  split
  · simp
  · simp

theorem convert_truncated_more {r : Reader σ} (h : Truncated r.rdata) (he : r.err = none) :
    convert r = { r with cdata := [] } := by
  unfold convert
  rw [fromTranslate_truncated h]
  simp [he]

theorem convert_truncated_end {r : Reader σ} (h : Truncated r.rdata) (he : r.err ≠ none) :
    convert r = { r with cdata := [], rdata := [] } := by
  unfold convert
  rw [fromTranslate_truncated h]
  simp [he]

/-- `fill` in terms of the source's answer. -/
theorem fill_some {src : Source σ} {r r' : Reader σ} {len : Nat} (h : fill src r len = some r') :
    ∃ k, len ≤ k ∧ r.rdata.length + k = ensureCapCap r.rcap (r.rdata.length + len) ∧
      (src r.src k).1.length ≤ k ∧
      r' = { r with
        src := (src r.src k).2.2, rdata := r.rdata ++ (src r.src k).1
        rcap := ensureCapCap r.rcap (r.rdata.length + len)
        err := if (src r.src k).1 = [] ∧ (src r.src k).2.1 = none then some Err.eof
          else (src r.src k).2.1 } := by
  have hge := ensureCapCap_ge r.rcap (r.rdata.length + len)
  refine ⟨ensureCapCap r.rcap (r.rdata.length + len) - r.rdata.length, by omega, by omega, ?_⟩
  unfold fill at h
  simp only at h
  split at h
  · rename_i hl
    refine ⟨by omega, ?_⟩
    simp only [Option.some.injEq] at h
    rw [← h]
    simp only [List.length_eq_zero_iff]
  · simp at h

theorem fill_isSome {src : Source σ} {r : Reader σ} {len : Nat}
    (h : ∀ k, len ≤ k → (src r.src k).1.length ≤ k) : ∃ r', fill src r len = some r' := by
  have hge := ensureCapCap_ge r.rcap (r.rdata.length + len)
  unfold fill
  simp only
  rw [if_pos]
  · exact ⟨_, rfl⟩
  · have := h (ensureCapCap r.rcap (r.rdata.length + len) - r.rdata.length) (by omega)
    omega

/-! ### What is delivered is decoded from what was received -/

/-- `O` has been delivered so far: everything received is `p ++ q`, `p` decodes to `O` and the
pending output, and `q` is pending input, or was a cut-off character thrown away at the end. -/
def Inv (O : Str) (r : Reader (σ × Str)) : Prop :=
  ∃ p q cs, r.src.2 = p ++ q ∧ Dec p cs ∧ utf8 cs = O ++ r.cdata ∧
    (q = r.rdata ∨ (r.rdata = [] ∧ r.err ≠ none ∧ Truncated q))

theorem inv_convert {O : Str} {r : Reader (σ × Str)} (h : Inv O r) (hc : r.cdata = []) :
    Inv O (convert r) := by
  obtain ⟨p, q, cs, h1, h2, h3, h4⟩ := h
  rcases dec_cases r.rdata with ⟨ds, hd⟩ | ht
  · rw [convert_dec hd]
    rcases h4 with rfl | ⟨h4, h5, h6⟩
    · refine ⟨p ++ r.rdata, [], cs ++ ds, by simpa using h1, dec_append h2 hd, ?_, .inl rfl⟩
      rw [utf8_append, h3, hc]; simp
    · rw [h4] at hd
      cases hd
      exact ⟨p, q, cs, h1, h2, by rw [h3, hc]; rfl, .inr ⟨rfl, h5, h6⟩⟩
  · rcases h4 with rfl | ⟨h4, _, _⟩
    · by_cases he : r.err = none
      · rw [convert_truncated_more ht he]
        exact ⟨p, r.rdata, cs, h1, h2, by rw [h3, hc], .inl rfl⟩
      · rw [convert_truncated_end ht he]
        exact ⟨p, r.rdata, cs, h1, h2, by rw [h3, hc], .inr ⟨rfl, he, ht⟩⟩
    · rw [h4] at ht; cases ht

theorem inv_fill {src : Source σ} {O : Str} {r r' : Reader (σ × Str)} {len : Nat} (h : Inv O r)
    (he : r.err = none) (hf : fill (logged src) r len = some r') : Inv O r' := by
  obtain ⟨p, q, cs, h1, h2, h3, h4⟩ := h
  obtain ⟨k, _, _, _, rfl⟩ := fill_some hf
  rcases h4 with rfl | ⟨_, h5, _⟩
  · refine ⟨p, r.rdata ++ (src r.src.1 k).1, cs, ?_, h2, h3, .inl rfl⟩
    simp only [logged]
    rw [h1, List.append_assoc]
  · exact absurd he h5

theorem fill_cdata {src : Source σ} {r r' : Reader σ} {len : Nat} (hf : fill src r len = some r') :
    r'.cdata = r.cdata := by
  obtain ⟨k, _, _, _, rfl⟩ := fill_some hf
  rfl

theorem inv_returns {src : Source σ} {O buf : Str} {r r' : Reader (σ × Str)} {n err buf'}
    (h : Inv O r) (hr : Returns (logged src) r buf n err buf' r') : Inv (O ++ buf'.take n) r' := by
  obtain ⟨m, hm, h⟩ := Returns_ind (fun r => Inv O r)
    (fun r r' hi hc he hf => inv_convert (inv_fill hi he hf) (by rw [fill_cdata hf, hc]))
    (fun r hi hc _ _ => inv_convert hi hc) h hr
  rcases h with ⟨_, rfl, rfl, rfl, rfl⟩ | ⟨_, _, _, rfl, _, rfl, rfl⟩
  · obtain ⟨p, q, cs, h1, h2, h3, h4⟩ := hm
    refine ⟨p, q, cs, h1, h2, ?_, h4⟩
    simp only
    rw [h3, copy_take, List.append_assoc, List.take_append_drop]
  · simpa using hm

theorem inv_reads {src : Source σ} {O : Str} {r r' : Reader (σ × Str)} {bufs res}
    (h : Inv O r) (hr : Reads (logged src) r bufs res r') : Inv (O ++ delivered res) r' := by
  induction hr generalizing O with
  | nil => simpa [delivered] using h
  | cons h1 _ ih =>
    have := ih (inv_returns h h1)
    simpa [delivered] using this

/-! ### Sources with finite data -/

/-- `O` delivered of the stream `D`; `R` is still to come from the source. -/
def InvD (src : Source σ) (D : Str) (e : Err) (O R : Str) (r : Reader σ) : Prop :=
  ∃ p cs, Dec p cs ∧ utf8 cs = O ++ r.cdata ∧
    ((r.err = none ∧ Delivers src e r.src R ∧ D = p ++ (r.rdata ++ R)) ∨
     (r.err = some e ∧ R = [] ∧ r.rdata = [] ∧ ∃ q, D = p ++ q ∧ (q = [] ∨ Truncated q)))

/-- One round that reads from the source. -/
theorem invD_fill {src : Source σ} {D : Str} {e : Err} {O R : Str} {r : Reader σ} {len : Nat}
    (h : InvD src D e O R r) (he : r.err = none) (hc : r.cdata = []) (hl : 0 < len) :
    ∃ r', fill src r len = some r' ∧ ∃ R', InvD src D e O R' (convert r') ∧
      (R'.length < R.length ∨ (convert r').err = some e) := by
  obtain ⟨p, cs, h2, h3, h4⟩ := h
  rcases h4 with ⟨_, hd, hD⟩ | ⟨h5, _⟩
  · cases hd with
    | mk _ _ size more last next =>
      obtain ⟨r', hf⟩ := fill_isSome (src := src) (r := r) (len := len)
        (fun k hk => size k (by omega))
      refine ⟨r', hf, ?_⟩
      obtain ⟨k, hk1, _, _, rfl⟩ := fill_some hf
      have hk : 0 < k := by omega
      by_cases hn : (src r.src k).2.1 = none
      · obtain ⟨hb, R', hR⟩ := more k hk hn
        have hnext := next k hk hn
        have hdrop : R.drop (src r.src k).1.length = R' := by rw [← hR]; simp
        rw [hdrop] at hnext
        have hlen : R'.length < R.length := by
          rw [← hR, List.length_append]
          have := List.length_pos_iff.2 hb
          omega
        refine ⟨R', ?_, .inl hlen⟩
        have hD' : D = p ++ ((r.rdata ++ (src r.src k).1) ++ R') := by
          rw [hD, ← hR]; simp
        rcases dec_cases (r.rdata ++ (src r.src k).1) with ⟨ds, hds⟩ | ht
        · rw [convert_dec (cs := ds) hds]
          refine ⟨p ++ (r.rdata ++ (src r.src k).1), cs ++ ds, dec_append h2 hds, ?_, .inl ⟨?_, hnext, ?_⟩⟩
          · rw [utf8_append, h3, hc]; simp
          · simp [hb, hn]
          · rw [hD']; simp
        · rw [convert_truncated_more ht (by simp [hb, hn])]
          exact ⟨p, cs, h2, by rw [h3, hc], .inl ⟨by simp [hb, hn], hnext, hD'⟩⟩
      · obtain ⟨hb, herr⟩ := last k hk hn
        refine ⟨[], ?_, .inr ?_⟩
        · have he' : (if (src r.src k).1 = [] ∧ (src r.src k).2.1 = none then some Err.eof
              else (src r.src k).2.1) = some e := by rw [if_neg (by simp [hn]), herr]
          rcases dec_cases (r.rdata ++ (src r.src k).1) with ⟨ds, hds⟩ | ht
          · rw [convert_dec (cs := ds) hds]
            refine ⟨p ++ (r.rdata ++ (src r.src k).1), cs ++ ds, dec_append h2 hds, ?_,
              .inr ⟨he', rfl, rfl, [], ?_, .inl rfl⟩⟩
            · rw [utf8_append, h3, hc]; simp
            · rw [hD, hb]; simp
          · rw [convert_truncated_end ht (by rw [he']; simp)]
            exact ⟨p, cs, h2, by rw [h3, hc],
              .inr ⟨he', rfl, rfl, r.rdata ++ (src r.src k).1, by rw [hD, hb], .inr ht⟩⟩
        · have : ∀ r : Reader σ, (convert r).err = r.err := fun r => rfl
          rw [this]
          simp only
          rw [if_neg (by simp [hn]), herr]
  · rw [he] at h5; simp at h5

theorem take_copy_pos {buf c : Str} (hb : buf ≠ []) (hc : c ≠ []) : 0 < (copy buf c).2 := by
  have := List.length_pos_iff.2 hb
  have := List.length_pos_iff.2 hc
  simp only [copy]
  omega

/-- A call of `Read` with a non-empty buffer returns within as many rounds as there are bytes left, and
three; it delivers something, or reports the end. -/
theorem invD_read {src : Source σ} {D : Str} {e : Err} {buf : Str} (hbuf : buf ≠ []) (N : Nat) :
    ∀ {O R : Str} {r : Reader σ}, R.length ≤ N → InvD src D e O R r →
    ∃ n err buf' r' R', readLoop src (N + 3) r buf = .ret n err buf' r' ∧
      InvD src D e (O ++ buf'.take n) R' r' ∧
      ((0 < n ∧ n ≤ buf'.length ∧ err = none) ∨
        (n = 0 ∧ err = some e ∧ r'.err = some e ∧ r'.cdata = [])) := by
  have base : ∀ (f : Nat) {O R : Str} {r : Reader σ}, InvD src D e O R r →
      (r.cdata ≠ [] ∨ r.err = some e) →
      ∃ n err buf' r' R', readLoop src (f + 1) r buf = .ret n err buf' r' ∧
        InvD src D e (O ++ buf'.take n) R' r' ∧
        ((0 < n ∧ n ≤ buf'.length ∧ err = none) ∨
          (n = 0 ∧ err = some e ∧ r'.err = some e ∧ r'.cdata = [])) := by
    intro f O R r h hcase
    rw [readLoop]
    by_cases hc : r.cdata = []
    · have he : r.err = some e := by
        rcases hcase with h | h
        · exact absurd hc h
        · exact h
      have hrd : r.rdata = [] := by
        obtain ⟨p, cs, _, _, h4⟩ := h
        rcases h4 with ⟨h5, _⟩ | ⟨_, _, h5, _⟩
        · rw [he] at h5; simp at h5
        · exact h5
      rw [if_neg (by rw [hc]; simp), if_neg (by rw [he]; simp), if_pos (by rw [hrd]; rfl)]
      exact ⟨0, r.err, buf, r, R, rfl, by simpa using h, .inr ⟨rfl, he, he, hc⟩⟩
    · rw [if_pos (List.length_pos_iff.2 hc)]
      refine ⟨(copy buf r.cdata).2, none, (copy buf r.cdata).1,
        { r with cdata := r.cdata.drop (copy buf r.cdata).2 }, R, rfl, ?_,
        .inl ⟨take_copy_pos hbuf hc, ?_, rfl⟩⟩
      · obtain ⟨p, cs, h2, h3, h4⟩ := h
        refine ⟨p, cs, h2, ?_, h4⟩
        simp only
        rw [h3, copy_take, List.append_assoc, List.take_append_drop]
      · rw [copy_length]; simp only [copy]; omega
  have step : ∀ (f : Nat) {O R : Str} {r : Reader σ}, InvD src D e O R r → r.cdata = [] →
      r.err = none → ∃ r', readLoop src (f + 1) r buf = readLoop src f r' buf ∧
        ∃ R', InvD src D e O R' r' ∧ (R'.length < R.length ∨ r'.err = some e) := by
    intro f O R r h hc he
    obtain ⟨r', hf, R', h1, h2⟩ := invD_fill h he hc (List.length_pos_iff.2 hbuf)
    refine ⟨convert r', ?_, R', h1, h2⟩
    rw [readLoop, if_neg (by rw [hc]; simp), if_pos he, hf]
  induction N with
  | zero =>
    intro O R r hR h
    by_cases hc : r.cdata = []
    · by_cases he : r.err = none
      · obtain ⟨r', h1, R', h2, h3⟩ := step 2 h hc he
        rw [h1]
        exact base 1 h2 (.inr (by rcases h3 with h3 | h3; omega; exact h3))
      · refine base 2 h (.inr ?_)
        obtain ⟨p, cs, _, _, h4⟩ := h
        rcases h4 with ⟨h5, _⟩ | ⟨h5, _⟩
        · exact absurd h5 he
        · exact h5
    · exact base 2 h (.inl hc)
  | succ N ih =>
    intro O R r hR h
    by_cases hc : r.cdata = []
    · by_cases he : r.err = none
      · obtain ⟨r', h1, R', h2, h3⟩ := step (N + 3) h hc he
        rw [show N + 1 + 3 = N + 3 + 1 by omega, h1]
        rcases h3 with h3 | h3
        · exact ih (by omega) h2
        · exact base (N + 2) h2 (.inr h3)
      · refine base (N + 3) h (.inr ?_)
        obtain ⟨p, cs, _, _, h4⟩ := h
        rcases h4 with ⟨h5, _⟩ | ⟨h5, _⟩
        · exact absurd h5 he
        · exact h5
    · exact base (N + 3) h (.inl hc)

/-- After an error has been reported every further call reports it, leaves everything as it is, and does not
depend on the source. -/
theorem sticky (src : Source σ) {r : Reader σ} {e : Err} (he : r.err = some e) (hc : r.cdata = [])
    (hr : r.rdata = []) (buf : Str) (fuel : Nat) :
    readLoop src (fuel + 1) r buf = .ret 0 (some e) buf r := by
  rw [readLoop, if_neg (by rw [hc]; simp), if_neg (by rw [he]; simp), if_pos (by rw [hr]; rfl), he]

theorem sticky_reads (src : Source σ) {r : Reader σ} {e : Err} (he : r.err = some e) (hc : r.cdata = [])
    (hr : r.rdata = []) (bufs : List Str) :
    Reads src r bufs (bufs.map fun b => (0, some e, b)) r := by
  induction bufs with
  | nil => exact .nil r
  | cons b bs ih => exact .cons ⟨1, sticky src he hc hr b 0⟩ ih

theorem reads_length {src : Source σ} {r r' : Reader σ} {bufs res} (h : Reads src r bufs res r') :
    res.length = bufs.length := by
  induction h with
  | nil => rfl
  | cons _ _ ih => simp [ih]

/-- A sequence of calls with non-empty buffers: first calls that deliver, then calls that report the end. -/
theorem invD_reads {src : Source σ} {D : Str} {e : Err} {bufs : List Str} (hb : ∀ b ∈ bufs, b ≠ [])
    {O R : Str} {r : Reader σ} (h : InvD src D e O R r) :
    ∃ good rest r' R', Reads src r bufs (good ++ rest) r' ∧
      InvD src D e (O ++ delivered good) R' r' ∧
      (∀ x ∈ good, 0 < x.1 ∧ x.1 ≤ x.2.2.length ∧ x.2.1 = none) ∧
      (∀ x ∈ rest, x.1 = 0 ∧ x.2.1 = some e) ∧
      (rest ≠ [] → r'.err = some e ∧ r'.cdata = []) := by
  induction bufs generalizing O R r with
  | nil => exact ⟨[], [], r, R, .nil r, by simpa [delivered] using h, by simp, by simp, by simp⟩
  | cons b bs ih =>
    obtain ⟨n, err, buf', r1, R1, h1, h2, h3⟩ :=
      invD_read (hb b (by simp)) R.length (Nat.le_refl _) h
    rcases h3 with ⟨h3, h4, rfl⟩ | ⟨rfl, rfl, h4, h5⟩
    · obtain ⟨good, rest, r', R', g1, g2, g3, g4, g5⟩ := ih (fun b h => hb b (by simp [h])) h2
      refine ⟨(n, none, buf') :: good, rest, r', R', .cons ⟨_, h1⟩ g1, ?_, ?_, g4, g5⟩
      · simpa [delivered] using g2
      · intro x hx
        rcases List.mem_cons.1 hx with rfl | hx
        · exact ⟨h3, h4, rfl⟩
        · exact g3 x hx
    · have hrd : r1.rdata = [] := by
        obtain ⟨p, cs, _, _, h6⟩ := h2
        rcases h6 with ⟨h7, _⟩ | ⟨_, _, h7, _⟩
        · rw [h4] at h7; simp at h7
        · exact h7
      refine ⟨[], (0, some e, buf') :: bs.map fun b => (0, some e, b), r1, R1,
        .cons ⟨_, h1⟩ (sticky_reads src h4 h5 hrd bs), ?_, by simp, ?_, fun _ => ⟨h4, h5⟩⟩
      · simpa [delivered] using h2
      · intro x hx
        rcases List.mem_cons.1 hx with rfl | hx
        · exact ⟨rfl, rfl⟩
        · obtain ⟨b, _, rfl⟩ := List.mem_map.1 hx
          exact ⟨rfl, rfl⟩

theorem invD_new {src : Source σ} {D : Str} {e : Err} {s : σ} (h : Delivers src e s D) :
    InvD src D e [] D (NewReader s) :=
  ⟨[], [], .nil, rfl, .inl ⟨rfl, h, rfl⟩⟩

theorem delivered_length {res : List Result} (h : ∀ x ∈ res, 0 < x.1 ∧ x.1 ≤ x.2.2.length ∧ x.2.1 = none) :
    res.length ≤ (delivered res).length := by
  induction res with
  | nil => simp
  | cons x xs ih =>
    have := ih fun x hx => h x (by simp [hx])
    obtain ⟨h1, h2, _⟩ := h x (by simp)
    simp only [delivered, List.flatMap_cons, List.length_append, List.length_take, List.length_cons]
      at this ⊢
    omega

theorem invD_prefix {src : Source σ} {D : Str} {e : Err} {O R : Str} {r : Reader σ}
    (h : InvD src D e O R r) {ds : List Char} (hD : Dec D ds) : O <+: utf8 ds := by
  obtain ⟨p, cs, h1, h2, h3⟩ := h
  have : ∃ q, D = p ++ q := by
    rcases h3 with ⟨_, _, h⟩ | ⟨_, _, _, q, h, _⟩
    · exact ⟨_, h⟩
    · exact ⟨_, h⟩
  obtain ⟨q, rfl⟩ := this
  rcases dec_cases q with ⟨qs, hq⟩ | ht
  · have e1 := From_dec hD
    rw [From_dec (dec_append h1 hq), Prod.mk.injEq, utf8_append, h2] at e1
    rw [← e1.1, List.append_assoc]
    exact List.prefix_append ..
  · exact absurd (truncated_append h1 ht) (dec_not_truncated hD)

theorem invD_end {src : Source σ} {D : Str} {e : Err} {O R : Str} {r : Reader σ}
    (h : InvD src D e O R r) (he : r.err = some e) (hc : r.cdata = []) :
    ∃ p q cs, D = p ++ q ∧ Dec p cs ∧ utf8 cs = O ∧ (q = [] ∨ Truncated q) := by
  obtain ⟨p, cs, h1, h2, h3⟩ := h
  rcases h3 with ⟨h4, _⟩ | ⟨_, _, _, q, h4, h5⟩
  · rw [he] at h4; simp at h4
  · exact ⟨p, q, cs, h4, h1, by rw [h2, hc, List.append_nil], h5⟩

theorem encode_le_three {c : Char} (h : c.toNat ≤ 0xFFFF) : (String.utf8EncodeChar c).length ≤ 3 := by
  by_cases h1 : c.toNat ≤ 0x7F
  · rw [encode_one h1]; simp
  · by_cases h2 : c.toNat ≤ 0x7FF
    · rw [encode_two (by omega) h2]; simp
    · rw [encode_three (by omega) h]; simp

/-- Decoding makes a text at most half as long again. -/
theorem dec_length {b : Str} {cs : List Char} (h : Dec b cs) :
    2 * (utf8 cs).length ≤ 3 * b.length := by
  induction h with
  | nil => simp [utf8]
  | ascii h1 h2 _ ih =>
    rw [utf8_cons, encode_one (by omega)]
    simp only [List.length_append, List.length_cons, List.length_nil]
    omega
  | pair h1 h2 _ ih =>
    have := encode_le_three (Nat.le_trans (char_range h2).2.1 (by omega))
    rw [utf8_cons]
    simp only [List.length_append, List.length_cons]
    omega
  | unassigned h1 h2 h3 _ ih =>
    have := encode_le_three (Nat.le_trans (Nat.le_of_eq h3) (by omega))
    rw [utf8_cons]
    simp only [List.length_append, List.length_cons]
    omega

theorem invD_length {src : Source σ} {D : Str} {e : Err} {O R : Str} {r : Reader σ}
    (h : InvD src D e O R r) : 2 * O.length ≤ 3 * D.length := by
  obtain ⟨p, cs, h1, h2, h3⟩ := h
  have h5 := dec_length h1
  have : p.length ≤ D.length := by
    rcases h3 with ⟨_, _, h⟩ | ⟨_, _, _, q, h, _⟩ <;> rw [h] <;> simp
  rw [h2, List.length_append] at h5
  omega

/-! ### The log does not matter -/

/-- The reader over the logged source, without the log. -/
def unlog (r : Reader (σ × Str)) : Reader σ := ⟨r.src.1, r.cdata, r.rdata, r.rcap, r.err⟩

theorem unlog_convert (r : Reader (σ × Str)) : unlog (convert r) = convert (unlog r) := rfl

theorem unlog_fill (src : Source σ) (r : Reader (σ × Str)) (len : Nat) :
    (fill (logged src) r len).map unlog = fill src (unlog r) len := by
  have cases : ∀ (P : Prop) [Decidable P] (a : Reader (σ × Str)),
      (if P then some a else none).map unlog = if P then some (unlog a) else none := by
    intro P _ a
    split <;> rfl
  exact cases _ _

theorem unlog_readLoop (src : Source σ) (fuel : Nat) (r : Reader (σ × Str)) (buf : Str) :
    readLoop src fuel (unlog r) buf = match readLoop (logged src) fuel r buf with
      | .ret n err b r' => .ret n err b (unlog r')
      | .panic => .panic
      | .running => .running := by
  induction fuel generalizing r with
  | zero => rfl
  | succ fuel ih =>
    rw [readLoop, readLoop]
    simp only [show (unlog r).cdata = r.cdata from rfl, show (unlog r).err = r.err from rfl,
      show (unlog r).rdata = r.rdata from rfl, ← unlog_fill, ← unlog_convert]
    split
    · rfl
    · split
      · cases fill (logged src) r buf.length with
        | none => rfl
        | some r1 => exact ih (convert r1)
      · split
        · rfl
        · exact ih _

theorem logged_returns {src : Source σ} {r : Reader (σ × Str)} {buf n err buf' r'}
    (h : Returns src (unlog r) buf n err buf' r') :
    ∃ r1, Returns (logged src) r buf n err buf' r1 ∧ unlog r1 = r' := by
  obtain ⟨fuel, h⟩ := h
  rw [unlog_readLoop] at h
  cases h1 : readLoop (logged src) fuel r buf with
  | ret n1 e1 b1 r1 =>
    rw [h1] at h
    simp only [ReadOut.ret.injEq] at h
    obtain ⟨rfl, rfl, rfl, rfl⟩ := h
    exact ⟨r1, ⟨fuel, h1⟩, rfl⟩
  | panic => rw [h1] at h; simp at h
  | running => rw [h1] at h; simp at h

theorem logged_reads {src : Source σ} {r : Reader σ} {bufs res r'} (h : Reads src r bufs res r') :
    ∀ rl : Reader (σ × Str), unlog rl = r →
    ∃ r1, Reads (logged src) rl bufs res r1 ∧ unlog r1 = r' := by
  induction h with
  | nil r => intro rl hr; exact ⟨rl, .nil _, hr⟩
  | cons h1 _ ih =>
    intro rl hr
    subst hr
    obtain ⟨r1, g1, g2⟩ := logged_returns h1
    obtain ⟨r2, g3, g4⟩ := ih r1 g2
    exact ⟨r2, .cons g1 g3, g4⟩

/-! ### The list-of-chunks source -/

theorem chunked_delivers (l : List Str) (h : ∀ c ∈ l, c ≠ []) :
    Delivers chunked .eof l l.flatten := by
  have main : ∀ (n : Nat) (l : List Str), l.flatten.length ≤ n → (∀ c ∈ l, c ≠ []) →
      Delivers chunked .eof l l.flatten := by
    intro n
    induction n with
    | zero =>
      intro l hl h
      cases l with
      | nil =>
        refine .mk _ _ ?_ ?_ ?_ ?_ <;> intro k hk <;> simp [chunked]
      | cons c cs =>
        have := List.length_pos_iff.2 (h c (by simp))
        simp at hl
        exact absurd hl.1 (h c (by simp))
    | succ n ih =>
      intro l hl h
      cases l with
      | nil => refine .mk _ _ ?_ ?_ ?_ ?_ <;> intro k hk <;> simp [chunked]
      | cons c cs =>
        have hc := List.length_pos_iff.2 (h c (by simp))
        rw [List.flatten_cons, List.length_append] at hl
        refine .mk _ _ ?_ ?_ ?_ ?_ <;> intro k hk <;> simp only [chunked] <;> split
        · assumption
        · rw [List.length_take]; omega
        · intro _
          exact ⟨h c (by simp), by rw [List.flatten_cons]; exact List.prefix_append ..⟩
        · intro _
          refine ⟨?_, ?_⟩
          · intro he
            have := congrArg List.length he
            rw [List.length_take, List.length_nil] at this
            omega
          · rw [List.flatten_cons]
            exact (List.take_prefix k c).trans (List.prefix_append ..)
        · simp
        · simp
        · intro _
          rw [List.flatten_cons, List.drop_left]
          exact ih cs (by omega) fun c hc => h c (by simp [hc])
        · intro _
          rw [List.flatten_cons, List.length_take, Nat.min_eq_left (by omega),
            List.drop_append_of_le_length (by omega), ← List.flatten_cons]
          refine ih (c.drop k :: cs) ?_ ?_
          · rw [List.flatten_cons, List.length_append, List.length_drop]; omega
          · intro x hx
            rcases List.mem_cons.1 hx with rfl | hx
            · intro he
              have := congrArg List.length he
              rw [List.length_drop, List.length_nil] at this
              omega
            · exact h x (by simp [hx])
  exact main _ l (Nat.le_refl _) h

end Cp949
