import Verif.Props.Copy
import Verif.Props.CutLines
/-! C123: what io.Copy out of a Reader reports. -/
namespace Props
open Go Cp949 Spec GoIo

variable {σ τ : Type}

/-- What one round of io.Copy does with what was read: `k` bytes of it are taken. -/
theorem copyWrite_cases {S : Sink τ} {held : τ → Str}
    (hS : ∀ t d, (S t d).1 ≤ d.length ∧ held (S t d).2.2 = held t ++ d.take (S t d).1) (t : τ) (w : Nat) (d : Str) :
    ∃ k ew t', copyWrite S t w d = (ew, w + k, t') ∧ k ≤ d.length ∧ held t' = held t ++ d.take k ∧
      (ew = none → k = d.length) ∧
      (∀ x, ew = some x → (∃ t d, (S t d).2.1 = some x) ∨ (x = errShortWrite ∧ ∃ t d, (S t d).2.1 = none ∧ (S t d).1 < d.length)) := by
  rw [copyWrite]
  by_cases h0 : d.length > 0
  · rw [if_pos h0]
    obtain ⟨h1, h2⟩ := hS t d
    rcases hs : S t d with ⟨k, ew, t'⟩
    rw [hs] at h1 h2
    simp only at h1 h2
    simp only [if_neg (Nat.not_lt.2 h1)]
    by_cases he : ew = none
    · subst he
      rw [if_neg (by simp)]
      by_cases hk : d.length = k
      · rw [if_neg (by simp [hk])]
        exact ⟨k, none, t', rfl, h1, h2, fun _ => hk.symm, by simp⟩
      · rw [if_pos hk]
        refine ⟨k, _, t', rfl, h1, h2, by simp, ?_⟩
        rintro x hx
        cases hx
        exact .inr ⟨rfl, t, d, by rw [hs], by rw [hs]; simp only; omega⟩
    · rw [if_pos he]
      exact ⟨k, ew, t', rfl, h1, h2, fun h => absurd h he, fun x hx => .inl ⟨t, d, by rw [hs]; exact hx⟩⟩
  · rw [if_neg h0]
    refine ⟨0, none, t, rfl, Nat.zero_le _, by simp, fun _ => by omega, by simp⟩

theorem copyLoop_returns {src : Source σ} {S : Sink τ} {D : Str} {e : Err} (k : Nat) :
    ∀ {O R : Str} {r : Reader σ} {t : τ} {buf : Str} {w : Nat}, InvD src D e O R r → 3 * D.length - 2 * O.length ≤ k →
      buf ≠ [] → ∃ w1 err r1 t1, CopyLoop (Returns src) S r t buf w w1 err r1 t1 := by
  induction k with
  | zero =>
    intro O R r t buf w h hk hne
    have hlen := invD_length h
    obtain ⟨n, err, buf', r', R', h1, h2, h3⟩ := invD_read hne R.length (Nat.le_refl _) h
    rcases hc : copyWrite S t w (buf'.take n) with ⟨_ | x, w', t'⟩
    · rcases h3 with ⟨h3, h4, rfl⟩ | ⟨rfl, rfl, h4, h5⟩
      · have := invD_length h2
        rw [List.length_append, List.length_take] at this
        omega
      · exact ⟨_, _, _, _, .stop ⟨_, h1⟩ hc⟩
    · exact ⟨_, _, _, _, .fail ⟨_, h1⟩ hc⟩
  | succ k ih =>
    intro O R r t buf w h hk hne
    obtain ⟨n, err, buf', r', R', h1, h2, h3⟩ := invD_read hne R.length (Nat.le_refl _) h
    rcases hc : copyWrite S t w (buf'.take n) with ⟨_ | x, w', t'⟩
    · rcases h3 with ⟨h3, h4, rfl⟩ | ⟨rfl, rfl, h4, h5⟩
      · have hlen := invD_length h2
        have hn : (buf'.take n).length = n := by rw [List.length_take]; omega
        rw [List.length_append, hn] at hlen
        obtain ⟨w1, err, r1, t1, g⟩ := ih (t := t') (w := w') (buf := buf') h2 (by rw [List.length_append, hn]; omega)
          (by rintro rfl; simp at h4; omega)
        exact ⟨_, _, _, _, .more ⟨_, h1⟩ hc g⟩
      · exact ⟨_, _, _, _, .stop ⟨_, h1⟩ hc⟩
    · exact ⟨_, _, _, _, .fail ⟨_, h1⟩ hc⟩

theorem copyLoop_report {src : Source σ} {S : Sink τ} {held : τ → Str}
    (hS : ∀ t d, (S t d).1 ≤ d.length ∧ held (S t d).2.2 = held t ++ d.take (S t d).1) {D : Str} {e : Err}
    {r : Reader σ} {t : τ} {buf : Str} {w w1 : Nat} {err : Option Err} {r1 : Reader σ} {t1 : τ}
    (g : CopyLoop (Returns src) S r t buf w w1 err r1 t1) :
    ∀ {O R : Str}, InvD src D e O R r → buf ≠ [] →
      ∃ X Y R', InvD src D e (O ++ X ++ Y) R' r1 ∧ held t1 = held t ++ X ∧ w1 = w + X.length ∧
        ((Y = [] ∧ r1.err = some e ∧ r1.cdata = [] ∧ err = if e = .eof then none else some e) ∨
          ∃ x, err = some x ∧ ((∃ t d, (S t d).2.1 = some x) ∨
            (x = errShortWrite ∧ ∃ t d, (S t d).2.1 = none ∧ (S t d).1 < d.length))) := by
  induction g with
  | @fail r t buf w n er buf' r' x w' t' hr hc =>
    intro O R h hne
    obtain ⟨n', er', b2, r2, R', g1, g2, g3⟩ := invD_read hne R.length (Nat.le_refl _) h
    obtain ⟨rfl, rfl, rfl, rfl⟩ := Returns_det hr ⟨_, g1⟩
    obtain ⟨k, ew, t2, c1, c2, c3, c4, c5⟩ := copyWrite_cases hS t w (buf'.take n)
    rw [hc] at c1
    cases c1
    refine ⟨(buf'.take n).take k, (buf'.take n).drop k, R', ?_, c3, ?_, .inr ⟨x, rfl, c5 x rfl⟩⟩
    · rw [List.append_assoc, List.take_append_drop]; exact g2
    · rw [List.length_take, Nat.min_eq_left c2]
  | @stop r t buf w n x buf' r' w' t' hr hc =>
    intro O R h hne
    obtain ⟨n', er', b2, r2, R', g1, g2, g3⟩ := invD_read hne R.length (Nat.le_refl _) h
    obtain ⟨rfl, he, rfl, rfl⟩ := Returns_det hr ⟨_, g1⟩
    obtain ⟨k, ew, t2, c1, c2, c3, c4, c5⟩ := copyWrite_cases hS t w (buf'.take n)
    rw [hc] at c1
    cases c1
    rcases g3 with ⟨_, _, rfl⟩ | ⟨rfl, rfl, g4, g5⟩
    · cases he
    · cases he
      have hk : k = 0 := by simpa using c2
      subst hk
      exact ⟨[], [], R', by simpa using g2, by simpa using c3, rfl, .inl ⟨rfl, g4, g5, rfl⟩⟩
  | @more r t buf w n buf' r' w' t' w'' err r'' t'' hr hc _ ih =>
    intro O R h hne
    obtain ⟨n', er', b2, r2, R', g1, g2, g3⟩ := invD_read hne R.length (Nat.le_refl _) h
    obtain ⟨rfl, he, rfl, rfl⟩ := Returns_det hr ⟨_, g1⟩
    obtain ⟨k, ew, t2, c1, c2, c3, c4, c5⟩ := copyWrite_cases hS t w (buf'.take n)
    rw [hc] at c1
    cases c1
    have hk := c4 rfl
    rcases g3 with ⟨g3, g4, -⟩ | ⟨-, g3, -⟩
    · obtain ⟨X, Y, R2, i1, i2, i3, i6⟩ := ih g2 (by rintro rfl; simp at g4; omega)
      rw [hk, List.take_length] at c3
      refine ⟨buf'.take n ++ X, Y, R2, by simpa only [List.append_assoc] using i1, ?_, ?_, i6⟩
      · rw [i2, c3, List.append_assoc]
      · rw [i3, hk, List.length_append, Nat.add_assoc]
    · rw [g3] at he; cases he

/-- C123, what holds (partial: the stream must not be cut inside a character): `io.Copy(dst, cp949.NewReader(src))` returns for
every destination. `held` is what the destination holds: of what a `Write` is given it takes as many bytes from the
beginning as it says, whether it reports an error or not. Then it has been given the first `n` bytes of `From(D)`, `n` being the
number that `Copy` returns. If the error is nil, these are all, and the source has ended with io.EOF. If not, it is the error of the
source after all have been copied, or one the destination reports, or io.ErrShortWrite for a destination that reports none. -/
theorem C123_report_partial (src : Source σ) (e : Err) (s : σ) (D : Str) (h : Delivers src e s D) (hD : (From D).2 = none)
    (dst : Sink τ) (held : τ → Str) (hS : ∀ t d, (dst t d).1 ≤ d.length ∧ held (dst t d).2.2 = held t ++ d.take (dst t d).1)
    (t : τ) :
    (∃ n err r' t', Copy (Returns src) dst (NewReader s) t n err r' t') ∧
    ∀ n err r' t', Copy (Returns src) dst (NewReader s) t n err r' t' →
      n ≤ (From D).1.length ∧ held t' = held t ++ (From D).1.take n ∧
      (err = none → n = (From D).1.length ∧ e = .eof) ∧
      (∀ x, err = some x → (x = e ∧ e ≠ .eof ∧ n = (From D).1.length) ∨ (∃ t d, (dst t d).2.1 = some x) ∨
        (x = errShortWrite ∧ ∃ t d, (dst t d).2.1 = none ∧ (dst t d).1 < d.length)) := by
  have hb : List.replicate 32768 (0 : Byte) ≠ [] := by
    intro h0; have := congrArg List.length h0; rw [List.length_replicate] at this; cases this
  refine ⟨copyLoop_returns _ (invD_new h) (Nat.le_refl _) hb, fun n err r' t' g => ?_⟩
  obtain ⟨X, Y, R', i1, i2, i3, i4⟩ := copyLoop_report hS g (invD_new h) hb
  rw [List.nil_append] at i1
  rw [Nat.zero_add] at i3
  obtain ⟨ds, hds⟩ : ∃ ds, Dec D ds := by
    rcases dec_cases D with h | ht
    · exact h
    · rw [From_truncated ht] at hD; cases hD
  have hF := From_dec hds
  obtain ⟨Z, hZ⟩ := invD_prefix hF i1
  have hT : (From D).1 = X ++ (Y ++ Z) := by rw [hF]; simp only; rw [hZ, List.append_assoc]
  have hall : Y = [] → r'.err = some e → r'.cdata = [] → n = (From D).1.length := by
    rintro rfl h1 h2
    obtain ⟨p, q, cs, j1, j2, j3, j4⟩ := invD_end i1 h1 h2
    rcases j4 with rfl | j4
    · rw [List.append_nil] at j1 j3
      rw [j1, From_dec j2, j3, i3]
    · rw [j1, From_truncated (truncated_append j2 j4)] at hD
      cases hD
  refine ⟨by rw [hT, i3, List.length_append]; omega, by rw [hT, i3, List.take_left' rfl, i2], fun he => ?_, fun x hx => ?_⟩
  · rcases i4 with ⟨h1, h2, h3, h4⟩ | ⟨x, h1, -⟩
    · refine ⟨hall h1 h2 h3, ?_⟩
      by_cases h5 : e = .eof
      · exact h5
      · rw [if_neg h5, he] at h4; cases h4
    · rw [he] at h1; cases h1
  · rcases i4 with ⟨h1, h2, h3, h4⟩ | ⟨y, h1, h5⟩
    · left
      by_cases h5 : e = .eof
      · rw [if_pos h5, hx] at h4; cases h4
      · rw [if_neg h5, hx] at h4; cases h4
        exact ⟨rfl, h5, hall h1 h2 h3⟩
    · rw [hx] at h1
      cases h1
      exact .inr h5

/-- C123 is false of a stream cut inside a character that ends with io.EOF: io.Copy to a destination that takes everything reports
no error and the number of bytes of a beginning of the text. -/
theorem C123_cut_fails (src : Source σ) (s : σ) (D : Str) (h : Delivers src .eof s D) (hD : (From D).2 ≠ none)
    (dst : Sink τ) (held : τ → Str) (hS : ∀ t d, dst t d = (d.length, none, (dst t d).2.2) ∧ held (dst t d).2.2 = held t ++ d)
    (t : τ) :
    (∃ n r' t', Copy (Returns src) dst (NewReader s) t n none r' t') ∧
    ∀ n err r' t', Copy (Returns src) dst (NewReader s) t n err r' t' →
      err = none ∧ ∃ p q T, D = p ++ q ∧ Truncated q ∧ From p = (T, none) ∧ held t' = held t ++ T ∧ n = T.length := by
  have hb : List.replicate 32768 (0 : Byte) ≠ [] := by
    intro h0; have := congrArg List.length h0; rw [List.length_replicate] at this; cases this
  have hS1 : ∀ t d, (dst t d).1 = d.length ∧ (dst t d).2.1 = none := fun t d => by rw [(hS t d).1]; exact ⟨rfl, rfl⟩
  have hS2 : ∀ t d, (dst t d).1 ≤ d.length ∧ held (dst t d).2.2 = held t ++ d.take (dst t d).1 := fun t d => by
    rw [(hS1 t d).1, List.take_length]; exact ⟨Nat.le_refl _, (hS t d).2⟩
  have key : ∀ n err r' t', Copy (Returns src) dst (NewReader s) t n err r' t' →
      err = none ∧ ∃ p q T, D = p ++ q ∧ Truncated q ∧ From p = (T, none) ∧ held t' = held t ++ T ∧ n = T.length := by
    intro n err r' t' g
    obtain ⟨X, Y, R', i1, i2, i3, i4⟩ := copyLoop_report hS2 g (invD_new h) hb
    rcases i4 with ⟨rfl, h2, h3, h4⟩ | ⟨x, -, ⟨t2, d, h5⟩ | ⟨-, t2, d, -, h5⟩⟩
    · rw [if_pos rfl] at h4
      obtain ⟨p, q, cs, j1, j2, j3, j4⟩ := invD_end i1 h2 h3
      rw [List.nil_append, List.append_nil] at j3
      refine ⟨h4, p, q, X, j1, ?_, by rw [From_dec j2, j3], i2, by rw [i3, Nat.zero_add]⟩
      rcases j4 with rfl | j4
      · rw [List.append_nil] at j1
        rw [j1, From_dec j2] at hD
        exact absurd rfl hD
      · exact j4
    · rw [(hS1 t2 d).2] at h5; cases h5
    · rw [(hS1 t2 d).1] at h5; omega
  obtain ⟨n, err, r', t', g⟩ := copyLoop_returns (S := dst) (t := t) (w := 0) _ (invD_new h) (Nat.le_refl _) hb
  obtain ⟨rfl, -⟩ := key n err r' t' g
  exact ⟨⟨n, r', t', g⟩, key⟩

/-- C123, the worst case: of a file of up to 32768 bytes that ends inside a character and is read at once, io.Copy copies nothing
and reports (0, nil), whatever the destination. -/
theorem C123_all_lost_fails (D : Str) (hD : Truncated D) (hl : D.length ≤ 32768) (dst : Sink τ) (t : τ) :
    (∃ r', Copy (Returns chunked) dst (NewReader [D]) t 0 none r' t) ∧
    ∀ n err r' t', Copy (Returns chunked) dst (NewReader [D]) t n err r' t' → n = 0 ∧ err = none ∧ t' = t := by
  obtain ⟨r', hr⟩ := C42_all_lost_fails D hD (List.replicate 32768 0) (by rw [List.length_replicate]; exact hl)
  have g : Copy (Returns chunked) dst (NewReader [D]) t 0 none r' t := by
    have := CopyLoop.stop (sink := dst) (t := t) (w := 0) (w' := 0) (t' := t) hr (by rw [copyWrite]; rfl)
    rwa [if_pos rfl] at this
  refine ⟨⟨r', g⟩, fun n err r2 t' g' => ?_⟩
  obtain ⟨rfl, rfl, -, rfl⟩ := copyLoop_det (read := Returns chunked) (fun a b => Returns_det a b) g' g
  exact ⟨rfl, rfl, rfl⟩

/-- A disk with 4 bytes of room takes what fits and then reports an error; one with room for everything takes everything. -/
def disk (room : Nat) : Sink Str := fun t d =>
  if t.length + d.length ≤ room then (d.length, none, t ++ d) else (room - t.length, some (.other 28), t ++ d.take (room - t.length))

/-- The hypotheses are met: by a full disk, and a stream of two pieces the first of which ends inside a character; by a stream and a
file that are cut. -/
example : (∀ t d, (disk 4 t d).1 ≤ d.length ∧ id (disk 4 t d).2.2 = id t ++ d.take (disk 4 t d).1) ∧
    Delivers chunked .eof [[0x41, 0xB0], [0xA1]] [0x41, 0xB0, 0xA1] ∧ (From [0x41, 0xB0, 0xA1]).2 = none ∧
    Delivers chunked .eof [[0x41, 0xB0], [0xA1, 0xB0]] [0x41, 0xB0, 0xA1, 0xB0] ∧ (From [0x41, 0xB0, 0xA1, 0xB0]).2 ≠ none ∧
    Truncated [0x41, 0xB0] := by
  refine ⟨fun t d => ?_, chunked_delivers [[0x41, 0xB0], [0xA1]] (by decide), by decide +kernel,
    chunked_delivers [[0x41, 0xB0], [0xA1, 0xB0]] (by decide), by decide +kernel, .ascii (by decide) (.lone (by decide))⟩
  unfold disk
  split
  · simp
  · refine ⟨?_, rfl⟩
    simp only
    omega

end Props
