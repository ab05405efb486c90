import Verif.Spec.Copy
import Verif.Props.Buffered
/-! C88, C89: io.Copy. -/
namespace Props
open Go Cp949 Spec GoIo

variable {σ τ : Type}

theorem copyWrite_takes {S : Sink τ} (hS : Takes S) (t : τ) (w : Nat) (d : Str) :
    copyWrite S t w d = (none, w + d.length, calls S t (if d = [] then [] else [d])) := by
  rw [copyWrite]
  by_cases h : d = []
  · subst h
    simp [calls]
  · rw [if_pos (List.length_pos_iff.2 h), if_neg h, sink_eq hS]
    simp [calls]

theorem copyLoop_det {ρ : Type} {read : ρ → Str → Nat → Option Err → Str → ρ → Prop} {S : Sink τ}
    (hd : ∀ {r buf n e b r' n' e' b' r''}, read r buf n e b r' → read r buf n' e' b' r'' →
      n = n' ∧ e = e' ∧ b = b' ∧ r' = r'')
    {r : ρ} {t : τ} {buf : Str} {w w1 : Nat} {e1 : Option Err} {r1 : ρ} {t1 : τ}
    (h : CopyLoop read S r t buf w w1 e1 r1 t1) :
    ∀ {w2 e2 r2 t2}, CopyLoop read S r t buf w w2 e2 r2 t2 → w1 = w2 ∧ e1 = e2 ∧ r1 = r2 ∧ t1 = t2 := by
  induction h with
  | fail h hw =>
    intro w2 e2 r2 t2 h'
    cases h' with
    | fail h' hw' =>
      obtain ⟨rfl, rfl, rfl, rfl⟩ := hd h h'
      rw [hw] at hw'; cases hw'; exact ⟨rfl, rfl, rfl, rfl⟩
    | stop h' hw' =>
      obtain ⟨rfl, rfl, rfl, rfl⟩ := hd h h'
      rw [hw] at hw'; cases hw'
    | more h' hw' _ =>
      obtain ⟨rfl, rfl, rfl, rfl⟩ := hd h h'
      rw [hw] at hw'; cases hw'
  | stop h hw =>
    intro w2 e2 r2 t2 h'
    cases h' with
    | fail h' hw' =>
      obtain ⟨rfl, rfl, rfl, rfl⟩ := hd h h'
      rw [hw] at hw'; cases hw'
    | stop h' hw' =>
      obtain ⟨rfl, he, rfl, rfl⟩ := hd h h'
      cases he
      rw [hw] at hw'; cases hw'; exact ⟨rfl, rfl, rfl, rfl⟩
    | more h' hw' _ =>
      obtain ⟨_, he, _, _⟩ := hd h h'
      cases he
  | more h hw _ ih =>
    intro w2 e2 r2 t2 h'
    cases h' with
    | fail h' hw' =>
      obtain ⟨rfl, rfl, rfl, rfl⟩ := hd h h'
      rw [hw] at hw'; cases hw'
    | stop h' hw' =>
      obtain ⟨_, he, _, _⟩ := hd h h'
      cases he
    | more h' hw' g =>
      obtain ⟨rfl, _, rfl, rfl⟩ := hd h h'
      rw [hw] at hw'; cases hw'
      exact ih g

theorem copyLoop_runs {src : Source σ} {S : Sink τ} (hS : Takes S) {D : Str} {e : Err} (k : Nat) :
    ∀ {O R : Str} {r : Reader σ} {t : τ} {buf : Str} {w : Nat}, InvD src D e O R r → 3 * D.length - 2 * O.length ≤ k →
      buf ≠ [] →
      ∃ ps R' r', CopyLoop (Returns src) S r t buf w (w + ps.flatten.length) (if e = .eof then none else some e) r'
          (calls S t ps) ∧
        InvD src D e (O ++ ps.flatten) R' r' ∧ r'.err = some e ∧ r'.cdata = [] := by
  induction k with
  | zero =>
    intro O R r t buf w h hk hne
    have hlen := invD_length h
    obtain ⟨n, err, buf', r', R', h1, h2, h3⟩ := invD_read hne R.length (Nat.le_refl _) h
    rcases h3 with ⟨h3, h4, rfl⟩ | ⟨rfl, rfl, h4, h5⟩
    · have := invD_length h2
      rw [List.length_append, List.length_take] at this
      omega
    · exact ⟨[], R', r', .stop ⟨_, h1⟩ (copyWrite_takes hS _ _ _), by simpa using h2, h4, h5⟩
  | succ k ih =>
    intro O R r t buf w h hk hne
    obtain ⟨n, err, buf', r', R', h1, h2, h3⟩ := invD_read hne R.length (Nat.le_refl _) h
    rcases h3 with ⟨h3, h4, rfl⟩ | ⟨rfl, rfl, h4, h5⟩
    · have hlen := invD_length h2
      have hn : (buf'.take n).length = n := by rw [List.length_take]; omega
      have hnn : buf'.take n ≠ [] := by intro h0; rw [h0] at hn; simp at hn; omega
      have hb' : buf' ≠ [] := by rintro rfl; simp at hnn
      rw [List.length_append, hn] at hlen
      obtain ⟨ps, R2, r2, g1, g2, g3⟩ := ih (t := calls S t [buf'.take n]) (w := w + n) h2
        (by rw [List.length_append, hn]; omega) hb'
      refine ⟨buf'.take n :: ps, R2, r2, ?_, ?_, g3⟩
      · refine .more ⟨_, h1⟩ (copyWrite_takes hS _ _ _) ?_
        rw [if_neg hnn, hn, List.flatten_cons, List.length_append, hn, ← Nat.add_assoc]
        exact g1
      · rw [List.flatten_cons, ← List.append_assoc]
        exact g2
    · exact ⟨[], R', r', .stop ⟨_, h1⟩ (copyWrite_takes hS _ _ _), by simpa using h2, h4, h5⟩

theorem logged_takes {S : Sink τ} (hS : Takes S) : Takes (loggedSink S) := fun t d => hS t.1 d

theorem logged_calls (S : Sink τ) (t : τ) (l : List Str) (ps : List Str) :
    calls (loggedSink S) (t, l) ps = (calls S t ps, l ++ ps) := by
  induction ps generalizing t l with
  | nil => simp [calls]
  | cons p ps ih =>
    have := ih (S t p).2.2 (l ++ [p])
    simp only [calls, List.foldl_cons, loggedSink] at this ⊢
    rw [this]
    simp

/-- C88: for every source that delivers `D` in whatever pieces and then reports `e`, and every destination that takes what
it is given, `io.Copy(dst, cp949.NewReader(src))` returns, and in one way only: if `From(D)` succeeds, the destination
has received `From(D)`, the count is its length, and the error is `e`, or none if `e` is the end of the stream. -/
theorem C88_copies (src : Source σ) (e : Err) (s : σ) (D : Str) (h : Delivers src e s D) (hD : (From D).2 = none)
    (dst : Sink τ) (hS : ∀ t d, (dst t d).1 = d.length ∧ (dst t d).2.1 = none) (t : τ) :
    (∃ n err r' t', Copy (Returns src) (loggedSink dst) (NewReader s) (t, []) n err r' t') ∧
    ∀ n err r' t', Copy (Returns src) (loggedSink dst) (NewReader s) (t, []) n err r' t' →
      t'.2.flatten = (From D).1 ∧ n = (From D).1.length ∧ (e = .eof → err = none) ∧ (e ≠ .eof → err = some e) := by
  obtain ⟨ps, R', r', h1, h2, h3, h4⟩ := copyLoop_runs (logged_takes hS) _ (t := (t, [])) (w := 0)
    (buf := List.replicate 32768 0) (invD_new h) (Nat.le_refl _)
    (by intro h0; have := congrArg List.length h0; rw [List.length_replicate] at this; cases this)
  refine ⟨⟨_, _, r', _, h1⟩, fun n err r2 t2 g => ?_⟩
  obtain ⟨rfl, rfl, rfl, rfl⟩ := copyLoop_det (read := Returns src) (fun a b => Returns_det a b) g h1
  have hout : ps.flatten = (From D).1 := by
    obtain ⟨p, q, cs, hpq, hp, hcs, hq⟩ := invD_end h2 h3 h4
    rw [List.nil_append] at hcs
    rcases hq with rfl | hq
    · rw [List.append_nil] at hpq
      rw [hpq, From_dec hp, hcs]
    · rw [hpq, From_truncated (truncated_append hp hq)] at hD
      simp at hD
  rw [logged_calls, Nat.zero_add, hout]
  exact ⟨by simpa using hout, rfl, fun he => if_pos he, fun he => if_neg he⟩

/-- Two pieces, the first ending inside a character. -/
example : Delivers chunked .eof [[0x41, 0xB0], [0xA1]] [0x41, 0xB0, 0xA1] ∧ (From [0x41, 0xB0, 0xA1]).2 = none ∧
    ∀ t d, (discard t d).1 = d.length ∧ (discard t d).2.1 = none := by
  refine ⟨chunked_delivers [[0x41, 0xB0], [0xA1]] (by decide), by decide +kernel, fun _ _ => ⟨rfl, rfl⟩⟩

/-! ### C89 -/

theorem readsFrom_det {src : Source σ} {s : σ} {buf n e b r' n' e' b' r''} (h : ReadsFrom src s buf n e b r')
    (h' : ReadsFrom src s buf n' e' b' r'') : n = n' ∧ e = e' ∧ b = b' ∧ r' = r'' := by
  obtain ⟨d, h1, rfl, rfl⟩ := h
  obtain ⟨d', h1', rfl, rfl⟩ := h'
  rw [h1] at h1'
  cases h1'
  exact ⟨rfl, rfl, rfl, rfl⟩

theorem copyLoop_file {S : Sink τ} (hS : Takes S) {N : Nat} (hN : 0 < N) (k : Nat) :
    ∀ {s : Str} {t : τ} {buf : Str} {w : Nat}, s.length ≤ k → buf.length = N →
      ∃ ps last, CopyLoop (ReadsFrom file) S s t buf w (w + s.length) none []
          (calls S t (ps ++ if last = [] then [] else [last])) ∧
        ps.flatten ++ last = s ∧ (∀ x ∈ ps, x.length = N) ∧ last.length ≤ N := by
  induction k with
  | zero =>
    intro s t buf w hk hb
    obtain rfl := List.length_eq_zero_iff.1 (Nat.le_zero.1 hk)
    refine ⟨[], [], ?_, rfl, by simp, by simp⟩
    exact .stop (e := .eof) ⟨[], by rw [file, if_pos rfl], rfl, rfl⟩ (copyWrite_takes hS _ _ _)
  | succ k ih =>
    intro s t buf w hk hb
    by_cases h0 : s = []
    · subst h0
      refine ⟨[], [], ?_, rfl, by simp, by simp⟩
      exact .stop (e := .eof) ⟨[], by rw [file, if_pos rfl], rfl, rfl⟩ (copyWrite_takes hS _ _ _)
    · have hpos := List.length_pos_iff.2 h0
      have hr : ReadsFrom file s buf (s.take N).length none (s.take N ++ buf.drop (s.take N).length) (s.drop N) :=
        ⟨s.take N, by rw [file, if_neg h0, hb], rfl, rfl⟩
      have hlen : (s.take N ++ buf.drop (s.take N).length).length = N := by
        rw [List.length_append, List.length_drop, List.length_take, hb]
        omega
      have htake : (s.take N ++ buf.drop (s.take N).length).take (s.take N).length = s.take N := by
        rw [List.take_left' rfl]
      have hne : s.take N ≠ [] := by
        intro h
        have := congrArg List.length h
        rw [List.length_take, List.length_nil] at this
        omega
      obtain ⟨ps, last, g1, g2, g3, g4⟩ := ih (s := s.drop N) (t := calls S t [s.take N])
        (w := w + (s.take N).length) (by rw [List.length_drop]; omega) hlen
      have hw : w + (s.take N).length + (s.drop N).length = w + s.length := by
        rw [List.length_take, List.length_drop]
        omega
      rw [hw] at g1
      have hstep := copyWrite_takes hS t w (s.take N)
      rw [if_neg hne] at hstep
      by_cases hsN : N ≤ s.length
      · refine ⟨s.take N :: ps, last, .more hr (by rw [htake]; exact hstep) ?_, ?_, ?_, g4⟩
        · rw [List.cons_append, show s.take N :: (ps ++ if last = [] then [] else [last]) =
            [s.take N] ++ (ps ++ if last = [] then [] else [last]) from rfl, calls_append]
          exact g1
        · rw [List.flatten_cons, List.append_assoc, g2, List.take_append_drop]
        · intro x hx
          rcases List.mem_cons.1 hx with rfl | hx
          · rw [List.length_take]; omega
          · exact g3 x hx
      · have hd : s.drop N = [] := List.drop_eq_nil_of_le (by omega)
        have ht : s.take N = s := List.take_of_length_le (by omega)
        rw [hd] at g1 g2 hr
        obtain ⟨hps, hl⟩ := List.append_eq_nil_iff.1 g2
        have hps : ps = [] := by
          cases ps with
          | nil => rfl
          | cons p ps =>
            have h1 := g3 p (by simp)
            rw [List.flatten_cons] at hps
            rw [(List.append_eq_nil_iff.1 hps).1] at h1
            simp at h1
            omega
        subst hps hl
        refine ⟨[], s, .more hr (by rw [htake]; exact hstep) ?_, rfl, by simp, by omega⟩
        rw [List.nil_append, if_neg h0]
        simp only [List.append_nil, if_pos, calls, List.foldl_nil, List.foldl_cons] at g1
        rw [ht] at g1 ⊢
        exact g1

/-- C89, what holds (partial: it should hold for all texts): `io.Copy(cp949.NewWriter(sink), file)` of a file with a text in
UTF-8 returns its length and no error, and the sink has received `To` of the text if and only if no character has bytes
on both sides of a multiple of 32768, the size of the buffer in `io.Copy`. -/
theorem C89_file_partial (sink : Sink τ) (hs : ∀ t d, (sink t d).2.1 = none) (t : τ) (cs : List Char) :
    (∃ n err s' w, Copy (ReadsFrom file) (Write (loggedSink sink)) (utf8 cs) (NewWriter (t, [])) n err s' w) ∧
    ∀ n err s' w, Copy (ReadsFrom file) (Write (loggedSink sink)) (utf8 cs) (NewWriter (t, [])) n err s' w →
      n = (utf8 cs).length ∧ err = none ∧ (w.sink.2.flatten = (To (utf8 cs)).1 ↔ ¬ Straddles 32768 cs) := by
  have hS := write_takes sink hs
  obtain ⟨ps, last, h1, h2, h3, h4⟩ := copyLoop_file hS (N := 32768) (by omega) _ (s := utf8 cs) (t := NewWriter (t, []))
    (buf := List.replicate 32768 0) (w := 0) (Nat.le_refl _) List.length_replicate
  refine ⟨⟨_, _, _, _, h1⟩, fun n err s' w g => ?_⟩
  obtain ⟨rfl, rfl, rfl, rfl⟩ := copyLoop_det (read := ReadsFrom file) (fun a b => readsFrom_det a b) g h1
  refine ⟨by omega, rfl, ?_⟩
  rw [← cutChar_blocks h3 h4 h2]
  obtain ⟨res1, w, g1, g2⟩ := C47_unchanged_iff_partial sink hs t cs (ps ++ if last = [] then [] else [last])
    (by rw [← h2, flatten_last])
  obtain ⟨res2, g3⟩ := writes_calls sink hs (NewWriter (t, [])) (ps ++ if last = [] then [] else [last])
  obtain ⟨_, rfl⟩ := C46_deterministic _ _ _ _ _ _ _ g1 g3
  exact g2

/-- C89, FALSE as stated, for every text of Hangul syllables that is longer than the buffer: no error is reported and what
arrives is not its encoding. -/
theorem C89_hangul_fails (sink : Sink τ) (hs : ∀ t d, (sink t d).2.1 = none) (t : τ) (cs : List Char)
    (hc : ∀ c ∈ cs, 0xAC00 ≤ c.toNat ∧ c.toNat ≤ 0xD7A3) (hl : 10922 < cs.length) :
    ∃ out n s' w, Enc cs out ∧
      Copy (ReadsFrom file) (Write (loggedSink sink)) (utf8 cs) (NewWriter (t, [])) n none s' w ∧
      n = (utf8 cs).length ∧ w.sink.2.flatten ≠ out := by
  have hlen : ∀ cs : List Char, (∀ c ∈ cs, 0xAC00 ≤ c.toNat ∧ c.toNat ≤ 0xD7A3) → (utf8 cs).length = 3 * cs.length := by
    intro cs hc
    induction cs with
    | nil => rfl
    | cons c cs ih =>
      rw [show c :: cs = [c] ++ cs from rfl, utf8_append, List.length_append, ih (fun c h => hc c (by simp [h])),
        List.length_append]
      have := hc c (by simp)
      have h3 : (utf8 [c]).length = 3 := by
        rw [show utf8 [c] = String.utf8EncodeChar c by simp [utf8], encode_three (by omega) (by omega)]
        rfl
      rw [h3, List.length_singleton]
      omega
  obtain ⟨out, _, henc, _⟩ := C28_roundtrip_unicode cs (fun c h => C28_repertoire c (.inr (hc c h)))
  obtain ⟨⟨n, err, s', w, h1⟩, h2⟩ := C89_file_partial sink hs t cs
  obtain ⟨h3, rfl, h4⟩ := h2 n err s' w h1
  refine ⟨out, n, s', w, henc, h1, h3, fun h5 => ?_⟩
  rw [To_enc henc] at h4
  refine h4.1 h5 ⟨cs.take 10922, cs[10922], cs.drop 10923, 1, ?_, ?_, ?_⟩
  · rw [List.getElem_cons_drop, List.take_append_drop]
  · rw [hlen _ (fun c h => hc c (List.mem_of_mem_take h)), List.length_take]
    omega
  · rw [hlen _ (fun c h => hc c (List.mem_of_mem_take h)), List.length_take, hlen [cs[10922]] (by
      intro c h
      rw [List.mem_singleton] at h
      rw [h]
      exact hc _ (List.getElem_mem _))]
    simp only [List.length_singleton]
    omega

example : (∀ c ∈ List.replicate 20000 '가', 0xAC00 ≤ c.toNat ∧ c.toNat ≤ 0xD7A3) ∧
    10922 < (List.replicate 20000 '가').length := by
  constructor
  · intro c h
    rw [List.eq_of_mem_replicate h]
    decide
  · rw [List.length_replicate]
    decide

end Props
