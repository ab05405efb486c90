import Verif.Env.Io
import Verif.Props.Reader
/-! C86: io.ReadAll on a Reader. -/
namespace Props
open Go Cp949 Spec GoIo

variable {σ : Type}

/-- One outcome. -/
theorem readAllLoop_det {src : Source σ} {grow : Nat → Nat} {r : Reader σ} {mem : Str} {len : Nat} {out : Str}
    {err : Option Err} {r1 : Reader σ} (h : ReadAllLoop (Returns src) grow r mem len out err r1) :
    ∀ {out' err' r2}, ReadAllLoop (Returns src) grow r mem len out' err' r2 → out = out' ∧ err = err' ∧ r1 = r2 := by
  induction h with
  | stop h =>
    intro out' err' r2 h'
    cases h' with
    | stop h' =>
      obtain ⟨rfl, he, rfl, rfl⟩ := Returns_det h h'
      cases he
      exact ⟨rfl, rfl, rfl⟩
    | more h' _ =>
      obtain ⟨_, he, _, _⟩ := Returns_det h h'
      cases he
  | more h _ ih =>
    intro out' err' r2 h'
    cases h' with
    | stop h' =>
      obtain ⟨_, he, _, _⟩ := Returns_det h h'
      cases he
    | more h' h2 =>
      obtain ⟨rfl, he, rfl, rfl⟩ := Returns_det h h'
      exact ih h2

theorem readAllLoop_runs {src : Source σ} {grow : Nat → Nat} {D : Str} {e : Err} (k : Nat) :
    ∀ {O R : Str} {r : Reader σ} {mem : Str}, InvD src D e O R r → 3 * D.length - 2 * O.length ≤ k →
      mem.take O.length = O → O.length < mem.length →
      ∃ out R' r', ReadAllLoop (Returns src) grow r mem O.length out (if e = .eof then none else some e) r' ∧
        InvD src D e out R' r' ∧ r'.err = some e ∧ r'.cdata = [] := by
  induction k with
  | zero =>
    intro O R r mem h hk hm hl
    have hlen := invD_length h
    have hne : mem.drop O.length ≠ [] := by
      intro h0
      have := congrArg List.length h0
      rw [List.length_drop, List.length_nil] at this
      omega
    obtain ⟨n, err, buf', r', R', h1, h2, h3⟩ := invD_read hne R.length (Nat.le_refl _) h
    rcases h3 with ⟨h3, h4, rfl⟩ | ⟨rfl, rfl, h4, h5⟩
    · have := invD_length h2
      rw [List.length_append, List.length_take] at this
      omega
    · refine ⟨O, R', r', ?_, by simpa using h2, h4, h5⟩
      have := ReadAllLoop.stop (read := Returns src) (grow := grow) (mem := mem) (len := O.length) ⟨_, h1⟩
      rw [hm, Nat.add_zero, List.take_left' rfl] at this
      exact this
  | succ k ih =>
    intro O R r mem h hk hm hl
    have hne : mem.drop O.length ≠ [] := by
      intro h0
      have := congrArg List.length h0
      rw [List.length_drop, List.length_nil] at this
      omega
    obtain ⟨n, err, buf', r', R', h1, h2, h3⟩ := invD_read hne R.length (Nat.le_refl _) h
    rcases h3 with ⟨h3, h4, rfl⟩ | ⟨rfl, rfl, h4, h5⟩
    · have hlen := invD_length h2
      have hOn : (O ++ buf'.take n).length = O.length + n := by
        rw [List.length_append, List.length_take]; omega
      have hbig : (O ++ buf'.take n).length ≤ (O ++ buf').length := by
        rw [hOn, List.length_append]; omega
      have hpre : (O ++ buf').take (O ++ buf'.take n).length = O ++ buf'.take n := by
        rw [hOn, List.take_length_add_append]
      obtain ⟨out, R2, r2, g1, g2⟩ := ih (mem := room grow (O ++ buf') (O.length + n)) h2 (by omega)
        (by
          rw [room]
          split
          · rw [List.take_append_of_le_length hbig, hpre]
          · exact hpre)
        (by
          rw [room, hOn]
          rw [hOn] at hbig
          split
          · rename_i hh
            rw [List.length_append, ← hh, List.length_replicate]
            omega
          · omega)
      refine ⟨out, R2, r2, .more ⟨_, h1⟩ ?_, g2⟩
      rw [hm, ← hOn]
      rw [hOn] at g1 ⊢
      exact g1
    · refine ⟨O, R', r', ?_, by simpa using h2, h4, h5⟩
      have := ReadAllLoop.stop (read := Returns src) (grow := grow) (mem := mem) (len := O.length) ⟨_, h1⟩
      rw [hm, Nat.add_zero, List.take_left' rfl] at this
      exact this

/-- C86, what holds (partial: streams that end inside a character are missing, and `C86_truncated_fails` shows that for
them the claim is false): for every source that delivers `D` in whatever pieces and then reports `e`, and however the memory of the result
grows, `io.ReadAll(cp949.NewReader(src))` returns, and in one way only: if `From(D)` succeeds, with `From(D)` and no
error if `e` is the end of the stream, with `From(D)` and `e` otherwise. -/
theorem C86_whole_partial (src : Source σ) (e : Err) (s : σ) (D : Str) (h : Delivers src e s D) (hD : (From D).2 = none)
    (grow : Nat → Nat) :
    (∃ out err r', ReadAll (Returns src) grow (NewReader s) out err r') ∧
    ∀ out err r', ReadAll (Returns src) grow (NewReader s) out err r' →
      out = (From D).1 ∧ (e = .eof → err = none) ∧ (e ≠ .eof → err = some e) := by
  obtain ⟨out, R', r', h1, h2, h3, h4⟩ := readAllLoop_runs (grow := grow) _ (mem := List.replicate 512 0) (invD_new h)
    (Nat.le_refl _) rfl (by rw [List.length_replicate]; decide)
  refine ⟨⟨out, _, r', h1⟩, fun out' err' r'' g => ?_⟩
  obtain ⟨rfl, rfl, rfl⟩ := readAllLoop_det g h1
  refine ⟨?_, fun he => if_pos he, fun he => if_neg he⟩
  obtain ⟨p, q, cs, hpq, hp, hcs, hq⟩ := invD_end h2 h3 h4
  rcases hq with rfl | hq
  · rw [List.append_nil] at hpq
    rw [hpq, From_dec hp, hcs]
  · rw [hpq, From_truncated (truncated_append hp hq)] at hD
    simp at hD

/-- C86, FALSE as stated: of a stream that ends inside a character (which is the only way `From(D)` fails, C30) `ReadAll` returns the
decoded text of a proper beginning and, for a stream that has simply ended, no error: nothing tells the caller. -/
theorem C86_truncated_fails (src : Source σ) (e : Err) (s : σ) (D : Str) (h : Delivers src e s D) (hD : (From D).2 ≠ none)
    (grow : Nat → Nat) :
    (∃ out err r', ReadAll (Returns src) grow (NewReader s) out err r') ∧
    ∀ out err r', ReadAll (Returns src) grow (NewReader s) out err r' →
      (e = .eof → err = none) ∧ (e ≠ .eof → err = some e) ∧
      ∃ p q, D = p ++ q ∧ From p = (out, none) ∧ Truncated q := by
  obtain ⟨out, R', r', h1, h2, h3, h4⟩ := readAllLoop_runs (grow := grow) _ (mem := List.replicate 512 0) (invD_new h)
    (Nat.le_refl _) rfl (by rw [List.length_replicate]; decide)
  refine ⟨⟨out, _, r', h1⟩, fun out' err' r'' g => ?_⟩
  obtain ⟨rfl, rfl, rfl⟩ := readAllLoop_det g h1
  refine ⟨fun he => if_pos he, fun he => if_neg he, ?_⟩
  obtain ⟨p, q, cs, hpq, hp, hcs, hq⟩ := invD_end h2 h3 h4
  refine ⟨p, q, hpq, by rw [From_dec hp, hcs], ?_⟩
  rcases hq with rfl | hq
  · rw [List.append_nil] at hpq
    rw [hpq, From_dec hp] at hD
    simp at hD
  · exact hq

/-- A stream that is cut inside 가 and delivered in two pieces; one that is whole. -/
example : Delivers chunked .eof [[0x41, 0xB0], [0xA1, 0xB0]] [0x41, 0xB0, 0xA1, 0xB0] ∧
    (From [0x41, 0xB0, 0xA1, 0xB0]).2 ≠ none ∧
    Delivers chunked .eof [[0x41, 0xB0], [0xA1]] [0x41, 0xB0, 0xA1] ∧ (From [0x41, 0xB0, 0xA1]).2 = none := by
  refine ⟨chunked_delivers [[0x41, 0xB0], [0xA1, 0xB0]] (by decide), ?_, chunked_delivers [[0x41, 0xB0], [0xA1]] (by decide), ?_⟩ <;> decide +kernel

end Props
