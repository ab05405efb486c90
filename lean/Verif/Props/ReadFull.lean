import Verif.Env.ReadFull
import Verif.Spec.Calls
import Verif.Spec.Blocks
import Verif.Props.Scanner
/-! C104: io.ReadFull on a Reader. -/
namespace Props
open Go Cp949 Spec GoIo

variable {σ : Type}

/-- The loop of `ReadFull`, when `X` is still to come and `x` is already in the buffer. -/
theorem atLeastLoop_runs {src : Source σ} {D T : Str} {e : Err} (hT : From D = (T, none)) (k : Nat) :
    ∀ {r : Reader σ} {x b X : Str}, Left src D T e r X → b.length ≤ k →
      ∃ n err mem r' y Y, AtLeastLoop (Returns src) (x.length + b.length) r (x ++ b) x.length n err mem r' ∧
        X = y ++ Y ∧ n = x.length + y.length ∧ mem = x ++ y ++ b.drop y.length ∧ Left src D T e r' Y ∧
        ((y.length = b.length ∧ err = none) ∨ (y.length < b.length ∧ Y = [] ∧ err = some e)) := by
  induction k with
  | zero =>
    intro r x b X h hb
    have : b = [] := List.length_eq_zero_iff.1 (by omega)
    subst this
    exact ⟨_, _, _, r, [], X, .done (by simp), rfl, rfl, by simp, h, .inl ⟨rfl, rfl⟩⟩
  | succ k ih =>
    intro r x b X h hb
    by_cases hb0 : b = []
    · subst hb0
      exact ⟨_, _, _, r, [], X, .done (by simp), rfl, rfl, by simp, h, .inl ⟨rfl, rfl⟩⟩
    · have hpos : 0 < b.length := List.length_pos_iff.2 hb0
      obtain ⟨n, err, p, r', X', h1, h2, h3, h4, h5, h6⟩ := left_read hT h hb0
      have hd : (x ++ b).drop x.length = b := List.drop_left
      have ht : (x ++ b).take x.length = x := List.take_left
      have hr := C43_contract src r b n err p r' h1
      have hp : p = p.take n ++ b.drop n := by
        rw [← hr.2.2.1, List.take_append_drop]
      have hn : (p.take n).length = n := by rw [List.length_take]; omega
      rcases h6 with ⟨h6, rfl⟩ | ⟨rfl, rfl, rfl⟩
      · obtain ⟨n', err', mem, r'', y, Y, g1, g2, g3, g4, g5, g6⟩ := ih (x := x ++ p.take n) (b := b.drop n) h5 (by
          rw [List.length_drop]; omega)
        have hlen : (x ++ p.take n).length + (b.drop n).length = x.length + b.length := by
          rw [List.length_append, List.length_drop, hn]; omega
        rw [hlen, List.append_assoc, ← hp, List.length_append, hn] at g1
        refine ⟨n', err', mem, r'', p.take n ++ y, Y, .more (by omega) (by rw [hd]; exact h1) (by rw [ht]; exact g1),
          by rw [h4, g2, List.append_assoc], ?_, ?_, g5, ?_⟩
        · rw [g3, List.length_append, List.length_append]; omega
        · rw [g4, List.length_append, hn, ← List.drop_drop]; simp only [List.append_assoc]
        · rw [List.length_append, hn]
          rw [List.length_drop] at g6
          rcases g6 with ⟨g6, g7⟩ | ⟨g6, g7⟩
          · exact .inl ⟨by omega, g7⟩
          · exact .inr ⟨by omega, g7⟩
      · refine ⟨_, _, _, r', [], [], .err (by omega) (by rw [hd]; exact h1), ?_, rfl, ?_, h5, .inr ⟨hpos, rfl, rfl⟩⟩
        · rw [h4]; simp
        · rw [ht, hp]; simp

theorem readFull_runs {src : Source σ} {D T : Str} {e : Err} (hT : From D = (T, none)) (bufs : List Str) :
    ∀ {r : Reader σ} {X : Str}, Left src D T e r X →
      ∃ res r', Calls (ReadFull (Returns src)) r bufs res r' ∧ Blocks errUnexpectedEOF e X bufs res := by
  induction bufs with
  | nil => intro r X _; exact ⟨[], r, .nil r, .nil X⟩
  | cons b bufs ih =>
    intro r X h
    obtain ⟨n, err, mem, r', y, Y, h1, h2, h3, h4, h5, h6⟩ := atLeastLoop_runs hT _ (x := []) (b := b) h (Nat.le_refl _)
    rw [List.length_nil, Nat.zero_add, List.nil_append] at h1
    rw [List.length_nil, Nat.zero_add] at h3
    rw [List.nil_append] at h4
    obtain ⟨res, r'', g1, g2⟩ := ih h5
    have hr : ReadFull (Returns src) r b n (atLeastErr b.length n err) mem r' := .loop (Nat.le_refl _) h1
    refine ⟨_, r'', .cons hr g1, ?_⟩
    subst h2 h3 h4
    rcases h6 with ⟨h6, rfl⟩ | ⟨h6, rfl, rfl⟩
    · rw [atLeastErr, if_pos (by omega), h6, List.drop_length, List.append_nil]
      exact .full h6 g2
    · rw [atLeastErr, if_neg (by omega), List.append_nil]
      by_cases hy : y = []
      · subst hy
        have hb : b ≠ [] := by rintro rfl; simp at h6
        simpa using Blocks.none (cut := errUnexpectedEOF) (e := e) hb g2
      · have hpos := List.length_pos_iff.2 hy
        have he : (if y.length > 0 ∧ some e = some Err.eof then some errUnexpectedEOF else some e) =
            some (if e = .eof then errUnexpectedEOF else e) := by
          by_cases h0 : e = .eof
          · rw [if_pos ⟨hpos, by rw [h0]⟩, if_pos h0]
          · rw [if_neg (fun h => h0 (Option.some.inj h.2)), if_neg h0]
        rw [he]
        exact .part hy h6 g2

theorem atLeastLoop_det {src : Source σ} {min : Nat} {r r1 : Reader σ} {mem m1 : Str} {n n1 : Nat} {err : Option Err}
    (h : AtLeastLoop (Returns src) min r mem n n1 err m1 r1) : ∀ {n2 err' m2 r2},
      AtLeastLoop (Returns src) min r mem n n2 err' m2 r2 → n1 = n2 ∧ err = err' ∧ m1 = m2 ∧ r1 = r2 := by
  induction h with
  | done hn =>
    intro n2 err' m2 r2 h'
    cases h' with
    | done => exact ⟨rfl, rfl, rfl, rfl⟩
    | err hn' => omega
    | more hn' => omega
  | err hn h =>
    intro n2 err' m2 r2 h'
    cases h' with
    | done => omega
    | err _ h' => obtain ⟨rfl, he, rfl, rfl⟩ := Returns_det h h'; exact ⟨rfl, he, rfl, rfl⟩
    | more _ h' => obtain ⟨_, he, _⟩ := Returns_det h h'; cases he
  | more hn h _ ih =>
    intro n2 err' m2 r2 h'
    cases h' with
    | done => omega
    | err _ h' => obtain ⟨_, he, _⟩ := Returns_det h h'; cases he
    | more _ h' g => obtain ⟨rfl, _, rfl, rfl⟩ := Returns_det h h'; exact ih g

theorem readFull_det {src : Source σ} {r r1 : Reader σ} {bufs : List Str} {res : List Result}
    (h : Calls (ReadFull (Returns src)) r bufs res r1) : ∀ {res' r2}, Calls (ReadFull (Returns src)) r bufs res' r2 →
      res = res' ∧ r1 = r2 := by
  induction h with
  | nil => intro res' r2 h'; cases h'; exact ⟨rfl, rfl⟩
  | cons h _ ih =>
    intro res' r2 h'
    cases h' with
    | cons h' g =>
      cases h with
      | short h => omega
      | loop _ h =>
        cases h' with
        | short h' => omega
        | loop _ h' =>
          obtain ⟨rfl, rfl, rfl, rfl⟩ := atLeastLoop_det h h'
          obtain ⟨rfl, rfl⟩ := ih g
          exact ⟨rfl, rfl⟩

/-- C104: for every source that delivers `D` in whatever pieces and then reports `e`: if `From(D)` succeeds, then calls of
`io.ReadFull` on the Reader, with any buffers, empty ones included, return, in one way only, and lay the text into the buffers one
after the other: every buffer full, except that the one in which the text ends has what is left, with `io.ErrUnexpectedEOF` in place of
the end of the file, and later ones nothing and `e`. -/
theorem C104_blocks (src : Source σ) (e : Err) (s : σ) (D T : Str) (h : Delivers src e s D) (hT : From D = (T, none))
    (bufs : List Str) :
    (∃ res r', Calls (ReadFull (Returns src)) (NewReader s) bufs res r') ∧
    ∀ res r', Calls (ReadFull (Returns src)) (NewReader s) bufs res r' → Blocks errUnexpectedEOF e T bufs res := by
  obtain ⟨res, r', g1, g2⟩ := readFull_runs hT bufs (left_new h)
  refine ⟨⟨res, r', g1⟩, fun res' r'' h' => ?_⟩
  obtain ⟨rfl, rfl⟩ := readFull_det h' g1
  exact g2

/-- C104: `Blocks` leaves no choice. -/
theorem C104_blocks_unique (cut e : Err) (X : Str) (bufs : List Str) (res res' : List Result) (h : Blocks cut e X bufs res)
    (h' : Blocks cut e X bufs res') : res = res' := by
  induction h generalizing res' with
  | nil => cases h'; rfl
  | @full x Y b bs res hx _ ih =>
    generalize hX : x ++ Y = X at h'
    cases h' with
    | full hx' g =>
      obtain ⟨rfl, rfl⟩ := List.append_inj hX (by omega)
      rw [ih _ g]
    | part _ hl g =>
      rw [← hX, List.length_append] at hl
      omega
    | none hb g =>
      have := congrArg List.length (List.append_eq_nil_iff.1 hX).1
      rw [hx] at this
      exact absurd (List.length_eq_zero_iff.1 this) hb
  | @part X b bs res hne hl _ ih =>
    generalize hX : X = Z at h'
    cases h' with
    | full hx g => rw [hX, List.length_append] at hl; omega
    | part _ _ g => subst hX; rw [ih _ g]
    | none => exact absurd hX hne
  | @none b bs res hb _ ih =>
    generalize hX : ([] : Str) = Z at h'
    cases h' with
    | full hx g =>
      have := congrArg List.length (List.append_eq_nil_iff.1 hX.symm).1
      rw [hx] at this
      exact absurd (List.length_eq_zero_iff.1 this) hb
    | part hne => exact absurd hX.symm hne
    | none _ g => rw [ih _ g]

/-- C104 applies: "A가B" in two pieces, cut inside 가, read in blocks of three, none and three bytes. -/
example : Delivers chunked .eof [[0x41, 0xB0], [0xA1, 0x42]] [0x41, 0xB0, 0xA1, 0x42] ∧
    From [0x41, 0xB0, 0xA1, 0x42] = ([0x41, 0xEA, 0xB0, 0x80, 0x42], none) ∧
    Blocks errUnexpectedEOF .eof [0x41, 0xEA, 0xB0, 0x80, 0x42] [[0, 0, 0], [], [7, 7, 7], [7]]
      [(3, none, [0x41, 0xEA, 0xB0]), (0, none, []), (2, some errUnexpectedEOF, [0x80, 0x42, 7]), (0, some .eof, [7])] := by
  refine ⟨chunked_delivers [[0x41, 0xB0], [0xA1, 0x42]] (by decide), by decide +kernel, ?_⟩
  exact .full (x := [0x41, 0xEA, 0xB0]) (b := [0, 0, 0]) rfl (.full (x := []) (b := []) rfl
    (.part (X := [0x80, 0x42]) (b := [7, 7, 7]) (by decide) (by decide) (.none (by decide) (.nil _))))

end Props
