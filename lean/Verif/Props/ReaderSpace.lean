import Verif.Props.ReaderCost
/-! Property theorem C84: the memory a Reader holds. -/
namespace Props
open Go Spec Cp949

attribute [local irreducible] fromTable toTable rawFrom rawTo

variable {σ : Type}

theorem growLoop_lt (fuel m n : Nat) (h : m < n) : growLoop fuel m n < 2 * n := by
  induction fuel generalizing m with
  | zero => simp only [growLoop]; omega
  | succ fuel ih =>
    simp only [growLoop]
    split <;> split
    · omega
    · exact ih _ (by omega)
    · omega
    · exact ih _ (by omega)

theorem ensureCapCap_le (c n : Nat) : ensureCapCap c n ≤ max c (2 * n) := by
  unfold ensureCapCap
  split
  · omega
  · split
    · omega
    · have := growLoop_lt n c n (by omega)
      omega

/-- C84 is false of the code: 가 `n + 1` times, in pieces of two bytes that end inside a character, read with one buffer
of two bytes: the reader collects the whole stream before it decodes anything. -/
theorem C84_bounded_fails (n : Nat) :
    (cutPieces n).flatten.length = 2 * n + 2 ∧ Delivers chunked .eof (cutPieces n) (cutPieces n).flatten ∧
    ∃ res r, Reads chunked (NewReader (cutPieces n)) [[0, 0]] res r ∧ 2 * n + 2 ≤ r.rcap := by
  obtain ⟨h1, h2, res, r, w, h3, _, h4⟩ := cut_all n [0, 0] (by decide)
  exact ⟨h1, h2, res, r, (C80_same _ _ 0 _ _ _).2 ⟨w, h3⟩, by omega⟩

/-- So no factor is large enough for all streams. -/
theorem C84_no_factor_fails : ¬ ∃ c : Nat, ∀ (ds : List Str) (bufs : List Str) (L : Nat) (res : List Result)
    (r : Reader (List Str)), (∀ d ∈ ds, d ≠ []) → (∀ b ∈ bufs, b ≠ [] ∧ b.length ≤ L) →
      Reads chunked (NewReader ds) bufs res r → r.rcap ≤ c * L + c := by
  rintro ⟨c, h⟩
  obtain ⟨_, _, res, r, h2, h3⟩ := C84_bounded_fails (2 * c)
  have := h _ _ 2 _ _ (cutPieces_ne _) (by simp) h2
  omega

/-- C84, what holds for every source with finite data (partial: the bound depends on the stream): the buffer of the reader is
never longer than twice what the stream and the largest buffer of the caller have together. -/
theorem C84_stream_partial (src : Source σ) (e : Err) (s : σ) (D : Str) (h : Delivers src e s D) (bufs : List Str)
    (L : Nat) (hb : ∀ b ∈ bufs, b ≠ [] ∧ b.length ≤ L) (res : List Result) (r : Reader σ)
    (hr : Reads src (NewReader s) bufs res r) : r.rcap ≤ 2 * (D.length + L) := by
  obtain ⟨w, hw⟩ := (C80_same _ _ 0 _ _ _).1 hr
  have key := works_ind (Q := fun k => 0 < k ∧ k ≤ L) (fun b hx => ⟨List.length_pos_iff.2 (hb b hx).1, (hb b hx).2⟩)
    (fun r w => r.rcap ≤ 2 * (D.length + L) ∧ (r.err = none → ∃ R, Delivers src e r.src R ∧ r.rdata.length + R.length ≤ D.length))
    (hfill := by
      rintro r r' w k ⟨h1, h2⟩ hc he ⟨hk, hk'⟩ hf
      obtain ⟨R, hd, hl⟩ := h2 he
      obtain ⟨_, c, R', _, _, _, hR, hrd, hcase⟩ := fill_delivers hk hd hf
      refine ⟨?_, ?_⟩
      · obtain ⟨k', _, h4, _, rfl⟩ := fill_some hf
        have := ensureCapCap_le r.rcap (r.rdata.length + k)
        show ensureCapCap r.rcap (r.rdata.length + k) ≤ _
        omega
      · intro he'
        rcases hcase with ⟨_, _, h3⟩ | ⟨h3, _⟩
        · refine ⟨R', h3, ?_⟩
          have := convert_rdata_le r'
          rw [hrd, List.length_append] at this
          rw [hR, List.length_append] at hl
          omega
        · exact absurd he' h3)
    (hconv := by
      rintro r w ⟨h1, h2⟩ hc he hr
      exact ⟨h1, fun h => absurd h he⟩)
    (hout := fun r w c h => h)
    (r := NewReader s) (w := 0) ⟨by simp [NewReader], fun _ => ⟨D, h, by simp [NewReader]⟩⟩ hw
  exact key.1

/-- C84, what holds (2) (partial: sources that may cut characters are left out): if the source hands over whole characters
only, the buffer is at most twice as long as the largest buffer of the caller, however long the stream. -/
theorem C84_whole_partial (src : Source σ) (s : σ) (whole : σ → Prop) (h0 : whole s)
    (hs : ∀ s k, 0 < k → whole s → whole (src s k).2.2 ∧ ∃ cs, Dec (src s k).1 cs) (bufs : List Str)
    (L : Nat) (hb : ∀ b ∈ bufs, b ≠ [] ∧ b.length ≤ L) (res : List Result) (r : Reader σ)
    (hr : Reads src (NewReader s) bufs res r) : r.rcap ≤ 2 * L := by
  obtain ⟨w, hw⟩ := (C80_same _ _ 0 _ _ _).1 hr
  have key := works_ind (Q := fun k => 0 < k ∧ k ≤ L) (fun b hx => ⟨List.length_pos_iff.2 (hb b hx).1, (hb b hx).2⟩)
    (fun r w => r.rcap ≤ 2 * L ∧ r.rdata = [] ∧ whole r.src)
    (hfill := by
      rintro r r' w k ⟨h1, h2, h3⟩ hc he ⟨hk, hk'⟩ hf
      obtain ⟨k', h5, h4, _, rfl⟩ := fill_some hf
      obtain ⟨h6, cs, h7⟩ := hs r.src k' (by omega) h3
      have := ensureCapCap_le r.rcap (r.rdata.length + k)
      rw [h2, List.length_nil, Nat.zero_add] at this
      rw [← List.nil_append (src r.src k').1, ← h2] at h7
      refine ⟨?_, by rw [convert_dec (cs := cs) h7], h6⟩
      show ensureCapCap r.rcap (r.rdata.length + k) ≤ _
      rw [h2, List.length_nil, Nat.zero_add]
      omega)
    (hconv := by
      rintro r w ⟨h1, h2, h3⟩ hc he hr
      exact absurd h2 hr)
    (hout := fun r w c h => h)
    (r := NewReader s) (w := 0) ⟨by simp [NewReader], rfl, h0⟩ hw
  exact key.1

/-- The hypotheses are met by a source of `A`s. -/
example : ∀ s k, 0 < k → True → True ∧ ∃ cs, Dec (manyAs s k).1 cs := by
  rintro (_ | n) k _ _
  · exact ⟨trivial, [], .nil⟩
  · exact ⟨trivial, ['A'], .ascii (by decide) (by decide) .nil⟩

example : Delivers chunked .eof [[0x41, 0xB0], [0xA1]] [0x41, 0xB0, 0xA1] :=
  chunked_delivers [[0x41, 0xB0], [0xA1]] (by simp)

end Props
