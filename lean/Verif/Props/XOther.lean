import Verif.Props.XString
import Verif.Props.Cut
import Verif.Spec.Pieces
/-!
Property theorems C118 and C119: the transformers of `NewCP949Encoding()` used the other way round, the encoder with
`transform.NewReader` and the decoder with `transform.NewWriter` (environment model `Env/Transform`).
-/
namespace Props
open Go Spec Cp949

attribute [local irreducible] fromTable toTable rawFrom rawTo

variable {σ τ : Type}

/-! ### C118 -/

/-- `O` has been delivered of `W`. -/
def EInv (src : Source σ) (e : Err) (W O : Str) (r : XText.Reader σ) : Prop :=
  r.dst.length = 4096 ∧ r.src.length = 4096 ∧ r.dst0 ≤ r.dst1 ∧ r.dst1 ≤ 4096 ∧
    ((r.transformComplete = false ∧ r.err = none ∧ r.src0 = r.src1 ∧ r.src1 ≤ 4096 ∧
        ∃ cs, Pieces src e r.rd cs ∧ (∀ c ∈ cs, (To c).1.length ≤ 4096) ∧
          W = O ++ pend r ++ cs.flatMap fun c => (To c).1) ∨
     (r.transformComplete = true ∧ r.err = some e ∧ W = O ++ pend r))

/-- What one call achieves. -/
def EStep (src : Source σ) (e : Err) (W O : Str) (r : XText.Reader σ) (p : Str) : Prop :=
  ∃ fuel n err p' r', XText.Reader.read encoderTransform src fuel r p = .ret (n, err, p', r') ∧
    EInv src e W (O ++ p'.take n) r' ∧ n ≤ p'.length ∧ (err = none → 0 < n) ∧
    (∀ x, err = some x → x = e ∧ r'.transformComplete = true ∧ r'.dst0 = r'.dst1)

theorem estep_ready {src : Source σ} {e : Err} {W O : Str} {r : XText.Reader σ} {p : Str} (hp : p ≠ [])
    (h : EInv src e W O r) (hr : r.dst0 ≠ r.dst1 ∨ r.transformComplete = true) : EStep src e W O r p := by
  obtain ⟨h1, h2, h3, h4, h7⟩ := h
  have hpl := List.length_pos_iff.2 hp
  have hcase : r.transformComplete = true → r.err = some e := by
    intro hc
    rcases h7 with ⟨h, _⟩ | ⟨_, h, _⟩
    · rw [hc] at h; simp at h
    · exact h
  by_cases hd : r.dst0 = r.dst1
  · have hc : r.transformComplete = true := hr.resolve_left (fun h => h hd)
    refine ⟨1, 0, r.err, p, r, ?_, ?_, Nat.zero_le _, ?_, ?_⟩
    · unfold XText.Reader.read
      simp [hd, hc]
    · rw [List.take_zero, List.append_nil]
      exact ⟨h1, h2, h3, h4, h7⟩
    · intro he
      rw [hcase hc] at he; simp at he
    · intro x hx
      rw [hcase hc, Option.some.injEq] at hx
      exact ⟨hx.symm, hc, hd⟩
  · have hpend := pend_length h1 h4
    have hn : (copy p (pend r)).2 = min p.length (pend r).length := rfl
    generalize hnn : (copy p (pend r)).2 = n at hn
    have ht : (copy p (pend r)).1.take n = (pend r).take n := by rw [← hnn, copy_take]
    have hdr : pend { r with dst0 := r.dst0 + n } = (pend r).drop n := by
      unfold pend
      rw [List.drop_drop]
    have hsame : O ++ (copy p (pend r)).1.take n ++ pend { r with dst0 := r.dst0 + n } = O ++ pend r := by
      rw [ht, hdr, List.append_assoc, List.take_append_drop]
    have hinv : EInv src e W (O ++ (copy p (pend r)).1.take n) { r with dst0 := r.dst0 + n } := by
      refine ⟨h1, h2, by simp only; omega, h4, ?_⟩
      rw [hsame]
      exact h7
    have hread : XText.Reader.read encoderTransform src 1 r p =
        .ret (n, if r.dst0 + n = r.dst1 ∧ r.transformComplete = true then r.err else none,
          (copy p (pend r)).1, { r with dst0 := r.dst0 + n }) := by
      unfold XText.Reader.read
      rw [if_pos hd, if_pos ⟨h3, by omega⟩]
      simp only
      rw [show copy p ((r.dst.take r.dst1).drop r.dst0) = ((copy p (pend r)).1, n) by rw [← hnn]; rfl]
      simp only
      split <;> rfl
    refine ⟨1, n, _, _, _, hread, hinv, ?_, ?_, ?_⟩
    · rw [copy_length]; omega
    · intro _; omega
    · intro x hx
      split at hx
      · rename_i hh
        rw [hcase hh.2, Option.some.injEq] at hx
        exact ⟨hx.symm, hh.2, hh.1⟩
      · simp at hx

theorem estep_of_eq {src : Source σ} {e : Err} {W O : Str} {r r' : XText.Reader σ} {p : Str} (k : Nat)
    (h : ∀ fuel, XText.Reader.read encoderTransform src (fuel + k) r p =
      XText.Reader.read encoderTransform src fuel r' p) (hs : EStep src e W O r' p) : EStep src e W O r p := by
  obtain ⟨fuel, n, err, p', r2, h1, h2⟩ := hs
  exact ⟨fuel + k, n, err, p', r2, by rw [h, h1], h2⟩

/-- The state after one source read and its conversion. -/
def converted (r : XText.Reader σ) (c : Str) (err : Option Err) (s : σ) : XText.Reader σ :=
  { filled r c err s with
    dst := (copy r.dst (To c).1).1, dst0 := 0, dst1 := (To c).1.length, src0 := c.length, transformComplete := err.isSome }

theorem fill_encode {src : Source σ} {r : XText.Reader σ} {c : Str} {err : Option Err} {s : σ}
    (hd : r.dst0 = r.dst1) (ht : r.transformComplete = false) (he : r.err = none)
    (h2 : r.src.length = 4096) (hs : r.src0 = r.src1) (h : src r.rd 4096 = (c, err, s)) (hc : c.length ≤ 4096)
    (hne : c ≠ [] ∨ err ≠ none) (p : Str) (fuel : Nat) :
    XText.Reader.read encoderTransform src (fuel + 2) r p =
      XText.Reader.read encoderTransform src fuel (converted r c err s) p := by
  rw [show fuel + 2 = fuel + 1 + 1 from rfl, XText.Reader.read]
  rw [if_neg (by simpa using hd), ht, if_neg (by simp), if_neg (by simp [hs, he]), more_eq h2 hs h hc]
  simp only
  rw [XText.Reader.read]
  have hsrc : ((filled r c err s).src.take (filled r c err s).src1).drop (filled r c err s).src0 = c := by
    unfold filled
    simp
  have hl : c ≠ [] → 0 < c.length := fun h => List.length_pos_iff.2 h
  rw [if_neg (by simpa [filled] using hd), if_neg (by simp [filled, ht]), if_pos (by
    rcases hne with h | h
    · left; have := hl h; simp only [filled]; omega
    · right; exact h), hsrc, encoder_eq]
  simp only
  rw [if_pos trivial, if_neg (by simp [filled])]
  simp [filled, converted]

theorem pend_converted {r : XText.Reader σ} (h1 : r.dst.length = 4096) {c : Str} (hc : (To c).1.length ≤ 4096)
    (err : Option Err) (s : σ) : pend (converted r c err s) = (To c).1 := by
  unfold pend converted
  simp only [List.drop_zero]
  rw [copy_fits (by rw [h1]; exact hc), List.take_left]

theorem estep_waiting {src : Source σ} {e : Err} {W p : Str} (hp : p ≠ []) {s : σ} {cs : List Str}
    (hw : Pieces src e s cs) (hcs : ∀ c ∈ cs, (To c).1.length ≤ 4096) : ∀ {O : Str} {r : XText.Reader σ}, r.rd = s →
      r.dst.length = 4096 → r.src.length = 4096 → r.dst0 = r.dst1 → r.dst1 ≤ 4096 → r.transformComplete = false →
      r.err = none → r.src0 = r.src1 → W = O ++ cs.flatMap (fun c => (To c).1) → EStep src e W O r p := by
  induction hw with
  | @last s c s' h1 h2 =>
    intro O r hr i1 i2 hd i4 ht he hs hW
    refine estep_of_eq 2 (fill_encode hd ht he i2 hs (by rw [hr]; exact h1) h2 (.inr (by simp)) p) ?_
    refine estep_ready hp ?_ (.inr rfl)
    refine ⟨?_, ?_, Nat.zero_le _, hcs c (by simp), .inr ⟨rfl, rfl, ?_⟩⟩
    · simp only [converted, copy_length]; exact i1
    · simp only [converted, filled, List.length_append, List.length_drop]; omega
    · rw [pend_converted i1 (hcs c (by simp)), hW]
      simp
  | @more s c s' cs h1 h2 hw' ih =>
    intro O r hr i1 i2 hd i4 ht he hs hW
    have ih := @ih (fun x hx => hcs x (by simp [hx]))
    by_cases hc0 : c = []
    · subst hc0
      refine estep_of_eq (r' := filled r [] none s') 1 (fun fuel => ?_)
        (ih rfl i1 (by simpa [filled] using i2) hd i4 ht rfl rfl ?_)
      · rw [XText.Reader.read, if_neg (by simpa using hd), ht, if_neg (by simp), if_neg (by simp [hs, he]),
          more_eq i2 hs (by rw [hr]; exact h1) h2]
      · rw [hW]
        have : (To []).1 = [] := by rw [To_eq]; rfl
        simp [this]
    · refine estep_of_eq 2 (fill_encode hd ht he i2 hs (by rw [hr]; exact h1) h2 (.inl hc0) p) ?_
      have hl := hcs c (by simp)
      have j1 : (converted r c none s').dst.length = 4096 := by simp only [converted, copy_length]; exact i1
      have j2 : (converted r c none s').src.length = 4096 := by
        simp only [converted, filled, List.length_append, List.length_drop]; omega
      by_cases h0 : 0 = (To c).1.length
      · refine ih rfl j1 j2 h0 hl rfl rfl rfl ?_
        rw [hW, List.flatMap_cons, List.length_eq_zero_iff.1 h0.symm, List.nil_append]
      · refine estep_ready hp ⟨j1, j2, Nat.zero_le _, hl, .inl ⟨rfl, rfl, rfl, h2, cs, hw',
          fun x hx => hcs x (by simp [hx]), ?_⟩⟩ (.inl h0)
        rw [pend_converted i1 hl, hW, List.flatMap_cons, List.append_assoc]

theorem einv_step {src : Source σ} {e : Err} {W O : Str} {r : XText.Reader σ} {p : Str} (hp : p ≠ [])
    (h : EInv src e W O r) : EStep src e W O r p := by
  by_cases hr : r.dst0 ≠ r.dst1 ∨ r.transformComplete = true
  · exact estep_ready hp h hr
  · simp only [not_or, Decidable.not_not, Bool.not_eq_true] at hr
    obtain ⟨h1, h2, h3, h4, h7⟩ := h
    rcases h7 with ⟨k1, k2, k3, k4, cs, k5, k6, k7⟩ | ⟨h7, _⟩
    · have hpe : pend r = [] := by rw [← List.length_eq_zero_iff, pend_length h1 h4]; omega
      rw [hpe, List.append_nil] at k7
      exact estep_waiting hp k5 k6 rfl h1 h2 hr.1 h4 k1 k2 k3 k7
    · rw [hr.2] at h7; simp at h7

theorem einv_prefix {src : Source σ} {e : Err} {W O : Str} {r : XText.Reader σ} (h : EInv src e W O r) : O <+: W := by
  obtain ⟨_, _, _, _, ⟨_, _, _, _, _, _, _, h⟩ | ⟨_, _, h⟩⟩ := h
  · rw [h, List.append_assoc]; exact List.prefix_append ..
  · rw [h]; exact List.prefix_append ..

theorem einv_complete {src : Source σ} {e : Err} {W O : Str} {r : XText.Reader σ} (h : EInv src e W O r)
    (hc : r.transformComplete = true) (hd : r.dst0 = r.dst1) : O = W := by
  obtain ⟨h1, _, _, h4, ⟨h, _⟩ | ⟨_, _, h⟩⟩ := h
  · rw [hc] at h; simp at h
  · have hp : pend r = [] := by rw [← List.length_eq_zero_iff, pend_length h1 h4]; omega
    rw [h, hp, List.append_nil]

theorem einv_reads {src : Source σ} {e : Err} {W : Str} {ps : List Str} :
    (∀ p ∈ ps, p ≠ []) → ∀ {O : Str} {r : XText.Reader σ}, EInv src e W O r →
    ∃ res r', XReads encoderTransform src r ps res r' ∧ res.length = ps.length ∧ EInv src e W (O ++ delivered res) r' ∧
      (∀ x ∈ res, x.1 ≤ x.2.2.length ∧ (x.2.1 = none → 0 < x.1) ∧ (∀ y, x.2.1 = some y → y = e)) ∧
      ((∃ x ∈ res, x.2.1 ≠ none) → O ++ delivered res = W) := by
  induction ps with
  | nil =>
    intro _ O r h
    exact ⟨[], r, .nil r, rfl, by simpa [delivered] using h, by simp, by simp⟩
  | cons p ps ih =>
    intro hp O r h
    obtain ⟨fuel, n, err, p', r1, h1, h2, h3, h4, h5⟩ := einv_step (hp p (by simp)) h
    obtain ⟨res, r', g1, g0, g2, g3, g4⟩ := ih (fun x hx => hp x (by simp [hx])) h2
    have hdel : O ++ delivered ((n, err, p') :: res) = O ++ p'.take n ++ delivered res := by
      simp [delivered]
    refine ⟨(n, err, p') :: res, r', .cons ⟨fuel, h1⟩ g1, by simp [g0], by rw [hdel]; exact g2, ?_, ?_⟩
    · intro x hx
      rcases List.mem_cons.1 hx with rfl | hx
      · exact ⟨h3, h4, fun y hy => (h5 y hy).1⟩
      · exact g3 x hx
    · rintro ⟨x, hx, he⟩
      rw [hdel]
      rcases List.mem_cons.1 hx with rfl | hx
      · obtain ⟨y, hy⟩ := Option.ne_none_iff_exists'.1 he
        obtain ⟨_, hc, hd⟩ := h5 y hy
        have heq := einv_complete h2 hc hd
        have hpre := einv_prefix g2
        refine hpre.eq_of_length (Nat.le_antisymm hpre.length_le ?_)
        rw [← heq, List.length_append (as := O ++ p'.take n)]
        omega
      · exact g4 ⟨x, hx, he⟩

/-- Exactly, as long as no piece becomes longer than 4096 bytes: calls with non-empty buffers return; each gives at least one
byte or an error; together they deliver a prefix of the pieces' encodings one after the other; an error is the source's,
appears only when all has been delivered, and does appear when there are more calls than bytes. -/
theorem C118_exact (src : Source σ) (e : Err) (s : σ) (cs : List Str) (h : Pieces src e s cs)
    (hl : ∀ c ∈ cs, (To c).1.length ≤ 4096) (ps : List Str) (hp : ∀ p ∈ ps, p ≠ []) :
    ∃ res r', XReads encoderTransform src (XText.NewReader s) ps res r' ∧
      (∀ x ∈ res, x.1 ≤ x.2.2.length ∧ (x.2.1 = none → 0 < x.1) ∧ (∀ y, x.2.1 = some y → y = e)) ∧
      delivered res <+: (cs.flatMap fun c => (To c).1) ∧
      ((∃ x ∈ res, x.2.1 ≠ none) → delivered res = cs.flatMap fun c => (To c).1) ∧
      ((cs.flatMap fun c => (To c).1).length < ps.length → ∃ x ∈ res, x.2.1 = some e) := by
  have hinit : EInv src e (cs.flatMap fun c => (To c).1) [] (XText.NewReader s) := by
    refine ⟨List.length_replicate, List.length_replicate, Nat.le_refl _, Nat.zero_le _,
      .inl ⟨rfl, rfl, rfl, Nat.zero_le _, cs, h, hl, ?_⟩⟩
    simp [pend, XText.NewReader]
  obtain ⟨res, r', h1, h0, h2, h3, h4⟩ := einv_reads hp hinit
  rw [List.nil_append] at h2 h4
  have hpre := einv_prefix h2
  refine ⟨res, r', h1, h3, hpre, h4, fun hlt => ?_⟩
  refine Classical.byContradiction fun hno => ?_
  have hnone : ∀ x ∈ res, x.2.1 = none := by
    intro x hx
    cases hxe : x.2.1 with
    | none => rfl
    | some y => exact absurd ⟨x, hx, by rw [hxe, (h3 x hx).2.2 y hxe]⟩ hno
  have hdel : res.length ≤ (delivered res).length := by
    clear hpre h1 h2 h4 hno h0
    induction res with
    | nil => simp
    | cons x res ih =>
      have h5 := h3 x (by simp)
      have h6 := h5.2.1 (hnone x (by simp))
      have h7 := ih (fun y hy => h3 y (by simp [hy])) (fun y hy => hnone y (by simp [hy]))
      simp only [delivered, List.flatMap_cons, List.length_append, List.length_cons, List.length_take] at h7 ⊢
      omega
  have := hpre.length_le
  omega

theorem To_valid_length {s : Str} (h : IsUtf8 s) : (To s).1.length ≤ s.length := by
  have h1 := C66_encoder_bytes_partial 0 s h
  rw [C66_encoder_bytes_exact] at h1
  split at h1
  · assumption
  · simp at h1

/-- What holds: if the source hands over whole characters, the reader delivers `To` of the text; nothing need be said about
lengths. Missing: sources that cut inside a character, and text that is not UTF-8. -/
theorem C118_reader_partial (src : Source σ) (e : Err) (s : σ) (cs : List Str) (h : Pieces src e s cs)
    (hu : ∀ c ∈ cs, IsUtf8 c) (ps : List Str) (hp : ∀ p ∈ ps, p ≠ []) :
    ∃ res r', XReads encoderTransform src (XText.NewReader s) ps res r' ∧
      (∀ x ∈ res, x.1 ≤ x.2.2.length ∧ (x.2.1 = none → 0 < x.1) ∧ (∀ y, x.2.1 = some y → y = e)) ∧
      delivered res <+: (To cs.flatten).1 ∧
      ((∃ x ∈ res, x.2.1 ≠ none) → delivered res = (To cs.flatten).1) ∧
      ((To cs.flatten).1.length < ps.length → ∃ x ∈ res, x.2.1 = some e) := by
  have hlen : ∀ c ∈ cs, c.length ≤ 4096 := by
    clear hu
    induction h with
    | more _ h2 _ ih =>
      intro c hc
      rcases List.mem_cons.1 hc with rfl | hc
      · exact h2
      · exact ih c hc
    | last _ h2 => intro c hc; rw [List.mem_singleton.1 hc]; exact h2
  rw [To_flatten cs fun c hc => boundary_isUtf8 (hu c (List.mem_of_mem_tail hc))]
  exact C118_exact src e s cs h (fun c hc => Nat.le_trans (To_valid_length (hu c hc)) (hlen c hc)) ps hp

-- 가A in one piece, then 나; each buffer has one byte
example : Pieces chunked .eof [utf8 ['가', 'A'], utf8 ['나']] [utf8 ['가', 'A'], utf8 ['나'], []] ∧
    (∀ c ∈ [utf8 ['가', 'A'], utf8 ['나'], []], IsUtf8 c) ∧ ∀ p ∈ List.replicate 6 [(0 : UInt8)], p ≠ [] := by
  refine ⟨?_, ?_, by simp⟩
  · refine .more (s' := [utf8 ['나']]) ?_ ?_ (.more (s' := []) ?_ ?_ (.last (s' := []) rfl (by simp)))
    · rfl
    · decide +kernel
    · rfl
    · decide +kernel
  · intro c hc
    simp only [List.mem_cons, List.not_mem_nil, or_false] at hc
    rcases hc with rfl | rfl | rfl
    · exact ⟨_, rfl⟩
    · exact ⟨_, rfl⟩
    · exact ⟨[], rfl⟩

/-- C118, any text in any pieces that do not become too long: what is delivered in the end has the characters that are not cut
as `To` encodes them and two question marks for each byte of those that are; it is `To` of the text exactly if none is. -/
theorem C118_unchanged_iff_partial (src : Source σ) (e : Err) (s : σ) (ds : List Str) (h : Pieces src e s ds)
    (hl : ∀ d ∈ ds, (To d).1.length ≤ 4096) (cs : List Char) (hf : ds.flatten = utf8 cs) (ps : List Str)
    (hp : ∀ p ∈ ps, p ≠ []) (hn : (cutText ds 0 cs).length < ps.length) :
    ∃ res r', XReads encoderTransform src (XText.NewReader s) ps res r' ∧ (∃ x ∈ res, x.2.1 = some e) ∧
      delivered res = cutText ds 0 cs ∧ (delivered res = (To (utf8 cs)).1 ↔ ¬ CutChar ds cs) := by
  obtain ⟨res, r', h1, _, _, h4, h5⟩ := C118_exact src e s ds h hl ps hp
  rw [cut_exact cs ds hf] at h4 h5
  obtain ⟨x, hx, hxe⟩ := h5 hn
  have h6 := h4 ⟨x, hx, by rw [hxe]; simp⟩
  exact ⟨res, r', h1, ⟨x, hx, hxe⟩, h6, by rw [h6, cutText_iff]⟩

-- 가 cut after its first byte: six question marks
example : Pieces chunked .eof [[0xEA], [0xB0, 0x80]] [[0xEA], [0xB0, 0x80], []] ∧
    (∀ d ∈ [[0xEA], [0xB0, 0x80], []], (To d).1.length ≤ 4096) ∧ [[0xEA], [0xB0, 0x80], []].flatten = utf8 ['가'] ∧
    CutChar [[0xEA], [0xB0, 0x80], []] ['가'] := by
  obtain ⟨c1, c2⟩ := To_cut 1 (by omega) (by omega)
  rw [show (utf8 ['가']).take 1 = [0xEA] by decide +kernel] at c1
  rw [show (utf8 ['가']).drop 1 = [0xB0, 0x80] by decide +kernel] at c2
  refine ⟨.more rfl (by decide) (.more rfl (by decide) (.last (s' := []) rfl (by decide))), ?_, by decide +kernel,
    [], '가', [], rfl, 1, by decide +kernel, by decide +kernel⟩
  intro d hd
  simp only [List.mem_cons, List.not_mem_nil, or_false] at hd
  rcases hd with rfl | rfl | rfl
  · omega
  · omega
  · rw [To_eq]; exact Nat.zero_le _

/-- FALSE as stated (1): a file of 1366 to 2730 syllables is not encoded as `To` does: the first 4096 bytes end inside a
syllable, for which four bytes too many are delivered. -/
theorem C118_file_fails (n : Nat) (h1 : 1366 ≤ n) (h2 : n ≤ 2730) (ps : List Str) (hp : ∀ p ∈ ps, p ≠ [])
    (hn : 2 * n + 4 < ps.length) :
    ∃ res r', XReads encoderTransform chunked (XText.NewReader [utf8 (List.replicate n '가')]) ps res r' ∧
      (∃ x ∈ res, x.2.1 = some .eof) ∧ (delivered res).length = 2 * n + 4 ∧
      (To (utf8 (List.replicate n '가'))).1.length = 2 * n := by
  have h3 : ∀ k, (utf8 (List.replicate k '가')).length = 3 * k := by
    intro k
    induction k with
    | zero => rfl
    | succ k ih =>
      rw [List.replicate_succ, utf8_cons, List.length_append, ih, show (String.utf8EncodeChar '가').length = 3 by decide +kernel]
      omega
  have hsplit : utf8 (List.replicate n '가') =
      (utf8 (List.replicate 1365 '가') ++ (utf8 ['가']).take 1) ++ ((utf8 ['가']).drop 1 ++ utf8 (List.replicate (n - 1366) '가')) := by
    rw [List.append_assoc, ← List.append_assoc ((utf8 ['가']).take 1), List.take_append_drop, ← utf8_append, ← utf8_append]
    refine congrArg utf8 (List.eq_replicate_iff.2 ⟨?_, ?_⟩).symm
    · simp only [List.length_append, List.length_replicate, List.length_cons, List.length_nil]
      omega
    · intro x hx
      simp only [List.mem_append, List.mem_replicate, List.mem_singleton] at hx
      rcases hx with hx | hx | hx
      · exact hx.2
      · exact hx
      · exact hx.2
  obtain ⟨c1, c2⟩ := To_cut 1 (by omega) (by omega)
  have hu : (utf8 ['가']).length = 3 := h3 1
  have hb : Boundary ((utf8 ['가']).take 1) := by
    intro b t hbt
    rw [show (utf8 ['가']).take 1 = [0xEA] by decide +kernel, List.cons.injEq] at hbt
    rw [← hbt.1]
    decide
  generalize hA : utf8 (List.replicate 1365 '가') ++ (utf8 ['가']).take 1 = A at hsplit
  generalize hB : (utf8 ['가']).drop 1 ++ utf8 (List.replicate (n - 1366) '가') = B at hsplit
  have lA : A.length = 4096 := by
    rw [← hA, List.length_append, h3, List.length_take, hu]
    decide
  have lB : B.length ≤ 4096 := by
    rw [← hB, List.length_append, h3, List.length_drop, hu]
    omega
  have tA : (To A).1.length = 2732 := by
    rw [← hA, To_append_length _ _ hb, To_gas_length, c1]
  have tB : (To B).1.length = 4 + 2 * (n - 1366) := by
    rw [← hB, To_append_length _ _ (boundary_utf8 _), To_gas_length, c2]
  have t0 : (To []).1 = [] := by rw [To_eq]; rfl
  have hP : Pieces chunked .eof [utf8 (List.replicate n '가')] [A, B, []] := by
    refine .more (s' := [B]) ?_ (by omega) (.more (s' := []) ?_ lB (.last (s' := []) rfl (by simp)))
    · show (if _ then _ else _) = _
      rw [h3, if_neg (by omega), hsplit, ← lA, List.take_left, List.drop_left]
    · show (if _ then _ else _) = _
      rw [if_pos lB]
  obtain ⟨res, r', g1, _, _, g4, g5⟩ := C118_exact chunked .eof _ _ hP (by
    intro c hc
    simp only [List.mem_cons, List.not_mem_nil, or_false] at hc
    rcases hc with rfl | rfl | rfl
    · omega
    · omega
    · rw [t0]; simp) ps hp
  have hlen : ([A, B, []].flatMap fun c => (To c).1).length = 2 * n + 4 := by
    simp only [List.flatMap_cons, List.flatMap_nil, List.length_append, tA, tB, t0, List.length_nil]
    omega
  obtain ⟨x, hx, hxe⟩ := g5 (by omega)
  refine ⟨res, r', g1, ⟨x, hx, hxe⟩, ?_, To_gas_length n⟩
  rw [g4 ⟨x, hx, by rw [hxe]; simp⟩, hlen]

/-- FALSE as stated (2): if the encoding of the source's first piece has more than 4096 bytes, the first call panics. -/
theorem C118_long_panics (src : Source σ) (s s' : σ) (c : Str) (err : Option Err)
    (h : src s 4096 = (c, err, s')) (hc : c.length ≤ 4096) (hl : 4096 < (To c).1.length) (p : Str) (fuel : Nat) :
    XText.Reader.read encoderTransform src (fuel + 3) (XText.NewReader s) p = .panic := by
  have hne : c ≠ [] := by
    rintro rfl
    have t0 : (To []).1 = [] := by rw [To_eq]; rfl
    rw [t0] at hl
    simp at hl
  rw [show fuel + 3 = fuel + 1 + 2 from rfl, fill_encode rfl rfl rfl List.length_replicate rfl h hc (.inl hne)]
  unfold XText.Reader.read
  rw [if_pos (by simp only [converted]; omega), if_neg]
  rintro ⟨_, h2⟩
  simp only [converted, copy_length, XText.NewReader, XText.defaultBufSize, List.length_replicate] at h2
  omega

/-- Such a piece: 2049 to 4096 bytes that are not UTF-8. -/
theorem C118_binary_fails (n : Nat) (h1 : 2049 ≤ n) (h2 : n ≤ 4096) (p : Str) (fuel : Nat) :
    XText.Reader.read encoderTransform chunked (fuel + 3) (XText.NewReader [List.replicate n 0xFF]) p = .panic := by
  refine C118_long_panics chunked _ [] (List.replicate n 0xFF) none ?_ (by simpa using h2) ?_ p fuel
  · show (if _ then _ else _) = _
    rw [if_pos (by simpa using h2)]
  · have h : toUnit (runeOf fffd) = [0x3F, 0x3F] :=
      toUnit_double (by rw [fffd_toNat]; omega) (by rw [fffd_toNat]; omega)
    have hl : ∀ k, (To (List.replicate k 0xFF)).1.length = 2 * k := by
      intro k
      induction k with
      | zero => rw [To_eq]; rfl
      | succ k ih =>
        have hb : Boundary (List.replicate k (0xFF : Byte)) := by
          intro b t hbt
          cases k with
          | zero => simp at hbt
          | succ k =>
            rw [List.replicate_succ, List.cons.injEq] at hbt
            rw [← hbt.1]
            decide
        rw [List.replicate_succ, show ∀ l : Str, (0xFF : Byte) :: l = [0xFF] ++ l from fun _ => rfl, To_append_length _ _ hb, ih,
          To_eq, show runes [0xFF] = [runeOf fffd] by decide +kernel]
        simp [h]
        omega
    rw [hl]
    omega

/-! ### C119 -/

/-- One call of `Write` on a writer that holds nothing back, exactly. -/
theorem dwrite_ok (sink : Sink τ) (fuel : Nat) (w : XText.Writer τ) (hw : w.n = 0) (hd : w.dst.length = 4096)
    (data out : Str) (ho : From data = (out, none)) :
    XText.Writer.write decoderTransform sink (fuel + 1) w data =
      if out.length ≤ 4096 then
        .ret (if (sink w.sink out).2.1 = none then data.length else 0, (sink w.sink out).2.1,
          { w with dst := (copy w.dst out).1, sink := (sink w.sink out).2.2 })
      else .panic := by
  unfold XText.Writer.write
  rw [if_neg (by omega)]
  unfold XText.Writer.loop
  rw [decoder_ok ho]
  simp only [copy_length, hd, Nat.le_refl, and_true]
  by_cases hl : out.length ≤ 4096
  · rw [if_pos hl, if_pos hl, copy_fits (by rw [hd]; exact hl), List.take_left]
    cases hs : (sink w.sink out).2.1 with
    | some x => simp
    | none => simp [hw]
  · rw [if_neg hl, if_neg hl]

theorem dwrite_err (sink : Sink τ) (fuel : Nat) (w : XText.Writer τ) (hw : w.n = 0) (data : Str)
    (ho : (From data).2 ≠ none) :
    XText.Writer.write decoderTransform sink (fuel + 1) w data =
      .ret (0, if (sink w.sink []).2.1 = none then some .unexpectedStream else (sink w.sink []).2.1,
        { w with sink := (sink w.sink []).2.2 }) := by
  have hF : From data = ([], some .unexpectedStream) := by
    rcases dec_cases data with ⟨cs, hcs⟩ | ht
    · rw [From_dec hcs] at ho; exact absurd rfl ho
    · exact From_truncated ht
  unfold XText.Writer.write
  rw [if_neg (by omega)]
  unfold XText.Writer.loop
  rw [decoder_err hF]
  simp only [Nat.zero_le, and_self, if_true, List.take_zero]
  cases hs : (sink w.sink []).2.1 with
  | some x => simp
  | none => simp [hw]

theorem dwrites_state {sink : Sink τ} {w w' : XText.Writer τ} {ds : List Str} {res : List (Nat × Option Err)}
    (h : XWrites decoderTransform sink w ds res w') (hw : w.n = 0) (hd : w.dst.length = 4096) :
    w'.n = 0 ∧ w'.dst.length = 4096 := by
  induction h with
  | nil => exact ⟨hw, hd⟩
  | @cons w d n err w1 ds res w2 fuel h1 _ ih =>
    cases fuel with
    | zero => simp [XText.Writer.write, XText.Writer.loop] at h1
    | succ fuel =>
      by_cases ho : (From d).2 = none
      · rw [dwrite_ok sink fuel w hw hd d (From d).1 (by rw [← ho])] at h1
        split at h1
        · simp only [XText.Out.ret.injEq, Prod.mk.injEq] at h1
          obtain ⟨_, _, rfl⟩ := h1
          exact ih hw (by simp only [copy_length]; exact hd)
        · simp at h1
      · rw [dwrite_err sink fuel w hw d ho] at h1
        simp only [XText.Out.ret.injEq, Prod.mk.injEq] at h1
        obtain ⟨_, _, rfl⟩ := h1
        exact ih hw hd

/-- Exactly (any sink, any earlier writes, any data): if the piece does not end inside a character and `From(data)` has at most
4096 bytes, `Write` hands them to the sink in one call and returns its error, or `len(data)` and nil; if they are more, it
panics; if the piece ends inside a character, the sink is called with no bytes, and unless it returns an error, `Write`
returns 0 and ErrCP949UnexpectedStream. -/
theorem C119_exact (sink : Sink τ) (t : τ) (ds : List Str) (res : List (Nat × Option Err)) (w : XText.Writer τ)
    (h : XWrites decoderTransform sink (XText.NewWriter t) ds res w) (data : Str) (fuel : Nat) :
    (∀ out, From data = (out, none) → out.length ≤ 4096 →
      ∃ w', XText.Writer.write decoderTransform sink (fuel + 1) w data =
        .ret (if (sink w.sink out).2.1 = none then data.length else 0, (sink w.sink out).2.1, w') ∧
        w'.sink = (sink w.sink out).2.2) ∧
    (∀ out, From data = (out, none) → 4096 < out.length →
      XText.Writer.write decoderTransform sink (fuel + 1) w data = .panic) ∧
    ((From data).2 ≠ none →
      ∃ w', XText.Writer.write decoderTransform sink (fuel + 1) w data =
        .ret (0, if (sink w.sink []).2.1 = none then some .unexpectedStream else (sink w.sink []).2.1, w') ∧
        w'.sink = (sink w.sink []).2.2) := by
  obtain ⟨hw, hd⟩ := dwrites_state h rfl List.length_replicate
  refine ⟨fun out ho hl => ?_, fun out ho hl => ?_, fun ho => ?_⟩
  · rw [dwrite_ok sink fuel w hw hd data out ho, if_pos hl]
    exact ⟨_, rfl, rfl⟩
  · rw [dwrite_ok sink fuel w hw hd data out ho, if_neg (by omega)]
  · rw [dwrite_err sink fuel w hw data ho]
    exact ⟨_, rfl, rfl⟩

theorem dwrites_accept (sink : Sink τ) (hs : ∀ t d, (sink t d).2.1 = none) (ds : List Str)
    (hl : ∀ d ∈ ds, (From d).2 = none ∧ (From d).1.length ≤ 4096) : ∀ (w : XText.Writer (τ × List Str)), w.n = 0 →
    w.dst.length = 4096 → ∃ w', XWrites decoderTransform (loggedSink sink) w ds
      (ds.map fun d => (d.length, none)) w' ∧ w'.sink.2 = w.sink.2 ++ ds.map fun d => (From d).1 := by
  induction ds with
  | nil => intro w _ _; exact ⟨w, .nil w, by simp⟩
  | cons d ds ih =>
    intro w hw hd
    obtain ⟨h0, hl0⟩ := hl d (by simp)
    have h1 := dwrite_ok (loggedSink sink) 0 w hw hd d (From d).1 (by rw [← h0])
    have hno : (loggedSink sink w.sink (From d).1).2.1 = none := hs ..
    rw [if_pos hl0, if_pos hno, hno] at h1
    obtain ⟨w', g1, g2⟩ := ih (fun x hx => hl x (by simp [hx]))
      { w with dst := (copy w.dst (From d).1).1, sink := (loggedSink sink w.sink (From d).1).2.2 } hw
      (show ((copy w.dst (From d).1).1).length = 4096 by rw [copy_length]; exact hd)
    refine ⟨w', .cons h1 g1, ?_⟩
    rw [g2]
    simp [loggedSink]

/-- What holds: if no piece ends inside a character and the conversion of each has at most 4096 bytes, every call returns the
length of its argument and the sink has received `From` of the whole. Missing: longer pieces, and cuts inside a character. -/
theorem C119_writer_partial (sink : Sink τ) (hs : ∀ t d, (sink t d).2.1 = none) (t : τ) (ds : List Str)
    (hl : ∀ d ∈ ds, (From d).2 = none ∧ (From d).1.length ≤ 4096) :
    ∃ w', XWrites decoderTransform (loggedSink sink) (XText.NewWriter (t, [])) ds
      (ds.map fun d => (d.length, none)) w' ∧ From ds.flatten = (w'.sink.2.flatten, none) := by
  obtain ⟨w', h1, h2⟩ := dwrites_accept sink hs ds hl (XText.NewWriter (t, [])) rfl List.length_replicate
  refine ⟨w', h1, ?_⟩
  rw [h2, From_chunks fun p hp => (hl p hp).1, List.flatMap_def]
  rfl

/-- 가 in one piece, A in another; a piece that ends inside a character. -/
example : (∀ d ∈ [[0xB0, 0xA1], [0x41]], (From d).2 = none ∧ (From d).1.length ≤ 4096) ∧ (From [0xB0]).2 ≠ none := by
  have h1 : From [0xB0, 0xA1] = (utf8 ['가'], none) :=
    From_enc (.pair (hi := 0xB0) (lo := 0xA1) (by unfold Chart; decide +kernel) .nil)
  have h2 : From [0x41] = (utf8 ['A'], none) := From_dec (.ascii (by decide) (by decide) .nil)
  refine ⟨?_, by rw [From_truncated (.lone (by decide))]; simp⟩
  intro d hd
  simp only [List.mem_cons, List.not_mem_nil, or_false] at hd
  rcases hd with rfl | rfl
  · rw [h1]; exact ⟨rfl, by decide +kernel⟩
  · rw [h2]; exact ⟨rfl, by decide +kernel⟩

/-- FALSE as stated (1): of any text given byte by byte, only the ASCII characters arrive; each byte of another character is
refused. -/
theorem C119_bytes_fails (sink : Sink τ) (hs : ∀ t d, (sink t d).2.1 = none) (t : τ) (D : Str) :
    ∃ w', XWrites decoderTransform (loggedSink sink) (XText.NewWriter (t, [])) (D.map fun b => [b])
      (D.map fun b => if b.toNat < 0x80 then (1, none) else (0, some .unexpectedStream)) w' ∧
      w'.sink.2.flatten = D.filter fun b => b.toNat < 0x80 := by
  suffices key : ∀ (D : Str) (w : XText.Writer (τ × List Str)), w.n = 0 → w.dst.length = 4096 →
      ∃ w', XWrites decoderTransform (loggedSink sink) w (D.map fun b => [b])
        (D.map fun b => if b.toNat < 0x80 then (1, none) else (0, some .unexpectedStream)) w' ∧
        w'.sink.2.flatten = w.sink.2.flatten ++ D.filter fun b => b.toNat < 0x80 by
    obtain ⟨w', h1, h2⟩ := key D (XText.NewWriter (t, [])) rfl List.length_replicate
    exact ⟨w', h1, by rw [h2]; rfl⟩
  intro D
  induction D with
  | nil => intro w _ _; exact ⟨w, .nil w, by simp⟩
  | cons b D ih =>
    intro w hw hd
    by_cases hb : b.toNat < 0x80
    · have hF : From [b] = ([b], none) := by
        exact (C34_ascii [b] (by simpa using hb)).1
      have h1 := dwrite_ok (loggedSink sink) 0 w hw hd [b] [b] hF
      have hno : (loggedSink sink w.sink [b]).2.1 = none := hs ..
      rw [if_pos (by simp), if_pos hno, hno] at h1
      obtain ⟨w', g1, g2⟩ := ih { w with dst := (copy w.dst [b]).1, sink := (loggedSink sink w.sink [b]).2.2 } hw
        (show ((copy w.dst [b]).1).length = 4096 by rw [copy_length]; exact hd)
      refine ⟨w', ?_, ?_⟩
      · rw [List.map_cons, List.map_cons, if_pos hb]
        exact .cons h1 g1
      · rw [g2]
        simp [loggedSink, hb]
    · have ho : (From [b]).2 ≠ none := by rw [From_truncated (.lone (by omega))]; simp
      have h1 := dwrite_err (loggedSink sink) 0 w hw [b] ho
      have hno : (loggedSink sink w.sink []).2.1 = none := hs ..
      rw [if_pos hno] at h1
      obtain ⟨w', g1, g2⟩ := ih { w with sink := (loggedSink sink w.sink []).2.2 } hw hd
      refine ⟨w', ?_, ?_⟩
      · rw [List.map_cons, List.map_cons, if_neg hb]
        exact .cons h1 g1
      · rw [g2]
        simp [loggedSink, hb]

/-- FALSE as stated (2): writing 1366 or more syllables at once panics. -/
theorem C119_writer_fails (sink : Sink τ) (t : τ) (n : Nat) (h : 1366 ≤ n) (b : Str) (hb : Enc (List.replicate n '가') b)
    (fuel : Nat) : XText.Writer.write decoderTransform sink (fuel + 1) (XText.NewWriter t) b = .panic := by
  refine (C119_exact sink t [] [] _ (.nil _) b fuel).2.1 _ (From_enc hb) ?_
  have h3 : ∀ k, (utf8 (List.replicate k '가')).length = 3 * k := by
    intro k
    induction k with
    | zero => rfl
    | succ k ih =>
      rw [List.replicate_succ, utf8_cons, List.length_append, ih, show (String.utf8EncodeChar '가').length = 3 by decide +kernel]
      omega
  rw [h3]
  omega

example : ∃ b, Enc (List.replicate 1366 '가') b := by
  obtain ⟨code, hg⟩ := chart_ga
  rw [← ga_toNat] at hg
  suffices h : ∀ n, ∃ b, Enc (List.replicate n '가') b from h 1366
  intro n
  induction n with
  | zero => exact ⟨[], .nil⟩
  | succ n ih => obtain ⟨b, hb⟩ := ih; exact ⟨_, enc_code hg hb⟩

end Props
