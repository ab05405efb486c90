import Verif.Spec.StreamPieces
import Verif.Props.Reader
/-! What exactly is delivered of any stream, cut ones included (C40, C42). -/
namespace Props
open Go Spec Cp949

attribute [local irreducible] fromTable toTable rawFrom rawTo

variable {σ : Type}

/-- The reader over the recorded source, without the record. -/
def unrecord (r : Reader (σ × List Str)) : Reader σ := ⟨r.src.1, r.cdata, r.rdata, r.rcap, r.err⟩

theorem unrecord_fill (src : Source σ) (r : Reader (σ × List Str)) (len : Nat) :
    (fill (recorded src) r len).map unrecord = fill src (unrecord r) len := by
  have cases : ∀ (P : Prop) [Decidable P] (a : Reader (σ × List Str)),
      (if P then some a else none).map unrecord = if P then some (unrecord a) else none := by
    intro P _ a
    split <;> rfl
  exact cases _ _

theorem unrecord_readLoop (src : Source σ) (fuel : Nat) (r : Reader (σ × List Str)) (buf : Str) :
    readLoop src fuel (unrecord r) buf = match readLoop (recorded src) fuel r buf with
      | .ret n err b r' => .ret n err b (unrecord r')
      | .panic => .panic
      | .running => .running := by
  induction fuel generalizing r with
  | zero => rfl
  | succ fuel ih =>
    rw [readLoop, readLoop]
    simp only [show (unrecord r).cdata = r.cdata from rfl, show (unrecord r).err = r.err from rfl,
      show (unrecord r).rdata = r.rdata from rfl, ← unrecord_fill, show convert (unrecord r) = unrecord (convert r) from rfl]
    split
    · rfl
    · split
      · cases fill (recorded src) r buf.length with
        | none => rfl
        | some r1 => exact ih (convert r1)
      · split
        · rfl
        · exact ih _

theorem recorded_reads {src : Source σ} {r : Reader σ} {bufs res r'} (h : Reads src r bufs res r') :
    ∀ rl : Reader (σ × List Str), unrecord rl = r →
    ∃ r1, Reads (recorded src) rl bufs res r1 ∧ unrecord r1 = r' := by
  induction h with
  | nil r => intro rl hr; exact ⟨rl, .nil _, hr⟩
  | @cons r buf n err buf' r' bufs res r'' h1 _ ih =>
    intro rl hr
    subst hr
    obtain ⟨fuel, h⟩ := h1
    rw [unrecord_readLoop] at h
    cases h1 : readLoop (recorded src) fuel rl buf with
    | ret n1 e1 b1 r1 =>
      rw [h1] at h
      simp only [ReadOut.ret.injEq] at h
      obtain ⟨rfl, rfl, rfl, h⟩ := h
      obtain ⟨r2, g3, g4⟩ := ih r1 h
      exact ⟨r2, .cons ⟨fuel, h1⟩ g3, g4⟩
    | panic => rw [h1] at h; simp at h
    | running => rw [h1] at h; simp at h

/-- `O` has been delivered: the reads so far brought `qs ++ rs`; `qs` is decoded; no beginning of `rs` is whole. -/
def InvP (O : Str) (r : Reader (σ × List Str)) : Prop :=
  ∃ qs rs cs, r.src.2 = qs ++ rs ∧ Dec qs.flatten cs ∧ utf8 cs = O ++ r.cdata ∧
    (∀ a b, rs = a ++ b → a ≠ [] → Truncated a.flatten) ∧ r.rdata = (if r.err = none then rs.flatten else [])

theorem invP_fill {src : Source σ} {O : Str} {r r' : Reader (σ × List Str)} {len : Nat} (h : InvP O r)
    (hc : r.cdata = []) (he : r.err = none) (hf : fill (recorded src) r len = some r') : InvP O (convert r') := by
  obtain ⟨qs, rs, cs, h1, h2, h3, h4, h5⟩ := h
  rw [if_pos he] at h5
  obtain ⟨k, _, _, _, e⟩ := fill_some hf
  have hsrc : r'.src.2 = qs ++ (rs ++ [(src r.src.1 k).1]) := by rw [e]; simp [recorded, h1]
  have hrd : r'.rdata = (rs ++ [(src r.src.1 k).1]).flatten := by rw [e]; simp [recorded, h5]
  have hcd : r'.cdata = [] := by rw [e]; exact hc
  clear e hf
  generalize (src r.src.1 k).1 = c at *
  rcases dec_cases r'.rdata with ⟨ds, hd⟩ | ht
  · rw [convert_dec hd]
    refine ⟨qs ++ (rs ++ [c]), [], cs ++ ds, by simpa using hsrc, ?_, ?_, ?_, by simp⟩
    · rw [List.flatten_append, ← hrd]; exact dec_append h2 hd
    · rw [utf8_append, h3, hc]; simp
    · intro a b hab ha
      simp at hab
      exact absurd hab.1 ha
  · have hpre : ∀ a b, rs ++ [c] = a ++ b → a ≠ [] → Truncated a.flatten := by
      intro a b hab ha
      rcases List.eq_nil_or_concat b with rfl | ⟨b', x, rfl⟩
      · rw [List.append_nil] at hab
        rw [← hab, ← hrd]; exact ht
      · rw [List.concat_eq_append, ← List.append_assoc] at hab
        exact h4 a b' (List.append_inj_left' hab rfl) ha
    by_cases he' : r'.err = none
    · rw [convert_truncated_more ht he']
      exact ⟨qs, rs ++ [c], cs, hsrc, h2, by rw [h3, hc], hpre, by simp only [he', if_true]; exact hrd⟩
    · rw [convert_truncated_end ht he']
      exact ⟨qs, rs ++ [c], cs, hsrc, h2, by rw [h3, hc], hpre, by simp [he']⟩

theorem invP_reads {src : Source σ} {O : Str} {r r' : Reader (σ × List Str)} {bufs res}
    (h : InvP O r) (hr : Reads (recorded src) r bufs res r') : InvP (O ++ delivered res) r' := by
  induction hr generalizing O with
  | nil => simpa [delivered] using h
  | @cons r buf n err buf' r1 bufs res r2 h1 _ ih =>
    have key : InvP (O ++ buf'.take n) r1 := by
      obtain ⟨m, hm, h⟩ := Returns_ind (fun r => InvP O r)
        (fun r r' hi hc he hf => invP_fill hi hc he hf)
        (fun r hi hc he hr => by
          obtain ⟨_, _, _, _, _, _, _, h5⟩ := hi
          rw [if_neg he] at h5
          exact absurd h5 hr) h h1
      rcases h with ⟨_, rfl, rfl, rfl, rfl⟩ | ⟨_, _, _, rfl, _, rfl, rfl⟩
      · obtain ⟨qs, rs, cs, h1, h2, h3, h4⟩ := hm
        refine ⟨qs, rs, cs, h1, h2, ?_, h4⟩
        simp only
        rw [h3, copy_take, List.append_assoc, List.take_append_drop]
      · simpa using hm
    have := ih key
    simpa [delivered] using this

/-- C40 and C42, what holds in every case (partial: what is delivered of a stream that ends within a character depends on the
reads): for every source, well-behaved or not, and any buffers. Let the reads so far have brought the pieces `qs ++ rs`, where
`qs` is as long as possible with whole characters only. What has been decoded is exactly `qs`; the rest waits, and is thrown
away when the source has ended. -/
theorem C40_exact_partial (src : Source σ) (s : σ) (bufs : List Str) (res : List Result) (r' : Reader σ)
    (h : Reads src (NewReader s) bufs res r') :
    ∃ r₁ : Reader (σ × List Str), Reads (recorded src) (NewReader (s, [])) bufs res r₁ ∧ r₁.src.1 = r'.src ∧
      ∃ qs rs, r₁.src.2 = qs ++ rs ∧ From qs.flatten = (delivered res ++ r'.cdata, none) ∧
        (∀ a b, rs = a ++ b → a ≠ [] → (From (qs ++ a).flatten).2 ≠ none) ∧
        r'.rdata = if r'.err = none then rs.flatten else [] := by
  obtain ⟨r₁, h1, h2⟩ := recorded_reads h (NewReader (s, [])) rfl
  refine ⟨r₁, h1, by rw [← h2]; rfl, ?_⟩
  obtain ⟨qs, rs, cs, g1, g2, g3, g4, g5⟩ := invP_reads (O := [])
    (show InvP [] (NewReader (s, [])) from
      ⟨[], [], [], rfl, .nil, rfl, fun a b hab ha => by simp at hab; exact absurd hab.1 ha, rfl⟩) h1
  subst h2
  refine ⟨qs, rs, g1, by rw [From_dec g2, g3]; rfl, fun a b hab ha => ?_, g5⟩
  rw [List.flatten_append, From_truncated (truncated_append g2 (g4 a b hab ha))]
  simp

/-- So if the stream ends within a character, all reads since the last one that ended between characters are lost: of
`A`, then `B` and half of 가, then the end, `A` is delivered; if the last read brings half of 가 alone, `AB`. -/
example : ∃ res r res' r', Reads chunked (NewReader [[0x41], [0x42, 0xB0]]) [[0, 0], [0, 0]] res r ∧ delivered res = [0x41] ∧
    Reads chunked (NewReader [[0x41, 0x42], [0xB0]]) [[0, 0], [0, 0]] res' r' ∧ delivered res' = [0x41, 0x42] := by
  refine ⟨_, _, _, _, .cons ⟨4, rfl⟩ (.cons ⟨4, rfl⟩ (.nil _)), by decide +kernel, .cons ⟨4, rfl⟩ (.cons ⟨4, rfl⟩ (.nil _)), by decide +kernel⟩

end Props
