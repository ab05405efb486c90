import Verif.Cp949.Encoding
import Verif.Props.Writer
/-! Property theorems C49–C51 (package cp949: the `Transform` methods). -/
namespace Props
open Go Spec Cp949

attribute [local irreducible] fromTable toTable rawFrom rawTo

theorem decoder_ok {src out : Str} (h : From src = (out, none)) (dst : Str) (atEOF : Bool) :
    decoderTransform dst src atEOF = ⟨(copy dst out).1, out.length, src.length, none⟩ := by
  unfold decoderTransform; rw [h]

theorem decoder_err {src out : Str} {e : Err} (h : From src = (out, some e)) (dst : Str)
    (atEOF : Bool) : decoderTransform dst src atEOF = ⟨dst, 0, 0, some e⟩ := by
  unfold decoderTransform; rw [h]

theorem encoder_eq (dst src : Str) (atEOF : Bool) :
    encoderTransform dst src atEOF = ⟨(copy dst (To src).1).1, (To src).1.length, src.length, none⟩ := by
  unfold encoderTransform; rw [To_eq]

theorem copy_fits {dst out : Str} (h : out.length ≤ dst.length) :
    (copy dst out).1 = out ++ dst.drop out.length := by
  simp only [copy]
  rw [List.take_of_length_le h]

theorem From_ascii_A : From [0x41] = ([0x41], none) :=
  (C34_ascii [0x41] (by decide)).1

theorem To_ascii_A : To [0x41] = ([0x41], none) :=
  (C34_ascii [0x41] (by decide)).2

/-! ### C49 -/

/-- FALSE as stated: with an empty destination both claim to have written a byte. -/
theorem C49_destination_fails :
    (decoderTransform [] [0x41] true).nDst = 1 ∧ (decoderTransform [] [0x41] true).err = none ∧
    (encoderTransform [] [0x41] true).nDst = 1 ∧ (encoderTransform [] [0x41] true).err = none := by
  rw [decoder_ok From_ascii_A, encoder_eq, To_ascii_A]
  exact ⟨rfl, rfl, rfl, rfl⟩

/-- What holds: `nSrc` never exceeds the source, no byte is written outside `dst`, and `nDst` exceeds
`dst` exactly when the conversion does. Missing: then an error should be reported; none is. -/
theorem C49_destination_partial (dst src : Str) (atEOF : Bool) :
    ((decoderTransform dst src atEOF).nSrc ≤ src.length ∧
      (decoderTransform dst src atEOF).dst.length = dst.length ∧
      ((decoderTransform dst src atEOF).nDst ≤ dst.length ↔ (From src).1.length ≤ dst.length) ∧
      ((decoderTransform dst src atEOF).err = (From src).2)) ∧
    ((encoderTransform dst src atEOF).nSrc ≤ src.length ∧
      (encoderTransform dst src atEOF).dst.length = dst.length ∧
      ((encoderTransform dst src atEOF).nDst ≤ dst.length ↔ (To src).1.length ≤ dst.length) ∧
      ((encoderTransform dst src atEOF).err = (To src).2)) := by
  refine ⟨?_, ?_⟩
  · rcases dec_cases src with ⟨cs, h⟩ | h
    · rw [decoder_ok (From_dec h), From_dec h]
      exact ⟨Nat.le_refl _, copy_length .., Iff.rfl, rfl⟩
    · rw [decoder_err (From_truncated h), From_truncated h]
      exact ⟨Nat.zero_le _, rfl, by simp, rfl⟩
  · rw [encoder_eq, To_eq]
    exact ⟨Nat.le_refl _, copy_length .., Iff.rfl, rfl⟩

/-! ### C50 -/

/-- Decoding into a destination that is long enough. -/
theorem C50_decoder (dst src : Str) (atEOF : Bool) :
    ((decoderTransform dst src atEOF).err = (From src).2) ∧
    (∀ out, From src = (out, none) → out.length ≤ dst.length →
      decoderTransform dst src atEOF = ⟨out ++ dst.drop out.length, out.length, src.length, none⟩) ∧
    (∀ e, (From src).2 = some e → decoderTransform dst src atEOF = ⟨dst, 0, 0, some e⟩) := by
  refine ⟨(C49_destination_partial dst src atEOF).1.2.2.2, ?_, ?_⟩
  · intro out h hl
    rw [decoder_ok h, copy_fits hl]
  · intro e h
    exact decoder_err (out := (From src).1) (by rw [← h]) dst atEOF

/-- Encoding into a destination that is long enough. It never fails, as `To` never does. -/
theorem C50_encoder (dst src : Str) (atEOF : Bool) (h : (To src).1.length ≤ dst.length) :
    (To src).2 = none ∧
    encoderTransform dst src atEOF =
      ⟨(To src).1 ++ dst.drop (To src).1.length, (To src).1.length, src.length, none⟩ := by
  refine ⟨by rw [To_eq], ?_⟩
  rw [encoder_eq, copy_fits h]

/-- A destination of `3*len(src)` bytes always suffices for decoding, `2*len(src)` for encoding. -/
theorem C50_room (dst src : Str) :
    (3 * src.length ≤ dst.length → (From src).1.length ≤ dst.length) ∧
    (2 * src.length ≤ dst.length → (To src).1.length ≤ dst.length) := by
  have h1 := From_length src
  have h2 := To_length src
  omega

example : From [0x41] = ([0x41], none) ∧ (To [0x41]).1.length ≤ [(0 : Byte), 0].length := by
  rw [To_ascii_A]
  exact ⟨From_ascii_A, by decide⟩

/-! ### C51 -/

/-- FALSE as stated: 가 in CP949 cut in two is refused with a hard error, not requested again, though more
input was announced; 가 in UTF-8 cut in two is consumed and turned into question marks. -/
theorem C51_pieces_fails :
    (∀ dst, decoderTransform dst [0xB0] false = ⟨dst, 0, 0, some .unexpectedStream⟩) ∧
    (∃ hi lo, Enc ['가'] [hi, lo] ∧ To (utf8 ['가']) = ([hi, lo], none)) ∧
    [0xEA] ++ [0xB0, 0x80] = utf8 ['가'] ∧
    ∀ dst dst', 6 ≤ dst.length → 6 ≤ dst'.length →
      let a := encoderTransform dst [0xEA] false
      let b := encoderTransform dst' [0xB0, 0x80] true
      a.nSrc = 1 ∧ a.err = none ∧ b.nSrc = 2 ∧ b.err = none ∧
      a.dst.take a.nDst ++ b.dst.take b.nDst = List.replicate 6 0x3F := by
  refine ⟨?_, ?_, by decide, ?_⟩
  · intro dst
    exact decoder_err (From_truncated (.lone (by decide))) dst false
  · obtain ⟨code, hc⟩ := chart_ga
    rw [← ga_toNat] at hc
    exact ⟨_, _, enc_code hc .nil, To_enc (enc_code hc .nil)⟩
  · intro dst dst' h h'
    simp only [encoder_eq]
    refine ⟨by trivial, by trivial, by trivial, by trivial, ?_⟩
    have h1 := To_length [0xEA]
    have h2 := To_length [0xB0, 0x80]
    simp only [List.length_cons, List.length_nil] at h1 h2
    rw [copy_fits (by omega), copy_fits (by omega), List.take_left, List.take_left]
    exact To_ga_cut

/-- What holds: sources cut between characters. The pieces' outputs together are the whole's, and the last
piece fails exactly when the whole does. Missing: cuts inside a character. -/
theorem C51_pieces_partial (a b dst dst' : Str) (eof : Bool) :
    ((From a).2 = none → 3 * a.length ≤ dst.length → 3 * b.length ≤ dst'.length →
      let x := decoderTransform dst a false
      let y := decoderTransform dst' b eof
      x.err = none ∧ x.nSrc = a.length ∧ y.err = (From (a ++ b)).2 ∧
      (y.err = none → y.nSrc = b.length ∧
        x.dst.take x.nDst ++ y.dst.take y.nDst = (From (a ++ b)).1)) ∧
    (IsUtf8 a ∨ Boundary b → 2 * a.length ≤ dst.length → 2 * b.length ≤ dst'.length →
      let x := encoderTransform dst a false
      let y := encoderTransform dst' b eof
      x.err = none ∧ x.nSrc = a.length ∧ y.err = none ∧ y.nSrc = b.length ∧
        x.dst.take x.nDst ++ y.dst.take y.nDst = (To (a ++ b)).1) := by
  refine ⟨?_, ?_⟩
  · intro ha h1 h2
    rcases dec_cases a with ⟨cs, hcs⟩ | ht
    · have l1 := (C50_room dst a).1 h1
      have l2 := (C50_room dst' b).1 h2
      simp only
      rw [decoder_ok (From_dec hcs)]
      rw [From_dec hcs] at l1
      refine ⟨rfl, rfl, ?_, ?_⟩
      · rw [(C49_destination_partial dst' b eof).1.2.2.2]
        rcases dec_cases b with ⟨ds, hds⟩ | ht
        · rw [From_dec hds, From_dec (dec_append hcs hds)]
        · rw [From_truncated ht, From_truncated (truncated_append hcs ht)]
      · intro he
        rcases dec_cases b with ⟨ds, hds⟩ | ht
        · rw [From_dec hds] at l2
          rw [decoder_ok (From_dec hds)]
          refine ⟨rfl, ?_⟩
          simp only at l1 l2 ⊢
          rw [copy_fits l1, copy_fits l2, List.take_left, List.take_left,
            From_dec (dec_append hcs hds), utf8_append]
        · rw [decoder_err (From_truncated ht)] at he
          simp at he
    · rw [From_truncated ht] at ha; simp at ha
  · intro hab h1 h2
    have l1 := (C50_room dst a).2 h1
    have l2 := (C50_room dst' b).2 h2
    simp only [encoder_eq]
    refine ⟨by trivial, by trivial, by trivial, by trivial, ?_⟩
    rw [copy_fits l1, copy_fits l2, List.take_left, List.take_left]
    rcases hab with h | h
    · rw [C33_concat a b h]
    · rw [C33_concat_boundary a b h]

example : (From [0x41]).2 = none ∧ IsUtf8 (utf8 ['가']) := by
  rw [From_ascii_A]; exact ⟨rfl, _, rfl⟩

end Props
