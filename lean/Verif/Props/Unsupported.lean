import Verif.Props.Encoding
import Verif.Env.Unsupported
import Verif.Spec.Unsupported
/-!
Property theorems C91–C93: what golang.org/x/text documents of every `encoding.Encoder` and `encoding.Decoder` about text
that the encoding lacks and about bytes that are not of the encoding.
-/
namespace Props
open Go Spec Cp949

attribute [local irreducible] fromTable toTable rawFrom rawTo

/-! ### C91 -/

/-- The encoder reports no error and says that it has consumed everything, whatever it is given. -/
theorem encoder_ok (dst src : Str) (atEOF : Bool) :
    (encoderTransform dst src atEOF).err = none ∧ (encoderTransform dst src atEOF).nSrc = src.length := by
  unfold encoderTransform
  rw [To_eq]
  exact ⟨rfl, rfl⟩

/-- FALSE as stated, for every text with a character that CP949 lacks and every destination: no error is reported, and
the whole text is said to be consumed. -/
theorem C91_reports_fails (cs : List Char) (_h : ∃ c ∈ cs, ¬ InRepertoire c) (dst : Str) (atEOF : Bool) :
    (encoderTransform dst (utf8 cs) atEOF).err = none ∧
    (encoderTransform dst (utf8 cs) atEOF).nSrc = (utf8 cs).length :=
  encoder_ok dst (utf8 cs) atEOF

/-- What holds: a text all of whose characters CP949 has is consumed, without an error, and the output is its encoding
if the destination has two bytes for each of its bytes. Missing: the other texts. -/
theorem C91_reports_partial (cs : List Char) (h : ∀ c ∈ cs, InRepertoire c) (dst : Str)
    (hd : 2 * (utf8 cs).length ≤ dst.length) (atEOF : Bool) :
    (encoderTransform dst (utf8 cs) atEOF).err = none ∧
    (encoderTransform dst (utf8 cs) atEOF).nSrc = (utf8 cs).length ∧
    Enc cs ((encoderTransform dst (utf8 cs) atEOF).dst.take (encoderTransform dst (utf8 cs) atEOF).nDst) := by
  obtain ⟨b, hb, he, _⟩ := C28_roundtrip_unicode cs h
  have h1 := (C50_encoder dst (utf8 cs) atEOF ((C50_room dst (utf8 cs)).2 hd)).2
  rw [hb] at h1
  rw [h1]
  refine ⟨rfl, rfl, ?_⟩
  simpa using he

theorem lacks_80 : ¬ InRepertoire (Char.ofNat 0x80) := by
  rintro (h | ⟨_, h⟩)
  · exact absurd h (by decide)
  · have := char_range h
    revert this; decide

example : ∃ c ∈ ['가', Char.ofNat 0x80], ¬ InRepertoire c := ⟨_, by simp, lacks_80⟩
example : (∀ c ∈ ['가', 'a'], InRepertoire c) ∧ 2 * (utf8 ['가', 'a']).length ≤ (List.replicate 8 (0 : Byte)).length :=
  ⟨fun c h => C28_repertoire c (by simp at h; rcases h with rfl | rfl <;> decide), by decide⟩

/-! ### C92 -/

/-- The wrappers change nothing, whichever errors they look for and whatever they would write. -/
theorem C92_same (lacks : Err → Bool) (handler : Str → Rune → Option (Str × Nat)) (fuel : Nat) (dst src : Str)
    (atEOF : Bool) :
    XText.errorHandler encoderTransform lacks handler (fuel + 1) dst src atEOF = .ret (encoderTransform dst src atEOF) := by
  unfold XText.errorHandler XText.handleLoop
  rw [(encoder_ok dst src atEOF).1]

/-- A replacement that cannot be taken for what `To` writes: it starts with an ASCII byte that is not `?`. -/
def Distinct (f : Char → Str) : Prop := ∀ c, ∃ b rest, f c = b :: rest ∧ b.toNat < 0x80 ∧ b ≠ 0x3F

theorem distinct_html : Distinct htmlReference := fun _ => ⟨0x26, _, rfl, by decide, by decide⟩
theorem distinct_sub : Distinct subByte := fun _ => ⟨0x1A, _, rfl, by decide, by decide⟩

theorem handled_ne {f : Char → Str} (hf : Distinct f) {cs : List Char} {b : Str} (h : Handled f cs b)
    (hc : ∃ c ∈ cs, ¬ InRepertoire c) : (cs.map runeOf).flatMap toUnit ≠ b := by
  induction h with
  | nil => simp at hc
  | @ascii x c cs bs h1 h2 _ ih =>
    have hr : InRepertoire c := .inl (by omega)
    have hc' : ∃ d ∈ cs, ¬ InRepertoire d := by
      obtain ⟨d, hd, hn⟩ := hc
      rcases List.mem_cons.1 hd with rfl | hd
      · exact absurd hr hn
      · exact ⟨d, hd, hn⟩
    intro he
    rw [List.map_cons, List.flatMap_cons, toUnit_ascii (by omega)] at he
    exact ih hc' (by simpa using (List.cons.inj he).2)
  | @pair hi lo c cs bs h1 _ ih =>
    have hr : InRepertoire c := .inr ⟨_, h1⟩
    have hc' : ∃ d ∈ cs, ¬ InRepertoire d := by
      obtain ⟨d, hd, hn⟩ := hc
      rcases List.mem_cons.1 hd with rfl | hd
      · exact absurd hr hn
      · exact ⟨d, hd, hn⟩
    intro he
    rw [List.map_cons, List.flatMap_cons, toUnit_pair h1] at he
    exact ih hc' (by simpa using he)
  | @lacking c cs bs hn _ _ =>
    obtain ⟨x, rest, hx, hlt, hne⟩ := hf c
    intro he
    rw [List.map_cons, List.flatMap_cons, hx] at he
    rcases toUnit_cases c with ⟨h, _⟩ | ⟨_, code, hch, hu⟩ | ⟨_, _, _, hu⟩ | ⟨_, _, hu⟩
    · exact hn (.inl h)
    · rw [hu] at he
      have h0 := (List.cons.inj he).1
      have hr := code_range hch
      rw [← h0, UInt8.toNat_ofNat'] at hlt
      omega
    · rw [hu] at he
      exact hne (List.cons.inj he).1.symm
    · rw [hu] at he
      exact hne (List.cons.inj he).1.symm

/-- FALSE as stated, for every text with a character that CP949 lacks, and both wrappers (`f` the HTML reference or the
substitute byte): with a destination that has room there is no error, and the output is not the one with the
replacements. -/
theorem C92_handlers_fails (f : Char → Str) (hf : f = htmlReference ∨ f = subByte) (cs : List Char)
    (h : ∃ c ∈ cs, ¬ InRepertoire c) (lacks : Err → Bool) (handler : Str → Rune → Option (Str × Nat)) (fuel : Nat)
    (dst : Str) (hd : 2 * (utf8 cs).length ≤ dst.length) (atEOF : Bool) :
    ∃ t, XText.errorHandler encoderTransform lacks handler (fuel + 1) dst (utf8 cs) atEOF = .ret t ∧ t.err = none ∧
      ¬ Handled f cs (t.dst.take t.nDst) := by
  refine ⟨_, C92_same .., (encoder_ok ..).1, fun hh => ?_⟩
  have hdis : Distinct f := by
    rcases hf with rfl | rfl
    · exact distinct_html
    · exact distinct_sub
  have h1 := (C50_encoder dst (utf8 cs) atEOF ((C50_room dst (utf8 cs)).2 hd)).2
  rw [To_utf8] at h1
  rw [h1] at hh
  refine handled_ne hdis hh h ?_
  simp

theorem handled_enc {f : Char → Str} {cs : List Char} {b : Str} (h : Enc cs b) : Handled f cs b := by
  induction h with
  | nil => exact .nil
  | ascii h1 h2 _ ih => exact .ascii h1 h2 ih
  | pair h1 _ ih => exact .pair h1 ih

/-- What holds: for a text all of whose characters CP949 has the output is as it should be. Missing: the others. -/
theorem C92_handlers_partial (f : Char → Str) (cs : List Char) (h : ∀ c ∈ cs, InRepertoire c) (lacks : Err → Bool)
    (handler : Str → Rune → Option (Str × Nat)) (fuel : Nat) (dst : Str) (hd : 2 * (utf8 cs).length ≤ dst.length)
    (atEOF : Bool) :
    ∃ t, XText.errorHandler encoderTransform lacks handler (fuel + 1) dst (utf8 cs) atEOF = .ret t ∧ t.err = none ∧
      t.nSrc = (utf8 cs).length ∧ Handled f cs (t.dst.take t.nDst) :=
  have h1 := C91_reports_partial cs h dst hd atEOF
  ⟨_, C92_same .., h1.1, h1.2.1, handled_enc h1.2.2⟩

example : ∃ c ∈ ['가', Char.ofNat 0x80], ¬ InRepertoire c := ⟨_, by simp, lacks_80⟩
example : Handled htmlReference ['A', Char.ofNat 0x80] ([0x41] ++ [0x26, 0x23, 0x31, 0x32, 0x38, 0x3B]) :=
  .ascii (by decide) (by decide) (.lacking (bs := []) lacks_80 .nil)

/-- An encoder of ASCII that does report what it lacks, for comparison. -/
def strict (dst src : Str) (_ : Bool) : Transformed :=
  let p := src.takeWhile (· < 0x80)
  ⟨p ++ dst.drop p.length, p.length, p.length, if p.length < src.length then some .unexpectedStream else none⟩

/-- Around that encoder the wrapper does replace: A, U+0080, B gives A, the byte 1A, B. -/
example : XText.errorHandler strict (fun _ => true)
      (fun d _ => if d.length = 0 then none else some (0x1A :: d.drop 1, 1)) 3 [0, 0, 0, 0] [0x41, 0xC2, 0x80, 0x42] true =
    .ret ⟨[0x41, 0x1A, 0x42, 0], 3, 4, none⟩ := by rfl

/-! ### C93 -/

/-- FALSE as stated, for every source that ends inside a character, whether or not more input is announced: an error,
nothing consumed and nothing written, though whole characters may precede the cut. -/
theorem C93_replaces_fails (src : Str) (h : Truncated src) (dst : Str) (atEOF : Bool) :
    decoderTransform dst src atEOF = ⟨dst, 0, 0, some .unexpectedStream⟩ :=
  (C50_decoder dst src atEOF).2.2 _ (by rw [From_truncated h])

/-- What holds: an error is reported exactly of those sources; of every other source, with three bytes of room for each
of its bytes, everything is consumed and the output is its text, one U+FFFD for each pair that is not in the chart.
Missing: sources that end inside a character; and U+FFFD stands for a pair, not for a byte. -/
theorem C93_replaces_partial (src dst : Str) (atEOF : Bool) :
    ((decoderTransform dst src atEOF).err ≠ none ↔ Truncated src) ∧
    (¬ Truncated src → 3 * src.length ≤ dst.length →
      (decoderTransform dst src atEOF).nSrc = src.length ∧
      ∃ cs, Dec src cs ∧
        (decoderTransform dst src atEOF).dst.take (decoderTransform dst src atEOF).nDst = utf8 cs) := by
  refine ⟨by rw [(C50_decoder dst src atEOF).1]; exact (C30_error_iff src).1, fun hn hd => ?_⟩
  rcases dec_cases src with ⟨cs, hc⟩ | ht
  · have hl := (C50_room dst src).1 hd
    rw [From_dec hc] at hl
    rw [(C50_decoder dst src atEOF).2.1 _ (From_dec hc) hl]
    exact ⟨rfl, cs, hc, by simp⟩
  · exact absurd ht hn

example : Truncated [0x41, 0xB0] := .ascii (by decide) (.lone (by decide))
example : ¬ Truncated [0xFF, 0xFF, 0x41] ∧ 3 * [(0xFF : Byte), 0xFF, 0x41].length ≤ (List.replicate 9 (0 : Byte)).length := by
  refine ⟨fun h => ?_, by decide⟩
  cases h with
  | ascii h _ => exact absurd h (by decide)
  | pair _ h => cases h with
    | lone h => exact absurd h (by decide)
    | ascii _ h => cases h

end Props
