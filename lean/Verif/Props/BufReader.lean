import Verif.Env.BufReader
import Verif.Props.Scanner
import Verif.Props.Cut
/-! C102: a bufio.Reader on a Reader, read rune by rune. -/
namespace Props
open Go Cp949 Spec GoIo

variable {σ : Type}

/-- A beginning of the encoding of a character, short of the whole, is not full. -/
theorem fullRune_part (c : Char) (p q : Str) (h : p ++ q = String.utf8EncodeChar c) (hq : q ≠ []) :
    fullRune p = false := by
  have hv := char_valid c
  have hq' : 0 < q.length := List.length_pos_iff.2 hq
  have hl := congrArg List.length h
  rw [List.length_append] at hl
  by_cases h1 : c.toNat ≤ 0x7F
  · rw [encode_one h1] at hl
    simp only [List.length_cons, List.length_nil] at hl
    have : p = [] := List.length_eq_zero_iff.1 (by omega)
    subst this; rfl
  · by_cases h2 : c.toNat ≤ 0x7FF
    · rw [encode_two (by omega) h2] at h hl
      simp only [List.length_cons, List.length_nil] at hl
      match p, h, hl with
      | [], _, _ => rfl
      | [a], h, _ =>
        simp only [List.cons_append, List.nil_append, List.cons.injEq] at h
        obtain ⟨rfl, -⟩ := h
        simp only [fullRune, toNat_ofNat8]
        rw [if_neg (by omega), firstInfo_two (by omega) (by omega)]
        simp
      | _ :: _ :: _, _, hl => simp only [List.length_cons] at hl; omega
    · by_cases h3 : c.toNat ≤ 0xFFFF
      · rw [encode_three (by omega) h3] at h hl
        simp only [List.length_cons, List.length_nil] at hl
        match p, h, hl with
        | [], _, _ => rfl
        | [a], h, _ =>
          simp only [List.cons_append, List.nil_append, List.cons.injEq] at h
          obtain ⟨rfl, -⟩ := h
          simp only [fullRune, toNat_ofNat8]
          rw [if_neg (by omega), firstInfo_three (by omega) (by omega)]
          simp
        | [a, b], h, _ =>
          simp only [List.cons_append, List.nil_append, List.cons.injEq] at h
          obtain ⟨rfl, rfl, -⟩ := h
          simp only [fullRune, toNat_ofNat8]
          rw [if_neg (by omega), firstInfo_three (by omega) (by omega)]
          simp only [List.length_cons, List.length_nil]
          rw [if_neg (by omega), if_neg (by split <;> split <;> omega)]
        | _ :: _ :: _ :: _, _, hl => simp only [List.length_cons] at hl; omega
      · rw [encode_four (by omega)] at h hl
        simp only [List.length_cons, List.length_nil] at hl
        match p, h, hl with
        | [], _, _ => rfl
        | [a], h, _ =>
          simp only [List.cons_append, List.nil_append, List.cons.injEq] at h
          obtain ⟨rfl, -⟩ := h
          simp only [fullRune, toNat_ofNat8]
          rw [if_neg (by omega), firstInfo_four (by omega) (by omega)]
          simp
        | [a, b], h, _ =>
          simp only [List.cons_append, List.nil_append, List.cons.injEq] at h
          obtain ⟨rfl, rfl, -⟩ := h
          simp only [fullRune, toNat_ofNat8]
          rw [if_neg (by omega), firstInfo_four (by omega) (by omega)]
          simp only [List.length_cons, List.length_nil]
          rw [if_neg (by omega), if_neg (by split <;> split <;> omega)]
        | [a, b, d], h, _ =>
          simp only [List.cons_append, List.nil_append, List.cons.injEq] at h
          obtain ⟨rfl, rfl, rfl, -⟩ := h
          simp only [fullRune, toNat_ofNat8]
          rw [if_neg (by omega), firstInfo_four (by omega) (by omega)]
          simp only [List.length_cons, List.length_nil]
          rw [if_neg (by omega), if_neg (by split <;> split <;> omega)]
          simp only [decide_eq_false_iff_not]
          omega
        | _ :: _ :: _ :: _ :: _, _, hl => simp only [List.length_cons] at hl; omega

/-- Of the text, `W` is in the buffer and `X` still to come. -/
def InBuf (src : Source σ) (D T : Str) (e : Err) (b : BufReader (Reader σ)) (W X : Str) : Prop :=
  b.window = W ∧ b.start ≤ b.stop ∧ b.stop ≤ b.buf.length ∧ 4 ≤ b.buf.length ∧ Left src D T e b.rd X ∧
    (b.err = none ∨ (b.err = some e ∧ X = []))

theorem bufWindow_length {ρ : Type} {b : BufReader ρ} (h : b.stop ≤ b.buf.length) :
    b.window.length = b.stop - b.start := by
  simp only [BufReader.window, List.length_drop, List.length_take]
  omega

theorem inBuf_slide {src : Source σ} {D T : Str} {e : Err} {b : BufReader (Reader σ)} {W X : Str}
    (h : InBuf src D T e b W X) : InBuf src D T e b.slide W X ∧ b.slide.start = 0 ∧ b.slide.stop = W.length ∧
      b.slide.buf.length = b.buf.length ∧ b.slide.err = b.err := by
  obtain ⟨h1, h2, h3, h4, h5, h6⟩ := h
  have hw := bufWindow_length h3
  rw [h1] at hw
  unfold BufReader.slide
  split
  · refine ⟨⟨?_, ?_, ?_, ?_, h5, h6⟩, rfl, hw.symm, ?_, rfl⟩
    · show (List.take (b.stop - b.start) (copy b.buf b.window).1).drop 0 = W
      rw [h1, ← hw]
      simp [copy, Nat.min_eq_right (show W.length ≤ b.buf.length by omega)]
      exact List.take_of_length_le (by omega)
    · exact Nat.zero_le _
    · simp only [copy, h1, List.length_append, List.length_take, List.length_drop]
      omega
    · simp only [copy, h1, List.length_append, List.length_take, List.length_drop]
      omega
    · simp only [copy, h1, List.length_append, List.length_take, List.length_drop]
      omega
  · exact ⟨⟨h1, h2, h3, h4, h5, h6⟩, by omega, by omega, rfl, rfl⟩

theorem inBuf_fill {src : Source σ} {D T : Str} {e : Err} (hT : From D = (T, none)) {b : BufReader (Reader σ)} {W X : Str}
    (h : InBuf src D T e b W X) (w3 : b.err = none) (w4 : b.stop - b.start < b.buf.length) :
    ∃ b' W' X', BufFill (Returns src) 100 b.slide b' ∧ W ++ X = W' ++ X' ∧ InBuf src D T e b' W' X' ∧
      (W.length < W'.length ∨ b'.err ≠ none) ∧ b'.buf.length = b.buf.length ∧ W <+: W' := by
  have hlen := bufWindow_length h.2.2.1
  rw [h.1] at hlen
  obtain ⟨⟨h1, h2, h3, h4, h5, h6⟩, g1, g2, g3, g4⟩ := inBuf_slide h
  have hlt : b.slide.stop < b.slide.buf.length := by omega
  generalize b.slide = c at *
  obtain ⟨n, err, p, r', X', k1, k2, k3, k4, k5, k6⟩ := left_read hT h5 (buf := c.buf.drop c.stop) (by
    intro h0
    have := congrArg List.length h0
    rw [List.length_drop, List.length_nil] at this
    omega)
  rw [List.length_drop] at k2 k3
  have hpre : c.buf.take c.stop = W := by
    have := h1
    rw [BufReader.window, g1, List.drop_zero] at this
    exact this
  have hwin : ∀ er, (⟨r', c.buf.take c.stop ++ p, c.start, c.stop + n, er⟩ : BufReader (Reader σ)).window = W ++ p.take n := by
    intro er
    simp only [BufReader.window, hpre, g1, List.drop_zero]
    rw [g2]
    exact List.take_length_add_append ..
  have hl : (c.buf.take c.stop ++ p).length = c.buf.length := by
    rw [List.length_append, List.length_take, k2]
    omega
  rcases k6 with ⟨k6, rfl⟩ | ⟨rfl, rfl, rfl⟩
  · refine ⟨_, W ++ p.take n, X', .data k1 k6, by rw [k4, List.append_assoc], ⟨hwin _, ?_, ?_, ?_, k5, ?_⟩, .inl ?_, by rw [← g3]; exact hl,
      List.prefix_append ..⟩
    · simp only; omega
    · simp only [hl]; omega
    · simp only [hl]; omega
    · exact .inl (by simp only [g4]; exact w3)
    · rw [List.length_append, List.length_take, k2]; omega
  · refine ⟨_, W ++ p.take 0, [], .err k1, by rw [k4, List.append_assoc], ⟨hwin _, ?_, ?_, ?_, k5, ?_⟩, .inr ?_, by rw [← g3]; exact hl,
      List.prefix_append ..⟩
    · simp only; omega
    · simp only [hl]; omega
    · simp only [hl]; omega
    · exact .inr ⟨rfl, rfl⟩
    · simp

theorem encode_length_le (c : Char) : 1 ≤ (String.utf8EncodeChar c).length ∧ (String.utf8EncodeChar c).length ≤ 4 := by
  unfold String.utf8EncodeChar
  simp only
  split
  · simp
  · split
    · simp
    · split <;> simp

/-- When the loop of `ReadRune` stops, the buffer holds the next character, if there is one. -/
theorem inBuf_ready {src : Source σ} {D T : Str} {e : Err} {b : BufReader (Reader σ)} {W X : Str} {c : Char} {t : Str}
    (h : InBuf src D T e b W X) (hw : ¬ b.wants) (hc : W ++ X = String.utf8EncodeChar c ++ t) :
    ∃ W', W = String.utf8EncodeChar c ++ W' := by
  obtain ⟨h1, h2, h3, h4, h5, h6⟩ := h
  have hlen := bufWindow_length h3
  rw [h1] at hlen
  by_cases hl : (String.utf8EncodeChar c).length ≤ W.length
  · exact (List.append_eq_append_iff.1 hc).elim
      (fun ⟨a, h, _⟩ => by
        have ha := congrArg List.length h
        rw [List.length_append] at ha
        have : a = [] := List.length_eq_zero_iff.1 (by omega)
        exact ⟨[], by rw [h, this]; simp⟩)
      (fun ⟨a, h, _⟩ => ⟨a, h⟩)
  · exfalso
    obtain ⟨a, ha, hX⟩ : ∃ a, String.utf8EncodeChar c = W ++ a ∧ X = a ++ t :=
      (List.append_eq_append_iff.1 hc).elim (fun ⟨a, h, h'⟩ => ⟨a, h, h'⟩)
        (fun ⟨a, h, h'⟩ => by
          have := congrArg List.length h
          rw [List.length_append] at this
          omega)
    have hane : a ≠ [] := by
      rintro rfl
      rw [List.append_nil] at ha
      rw [ha] at hl
      exact hl (Nat.le_refl _)
    have hle := (encode_length_le c).2
    refine hw ⟨by omega, ?_, ?_, by omega⟩
    · rw [h1]; exact fullRune_part c W a ha.symm hane
    · rcases h6 with h6 | ⟨_, rfl⟩
      · exact h6
      · exact absurd (List.append_eq_nil_iff.1 hX.symm).1 hane

theorem readRune_char {src : Source σ} {D T : Str} {e : Err} (hT : From D = (T, none)) {c : Char} {t : Str} (k : Nat) :
    ∀ {b : BufReader (Reader σ)} {W X : Str}, InBuf src D T e b W X → W ++ X = String.utf8EncodeChar c ++ t →
      (b.err = none → 4 - W.length + 1 ≤ k) →
    ∃ b' W' X', ReadRune (Returns src) b (runeOf c) (String.utf8EncodeChar c).length none b' ∧ InBuf src D T e b' W' X' ∧
      W' ++ X' = t := by
  have fin : ∀ {b : BufReader (Reader σ)} {W X : Str}, InBuf src D T e b W X → W ++ X = String.utf8EncodeChar c ++ t →
      ¬ b.wants →
      ∃ b' W' X', ReadRune (Returns src) b (runeOf c) (String.utf8EncodeChar c).length none b' ∧ InBuf src D T e b' W' X' ∧
      W' ++ X' = t := by
    intro b W X h hc hw
    obtain ⟨W', rfl⟩ := inBuf_ready h hw hc
    obtain ⟨h1, h2, h3, h4, h5, h6⟩ := h
    have hlen := bufWindow_length h3
    rw [h1, List.length_append] at hlen
    have hpos := (encode_length_le c).1
    have hd : DecodeRune b.window = (runeOf c, (String.utf8EncodeChar c).length) := by
      rw [DecodeRune, h1, decodeCode_char]; rfl
    have := ReadRune.rune (read := Returns src) hw (by omega)
    rw [hd] at this
    refine ⟨_, W', X, this, ⟨?_, ?_, h3, h4, h5, h6⟩, ?_⟩
    · show (b.buf.take b.stop).drop (b.start + _) = W'
      rw [← List.drop_drop]
      have h1' : (b.buf.take b.stop).drop b.start = _ := h1
      rw [h1', List.drop_left]
    · simp only; omega
    · rw [List.append_assoc] at hc
      exact List.append_cancel_left hc
  induction k with
  | zero =>
    intro b W X h hc hk
    refine fin h hc fun hw => ?_
    have := hk hw.2.2.1
    omega
  | succ k ih =>
    intro b W X h hc hk
    by_cases hw : b.wants
    · obtain ⟨b1, W1, X1, h1, h2, h3, h4, -⟩ := inBuf_fill hT h hw.2.2.1 hw.2.2.2
      have hl := hk hw.2.2.1
      have hlen := bufWindow_length h.2.2.1
      rw [h.1] at hlen
      have hs := hw.1
      obtain ⟨b', W', X', g1, g2, g3⟩ := ih h3 (h2 ▸ hc) (fun he => by
        rcases h4 with h4 | h4
        · omega
        · exact absurd he h4)
      exact ⟨b', W', X', .fill hw h1 g1, g2, g3⟩
    · exact fin h hc hw

theorem readRune_end {src : Source σ} {D T : Str} {e : Err} (hT : From D = (T, none)) {b : BufReader (Reader σ)}
    (h : InBuf src D T e b [] []) : ∃ b', ReadRune (Returns src) b 0 0 (some e) b' := by
  have fin : ∀ {b : BufReader (Reader σ)}, InBuf src D T e b [] [] → b.err ≠ none →
      ∃ b', ReadRune (Returns src) b 0 0 (some e) b' := by
    intro b h he
    obtain ⟨h1, h2, h3, h4, h5, h6⟩ := h
    have hlen := bufWindow_length h3
    rw [h1, List.length_nil] at hlen
    have h6 := h6.resolve_left he
    have := ReadRune.nothing (read := Returns src) (b := b) (fun hw => he hw.2.2.1) (by omega)
    rw [h6.1] at this
    exact ⟨_, this⟩
  by_cases he : b.err = none
  · have hlen := bufWindow_length h.2.2.1
    rw [h.1, List.length_nil] at hlen
    have h2 := h.2.1
    have h4 := h.2.2.2.1
    have hw : b.wants := ⟨by omega, by rw [h.1]; rfl, he, by omega⟩
    obtain ⟨b1, W1, X1, g1, g2, g3, g4, -⟩ := inBuf_fill hT h hw.2.2.1 hw.2.2.2
    obtain ⟨rfl, rfl⟩ := List.append_eq_nil_iff.1 g2.symm
    obtain ⟨b', hb'⟩ := fin g3 (g4.resolve_left (by simp))
    exact ⟨b', .fill hw g1 hb'⟩
  · exact fin h he

theorem readRunes_all {src : Source σ} {D T : Str} {e : Err} (hT : From D = (T, none)) (cs : List Char) :
    ∀ {b : BufReader (Reader σ)} {W X : Str}, InBuf src D T e b W X → W ++ X = utf8 cs →
      ReadRunes (Returns src) b (cs.map fun c => (runeOf c, (utf8 [c]).length)) e := by
  induction cs with
  | nil =>
    intro b W X h hc
    obtain ⟨rfl, rfl⟩ := List.append_eq_nil_iff.1 hc
    obtain ⟨b', hb⟩ := readRune_end hT h
    exact .stop hb
  | cons c cs ih =>
    intro b W X h hc
    rw [utf8_cons] at hc
    obtain ⟨b', W', X', h1, h2, h3⟩ := readRune_char hT _ h hc (fun _ => Nat.le_refl _)
    rw [List.map_cons, utf8_one]
    exact .next h1 (ih h2 h3)

/-! ## One outcome only -/

theorem bufFill_det {src : Source σ} {i : Nat} {b b1 : BufReader (Reader σ)} (h : BufFill (Returns src) i b b1) :
    ∀ {b2}, BufFill (Returns src) i b b2 → b1 = b2 := by
  induction h with
  | noProgress => intro b2 h'; cases h'; rfl
  | err h =>
    intro b2 h'
    cases h' with
    | err h' => obtain ⟨rfl, he, rfl, rfl⟩ := Returns_det h h'; cases he; rfl
    | data h' => obtain ⟨_, he, _, _⟩ := Returns_det h h'; cases he
    | again h' => obtain ⟨_, he, _, _⟩ := Returns_det h h'; cases he
  | data h b =>
    intro b2 h'
    cases h' with
    | err h' => obtain ⟨_, he, _, _⟩ := Returns_det h h'; cases he
    | data h' => obtain ⟨rfl, _, rfl, rfl⟩ := Returns_det h h'; rfl
    | again h' => obtain ⟨rfl, _, _, _⟩ := Returns_det h h'; omega
  | again h _ ih =>
    intro b2 h'
    cases h' with
    | err h' => obtain ⟨_, he, _, _⟩ := Returns_det h h'; cases he
    | data h' b' => obtain ⟨rfl, _, _, _⟩ := Returns_det h h'; omega
    | again h' g => obtain ⟨_, _, rfl, rfl⟩ := Returns_det h h'; exact ih g

theorem readRune_det {src : Source σ} {b b1 : BufReader (Reader σ)} {r : Rune} {n : Nat} {err : Option Err}
    (h : ReadRune (Returns src) b r n err b1) : ∀ {r' n' err' b2}, ReadRune (Returns src) b r' n' err' b2 →
      r = r' ∧ n = n' ∧ err = err' ∧ b1 = b2 := by
  induction h with
  | fill hw f _ ih =>
    intro r' n' err' b2 h'
    cases h' with
    | fill _ f' g => cases bufFill_det f f'; exact ih g
    | nothing hw' => exact absurd hw hw'
    | rune hw' => exact absurd hw hw'
  | nothing hw hs =>
    intro r' n' err' b2 h'
    cases h' with
    | fill hw' => exact absurd hw' hw
    | nothing => exact ⟨rfl, rfl, rfl, rfl⟩
    | rune _ hs' => exact absurd hs hs'
  | rune hw hs =>
    intro r' n' err' b2 h'
    cases h' with
    | fill hw' => exact absurd hw' hw
    | nothing _ hs' => exact absurd hs' hs
    | rune => exact ⟨rfl, rfl, rfl, rfl⟩

theorem readRunes_det {src : Source σ} {b : BufReader (Reader σ)} {rs : List (Rune × Nat)} {e : Err}
    (h : ReadRunes (Returns src) b rs e) : ∀ {rs' e'}, ReadRunes (Returns src) b rs' e' → rs = rs' ∧ e = e' := by
  induction h with
  | stop h =>
    intro rs' e' h'
    cases h' with
    | stop h' => obtain ⟨_, _, he, _⟩ := readRune_det h h'; cases he; exact ⟨rfl, rfl⟩
    | next h' => obtain ⟨_, _, he, _⟩ := readRune_det h h'; cases he
  | next h _ ih =>
    intro rs' e' h'
    cases h' with
    | stop h' => obtain ⟨_, _, he, _⟩ := readRune_det h h'; cases he
    | next h' g =>
      obtain ⟨rfl, rfl, _, rfl⟩ := readRune_det h h'
      obtain ⟨rfl, rfl⟩ := ih g
      exact ⟨rfl, rfl⟩

/-! ## C102 -/

/-- C102: for every source that delivers `D` in whatever pieces and then reports `e`: if `D` is CP949 for the text `cs`, then
`ReadRune`, called again and again on `bufio.NewReader(cp949.NewReader(src))`, with a buffer of any size from 4 bytes on (bufio
has at least 16), gives the characters of `cs` one after the other, each with the length of its own encoding, and then `e`;
and in one way only. -/
theorem C102_runes (src : Source σ) (e : Err) (s : σ) (D : Str) (h : Delivers src e s D) (cs : List Char) (hD : Dec D cs)
    (size : Nat) (hs : 4 ≤ size) :
    (∃ rs e', ReadRunes (Returns src) (NewBufReader (NewReader s) size) rs e') ∧
    ∀ rs e', ReadRunes (Returns src) (NewBufReader (NewReader s) size) rs e' →
      rs = cs.map (fun c => (runeOf c, (utf8 [c]).length)) ∧ e' = e := by
  have hT := From_dec hD
  have h0 : InBuf src D (utf8 cs) e (NewBufReader (NewReader s) size) [] (utf8 cs) := by
    refine ⟨?_, Nat.le_refl _, Nat.zero_le _, ?_, left_new h, .inl rfl⟩
    · simp [NewBufReader, BufReader.window]
    · simpa [NewBufReader] using hs
  have g := readRunes_all hT cs h0 (List.nil_append _)
  exact ⟨⟨_, _, g⟩, fun rs e' g' => readRunes_det g' g⟩

/-- C102 applies: "A가" in two pieces, cut inside 가. -/
example : Delivers chunked .eof [[0x41, 0xB0], [0xA1]] [0x41, 0xB0, 0xA1] ∧ ∃ cs, Dec [0x41, 0xB0, 0xA1] cs := by
  refine ⟨chunked_delivers [[0x41, 0xB0], [0xA1]] (by decide), ?_⟩
  rcases dec_cases [0x41, 0xB0, 0xA1] with h | h
  · exact h
  · cases h with
    | ascii _ h => cases h with
      | ascii h _ => exact absurd h (by decide)
      | pair _ h => cases h
    | pair h _ => exact absurd h (by decide)

end Props
