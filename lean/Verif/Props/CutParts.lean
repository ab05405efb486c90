import Verif.Props.CutLines
import Verif.Props.ReadString
/-! C120 for programs that read their lines with bufio.Reader.ReadString: a text that is cut off. -/
namespace Props
open Go Cp949 Spec GoIo

attribute [local irreducible] fromTable toTable rawFrom rawTo

variable {σ : Type}

/-- Of the text delivered so far, `C` has been handed out and the rest is in the buffer. -/
structure GivesB (src : Source σ) (D : Str) (e : Err) (b : BufReader (Reader σ)) (C : Str) : Prop where
  le : b.start ≤ b.stop
  stop : b.stop ≤ b.buf.length
  inv : ∃ R, InvD src D e (C ++ b.window) R b.rd
  err : b.err = none ∨ (b.err = some e ∧ b.rd.err = some e ∧ b.rd.cdata = [])

theorem slide_room {ρ : Type} {b : BufReader ρ} (le : b.start ≤ b.stop) (st : b.stop ≤ b.buf.length) :
    b.slide.window = b.window ∧ b.slide.start ≤ b.slide.stop ∧ b.slide.stop ≤ b.slide.buf.length ∧
      b.slide.stop = b.stop - b.start ∧ b.slide.buf.length = b.buf.length ∧ b.slide.err = b.err ∧ b.slide.rd = b.rd := by
  have hw := bufWindow_length st
  unfold BufReader.slide
  split
  · obtain ⟨c1, c2⟩ := take_copy (a := b.buf) (b := b.window) (by omega)
    refine ⟨?_, Nat.zero_le _, by simp only [c2]; omega, rfl, c2, rfl, rfl⟩
    simp only [BufReader.window, List.drop_zero, ← hw]
    exact c1
  · exact ⟨rfl, le, st, by omega, rfl, rfl, rfl⟩

theorem givesB_fill {src : Source σ} {D : Str} {e : Err} {b b2 : BufReader (Reader σ)} {C : Str} {k : Nat}
    (h : GivesB src D e b C) (he : b.err = none) (hr : b.stop < b.buf.length) (hf : BufFill (Returns src) (k + 1) b b2) :
    GivesB src D e b2 C ∧ b.window <+: b2.window := by
  have hne : b.buf.drop b.stop ≠ [] := by
    intro h0
    have := congrArg List.length h0
    rw [List.length_drop, List.length_nil] at this
    omega
  obtain ⟨R, hi⟩ := h.inv
  obtain ⟨n, err, p, r', R', h1, h2, h3⟩ := invD_read hne R.length (Nat.le_refl _) hi
  have hR : Returns src b.rd (b.buf.drop b.stop) n err p r' := ⟨_, h1⟩
  obtain ⟨c1, c2, -⟩ := C43_contract src _ _ n err p r' hR
  have hd : ∀ {n' err' p' r''}, Returns src b.rd (b.buf.drop b.stop) n' err' p' r'' → n' = n ∧ err' = err ∧ p' = p ∧ r'' = r' := by
    intro n' err' p' r'' h'
    exact Returns_det h' hR
  rw [List.length_drop] at c1 c2
  have hlen : (b.buf.take b.stop).length = b.stop := by rw [List.length_take]; omega
  have le := h.le
  have hwin : ((b.buf.take b.stop ++ p).take (b.stop + n)).drop b.start = b.window ++ p.take n := by
    rw [BufReader.window, show b.stop + n = (b.buf.take b.stop).length + n by rw [hlen],
      List.take_length_add_append, List.drop_append_of_le_length (by rw [hlen]; exact h.le)]
  have hb : (b.buf.take b.stop ++ p).length = b.buf.length := by
    rw [List.length_append, hlen, c2]; omega
  rw [List.append_assoc, ← hwin] at h2
  cases hf with
  | err g1 =>
    obtain ⟨rfl, rfl, rfl, rfl⟩ := hd g1
    rcases h3 with ⟨_, _, h4⟩ | ⟨rfl, h4, h5, h6⟩
    · cases h4
    · cases h4
      exact ⟨⟨by simp only; omega, by simp only [hb]; omega, ⟨R', h2⟩, .inr ⟨rfl, h5, h6⟩⟩, _, hwin.symm⟩
  | data g1 g2 =>
    obtain ⟨rfl, rfl, rfl, rfl⟩ := hd g1
    exact ⟨⟨by simp only; omega, by simp only [hb]; omega, ⟨R', h2⟩, .inl he⟩, _, hwin.symm⟩
  | again g1 _ =>
    obtain ⟨rfl, rfl, rfl, rfl⟩ := hd g1
    rcases h3 with ⟨h4, _⟩ | ⟨_, h4, _⟩
    · omega
    · cases h4

/-- What a call of `ReadSlice` does. -/
theorem givesB_readSlice {src : Source σ} {D : Str} {e : Err} {d : Byte} {b b' : BufReader (Reader σ)} {s : Nat} {l : Str}
    {err : Option Err} (hr : ReadSlice (Returns src) d b s l err b') :
    ∀ {C : Str}, GivesB src D e b C → s ≤ b.window.length → d ∉ b.window.take s →
    (∃ x, l = x ++ [d] ∧ err = none ∧ d ∉ x ∧ GivesB src D e b' (C ++ l)) ∨
    (d ∉ l ∧ err = some errBufferFull ∧ GivesB src D e b' (C ++ l)) ∨
    (d ∉ l ∧ err = some e ∧ ∃ p q, D = p ++ q ∧ From p = (C ++ l, none) ∧ (q = [] ∨ Truncated q)) := by
  induction hr with
  | @found b s x y h hx =>
    intro C g hs hd
    left
    have hl := bufWindow_length g.stop
    have le := g.le
    have st := g.stop
    have hW : b.window = (b.window.take s ++ x) ++ d :: y := by
      rw [List.append_assoc, ← h, List.take_append_drop]
    have hz : (b.window.take s ++ x).length = x.length + s := by
      rw [List.length_append, List.length_take]; omega
    have hwl := congrArg List.length hW
    rw [List.length_append, hz, List.length_cons] at hwl
    have e1 : b.window.take (x.length + s + 1) = b.window.take s ++ x ++ [d] := by
      rw [← hz]
      generalize b.window.take s ++ x = z at hW ⊢
      rw [hW, List.take_length_add_append]
      rfl
    have e2 : ({ b with start := b.start + (x.length + s + 1) } : BufReader (Reader σ)).window = y := by
      show (b.buf.take b.stop).drop (b.start + _) = y
      rw [← List.drop_drop]
      show b.window.drop _ = y
      rw [← hz]
      generalize b.window.take s ++ x = z at hW ⊢
      rw [hW, List.drop_length_add_append]
      rfl
    refine ⟨b.window.take s ++ x, e1, rfl, ?_, by simp only; omega, st, ?_, g.err⟩
    · rw [List.mem_append]; exact fun h => h.elim hd hx
    · obtain ⟨R, hi⟩ := g.inv
      refine ⟨R, ?_⟩
      rw [e1, e2]
      rw [hW] at hi
      simpa using hi
  | @err b s x h hx =>
    intro C g hs hd
    right; right
    refine ⟨?_, ?_⟩
    · rw [← List.take_append_drop s b.window, List.mem_append]
      exact fun h' => h'.elim hd h
    · rcases g.err with h0 | ⟨h1, h2, h3⟩
      · rw [hx] at h0; cases h0
      · refine ⟨by rw [← h1, hx], ?_⟩
        obtain ⟨R, hi⟩ := g.inv
        obtain ⟨p, q, cs, k1, k2, k3, k4⟩ := invD_end hi h2 h3
        exact ⟨p, q, k1, by rw [From_dec k2, k3], k4⟩
  | @full b s h hx hf =>
    intro C g hs hd
    right; left
    have le := g.le
    have st := g.stop
    have hb : b.window = b.buf := by
      rw [BufReader.window, show b.start = 0 by omega, List.drop_zero, List.take_of_length_le (by omega)]
    refine ⟨?_, rfl, Nat.le_refl _, st, ?_, g.err⟩
    · rw [← hb, ← List.take_append_drop s b.window, List.mem_append]
      exact fun h' => h'.elim hd h
    · obtain ⟨R, hi⟩ := g.inv
      refine ⟨R, ?_⟩
      rw [hb] at hi
      simpa [BufReader.window] using hi
  | @fill b s b1 l err b2 h he hf hfill _ ih =>
    intro C g hs hd
    have hl := bufWindow_length g.stop
    obtain ⟨r1, r2, r3, r4, r5, r6, r7⟩ := slide_room g.le g.stop
    have g0 : GivesB src D e b.slide C := ⟨r2, r3, by rw [r1, r7]; exact g.inv, .inl (r6.trans he)⟩
    obtain ⟨g1, hpre⟩ := givesB_fill g0 (r6.trans he) (by omega) hfill
    rw [r1] at hpre
    have hW : d ∉ b.window := by
      rw [← List.take_append_drop s b.window, List.mem_append]
      exact fun h' => h'.elim hd h
    obtain ⟨z, hz⟩ := hpre
    refine ih g1 (by rw [← hz, List.length_append]; omega) ?_
    rw [← hz, ← hl, List.take_left]
    exact hW

/-- What a call of `ReadString` does. -/
theorem givesB_readString {src : Source σ} {D : Str} {e : Err} (hne : e ≠ errBufferFull) {d : Byte}
    {b b' : BufReader (Reader σ)} {acc l : Str} {err : Option Err} (hr : ReadString (Returns src) d b acc l err b') :
    ∀ {C : Str}, GivesB src D e b (C ++ acc) → d ∉ acc →
    (∃ x, l = x ++ [d] ∧ err = none ∧ d ∉ x ∧ GivesB src D e b' (C ++ l)) ∨
    (d ∉ l ∧ err = some e ∧ ∃ p q, D = p ++ q ∧ From p = (C ++ l, none) ∧ (q = [] ∨ Truncated q)) := by
  induction hr with
  | found h =>
    intro C g ha
    rcases givesB_readSlice h g (Nat.zero_le _) (by simp) with ⟨x, h1, _, h3, h4⟩ | ⟨_, h1, _⟩ | ⟨_, h1, _⟩
    · refine .inl ⟨_ ++ x, by rw [h1, List.append_assoc], rfl, ?_, by rw [← List.append_assoc]; exact h4⟩
      rw [List.mem_append]
      exact fun h => h.elim ha h3
    · cases h1
    · cases h1
  | err h he =>
    intro C g ha
    rcases givesB_readSlice h g (Nat.zero_le _) (by simp) with ⟨x, _, h1, _⟩ | ⟨_, h1, _⟩ | ⟨h1, h2, h3⟩
    · cases h1
    · exact absurd (Option.some.inj h1) he
    · refine .inr ⟨?_, h2, by rw [← List.append_assoc]; exact h3⟩
      rw [List.mem_append]
      exact fun h => h.elim ha h1
  | full h _ ih =>
    intro C g ha
    rcases givesB_readSlice h g (Nat.zero_le _) (by simp) with ⟨x, _, h1, _⟩ | ⟨h1, _, h2⟩ | ⟨_, h1, _⟩
    · cases h1
    · refine ih (by rw [← List.append_assoc]; exact h2) ?_
      rw [List.mem_append]
      exact fun h => h.elim ha h1
    · exact absurd (Option.some.inj h1).symm hne

theorem givesB_readStrings {src : Source σ} {D : Str} {e : Err} (hne : e ≠ errBufferFull) {d : Byte}
    {b : BufReader (Reader σ)} {ls : List Str} {e' : Err} (hr : ReadStrings (Returns src) d b ls e') :
    ∀ {C : Str}, GivesB src D e b C →
    e' = e ∧ ∃ p q Y, D = p ++ q ∧ (q = [] ∨ Truncated q) ∧ From p = (C ++ Y, none) ∧ Parts d Y ls := by
  induction hr with
  | stop h =>
    intro C g
    rcases givesB_readString hne h (by rw [List.append_nil]; exact g) (by simp) with ⟨_, _, h1, _⟩ | ⟨h1, h2, p, q, h3, h4, h5⟩
    · cases h1
    · exact ⟨Option.some.inj h2, p, q, _, h3, h5, h4, .last h1⟩
  | next h _ ih =>
    intro C g
    rcases givesB_readString hne h (by rw [List.append_nil]; exact g) (by simp) with ⟨x, rfl, _, h3, h4⟩ | ⟨_, h1, _⟩
    · obtain ⟨k1, p, q, Y, k2, k3, k4, k5⟩ := ih h4
      refine ⟨k1, p, q, x ++ d :: Y, k2, k3, ?_, .part h3 k5⟩
      rw [k4]
      simp
    · cases h1

/-! ## C120 -/

/-- What holds when the lines are read with `ReadString` (with a buffer of any size), for every stream, cut off or not, in whatever
pieces and however it ends: the error is the source's, and the lines are those of a beginning of the text, the rest being
nothing, or a piece that ends inside a character. Missing: an error for a text that is cut off. (For an error equal to
bufio.ErrBufferFull see C116_condition_needed.) -/
theorem C120_readString_partial (src : Source σ) (e : Err) (s : σ) (D : Str) (h : Delivers src e s D) (he : e ≠ errBufferFull)
    (d : Byte) (size : Nat) (out : List Str) (e' : Err)
    (hr : ReadStrings (Returns src) d (NewBufReader (NewReader s) size) out e') :
    e' = e ∧ ∃ p q T, D = p ++ q ∧ (q = [] ∨ Truncated q) ∧ From p = (T, none) ∧ Parts d T out := by
  have h0 : GivesB src D e (NewBufReader (NewReader s) size) [] :=
    ⟨Nat.le_refl _, Nat.zero_le _, ⟨D, by simpa [NewBufReader, BufReader.window] using invD_new h⟩, .inl rfl⟩
  exact givesB_readStrings he hr h0

/-- FALSE as stated (3): of a file that is cut off inside a character, read at once, and not longer than the buffer of the
bufio.Reader (4096 bytes unless set otherwise), `ReadString` gives nothing but an empty string and the end of the file, as
if the file were empty. -/
theorem C120_readString_lost_fails (D : Str) (hD : Truncated D) (size : Nat) (hl : D.length ≤ size) (d : Byte)
    (out : List Str) (e : Err) :
    ReadStrings (Returns chunked) d (NewBufReader (NewReader [D]) size) out e ↔ out = [[]] ∧ e = .eof := by
  have key : ReadStrings (Returns chunked) d (NewBufReader (NewReader [D]) size) [[]] .eof := by
    obtain ⟨r, hr⟩ := C42_all_lost_fails D hD (List.replicate size 0) (by rw [List.length_replicate]; exact hl)
    have hp := List.length_pos_iff.2 (truncated_ne hD)
    have hz : (List.replicate size (0 : Byte)).length = size := List.length_replicate
    unfold NewBufReader
    generalize List.replicate size (0 : Byte) = z at hr hz
    have hf : BufFill (Returns chunked) 100 ⟨NewReader [D], z, 0, 0, none⟩ ⟨r, z, 0, 0, some .eof⟩ :=
      .err (n := 0) (b := ⟨NewReader [D], z, 0, 0, none⟩) hr
    refine .stop (b' := ⟨r, z, 0, 0, none⟩) (.err (frag := []) (acc := []) (.fill (by simp [BufReader.window]) rfl ?_ hf ?_)
      (by decide))
    · simp only; omega
    · exact .err (by simp [BufReader.window]) rfl
  constructor
  · intro h
    obtain ⟨rfl, rfl⟩ := readStrings_det h key
    exact ⟨rfl, rfl⟩
  · rintro ⟨rfl, rfl⟩
    exact key

/-- The hypotheses are met: a line, and 가 of which the second byte is missing, in one piece and in two; in two, the line is
given. -/
example : Truncated [0x41, 0x0A, 0xB0] ∧ [0x41, 0x0A, 0xB0].length ≤ 4096 ∧ Err.eof ≠ errBufferFull ∧
    Delivers chunked .eof [[0x41, 0x0A], [0xB0]] [0x41, 0x0A, 0xB0] ∧ From [0x41, 0x0A] = ([0x41, 0x0A], none) ∧
    Parts 0x0A [0x41, 0x0A] [[0x41, 0x0A], []] := by
  refine ⟨.ascii (by decide) (.ascii (by decide) (.lone (by decide))), by decide, by decide,
    chunked_delivers [[0x41, 0x0A], [0xB0]] (by simp), (C34_ascii _ (by decide)).1, ?_⟩
  exact .part (l := [0x41]) (by decide) (.last (by decide))

end Props
