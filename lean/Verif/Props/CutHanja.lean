import Verif.Props.Cut
import Verif.Props.Hanja
import Verif.Spec.CutChars
/-! Property theorems C110: converting the pieces a Reader delivers with hanja.Convert. -/
namespace Props
open Go Spec Cp949

attribute [local irreducible] fromTable toTable rawFrom rawTo Hanja.table Hanja.rawTable

variable {σ τ : Type}

/-! ## Helpers -/

/-- Leading empty pieces do not matter. -/
private theorem drop_empty' {ds : List Str} (h : ds.flatten ≠ []) : ∃ b d ds', ds.flatten = ((b :: d) :: ds').flatten ∧
    ds.flatMap runes = ((b :: d) :: ds').flatMap runes ∧ ∀ lo hi, Inside ds lo hi ↔ Inside ((b :: d) :: ds') lo hi := by
  induction ds with
  | nil => simp at h
  | cons x ds ih =>
    cases x with
    | cons b d => exact ⟨b, d, ds, rfl, rfl, fun _ _ => Iff.rfl⟩
    | nil =>
      obtain ⟨b, d, ds', h1, h2, h3⟩ := ih (by simpa using h)
      refine ⟨b, d, ds', by simpa using h1, ?_, fun lo hi => by rw [inside_nil, h3]⟩
      rw [List.flatMap_cons, runes_nil]
      exact h2

private theorem runes_middle {b : Byte} {p : Str} (h : 0x80 ≤ b.toNat ∧ b.toNat ≤ 0xBF) :
    runes (b :: p) = runeOf fffd :: runes p := by
  rcases runes_step b p with ⟨c, rest, h1, _⟩ | ⟨_, h1⟩
  · exfalso
    have := boundary_char c rest
    rw [← h1] at this
    have := this b p rfl
    omega
  · exact h1

private theorem runes_begin {c : Char} {d q : Str} (h : String.utf8EncodeChar c = d ++ q) (hq : q ≠ []) :
    runes d = List.replicate d.length (runeOf fffd) := by
  have mid : ∀ t : Str, (∀ b ∈ t, 0x80 ≤ b.toNat ∧ b.toNat ≤ 0xBF) → runes t = List.replicate t.length (runeOf fffd) := by
    intro t ht
    induction t with
    | nil => rw [runes_nil]; rfl
    | cons b t ih =>
      rw [runes_middle (ht b (List.mem_cons_self ..)), ih fun x hx => ht x (List.mem_cons_of_mem _ hx), List.length_cons,
        List.replicate_succ]
  cases d with
  | nil => rw [runes_nil]; rfl
  | cons b p =>
    have ht := utf8EncodeChar_tail c
    rw [h] at ht
    have hp : runes p = List.replicate p.length (runeOf fffd) := mid p fun x hx => ht x (by simp [hx])
    rcases runes_step b p with ⟨c', rest, h1, _⟩ | ⟨_, h1⟩
    · exfalso
      have e1 := decodeCode_char c []
      rw [List.append_nil, h, h1, List.append_assoc, decodeCode_char] at e1
      simp only [Prod.mk.injEq] at e1
      have e2 := congrArg List.length h1
      have := List.length_pos_iff.2 hq
      simp only [List.length_append, List.length_cons] at e1 e2
      omega
    · rw [h1, hp, List.length_cons, List.replicate_succ]

/-- The rest of a cut character. -/
private theorem rest_of_char' (t rest : Str) (ht : ∀ b ∈ t, 0x80 ≤ b.toNat ∧ b.toNat ≤ 0xBF) (ds : List Str)
    (h : ds.flatten = t ++ rest) :
    ∃ ds', ds'.flatten = rest ∧
      ds.flatMap runes = List.replicate t.length (runeOf fffd) ++ ds'.flatMap runes ∧
      ∀ lo hi, Inside ds (lo + t.length) (hi + t.length) ↔ Inside ds' lo hi := by
  induction t generalizing ds with
  | nil => exact ⟨ds, h, rfl, fun _ _ => Iff.rfl⟩
  | cons x t ih =>
    obtain ⟨b, d, ds1, h1, h2, h3⟩ := drop_empty' (ds := ds) (by rw [h]; simp)
    rw [h, List.flatten_cons, List.cons_append, List.cons_append, List.cons.injEq] at h1
    obtain ⟨rfl, h1⟩ := h1
    obtain ⟨ds', k1, k2, k3⟩ := ih (fun y hy => ht y (List.mem_cons_of_mem _ hy)) (d :: ds1) (by
      rw [List.flatten_cons]; exact h1.symm)
    refine ⟨ds', k1, ?_, fun lo hi => ?_⟩
    · rw [h2, List.flatMap_cons, runes_middle (ht x (List.mem_cons_self ..)), List.length_cons, List.replicate_succ]
      rw [List.flatMap_cons] at k2
      simp only [List.cons_append]
      rw [← k2]
    · have := inside_shift (b := [x]) (d := d) (ds := ds1) (lo := lo + t.length) (hi := hi + t.length)
      rw [h3, ← k3, ← this]
      simp only [List.length_cons, List.length_nil, List.cons_append, List.nil_append]
      rfl

private theorem cutChars_shift {ds ds' : List Str} {n : Nat} (h : ∀ lo hi, Inside ds (lo + n) (hi + n) ↔ Inside ds' lo hi)
    (off : Nat) (cs : List Char) : cutChars ds (off + n) cs = cutChars ds' off cs := by
  induction cs generalizing off with
  | nil => rfl
  | cons c cs ih =>
    unfold cutChars
    have e : off + n + (utf8 [c]).length = off + (utf8 [c]).length + n := by omega
    have h' := h off (off + (utf8 [c]).length)
    rw [← e] at h'
    rw [show off + n + (utf8 [c]).length = off + (utf8 [c]).length + n from e, ih, ← e]
    congr 1
    by_cases hi : Inside ds' off (off + (utf8 [c]).length)
    · rw [if_pos hi, if_pos (h'.2 hi)]
    · rw [if_neg hi, if_neg fun x => hi (h'.1 x)]

/-- What comes out, whatever the pieces. -/
private theorem runes_cut (cs : List Char) (ds : List Str) (h : ds.flatten = utf8 cs) :
    ds.flatMap runes = (cutChars ds 0 cs).map runeOf := by
  induction cs generalizing ds with
  | nil =>
    unfold cutChars
    rw [List.map_nil, List.flatMap_eq_nil_iff]
    intro d hd
    have : d = [] := List.flatten_eq_nil_iff.1 (by rw [h]; rfl) d hd
    rw [this, runes_nil]
  | cons c cs ih =>
    have hlen := (utf8EncodeChar_length c).1
    rw [utf8_cons] at h
    obtain ⟨b, d, ds1, h1, h2, h3⟩ := drop_empty' (ds := ds) (by
      rw [h]
      intro e
      rw [(List.append_eq_nil_iff.1 e).1] at hlen
      simp at hlen)
    generalize hx : b :: d = x at *
    have hx0 : 0 < x.length := by rw [← hx]; simp
    rw [h, List.flatten_cons] at h1
    rw [h2]
    have hcong : cutChars ds 0 (c :: cs) = cutChars (x :: ds1) 0 (c :: cs) :=
      cutChars_shift (n := 0) h3 0 (c :: cs)
    rw [hcong]
    clear h2 h3 hcong
    unfold cutChars
    rw [utf8_one, Nat.zero_add, List.map_append]
    rcases List.append_eq_append_iff.1 h1 with ⟨d', e1, e2⟩ | ⟨q, e1, e2⟩
    · -- the piece holds the whole character
      have hno : ¬ Inside (x :: ds1) 0 (String.utf8EncodeChar c).length := by
        rintro ⟨k, k1, k2⟩
        cases k with
        | zero => simp at k1
        | succ k =>
          rw [e1, List.take_succ_cons, List.flatten_cons, List.length_append, List.length_append] at k2
          omega
      rw [if_neg hno, e1, List.flatMap_cons, runes_char, List.map_singleton, List.singleton_append, List.cons_append]
      congr 1
      have := ih (d' :: ds1) (by rw [List.flatten_cons]; exact e2.symm)
      rw [List.flatMap_cons] at this
      rw [this]
      congr 1
      have := cutChars_shift (ds := (String.utf8EncodeChar c ++ d') :: ds1) (ds' := d' :: ds1)
        (n := (String.utf8EncodeChar c).length) (fun lo hi => inside_shift) 0 cs
      rw [Nat.zero_add] at this
      exact this.symm
    · by_cases hq : q = []
      · -- it is the character
        subst hq
        rw [List.append_nil] at e1
        rw [List.nil_append] at e2
        have hno : ¬ Inside (x :: ds1) 0 (String.utf8EncodeChar c).length := by
          rintro ⟨k, k1, k2⟩
          cases k with
          | zero => simp at k1
          | succ k =>
            rw [e1, List.take_succ_cons, List.flatten_cons, List.length_append] at k2
            omega
        have h1 := runes_char c []
        rw [List.append_nil, runes_nil] at h1
        rw [if_neg hno, List.flatMap_cons, ← e1, h1, e1]
        congr 1
        rw [ih ds1 e2]
        congr 1
        have := cutChars_shift (ds := x :: ds1) (ds' := ds1) (n := x.length) (fun lo hi => inside_piece) 0 cs
        rw [Nat.zero_add] at this
        exact this.symm
      · -- the piece ends inside the character
        have hq0 := List.length_pos_iff.2 hq
        have hlx := congrArg List.length e1
        rw [List.length_append] at hlx
        have hyes : Inside (x :: ds1) 0 (String.utf8EncodeChar c).length := by
          refine ⟨1, ?_, ?_⟩
          · simpa using hx0
          · rw [List.take_succ_cons, List.take_zero, List.flatten_cons, List.flatten_nil, List.append_nil]
            omega
        rw [if_pos hyes, List.flatMap_cons, runes_begin e1 hq, List.map_replicate]
        have htail := utf8EncodeChar_tail c
        obtain ⟨ds', k1, k2, k3⟩ := rest_of_char' q (utf8 cs) (by
          intro y hy
          apply htail
          rw [e1, ← hx]
          simp [hy]) ds1 e2
        rw [k2, ih ds' k1, ← List.append_assoc, List.replicate_append_replicate,
          show x.length + q.length = (String.utf8EncodeChar c).length by omega]
        congr 2
        have := cutChars_shift (ds := x :: ds1) (ds' := ds') (n := (String.utf8EncodeChar c).length) (by
          intro lo hi
          have := inside_piece (d := x) (ds := ds1) (lo := lo + q.length) (hi := hi + q.length)
          rw [← k3, ← this, hlx, Nat.add_assoc, Nat.add_assoc, Nat.add_comm q.length]) 0 cs
        rw [Nat.zero_add] at this
        exact this.symm


private theorem damage_chars (ds : List Str) (off : Nat) (cs : List Char) :
    cs.length ≤ (cutChars ds off cs).length ∧ (damage ds off cs = 0 → cutChars ds off cs = cs) ∧
    (damage ds off cs ≠ 0 → cs.length < (cutChars ds off cs).length) := by
  induction cs generalizing off with
  | nil => exact ⟨Nat.le_refl _, fun _ => rfl, fun h => absurd rfl h⟩
  | cons c cs ih =>
    obtain ⟨h1, h2, h3⟩ := ih (off + (utf8 [c]).length)
    have := To_char_le c
    unfold damage cutChars
    by_cases hi : Inside ds off (off + (utf8 [c]).length)
    · have := cut_two hi
      rw [if_pos hi, if_pos hi, List.length_append, List.length_replicate, List.length_cons]
      exact ⟨by omega, fun h => by omega, fun _ => by omega⟩
    · rw [if_neg hi, if_neg hi, Nat.zero_add, List.singleton_append, List.length_cons, List.length_cons]
      exact ⟨by omega, fun h => by rw [h2 h], fun h => by have := h3 h; omega⟩

private theorem convert_pieces (ds : List Str) :
    ds.flatMap Hanja.Convert = ofRunes ((ds.flatMap runes).map Hanja.conv) := by
  induction ds with
  | nil => rfl
  | cons d ds ih =>
    rw [List.flatMap_cons, List.flatMap_cons, ih, Hanja.Convert_eq]
    simp [ofRunes]

/-! ## C110 -/

/-- C110, exactly what comes out (partial: it is not always right): a text in any pieces, each converted by itself, gives
the conversion of the text in which each cut character is replaced by U+FFFD, once for each of its bytes; that is the
conversion of the text exactly if no character is cut. -/
theorem C110_pieces_iff_partial (cs : List Char) (ds : List Str) (h : ds.flatten = utf8 cs) :
    ds.flatMap Hanja.Convert = Hanja.Convert (utf8 (cutChars ds 0 cs)) ∧
    (ds.flatMap Hanja.Convert = Hanja.Convert (utf8 cs) ↔ ¬ CutChar ds cs) := by
  have e : ds.flatMap Hanja.Convert = Hanja.Convert (utf8 (cutChars ds 0 cs)) := by
    rw [convert_pieces, runes_cut cs ds h, Hanja.Convert_eq, runes_utf8]
  refine ⟨e, ?_⟩
  have hz := damage_zero ds 0 cs
  simp only [Nat.zero_add] at hz
  obtain ⟨_, h2, h3⟩ := damage_chars ds 0 cs
  unfold CutChar
  rw [← hz, e]
  refine ⟨fun he => ?_, fun hd => by rw [h2 hd]⟩
  by_cases hd : damage ds 0 cs = 0
  · exact hd
  · exfalso
    have l := congrArg (fun s => (runes s).length) he
    simp only [Hanja.C24_rune_count, runes_utf8, List.length_map] at l
    have := h3 hd
    omega

/-- A text in two pieces. -/
example : ([[0x41, 0xE5], [0xA4, 0xA7]] : List Str).flatten = utf8 ['A', '大'] := by decide +kernel

/-- C110, for a Reader: for every encoded text, every chunking and all sufficiently many buffers, converting what each call
of Read has delivered gives the conversion of the text exactly if no character is cut by the end of a delivery. -/
theorem C110_reader_iff_partial (src : Source σ) (e : Err) (s : σ) (cs : List Char) (D : Str) (hD : Enc cs D)
    (h : Delivers src e s D) (bufs : List Str) (hb : ∀ b ∈ bufs, b ≠ []) (hn : (From D).1.length < bufs.length) :
    ∃ res r', Reads src (NewReader s) bufs res r' ∧
      (pieces res).flatMap Hanja.Convert = Hanja.Convert (utf8 (cutChars (pieces res) 0 cs)) ∧
      ((pieces res).flatMap Hanja.Convert = Hanja.Convert (From D).1 ↔ ¬ CutChar (pieces res) cs) := by
  have hF := From_enc hD
  obtain ⟨good, rest, r', g1, _, g3, _, g5, g6⟩ := C39_delivers src e s D h (by rw [hF]) bufs hb
  have hdel : delivered (good ++ rest) = utf8 cs := by
    have hr : delivered rest = [] := by
      unfold delivered
      rw [List.flatMap_eq_nil_iff]
      intro x hx
      rw [(g3 x hx).1]
      rfl
    unfold delivered at *
    rw [List.flatMap_append, hr, List.append_nil, g5 (g6 hn), hF]
  obtain ⟨k1, k2⟩ := C110_pieces_iff_partial cs (pieces (good ++ rest)) (by rw [pieces_flatten, hdel])
  exact ⟨_, _, g1, k1, by rw [hF]; exact k2⟩

example : Enc ['A', '大'] [0x41, 0xD3, 0xDE] ∧
    Delivers chunked .eof [[0x41, 0xD3], [0xDE]] [0x41, 0xD3, 0xDE] ∧
    (∀ b ∈ List.replicate 5 [(0 : UInt8), 0], b ≠ []) ∧
    (From [0x41, 0xD3, 0xDE]).1.length < (List.replicate 5 [(0 : UInt8), 0]).length := by
  have hD : Enc ['A', '大'] [0x41, 0xD3, 0xDE] :=
    .ascii (by decide) (by decide) (.pair (hi := 0xD3) (lo := 0xDE) (by unfold Chart; decide +kernel) .nil)
  exact ⟨hD, chunked_delivers [[0x41, 0xD3], [0xDE]] (by simp), by decide, by rw [From_enc hD]; decide +kernel⟩

private theorem writes_det {sink : Sink τ} {w : Writer τ} {ds : List Str} {o₁ o₂ : List (Nat × Option Err)} {w₁ w₂ : Writer τ}
    (h₁ : Writes sink w ds o₁ w₁) (h₂ : Writes sink w ds o₂ w₂) : w₁ = w₂ := by
  induction h₁ generalizing o₂ w₂ with
  | nil => cases h₂; rfl
  | cons e _ ih =>
    cases h₂ with
    | cons e' h' =>
      rw [e] at e'
      simp only [Prod.mk.injEq] at e'
      obtain ⟨_, _, rfl⟩ := e'
      exact ih h'

/-- C110 is false: with every buffer whose even size is not a multiple of 3 (as 512 or 32768 are not) a text of 가 alone, without any
hanja in it, is damaged: read in three calls, and each delivery converted. -/
theorem C110_reader_fails (L : Nat) (h0 : 0 < L) (h2 : L % 2 = 0) (h3 : L % 3 ≠ 0) :
    ∃ (D : Str) (res : List Result) (r' : Reader (List Str)),
      Enc (List.replicate (L / 2) '가') D ∧ Delivers chunked .eof [D] D ∧
      Reads chunked (NewReader [D]) (List.replicate 3 (List.replicate L 0)) res r' ∧
      delivered res = (From D).1 ∧ r'.err = some .eof ∧
      (pieces res).flatMap Hanja.Convert ≠ Hanja.Convert (delivered res) := by
  obtain ⟨D, res, r', out, w', k1, k2, k3, k4, k5, k6, k7⟩ :=
    C65_copy_fails (τ := Unit) L h0 h2 h3 (fun _ d => (d.length, none, ())) (fun _ _ => rfl) ()
  refine ⟨D, res, r', k1, k2, k3, k4, k5, ?_⟩
  have hp : (pieces res).flatten = utf8 (List.replicate (L / 2) '가') := by rw [pieces_flatten, k4, From_enc k1]
  rw [k4, From_enc k1]
  intro he
  have hc := (C110_pieces_iff_partial _ _ hp).2.1 he
  obtain ⟨out', w'', j1, j2⟩ := C47_cut_exact (τ := Unit) (fun _ d => (d.length, none, ())) (fun _ _ => rfl) () _ _ hp
  rw [writes_det j1 k6, (cutText_iff _ _).2 hc, To_enc k1] at j2
  rw [j2] at k7
  simp only at k7
  omega

example : 0 < 512 ∧ 512 % 2 = 0 ∧ 512 % 3 ≠ 0 := by decide

end Props
