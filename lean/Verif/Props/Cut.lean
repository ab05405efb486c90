import Verif.Props.Stream
import Verif.Spec.Cut
import Verif.Props.Encoding
/-! Property theorems C47 and C65 once more: what happens to a text cut anywhere, exactly. -/
namespace Props
open Go Spec Cp949

attribute [local irreducible] fromTable toTable rawFrom rawTo

variable {σ τ : Type}

/-! ## Helpers -/

theorem inside_nil {ds : List Str} {lo hi : Nat} : Inside ([] :: ds) lo hi ↔ Inside ds lo hi := by
  constructor
  · rintro ⟨k, h1, h2⟩
    cases k with
    | zero => simp at h1
    | succ k => exact ⟨k, by simpa using h1, by simpa using h2⟩
  · rintro ⟨k, h1, h2⟩
    exact ⟨k + 1, by simpa using h1, by simpa using h2⟩

/-- Bytes that are done with are not counted any more. -/
theorem inside_shift {b d : Str} {ds : List Str} {lo hi : Nat} :
    Inside ((b ++ d) :: ds) (lo + b.length) (hi + b.length) ↔ Inside (d :: ds) lo hi := by
  constructor
  · rintro ⟨k, h1, h2⟩
    cases k with
    | zero => simp at h1
    | succ k =>
      refine ⟨k + 1, ?_, ?_⟩
      · simp only [List.take_succ_cons, List.flatten_cons, List.length_append] at h1 ⊢
        omega
      · simp only [List.take_succ_cons, List.flatten_cons, List.length_append] at h2 ⊢
        omega
  · rintro ⟨k, h1, h2⟩
    cases k with
    | zero => simp at h1
    | succ k =>
      refine ⟨k + 1, ?_, ?_⟩
      · simp only [List.take_succ_cons, List.flatten_cons, List.length_append] at h1 ⊢
        omega
      · simp only [List.take_succ_cons, List.flatten_cons, List.length_append] at h2 ⊢
        omega

theorem inside_piece {d : Str} {ds : List Str} {lo hi : Nat} :
    Inside (d :: ds) (lo + d.length) (hi + d.length) ↔ Inside ds lo hi := by
  have := inside_shift (b := d) (d := []) (ds := ds) (lo := lo) (hi := hi)
  rw [List.append_nil] at this
  rw [this, inside_nil]

/-- Pieces that encode alike: the same bytes, the same output, the same cuts. -/
def Alike (ds ds' : List Str) : Prop :=
  ds.flatten = ds'.flatten ∧ (ds.flatMap fun d => (To d).1) = (ds'.flatMap fun d => (To d).1) ∧
    ∀ lo hi, Inside ds lo hi ↔ Inside ds' lo hi

/-- Leading empty pieces do not matter. -/
theorem drop_empty {ds : List Str} (h : ds.flatten ≠ []) : ∃ b d ds', Alike ds ((b :: d) :: ds') := by
  induction ds with
  | nil => simp at h
  | cons x ds ih =>
    cases x with
    | cons b d => exact ⟨b, d, ds, rfl, rfl, fun _ _ => Iff.rfl⟩
    | nil =>
      obtain ⟨b, d, ds', h1, h2, h3⟩ := ih (by simpa using h)
      refine ⟨b, d, ds', by simpa using h1, ?_, fun lo hi => by rw [inside_nil, h3]⟩
      rw [List.flatMap_cons, To_nil]
      exact h2

theorem toUnit_fffd : toUnit (runeOf fffd) = [0x3F, 0x3F] :=
  toUnit_double (by rw [fffd_toNat]; omega) (by rw [fffd_toNat]; omega)

theorem To_err {b : Byte} {p : Str} (h : runes (b :: p) = runeOf fffd :: runes p) :
    (To (b :: p)).1 = 0x3F :: 0x3F :: (To p).1 := by
  rw [To_eq, To_eq, h, List.flatMap_cons, toUnit_fffd]
  rfl

/-- A byte in the middle of a character is no character. -/
theorem To_middle {b : Byte} {p : Str} (h : 0x80 ≤ b.toNat ∧ b.toNat ≤ 0xBF) :
    (To (b :: p)).1 = 0x3F :: 0x3F :: (To p).1 := by
  rcases runes_step b p with ⟨c, rest, h1, _⟩ | ⟨_, h1⟩
  · exfalso
    have := boundary_char c rest
    rw [← h1] at this
    have := this b p rfl
    omega
  · exact To_err h1

/-- A beginning of a character is no character. -/
theorem To_begin {c : Char} {d q : Str} (h : String.utf8EncodeChar c = d ++ q) (hq : q ≠ []) :
    (To d).1 = List.replicate (2 * d.length) 0x3F := by
  have mid : ∀ t : Str, (∀ b ∈ t, 0x80 ≤ b.toNat ∧ b.toNat ≤ 0xBF) → (To t).1 = List.replicate (2 * t.length) 0x3F := by
    intro t ht
    induction t with
    | nil => rw [To_nil]; rfl
    | cons b t ih =>
      rw [To_middle (ht b (List.mem_cons_self ..)), ih fun x hx => ht x (List.mem_cons_of_mem _ hx), List.length_cons,
        show 2 * (t.length + 1) = 2 * t.length + 1 + 1 by omega, List.replicate_succ, List.replicate_succ]
  cases d with
  | nil => rw [To_nil]; rfl
  | cons b p =>
    have ht := utf8EncodeChar_tail c
    rw [h] at ht
    have hp : (To p).1 = List.replicate (2 * p.length) 0x3F := mid p fun x hx => ht x (by simp [hx])
    rcases runes_step b p with ⟨c', rest, h1, _⟩ | ⟨_, h1⟩
    · exfalso
      have e1 := decodeCode_char c []
      rw [List.append_nil, h, h1, List.append_assoc, decodeCode_char] at e1
      simp only [Prod.mk.injEq] at e1
      have e2 := congrArg List.length h1
      have := List.length_pos_iff.2 hq
      simp only [List.length_append, List.length_cons] at e1 e2
      omega
    · rw [To_err h1, hp, List.length_cons, show 2 * (p.length + 1) = 2 * p.length + 1 + 1 by omega,
        List.replicate_succ, List.replicate_succ]

/-- The rest of a cut character. -/
theorem rest_of_char (t rest : Str) (ht : ∀ b ∈ t, 0x80 ≤ b.toNat ∧ b.toNat ≤ 0xBF) (ds : List Str)
    (h : ds.flatten = t ++ rest) :
    ∃ ds', ds'.flatten = rest ∧
      (ds.flatMap fun d => (To d).1) = List.replicate (2 * t.length) 0x3F ++ (ds'.flatMap fun d => (To d).1) ∧
      ∀ lo hi, Inside ds (lo + t.length) (hi + t.length) ↔ Inside ds' lo hi := by
  induction t generalizing ds with
  | nil => exact ⟨ds, h, rfl, fun _ _ => Iff.rfl⟩
  | cons x t ih =>
    obtain ⟨b, d, ds1, h1, h2, h3⟩ := drop_empty (ds := ds) (by rw [h]; simp)
    rw [h, List.flatten_cons, List.cons_append, List.cons_append, List.cons.injEq] at h1
    obtain ⟨rfl, h1⟩ := h1
    obtain ⟨ds', k1, k2, k3⟩ := ih (fun y hy => ht y (List.mem_cons_of_mem _ hy)) (d :: ds1) (by
      rw [List.flatten_cons]; exact h1.symm)
    refine ⟨ds', k1, ?_, fun lo hi => ?_⟩
    · rw [h2, List.flatMap_cons, To_middle (ht x (List.mem_cons_self ..)), List.length_cons,
        show 2 * (t.length + 1) = 2 * t.length + 1 + 1 by omega, List.replicate_succ, List.replicate_succ]
      rw [List.flatMap_cons] at k2
      simp only [List.cons_append]
      rw [← k2]
    · have := inside_shift (b := [x]) (d := d) (ds := ds1) (lo := lo + t.length) (hi := hi + t.length)
      rw [h3, ← k3, ← this]
      simp only [List.length_cons, List.length_nil, List.cons_append, List.nil_append]
      rfl

theorem cutText_shift {ds ds' : List Str} {n : Nat} (h : ∀ lo hi, Inside ds (lo + n) (hi + n) ↔ Inside ds' lo hi)
    (off : Nat) (cs : List Char) : cutText ds (off + n) cs = cutText ds' off cs := by
  induction cs generalizing off with
  | nil => rfl
  | cons c cs ih =>
    unfold cutText
    have e : off + n + (utf8 [c]).length = off + (utf8 [c]).length + n := by omega
    have h' := h off (off + (utf8 [c]).length)
    rw [← e] at h'
    rw [show off + n + (utf8 [c]).length = off + (utf8 [c]).length + n from e, ih, ← e]
    congr 1
    by_cases hi : Inside ds' off (off + (utf8 [c]).length)
    · rw [if_pos hi, if_pos (h'.2 hi)]
    · rw [if_neg hi, if_neg fun x => hi (h'.1 x)]

theorem To_append_char (c : Char) (s : Str) : (To (String.utf8EncodeChar c ++ s)).1 = (To (String.utf8EncodeChar c)).1 ++ (To s).1 := by
  have h := runes_char c []
  rw [List.append_nil] at h
  rw [To_eq, To_eq, To_eq, runes_char, h, runes_nil]
  simp

theorem utf8_one (c : Char) : utf8 [c] = String.utf8EncodeChar c := by simp [utf8]

/-- What comes out, whatever the pieces. -/
theorem cut_exact (cs : List Char) (ds : List Str) (h : ds.flatten = utf8 cs) :
    (ds.flatMap fun d => (To d).1) = cutText ds 0 cs := by
  induction cs generalizing ds with
  | nil =>
    unfold cutText
    rw [List.flatMap_eq_nil_iff]
    intro d hd
    have : d = [] := List.flatten_eq_nil_iff.1 (by rw [h]; rfl) d hd
    rw [this, To_nil]
  | cons c cs ih =>
    have hlen := (utf8EncodeChar_length c).1
    rw [utf8_cons] at h
    obtain ⟨b, d, ds1, h1, h2, h3⟩ := drop_empty (ds := ds) (by
      rw [h]
      intro e
      rw [(List.append_eq_nil_iff.1 e).1] at hlen
      simp at hlen)
    generalize hx : b :: d = x at *
    have hx0 : 0 < x.length := by rw [← hx]; simp
    rw [h, List.flatten_cons] at h1
    rw [h2]
    have hcong : cutText ds 0 (c :: cs) = cutText (x :: ds1) 0 (c :: cs) :=
      cutText_shift (n := 0) h3 0 (c :: cs)
    rw [hcong]
    clear h2 h3 hcong
    unfold cutText
    rw [utf8_one, Nat.zero_add]
    rcases List.append_eq_append_iff.1 h1 with ⟨d', e1, e2⟩ | ⟨q, e1, e2⟩
    · -- the piece holds the whole character
      have hno : ¬ Inside (x :: ds1) 0 (String.utf8EncodeChar c).length := by
        rintro ⟨k, k1, k2⟩
        cases k with
        | zero => simp at k1
        | succ k =>
          rw [e1, List.take_succ_cons, List.flatten_cons, List.length_append, List.length_append] at k2
          omega
      rw [if_neg hno, e1, List.flatMap_cons, To_append_char, List.append_assoc]
      congr 1
      have := ih (d' :: ds1) (by rw [List.flatten_cons]; exact e2.symm)
      rw [List.flatMap_cons] at this
      rw [this]
      have := cutText_shift (ds := (String.utf8EncodeChar c ++ d') :: ds1) (ds' := d' :: ds1)
        (n := (String.utf8EncodeChar c).length) (fun lo hi => inside_shift) 0 cs
      rw [Nat.zero_add] at this
      exact this.symm
    · by_cases hq : q = []
      · -- it is the character
        subst hq
        rw [List.append_nil] at e1
        rw [List.nil_append] at e2
        have hno : ¬ Inside (x :: ds1) 0 (String.utf8EncodeChar c).length := by
          rintro ⟨k, k1, k2⟩
          cases k with
          | zero => simp at k1
          | succ k =>
            rw [e1, List.take_succ_cons, List.flatten_cons, List.length_append] at k2
            omega
        rw [if_neg hno, List.flatMap_cons, e1]
        congr 1
        rw [ih ds1 e2]
        have := cutText_shift (ds := x :: ds1) (ds' := ds1) (n := x.length) (fun lo hi => inside_piece) 0 cs
        rw [Nat.zero_add] at this
        exact this.symm
      · -- the piece ends inside the character
        have hq0 := List.length_pos_iff.2 hq
        have hlx := congrArg List.length e1
        rw [List.length_append] at hlx
        have hyes : Inside (x :: ds1) 0 (String.utf8EncodeChar c).length := by
          refine ⟨1, ?_, ?_⟩
          · simpa using hx0
          · rw [List.take_succ_cons, List.take_zero, List.flatten_cons, List.flatten_nil, List.append_nil]
            omega
        rw [if_pos hyes, List.flatMap_cons, To_begin e1 hq]
        have htail := utf8EncodeChar_tail c
        obtain ⟨ds', k1, k2, k3⟩ := rest_of_char q (utf8 cs) (by
          intro y hy
          apply htail
          rw [e1, ← hx]
          simp [hy]) ds1 e2
        rw [k2, ih ds' k1, ← List.append_assoc, List.replicate_append_replicate,
          show 2 * x.length + 2 * q.length = 2 * (String.utf8EncodeChar c).length by omega]
        congr 1
        have := cutText_shift (ds := x :: ds1) (ds' := ds') (n := (String.utf8EncodeChar c).length) (by
          intro lo hi
          have := inside_piece (d := x) (ds := ds1) (lo := lo + q.length) (hi := hi + q.length)
          rw [← k3, ← this, hlx, Nat.add_assoc, Nat.add_assoc, Nat.add_comm q.length]) 0 cs
        rw [Nat.zero_add] at this
        exact this.symm

theorem To_char_le (c : Char) : (To (utf8 [c])).1.length ≤ 2 := by
  rw [To_one]
  rcases toUnit_cases c with ⟨_, e⟩ | ⟨_, _, _, e⟩ | ⟨_, _, _, e⟩ | ⟨_, _, e⟩ <;> rw [e] <;> simp

theorem To_cons (c : Char) (cs : List Char) : (To (utf8 (c :: cs))).1 = (To (utf8 [c])).1 ++ (To (utf8 cs)).1 := by
  rw [utf8_cons, To_append_char, utf8_one]

open Classical in
/-- The damage: a character of `k` bytes that is cut takes `2 * k` bytes, otherwise what it takes alone. -/
noncomputable def damage (ds : List Str) : (off : Nat) → List Char → Nat
  | _, [] => 0
  | off, c :: cs =>
    (if Inside ds off (off + (utf8 [c]).length) then 2 * (utf8 [c]).length - (To (utf8 [c])).1.length else 0) +
      damage ds (off + (utf8 [c]).length) cs

theorem cut_two {ds : List Str} {off : Nat} {c : Char} (h : Inside ds off (off + (utf8 [c]).length)) :
    2 ≤ (utf8 [c]).length := by
  obtain ⟨k, h1, h2⟩ := h
  omega

theorem cutText_length (ds : List Str) (off : Nat) (cs : List Char) :
    (cutText ds off cs).length = (To (utf8 cs)).1.length + damage ds off cs := by
  induction cs generalizing off with
  | nil => rw [show utf8 [] = [] from rfl, To_nil]; rfl
  | cons c cs ih =>
    have := To_char_le c
    rw [To_cons]
    unfold cutText damage
    rw [List.length_append, ih, List.length_append]
    split
    · rename_i h
      have := cut_two h
      rw [List.length_replicate]
      omega
    · omega

theorem damage_zero (ds : List Str) (off : Nat) (cs : List Char) :
    (damage ds off cs = 0 ↔ ¬ ∃ xs c ys, cs = xs ++ c :: ys ∧
      Inside ds (off + (utf8 xs).length) (off + (utf8 xs).length + (utf8 [c]).length)) := by
  induction cs generalizing off with
  | nil =>
    unfold damage
    simp
  | cons c cs ih =>
    have := To_char_le c
    unfold damage
    constructor
    · rintro h ⟨xs, d, ys, e, hi⟩
      cases xs with
      | nil =>
        rw [List.nil_append, List.cons.injEq] at e
        obtain ⟨rfl, rfl⟩ := e
        rw [show (utf8 []).length = 0 from rfl, Nat.add_zero] at hi
        rw [if_pos hi] at h
        have := cut_two hi
        omega
      | cons x xs =>
        rw [List.cons_append, List.cons.injEq] at e
        obtain ⟨rfl, e⟩ := e
        refine (ih (off + (utf8 [c]).length)).1 (by omega) ⟨xs, d, ys, e, ?_⟩
        rw [show utf8 (c :: xs) = utf8 [c] ++ utf8 xs by rw [utf8_cons, utf8_one], List.length_append, ← Nat.add_assoc] at hi
        exact hi
    · intro h
      rw [if_neg fun hi => h ⟨[], c, cs, rfl, by simpa [show (utf8 []).length = 0 from rfl] using hi⟩, Nat.zero_add, ih]
      rintro ⟨xs, d, ys, e, hi⟩
      refine h ⟨c :: xs, d, ys, by rw [e]; rfl, ?_⟩
      rw [show utf8 (c :: xs) = utf8 [c] ++ utf8 xs by rw [utf8_cons, utf8_one], List.length_append, ← Nat.add_assoc]
      exact hi

theorem cutText_iff (ds : List Str) (cs : List Char) : cutText ds 0 cs = (To (utf8 cs)).1 ↔ ¬ CutChar ds cs := by
  have hz := damage_zero ds 0 cs
  simp only [Nat.zero_add] at hz
  unfold CutChar
  rw [← hz]
  constructor
  · intro e
    have := cutText_length ds 0 cs
    rw [e] at this
    omega
  · have : ∀ (cs : List Char) (off : Nat), damage ds off cs = 0 → cutText ds off cs = (To (utf8 cs)).1 := by
      intro cs
      induction cs with
      | nil => intro off _; rw [show utf8 [] = [] from rfl, To_nil]; rfl
      | cons c cs ih =>
        intro off h
        have hle := To_char_le c
        rw [To_cons]
        unfold cutText
        unfold damage at h
        rw [ih _ (by omega)]
        by_cases hi : Inside ds off (off + (utf8 [c]).length)
        · rw [if_pos hi] at h
          have := cut_two hi
          omega
        · rw [if_neg hi]
    exact this cs 0

/-! ## C47 -/

/-- C47, exactly what happens for any text in any pieces: the sink receives the characters one by one, those that are
not cut as `To` encodes them, for each that is cut two question marks for each of its bytes. -/
theorem C47_cut_exact (sink : Sink τ) (hs : ∀ t d, (sink t d).2.1 = none) (t : τ) (cs : List Char) (ds : List Str)
    (h : ds.flatten = utf8 cs) :
    ∃ res w, Writes (loggedSink sink) (NewWriter (t, [])) ds res w ∧ w.sink.2.flatten = cutText ds 0 cs := by
  obtain ⟨res, w, h1, h2⟩ := C47_exact sink hs t ds
  exact ⟨res, w, h1, by rw [h2, cut_exact cs ds h]⟩

/-- C47: so what is written in pieces arrives as `To` of the whole exactly if no character is cut. -/
theorem C47_unchanged_iff_partial (sink : Sink τ) (hs : ∀ t d, (sink t d).2.1 = none) (t : τ) (cs : List Char)
    (ds : List Str) (h : ds.flatten = utf8 cs) :
    ∃ res w, Writes (loggedSink sink) (NewWriter (t, [])) ds res w ∧
      (w.sink.2.flatten = (To (utf8 cs)).1 ↔ ¬ CutChar ds cs) := by
  obtain ⟨res, w, h1, h2⟩ := C47_cut_exact sink hs t cs ds h
  exact ⟨res, w, h1, by rw [h2, cutText_iff]⟩

/-- 가나 in pieces of 3, 1 and 2 bytes: the second character is cut. -/
example : [[0xEA, 0xB0, 0x80], [0xEB], [0x82, 0x98]].flatten = utf8 ['가', '나'] ∧
    CutChar [[0xEA, 0xB0, 0x80], [0xEB], [0x82, 0x98]] ['가', '나'] ∧ ¬ CutChar [utf8 ['가'], utf8 ['나']] ['가', '나'] := by
  refine ⟨by decide +kernel, ⟨['가'], '나', [], rfl, 2, by decide +kernel, by decide +kernel⟩, ?_⟩
  have h := (damage_zero [utf8 ['가'], utf8 ['나']] 0 ['가', '나']).1 ?_
  · simpa only [Nat.zero_add, CutChar] using h
  · have no : ∀ k, ([utf8 ['가'], utf8 ['나']].take k).flatten.length = 0 ∨
        ([utf8 ['가'], utf8 ['나']].take k).flatten.length = 3 ∨ ([utf8 ['가'], utf8 ['나']].take k).flatten.length = 6 := by
      intro k
      match k with
      | 0 => exact .inl rfl
      | 1 => exact .inr (.inl (by decide +kernel))
      | k + 2 =>
        rw [List.take_of_length_le (by simp)]
        exact .inr (.inr (by decide +kernel))
    unfold damage damage damage
    rw [show (utf8 ['가']).length = 3 by decide +kernel, show (utf8 ['나']).length = 3 by decide +kernel,
      if_neg, if_neg]
    · rintro ⟨k, h1, h2⟩
      have := no k
      omega
    · rintro ⟨k, h1, h2⟩
      have := no k
      omega

/-! ## C65 -/

/-- C65, exactly when copying reproduces the stream (partial: it does not always): for every encoded text, every chunking
and all sufficiently many buffers, exactly if no character of the text is cut by the end of a delivery; and the
damage is the number of bytes that cut characters take too many. -/
theorem C65_copy_iff_partial (src : Source σ) (e : Err) (s : σ) (cs : List Char) (D : Str) (hD : Enc cs D)
    (h : Delivers src e s D) (bufs : List Str) (hb : ∀ b ∈ bufs, b ≠ []) (hn : (From D).1.length < bufs.length)
    (sink : Sink τ) (hs : ∀ t d, (sink t d).2.1 = none) (t : τ) :
    ∃ res r' out w', Reads src (NewReader s) bufs res r' ∧
      Writes (loggedSink sink) (NewWriter (t, [])) (pieces res) out w' ∧
      w'.sink.2.flatten = cutText (pieces res) 0 cs ∧
      (w'.sink.2.flatten = D ↔ ¬ CutChar (pieces res) cs) := by
  have hF := From_enc hD
  obtain ⟨good, rest, r', g1, _, g3, _, g5, g6⟩ := C39_delivers src e s D h (by rw [hF]) bufs hb
  have hdel : delivered (good ++ rest) = utf8 cs := by
    have hr : delivered rest = [] := by
      unfold delivered
      rw [List.flatMap_eq_nil_iff]
      intro x hx
      rw [(g3 x hx).1]
      rfl
    unfold delivered at *
    rw [List.flatMap_append, hr, List.append_nil, g5 (g6 hn), hF]
  have hp : (pieces (good ++ rest)).flatten = utf8 cs := by rw [pieces_flatten, hdel]
  obtain ⟨out, w', k1, k2⟩ := C47_cut_exact sink hs t cs _ hp
  refine ⟨_, _, out, w', g1, k1, k2, ?_⟩
  rw [k2, ← cutText_iff, To_enc hD]

example : Enc ['A', '가'] [0x41, 0xB0, 0xA1] ∧
    Delivers chunked .eof [[0x41, 0xB0], [0xA1]] [0x41, 0xB0, 0xA1] ∧
    (∀ b ∈ List.replicate 5 [(0 : UInt8), 0], b ≠ []) ∧
    (From [0x41, 0xB0, 0xA1]).1.length < (List.replicate 5 [(0 : UInt8), 0]).length := by
  have hD : Enc ['A', '가'] [0x41, 0xB0, 0xA1] :=
    .ascii (by decide) (by decide) (.pair (hi := 0xB0) (lo := 0xA1) (by unfold Chart; decide +kernel) .nil)
  exact ⟨hD, chunked_delivers [[0x41, 0xB0], [0xA1]] (by simp), by decide, by rw [From_enc hD]; decide +kernel⟩

/-! ## C51 -/

/-- C51, exactly which first pieces the decoder accepts (partial: it should accept all): those that do not end inside a
character. Any other is refused as a whole, with the error for a truncated stream, though more is announced. -/
theorem C51_decoder_iff_partial (dst a : Str) (eof : Bool) :
    ((∃ cs, Dec a cs) ↔ (decoderTransform dst a eof).err = none) ∧
    (Truncated a ↔ decoderTransform dst a eof = ⟨dst, 0, 0, some .unexpectedStream⟩) := by
  rcases dec_cases a with ⟨cs, h⟩ | h
  · rw [decoder_ok (From_dec h)]
    refine ⟨⟨fun _ => rfl, fun _ => ⟨cs, h⟩⟩, ?_, ?_⟩
    · intro ht
      have := From_dec h
      rw [From_truncated ht] at this
      simp at this
    · intro ht
      simp at ht
  · rw [decoder_err (From_truncated h)]
    refine ⟨⟨?_, fun h => by cases h⟩, fun _ => rfl, fun _ => h⟩
    rintro ⟨cs, hd⟩
    have := From_dec hd
    rw [From_truncated h] at this
    simp at this

/-- C51, what the encoder makes of a text in any pieces, each with a destination that has room for its conversion, and
exactly when that is right. -/
theorem C51_encoder_iff_partial (cs : List Char) (calls : List (Str × Str × Bool))
    (h : (calls.map fun x => x.2.1).flatten = utf8 cs) (hr : ∀ x ∈ calls, 2 * x.2.1.length ≤ x.1.length) :
    let out := calls.flatMap fun x => (encoderTransform x.1 x.2.1 x.2.2).dst.take (encoderTransform x.1 x.2.1 x.2.2).nDst
    (∀ x ∈ calls, (encoderTransform x.1 x.2.1 x.2.2).err = none ∧
      (encoderTransform x.1 x.2.1 x.2.2).nSrc = x.2.1.length) ∧
    out = cutText (calls.map fun x => x.2.1) 0 cs ∧
    (out = (To (utf8 cs)).1 ↔ ¬ CutChar (calls.map fun x => x.2.1) cs) := by
  have hout : (calls.flatMap fun x =>
      (encoderTransform x.1 x.2.1 x.2.2).dst.take (encoderTransform x.1 x.2.1 x.2.2).nDst) =
      (calls.map fun x => x.2.1).flatMap fun d => (To d).1 := by
    clear h
    induction calls with
    | nil => rfl
    | cons x xs ih =>
      have l := (C50_room x.1 x.2.1).2 (hr x (by simp))
      rw [List.flatMap_cons, List.map_cons, List.flatMap_cons, ih fun y hy => hr y (by simp [hy]), encoder_eq]
      simp only
      rw [copy_fits l, List.take_left]
  intro out
  have e : out = cutText (calls.map fun x => x.2.1) 0 cs := by
    show List.flatMap _ _ = _
    rw [hout, cut_exact cs _ h]
  exact ⟨fun x _ => by rw [encoder_eq]; exact ⟨rfl, rfl⟩, e, by rw [e, cutText_iff]⟩

/-- 가 in two pieces. -/
example : ([(List.replicate 2 0, [0xEA], false), (List.replicate 4 0, [0xB0, 0x80], true)].map
      fun (x : Str × Str × Bool) => x.2.1).flatten = utf8 ['가'] ∧
    Truncated [0xB0] ∧ Dec [0x41] ['A'] := by
  refine ⟨by decide +kernel, .lone (by decide), .ascii (by decide) (by decide) .nil⟩

end Props
