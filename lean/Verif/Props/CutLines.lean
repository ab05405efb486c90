import Verif.Props.Scanner
/-! C120: reading a text that is cut off line by line. -/
namespace Props
open Go Cp949 Spec GoIo

attribute [local irreducible] fromTable toTable rawFrom rawTo

variable {σ : Type}

/-- Of the text delivered so far, `C` has been handed out and the rest is in the window. -/
structure Gives (src : Source σ) (D : Str) (e : Err) (s : Scanner (Reader σ)) (C : Str) : Prop where
  le : s.start ≤ s.stop
  stop : s.stop ≤ s.buf.length
  inv : ∃ R, InvD src D e (C ++ s.window) R s.r
  err : s.err = none ∨ (s.err = some e ∧ s.r.err = some e ∧ s.r.cdata = [])

theorem room_some {ρ : Type} {s s1 : Scanner ρ} {M : Nat} (le : s.start ≤ s.stop) (st : s.stop ≤ s.buf.length)
    (h : s.shift.resize M = some s1) :
    s1.window = s.window ∧ s1.start ≤ s1.stop ∧ s1.stop < s1.buf.length ∧ s1.err = s.err ∧ s1.r = s.r := by
  have hl := window_length st
  by_cases hs : s.start > 0 ∧ (s.stop = s.buf.length ∨ s.start > s.buf.length / 2)
  · have e1 : s.shift = { s with buf := (copy s.buf s.window).1, start := 0, stop := s.stop - s.start } := by
      rw [Scanner.shift, if_pos hs]
    obtain ⟨c1, c2⟩ := take_copy (a := s.buf) (b := s.window) (by omega)
    rw [e1, Scanner.resize, if_neg (by simp only [c2]; omega), Option.some.injEq] at h
    subst h
    refine ⟨?_, by simp, by simp only [c2]; omega, rfl, rfl⟩
    simp only [Scanner.window, List.drop_zero, ← hl]
    exact c1
  · have e1 : s.shift = s := by rw [Scanner.shift, if_neg hs]
    rw [e1, Scanner.resize] at h
    by_cases hf : s.stop = s.buf.length
    · have h0 : s.start = 0 := by omega
      rw [if_pos hf] at h
      by_cases hM : s.buf.length ≥ M
      · rw [if_pos hM] at h; cases h
      · rw [if_neg hM, Option.some.injEq] at h
        generalize hN : min (if s.buf.length * 2 = 0 then 4096 else s.buf.length * 2) M = N at h
        have hN' : s.buf.length < N := by
          rw [← hN]; split <;> omega
        obtain ⟨c1, c2⟩ := take_copy (a := List.replicate N 0) (b := s.window) (by rw [List.length_replicate]; omega)
        rw [List.length_replicate] at c2
        subst h
        refine ⟨?_, by simp, by simp only [c2]; omega, rfl, rfl⟩
        simp only [Scanner.window, List.drop_zero, ← hl]
        exact c1
    · rw [if_neg hf, Option.some.injEq] at h
      subst h
      exact ⟨rfl, le, by omega, rfl, rfl⟩

theorem gives_fill {src : Source σ} {D : Str} {e : Err} {s s2 : Scanner (Reader σ)} {C : Str} {k : Nat}
    (h : Gives src D e s C) (he : s.err = none) (hr : s.stop < s.buf.length) (hf : FillLoop (Returns src) k s s2) :
    Gives src D e s2 C := by
  have hne : s.buf.drop s.stop ≠ [] := by
    intro h0
    have := congrArg List.length h0
    rw [List.length_drop, List.length_nil] at this
    omega
  obtain ⟨R, hi⟩ := h.inv
  obtain ⟨n, err, b, r', R', h1, h2, h3⟩ := invD_read hne R.length (Nat.le_refl _) hi
  have hR : Returns src s.r (s.buf.drop s.stop) n err b r' := ⟨_, h1⟩
  obtain ⟨c1, c2, -⟩ := C43_contract src _ _ n err b r' hR
  have hd : ∀ {n' err' b' r''}, Returns src s.r (s.buf.drop s.stop) n' err' b' r'' → n' = n ∧ err' = err ∧ b' = b ∧ r'' = r' := by
    intro n' err' b' r'' h'
    exact Returns_det h' hR
  rw [List.length_drop] at c1 c2
  have hlen : (s.buf.take s.stop).length = s.stop := by rw [List.length_take]; omega
  have le := h.le
  have hwin : ((s.buf.take s.stop ++ b).take (s.stop + n)).drop s.start = s.window ++ b.take n := by
    rw [Scanner.window, show s.stop + n = (s.buf.take s.stop).length + n by rw [hlen],
      List.take_length_add_append, List.drop_append_of_le_length (by rw [hlen]; exact h.le)]
  have hb : (s.buf.take s.stop ++ b).length = s.buf.length := by
    rw [List.length_append, hlen, c2]; omega
  rw [List.append_assoc, ← hwin] at h2
  cases hf with
  | bad g1 g2 => obtain ⟨rfl, rfl, rfl, rfl⟩ := hd g1; omega
  | @err _ _ n' x b' r'' g1 g2 =>
    obtain ⟨rfl, rfl, rfl, rfl⟩ := hd g1
    rcases h3 with ⟨_, _, h4⟩ | ⟨rfl, h4, h5, h6⟩
    · cases h4
    · cases h4
      rw [Scanner.setErr, if_pos (.inl he)]
      exact ⟨by simp only; omega, by simp only [hb]; omega, ⟨R', h2⟩, .inr ⟨rfl, h5, h6⟩⟩
  | data g1 g2 g3 =>
    obtain ⟨rfl, rfl, rfl, rfl⟩ := hd g1
    exact ⟨by simp only; omega, by simp only [hb]; omega, ⟨R', h2⟩, .inl he⟩
  | again g1 _ _ =>
    obtain ⟨rfl, rfl, rfl, rfl⟩ := hd g1
    rcases h3 with ⟨h4, _⟩ | ⟨_, h4, _⟩
    · omega
    · cases h4
  | noProgress g1 _ =>
    obtain ⟨rfl, rfl, rfl, rfl⟩ := hd g1
    rcases h3 with ⟨h4, _⟩ | ⟨_, h4, _⟩
    · omega
    · cases h4

theorem scanLines_some {x : Str} {eof : Bool} {adv : Nat} {tok : Str} (h : scanLines x eof = some (adv, tok)) :
    (∃ l rest, x = l ++ 10 :: rest ∧ 10 ∉ l ∧ adv = l.length + 1 ∧ tok = dropCR l) ∨
    (eof = true ∧ x ≠ [] ∧ 10 ∉ x ∧ adv = x.length ∧ tok = dropCR x) := by
  unfold scanLines at h
  split at h
  · cases h
  · rename_i h0
    by_cases hx : 10 ∈ x
    · obtain ⟨l, y, rfl, hl⟩ := first_line hx
      rw [indexNL_some hl] at h
      simp only [Option.some.injEq, Prod.mk.injEq, List.take_left] at h
      exact .inl ⟨l, y, rfl, hl, h.1.symm, h.2.symm⟩
    · rw [indexNL_none.2 hx] at h
      cases eof with
      | false => simp at h
      | true =>
        simp only [if_true, Option.some.injEq, Prod.mk.injEq] at h
        refine .inr ⟨rfl, ?_, hx, h.1.symm, h.2.symm⟩
        rintro rfl
        simp at h0

theorem scanLines_none {x : Str} (h : scanLines x true = none) : x = [] := by
  unfold scanLines at h
  split at h
  · rename_i h0
    simpa using h0
  · split at h <;> simp at h

/-- What a call of `Scan` does. -/
theorem gives_scan {src : Source σ} {D : Str} {e : Err} {M : Nat} {s s' : Scanner (Reader σ)} {t : Option Str}
    (hs : Scan (Returns src) M s t s') : ∀ {C : Str}, Gives src D e s C →
    (t = none ∧ s'.err = some errTooLong) ∨
    (t = none ∧ s'.err = some e ∧ ∃ p q, D = p ++ q ∧ From p = (C, none) ∧ (q = [] ∨ Truncated q)) ∨
    (∃ l, t = some (dropCR l) ∧ 10 ∉ l ∧ Gives src D e s' (C ++ (l ++ [10]))) ∨
    (∃ l, t = some (dropCR l) ∧ 10 ∉ l ∧ l ≠ [] ∧ Gives src D e s' (C ++ l) ∧ s'.err ≠ none ∧ s'.window = []) := by
  induction hs with
  | @token s adv tok h =>
    intro C g
    have hl := window_length g.stop
    have le := g.le
    have st := g.stop
    unfold Scanner.split at h
    split at h
    · rcases scanLines_some h with ⟨l, rest, h1, h2, rfl, rfl⟩ | ⟨h0, h1, h2, rfl, rfl⟩
      · right; right; left
        have hw : ({ s with start := s.start + (l.length + 1) } : Scanner (Reader σ)).window = rest := by
          have hw : s.window = l ++ 10 :: rest := h1
          unfold Scanner.window at hw ⊢
          simp only
          rw [← List.drop_drop, hw, ← List.drop_drop, List.drop_left' rfl]
          rfl
        refine ⟨l, rfl, h2, ?_, st, ?_, g.err⟩
        · rw [h1] at hl
          simp only [List.length_append, List.length_cons] at hl ⊢
          omega
        · obtain ⟨R, hi⟩ := g.inv
          refine ⟨R, ?_⟩
          rw [hw, List.append_assoc, List.append_assoc]
          rw [h1] at hi
          exact hi
      · right; right; right
        have hw : ({ s with start := s.start + s.window.length } : Scanner (Reader σ)).window = [] := by
          rw [← List.length_eq_zero_iff, window_length (by exact st)]
          simp only
          omega
        refine ⟨s.window, rfl, h2, h1, ⟨?_, st, ?_, g.err⟩, by simpa using h0, hw⟩
        · simp only; omega
        · obtain ⟨R, hi⟩ := g.inv
          refine ⟨R, ?_⟩
          rw [hw, List.append_nil]
          exact hi
    · cases h
  | @done s h he =>
    intro C g
    right; left
    rcases g.err with h0 | ⟨h1, h2, h3⟩
    · exact absurd h0 he
    · refine ⟨rfl, h1, ?_⟩
      unfold Scanner.split at h
      rw [if_pos (.inr he)] at h
      have hw := scanLines_none (x := s.window) (by rw [← h]; congr 1; simp [he])
      obtain ⟨R, hi⟩ := g.inv
      rw [hw, List.append_nil] at hi
      obtain ⟨p, q, cs, k1, k2, k3, k4⟩ := invD_end hi h2 h3
      exact ⟨p, q, k1, by rw [From_dec k2, k3], k4⟩
  | @tooLong s h he hr =>
    intro C g
    left
    refine ⟨rfl, ?_⟩
    have : s.shift.err = none := by
      unfold Scanner.shift
      split <;> exact he
    rw [Scanner.setErr, if_pos (.inl this)]
  | @more s s1 s2 t s3 h he hr hf _ ih =>
    intro C g
    obtain ⟨r1, r2, r3, r4, r5⟩ := room_some g.le g.stop hr
    refine ih (gives_fill (s := s1) ⟨r2, Nat.le_of_lt r3, ?_, .inl (r4.trans he)⟩ (r4.trans he) r3 hf)
    rw [r1, r5]
    exact g.inv

theorem gives_scanAll {src : Source σ} {D : Str} {e : Err} {M : Nat} {s : Scanner (Reader σ)} {ts : List Str} {err : Option Err}
    (hs : ScanAll (Returns src) M s ts err) : ∀ {C : Str}, Gives src D e s C →
    err = some errTooLong ∨ (err = (if e = .eof then none else some e) ∧
      ∃ p q Y, D = p ++ q ∧ (q = [] ∨ Truncated q) ∧ From p = (C ++ Y, none) ∧ Lines Y ts) := by
  induction hs with
  | @stop s s' h =>
    intro C g
    rcases gives_scan h g with ⟨_, h1⟩ | ⟨_, h1, p, q, h2, h3, h4⟩ | ⟨l, h1, _⟩ | ⟨l, h1, _⟩
    · left
      rw [h1]
      rfl
    · right
      refine ⟨?_, p, q, [], h2, h4, by rw [List.append_nil]; exact h3, .nil⟩
      rw [h1]
      by_cases he : e = .eof <;> simp [he]
    · cases h1
    · cases h1
  | @next s t s' ts err h hs ih =>
    intro C g
    rcases gives_scan h g with ⟨h1, _⟩ | ⟨h1, _⟩ | ⟨l, h1, h2, h3⟩ | ⟨l, h1, h2, h3, h4, h5, h6⟩
    · cases h1
    · cases h1
    · injection h1 with h1
      subst h1
      rcases ih h3 with h | ⟨h, p, q, Y, k1, k2, k3, k4⟩
      · exact .inl h
      · refine .inr ⟨h, p, q, l ++ 10 :: Y, k1, k2, ?_, .line h2 (dropCR_noCR l) k4⟩
        rw [k3]
        simp
    · injection h1 with h1
      subst h1
      have sp : s'.split = none := by
        unfold Scanner.split
        split
        · rw [h6]
          simp [scanLines, h5]
        · rfl
      have hts : ts = [] := by
        cases hs with
        | stop => rfl
        | next h' _ =>
          cases h' with
          | token h'' => rw [sp] at h''; cases h''
          | more _ h'' => exact absurd h'' h5
      subst hts
      rcases ih h4 with h | ⟨h, p, q, Y, k1, k2, k3, k4⟩
      · exact .inl h
      · cases k4
        refine .inr ⟨h, p, q, l, k1, k2, ?_, .last h3 h2 (dropCR_noCR l)⟩
        rw [k3, List.append_nil]

/-! ## C120 -/

/-- What holds, for every stream, cut off or not, in whatever pieces and however it ends: if the scanner does not stop at a line that
is too long, then `Err()` is the source's error (nil for the end of file), and the lines are those of a beginning of the text,
the rest being nothing, or a piece that ends inside a character. Missing: an error for a text that is cut off. -/
theorem C120_lines_partial (src : Source σ) (e : Err) (s : σ) (D : Str) (h : Delivers src e s D) (b : Str) (M : Nat)
    (ts : List Str) (err : Option Err) (hs : ScanAll (Returns src) M (NewScanner (NewReader s) b) ts err) :
    err = some errTooLong ∨ (err = (if e = .eof then none else some e) ∧
      ∃ p q T, D = p ++ q ∧ (q = [] ∨ Truncated q) ∧ From p = (T, none) ∧ Lines T ts) := by
  have h0 : Gives src D e (NewScanner (NewReader s) b) [] :=
    ⟨Nat.le_refl _, Nat.zero_le _, ⟨D, by simpa [NewScanner, Scanner.window] using invD_new h⟩, .inl rfl⟩
  exact gives_scanAll hs h0

/-- FALSE as stated (1): `Err()` never says that a text was cut off. -/
theorem C120_never_told_fails (src : Source σ) (s : σ) (D : Str) (h : Delivers src .eof s D) (b : Str) (M : Nat)
    (ts : List Str) (err : Option Err) (hs : ScanAll (Returns src) M (NewScanner (NewReader s) b) ts err) :
    err = none ∨ err = some errTooLong := by
  rcases C120_lines_partial src .eof s D h b M ts err hs with h | ⟨h, _⟩
  · exact .inr h
  · exact .inl h

theorem truncated_ne {D : Str} (h : Truncated D) : D ≠ [] := by
  cases h <;> simp

/-- C42, FALSE as stated: if a text that is cut off comes in one piece that fits the buffer, the whole of it is lost, and the end
of the file is reported at once. -/
theorem C42_all_lost_fails (D : Str) (hD : Truncated D) (buf : Str) (hb : D.length ≤ buf.length) :
    ∃ r, Returns chunked (NewReader [D]) buf 0 (some .eof) buf r := by
  have hne := truncated_ne hD
  have hl := List.length_pos_iff.2 hne
  have hF := fromTranslate_truncated hD
  have h1 : fill chunked (NewReader [D]) buf.length = some ⟨[], [], D, buf.length, none⟩ := by
    have hcap : ensureCapCap 0 buf.length = buf.length := by
      rw [ensureCapCap, if_neg (by omega), if_pos rfl]
    unfold fill
    simp only [NewReader, List.length_nil, Nat.zero_add, hcap, Nat.sub_zero, chunked, if_pos hb, List.nil_append]
    rw [if_neg (by omega)]
  have c1 : convert (⟨[], [], D, buf.length, none⟩ : Reader (List Str)) = ⟨[], [], D, buf.length, none⟩ := by
    unfold convert
    simp [hF]
  obtain ⟨cap, hcap⟩ : ∃ cap, ensureCapCap buf.length (D.length + buf.length) = cap := ⟨_, rfl⟩
  have hge : D.length + buf.length ≤ cap := by rw [← hcap]; exact ensureCapCap_ge ..
  have h2 : fill chunked ⟨[], [], D, buf.length, none⟩ buf.length = some ⟨[], [], D, cap, some .eof⟩ := by
    unfold fill
    simp only [hcap, chunked, List.append_nil, List.length_nil, Nat.add_zero]
    rw [if_pos (by omega)]
    simp
  have c2 : convert (⟨[], [], D, cap, some .eof⟩ : Reader (List Str)) = ⟨[], [], [], cap, some .eof⟩ := by
    unfold convert
    simp [hF]
  refine ⟨⟨[], [], [], cap, some .eof⟩, 3, ?_⟩
  rw [readLoop, if_neg (by simp [NewReader]), if_pos (show (NewReader [D]).err = none from rfl), h1]
  simp only
  rw [c1, readLoop, if_neg (by simp), if_pos rfl, h2]
  simp only
  rw [c2, readLoop, if_neg (by simp), if_neg (by simp), if_pos (by simp)]

/-- FALSE as stated (2): of a file of at most 4096 bytes that is cut off inside a character, read at once, the scanner gives no
line at all, and `Err()` is nil, as if the file were empty. (The scanner's maximum `M` is 65536 unless `Buffer` is called.) -/
theorem C120_all_lost_fails (D : Str) (hD : Truncated D) (hl : D.length ≤ 4096) (M : Nat) (hM : 4096 ≤ M) (ts : List Str)
    (err : Option Err) :
    ScanAll (Returns chunked) M (NewScanner (NewReader [D]) []) ts err ↔ ts = [] ∧ err = none := by
  have key : ScanAll (Returns chunked) M (NewScanner (NewReader [D]) []) [] none := by
    obtain ⟨r, hr⟩ := C42_all_lost_fails D hD (List.replicate 4096 0) (by rw [List.length_replicate]; exact hl)
    have hz : (copy (List.replicate 4096 0) []).1 = List.replicate 4096 0 := by simp only [copy, List.take_nil, List.nil_append,
      List.length_nil, Nat.min_zero, List.drop_zero]
    have hs : (NewScanner (NewReader [D]) []).shift.resize M = some ⟨NewReader [D], List.replicate 4096 0, 0, 0, none⟩ := by
      have e1 : (NewScanner (NewReader [D]) []).shift = NewScanner (NewReader [D]) [] := rfl
      rw [e1, Scanner.resize, if_pos (by simp [NewScanner]),
        if_neg (by simp only [NewScanner, List.length_nil]; omega)]
      have hw : (NewScanner (NewReader [D]) []).window = [] := rfl
      simp only [hw]
      simp only [NewScanner, List.length_nil, Nat.zero_mul, if_true, Nat.min_eq_left hM, hz, Nat.sub_zero]
    generalize List.replicate 4096 (0 : Byte) = z at hr hs
    have hf : FillLoop (Returns chunked) 0 ⟨NewReader [D], z, 0, 0, none⟩ ⟨r, z, 0, 0, some .eof⟩ :=
      .err (n := 0) (s := ⟨NewReader [D], z, 0, 0, none⟩) hr (Nat.zero_le _)
    exact .stop (s' := ⟨r, z, 0, 0, some .eof⟩) (.more rfl rfl hs hf (.done rfl (by simp)))
  constructor
  · intro h
    obtain ⟨rfl, rfl⟩ := scanAll_det h key
    exact ⟨rfl, rfl⟩
  · rintro ⟨rfl, rfl⟩
    exact key

/-- A line, and 가 of which the second byte is missing. -/
example : Truncated [0x41, 0x0A, 0xB0] ∧ Delivers chunked .eof [[0x41, 0x0A, 0xB0]] [0x41, 0x0A, 0xB0] ∧
    Truncated [0xB0] ∧ From [0x41, 0x0A] = ([0x41, 0x0A], none) ∧ Lines [0x41, 0x0A] [[0x41]] := by
  refine ⟨.ascii (by decide) (.ascii (by decide) (.lone (by decide))), chunked_delivers [[0x41, 0x0A, 0xB0]] (by simp),
    .lone (by decide), (C34_ascii _ (by decide)).1, ?_⟩
  refine .line (l := [0x41]) (by decide) (.other ?_) .nil
  intro l' h
  have := congrArg List.getLast? h
  simp at this

end Props
