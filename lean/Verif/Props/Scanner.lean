import Verif.Env.Scanner
import Verif.Spec.Lines
import Verif.Props.Reader
/-! C96: a bufio.Scanner on a Reader. -/
namespace Props
open Go Cp949 Spec GoIo

variable {σ : Type}

/-! ## What a reader still has to deliver -/

/-- The text `X` is still to come from the reader, and then the error `e`. -/
def Left (src : Source σ) (D T : Str) (e : Err) (r : Reader σ) (X : Str) : Prop :=
  ∃ O R, InvD src D e O R r ∧ T = O ++ X

theorem invD_prefix {src : Source σ} {D T : Str} {e : Err} (hT : From D = (T, none)) {O R : Str} {r : Reader σ}
    (h : InvD src D e O R r) : ∃ X, T = O ++ X := by
  obtain ⟨p, cs, h1, h2, h3⟩ := h
  have key : ∀ q, D = p ++ q → ∃ X, T = O ++ X := by
    intro q hq
    have hp := From_dec h1
    have := C32_concat p q (by rw [hp])
    rw [← hq, hT] at this
    split at this
    · rw [hp, h2] at this
      have := (Prod.mk.inj this).1
      exact ⟨_, by rw [this, List.append_assoc]⟩
    · rename_i hn
      exact absurd (Prod.mk.inj this).2.symm hn
  rcases h3 with ⟨-, -, h⟩ | ⟨-, -, -, q, h, -⟩
  · exact key _ h
  · exact key _ h

theorem left_new {src : Source σ} {D T : Str} {e : Err} {s : σ} (h : Delivers src e s D) :
    Left src D T e (NewReader s) T := ⟨[], D, invD_new h, rfl⟩

/-- A call of `Read` with room. -/
theorem left_read {src : Source σ} {D T : Str} {e : Err} (hT : From D = (T, none)) {r : Reader σ} {X buf : Str}
    (h : Left src D T e r X) (hb : buf ≠ []) :
    ∃ n err buf' r' X', Returns src r buf n err buf' r' ∧ buf'.length = buf.length ∧ n ≤ buf.length ∧
      X = buf'.take n ++ X' ∧ Left src D T e r' X' ∧
      ((0 < n ∧ err = none) ∨ (n = 0 ∧ err = some e ∧ X' = [])) := by
  obtain ⟨O, R, h, hX⟩ := h
  obtain ⟨n, err, buf', r', R', h1, h2, h3⟩ := invD_read hb R.length (Nat.le_refl _) h
  obtain ⟨X', hX'⟩ := invD_prefix hT h2
  have hr : Returns src r buf n err buf' r' := ⟨_, h1⟩
  obtain ⟨c1, c2, -⟩ := C43_contract src r buf n err buf' r' hr
  have hXX : X = buf'.take n ++ X' := by
    rw [hX, List.append_assoc] at hX'
    exact List.append_cancel_left hX'
  refine ⟨n, err, buf', r', X', hr, c2, c1, hXX, ⟨_, R', h2, hX'⟩, ?_⟩
  rcases h3 with ⟨h3, -, h4⟩ | ⟨rfl, h4, h5, h6⟩
  · exact .inl ⟨h3, h4⟩
  · refine .inr ⟨rfl, h4, ?_⟩
    obtain ⟨p, q, cs, hpq, hp, hcs, hq⟩ := invD_end h2 h5 h6
    rcases hq with rfl | hq
    · rw [List.append_nil] at hpq
      rw [hpq, From_dec hp, hcs] at hT
      have := (Prod.mk.inj hT).1
      rw [hX'] at this
      exact List.append_right_eq_self.1 this.symm
    · rw [hpq, From_truncated (truncated_append hp hq)] at hT
      cases (Prod.mk.inj hT).2

/-! ## The lines -/

theorem dropCR_noCR (l : Str) : NoCR l (dropCR l) := by
  unfold dropCR
  split
  · rename_i h
    have : l = l.dropLast ++ [13] := by
      have hne : l ≠ [] := by rintro rfl; cases h
      rw [List.getLast?_eq_some_getLast hne] at h
      injection h with h
      rw [← h, List.dropLast_concat_getLast]
    conv => arg 1; rw [this]
    exact .cr _
  · rename_i h
    refine .other ?_
    rintro l' rfl
    exact h (by simp)

theorem noCR_eq {l l' : Str} (h : NoCR l l') : l' = dropCR l := by
  unfold dropCR
  cases h with
  | cr => simp
  | other h =>
    rw [if_neg]
    intro hl
    have hne : l ≠ [] := by rintro rfl; cases hl
    rw [List.getLast?_eq_some_getLast hne] at hl
    injection hl with hl
    exact h l.dropLast (by rw [← hl, List.dropLast_concat_getLast])

theorem indexNL_none {x : Str} : indexNL x = none ↔ 10 ∉ x := by
  induction x with
  | nil => simp [indexNL]
  | cons b bs ih =>
    unfold indexNL
    by_cases hb : b = 10
    · simp [hb]
    · simp only [if_neg hb, Option.map_eq_none_iff, ih, List.mem_cons, not_or]
      exact ⟨fun h => ⟨fun h' => hb h'.symm, h⟩, fun h => h.2⟩

theorem indexNL_some {l x : Str} (h : 10 ∉ l) : indexNL (l ++ 10 :: x) = some l.length := by
  induction l with
  | nil => simp [indexNL]
  | cons b bs ih =>
    rw [List.mem_cons, not_or] at h
    rw [List.cons_append, indexNL, if_neg (fun h' => h.1 h'.symm), ih h.2]
    rfl

theorem first_line {x : Str} (h : 10 ∈ x) : ∃ l y, x = l ++ 10 :: y ∧ 10 ∉ l := by
  induction x with
  | nil => cases h
  | cons b bs ih =>
    by_cases hb : b = 10
    · exact ⟨[], bs, by rw [hb]; rfl, by simp⟩
    · rcases List.mem_cons.1 h with h | h
      · exact (hb h.symm).elim
      · obtain ⟨l, y, h1, h2⟩ := ih h
        exact ⟨b :: l, y, by rw [h1]; rfl, by
          rw [List.mem_cons, not_or]; exact ⟨fun h' => hb h'.symm, h2⟩⟩

theorem first_line_unique {l l' x x' : Str} (h : 10 ∉ l) (h' : 10 ∉ l') (e : l ++ 10 :: x = l' ++ 10 :: x') :
    l = l' ∧ x = x' := by
  have := congrArg indexNL e
  rw [indexNL_some h, indexNL_some h'] at this
  injection this with this
  obtain ⟨h1, h2⟩ := List.append_inj e this
  exact ⟨h1, (List.cons.inj h2).2⟩

theorem lines_exist (t : Str) : ∃ ls, Lines t ls := by
  generalize hn : t.length = n
  induction n using Nat.strongRecOn generalizing t with
  | ind n ih =>
    by_cases h : 10 ∈ t
    · obtain ⟨l, y, rfl, hl⟩ := first_line h
      obtain ⟨ls, hls⟩ := ih y.length (by rw [← hn]; simp; omega) y rfl
      exact ⟨_, .line hl (dropCR_noCR l) hls⟩
    · by_cases h0 : t = []
      · exact ⟨[], h0 ▸ .nil⟩
      · exact ⟨_, .last h0 h (dropCR_noCR t)⟩

/-! ## The scanner -/

/-- The scanner holds `A`, and `X` is still to come. -/
structure Holds (src : Source σ) (D T : Str) (e : Err) (s : Scanner (Reader σ)) (A X : Str) : Prop where
  window : s.window = A
  le : s.start ≤ s.stop
  stop : s.stop ≤ s.buf.length
  state : (s.err = none ∧ Left src D T e s.r X) ∨ (s.err = some e ∧ X = [])

theorem window_length {ρ : Type} {s : Scanner ρ} (h : s.stop ≤ s.buf.length) : s.window.length = s.stop - s.start := by
  rw [Scanner.window, List.length_drop, List.length_take]; omega

theorem take_copy {a b : Str} (h : b.length ≤ a.length) : (copy a b).1.take b.length = b ∧ (copy a b).1.length = a.length := by
  simp only [copy, List.take_of_length_le h]
  exact ⟨List.take_left' rfl, by simp; omega⟩

/-- Before reading there is room. -/
theorem room_made {src : Source σ} {D T : Str} {e : Err} {s : Scanner (Reader σ)} {A X : Str} {M : Nat}
    (h : Holds src D T e s A X) (hA : A.length < M) :
    ∃ s1, s.shift.resize M = some s1 ∧ Holds src D T e s1 A X ∧ s1.stop < s1.buf.length ∧ s1.err = s.err := by
  have hw := h.window
  have hl := window_length h.stop
  rw [hw] at hl
  have le := h.le
  have st := h.stop
  by_cases hs : s.start > 0 ∧ (s.stop = s.buf.length ∨ s.start > s.buf.length / 2)
  · have e1 : s.shift = { s with buf := (copy s.buf A).1, start := 0, stop := s.stop - s.start } := by
      rw [Scanner.shift, if_pos hs, hw]
    obtain ⟨c1, c2⟩ := take_copy (a := s.buf) (b := A) (by omega)
    rw [e1, Scanner.resize, if_neg (by simp only [c2]; omega)]
    refine ⟨_, rfl, ⟨?_, by simp, by simp only [c2]; omega, h.state⟩, by simp only [c2]; omega, rfl⟩
    simp only [Scanner.window, List.drop_zero, ← hl]
    exact c1
  · have e1 : s.shift = s := by rw [Scanner.shift, if_neg hs]
    rw [e1, Scanner.resize]
    by_cases hf : s.stop = s.buf.length
    · have h0 : s.start = 0 := by omega
      rw [if_pos hf, if_neg (by omega), hw]
      generalize hN : min (if s.buf.length * 2 = 0 then 4096 else s.buf.length * 2) M = N
      have hN' : s.buf.length < N := by
        rw [← hN]; split <;> omega
      obtain ⟨c1, c2⟩ := take_copy (a := List.replicate N 0) (b := A) (by rw [List.length_replicate]; omega)
      rw [List.length_replicate] at c2
      refine ⟨_, rfl, ⟨?_, by simp, by simp only [hN, c2]; omega, h.state⟩, by simp only [hN, c2]; omega, rfl⟩
      simp only [Scanner.window, List.drop_zero, ← hl, hN]
      exact c1
    · rw [if_neg hf]
      exact ⟨s, rfl, h, by omega, rfl⟩

/-- Reading. -/
theorem scan_filled {src : Source σ} {D T : Str} {e : Err} (hT : From D = (T, none)) {s : Scanner (Reader σ)} {A X : Str}
    (h : Holds src D T e s A X) (he : s.err = none) (hr : s.stop < s.buf.length) :
    ∃ s2 A' X', FillLoop (Returns src) 0 s s2 ∧ Holds src D T e s2 A' X' ∧ A' ++ X' = A ++ X ∧
      (s2.err = some e ∨ X'.length < X.length) := by
  have hleft : Left src D T e s.r X := by
    rcases h.state with h' | h'
    · exact h'.2
    · rw [he] at h'; cases h'.1
  have hne : s.buf.drop s.stop ≠ [] := by
    intro h0
    have := congrArg List.length h0
    rw [List.length_drop, List.length_nil] at this
    omega
  obtain ⟨n, err, b, r', X', h1, h2, h3, h4, h5, h6⟩ := left_read hT hleft hne
  rw [List.length_drop] at h2 h3
  have hlen : (s.buf.take s.stop).length = s.stop := by rw [List.length_take]; omega
  have hwin : ((s.buf.take s.stop ++ b).take (s.stop + n)).drop s.start = A ++ b.take n := by
    rw [← h.window, Scanner.window, show s.stop + n = (s.buf.take s.stop).length + n by rw [hlen],
      List.take_length_add_append, List.drop_append_of_le_length (by rw [hlen]; exact h.le)]
  have hb : (s.buf.take s.stop ++ b).length = s.buf.length := by
    rw [List.length_append, hlen, h2]; omega
  have le := h.le
  rcases h6 with ⟨h6, rfl⟩ | ⟨rfl, rfl, rfl⟩
  · refine ⟨_, A ++ b.take n, X', .data h1 h3 h6, ⟨hwin, ?_, ?_, .inl ⟨he, h5⟩⟩, by rw [h4, List.append_assoc], .inr ?_⟩
    · simp only; omega
    · simp only [hb]; omega
    · rw [h4, List.length_append, List.length_take]; omega
  · have e1 : ({ s with r := r', buf := s.buf.take s.stop ++ b, stop := s.stop + 0 } : Scanner (Reader σ)).setErr e =
        { s with r := r', buf := s.buf.take s.stop ++ b, stop := s.stop + 0, err := some e } := by
      rw [Scanner.setErr, if_pos (.inl he)]
    refine ⟨_, A ++ b.take 0, [], .err h1 h3, ?_, by rw [h4, List.append_assoc], .inl ?_⟩
    · rw [e1]
      exact ⟨hwin, by simp only; omega, by simp only [hb]; omega, .inr ⟨rfl, rfl⟩⟩
    · rw [e1]

/-- One call of `Scan`, by what is left of the text. -/
theorem scan_step {src : Source σ} {D T : Str} {e : Err} (hT : From D = (T, none)) {M : Nat} (N : Nat) :
    ∀ {s : Scanner (Reader σ)} {A X : Str}, Holds src D T e s A X → ShortLines M (A ++ X) →
      (if s.err = none then X.length + 1 else 0) ≤ N →
      (A ++ X = [] → ∃ s', Scan (Returns src) M s none s' ∧ s'.err = some e) ∧
      (∀ l rest, A ++ X = l ++ 10 :: rest → 10 ∉ l →
        ∃ s' A' X', Scan (Returns src) M s (some (dropCR l)) s' ∧ Holds src D T e s' A' X' ∧ A' ++ X' = rest) ∧
      (A ++ X ≠ [] → 10 ∉ A ++ X →
        ∃ s' A' X', Scan (Returns src) M s (some (dropCR (A ++ X))) s' ∧ Holds src D T e s' A' X' ∧ A' ++ X' = []) := by
  induction N with
  | zero =>
    intro s A X h hS hN
    have he : s.err = some e ∧ X = [] := by
      rcases h.state with h' | h'
      · rw [if_pos h'.1] at hN; omega
      · exact h'
    obtain ⟨he, rfl⟩ := he
    have hl := window_length h.stop
    rw [h.window] at hl
    have le := h.le
    have sp : s.split = scanLines A true := by
      rw [Scanner.split, if_pos (.inr (by rw [he]; simp)), h.window, he]
      rfl
    rw [List.append_nil] at *
    refine ⟨?_, ?_, ?_⟩
    · rintro rfl
      exact ⟨_, .done (by rw [sp]; rfl) (by rw [he]; simp), he⟩
    · rintro l rest rfl hl'
      have : s.split = some (l.length + 1, dropCR l) := by
        rw [sp, scanLines, if_neg (by simp), indexNL_some hl']
        simp
      refine ⟨_, rest, [], .token this, ⟨?_, ?_, h.stop, .inr ⟨he, rfl⟩⟩, by simp⟩
      · have hw := h.window
        simp only [Scanner.window] at hw ⊢
        rw [← List.drop_drop, hw, ← List.drop_drop, List.drop_left' rfl]
        rfl
      · simp only [List.length_append, List.length_cons] at hl ⊢
        omega
    · intro hne hn
      have : s.split = some (A.length, dropCR A) := by
        rw [sp, scanLines, if_neg (by simp [hne]), indexNL_none.2 hn]
        rfl
      refine ⟨_, [], [], .token this, ⟨?_, ?_, h.stop, .inr ⟨he, rfl⟩⟩, rfl⟩
      · have hw := h.window
        simp only [Scanner.window] at hw ⊢
        rw [← List.drop_drop, hw, List.drop_length]
      · simp only
        omega
  | succ N ih =>
    intro s A X h hS hN
    by_cases he : s.err = none
    · have hleft : Left src D T e s.r X := by
        rcases h.state with h' | h'
        · exact h'.2
        · rw [he] at h'; cases h'.1
      have hl := window_length h.stop
      rw [h.window] at hl
      have le := h.le
      rw [if_pos he] at hN
      by_cases hA : 10 ∈ A
      · obtain ⟨l, y, rfl, hl'⟩ := first_line hA
        have sp : s.split = some (l.length + 1, dropCR l) := by
          rw [Scanner.split, if_pos (.inl (by simp at hl; omega)), h.window, scanLines,
            if_neg (by simp), indexNL_some hl']
          simp
        refine ⟨fun h0 => by simp at h0, ?_, fun _ hn => by simp at hn⟩
        intro l2 rest e2 hl2
        rw [List.append_assoc, List.cons_append] at e2
        obtain ⟨rfl, rfl⟩ := first_line_unique hl' hl2 e2
        refine ⟨_, y, X, .token sp, ⟨?_, ?_, h.stop, .inl ⟨he, hleft⟩⟩, rfl⟩
        · have hw := h.window
          simp only [Scanner.window] at hw ⊢
          rw [← List.drop_drop, hw, ← List.drop_drop, List.drop_left' rfl]
          rfl
        · simp only [List.length_append, List.length_cons] at hl ⊢
          omega
      · have sp : s.split = none := by
          rw [Scanner.split]
          split
          · rw [h.window, scanLines, he, indexNL_none.2 hA]
            simp
          · rfl
        obtain ⟨s1, r1, h1, r2, r3⟩ := room_made h (hS [] A X (by simp) hA)
        obtain ⟨s2, A', X', f1, h2, f2, f3⟩ := scan_filled hT h1 (r3.trans he) r2
        have hN' : (if s2.err = none then X'.length + 1 else 0) ≤ N := by
          rcases f3 with f3 | f3
          · rw [f3]; simp
          · split <;> omega
        obtain ⟨i1, i2, i3⟩ := ih h2 (by rw [f2]; exact hS) hN'
        rw [f2] at i1 i2 i3
        refine ⟨fun h0 => ?_, fun l rest e2 hl2 => ?_, fun hne hn => ?_⟩
        · obtain ⟨s', g, g'⟩ := i1 h0
          exact ⟨s', .more sp he r1 f1 g, g'⟩
        · obtain ⟨s', A2, X2, g, g'⟩ := i2 l rest e2 hl2
          exact ⟨s', A2, X2, .more sp he r1 f1 g, g'⟩
        · obtain ⟨s', A2, X2, g, g'⟩ := i3 hne hn
          exact ⟨s', A2, X2, .more sp he r1 f1 g, g'⟩
    · exact ih h hS (by rw [if_neg he]; omega)

theorem scan_lines {src : Source σ} {D T : Str} {e : Err} (hT : From D = (T, none)) {M : Nat} {t : Str} {ls : List Str}
    (hl : Lines t ls) : ∀ {s : Scanner (Reader σ)} {A X : Str}, Holds src D T e s A X → A ++ X = t → ShortLines M t →
      ScanAll (Returns src) M s ls (if e = .eof then none else some e) := by
  induction hl with
  | nil =>
    intro s A X h ht hS
    obtain ⟨s', g1, g2⟩ := (scan_step hT _ h (by rw [ht]; exact hS) (Nat.le_refl _)).1 ht
    have := ScanAll.stop g1
    rw [g2] at this
    simpa using this
  | @last l l' h0 hn hc =>
    intro s A X h ht hS
    obtain ⟨s', A', X', g1, g2, g3⟩ := (scan_step hT _ h (by rw [ht]; exact hS) (Nat.le_refl _)).2.2
      (by rw [ht]; exact h0) (by rw [ht]; exact hn)
    obtain ⟨s2, k1, k2⟩ := (scan_step (M := M) hT _ g2 (by
      rw [g3]
      intro a x b e _
      have : x = [] := by
        have := (List.append_eq_nil_iff.1 e.symm).1
        exact (List.append_eq_nil_iff.1 this).2
      rw [this]
      have := hS [] l [] (by simp) hn
      simp only [List.length_nil]
      omega) (Nat.le_refl _)).1 g3
    have := ScanAll.stop k1
    rw [k2] at this
    rw [noCR_eq hc, ← ht]
    exact .next g1 (by simpa using this)
  | @line l l' rest ls hn hc _ ih =>
    intro s A X h ht hS
    obtain ⟨s', A', X', g1, g2, g3⟩ := (scan_step hT _ h (by rw [ht]; exact hS) (Nat.le_refl _)).2.1 l rest ht hn
    rw [noCR_eq hc]
    refine .next g1 (ih g2 g3 ?_)
    intro a x b e hx
    exact hS (l ++ 10 :: a) x b (by rw [e]; simp) hx

theorem fill_det {src : Source σ} {k : Nat} {s s1 : Scanner (Reader σ)} (h : FillLoop (Returns src) k s s1) :
    ∀ {s2}, FillLoop (Returns src) k s s2 → s1 = s2 := by
  induction h with
  | bad h b =>
    intro s2 h'
    cases h' with
    | bad h' b' => obtain ⟨rfl, rfl, rfl, rfl⟩ := Returns_det h h'; rfl
    | err h' b' => obtain ⟨rfl, rfl, rfl, rfl⟩ := Returns_det h h'; omega
    | data h' b' => obtain ⟨rfl, rfl, rfl, rfl⟩ := Returns_det h h'; omega
    | again h' => obtain ⟨rfl, rfl, rfl, rfl⟩ := Returns_det h h'; omega
    | noProgress h' => obtain ⟨rfl, rfl, rfl, rfl⟩ := Returns_det h h'; omega
  | err h b =>
    intro s2 h'
    cases h' with
    | bad h' b' => obtain ⟨rfl, rfl, rfl, rfl⟩ := Returns_det h h'; omega
    | err h' b' => obtain ⟨rfl, he, rfl, rfl⟩ := Returns_det h h'; cases he; rfl
    | data h' b' => obtain ⟨rfl, he, rfl, rfl⟩ := Returns_det h h'; cases he
    | again h' => obtain ⟨rfl, he, rfl, rfl⟩ := Returns_det h h'; cases he
    | noProgress h' => obtain ⟨rfl, he, rfl, rfl⟩ := Returns_det h h'; cases he
  | data h b c =>
    intro s2 h'
    cases h' with
    | bad h' b' => obtain ⟨rfl, rfl, rfl, rfl⟩ := Returns_det h h'; omega
    | err h' b' => obtain ⟨rfl, he, rfl, rfl⟩ := Returns_det h h'; cases he
    | data h' b' => obtain ⟨rfl, he, rfl, rfl⟩ := Returns_det h h'; rfl
    | again h' => obtain ⟨rfl, he, rfl, rfl⟩ := Returns_det h h'; omega
    | noProgress h' => obtain ⟨rfl, he, rfl, rfl⟩ := Returns_det h h'; omega
  | again h b _ ih =>
    intro s2 h'
    cases h' with
    | bad h' b' => obtain ⟨rfl, rfl, rfl, rfl⟩ := Returns_det h h'; omega
    | err h' b' => obtain ⟨rfl, he, rfl, rfl⟩ := Returns_det h h'; cases he
    | data h' b' => obtain ⟨rfl, he, rfl, rfl⟩ := Returns_det h h'; omega
    | again h' _ g => obtain ⟨_, he, rfl, rfl⟩ := Returns_det h h'; exact ih g
    | noProgress h' => omega
  | noProgress h b =>
    intro s2 h'
    cases h' with
    | bad h' b' => obtain ⟨rfl, rfl, rfl, rfl⟩ := Returns_det h h'; omega
    | err h' b' => obtain ⟨rfl, he, rfl, rfl⟩ := Returns_det h h'; cases he
    | data h' b' => obtain ⟨rfl, he, rfl, rfl⟩ := Returns_det h h'; omega
    | again h' => omega
    | noProgress h' => obtain ⟨_, he, rfl, rfl⟩ := Returns_det h h'; rfl

theorem scan_det {src : Source σ} {M : Nat} {s s1 : Scanner (Reader σ)} {t : Option Str}
    (h : Scan (Returns src) M s t s1) : ∀ {t' s2}, Scan (Returns src) M s t' s2 → t = t' ∧ s1 = s2 := by
  induction h with
  | token h =>
    intro t' s2 h'
    cases h' with
    | token h' => rw [h] at h'; cases h'; exact ⟨rfl, rfl⟩
    | done h' => rw [h] at h'; cases h'
    | tooLong h' => rw [h] at h'; cases h'
    | more h' => rw [h] at h'; cases h'
  | done h e =>
    intro t' s2 h'
    cases h' with
    | token h' => rw [h] at h'; cases h'
    | done h' => exact ⟨rfl, rfl⟩
    | tooLong _ e' => exact absurd e' e
    | more _ e' => exact absurd e' e
  | tooLong h e r =>
    intro t' s2 h'
    cases h' with
    | token h' => rw [h] at h'; cases h'
    | done _ e' => exact absurd e e'
    | tooLong => exact ⟨rfl, rfl⟩
    | more _ _ r' => rw [r] at r'; cases r'
  | more h e r f _ ih =>
    intro t' s2 h'
    cases h' with
    | token h' => rw [h] at h'; cases h'
    | done _ e' => exact absurd e e'
    | tooLong _ _ r' => rw [r] at r'; cases r'
    | more _ _ r' f' g =>
      rw [r] at r'; cases r'
      cases fill_det f f'
      exact ih g

theorem scanAll_det {src : Source σ} {M : Nat} {s : Scanner (Reader σ)} {ts : List Str} {err : Option Err}
    (h : ScanAll (Returns src) M s ts err) : ∀ {ts' err'}, ScanAll (Returns src) M s ts' err' → ts = ts' ∧ err = err' := by
  induction h with
  | stop h =>
    intro ts' err' h'
    cases h' with
    | stop h' => obtain ⟨_, rfl⟩ := scan_det h h'; exact ⟨rfl, rfl⟩
    | next h' => cases (scan_det h h').1
  | next h _ ih =>
    intro ts' err' h'
    cases h' with
    | stop h' => cases (scan_det h h').1
    | next h' g =>
      obtain ⟨ht, rfl⟩ := scan_det h h'
      cases ht
      obtain ⟨rfl, rfl⟩ := ih g
      exact ⟨rfl, rfl⟩

/-! ## C96 -/

/-- C96: for every source that delivers `D` in whatever pieces and then reports `e`: if `From(D)` succeeds and no line of its text
is as long as the scanner's maximum (65536 unless `Buffer` is called; `b` is the scanner's initial buffer), then
`bufio.NewScanner(cp949.NewReader(src))` gives the lines of that text, in one way only, and `Err()` is nil if `e` is the end of
the stream and `e` otherwise. -/
theorem C96_lines (src : Source σ) (e : Err) (s : σ) (D T : Str) (h : Delivers src e s D) (hT : From D = (T, none))
    (b : Str) (M : Nat) (hS : ShortLines M T) (ls : List Str) (hl : Lines T ls) :
    (∃ ts err, ScanAll (Returns src) M (NewScanner (NewReader s) b) ts err) ∧
    ∀ ts err, ScanAll (Returns src) M (NewScanner (NewReader s) b) ts err →
      ts = ls ∧ (e = .eof → err = none) ∧ (e ≠ .eof → err = some e) := by
  have h0 : Holds src D T e (NewScanner (NewReader s) b) [] T :=
    ⟨by simp [NewScanner, Scanner.window], Nat.le_refl _, Nat.zero_le _, .inl ⟨rfl, left_new h⟩⟩
  have g := scan_lines (M := M) hT hl h0 rfl hS
  refine ⟨⟨_, _, g⟩, fun ts err g' => ?_⟩
  obtain ⟨rfl, rfl⟩ := scanAll_det g' g
  exact ⟨rfl, fun he => if_pos he, fun he => if_neg he⟩

/-- C96 applies: "A가", CR LF, "B" in two pieces, cut inside 가; the lines are "A가" and "B". -/
example : Delivers chunked .eof [[0x41, 0xB0], [0xA1, 0x0D, 0x0A, 0x42]] [0x41, 0xB0, 0xA1, 0x0D, 0x0A, 0x42] ∧
    From [0x41, 0xB0, 0xA1, 0x0D, 0x0A, 0x42] = ([0x41, 0xEA, 0xB0, 0x80, 0x0D, 0x0A, 0x42], none) ∧
    ShortLines 65536 [0x41, 0xEA, 0xB0, 0x80, 0x0D, 0x0A, 0x42] ∧
    Lines [0x41, 0xEA, 0xB0, 0x80, 0x0D, 0x0A, 0x42] [[0x41, 0xEA, 0xB0, 0x80], [0x42]] := by
  refine ⟨chunked_delivers [[0x41, 0xB0], [0xA1, 0x0D, 0x0A, 0x42]] (by decide), by decide +kernel, ?_, ?_⟩
  · intro a l b e _
    have := congrArg List.length e
    simp at this
    omega
  · exact .line (l := [0x41, 0xEA, 0xB0, 0x80, 0x0D]) (by decide) (.cr [0x41, 0xEA, 0xB0, 0x80])
      (.last (by decide) (by decide) (.other (by
        intro l' h
        have := congrArg List.getLast? h
        simp at this)))

/-- C96: every text has its lines, and only one list of them. -/
theorem C96_lines_of (t : Str) : ∃ ls, Lines t ls ∧ ∀ ls', Lines t ls' → ls' = ls := by
  obtain ⟨ls, h⟩ := lines_exist t
  refine ⟨ls, h, fun ls' h' => ?_⟩
  induction h generalizing ls' with
  | nil =>
    generalize hx : ([] : Str) = x at h'
    cases h' with
    | nil => rfl
    | last h0 => exact absurd hx.symm h0
    | line => simp at hx
  | @last l l1 h0 hn hc =>
    generalize hx : l = x at h'
    cases h' with
    | nil => exact absurd hx h0
    | last _ _ hc' => subst hx; rw [noCR_eq hc, noCR_eq hc']
    | line => subst hx; simp at hn
  | @line l l1 rest ls hn hc _ ih =>
    generalize hx : l ++ 10 :: rest = x at h'
    cases h' with
    | nil => simp at hx
    | last _ hn' => subst hx; simp at hn'
    | line hn' hc' g =>
      obtain ⟨rfl, rfl⟩ := first_line_unique hn hn' hx
      rw [noCR_eq hc, noCR_eq hc', ih _ g]

end Props
