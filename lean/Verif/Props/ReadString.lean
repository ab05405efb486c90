import Verif.Env.ReadString
import Verif.Spec.Parts
import Verif.Props.BufReader
/-! C116: lines of any length, read with bufio.Reader.ReadString. -/
namespace Props
open Go Cp949 Spec GoIo

variable {σ : Type}

theorem split_at_mem {d : Byte} {l : Str} (h : d ∈ l) : ∃ x y, l = x ++ d :: y ∧ d ∉ x := by
  induction l with
  | nil => cases h
  | cons a l ih =>
    by_cases ha : d = a
    · exact ⟨[], l, by rw [ha]; rfl, by simp⟩
    · obtain ⟨x, y, h1, h2⟩ := ih ((List.mem_cons.1 h).resolve_left ha)
      exact ⟨a :: x, y, by rw [h1]; rfl, by simp [ha, h2]⟩

theorem split_unique {d : Byte} : ∀ {x y x' y' : Str}, x ++ d :: y = x' ++ d :: y' → d ∉ x → d ∉ x' → x = x' ∧ y = y'
  | [], y, [], y', h, _, _ => ⟨rfl, (List.cons.inj h).2⟩
  | [], _, a :: x', _, h, _, h' => absurd (List.cons.inj h).1 (fun e => h' (by simp [e]))
  | a :: x, _, [], _, h, h', _ => absurd (List.cons.inj h).1 (fun e => h' (by simp [e]))
  | a :: x, y, a' :: x', y', h, h1, h2 => by
    obtain ⟨rfl, h'⟩ := List.cons.inj (show a :: (x ++ d :: y) = a' :: (x' ++ d :: y') from h)
    obtain ⟨e1, e2⟩ := split_unique (x := x) (x' := x') h' (fun m => h1 (by simp [m])) (fun m => h2 (by simp [m]))
    exact ⟨by rw [e1], e2⟩

/-- What a call of `ReadSlice` does: it finds the byte, or the text ends, or the buffer is full. -/
theorem readSlice_inBuf {src : Source σ} {D T : Str} {e : Err} (hT : From D = (T, none)) (d : Byte) (k : Nat) :
    ∀ {b : BufReader (Reader σ)} {W X : Str} {s : Nat}, InBuf src D T e b W X → s ≤ W.length → d ∉ W.take s →
      1 ≤ k → (b.err = none → b.buf.length - W.length + 2 ≤ k) →
    (∃ l b' W' X', ReadSlice (Returns src) d b s (l ++ [d]) none b' ∧ d ∉ l ∧ W ++ X = l ++ d :: (W' ++ X') ∧
        InBuf src D T e b' W' X') ∨
    (∃ b', ReadSlice (Returns src) d b s (W ++ X) (some e) b' ∧ d ∉ W ++ X) ∨
    (∃ l b' W' X', ReadSlice (Returns src) d b s l (some errBufferFull) b' ∧ l ≠ [] ∧ d ∉ l ∧ W ++ X = l ++ (W' ++ X') ∧
        InBuf src D T e b' W' X') := by
  induction k with
  | zero =>
    intro b W X s _ _ _ h
    omega
  | succ k ih =>
    intro b W X s h hs hd _ hk
    have hI := h
    obtain ⟨h1, h2, h3, h4, h5, h6⟩ := h
    have hlen := bufWindow_length h3
    rw [h1] at hlen
    by_cases hm : d ∈ W.drop s
    · obtain ⟨x, y, hx, hn⟩ := split_at_mem hm
      have hW : W = (W.take s ++ x) ++ d :: y := by
        rw [List.append_assoc, ← hx, List.take_append_drop]
      have hl : (W.take s ++ x).length = x.length + s := by
        rw [List.length_append, List.length_take]; omega
      have hwl := congrArg List.length hW
      rw [List.length_append, hl, List.length_cons] at hwl
      have := ReadSlice.found (read := Returns src) (delim := d) (b := b) (s := s) (by rw [h1]; exact hx) hn
      have hk1 : b.window.take (x.length + s + 1) = W.take s ++ x ++ [d] := by
        rw [h1, ← hl]
        generalize W.take s ++ x = z at hW ⊢
        rw [hW, List.take_length_add_append]
        rfl
      rw [hk1] at this
      refine .inl ⟨_, _, y, X, this, ?_, ?_, ?_, ?_, h3, h4, h5, h6⟩
      · rw [List.mem_append]; exact fun h => h.elim hd hn
      · conv => lhs; rw [hW]
        simp
      · show (b.buf.take b.stop).drop (b.start + _) = y
        rw [← List.drop_drop]
        have h1' : (b.buf.take b.stop).drop b.start = W := h1
        rw [h1', ← hl]
        generalize W.take s ++ x = z at hW ⊢
        rw [hW, List.drop_length_add_append]
        rfl
      · simp only; omega
    have hW : d ∉ W := by
      rw [← List.take_append_drop s W, List.mem_append]
      exact fun h => h.elim hd hm
    have hm' : d ∉ b.window.drop s := by rw [h1]; exact hm
    by_cases he : b.err = none
    · by_cases hf : b.stop - b.start ≥ b.buf.length
      · refine .inr (.inr ⟨W, { b with start := b.stop }, [], X, ?_, ?_, hW, rfl, ?_, Nat.le_refl _, h3, h4, h5, h6⟩)
        · have := ReadSlice.full (read := Returns src) (delim := d) hm' he hf
          have hb : b.buf = W := by
            rw [← h1, BufReader.window, show b.start = 0 by omega, List.drop_zero, List.take_of_length_le (by omega)]
          have hg : ∀ z, z = W → ReadSlice (Returns src) d b s z (some errBufferFull) { b with start := b.stop } →
              ReadSlice (Returns src) d b s W (some errBufferFull) { b with start := b.stop } := by
            rintro _ rfl h; exact h
          exact hg _ hb this
        · rintro rfl; simp at hlen; omega
        · simp [BufReader.window]
      · obtain ⟨b1, W1, X1, g1, g2, g3, g4, g5, g6⟩ := inBuf_fill hT hI he (by omega)
        obtain ⟨P, rfl⟩ := g6
        have hk' := hk he
        have := ih (s := b.stop - b.start) g3 (by rw [List.length_append]; omega)
          (by rw [← hlen, List.take_left]; exact hW) (by omega)
          (fun he' => by
            rcases g4 with g4 | g4
            · rw [g5]; omega
            · exact absurd he' g4)
        rw [← g2] at this
        rcases this with ⟨l, b', W', X', q1, q⟩ | ⟨b', q1, q⟩ | ⟨l, b', W', X', q1, q⟩
        · exact .inl ⟨l, b', W', X', .fill hm' he (by omega) g1 q1, q⟩
        · exact .inr (.inl ⟨b', .fill hm' he (by omega) g1 q1, q⟩)
        · exact .inr (.inr ⟨l, b', W', X', .fill hm' he (by omega) g1 q1, q⟩)
    · obtain ⟨h7, rfl⟩ := h6.resolve_left he
      have := ReadSlice.err (read := Returns src) (delim := d) hm' h7
      rw [h1] at this
      rw [List.append_nil]
      exact .inr (.inl ⟨_, this, hW⟩)

/-- What a call of `ReadString` does: it gives the text up to the byte, or all that is left and the error. -/
theorem readString_inBuf {src : Source σ} {D T : Str} {e : Err} (hT : From D = (T, none)) (he : e ≠ errBufferFull) (d : Byte)
    (k : Nat) : ∀ {b : BufReader (Reader σ)} {W X acc : Str}, InBuf src D T e b W X → (W ++ X).length < k →
    (d ∉ W ++ X → ∃ b', ReadString (Returns src) d b acc (acc ++ (W ++ X)) (some e) b') ∧
    ∀ l t, W ++ X = l ++ d :: t → d ∉ l → ∃ b' W' X', ReadString (Returns src) d b acc (acc ++ (l ++ [d])) none b' ∧
      InBuf src D T e b' W' X' ∧ W' ++ X' = t := by
  induction k with
  | zero => intro _ _ _ _ _ h; omega
  | succ k ih =>
    intro b W X acc h hk
    rcases readSlice_inBuf hT d _ h (Nat.zero_le _) (by simp) (by omega)
      (fun _ => Nat.le_refl _) with
      ⟨l, b', W', X', q1, q2, q3, q4⟩ | ⟨b', q1, q2⟩ | ⟨l, b', W', X', q1, q2, q3, q4, q5⟩
    · refine ⟨fun hd => absurd (by rw [q3]; simp) hd, fun l' t hl hd => ?_⟩
      rw [q3] at hl
      obtain ⟨rfl, rfl⟩ := split_unique hl q2 hd
      exact ⟨b', W', X', .found q1, q4, rfl⟩
    · refine ⟨fun _ => ⟨b', .err q1 he⟩, fun l' t hl _ => absurd (by rw [hl]; simp) q2⟩
    · have hl' := congrArg List.length q4
      rw [List.length_append (as := l)] at hl'
      have := List.length_pos_iff.2 q2
      have ih := ih (acc := acc ++ l) q5 (by omega)
      rw [q4]
      refine ⟨fun hd => ?_, fun l' t hlt hd => ?_⟩
      · obtain ⟨b'', hb⟩ := ih.1 (fun h => hd (List.mem_append_right _ h))
        rw [List.append_assoc] at hb
        exact ⟨b'', .full q1 hb⟩
      · obtain ⟨a, ha, ha'⟩ : ∃ a, l' = l ++ a ∧ W' ++ X' = a ++ d :: t := by
          rcases List.append_eq_append_iff.1 hlt with ⟨a, h1, h2⟩ | ⟨a, h1, h2⟩
          · exact ⟨a, h1, h2⟩
          · cases a with
            | nil => exact ⟨[], by simpa using h1.symm, h2.symm⟩
            | cons z a =>
              obtain ⟨rfl, -⟩ := List.cons.inj h2
              exact absurd (by rw [h1]; simp) q3
        subst ha
        obtain ⟨b'', W'', X'', g1, g2, g3⟩ := ih.2 a t ha' (fun h => hd (List.mem_append_right _ h))
        refine ⟨b'', W'', X'', .full q1 ?_, g2, g3⟩
        rw [List.append_assoc] at g1 ⊢
        exact g1

theorem readStrings_all {src : Source σ} {D T : Str} {e : Err} (hT : From D = (T, none)) (he : e ≠ errBufferFull) {d : Byte}
    {Y : Str} {ls : List Str} (hp : Parts d Y ls) :
    ∀ {b : BufReader (Reader σ)} {W X : Str}, InBuf src D T e b W X → W ++ X = Y → ReadStrings (Returns src) d b ls e := by
  induction hp with
  | last hd =>
    intro b W X h hY
    subst hY
    obtain ⟨b', hb⟩ := (readString_inBuf hT he d _ (acc := []) h (Nat.lt_succ_self _)).1 hd
    exact .stop hb
  | part hd _ ih =>
    intro b W X h hY
    obtain ⟨b', W', X', g1, g2, g3⟩ := (readString_inBuf hT he d _ (acc := []) h (Nat.lt_succ_self _)).2 _ _ hY hd
    exact .next g1 (ih g2 g3)

/-! ## One outcome only -/

theorem readSlice_det {src : Source σ} {d : Byte} {b b1 : BufReader (Reader σ)} {s : Nat} {l : Str} {err : Option Err}
    (h : ReadSlice (Returns src) d b s l err b1) : ∀ {l' err' b2}, ReadSlice (Returns src) d b s l' err' b2 →
      l = l' ∧ err = err' ∧ b1 = b2 := by
  induction h with
  | found h hn =>
    intro l' err' b2 h'
    cases h' with
    | found h' hn' => obtain ⟨rfl, -⟩ := split_unique (h.symm.trans h') hn hn'; exact ⟨rfl, rfl, rfl⟩
    | err h' => exact absurd (by rw [h]; simp) h'
    | full h' => exact absurd (by rw [h]; simp) h'
    | fill h' => exact absurd (by rw [h]; simp) h'
  | err h he =>
    intro l' err' b2 h'
    cases h' with
    | found h' => exact absurd (by rw [h']; simp) h
    | err _ he' => rw [he] at he'; cases he'; exact ⟨rfl, rfl, rfl⟩
    | full _ he' => rw [he] at he'; cases he'
    | fill _ he' => rw [he] at he'; cases he'
  | full h he hf =>
    intro l' err' b2 h'
    cases h' with
    | found h' => exact absurd (by rw [h']; simp) h
    | err _ he' => rw [he] at he'; cases he'
    | full => exact ⟨rfl, rfl, rfl⟩
    | fill _ _ hf' => omega
  | fill h he hf g _ ih =>
    intro l' err' b2 h'
    cases h' with
    | found h' => exact absurd (by rw [h']; simp) h
    | err _ he' => rw [he] at he'; cases he'
    | full _ _ hf' => omega
    | fill _ _ _ g' h' => cases bufFill_det g g'; exact ih h'

theorem readString_det {src : Source σ} {d : Byte} {b b1 : BufReader (Reader σ)} {acc l : Str} {err : Option Err}
    (h : ReadString (Returns src) d b acc l err b1) : ∀ {l' err' b2}, ReadString (Returns src) d b acc l' err' b2 →
      l = l' ∧ err = err' ∧ b1 = b2 := by
  induction h with
  | found h =>
    intro l' err' b2 h'
    cases h' with
    | found h' => obtain ⟨rfl, _, rfl⟩ := readSlice_det h h'; exact ⟨rfl, rfl, rfl⟩
    | err h' => obtain ⟨_, he, _⟩ := readSlice_det h h'; cases he
    | full h' => obtain ⟨_, he, _⟩ := readSlice_det h h'; cases he
  | err h hne =>
    intro l' err' b2 h'
    cases h' with
    | found h' => obtain ⟨_, he, _⟩ := readSlice_det h h'; cases he
    | err h' => obtain ⟨rfl, he, rfl⟩ := readSlice_det h h'; cases he; exact ⟨rfl, rfl, rfl⟩
    | full h' => obtain ⟨_, he, _⟩ := readSlice_det h h'; cases he; exact absurd rfl hne
  | full h _ ih =>
    intro l' err' b2 h'
    cases h' with
    | found h' => obtain ⟨_, he, _⟩ := readSlice_det h h'; cases he
    | err h' hne => obtain ⟨_, he, _⟩ := readSlice_det h h'; cases he; exact absurd rfl hne
    | full h' g => obtain ⟨rfl, _, rfl⟩ := readSlice_det h h'; exact ih g

theorem readStrings_det {src : Source σ} {d : Byte} {b : BufReader (Reader σ)} {ls : List Str} {e : Err}
    (h : ReadStrings (Returns src) d b ls e) : ∀ {ls' e'}, ReadStrings (Returns src) d b ls' e' → ls = ls' ∧ e = e' := by
  induction h with
  | stop h =>
    intro ls' e' h'
    cases h' with
    | stop h' => obtain ⟨rfl, he, _⟩ := readString_det h h'; cases he; exact ⟨rfl, rfl⟩
    | next h' => obtain ⟨_, he, _⟩ := readString_det h h'; cases he
  | next h _ ih =>
    intro ls' e' h'
    cases h' with
    | stop h' => obtain ⟨_, he, _⟩ := readString_det h h'; cases he
    | next h' g =>
      obtain ⟨rfl, _, rfl⟩ := readString_det h h'
      obtain ⟨rfl, rfl⟩ := ih g
      exact ⟨rfl, rfl⟩

/-! ## The excluded error -/

theorem readSlice_stays {src : Source σ} {D T : Str} (hT : From D = (T, none)) {d : Byte}
    {b b' : BufReader (Reader σ)} {s : Nat} {l : Str} {err : Option Err} (h : ReadSlice (Returns src) d b s l err b') :
    ∀ {W X : Str}, InBuf src D T errBufferFull b W X →
      (∀ e, err = some e → e = errBufferFull) ∧ ∃ W' X', InBuf src D T errBufferFull b' W' X' := by
  induction h with
  | @found b s x y hx hn =>
    rintro W X ⟨h1, h2, h3, h4, h5, h6⟩
    refine ⟨by simp, _, X, rfl, ?_, h3, h4, h5, h6⟩
    have hlen := bufWindow_length h3
    have := congrArg List.length hx
    rw [List.length_drop, List.length_append, List.length_cons] at this
    simp only; omega
  | err _ he =>
    rintro W X ⟨h1, h2, h3, h4, h5, h6⟩
    rw [he] at h6
    obtain ⟨h7, rfl⟩ := h6.resolve_left (by simp)
    exact ⟨fun e h => by cases h; exact Option.some.inj h7, _, [], rfl, Nat.le_refl _, h3, h4, h5, .inl rfl⟩
  | full _ he _ =>
    rintro W X ⟨h1, h2, h3, h4, h5, h6⟩
    exact ⟨fun e h => by cases h; rfl, _, X, rfl, Nat.le_refl _, h3, h4, h5, h6⟩
  | fill _ he hf g _ ih =>
    intro W X h
    obtain ⟨b1, W1, X1, g1, -, g3, -⟩ := inBuf_fill hT h he hf
    cases bufFill_det g g1
    exact ih g3

theorem readString_stays {src : Source σ} {D T : Str} (hT : From D = (T, none)) {d : Byte}
    {b b' : BufReader (Reader σ)} {acc l : Str} {err : Option Err} (h : ReadString (Returns src) d b acc l err b') :
    ∀ {W X : Str}, InBuf src D T errBufferFull b W X → err = none ∧ ∃ W' X', InBuf src D T errBufferFull b' W' X' := by
  induction h with
  | found h => intro W X hI; exact ⟨rfl, (readSlice_stays hT h hI).2⟩
  | err h hne => intro W X hI; exact absurd ((readSlice_stays hT h hI).1 _ rfl) hne
  | full h _ ih => intro W X hI; obtain ⟨_, _, hI'⟩ := (readSlice_stays hT h hI).2; exact ih hI'

/-! ## C116 -/

/-- C116: for every source that delivers `D` in whatever pieces and then reports `e`: if `From` decodes `D` to `T`, then
`ReadString(d)`, called again and again on `bufio.NewReader(cp949.NewReader(src))` until it returns an error, with a buffer of any
size from 4 bytes on (bufio has at least 16), gives the parts of `T`, the last of them together with `e`; and in one way only.
`d` may be any byte, and the parts may be of any length. An `e` equal to bufio.ErrBufferFull is excluded: `ReadString` takes that
for a full buffer of its own. -/
theorem C116_parts (src : Source σ) (e : Err) (s : σ) (D T : Str) (h : Delivers src e s D) (hT : From D = (T, none))
    (he : e ≠ errBufferFull) (d : Byte) (ls : List Str) (hl : Parts d T ls) (size : Nat) (hs : 4 ≤ size) :
    (∃ out e', ReadStrings (Returns src) d (NewBufReader (NewReader s) size) out e') ∧
    ∀ out e', ReadStrings (Returns src) d (NewBufReader (NewReader s) size) out e' → out = ls ∧ e' = e := by
  have h0 : InBuf src D T e (NewBufReader (NewReader s) size) [] T := by
    refine ⟨?_, Nat.le_refl _, Nat.zero_le _, ?_, left_new h, .inl rfl⟩
    · simp [NewBufReader, BufReader.window]
    · simpa [NewBufReader] using hs
  have g := readStrings_all hT he hl h0 (List.nil_append _)
  exact ⟨⟨_, _, g⟩, fun out e' g' => readStrings_det g' g⟩

/-- Every text has parts, in one way only, and they make up the text. -/
theorem C116_parts_of (d : Byte) (t : Str) :
    ∃ ls, Parts d t ls ∧ ls.flatten = t ∧ ∀ ls', Parts d t ls' → ls' = ls := by
  have ex : ∀ (n : Nat) (t : Str), t.length < n → ∃ ls, Parts d t ls ∧ ls.flatten = t := by
    intro n
    induction n with
    | zero => intro t h; omega
    | succ n ih =>
      intro t h
      by_cases hd : d ∈ t
      · obtain ⟨x, y, rfl, hx⟩ := split_at_mem hd
        rw [List.length_append, List.length_cons] at h
        obtain ⟨ls, h1, h2⟩ := ih y (by omega)
        exact ⟨_, .part hx h1, by simp [h2]⟩
      · exact ⟨_, .last hd, by simp⟩
  have un : ∀ {t : Str} {ls : List Str}, Parts d t ls → ∀ {ls'}, Parts d t ls' → ls' = ls := by
    intro t ls h
    induction h with
    | last hd =>
      intro ls' h'
      cases h' with
      | last => rfl
      | part => simp at hd
    | part hd _ ih =>
      rename_i l rest ls0 hp
      intro ls' h'
      generalize ht : l ++ d :: rest = t at h'
      cases h' with
      | last hd' => subst ht; simp at hd'
      | part hd' h' =>
        obtain ⟨rfl, rfl⟩ := split_unique ht hd hd'
        rw [ih h']
  obtain ⟨ls, h1, h2⟩ := ex _ t (Nat.lt_succ_self _)
  exact ⟨ls, h1, h2, fun ls' h' => un h1 h'⟩

/-- The condition on the error in C116 is needed: if the source ends with bufio.ErrBufferFull, the loop never comes to an end. -/
theorem C116_condition_needed (src : Source σ) (s : σ) (D T : Str) (h : Delivers src errBufferFull s D)
    (hT : From D = (T, none)) (d : Byte) (size : Nat) (hs : 4 ≤ size) :
    ¬ ∃ out e', ReadStrings (Returns src) d (NewBufReader (NewReader s) size) out e' := by
  have key : ∀ {b : BufReader (Reader σ)} {out : List Str} {e' : Err}, ReadStrings (Returns src) d b out e' →
      ∀ {W X : Str}, ¬ InBuf src D T errBufferFull b W X := by
    intro b out e' h
    induction h with
    | stop h => intro W X hI; have := (readString_stays hT h hI).1; cases this
    | next h _ ih => intro W X hI; obtain ⟨_, _, hI'⟩ := (readString_stays hT h hI).2; exact ih hI'
  rintro ⟨out, e', g⟩
  refine key g (W := []) (X := T) ⟨?_, Nat.le_refl _, Nat.zero_le _, ?_, left_new h, .inl rfl⟩
  · simp [NewBufReader, BufReader.window]
  · simpa [NewBufReader] using hs

/-- C116 applies: "A\n가" in two pieces, cut inside 가. -/
example : Delivers chunked .eof [[0x41, 0x0A, 0xB0], [0xA1]] [0x41, 0x0A, 0xB0, 0xA1] ∧
    (From [0x41, 0x0A, 0xB0, 0xA1]).2 = none ∧ Parts 0x0A [0x41, 0x0A, 0x42] [[0x41, 0x0A], [0x42]] ∧
    Err.eof ≠ errBufferFull := by
  refine ⟨chunked_delivers [[0x41, 0x0A, 0xB0], [0xA1]] (by decide), ?_,
    .part (l := [0x41]) (by decide) (.last (by decide)), by decide⟩
  rcases dec_cases [0x41, 0x0A, 0xB0, 0xA1] with ⟨cs, h⟩ | h
  · rw [From_dec h]
  · cases h with
    | ascii _ h => cases h with
      | ascii _ h => cases h with
        | ascii h _ => exact absurd h (by decide)
        | pair _ h => cases h
      | pair h _ => exact absurd h (by decide)
    | pair h _ => exact absurd h (by decide)

end Props
