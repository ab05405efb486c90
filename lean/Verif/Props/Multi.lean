import Verif.Env.Multi
import Verif.Spec.Calls
import Verif.Props.Scanner
/-! C103: several files read as one with io.MultiReader. -/
namespace Props
open Go Cp949 Spec GoIo

variable {σ : Type}

/-! ## A MultiReader below a Reader -/

theorem multi_nil (src : Source σ) : Delivers (multi src) .eof [] [] :=
  .mk _ _ (by intro k _; simp [multi]) (by intro k _ h; simp [multi] at h) (by intro k _ _; exact ⟨rfl, rfl⟩)
    (by intro k _ h; simp [multi] at h)

/-- A file before what is delivered anyway. -/
theorem multi_cons {src : Source σ} {s : σ} {D : Str} (h : Delivers src .eof s D) :
    ∀ {e : Err} {ss : List σ} {Ds : Str}, ss ≠ [] ∨ e = .eof → Delivers (multi src) e ss Ds → (ss = [] → Ds = []) →
      Delivers (multi src) e (s :: ss) (D ++ Ds) := by
  induction h with
  | mk s D size more last next ih =>
    intro e ss Ds hne hs hnil
    obtain ⟨_, _, size', more', last', next'⟩ := id hs
    -- what a call gives
    have key : ∀ k, 0 < k →
        ((src s k).2.1 = none ∧ multi src (s :: ss) k = ((src s k).1, none, (src s k).2.2 :: ss)) ∨
        ((src s k).1 = D ∧ D ≠ [] ∧ multi src (s :: ss) k = (D, if ss = [] then some .eof else none, ss)) ∨
        (D = [] ∧ multi src (s :: ss) k = multi src ss k) := by
      intro k hk
      rcases hx : src s k with ⟨bs, er, s'⟩
      have hm := more k hk
      have hl := last k hk
      rw [hx] at hm hl
      cases er with
      | none => exact .inl ⟨rfl, by simp [multi, hx]⟩
      | some er =>
        obtain ⟨h1, h2⟩ := hl (by simp)
        simp only at h1 h2
        cases h2
        subst h1
        by_cases hb : bs = []
        · exact .inr (.inr ⟨hb, by simp [multi, hx, hb]⟩)
        · exact .inr (.inl ⟨rfl, hb, by simp [multi, hx, hb]⟩)
    refine .mk _ _ ?_ ?_ ?_ ?_
    · intro k hk
      rcases key k hk with ⟨_, h⟩ | ⟨h0, _, h⟩ | ⟨_, h⟩
      · rw [h]; exact size k hk
      · rw [h]; rw [← h0]; exact size k hk
      · rw [h]; exact size' k hk
    · intro k hk hn
      rcases key k hk with ⟨h0, h⟩ | ⟨h0, h1, h⟩ | ⟨rfl, h⟩
      · rw [h]
        have := more k hk h0
        exact ⟨this.1, this.2.trans (List.prefix_append _ _)⟩
      · rw [h]; exact ⟨h1, List.prefix_append _ _⟩
      · rw [h] at hn ⊢; exact more' k hk hn
    · intro k hk hn
      rcases key k hk with ⟨h0, h⟩ | ⟨h0, h1, h⟩ | ⟨rfl, h⟩
      · rw [h] at hn; exact absurd rfl hn
      · rw [h] at hn ⊢
        by_cases hss : ss = []
        · rw [hnil hss]
          simp only [hss, if_true, List.append_nil, true_and]
          rcases hne with hne | hne
          · exact absurd hss hne
          · rw [hne]
        · simp [hss] at hn
      · rw [h] at hn ⊢; exact last' k hk hn
    · intro k hk hn
      rcases key k hk with ⟨h0, h⟩ | ⟨h0, h1, h⟩ | ⟨rfl, h⟩
      · rw [h]
        obtain ⟨t, ht⟩ := (more k hk h0).2
        have := ih k hk h0 hne hs hnil
        have hd : (D ++ Ds).drop (src s k).1.length = D.drop (src s k).1.length ++ Ds := by
          rw [List.drop_append_of_le_length]
          rw [← ht, List.length_append]; omega
        simp only
        rw [hd]
        exact this
      · rw [h]
        simp only [List.drop_left]
        exact hs
      · rw [h] at hn ⊢; exact next' k hk hn

theorem files_deliver {src : Source σ} {ss : List σ} {Ds : List Str} (h : Files src ss Ds) :
    Delivers (multi src) .eof ss Ds.flatten := by
  induction h with
  | nil => exact multi_nil src
  | cons h hs ih =>
    refine multi_cons h (.inr rfl) ih ?_
    rintro rfl
    cases hs
    rfl

/-- One source alone, ending in an error. -/
theorem multi_error {src : Source σ} {e : Err} (he : e ≠ .eof) {s : σ} {D : Str} (h : Delivers src e s D) (rest : List σ) :
    Delivers (multi src) e (s :: rest) D := by
  induction h with
  | mk s D size more last next ih =>
    have key : ∀ k, 0 < k → multi src (s :: rest) k = ((src s k).1, (src s k).2.1, (src s k).2.2 :: rest) := by
      intro k hk
      rw [multi, if_neg]
      intro h0
      have := (last k hk (by rw [h0]; simp)).2
      rw [h0] at this
      cases this
      exact he rfl
    refine .mk _ _ ?_ ?_ ?_ ?_
    · intro k hk; rw [key k hk]; exact size k hk
    · intro k hk hn; rw [key k hk] at hn ⊢; exact more k hk hn
    · intro k hk hn; rw [key k hk] at hn ⊢; exact last k hk hn
    · intro k hk hn; rw [key k hk] at hn ⊢; exact ih k hk hn

/-- C103: a Reader over a MultiReader reads the bytes of all files as one stream: with `D` their concatenation, all that C39–C45 and
C86–C102 say of a source that delivers `D` holds. -/
theorem C103_one_stream (src : Source σ) (ss : List σ) (Ds : List Str) (h : Files src ss Ds) :
    Delivers (multi src) .eof ss Ds.flatten := files_deliver h

/-- C103: a file that ends in an error ends the stream with that error; what comes after it is not looked at. -/
theorem C103_error (src : Source σ) (ss : List σ) (Ds : List Str) (h : Files src ss Ds) (e : Err) (he : e ≠ .eof) (s : σ)
    (D : Str) (hs : Delivers src e s D) (rest : List σ) :
    Delivers (multi src) e (ss ++ s :: rest) (Ds.flatten ++ D) := by
  induction h with
  | nil => exact multi_error he hs rest
  | cons h _ ih =>
    rw [List.cons_append, List.flatten_cons, List.append_assoc]
    exact multi_cons h (.inl (by simp)) ih (by simp)

/-- Decoding files joined between characters. -/
theorem from_files (Ds : List Str) (last : Str) (h : ∀ D ∈ Ds, (From D).2 = none) :
    (From (Ds.flatten ++ last)).2 = (From last).2 ∧
    ((From last).2 = none → (From (Ds.flatten ++ last)).1 = (Ds.map fun D => (From D).1).flatten ++ (From last).1) := by
  induction Ds with
  | nil => simp
  | cons D Ds ih =>
    obtain ⟨i1, i2⟩ := ih fun D hD => h D (List.mem_cons_of_mem _ hD)
    have hc := C32_concat D (Ds.flatten ++ last) (h D List.mem_cons_self)
    rw [List.flatten_cons, List.append_assoc, hc]
    by_cases hl : (From last).2 = none
    · rw [if_pos (i1.trans hl)]
      refine ⟨hl.symm, fun _ => ?_⟩
      simp only
      rw [i2 hl]
      simp
    · rw [if_neg (by rw [i1]; exact hl)]
      exact ⟨i1, fun h => absurd h hl⟩

/-! ## A MultiReader above Readers -/

/-- What the readers still have to deliver, one after the other. -/
inductive LeftAll (src : Source σ) : List (Reader σ) → Str → Prop
  | nil : LeftAll src [] []
  | cons {D T r X rs Y} : From D = (T, none) → Left src D T .eof r X → LeftAll src rs Y → LeftAll src (r :: rs) (X ++ Y)

theorem leftAll_read {src : Source σ} {rs : List (Reader σ)} {X : Str} (h : LeftAll src rs X) :
    ∀ {buf : Str}, buf ≠ [] → ∃ n err buf' rs' X', MultiRead (Returns src) rs buf n err buf' rs' ∧
      buf'.length = buf.length ∧ n ≤ buf.length ∧ X = buf'.take n ++ X' ∧ LeftAll src rs' X' ∧
      ((0 < n ∧ err = none) ∨ (n = 0 ∧ err = some .eof ∧ X' = [])) := by
  induction h with
  | nil => intro buf _; exact ⟨0, _, buf, [], [], .none, rfl, Nat.zero_le _, rfl, .nil, .inr ⟨rfl, rfl, rfl⟩⟩
  | @cons D T r X rs Y hT hr hs ih =>
    intro buf hb
    obtain ⟨n, err, buf', r', X', h1, h2, h3, h4, h5, h6⟩ := left_read hT hr hb
    rcases h6 with ⟨h6, rfl⟩ | ⟨rfl, rfl, rfl⟩
    · exact ⟨n, _, buf', _, X' ++ Y, .here h1 (by simp), h2, h3, by rw [h4, List.append_assoc], .cons hT h5 hs,
        .inl ⟨h6, rfl⟩⟩
    · have hX : X = [] := by simpa using h4
      obtain ⟨n, err, buf'', rs', X'', g1, g2, g3, g4, g5, g6⟩ := ih (buf := buf') (by
        intro h0
        rw [h0, List.length_nil] at h2
        exact hb (List.length_eq_zero_iff.1 h2.symm))
      exact ⟨n, err, buf'', rs', X'', .next h1 g1, g2.trans h2, by omega, by rw [hX, g4]; simp, g5, g6⟩

/-- From single calls to sequences of calls. -/
theorem calls_all {ρ : Type} {read : ρ → Str → Nat → Option Err → Str → ρ → Prop} {e : Err} (L : ρ → Str → Prop)
    (step : ∀ r X buf, L r X → buf ≠ [] → ∃ n err buf' r' X', read r buf n err buf' r' ∧ buf'.length = buf.length ∧
      n ≤ buf.length ∧ X = buf'.take n ++ X' ∧ L r' X' ∧ ((0 < n ∧ err = none) ∨ (n = 0 ∧ err = some e ∧ X' = [])))
    (bufs : List Str) (hb : ∀ b ∈ bufs, b ≠ []) : ∀ r X, L r X →
    ∃ good rest r', Calls read r bufs (good ++ rest) r' ∧
      (∀ x ∈ good, 0 < x.1 ∧ x.1 ≤ x.2.2.length ∧ x.2.1 = none) ∧ (∀ x ∈ rest, x.1 = 0 ∧ x.2.1 = some e) ∧
      delivered good <+: X ∧ (rest ≠ [] → delivered good = X) ∧ (X.length < bufs.length → rest ≠ []) ∧ (X = [] → good = []) := by
  induction bufs with
  | nil =>
    intro r X _
    exact ⟨[], [], r, .nil r, by simp, by simp, List.nil_prefix, by simp, by simp, fun _ => rfl⟩
  | cons b bufs ih =>
    intro r X h
    obtain ⟨n, err, buf', r', X', h1, h2, h3, h4, h5, h6⟩ := step r X b h (hb b List.mem_cons_self)
    obtain ⟨good, rest, r'', g1, g2, g3, g4, g5, g6, g7⟩ := ih (fun x hx => hb x (List.mem_cons_of_mem _ hx)) r' X' h5
    have hn : (buf'.take n).length = n := by rw [List.length_take]; omega
    rcases h6 with ⟨h6, rfl⟩ | ⟨rfl, rfl, rfl⟩
    · refine ⟨(n, none, buf') :: good, rest, r'', .cons h1 g1, ?_, g3, ?_, ?_, ?_, ?_⟩
      · intro x hx
        rcases List.mem_cons.1 hx with rfl | hx
        · exact ⟨h6, by simp only; omega, rfl⟩
        · exact g2 x hx
      · rw [h4]
        show buf'.take n ++ delivered good <+: _
        exact (List.prefix_append_right_inj _).2 g4
      · intro hr
        show buf'.take n ++ delivered good = _
        rw [h4, g5 hr]
      · intro hl
        refine g6 ?_
        rw [h4, List.length_append, hn, List.length_cons] at hl
        omega
      · intro h0
        rw [h4] at h0
        have := congrArg List.length (List.append_eq_nil_iff.1 h0).1
        rw [hn, List.length_nil] at this
        omega
    · have hg := g7 rfl
      subst hg
      have hX : X = [] := by simpa using h4
      refine ⟨[], (0, some e, buf') :: rest, r'', .cons h1 g1, by simp, ?_, List.nil_prefix, ?_, by simp, fun _ => rfl⟩
      · intro x hx
        rcases List.mem_cons.1 hx with rfl | hx
        · exact ⟨rfl, rfl⟩
        · exact g3 x hx
      · intro _; rw [hX]; rfl

theorem multiRead_det {src : Source σ} {rs rs1 : List (Reader σ)} {buf b1 : Str} {n : Nat} {err : Option Err}
    (h : MultiRead (Returns src) rs buf n err b1 rs1) : ∀ {n' err' b2 rs2},
      MultiRead (Returns src) rs buf n' err' b2 rs2 → n = n' ∧ err = err' ∧ b1 = b2 ∧ rs1 = rs2 := by
  induction h with
  | none => intro n' err' b2 rs2 h'; cases h'; exact ⟨rfl, rfl, rfl, rfl⟩
  | next h _ ih =>
    intro n' err' b2 rs2 h'
    cases h' with
    | next h' g => obtain ⟨_, _, rfl, _⟩ := Returns_det h h'; exact ih g
    | last h' hn => obtain ⟨rfl, _⟩ := Returns_det h h'; omega
    | here h' he => obtain ⟨_, rfl, _⟩ := Returns_det h h'; exact absurd rfl he
  | last h hn =>
    intro n' err' b2 rs2 h'
    cases h' with
    | next h' g => obtain ⟨rfl, _⟩ := Returns_det h h'; omega
    | last h' => obtain ⟨rfl, _, rfl, _⟩ := Returns_det h h'; exact ⟨rfl, rfl, rfl, rfl⟩
    | here h' he => obtain ⟨_, rfl, _⟩ := Returns_det h h'; exact absurd rfl he
  | here h he =>
    intro n' err' b2 rs2 h'
    cases h' with
    | next h' g => obtain ⟨_, rfl, _⟩ := Returns_det h h'; exact absurd rfl he
    | last h' => obtain ⟨_, rfl, _⟩ := Returns_det h h'; exact absurd rfl he
    | here h' => obtain ⟨rfl, rfl, rfl, rfl⟩ := Returns_det h h'; exact ⟨rfl, rfl, rfl, rfl⟩

theorem calls_det {src : Source σ} {rs rs1 : List (Reader σ)} {bufs : List Str} {res : List Result}
    (h : Calls (MultiRead (Returns src)) rs bufs res rs1) : ∀ {res' rs2},
      Calls (MultiRead (Returns src)) rs bufs res' rs2 → res = res' ∧ rs1 = rs2 := by
  induction h with
  | nil => intro res' rs2 h'; cases h'; exact ⟨rfl, rfl⟩
  | cons h _ ih =>
    intro res' rs2 h'
    cases h' with
    | cons h' g =>
      obtain ⟨rfl, rfl, rfl, rfl⟩ := multiRead_det h h'
      obtain ⟨rfl, rfl⟩ := ih g
      exact ⟨rfl, rfl⟩

/-! ## C103 -/

/-- C103 is FALSE as stated: of two files, the first ending inside a character, the second being "A", a Reader over the
MultiReader gives neither the A nor an error, but a character that is in neither file. -/
theorem C103_files_fails :
    ∃ ss, Files chunked ss [[0xB0], [0x41]] ∧ (From [0x41]).1 = [0x41] ∧
      ∃ r, Reads (multi chunked) (NewReader ss) [[0, 0, 0], [0, 0, 0]]
        [(3, none, utf8 ['캚']), (0, some .eof, [0, 0, 0])] r := by
  have he : (match readLoop (multi chunked) 5 (NewReader [[[0xB0]], [[0x41]]]) [0, 0, 0] with
    | .ret n err b r => decide (n = 3 ∧ err = none ∧ b = utf8 ['캚']) &&
      (match readLoop (multi chunked) 5 r [0, 0, 0] with
      | .ret n err b _ => decide (n = 0 ∧ err = some .eof ∧ b = [0, 0, 0])
      | _ => false)
    | _ => false) = true := by decide +kernel
  refine ⟨[[[0xB0]], [[0x41]]], .cons (chunked_delivers [[0xB0]] (by decide)) (.cons (chunked_delivers [[0x41]] (by decide)) .nil),
    by decide +kernel, ?_⟩
  split at he
  · rename_i n err b r h1
    split at he
    · rename_i n' err' b' r' h2
      rw [Bool.and_eq_true] at he
      obtain ⟨rfl, rfl, rfl⟩ := of_decide_eq_true he.1
      obtain ⟨rfl, rfl, rfl⟩ := of_decide_eq_true he.2
      exact ⟨_, .cons ⟨5, h1⟩ (.cons ⟨5, h2⟩ (.nil _))⟩
    · rw [Bool.and_false] at he; cases he
  · cases he

/-- C103, what holds (1), of a Reader over a MultiReader. Missing: files, other than the last, that end inside a character. The
Reader delivers the texts of the files one after the other, and then reports the end of the file. -/
theorem C103_files_partial (src : Source σ) (ss : List σ) (Ds : List Str) (h : Files src ss Ds)
    (hD : ∀ D ∈ Ds, (From D).2 = none) (bufs : List Str) (hb : ∀ b ∈ bufs, b ≠ []) (res : List Result) (r : Reader (List σ))
    (hr : Reads (multi src) (NewReader ss) bufs res r) :
    ∃ good rest, res = good ++ rest ∧
      (∀ x ∈ good, 0 < x.1 ∧ x.1 ≤ x.2.2.length ∧ x.2.1 = none) ∧ (∀ x ∈ rest, x.1 = 0 ∧ x.2.1 = some .eof) ∧
      delivered good <+: (Ds.map fun D => (From D).1).flatten ∧
      (rest ≠ [] → delivered good = (Ds.map fun D => (From D).1).flatten) ∧
      ((Ds.map fun D => (From D).1).flatten.length < bufs.length → rest ≠ []) := by
  obtain ⟨f1, f2⟩ := from_files Ds [] hD
  have h0 : From [] = ([], none) := rfl
  rw [List.append_nil, h0] at f1 f2
  have f2 := f2 rfl
  rw [List.append_nil] at f2
  obtain ⟨good, rest, r', g1, g2, g3, g4, g5, g6⟩ := C39_delivers (multi src) .eof ss Ds.flatten (files_deliver h) f1 bufs hb
  obtain ⟨rfl, rfl⟩ := Reads_det hr g1
  rw [f2] at g4 g5 g6
  exact ⟨good, rest, rfl, g2, g3, g4, g5, g6⟩

/-- C103, what holds (2): with a Reader for each file and the MultiReader above the Readers, the calls return, in one way
only, and deliver the same texts one after the other, and then the end of the file. -/
theorem C103_readers_partial (src : Source σ) (ss : List σ) (Ds : List Str) (h : Files src ss Ds)
    (hD : ∀ D ∈ Ds, (From D).2 = none) (bufs : List Str) (hb : ∀ b ∈ bufs, b ≠ []) :
    (∃ res rs, Calls (MultiRead (Returns src)) (ss.map NewReader) bufs res rs) ∧
    ∀ res rs, Calls (MultiRead (Returns src)) (ss.map NewReader) bufs res rs →
    ∃ good rest, res = good ++ rest ∧
      (∀ x ∈ good, 0 < x.1 ∧ x.1 ≤ x.2.2.length ∧ x.2.1 = none) ∧ (∀ x ∈ rest, x.1 = 0 ∧ x.2.1 = some .eof) ∧
      delivered good <+: (Ds.map fun D => (From D).1).flatten ∧
      (rest ≠ [] → delivered good = (Ds.map fun D => (From D).1).flatten) ∧
      ((Ds.map fun D => (From D).1).flatten.length < bufs.length → rest ≠ []) := by
  have hL : LeftAll src (ss.map NewReader) (Ds.map fun D => (From D).1).flatten := by
    clear hb
    induction h with
    | nil => exact .nil
    | @cons s ss D Ds h _ ih =>
      have hT : From D = ((From D).1, none) := Prod.ext rfl (hD D List.mem_cons_self)
      exact .cons hT (left_new h) (ih fun D hD' => hD D (List.mem_cons_of_mem _ hD'))
  obtain ⟨good, rest, r', g1, g2, g3, g4, g5, g6, _⟩ := calls_all (LeftAll src) (fun r X buf h hb => leftAll_read h hb) bufs hb _ _ hL
  refine ⟨⟨_, _, g1⟩, fun res rs hr => ?_⟩
  obtain ⟨rfl, rfl⟩ := calls_det hr g1
  exact ⟨good, rest, rfl, g2, g3, g4, g5, g6⟩

/-- C103 applies: "A가", in two pieces cut inside 가, and "B". -/
example : Files chunked [[[0x41, 0xB0], [0xA1]], [[0x42]]] [[0x41, 0xB0, 0xA1], [0x42]] ∧
    ∀ D ∈ [[0x41, 0xB0, 0xA1], [0x42]], (From D).2 = none := by
  refine ⟨.cons (chunked_delivers [[0x41, 0xB0], [0xA1]] (by decide)) (.cons (chunked_delivers [[0x42]] (by decide)) .nil), ?_⟩
  decide +kernel

end Props
