import Verif.Env.Limit
import Verif.Props.Multi
import Verif.Props.Search
/-! C105: decoding a stream in sections. -/
namespace Props
open Go Cp949 Spec GoIo

variable {σ : Type}

/-- C105: `io.LimitReader(src, n)` delivers the first `n` bytes, and then the end of the file. (If `n` is the whole length or more, this is
said of sources that end with the end of the file.) -/
theorem C105_limit (src : Source σ) (e : Err) (s : σ) (D : Str) (h : Delivers src e s D) (n : Nat)
    (hn : e = .eof ∨ n < D.length) : Delivers (limit src) .eof (s, n) (D.take n) := by
  induction h generalizing n with
  | mk s D size more last next ih =>
    by_cases h0 : n = 0
    · subst h0
      have key : ∀ k, limit src (s, 0) k = ([], some .eof, (s, 0)) := fun k => by simp [limit]
      refine .mk _ _ ?_ ?_ ?_ ?_
      · intro k _; rw [key]; exact Nat.zero_le _
      · intro k _ h; rw [key] at h; cases h
      · intro k _ _; rw [key]; exact ⟨rfl, rfl⟩
      · intro k _ h; rw [key] at h; cases h
    · have key : ∀ k, limit src (s, n) k =
          ((src s (min k n)).1, (src s (min k n)).2.1, ((src s (min k n)).2.2, n - (src s (min k n)).1.length)) :=
        fun k => by simp [limit, h0]
      have hk' : ∀ k, 0 < k → 0 < min k n := fun k hk => by omega
      refine .mk _ _ ?_ ?_ ?_ ?_
      · intro k hk
        rw [key]
        have := size _ (hk' k hk)
        simp only
        omega
      · intro k hk h
        rw [key] at h ⊢
        obtain ⟨h1, h2⟩ := more _ (hk' k hk) h
        have := size _ (hk' k hk)
        exact ⟨h1, List.prefix_take_iff.2 ⟨h2, by simp only; omega⟩⟩
      · intro k hk h
        rw [key] at h ⊢
        obtain ⟨h1, h2⟩ := last _ (hk' k hk) h
        have := size _ (hk' k hk)
        rw [h1] at this
        refine ⟨?_, ?_⟩
        · simp only
          rw [h1, List.take_of_length_le (by omega)]
        · simp only
          rw [h2]
          rcases hn with hn | hn
          · rw [hn]
          · omega
      · intro k hk h
        rw [key] at h ⊢
        have hs := size _ (hk' k hk)
        obtain ⟨h1, h2⟩ := more _ (hk' k hk) h
        have hle := h2.length_le
        have := ih _ (hk' k hk) h (n - (src s (min k n)).1.length) (hn.imp id fun hn => by rw [List.length_drop]; omega)
        simp only
        rw [List.drop_take]
        exact this

/-! ## Decoding from inside a character -/

theorem dec_first {b : Byte} {t : Str} {cs : List Char} (hb : 0x80 ≤ b.toNat) (h : Dec (b :: t) cs) :
    ∃ x t' c cs', t = x :: t' ∧ cs = c :: cs' ∧ 0x80 ≤ c.toNat ∧ Dec t' cs' := by
  cases h with
  | ascii h => omega
  | pair _ hc h => exact ⟨_, _, _, _, rfl, rfl, by have := (char_range hc).1; omega, h⟩
  | unassigned _ _ hc h => exact ⟨_, _, _, _, rfl, rfl, by omega, h⟩

theorem dec_low {b : Byte} {t : Str} {cs : List Char} (hb : b.toNat < 0x80) (h : Dec (b :: t) cs) :
    ∃ c cs', cs = c :: cs' ∧ c.toNat = b.toNat ∧ Dec t cs' := by
  cases h with
  | ascii _ hc h => exact ⟨_, _, rfl, hc, h⟩
  | pair h => omega
  | unassigned h => omega

/-- What comes after decodable bytes is decodable on its own. -/
theorem dec_after {p q : Str} {cs cs' : List Char} (h : Dec p cs) (h' : Dec (p ++ q) cs') : ∃ ds, Dec q ds ∧ cs' = cs ++ ds := by
  rcases dec_cases q with ⟨ds, hd⟩ | ht
  · exact ⟨ds, hd, dec_unique h' (dec_append h hd)⟩
  · have h1 := From_dec h'
    rw [From_truncated (truncated_append h ht)] at h1
    cases (Prod.mk.inj h1).2

theorem inside_differs (k : Nat) : ∀ {b : Byte} {p q : Str} {cs ds : List Char}, p.length ≤ k → 0x80 ≤ b.toNat →
    Dec (b :: (p ++ q)) ds → Dec p cs → cs.length ≤ ds.length ∧ cs ≠ ds := by
  induction k with
  | zero =>
    intro b p q cs ds hk hb hd hc
    have : p = [] := List.length_eq_zero_iff.1 (by omega)
    subst this
    cases hc
    obtain ⟨x, t', c, cs', _, rfl, _, _⟩ := dec_first hb hd
    exact ⟨Nat.zero_le _, by simp⟩
  | succ k ih =>
    intro b p q cs ds hk hb hd hc
    obtain ⟨x, t', c, cs', ht, rfl, hc0, hd'⟩ := dec_first hb hd
    match p, hc, ht, hk with
    | [], hc, _, _ => cases hc; exact ⟨Nat.zero_le _, by simp⟩
    | y :: p, hc, ht, hk =>
      rw [List.cons_append] at ht
      obtain ⟨rfl, rfl⟩ := List.cons.inj ht
      by_cases hy : y.toNat < 0x80
      · obtain ⟨d, cs1, rfl, hd1, hc1⟩ := dec_low hy hc
        obtain ⟨ds1, _, rfl⟩ := dec_after hc1 hd'
        refine ⟨by simp, fun h => ?_⟩
        have := (List.cons.inj h).1
        subst this
        omega
      · obtain ⟨z, p', d, cs1, rfl, rfl, hd0, hc1⟩ := dec_first (by omega) hc
        rw [List.cons_append] at hd'
        simp only [List.length_cons] at hk
        by_cases hz : z.toNat < 0x80
        · obtain ⟨f, fs, rfl, _, hf⟩ := dec_low hz hd'
          obtain ⟨ds1, _, rfl⟩ := dec_after hc1 hf
          refine ⟨by simp only [List.length_cons, List.length_append]; omega, fun h => ?_⟩
          have := congrArg List.length h
          simp only [List.length_cons, List.length_append] at this
          omega
        · obtain ⟨i1, i2⟩ := ih (by omega) (by omega) hd' hc1
          exact ⟨by simp only [List.length_cons]; omega, fun h => i2 (List.cons.inj h).2⟩

theorem truncated_differs {q : Str} (h : Truncated q) : ∀ {p r : Str} {cs ds : List Char}, Dec (q ++ (p ++ r)) ds → Dec p cs →
    cs.length ≤ ds.length ∧ cs ≠ ds := by
  induction h with
  | lone hb => intro p r cs ds hd hc; exact inside_differs (p := p) _ (Nat.le_refl _) hb hd hc
  | ascii hb _ ih =>
    intro p r cs ds hd hc
    obtain ⟨c, ds', rfl, _, hd'⟩ := dec_low hb hd
    have := (ih hd' hc).1
    refine ⟨by simp only [List.length_cons]; omega, fun h => ?_⟩
    have := congrArg List.length h
    simp only [List.length_cons] at this
    omega
  | pair hb _ ih =>
    intro p r cs ds hd hc
    obtain ⟨x, t, c, ds', ht, rfl, _, hd'⟩ := dec_first hb hd
    obtain ⟨rfl, rfl⟩ := List.cons.inj ht
    have := (ih hd' hc).1
    refine ⟨by simp only [List.length_cons]; omega, fun h => ?_⟩
    have := congrArg List.length h
    simp only [List.length_cons] at this
    omega

/-! ## C105 -/

/-- C105 is FALSE as stated: of 가 cut in two, a Reader for each half, nothing arrives, and neither Reader reports anything but
the end of the file. -/
theorem C105_sections_fails :
    ∃ s s', Delivers chunked .eof s [0xB0] ∧ Delivers chunked .eof s' [0xA1] ∧ From ([0xB0] ++ [0xA1]) = (utf8 ['가'], none) ∧
      (∃ r, Reads chunked (NewReader s) [[0, 0, 0]] [(0, some .eof, [0, 0, 0])] r) ∧
      ∃ r, Reads chunked (NewReader s') [[0, 0, 0]] [(0, some .eof, [0, 0, 0])] r :=
  ⟨[[0xB0]], [[0xA1]], chunked_delivers [[0xB0]] (by decide), chunked_delivers [[0xA1]] (by decide), by decide +kernel,
    ⟨_, .cons ⟨5, rfl⟩ (.nil _)⟩, ⟨_, .cons ⟨5, rfl⟩ (.nil _)⟩⟩

/-- C105, what holds exactly. The stream `D`, on which `From` succeeds, is cut after `n` bytes, and each part is delivered to a
Reader of its own, in whatever pieces; each Reader is called, with buffers that are not empty, as often as it takes and as
often as one likes. What the two deliver is together `From(D)` if and only if the cut is not inside a character. Missing: cuts
inside a character, for which, as this says, the claim is never true. -/
theorem C105_sections_iff_partial {σ' : Type} (src : Source σ) (src' : Source σ') (e e' : Err) (s : σ) (s' : σ') (D : Str) (n : Nat)
    (hD : (From D).2 = none) (h : Delivers src e s (D.take n)) (h' : Delivers src' e' s' (D.drop n))
    (bufs bufs' : List Str) (hb : ∀ b ∈ bufs, b ≠ []) (hb' : ∀ b ∈ bufs', b ≠ [])
    (hl : 3 * (D.take n).length < 2 * bufs.length) (hl' : 3 * (D.drop n).length < 2 * bufs'.length)
    (res res' : List Result) (r : Reader σ) (r' : Reader σ') (hr : Reads src (NewReader s) bufs res r)
    (hr' : Reads src' (NewReader s') bufs' res' r') :
    delivered res ++ delivered res' = (From D).1 ↔ (From (D.take n)).2 = none := by
  have rest0 : ∀ {e : Err} (rest : List Result), (∀ x ∈ rest, x.1 = 0 ∧ x.2.1 = some e) → delivered rest = [] := by
    intro e rest h
    rw [delivered, List.flatMap_eq_nil_iff]
    intro x hx
    rw [(h x hx).1]; rfl
  obtain ⟨good, rest, r1, g1, -, -, g4, p, q, g5, g6, g7⟩ := C40_any_stream_partial src e s _ h bufs hb hl
  obtain ⟨good', rest', r1', k1, -, -, k4, p', q', k5, k6, k7⟩ := C40_any_stream_partial src' e' s' _ h' bufs' hb' hl'
  obtain ⟨rfl, -⟩ := Reads_det hr g1
  obtain ⟨rfl, -⟩ := Reads_det hr' k1
  have d1 : delivered (good ++ rest) = delivered good := by
    have := rest0 rest g4
    rw [delivered, List.flatMap_append]; rw [delivered] at this; rw [this, List.append_nil]; rfl
  have d2 : delivered (good' ++ rest') = delivered good' := by
    have := rest0 rest' k4
    rw [delivered, List.flatMap_append]; rw [delivered] at this; rw [this, List.append_nil]; rfl
  rw [d1, d2]
  have hsplit : D = D.take n ++ D.drop n := (List.take_append_drop n D).symm
  -- the texts
  have dec_of : ∀ {p O : Str}, From p = (O, none) → ∃ cs, Dec p cs ∧ O = utf8 cs := by
    intro p O h
    rcases dec_cases p with ⟨cs, hd⟩ | ht
    · rw [From_dec hd] at h; exact ⟨cs, hd, (Prod.mk.inj h).1.symm⟩
    · rw [From_truncated ht] at h; cases (Prod.mk.inj h).2
  obtain ⟨cs, c1, c2⟩ := dec_of g6
  obtain ⟨cs', c1', c2'⟩ := dec_of k6
  obtain ⟨ds, d1, d2⟩ := dec_of (Prod.ext rfl hD : From D = ((From D).1, none))
  rw [c2, c2', d2]
  have hDp : D = p ++ (q ++ (p' ++ q')) := by
    conv => lhs; rw [hsplit, g5, k5]
    simp only [List.append_assoc]
  rw [hDp] at d1
  obtain ⟨fs, f1, rfl⟩ := dec_after c1 d1
  rw [g5]
  rcases g7 with rfl | hq
  · rw [List.append_nil, g6]
    refine ⟨fun _ => rfl, fun _ => ?_⟩
    rw [List.nil_append] at f1
    obtain ⟨ms, m1, rfl⟩ := dec_after c1' f1
    rcases k7 with rfl | hq'
    · cases m1
      rw [List.append_nil, utf8_append]
    · have := From_dec m1
      rw [From_truncated hq'] at this
      cases (Prod.mk.inj this).2
  · rw [From_truncated (truncated_append c1 hq)]
    refine ⟨fun h => ?_, fun h => by simp at h⟩
    rw [← utf8_append] at h
    exact absurd (List.append_cancel_left (utf8_inj h)) (truncated_differs hq f1 c1').2

/-- C105 applies: A가, cut before 가 and inside it. -/
example : (From [0x41, 0xB0, 0xA1]).2 = none ∧ Delivers chunked .eof [[0x41]] ([0x41, 0xB0, 0xA1].take 1) ∧
    Delivers chunked .eof [[0xB0], [0xA1]] ([0x41, 0xB0, 0xA1].drop 1) ∧ (From ([0x41, 0xB0, 0xA1].take 1)).2 = none ∧
    Delivers chunked .eof [[0x41, 0xB0]] ([0x41, 0xB0, 0xA1].take 2) ∧
    Delivers chunked .eof [[0xA1]] ([0x41, 0xB0, 0xA1].drop 2) ∧ (From ([0x41, 0xB0, 0xA1].take 2)).2 ≠ none := by
  refine ⟨by decide +kernel, chunked_delivers [[0x41]] (by decide), chunked_delivers [[0xB0], [0xA1]] (by decide),
    by decide +kernel, chunked_delivers [[0x41, 0xB0]] (by decide), chunked_delivers [[0xA1]] (by decide), by decide +kernel⟩

/-- C103, exactly when it holds of two files that together decode: a Reader over the MultiReader delivers what Readers of the single
files deliver if and only if the first file does not end inside a character. Missing: the files for which this is not so. -/
theorem C103_iff_partial (src : Source σ) (s s' : σ) (D D' : Str) (h : Delivers src .eof s D) (h' : Delivers src .eof s' D')
    (hD : (From (D ++ D')).2 = none) (bufs₀ bufs bufs' : List Str) (hb₀ : ∀ b ∈ bufs₀, b ≠ []) (hb : ∀ b ∈ bufs, b ≠ [])
    (hb' : ∀ b ∈ bufs', b ≠ []) (hl₀ : 3 * (D ++ D').length < 2 * bufs₀.length) (hl : 3 * D.length < 2 * bufs.length)
    (hl' : 3 * D'.length < 2 * bufs'.length) (res₀ res res' : List Result) (r₀ : Reader (List σ)) (r r' : Reader σ)
    (hr₀ : Reads (multi src) (NewReader [s, s']) bufs₀ res₀ r₀) (hr : Reads src (NewReader s) bufs res r)
    (hr' : Reads src (NewReader s') bufs' res' r') :
    delivered res₀ = delivered res ++ delivered res' ↔ (From D).2 = none := by
  have hm : Delivers (multi src) .eof [s, s'] (D ++ D') := by
    have := C103_one_stream src [s, s'] [D, D'] (.cons h (.cons h' .nil))
    simpa using this
  have hg := From_length (D ++ D')
  obtain ⟨good, rest, r1, g1, -, g3, -, g5, g6⟩ := C39_delivers _ _ _ _ hm hD bufs₀ hb₀
  obtain ⟨rfl, -⟩ := Reads_det hr₀ g1
  have d0 : delivered (good ++ rest) = (From (D ++ D')).1 := by
    rw [← g5 (g6 (by omega))]
    have h0 : delivered rest = [] := by
      rw [delivered, List.flatMap_eq_nil_iff]
      intro x hx
      rw [(g3 x hx).1]; rfl
    rw [delivered, List.flatMap_append]; rw [delivered] at h0; rw [h0, List.append_nil]; rfl
  have ht : (D ++ D').take D.length = D := List.take_left
  have hd : (D ++ D').drop D.length = D' := List.drop_left
  have := C105_sections_iff_partial src src .eof .eof s s' (D ++ D') D.length hD (by rw [ht]; exact h) (by rw [hd]; exact h')
    bufs bufs' hb hb' (by rw [ht]; exact hl) (by rw [hd]; exact hl') res res' r r' hr hr'
  rw [ht] at this
  rw [d0, ← this]
  exact ⟨Eq.symm, Eq.symm⟩

/-- C103_iff_partial applies: 가 in two files, and A and 가. -/
example : (From ([0xB0] ++ [0xA1])).2 = none ∧ (From [0xB0]).2 ≠ none ∧ (From ([0x41] ++ [0xB0, 0xA1])).2 = none ∧
    (From [0x41]).2 = none := by decide +kernel

end Props
