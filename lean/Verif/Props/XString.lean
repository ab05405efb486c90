import Verif.Props.XText
import Verif.Lemmas.XString
/-!
Property theorems C74: the `String` methods of what `NewCP949Encoding().NewDecoder()` and `.NewEncoder()` return
(environment models `Env/Transform`, `Env/TransformString`).
-/
namespace Props
open Go Spec Cp949

attribute [local irreducible] fromTable toTable rawFrom rawTo

theorem From_err {q o : Str} {e : Err} (h : From q = (o, some e)) : e = .unexpectedStream := by
  rcases dec_cases q with ⟨cs, hcs⟩ | ht
  · rw [From_dec hcs] at h; simp at h
  · rw [From_truncated ht] at h
    simp only [Prod.mk.injEq, Option.some.injEq] at h
    exact h.2.symm

theorem From_empty : From [] = ([], none) := From_dec .nil

theorem plain_From : XText.Plain From := by
  refine ⟨?_, ?_, From_empty⟩
  · intro q o e h
    rw [From_err h]
    simp
  · intro q o h hq ho
    subst ho
    rcases dec_cases q with ⟨cs, hcs⟩ | ht
    · rw [From_dec hcs, Prod.mk.injEq] at h
      have hl := dec_excess hcs
      rw [h.1] at hl
      have := List.length_pos_iff.2 hq
      simp at hl
      omega
    · rw [From_truncated ht] at h; simp at h

theorem plain_To : XText.Plain To := by
  refine ⟨?_, ?_, by rw [To_eq]; rfl⟩
  · intro q o e h
    rw [To_eq] at h
    simp at h
  · intro q o h hq ho
    subst ho
    rw [To_eq, Prod.mk.injEq] at h
    obtain ⟨x, q, rfl⟩ := List.exists_cons_of_ne_nil hq
    obtain ⟨cs, hcs⟩ := runes_chars (x :: q)
    have hr := runes_ne_nil x q
    cases cs with
    | nil => exact hr hcs
    | cons c cs =>
      rw [hcs, List.map_cons, List.flatMap_cons] at h
      have h0 := (List.append_eq_nil_iff.1 h.1).1
      rcases toUnit_cases c with ⟨_, h⟩ | ⟨_, _, _, h⟩ | ⟨_, _, _, h⟩ | ⟨_, _, h⟩ <;> rw [h] at h0 <;> simp at h0

/-- Chunks that `From` accepts: the whole is decoded chunk by chunk. -/
theorem From_chunks {ps : List Str} (h : ∀ p ∈ ps, (From p).2 = none) :
    From ps.flatten = (ps.flatMap fun p => (From p).1, none) := by
  induction ps with
  | nil => exact From_empty
  | cons p ps ih =>
    rw [List.flatten_cons, C32_concat _ _ (h p (by simp)), ih fun x hx => h x (by simp [hx]), if_pos rfl]
    rfl

/-- What holds of decoding (every `b`): it ends. It succeeds exactly if no chunk of 128 bytes ends inside a character
and the buffer is long enough, and then with the result of `From`; an error is `ErrCP949UnexpectedStream` with nothing
decoded, and some chunk deserves it. Missing: success whenever `From` succeeds, and no panic. -/
theorem C74_decoder_partial (fuel : Nat) (b : Str) (hf : b.length < fuel) :
    (∀ out, XText.codecString decoderTransform fuel b = .ret (out, none) ↔
      From b = (out, none) ∧ (∀ p ∈ chunks b, (From p).2 = none) ∧ Fits (fun p => (From p).1) b) ∧
    (∀ out e, XText.codecString decoderTransform fuel b = .ret (out, some e) →
      out = [] ∧ e = .unexpectedStream ∧ ∃ p ∈ chunks b, (From p).2 = some e) ∧
    XText.codecString decoderTransform fuel b ≠ .running := by
  classical
  rw [XText.wrap_From]
  by_cases hok : ∀ p ∈ chunks b, (From p).2 = none
  · have hF : From b = ((chunks b).flatMap fun p => (From p).1, none) := by
      have := From_chunks hok
      rwa [XText.chunks_flatten] at this
    rw [XText.string_ok plain_From b fuel hf hok]
    split
    · rename_i h
      refine ⟨fun out => ?_, ?_, by simp⟩
      · rw [hF]
        simp only [XText.Out.ret.injEq, Prod.mk.injEq, and_true]
        exact ⟨fun x => ⟨x, hok, h⟩, fun x => x.1⟩
      · intro out e he
        simp at he
    · rename_i h
      exact ⟨fun out => ⟨fun x => by simp at x, fun x => absurd x.2.2 h⟩, fun out e x => by simp at x, by simp⟩
  · have hbad : ∃ p ∈ chunks b, (From p).2 ≠ none := by
      simpa only [Classical.not_forall, exists_prop] using hok
    rcases XText.string_err plain_From b fuel hf (e := .unexpectedStream) (fun _ _ _ h => From_err h) hbad with h | h
    · rw [h]
      refine ⟨fun out => ⟨fun x => by simp at x, fun x => absurd x.2.1 hok⟩, ?_, by simp⟩
      intro out e he
      simp only [XText.Out.ret.injEq, Prod.mk.injEq, Option.some.injEq] at he
      obtain ⟨rfl, rfl⟩ := he
      obtain ⟨p, hp, hp2⟩ := hbad
      refine ⟨rfl, rfl, p, hp, ?_⟩
      rcases hv : From p with ⟨o, _ | x⟩
      · rw [hv] at hp2; simp at hp2
      · rw [From_err hv]
    · rw [h]
      exact ⟨fun out => ⟨fun x => by simp at x, fun x => absurd x.2.1 hok⟩, fun out e x => by simp at x, by simp⟩

/-- At most 128 bytes: as `From`, unless the decoded text is longer than 128 bytes. -/
theorem C74_decoder_short_partial (fuel : Nat) (b : Str) (hf : b.length < fuel) (hb : b.length ≤ 128) :
    XText.codecString decoderTransform fuel b = if (From b).1.length ≤ 128 then .ret (From b) else .panic := by
  rw [XText.wrap_From]
  rcases hv : From b with ⟨o, _ | e⟩
  · simp only
    split
    · rename_i hl
      have := (C74_decoder_partial fuel b hf).1 o
      rw [← XText.wrap_From, this]
      refine ⟨hv, ?_, ?_⟩
      · rw [XText.chunks_short hb]; simp [hv]
      · intro as p qs h1 h2 h3
        rw [XText.chunks_short hb] at h1
        have hl' := congrArg List.length h1
        rw [List.length_singleton, List.length_append, List.length_cons] at hl'
        have has : as = [] := List.length_eq_zero_iff.1 (by omega)
        subst has
        simp only [List.nil_append, List.cons.injEq] at h1
        obtain ⟨rfl, rfl⟩ := h1
        simp only [hv, List.nil_append, List.flatMap_cons, List.flatMap_nil, List.append_nil, if_true]
        exact ⟨hl, hl⟩
    · exact XText.string_long plain_From b fuel hf (by rw [List.take_of_length_le hb]; exact hv) (by omega)
  · rw [XText.string_first plain_From b fuel hf (e := e) (by rw [List.take_of_length_le hb, hv])]
    have : o = [] := by
      rcases dec_cases b with ⟨cs, hcs⟩ | ht
      · rw [From_dec hcs] at hv; simp at hv
      · rw [From_truncated ht] at hv
        simp only [Prod.mk.injEq] at hv
        exact hv.1.symm
    subst this
    simp

theorem From_letters (n : Nat) : From (List.replicate n 0x41) = (List.replicate n 0x41, none) := by
  induction n with
  | zero => exact From_empty
  | succ n ih =>
    rw [List.replicate_succ]
    have := C32_concat [0x41] (List.replicate n 0x41) (by decide +kernel)
    rw [ih, if_pos rfl, show From [0x41] = ([0x41], none) by decide +kernel] at this
    simpa using this

/-- A text of more than one chunk that is decoded: 128 letters and a syllable. -/
example : ∃ A b : Str, A = List.replicate 128 0x41 ∧ b = A ++ [0xB0, 0xA1] ∧ chunks b = [A, [0xB0, 0xA1]] ∧
    (∀ p ∈ chunks b, (From p).2 = none) ∧ Fits (fun p => (From p).1) b := by
  have hA := From_letters 128
  have hAl : (List.replicate 128 (0x41 : Byte)).length = 128 := List.length_replicate
  refine ⟨List.replicate 128 0x41, _, rfl, rfl, ?_⟩
  generalize List.replicate 128 (0x41 : Byte) = A at hA hAl
  have hc : chunks (A ++ [0xB0, 0xA1]) = [A, [0xB0, 0xA1]] := by
    rw [XText.chunks_long (by simp [hAl]), XText.chunks_short (by simp [hAl]),
      List.take_append_of_le_length (by omega), List.take_of_length_le (by omega),
      List.drop_append_of_le_length (by omega), List.drop_of_length_le (by omega), List.nil_append]
  have hG : From [0xB0, 0xA1] = (utf8 ['가'], none) :=
    From_enc (.pair (hi := 0xB0) (lo := 0xA1) (by unfold Chart; decide +kernel) .nil)
  have hl : (utf8 ['가']).length = 3 := by decide +kernel
  refine ⟨hc, ?_, ?_⟩
  · rw [hc]
    intro p hp
    simp only [List.mem_cons, List.not_mem_nil, or_false] at hp
    rcases hp with rfl | rfl
    · rw [hA]
    · rw [hG]
  · intro as p qs h1 h2 h3
    rw [hc] at h1
    obtain ⟨rfl, rfl, rfl⟩ := XText.first_unique (f := fun p => (From p).1) (as := [A])
      (p := [0xB0, 0xA1]) (qs := []) (by simpa using h1) (by simp [hA]) h2
      (by rw [hG]; intro h; have := congrArg List.length h; rw [hl] at this; simp at this) h3
    simp [hG, hA, hl, hAl]

/-- 가 in CP949, `n` times. -/
def gas (n : Nat) : Str := (List.replicate n [0xB0, 0xA1]).flatten

theorem gas_enc (n : Nat) : Enc (List.replicate n '가') (gas n) := by
  induction n with
  | zero => exact .nil
  | succ n ih =>
    unfold gas
    rw [List.replicate_succ, List.replicate_succ, List.flatten_cons]
    exact .pair (hi := 0xB0) (lo := 0xA1) (by unfold Chart; decide +kernel) ih

theorem gas_length (n : Nat) : (gas n).length = 2 * n := by
  unfold gas
  induction n with
  | zero => rfl
  | succ n ih => rw [List.replicate_succ, List.flatten_cons, List.length_append, ih]; simp; omega

theorem gas_add (m n : Nat) : gas (m + n) = gas m ++ gas n := by
  unfold gas
  rw [← List.replicate_append_replicate, List.flatten_append]

/-- FALSE as stated (1): 43 or more syllables panic; one letter and 64 or more syllables are refused, though `From`
decodes both. -/
theorem C74_decoder_fails (n : Nat) (fuel : Nat) (hf : 2 * n + 1 < fuel) :
    (43 ≤ n → From (gas n) = (utf8 (List.replicate n '가'), none) ∧
      XText.codecString decoderTransform fuel (gas n) = .panic) ∧
    (64 ≤ n → From (0x41 :: gas n) = (utf8 ('A' :: List.replicate n '가'), none) ∧
      XText.codecString decoderTransform fuel (0x41 :: gas n) = .ret ([], some .unexpectedStream)) := by
  have hl := gas_length n
  constructor
  · intro hn
    refine ⟨From_enc (gas_enc n), ?_⟩
    by_cases h64 : n ≤ 64
    · rw [C74_decoder_short_partial fuel _ (by omega) (by omega), if_neg]
      rw [From_enc (gas_enc n), utf8_gas_length]
      omega
    · rw [XText.wrap_From]
      obtain ⟨k, rfl⟩ : ∃ k, n = 64 + k := ⟨n - 64, by omega⟩
      have h0 := gas_length 64
      refine XText.string_long plain_From _ fuel (by omega) (o := utf8 (List.replicate 64 '가')) ?_ ?_
      · rw [gas_add, List.take_append_of_le_length (by omega), List.take_of_length_le (by omega)]
        exact From_enc (gas_enc 64)
      · rw [utf8_gas_length]; omega
  · intro hn
    refine ⟨From_enc (.ascii (by decide) (by decide) (gas_enc n)), ?_⟩
    rw [XText.wrap_From]
    refine XText.string_first plain_From _ fuel (by simp only [List.length_cons]; omega) ?_
    obtain ⟨k, rfl⟩ : ∃ k, n = 63 + (1 + k) := ⟨n - 64, by omega⟩
    have h0 := gas_length 63
    have hcut : (0x41 :: gas (63 + (1 + k))).take 128 = (0x41 :: gas 63) ++ [0xB0] := by
      rw [List.take_succ_cons, gas_add, gas_add, List.take_append, List.take_of_length_le (by omega), h0]
      rfl
    rw [hcut, C32_concat _ _ (by rw [From_enc (.ascii (c := 'A') (by decide) (by decide) (gas_enc 63))])]
    have : From [0xB0] = ([], some .unexpectedStream) := From_truncated (.lone (by decide))
    rw [this, if_neg (by simp)]

example : 2 * 64 + 1 < 1000 ∧ 64 ≤ 64 := by decide

/-- What holds of encoding (every string): it ends, never with an error. The chunks of 128 bytes are encoded one by
one, if the buffer is long enough; that is what `To` gives if no chunk begins inside a character. Missing: chunks that
do, and no panic. -/
theorem C74_encoder_partial (fuel : Nat) (s : Str) (hf : s.length < fuel) :
    (Fits (fun p => (To p).1) s →
      XText.codecString encoderTransform fuel s = .ret ((chunks s).flatMap fun p => (To p).1, none)) ∧
    (¬ Fits (fun p => (To p).1) s → XText.codecString encoderTransform fuel s = .panic) ∧
    ((∀ p ∈ (chunks s).tail, Boundary p) → ((chunks s).flatMap fun p => (To p).1) = (To s).1) := by
  classical
  have := XText.string_ok plain_To s fuel hf (fun p _ => by rw [To_eq])
  rw [XText.wrap_To, this]
  refine ⟨fun h => if_pos h, fun h => if_neg h, fun h => ?_⟩
  rw [← To_flatten _ h, XText.chunks_flatten]

theorem fits_short {conv : Str → Str} {s : Str} (hb : s.length ≤ 128) (h : (conv s).length ≤ 128) : Fits conv s := by
  intro as p qs h1 h2 h3
  rw [XText.chunks_short hb] at h1
  have hl' := congrArg List.length h1
  rw [List.length_singleton, List.length_append, List.length_cons] at hl'
  have has : as = [] := List.length_eq_zero_iff.1 (by omega)
  subst has
  simp only [List.nil_append, List.cons.injEq] at h1
  obtain ⟨rfl, rfl⟩ := h1
  simp only [List.nil_append, List.flatMap_cons, List.flatMap_nil, List.append_nil, if_true]
  exact ⟨h, h⟩

/-- Valid UTF-8 of at most 128 bytes is encoded as `To` does. -/
theorem C74_encoder_short_partial (fuel : Nat) (s : Str) (hf : s.length < fuel) (hs : s.length ≤ 128) (h : IsUtf8 s) :
    XText.codecString encoderTransform fuel s = .ret ((To s).1, none) := by
  have h1 : (To s).1.length ≤ s.length := by
    have := C66_encoder_bytes_partial 0 s h
    rw [C66_encoder_bytes_exact] at this
    split at this
    · assumption
    · simp at this
  obtain ⟨k, _⟩ := C74_encoder_partial fuel s hf
  rw [k (fits_short hs (by omega)), XText.chunks_short hs]
  simp

example : IsUtf8 (utf8 ['가', 'A']) ∧ (utf8 ['가', 'A']).length ≤ 128 := ⟨⟨_, rfl⟩, by decide +kernel⟩

theorem utf8_gas_add (m n : Nat) :
    utf8 (List.replicate (m + n) '가') = utf8 (List.replicate m '가') ++ utf8 (List.replicate n '가') := by
  rw [← List.replicate_append_replicate, utf8_append]

theorem utf8_gas_one : utf8 (List.replicate 1 '가') = utf8 ['가'] := rfl

theorem boundary_take {s : Str} (h : Boundary s) (k : Nat) : Boundary (s.take k) := by
  intro b t hbt
  cases s with
  | nil => simp at hbt
  | cons x s =>
    cases k with
    | zero => simp at hbt
    | succ k =>
      rw [List.take_succ_cons, List.cons.injEq] at hbt
      exact hbt.1 ▸ h x s rfl

/-- FALSE as stated (2): of 43 to 62 syllables one is turned into question marks without an error (four bytes too
many); 63 or more panic. -/
theorem C74_encoder_fails (n : Nat) (fuel : Nat) (hf : 3 * n < fuel) :
    (43 ≤ n → n ≤ 62 → ∃ out,
      XText.codecString encoderTransform fuel (utf8 (List.replicate n '가')) = .ret (out, none) ∧
      out ≠ (To (utf8 (List.replicate n '가'))).1 ∧
      out.length = (To (utf8 (List.replicate n '가'))).1.length + 4) ∧
    (63 ≤ n → XText.codecString encoderTransform fuel (utf8 (List.replicate n '가')) = .panic) := by
  have hg : (utf8 ['가']).length = 3 := by decide +kernel
  obtain ⟨c1, c2⟩ := To_cut 2 (by omega) (by omega)
  have h42 := utf8_gas_length 42
  have main : 43 ≤ n → ∃ q, chunks (utf8 (List.replicate n '가')) =
      (utf8 (List.replicate 42 '가') ++ (utf8 ['가']).take 2) :: chunks q ∧
      q = (utf8 ['가']).drop 2 ++ utf8 (List.replicate (n - 43) '가') ∧ q.length = 3 * n - 128 := by
    intro hn
    have hsplit : utf8 (List.replicate n '가') = (utf8 (List.replicate 42 '가') ++ (utf8 ['가']).take 2) ++
        ((utf8 ['가']).drop 2 ++ utf8 (List.replicate (n - 43) '가')) := by
      rw [show n = 42 + (1 + (n - 43)) by omega, utf8_gas_add, utf8_gas_add, utf8_gas_one,
        show 42 + (1 + (n - 43)) - 43 = n - 43 by omega, List.append_assoc]
      conv => lhs; rw [← List.take_append_drop 2 (utf8 ['가'])]
      simp only [List.append_assoc]
    have hl := utf8_gas_length n
    have hp : (utf8 (List.replicate 42 '가') ++ (utf8 ['가']).take 2).length = 128 := by
      rw [List.length_append, h42, List.length_take, hg]; omega
    refine ⟨_, ?_, rfl, ?_⟩
    · rw [XText.chunks_long (by omega)]
      congr 1
      · rw [hsplit, List.take_append_of_le_length (by omega), List.take_of_length_le (by omega)]
      · rw [hsplit, List.drop_append_of_le_length (by omega), List.drop_of_length_le (by omega), List.nil_append]
    · have := congrArg List.length hsplit
      rw [hl, List.length_append, hp] at this
      omega
  have first : (To (utf8 (List.replicate 42 '가') ++ (utf8 ['가']).take 2)).1.length = 88 := by
    rw [To_append_length _ _ (boundary_take (boundary_utf8 _) 2), To_gas_length, c1]
  have hne : (To (utf8 (List.replicate 42 '가') ++ (utf8 ['가']).take 2)).1 ≠
      utf8 (List.replicate 42 '가') ++ (utf8 ['가']).take 2 := by
    intro h
    have := congrArg List.length h
    rw [first, List.length_append, h42, List.length_take, hg] at this
    omega
  have hlen := utf8_gas_length n
  obtain ⟨f1, f2, _⟩ := C74_encoder_partial fuel (utf8 (List.replicate n '가')) (by omega)
  constructor
  · intro h1 h2
    obtain ⟨q, hq1, hq2, hq3⟩ := main h1
    rw [XText.chunks_short (s := q) (by omega)] at hq1
    have hq4 : (To q).1.length = 2 * (n - 43) + 2 := by
      rw [hq2, To_append_length _ _ (boundary_utf8 _), c2, To_gas_length]; omega
    have htot : ((chunks (utf8 (List.replicate n '가'))).flatMap fun p => (To p).1).length = 2 * n + 4 := by
      rw [hq1]
      simp only [List.flatMap_cons, List.flatMap_nil, List.append_nil, List.length_append]
      rw [first, hq4]
      omega
    have hTo := To_gas_length n
    refine ⟨_, f1 ?_, ?_, by omega⟩
    · intro as p qs k1 k2 k3
      rw [hq1] at k1
      obtain ⟨rfl, rfl, rfl⟩ := XText.first_unique (f := fun p => (To p).1) (as := []) (by simpa using k1) (by simp) k2 hne k3
      refine ⟨by simp only; omega, ?_⟩
      rw [if_pos rfl, List.nil_append, ← hq1, htot]
      omega
    · intro h
      rw [h] at htot
      omega
  · intro h
    obtain ⟨q, hq1, hq2, hq3⟩ := main (by omega)
    refine f2 fun hfit => ?_
    have hb := (hfit [] _ _ (by rw [List.nil_append]; exact hq1) (by simp) hne).2
    rw [if_pos rfl, List.nil_append, List.flatMap_cons, List.length_append, first] at hb
    have hfirst : ∃ p ps, chunks q = p :: ps ∧ 42 ≤ (To p).1.length := by
      have hq20 : ∃ r, Boundary r ∧ q.take 128 = (((utf8 ['가']).drop 2) ++ utf8 (List.replicate 20 '가')) ++ r := by
        refine ⟨(utf8 (List.replicate (n - 63) '가')).take (128 - 61), boundary_take (boundary_utf8 _) _, ?_⟩
        have hd : (((utf8 ['가']).drop 2) ++ utf8 (List.replicate 20 '가')).length = 61 := by
          rw [List.length_append, List.length_drop, hg, utf8_gas_length]
        rw [hq2, show n - 43 = 20 + (n - 63) by omega, utf8_gas_add, ← List.append_assoc, List.take_append,
          List.take_of_length_le (by omega), hd]
      obtain ⟨r, hr1, hr2⟩ := hq20
      have hT : 42 ≤ (To (q.take 128)).1.length := by
        rw [hr2, To_append_length _ _ hr1, To_append_length _ _ (boundary_utf8 _), c2, To_gas_length]
        omega
      by_cases hl : q.length ≤ 128
      · exact ⟨q, [], XText.chunks_short hl, by rwa [List.take_of_length_le hl] at hT⟩
      · exact ⟨_, _, XText.chunks_long (by omega), hT⟩
    obtain ⟨p, ps, hp1, hp2⟩ := hfirst
    rw [hp1, List.flatMap_cons, List.length_append] at hb
    omega

end Props
