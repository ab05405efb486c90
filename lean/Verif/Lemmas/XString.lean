import Verif.Env.TransformString
import Verif.Spec.XString
/-! `transform.String` with a transformer that converts its whole source, as the two of package cp949 do. -/
namespace XText
open Go Cp949 Spec

/-- A transformer made of a conversion in the way of encoding.go:28-38 and 43-53. -/
def wrap (conv : Str → Str × Option Err) : Transformer := fun dst src _ =>
  match conv src with
  | (_, some e) => ⟨dst, 0, 0, some e⟩
  | (o, none) => ⟨(copy dst o).1, o.length, src.length, none⟩

theorem wrap_From : decoderTransform = wrap From := rfl
theorem wrap_To : encoderTransform = wrap To := rfl

theorem chunks_short {s : Str} (h : s.length ≤ 128) : chunks s = [s] := by
  unfold chunks; rw [if_pos h]
theorem chunks_long {s : Str} (h : 128 < s.length) : chunks s = s.take 128 :: chunks (s.drop 128) := by
  rw [chunks, if_neg (by omega)]
theorem chunks_ne (s : Str) : chunks s ≠ [] := by
  unfold chunks; split <;> simp

theorem chunks_ind {P : Str → Prop} (h1 : ∀ s : Str, s.length ≤ 128 → P s)
    (h2 : ∀ s : Str, 128 < s.length → P (s.drop 128) → P s) (s : Str) : P s := by
  by_cases h : s.length ≤ 128
  · exact h1 s h
  · exact h2 s (by omega) (chunks_ind h1 h2 (s.drop 128))
termination_by s.length
decreasing_by rw [List.length_drop]; omega

theorem chunks_flatten (s : Str) : (chunks s).flatten = s := by
  refine chunks_ind (P := fun s => (chunks s).flatten = s) ?_ ?_ s
  · intro s h; rw [chunks_short h]; simp
  · intro s h ih; rw [chunks_long h, List.flatten_cons, ih, List.take_append_drop]

/-- Outcome of the second loop with a buffer of length `L` that holds `acc`, for the chunks still to do. -/
def restRun (conv : Str → Str × Option Err) (L : Nat) : Str → List Str → Out (Str × Option Err)
  | acc, [] => if acc.length ≤ L then .ret (acc, none) else .panic
  | acc, q :: qs =>
    if acc.length ≤ L then
      match conv q with
      | (_, some e) => .ret ([], some e)
      | (o, none) => restRun conv L (acc ++ o) qs
    else .panic

/-- Outcome of the first loop after the unchanged prefix `pre`. -/
def scanRun (conv : Str → Str × Option Err) (s : Str) : Str → List Str → Out (Str × Option Err)
  | _, [] => .ret (s, none)
  | pre, p :: ps =>
    match conv p with
    | (_, some e) => .ret ([], some e)
    | (o, none) =>
      if 128 < o.length then .panic
      else if o = p then scanRun conv s (pre ++ p) ps
      else restRun conv (if pre = [] then 128 else s.length + o.length - p.length) (pre ++ o) ps

/-- What the `String` methods make of a result. -/
def finish : Out (Str × Nat × Option Err) → Out (Str × Option Err)
  | .ret (r, _, none) => .ret (r, none)
  | .ret (_, _, some e) => .ret ([], some e)
  | .panic => .panic
  | .running => .running

theorem codecString_finish (T : Transformer) (fuel : Nat) (s : Str) :
    codecString T fuel s = finish (transformString T fuel s) := rfl

variable {conv : Str → Str × Option Err}

/-- `conv` never asks for more room or more source, and turns something into something. -/
def Plain (conv : Str → Str × Option Err) : Prop :=
  (∀ q o e, conv q = (o, some e) → e ≠ .shortDst ∧ e ≠ .shortSrc) ∧
  (∀ q o, conv q = (o, none) → q ≠ [] → o ≠ []) ∧ conv [] = ([], none)

theorem copy_chunk {src rest : Str} (h : src.length = 128) :
    (copy src rest).1.length = 128 ∧ (copy src rest).2 = min 128 rest.length ∧
    (copy src rest).1.take (copy src rest).2 = rest.take 128 := by
  unfold copy
  refine ⟨?_, by simp [h], ?_⟩
  · simp [h]; omega
  · simp only [h]
    by_cases hr : rest.length ≤ 128
    · rw [List.take_of_length_le hr, Nat.min_eq_right hr, List.take_left]
    · rw [Nat.min_eq_left (by omega), List.take_append_of_le_length (by simp; omega),
        List.take_take, Nat.min_self]

theorem copy_length' (dst src : Str) : (copy dst src).1.length = dst.length := by
  simp only [copy, List.length_append, List.length_take, List.length_drop]; omega

theorem copy_into {dst acc o : Str} (h : dst.take acc.length = acc) :
    (dst.take acc.length ++ (copy (dst.drop acc.length) o).1).length = dst.length ∧
    (acc.length + o.length ≤ dst.length →
      (dst.take acc.length ++ (copy (dst.drop acc.length) o).1).take (acc.length + o.length) = acc ++ o) := by
  have hl : acc.length ≤ dst.length := by
    have := congrArg List.length h; rw [List.length_take] at this; omega
  unfold copy
  constructor
  · simp; omega
  · intro hf
    simp only [h]
    rw [List.take_append, List.take_of_length_le (by omega)]
    congr 1
    rw [Nat.add_sub_cancel_left, List.take_of_length_le (l := o) (by simp; omega), List.take_left]

theorem stringRest_succ (T : Transformer) (s : Str) (fuel : Nat) (dst src : Str) (pDst pSrc : Nat) :
    stringRest T s (fuel + 1) dst src pDst pSrc =
      (if pDst ≤ dst.length ∧ pSrc ≤ s.length then
        let c := copy src (s.drop pSrc)
        let t := T (dst.drop pDst) (c.1.take c.2) (decide (pSrc + c.2 = s.length))
        let d := dst.take pDst ++ t.dst
        let ret := if pDst + t.nDst ≤ d.length then Out.ret (d.take (pDst + t.nDst), pSrc + t.nSrc, t.err) else .panic
        if t.err = some .shortDst then
          if t.nDst = 0 then stringRest T s fuel (grow d (pDst + t.nDst)) c.1 (pDst + t.nDst) (pSrc + t.nSrc)
          else stringRest T s fuel d c.1 (pDst + t.nDst) (pSrc + t.nSrc)
        else if t.err = some .shortSrc then
          if decide (pSrc + c.2 = s.length) then ret
          else if t.nSrc = 0 then stringRest T s fuel d (grow c.1 0) (pDst + t.nDst) (pSrc + t.nSrc)
          else stringRest T s fuel d c.1 (pDst + t.nDst) (pSrc + t.nSrc)
        else if t.err ≠ none ∨ pSrc + t.nSrc = s.length then ret
        else stringRest T s fuel d c.1 (pDst + t.nDst) (pSrc + t.nSrc)
      else .panic) := rfl

theorem wrap_ok {q o : Str} (h : conv q = (o, none)) (dst : Str) (e : Bool) :
    wrap conv dst q e = ⟨(copy dst o).1, o.length, q.length, none⟩ := by unfold wrap; rw [h]
theorem wrap_err {q o : Str} {x : Err} (h : conv q = (o, some x)) (dst : Str) (e : Bool) :
    wrap conv dst q e = ⟨dst, 0, 0, some x⟩ := by unfold wrap; rw [h]

theorem rest_run (hc : Plain conv) (s : Str) (rest : Str) : ∀ (fuel : Nat) (dst src acc : Str) (pSrc : Nat),
    s.drop pSrc = rest → rest ≠ [] → src.length = 128 → rest.length < fuel →
    (acc.length ≤ dst.length → dst.take acc.length = acc) →
    finish (stringRest (wrap conv) s fuel dst src acc.length pSrc) = restRun conv dst.length acc (chunks rest) := by
  have step : ∀ (rest : Str) (fuel : Nat) (dst src acc : Str) (pSrc : Nat),
      s.drop pSrc = rest → rest ≠ [] → src.length = 128 → rest.length < fuel + 1 →
      (acc.length ≤ dst.length → dst.take acc.length = acc) →
      finish (stringRest (wrap conv) s (fuel + 1) dst src acc.length pSrc) =
        if acc.length ≤ dst.length then
          match conv (rest.take 128) with
          | (_, some e) => .ret ([], some e)
          | (o, none) =>
            if rest.length ≤ 128 then
              if acc.length + o.length ≤ dst.length then .ret (acc ++ o, none) else .panic
            else finish (stringRest (wrap conv) s fuel (dst.take acc.length ++ (copy (dst.drop acc.length) o).1)
              (copy src rest).1 (acc ++ o).length (pSrc + 128))
        else .panic := by
    intro rest fuel dst src acc pSrc hr hne hs hf hd
    have hp : pSrc ≤ s.length := by
      rcases Nat.lt_or_ge s.length pSrc with h | h
      · rw [List.drop_of_length_le (by omega)] at hr; exact absurd hr.symm hne
      · exact h
    have hrl : rest.length = s.length - pSrc := by rw [← hr, List.length_drop]
    have hpos : 0 < rest.length := List.length_pos_iff.2 hne
    obtain ⟨c1, c2, c3⟩ := copy_chunk (rest := rest) hs
    by_cases ha : acc.length ≤ dst.length
    · rw [if_pos ha]
      rw [stringRest_succ, if_pos ⟨ha, hp⟩]
      simp only [hr, c3]
      rcases hv : conv (rest.take 128) with ⟨o, _ | e⟩
      · simp only [wrap_ok hv, List.length_take]
        rw [if_neg (by simp), if_neg (by simp)]
        simp only [ne_eq, not_true_eq_false, false_or]
        have ⟨i1, i2⟩ := copy_into (o := o) (hd ha)
        by_cases hl : rest.length ≤ 128
        · rw [if_pos (by omega), if_pos hl, i1]
          by_cases hfit : acc.length + o.length ≤ dst.length
          · rw [if_pos hfit, if_pos hfit, i2 hfit]; rfl
          · rw [if_neg hfit, if_neg hfit]; rfl
        · rw [if_neg (by omega), if_neg hl, List.length_append, Nat.min_eq_left (by omega)]
      · simp only [wrap_err hv]
        have := hc.1 _ _ _ hv
        rw [if_neg (by simpa using this.1), if_neg (by simpa using this.2), if_pos (.inl (by simp))]
        simp only [Nat.add_zero, List.take_append_drop]
        rw [if_pos ha]; rfl
    · rw [if_neg ha]
      rw [stringRest_succ, if_neg (by omega)]; rfl
  refine chunks_ind (P := fun rest => ∀ (fuel : Nat) (dst src acc : Str) (pSrc : Nat),
    s.drop pSrc = rest → rest ≠ [] → src.length = 128 → rest.length < fuel →
    (acc.length ≤ dst.length → dst.take acc.length = acc) →
    finish (stringRest (wrap conv) s fuel dst src acc.length pSrc) =
      restRun conv dst.length acc (chunks rest)) ?_ ?_ rest
  · intro rest hl fuel dst src acc pSrc hr hne hs hf hd
    obtain ⟨fuel, rfl⟩ : ∃ n, fuel = n + 1 := ⟨fuel - 1, by omega⟩
    rw [step rest fuel dst src acc pSrc hr hne hs hf hd, chunks_short hl, List.take_of_length_le hl]
    unfold restRun
    by_cases ha : acc.length ≤ dst.length
    · rw [if_pos ha, if_pos ha]
      rcases conv rest with ⟨o, _ | e⟩
      · simp only [hl, if_true, restRun, List.length_append]
      · rfl
    · rw [if_neg ha, if_neg ha]
  · intro rest hl ih fuel dst src acc pSrc hr hne hs hf hd
    obtain ⟨fuel, rfl⟩ : ∃ n, fuel = n + 1 := ⟨fuel - 1, by omega⟩
    rw [step rest fuel dst src acc pSrc hr hne hs hf hd, chunks_long hl]
    unfold restRun
    by_cases ha : acc.length ≤ dst.length
    · rw [if_pos ha, if_pos ha]
      rcases conv (rest.take 128) with ⟨o, _ | e⟩
      · have ⟨i1, i2⟩ := copy_into (o := o) (hd ha)
        simp only [if_neg (Nat.not_le.2 hl)]
        rw [ih fuel _ _ (acc ++ o) (pSrc + 128) (by rw [← List.drop_drop, hr])
          (by rw [← List.length_pos_iff, List.length_drop]; omega) (copy_chunk hs).1
          (by rw [List.length_drop]; omega) (by rw [i1, List.length_append]; exact i2), i1]
      · rfl
    · rw [if_neg ha, if_neg ha]

theorem stringScan_succ (T : Transformer) (s : Str) (fuel : Nat) (dst src : Str) (p : Nat) :
    stringScan T s (fuel + 1) dst src p =
      (if p ≤ s.length then
        let c := copy src (s.drop p)
        let t := T dst (c.1.take c.2) (decide (p + c.2 = s.length))
        if t.nDst ≤ t.dst.length ∧ t.nSrc ≤ c.1.length then
          if t.dst.take t.nDst ≠ c.1.take t.nSrc then
            stringJoin T s fuel t.dst c.1 p t.nDst t.nSrc (p + t.nDst) (p + t.nSrc) t.err
          else if t.err = some .shortDst ∨ (t.err = some .shortSrc ∧ t.nSrc = 0) then
            stringJoin T s fuel t.dst c.1 (p + t.nSrc) t.nDst t.nSrc (p + t.nSrc) (p + t.nSrc) t.err
          else if t.err ≠ some .shortSrc ∧ (t.err ≠ none ∨ p + t.nSrc = s.length) then
            if p + t.nSrc ≤ s.length then .ret (s.take (p + t.nSrc), p + t.nSrc, t.err) else .panic
          else stringScan T s fuel t.dst c.1 (p + t.nSrc)
        else .panic
      else .panic) := rfl

theorem copy_take {dst o : Str} (h : o.length ≤ dst.length) :
    (copy dst o).1.length = dst.length ∧ (copy dst o).1.take o.length = o := by
  unfold copy
  refine ⟨by simp; omega, ?_⟩
  simp only
  rw [List.take_of_length_le h, List.take_left]

/-- The new buffer: the unchanged prefix, then what the last call converted. -/
theorem join_dst {pre o dst : Str} {size : Nat} (hs : pre.length + o.length ≤ size) (hd : dst.take o.length = o) :
    let new := List.replicate size (0 : Byte)
    let new := new.take pre.length ++
      (copy ((new.take (pre.length + o.length)).drop pre.length) (dst.take o.length)).1 ++ new.drop (pre.length + o.length)
    let d := (copy (new.take pre.length) pre).1 ++ new.drop pre.length
    d.length = size ∧ d.take (pre ++ o).length = pre ++ o := by
  simp only [hd]
  have h1 : ((List.replicate size (0 : Byte)).take (pre.length + o.length)).drop pre.length =
      List.replicate o.length 0 := by
    rw [List.take_replicate, List.drop_replicate, Nat.min_eq_left hs]
    congr 1; omega
  have h2 : (copy (List.replicate o.length (0 : Byte)) o).1 = o := by
    unfold copy; simp
  rw [h1, h2]
  have h3 : (List.replicate size (0 : Byte)).take pre.length = List.replicate pre.length 0 := by
    rw [List.take_replicate, Nat.min_eq_left (by omega)]
  rw [h3, List.append_assoc, List.take_append_of_le_length (by simp), List.take_of_length_le (by simp)]
  have h4 : (copy (List.replicate pre.length (0 : Byte)) pre).1 = pre := by
    unfold copy; simp
  have h5 : (List.replicate pre.length (0 : Byte) ++ (o ++ (List.replicate size 0).drop (pre.length + o.length))).drop
      pre.length = o ++ (List.replicate size 0).drop (pre.length + o.length) := by
    rw [List.drop_append_of_le_length (by simp), List.drop_of_length_le (by simp), List.nil_append]
  rw [h4, h5]
  constructor
  · simp; omega
  · rw [← List.append_assoc, List.take_left]

theorem scan_run (hc : Plain conv) (s : Str) (rest : Str) : ∀ (fuel : Nat) (dst src pre : Str),
    s = pre ++ rest → (pre = [] ∨ (128 ≤ pre.length ∧ rest ≠ [])) → dst.length = 128 → src.length = 128 →
    rest.length < fuel →
    finish (stringScan (wrap conv) s fuel dst src pre.length) = scanRun conv s pre (chunks rest) := by
  have step : ∀ (rest : Str) (fuel : Nat) (dst src pre : Str),
      s = pre ++ rest → (pre = [] ∨ (128 ≤ pre.length ∧ rest ≠ [])) → dst.length = 128 → src.length = 128 →
      rest.length < fuel + 1 →
      finish (stringScan (wrap conv) s (fuel + 1) dst src pre.length) =
        match conv (rest.take 128) with
        | (_, some e) => .ret ([], some e)
        | (o, none) =>
          if 128 < o.length then .panic
          else if o = rest.take 128 then
            if rest.length ≤ 128 then .ret (s, none)
            else finish (stringScan (wrap conv) s fuel (copy dst o).1 (copy src rest).1 (pre ++ rest.take 128).length)
          else restRun conv (if pre = [] then 128 else s.length + o.length - (rest.take 128).length) (pre ++ o)
            (if rest.length ≤ 128 then [] else chunks (rest.drop 128)) := by
    intro rest fuel dst src pre hs hpre hd hsrc hf
    have hsl : s.length = pre.length + rest.length := by rw [hs, List.length_append]
    have hdrop : s.drop pre.length = rest := by rw [hs, List.drop_left]
    obtain ⟨c1, c2, c3⟩ := copy_chunk (rest := rest) hsrc
    have c4 : (copy src rest).1.take (rest.take 128).length = rest.take 128 := by
      rw [List.length_take, ← c2, c3]
    have hpl : (rest.take 128).length = min 128 rest.length := List.length_take
    rw [stringScan_succ, if_pos (by omega)]
    simp only [hdrop, c3]
    rcases hv : conv (rest.take 128) with ⟨o, _ | e⟩
    · simp only [wrap_ok hv]
      by_cases ho : 128 < o.length
      · rw [if_pos ho, if_neg]
        · rfl
        · rintro ⟨h, _⟩
          have : (copy dst o).1.length = dst.length := by unfold copy; simp; omega
          omega
      · obtain ⟨d1, d2⟩ := copy_take (dst := dst) (o := o) (by omega)
        rw [if_neg ho, if_pos ⟨by omega, by omega⟩, d2, c4]
        by_cases heq : o = rest.take 128
        · rw [if_neg (by simpa using heq), if_pos heq, if_neg (by simp)]
          by_cases hl : rest.length ≤ 128
          · rw [if_pos hl, if_pos ⟨by simp, .inr (by omega)⟩, if_pos (by omega)]
            rw [List.take_of_length_le (by omega)]; rfl
          · rw [if_neg hl, if_neg (by simp; omega), List.length_append]
        · rw [if_pos heq, if_neg heq]
          have hne : rest ≠ [] := by
            rintro rfl
            rw [List.take_nil] at hv heq
            rw [hc.2.2] at hv
            simp only [Prod.mk.injEq] at hv
            exact heq hv.1.symm
          have hrl := List.length_pos_iff.2 hne
          have hone : o ≠ [] := hc.2.1 _ _ hv (by rw [← List.length_pos_iff]; omega)
          have hol := List.length_pos_iff.2 hone
          have goOn : ∀ (d' : Str) (L : Nat), d'.length = L → d'.take (pre ++ o).length = pre ++ o →
              finish (if ((none : Option Err) = none ∧ pre.length + (rest.take 128).length = s.length) ∨
                  ((none : Option Err) ≠ none ∧ (none : Option Err) ≠ some .shortDst ∧ (none : Option Err) ≠ some .shortSrc) then
                if pre.length + o.length ≤ d'.length then
                  Out.ret (d'.take (pre.length + o.length), pre.length + (rest.take 128).length, (none : Option Err))
                else .panic
                else stringRest (wrap conv) s fuel d' (copy src rest).1 (pre.length + o.length)
                  (pre.length + (rest.take 128).length)) =
              restRun conv L (pre ++ o) (if rest.length ≤ 128 then [] else chunks (rest.drop 128)) := by
            intro d' L hL h'
            subst hL
            have hl' := congrArg List.length h'
            rw [List.length_take, List.length_append] at hl'
            by_cases hl : rest.length ≤ 128
            · rw [if_pos (.inl ⟨rfl, by omega⟩), if_pos hl, if_pos (by omega)]
              unfold restRun
              rw [List.length_append, if_pos (by omega), ← List.length_append, h']; rfl
            · rw [if_neg (by simp; omega), if_neg hl, ← List.length_append]
              exact rest_run hc s (rest.drop 128) fuel d' _ (pre ++ o) _
                (by rw [hpl, Nat.min_eq_left (by omega), ← List.drop_drop, hdrop])
                (by rw [← List.length_pos_iff, List.length_drop]; omega) c1
                (by rw [List.length_drop]; omega) (fun _ => h')
          unfold stringJoin
          rcases hpre with rfl | ⟨hp, _⟩
          · have := goOn (copy dst o).1 128 (d1.trans hd) (by simpa using d2)
            simp only [List.length_nil, ne_eq, not_true_eq_false, false_and, if_false, if_true] at this ⊢
            exact this
          · have hp0 : pre ≠ [] := by rw [← List.length_pos_iff]; omega
            have hn0 : pre.length ≠ 0 := by omega
            obtain ⟨j1, j2⟩ := join_dst (pre := pre) (o := o) (dst := (copy dst o).1)
              (size := s.length + o.length - (rest.take 128).length) (by omega) d2
            have := goOn _ _ j1 j2
            have hgt : pre.length + o.length > (copy dst o).1.length := by omega
            have hst : s.take pre.length = pre := by rw [hs, List.take_left]
            have hno : ¬ (pre.length ≠ 0 ∧ (s.length + o.length < (rest.take 128).length ∨
                s.length + o.length - (rest.take 128).length < pre.length + o.length ∨
                pre.length + o.length < pre.length)) := by omega
            simp only [if_pos (And.intro hn0 hgt), if_pos hn0, if_pos hgt, if_neg hp0, hst, if_neg hno]
            simp only [eq_self] at this ⊢
            exact this
    · simp only [wrap_err hv]
      have hx := hc.1 _ _ _ hv
      rw [if_pos ⟨by omega, by omega⟩, if_neg (by simp), if_neg (by simp [hx.1, hx.2]),
        if_pos ⟨by simpa using hx.2, .inl (by simp)⟩, if_pos (by omega)]
      rfl
  refine chunks_ind (P := fun rest => ∀ (fuel : Nat) (dst src pre : Str),
    s = pre ++ rest → (pre = [] ∨ (128 ≤ pre.length ∧ rest ≠ [])) → dst.length = 128 → src.length = 128 →
    rest.length < fuel →
    finish (stringScan (wrap conv) s fuel dst src pre.length) = scanRun conv s pre (chunks rest)) ?_ ?_ rest
  · intro rest hl fuel dst src pre hs hpre hd hsrc hf
    obtain ⟨fuel, rfl⟩ : ∃ n, fuel = n + 1 := ⟨fuel - 1, by omega⟩
    rw [step rest fuel dst src pre hs hpre hd hsrc hf, chunks_short hl, List.take_of_length_le hl]
    unfold scanRun
    simp only [hl, if_true, scanRun]
  · intro rest hl ih fuel dst src pre hs hpre hd hsrc hf
    obtain ⟨fuel, rfl⟩ : ∃ n, fuel = n + 1 := ⟨fuel - 1, by omega⟩
    rw [step rest fuel dst src pre hs hpre hd hsrc hf, chunks_long hl]
    have hl' : ¬ rest.length ≤ 128 := by omega
    simp only [scanRun, hl', if_false]
    rcases conv (rest.take 128) with ⟨o, _ | e⟩
    · simp only
      split
      · rfl
      · split
        · rw [ih fuel _ _ (pre ++ rest.take 128) (by rw [List.append_assoc, List.take_append_drop]; exact hs)
            (.inr ⟨by rw [List.length_append, List.length_take]; omega,
              by rw [← List.length_pos_iff, List.length_drop]; omega⟩)
            ((copy_length' dst o).trans hd) (copy_chunk hsrc).1 (by rw [List.length_drop]; omega)]
        · rfl
    · rfl

/-- The `String` methods, in terms of the chunks of the text. -/
theorem string_run (hc : Plain conv) (s : Str) (fuel : Nat) (hf : s.length < fuel) :
    codecString (wrap conv) fuel s = scanRun conv s [] (chunks s) := by
  rw [codecString_finish]
  unfold transformString
  by_cases h : s = []
  · subst h
    have : (wrap conv [] [] true).err = none := by rw [wrap_ok hc.2.2]
    rw [if_pos ⟨rfl, this⟩, chunks_short (by simp)]
    simp only [finish, scanRun, hc.2.2]
    simp
  · rw [if_neg (fun x => h x.1)]
    exact scan_run hc s s fuel _ _ [] rfl (.inl rfl) (by simp [initialBufSize]) (by simp [initialBufSize]) hf

theorem restRun_ok {L : Nat} : ∀ {qs : List Str} {acc : Str}, (∀ q ∈ qs, (conv q).2 = none) →
    restRun conv L acc qs = if (acc ++ qs.flatMap fun q => (conv q).1).length ≤ L
      then .ret (acc ++ qs.flatMap fun q => (conv q).1, none) else .panic := by
  intro qs
  induction qs with
  | nil => intro acc _; unfold restRun; simp
  | cons q qs ih =>
    intro acc h
    have hq := h q (by simp)
    unfold restRun
    rcases hv : conv q with ⟨o, _ | e⟩
    · simp only
      rw [ih fun x hx => h x (by simp [hx]), List.flatMap_cons, hv, ← List.append_assoc]
      split
      · rfl
      · rw [if_neg]; simp only [List.length_append]; omega
    · rw [hv] at hq; simp at hq

theorem restRun_err {L : Nat} {e : Err} (h0 : ∀ q o x, conv q = (o, some x) → x = e) :
    ∀ {qs : List Str} {acc : Str}, (∃ q ∈ qs, (conv q).2 ≠ none) →
    restRun conv L acc qs = .ret ([], some e) ∨ restRun conv L acc qs = .panic := by
  intro qs
  induction qs with
  | nil => rintro acc ⟨q, hq, _⟩; simp at hq
  | cons q qs ih =>
    intro acc h
    unfold restRun
    split
    · rcases hv : conv q with ⟨o, _ | x⟩
      · refine ih ?_
        obtain ⟨y, hy, hy2⟩ := h
        rcases List.mem_cons.1 hy with rfl | hy
        · rw [hv] at hy2; simp at hy2
        · exact ⟨y, hy, hy2⟩
      · left; rw [h0 _ _ _ hv]
    · right; rfl

theorem scanRun_same {s : Str} : ∀ {as ps : List Str} {pre : Str}, (∀ a ∈ as, conv a = (a, none) ∧ a.length ≤ 128) →
    scanRun conv s pre (as ++ ps) = scanRun conv s (pre ++ as.flatten) ps := by
  intro as
  induction as with
  | nil => intro ps pre _; simp
  | cons a as ih =>
    intro ps pre h
    obtain ⟨h1, h2⟩ := h a (by simp)
    rw [List.cons_append, scanRun]
    simp only [h1]
    rw [if_neg (by omega), if_pos trivial, ih fun x hx => h x (by simp [hx]), List.flatten_cons, List.append_assoc]

theorem first_changed (f : Str → Str) (ps : List Str) :
    (∀ p ∈ ps, f p = p) ∨ ∃ as p qs, ps = as ++ p :: qs ∧ (∀ a ∈ as, f a = a) ∧ f p ≠ p := by
  induction ps with
  | nil => simp
  | cons p ps ih =>
    by_cases hp : f p = p
    · rcases ih with h | ⟨as, q, qs, h1, h2, h3⟩
      · left; simpa [hp] using h
      · right
        exact ⟨p :: as, q, qs, by rw [h1]; rfl, by simpa [hp] using h2, h3⟩
    · exact .inr ⟨[], p, ps, rfl, by simp, hp⟩

theorem first_unique {f : Str → Str} : ∀ {as as' : List Str} {p p' : Str} {qs qs' : List Str},
    as ++ p :: qs = as' ++ p' :: qs' → (∀ a ∈ as, f a = a) → (∀ a ∈ as', f a = a) → f p ≠ p → f p' ≠ p' →
    as = as' ∧ p = p' ∧ qs = qs' := by
  intro as
  induction as with
  | nil =>
    intro as' p p' qs qs' h _ h2 h3 _
    cases as' with
    | nil => simpa using h
    | cons a as' =>
      simp only [List.nil_append, List.cons_append, List.cons.injEq] at h
      exact absurd (h2 a (by simp)) (h.1 ▸ h3)
  | cons a as ih =>
    intro as' p p' qs qs' h h1 h2 h3 h4
    cases as' with
    | nil =>
      simp only [List.nil_append, List.cons_append, List.cons.injEq] at h
      exact absurd (h1 a (by simp)) (h.1 ▸ h4)
    | cons a' as' =>
      simp only [List.cons_append, List.cons.injEq] at h
      obtain ⟨r1, r2⟩ := ih h.2 (fun x hx => h1 x (by simp [hx])) (fun x hx => h2 x (by simp [hx])) h3 h4
      exact ⟨by rw [h.1, r1], r2⟩

theorem chunks_length (s : Str) : ∀ p ∈ chunks s, p.length ≤ 128 := by
  refine chunks_ind (P := fun s => ∀ p ∈ chunks s, p.length ≤ 128) ?_ ?_ s
  · intro s h p hp
    rw [chunks_short h] at hp
    simp only [List.mem_singleton] at hp
    rw [hp]; exact h
  · intro s h ih p hp
    rw [chunks_long h] at hp
    rcases List.mem_cons.1 hp with rfl | hp
    · rw [List.length_take]; omega
    · exact ih p hp

theorem flatMap_same {f : Str → Str} {as : List Str} (h : ∀ a ∈ as, f a = a) : as.flatMap f = as.flatten := by
  induction as with
  | nil => rfl
  | cons a as ih => rw [List.flatMap_cons, List.flatten_cons, h a (by simp), ih fun x hx => h x (by simp [hx])]

/-- If every chunk is converted, the result is the conversions together, or a panic for want of room. -/
theorem string_ok (hc : Plain conv) (s : Str) (fuel : Nat) (hf : s.length < fuel)
    (hok : ∀ p ∈ chunks s, (conv p).2 = none) [Decidable (Fits (fun p => (conv p).1) s)] :
    codecString (wrap conv) fuel s =
      if Fits (fun p => (conv p).1) s then .ret ((chunks s).flatMap fun p => (conv p).1, none) else .panic := by
  rw [string_run hc s fuel hf]
  have pair : ∀ p ∈ chunks s, conv p = ((conv p).1, none) := fun p hp => by rw [← hok p hp]
  rcases first_changed (fun p => (conv p).1) (chunks s) with h | ⟨as, p, qs, h1, h2, h3⟩
  · have hfit : Fits (fun p => (conv p).1) s := by
      intro as p qs h1 _ h3
      exact absurd (h p (by rw [h1]; simp)) h3
    have hs := scanRun_same (conv := conv) (s := s) (as := chunks s) (ps := []) (pre := [])
      (fun a ha => ⟨by rw [pair a ha, h a ha], chunks_length s a ha⟩)
    rw [List.append_nil] at hs
    rw [if_pos hfit, hs, flatMap_same h, chunks_flatten]
    rfl
  · have hmem : ∀ x ∈ as ++ p :: qs, x ∈ chunks s := fun x hx => by rw [h1]; exact hx
    have hs := scanRun_same (conv := conv) (s := s) (as := as) (ps := p :: qs) (pre := [])
      (fun a ha => ⟨by rw [pair a (hmem a (by simp [ha])), h2 a ha], chunks_length s a (hmem a (by simp [ha]))⟩)
    have hp := pair p (hmem p (by simp))
    have hsum : as.flatten ++ (conv p).1 ++ qs.flatMap (fun q => (conv q).1) =
        (as ++ p :: qs).flatMap fun p => (conv p).1 := by
      rw [List.flatMap_append, List.flatMap_cons, flatMap_same h2, List.append_assoc]
    have hne : as.flatten = [] ↔ as = [] := by
      constructor
      · intro h
        cases as with
        | nil => rfl
        | cons a as =>
          exfalso
          have hl : 128 < s.length := by
            refine Nat.lt_of_not_le fun hl => ?_
            rw [chunks_short hl] at h1
            have := congrArg List.length h1
            simp at this
          rw [chunks_long hl, List.cons_append, List.cons.injEq] at h1
          rw [List.flatten_cons, ← h1.1] at h
          have := congrArg List.length h
          rw [List.length_append, List.length_take, List.length_nil] at this
          omega
      · rintro rfl; rfl
    rw [h1, hs, scanRun, hp]
    simp only [List.nil_append]
    have hq : ∀ q ∈ qs, (conv q).2 = none := fun q hq => hok q (hmem q (by simp [hq]))
    by_cases hbig : 128 < (conv p).1.length
    · rw [if_pos hbig, if_neg]
      intro hfit
      have := (hfit as p qs h1 h2 h3).1
      simp only at this
      omega
    · rw [if_neg hbig, if_neg h3, restRun_ok hq, hsum]
      simp only [hne]
      refine ite_congr (propext ?_) (fun _ => rfl) fun _ => rfl
      constructor
      · intro hL as' p' qs' k1 k2 k3
        obtain ⟨rfl, rfl, rfl⟩ := first_unique (h1.symm.trans k1) h2 k2 h3 k3
        exact ⟨Nat.le_of_not_lt hbig, hL⟩
      · intro hfit
        exact (hfit as p qs h1 h2 h3).2

/-- If some chunk is refused, the result is that error, or a panic. -/
theorem string_err (hc : Plain conv) (s : Str) (fuel : Nat) (hf : s.length < fuel) {e : Err}
    (h0 : ∀ q o x, conv q = (o, some x) → x = e) (hbad : ∃ p ∈ chunks s, (conv p).2 ≠ none) :
    codecString (wrap conv) fuel s = .ret ([], some e) ∨ codecString (wrap conv) fuel s = .panic := by
  rw [string_run hc s fuel hf]
  suffices ∀ pre, scanRun conv s pre (chunks s) = .ret ([], some e) ∨ scanRun conv s pre (chunks s) = .panic from this []
  generalize chunks s = ps at hbad
  induction ps with
  | nil => simp at hbad
  | cons p ps ih =>
    intro pre
    rw [scanRun]
    rcases hv : conv p with ⟨o, _ | x⟩
    · have hr : ∃ q ∈ ps, (conv q).2 ≠ none := by
        obtain ⟨y, hy, hy2⟩ := hbad
        rcases List.mem_cons.1 hy with rfl | hy
        · rw [hv] at hy2; simp at hy2
        · exact ⟨y, hy, hy2⟩
      simp only
      split
      · right; rfl
      · split
        · exact ih hr _
        · exact restRun_err h0 hr
    · left
      simp only
      rw [h0 _ _ _ hv]

/-- If the first chunk is refused, the result is that error. -/
theorem string_first (hc : Plain conv) (s : Str) (fuel : Nat) (hf : s.length < fuel) {e : Err}
    (h : (conv (s.take 128)).2 = some e) : codecString (wrap conv) fuel s = .ret ([], some e) := by
  rw [string_run hc s fuel hf]
  have : ∃ ps, chunks s = s.take 128 :: ps := by
    by_cases hl : s.length ≤ 128
    · exact ⟨[], by rw [chunks_short hl, List.take_of_length_le hl]⟩
    · exact ⟨_, chunks_long (by omega)⟩
  obtain ⟨ps, hps⟩ := this
  rw [hps, scanRun]
  rcases hv : conv (s.take 128) with ⟨o, x⟩
  rw [hv] at h
  simp only at h
  rw [h]

/-- If the conversion of the first chunk is longer than 128 bytes, there is a panic. -/
theorem string_long (hc : Plain conv) (s : Str) (fuel : Nat) (hf : s.length < fuel) {o : Str}
    (h : conv (s.take 128) = (o, none)) (hl : 128 < o.length) : codecString (wrap conv) fuel s = .panic := by
  rw [string_run hc s fuel hf]
  have : ∃ ps, chunks s = s.take 128 :: ps := by
    by_cases hl : s.length ≤ 128
    · exact ⟨[], by rw [chunks_short hl, List.take_of_length_le hl]⟩
    · exact ⟨_, chunks_long (by omega)⟩
  obtain ⟨ps, hps⟩ := this
  rw [hps, scanRun, h]
  simp only
  rw [if_pos hl]

end XText
