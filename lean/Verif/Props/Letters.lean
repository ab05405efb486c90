import Verif.Props.Hangul
import Verif.Spec.Letters
/-! Property theorems C94: the letters a text is spelt with. -/
namespace Props
open Go Spec Hangul

/-! ## Codes of blocks -/

/-- Consonant letter. -/
def isCon (r : Rune) : Prop := 0x3131 ≤ r.toInt ∧ r.toInt ≤ 0x314E
/-- Vowel letter. -/
def isVow (r : Rune) : Prop := 0x314F ≤ r.toInt ∧ r.toInt ≤ 0x3163

theorem con_not_vow {r : Rune} (h : isCon r) (h' : isVow r) : False := by
  unfold isCon at h; unfold isVow at h'; omega

/-- Consonant, vowels, consonants. -/
def Block (x : List Rune) : Prop :=
  ∃ l v V T, x = l :: (v :: V ++ T) ∧ isCon l ∧ (∀ r ∈ v :: V, isVow r) ∧ ∀ r ∈ T, isCon r

/-- `f` writes every character that is no letter as a block or as itself, different ones
differently. -/
structure Code (f : Rune → List Rune) : Prop where
  shape : ∀ r, ¬ IsLoose r → Block (f r) ∨ f r = [r]
  inj : ∀ r r', ¬ IsLoose r → ¬ IsLoose r' → f r = f r' → r = r'

/-- How a spelt text begins. -/
def Start (x : List Rune) : Prop :=
  x = [] ∨ (∃ l v y, x = l :: v :: y ∧ isCon l ∧ isVow v) ∨
    ∃ o y, x = o :: y ∧ ¬ isCon o ∧ ¬ isVow o

theorem loose_iff (r : Rune) : IsLoose r ↔ isCon r ∨ isVow r := by
  unfold IsLoose isCon isVow; omega

theorem start_cons {f : Rune → List Rune} (hf : Code f) {a : Rune} (ha : ¬ IsLoose a)
    (x : List Rune) : Start (f a ++ x) := by
  rcases hf.shape a ha with ⟨l, v, V, T, e, hl, hv, -⟩ | e
  · exact .inr (.inl ⟨l, v, V ++ T ++ x, by rw [e]; simp, hl, hv v (by simp)⟩)
  · rw [loose_iff] at ha
    exact .inr (.inr ⟨a, x, by rw [e]; rfl, fun h => ha (.inl h), fun h => ha (.inr h)⟩)

theorem start_spelt {f : Rune → List Rune} (hf : Code f) {t : List Rune}
    (ht : ∀ r ∈ t, ¬ IsLoose r) : Start (spelt f t) := by
  cases t with
  | nil => exact .inl rfl
  | cons a as => exact start_cons hf (ht a (by simp)) _

theorem tail_eq {T T' Y Y' : List Rune} (hT : ∀ r ∈ T, isCon r) (hT' : ∀ r ∈ T', isCon r)
    (hY : Start Y) (hY' : Start Y') (e : T ++ Y = T' ++ Y') : T = T' ∧ Y = Y' := by
  have key : ∀ (c : Rune) (U X Z : List Rune), (∀ r ∈ c :: U, isCon r) → Start X → Start Z →
      X = c :: U ++ Z → False := by
    intro c U X Z hU hX hZ e
    rcases hX with h | ⟨l, v, y, h, -, hv⟩ | ⟨o, y, h, ho, -⟩
    · rw [h] at e; cases e
    · rw [h] at e
      injection e with e1 e2
      cases U with
      | nil =>
        rcases hZ with h | ⟨l', v', y', h, hl', -⟩ | ⟨o, y', h, -, ho⟩
        · rw [h] at e2; cases e2
        · rw [h] at e2; injection e2 with e2 _; exact con_not_vow (e2 ▸ hl') hv
        · rw [h] at e2; injection e2 with e2 _; exact ho (e2 ▸ hv)
      | cons d U =>
        injection e2 with e2 _
        exact con_not_vow (hU d (by simp)) (e2 ▸ hv)
    · rw [h] at e
      injection e with e1 _
      exact ho (e1 ▸ hU c (by simp))
  induction T generalizing T' with
  | nil =>
    cases T' with
    | nil => exact ⟨rfl, e⟩
    | cons c U => exact (key c U Y Y' hT' hY hY' e).elim
  | cons c U ih =>
    cases T' with
    | nil => exact (key c U Y' Y hT hY' hY e.symm).elim
    | cons d U' =>
      injection e with e1 e2
      obtain ⟨h1, h2⟩ := ih (fun r h => hT r (by simp [h])) (fun r h => hT' r (by simp [h])) e2
      exact ⟨by rw [e1, h1], h2⟩

/-- Begins with no vowel. -/
def NoVow (x : List Rune) : Prop := ∀ v y, x = v :: y → ¬ isVow v

theorem vow_eq {V V' Y Y' : List Rune} (hV : ∀ r ∈ V, isVow r) (hV' : ∀ r ∈ V', isVow r)
    (hY : NoVow Y) (hY' : NoVow Y') (e : V ++ Y = V' ++ Y') : V = V' ∧ Y = Y' := by
  induction V generalizing V' with
  | nil =>
    cases V' with
    | nil => exact ⟨rfl, e⟩
    | cons c U => exact (hY _ _ e (hV' c (by simp))).elim
  | cons c U ih =>
    cases V' with
    | nil => exact (hY' _ _ e.symm (hV c (by simp))).elim
    | cons d U' =>
      injection e with e1 e2
      obtain ⟨h1, h2⟩ := ih (fun r h => hV r (by simp [h])) (fun r h => hV' r (by simp [h])) e2
      exact ⟨by rw [e1, h1], h2⟩

theorem noVow_start {T Y : List Rune} (hT : ∀ r ∈ T, isCon r) (hY : Start Y) : NoVow (T ++ Y) := by
  intro v y e hv
  cases T with
  | cons c U =>
    injection e with e1 _
    exact con_not_vow (hT c (by simp)) (e1 ▸ hv)
  | nil =>
    rcases hY with h | ⟨l, w, z, h, hl, -⟩ | ⟨o, z, h, -, ho⟩
    · rw [h] at e; cases e
    · rw [h] at e; injection e with e1 _; exact con_not_vow hl (e1 ▸ hv)
    · rw [h] at e; injection e with e1 _; exact ho (e1 ▸ hv)

/-- The first character can be read off. -/
theorem first_eq {f : Rune → List Rune} (hf : Code f) {a b : Rune} (ha : ¬ IsLoose a)
    (hb : ¬ IsLoose b) {X Y : List Rune} (hX : Start X) (hY : Start Y)
    (e : f a ++ X = f b ++ Y) : a = b ∧ X = Y := by
  have fin : f a = f b → a = b ∧ X = Y := by
    intro h
    rw [h] at e
    exact ⟨hf.inj a b ha hb h, List.append_cancel_left e⟩
  rcases hf.shape a ha with ⟨l, v, V, T, ea, hl, hv, hT⟩ | ea <;>
    rcases hf.shape b hb with ⟨l', v', V', T', eb, hl', hv', hT'⟩ | eb
  · rw [ea, eb] at e
    injection e with e1 e2
    change v :: V ++ T ++ X = v' :: V' ++ T' ++ Y at e2
    rw [List.append_assoc, List.append_assoc] at e2
    obtain ⟨h1, h2⟩ := vow_eq hv hv' (noVow_start hT hX) (noVow_start hT' hY) e2
    obtain ⟨h3, -⟩ := tail_eq hT hT' hX hY h2
    exact fin (by rw [ea, eb, e1, h1, h3])
  · rw [ea, eb] at e
    injection e with e1 _
    exact (hb ((loose_iff b).2 (.inl (e1 ▸ hl)))).elim
  · rw [ea, eb] at e
    injection e with e1 _
    exact (ha ((loose_iff a).2 (.inl (e1 ▸ hl')))).elim
  · rw [ea, eb] at e
    injection e with e1 _
    exact fin (by rw [ea, eb, e1])

theorem code_ne {f : Rune → List Rune} (hf : Code f) {a : Rune} (ha : ¬ IsLoose a) : f a ≠ [] := by
  rcases hf.shape a ha with ⟨l, v, V, T, e, -⟩ | e <;> rw [e] <;> simp

theorem spelt_cons (f : Rune → List Rune) (a : Rune) (t : List Rune) :
    spelt f (a :: t) = f a ++ spelt f t := rfl

theorem spelt_inj {f : Rune → List Rune} (hf : Code f) {a b : List Rune}
    (ha : ∀ r ∈ a, ¬ IsLoose r) (hb : ∀ r ∈ b, ¬ IsLoose r) (e : spelt f a = spelt f b) :
    a = b := by
  induction a generalizing b with
  | nil =>
    cases b with
    | nil => rfl
    | cons y b =>
      rw [spelt_cons] at e
      exact (code_ne hf (hb y (by simp)) (List.append_eq_nil_iff.1 e.symm).1).elim
  | cons x a ih =>
    cases b with
    | nil =>
      rw [spelt_cons] at e
      exact (code_ne hf (ha x (by simp)) (List.append_eq_nil_iff.1 e).1).elim
    | cons y b =>
      have ha' : ∀ r ∈ a, ¬ IsLoose r := fun r h => ha r (by simp [h])
      have hb' : ∀ r ∈ b, ¬ IsLoose r := fun r h => hb r (by simp [h])
      obtain ⟨h1, h2⟩ := first_eq hf (ha x (by simp)) (hb y (by simp)) (start_spelt hf ha')
        (start_spelt hf hb') e
      rw [h1, ih ha' hb' h2]

/-! ## The two codes -/

theorem SplitCompat_inj {s s' : Rune} (h : IsSyllable s) (h' : IsSyllable s')
    (e : SplitCompat s = SplitCompat s') : s = s' := by
  have := (C01_split_join s h).2
  rw [e, (C01_split_join s' h').2] at this
  exact this.symm

theorem mk3 {p : Rune × Rune × Rune} {a b c : Rune} (h1 : p.1 = a) (h2 : p.2.1 = b)
    (h3 : p.2.2 = c) : p = (a, b, c) := by rw [← h1, ← h2, ← h3]

theorem of_mk3 {p : Rune × Rune × Rune} {a b c : Rune} (h : p = (a, b, c)) :
    p.1 = a ∧ p.2.1 = b ∧ p.2.2 = c := by rw [h]; exact ⟨rfl, rfl, rfl⟩

/-- The trailing consonant as a list. -/
def tailOf (r : Rune) : List Rune := if (SplitCompat r).2.2 = 0 then [] else [(SplitCompat r).2.2]

theorem tailOf_pos {r : Rune} (h : (SplitCompat r).2.2 = 0) : tailOf r = [] := by
  rw [tailOf, if_pos h]

theorem tailOf_neg {r : Rune} (h : (SplitCompat r).2.2 ≠ 0) : tailOf r = [(SplitCompat r).2.2] := by
  rw [tailOf, if_neg h]

theorem letters_syllable {r : Rune} (h : IsSyllable r) :
    lettersOf r = (SplitCompat r).1 :: (SplitCompat r).2.1 :: tailOf r := by
  rw [lettersOf, if_pos h]
  rfl

theorem letters_block {r : Rune} (h : IsSyllable r) : Block (lettersOf r) := by
  obtain ⟨h1, h2, h3, -⟩ := C07_splitCompat r h
  refine ⟨_, _, [], tailOf r, letters_syllable h, h1, fun r hr => List.mem_singleton.1 hr ▸ h2, ?_⟩
  intro c hc
  rcases h3 with h3 | h3
  · rw [tailOf_pos h3] at hc; cases hc
  · have h0 : (SplitCompat r).2.2 ≠ 0 := by
      intro h0; rw [h0] at h3; exact absurd h3 (by decide)
    rw [tailOf_neg h0] at hc
    rw [List.mem_singleton.1 hc]; exact h3

theorem syllable_not_con {r : Rune} (h : IsSyllable r) : ¬ isCon r := by
  unfold isCon; unfold IsSyllable at h; omega

theorem code_of {f : Rune → List Rune} (hb : ∀ r, IsSyllable r → Block (f r))
    (ho : ∀ r, ¬ IsSyllable r → f r = [r])
    (hi : ∀ r r', IsSyllable r → IsSyllable r' → f r = f r' → r = r') : Code f where
  shape r _ := by
    by_cases h : IsSyllable r
    · exact .inl (hb r h)
    · exact .inr (ho r h)
  inj r r' _ _ e := by
    have no : ∀ x y, IsSyllable x → ¬ IsSyllable y → f x ≠ f y := by
      intro x y hx hy e
      obtain ⟨l, v, V, T, h, -⟩ := hb x hx
      rw [h, ho y hy] at e
      injection e with _ e
      cases e
    by_cases h : IsSyllable r <;> by_cases h' : IsSyllable r'
    · exact hi r r' h h' e
    · exact (no r r' h h' e).elim
    · exact (no r' r h' h e.symm).elim
    · rw [ho r h, ho r' h'] at e; exact (List.cons.inj e).1

theorem code_letters : Code lettersOf := by
  refine code_of (fun r => letters_block) (fun r h => by rw [lettersOf, if_neg h]) ?_
  intro r r' h h' e
  rw [letters_syllable h, letters_syllable h'] at e
  obtain ⟨e1, e2⟩ := List.cons.inj e
  obtain ⟨e2, e3⟩ := List.cons.inj e2
  refine SplitCompat_inj h h' (Prod.ext e1 (Prod.ext e2 ?_))
  by_cases a : (SplitCompat r).2.2 = 0 <;> by_cases b : (SplitCompat r').2.2 = 0
  · rw [a, b]
  · rw [tailOf_pos a, tailOf_neg b] at e3; cases e3
  · rw [tailOf_neg a, tailOf_pos b] at e3; cases e3
  · rw [tailOf_neg a, tailOf_neg b] at e3; exact (List.cons.inj e3).1

/-- What `keysOf` makes of vowel `j`. -/
def vowKeys (j : Nat) : List Rune := elementsOf (cp (0x314F + j))
/-- What `keysOf` makes of trailing consonant `k`. -/
def tailKeys (k : Nat) : List Rune := if tailLetter k = 0 then [] else elementsOf (tailLetter k)

theorem keys_table :
    (∀ j, j < 21 → vowKeys j ≠ [] ∧ ∀ r ∈ vowKeys j, isVow r) ∧
    (∀ k, k < 28 → ∀ r ∈ tailKeys k, isCon r) ∧
    (∀ j, j < 21 → ∀ j', j' < 21 → vowKeys j = vowKeys j' → j = j') ∧
    (∀ k, k < 28 → ∀ k', k' < 28 → tailKeys k = tailKeys k' → k = k') ∧
    (∀ i, i < 19 → isCon (leadLetter i)) ∧
    (∀ i, i < 19 → ∀ i', i' < 19 → leadLetter i = leadLetter i' → i = i') := by
  unfold isVow isCon
  decide +kernel

theorem keys_syllable {i j k : Nat} (hi : i < 19) (hj : j < 21) (hk : k < 28) :
    keysOf (syllable i j k) = leadLetter i :: (vowKeys j ++ tailKeys k) := by
  rw [keysOf, if_pos (syllable_isSyllable hi hj hk), SplitCompat_syllable hi hj hk]
  rfl

theorem code_keys : Code keysOf := by
  obtain ⟨t1, t2, t3, t4, t5, t6⟩ := keys_table
  refine code_of ?_ (fun r h => by rw [keysOf, if_neg h]) ?_
  · intro r h
    obtain ⟨i, j, k, hi, hj, hk, rfl⟩ := exists_syllable h
    rw [keys_syllable hi hj hk]
    obtain ⟨h1, h2⟩ := t1 j hj
    cases e : vowKeys j with
    | nil => exact (h1 e).elim
    | cons v V => exact ⟨_, v, V, _, rfl, t5 i hi, e ▸ h2, t2 k hk⟩
  · intro r r' h h' e
    obtain ⟨i, j, k, hi, hj, hk, rfl⟩ := exists_syllable h
    obtain ⟨i', j', k', hi', hj', hk', rfl⟩ := exists_syllable h'
    rw [keys_syllable hi hj hk, keys_syllable hi' hj' hk'] at e
    injection e with e1 e2
    have nv : ∀ k, k < 28 → NoVow (tailKeys k) := by
      intro k hk
      have := noVow_start (t2 k hk) (.inl rfl)
      rwa [List.append_nil] at this
    obtain ⟨e2, e3⟩ := vow_eq (t1 j hj).2 (t1 j' hj').2 (nv k hk) (nv k' hk') e2
    rw [t6 i hi i' hi' e1, t3 j hj j' hj' e2, t4 k hk k' hk' e3]

/-! ## C94 -/

/-- C94: two texts without loose letters whose syllables are split by `SplitCompat` give the same
letters only if they are the same text. -/
theorem C94_letters_determine (a b : List Rune) (ha : ∀ r ∈ a, ¬ IsLoose r)
    (hb : ∀ r ∈ b, ¬ IsLoose r) (e : spelt lettersOf a = spelt lettersOf b) : a = b :=
  spelt_inj code_letters ha hb e

/-- C94, with the vowels and the trailing consonants split further by `SplitMultiElement`. -/
theorem C94_keys_determine (a b : List Rune) (ha : ∀ r ∈ a, ¬ IsLoose r)
    (hb : ∀ r ∈ b, ¬ IsLoose r) (e : spelt keysOf a = spelt keysOf b) : a = b :=
  spelt_inj code_keys ha hb e

/-- 값을?中: ㄱㅏㅄㅇㅡㄹ?中, as keys ㄱㅏㅂㅅㅇㅡㄹ?中. -/
example : (∀ r ∈ [0xAC12, 0xC744, 0x3F, (0x4E2D : Rune)], ¬ IsLoose r) ∧
    spelt lettersOf [0xAC12, 0xC744, 0x3F, 0x4E2D] =
      [0x3131, 0x314F, 0x3144, 0x3147, 0x3161, 0x3139, 0x3F, 0x4E2D] ∧
    spelt keysOf [0xAC12, 0xC744, 0x3F, 0x4E2D] =
      [0x3131, 0x314F, 0x3142, 0x3145, 0x3147, 0x3161, 0x3139, 0x3F, 0x4E2D] := by decide +kernel

/-- C94, conditions needed: with the leading consonants split too, 각가 and 가까 give the same; and
so do 가 and the loose letters ㄱㅏ without any further splitting. -/
theorem C94_conditions_needed :
    (spelt (fun r => (lettersOf r).flatMap elementsOf) [0xAC01, 0xAC00] =
      spelt (fun r => (lettersOf r).flatMap elementsOf) [0xAC00, 0xAE4C]) ∧
    spelt lettersOf [0xAC00] = spelt lettersOf [0x3131, 0x314F] := by decide +kernel

/-- C94, search while typing: the letters of a text are the first letters of another exactly if
the texts agree up to the last character typed, `x`, and there either the letters of `x` begin
those of the other's character `y`, or `x` is `y` with the leading consonant of the syllable after
it for a trailing one (간 typed of 가나). -/
theorem C94_prefix (w : List Rune) (x : Rune) (t : List Rune) (hw : ∀ r ∈ w ++ [x], ¬ IsLoose r)
    (ht : ∀ r ∈ t, ¬ IsLoose r) :
    spelt lettersOf (w ++ [x]) <+: spelt lettersOf t ↔
      ∃ y rest, t = w ++ y :: rest ∧
        (lettersOf x <+: lettersOf y ∨
          ∃ z more, rest = z :: more ∧ IsSyllable x ∧ IsSyllable y ∧ IsSyllable z ∧
            (SplitCompat y).2.2 = 0 ∧
            SplitCompat x = ((SplitCompat y).1, (SplitCompat y).2.1, (SplitCompat z).1)) := by
  constructor
  · intro h
    induction w generalizing t with
    | cons a w ih =>
      obtain ⟨Q, hQ⟩ := h
      cases t with
      | nil =>
        exact (code_ne code_letters (hw a (by simp))
          (List.append_eq_nil_iff.1 (List.append_eq_nil_iff.1 hQ).1).1).elim
      | cons y rest =>
        rw [List.cons_append, spelt_cons, spelt_cons, List.append_assoc] at hQ
        have hrest : ∀ r ∈ rest, ¬ IsLoose r := fun r h => ht r (by simp [h])
        have hw' : ∀ r ∈ w ++ [x], ¬ IsLoose r := fun r h => hw r (by
          rw [List.cons_append]; exact List.mem_cons_of_mem _ h)
        have hs : Start (spelt lettersOf (w ++ [x]) ++ Q) := by
          cases w with
          | nil => exact (by simp [spelt] : spelt lettersOf ([] ++ [x]) ++ Q = lettersOf x ++ Q) ▸
              start_cons code_letters (hw' x (by simp)) Q
          | cons b w =>
            rw [List.cons_append, spelt_cons, List.append_assoc]
            exact start_cons code_letters (hw' b (by simp)) _
        obtain ⟨h1, h2⟩ := first_eq code_letters (hw a (by simp)) (ht y (by simp)) hs
          (start_spelt code_letters hrest) hQ
        obtain ⟨y', rest', h3, h4⟩ := ih rest hw' hrest ⟨Q, h2⟩
        exact ⟨y', rest', by rw [h1, h3]; rfl, h4⟩
    | nil =>
      have hx : ¬ IsLoose x := hw x (by simp)
      obtain ⟨Q, hQ⟩ := h
      rw [show spelt lettersOf ([] ++ [x]) = lettersOf x by simp [spelt]] at hQ
      cases t with
      | nil => exact (code_ne code_letters hx (List.append_eq_nil_iff.1 hQ).1).elim
      | cons y rest =>
        have hy : ¬ IsLoose y := ht y (by simp)
        refine ⟨y, rest, rfl, ?_⟩
        rw [spelt_cons] at hQ
        by_cases sx : IsSyllable x <;> by_cases sy : IsSyllable y
        · rw [letters_syllable sx, letters_syllable sy, List.cons_append, List.cons_append,
            List.cons_append, List.cons_append] at hQ
          obtain ⟨e1, e0⟩ := List.cons.inj hQ
          obtain ⟨e2, e3⟩ := List.cons.inj e0
          change tailOf x ++ Q = tailOf y ++ _ at e3
          by_cases tx : (SplitCompat x).2.2 = 0
          · left
            rw [letters_syllable sx, letters_syllable sy, e1, e2, tailOf_pos tx]
            exact ⟨tailOf y, rfl⟩
          · rw [tailOf_neg tx] at e3
            by_cases ty : (SplitCompat y).2.2 = 0
            · right
              rw [tailOf_pos ty] at e3
              have hc : isCon (SplitCompat x).2.2 := (C07_splitCompat x sx).2.2.1.resolve_left tx
              cases rest with
              | nil => cases e3
              | cons z more =>
                by_cases sz : IsSyllable z
                · refine ⟨z, more, rfl, sx, sy, sz, ty, ?_⟩
                  rw [spelt_cons, letters_syllable sz, List.singleton_append, List.nil_append,
                    List.cons_append] at e3
                  have e3 := (List.cons.inj e3).1
                  exact mk3 e1 e2 e3
                · rw [spelt_cons, lettersOf, if_neg sz] at e3
                  have e3 := (List.cons.inj e3).1
                  exact (ht z (by simp) ((loose_iff z).2 (.inl (e3 ▸ hc)))).elim
            · left
              rw [tailOf_neg ty] at e3
              have e3 := (List.cons.inj e3).1
              rw [SplitCompat_inj sx sy (Prod.ext e1 (Prod.ext e2 e3))]
              exact List.prefix_rfl
        · rw [letters_syllable sx, lettersOf, if_neg sy] at hQ
          have e1 := (List.cons.inj hQ).1
          exact (hy ((loose_iff y).2 (.inl (e1 ▸ (C07_splitCompat x sx).1)))).elim
        · rw [letters_syllable sy, lettersOf, if_neg sx] at hQ
          have e1 := (List.cons.inj hQ).1
          exact (hx ((loose_iff x).2 (.inl (e1 ▸ (C07_splitCompat y sy).1)))).elim
        · rw [lettersOf, if_neg sx, lettersOf, if_neg sy] at hQ
          have e1 := (List.cons.inj hQ).1
          rw [e1]; exact .inl List.prefix_rfl
  · rintro ⟨y, rest, rfl, h⟩
    have app : ∀ a b, spelt lettersOf (a ++ b) = spelt lettersOf a ++ spelt lettersOf b := by
      intro a b; simp [spelt]
    rw [app, app, List.prefix_append_right_inj, spelt_cons, spelt_cons]
    change lettersOf x ++ [] <+: _
    rw [List.append_nil]
    rcases h with h | ⟨z, more, rfl, sx, sy, sz, ty, e⟩
    · exact h.trans (List.prefix_append _ _)
    · rw [spelt_cons, letters_syllable sx, letters_syllable sy, letters_syllable sz, tailOf_pos ty]
      have h0 : (SplitCompat x).2.2 ≠ 0 := by
        intro h
        have := (C07_splitCompat z sz).1
        rw [← (of_mk3 e).2.2, h] at this
        exact absurd this (by decide)
      obtain ⟨e1, e2, e3⟩ := of_mk3 e
      rw [tailOf_neg h0, e1, e2, e3]
      simp

/-- 간 typed of 가나. -/
example : (∀ r ∈ [] ++ [(0xAC04 : Rune)], ¬ IsLoose r) ∧ (∀ r ∈ [0xAC00, (0xB098 : Rune)], ¬ IsLoose r) ∧
    spelt lettersOf ([] ++ [0xAC04]) <+: spelt lettersOf [0xAC00, 0xB098] := by decide +kernel

end Props
