import Verif.Spec.Stray
import Verif.Props.Cut
import Verif.Props.Hanja
import Verif.Props.Word
/-! Property theorem C79: input that is not valid UTF-8. -/
namespace Props
open Go Spec Cp949 Hanja Hangul

attribute [local irreducible] fromTable toTable rawFrom rawTo rawTable table

theorem decode_stray {b : Byte} {p : Str} (h : decodeCode (b :: p) = (0xFFFD, 1)) (c : Char) (t : Str) :
    b :: p ≠ String.utf8EncodeChar c ++ t := by
  intro e
  rw [e, decodeCode_char] at h
  have h1 := congrArg Prod.fst h
  have h2 := congrArg Prod.snd h
  simp only at h1 h2
  have : c = fffd := Char.ext (UInt32.toNat_inj.1 h1)
  rw [this] at h2
  revert h2
  decide

theorem enc_prefix {c d : Char} {s t : Str} (h : String.utf8EncodeChar c ++ s = String.utf8EncodeChar d ++ t) :
    c = d ∧ s = t := by
  have hd := decodeCode_char c s
  rw [h, decodeCode_char] at hd
  have : c = d := Char.ext (UInt32.toNat_inj.1 (congrArg Prod.fst hd).symm)
  subst this
  exact ⟨rfl, List.append_cancel_left h⟩

theorem enc_cons (c : Char) : ∃ b p, String.utf8EncodeChar c = b :: p := by
  have := (utf8EncodeChar_length c).1
  cases h : String.utf8EncodeChar c with
  | nil => rw [h] at this; simp at this
  | cons b p => exact ⟨b, p, rfl⟩

theorem items_exists (s : Str) : ∃ is, Items s is := by
  induction s using decode_induction with
  | h0 => exact ⟨[], .nil⟩
  | hc c rest ih => obtain ⟨is, h⟩ := ih; exact ⟨_, .char c h⟩
  | he b p h ih => obtain ⟨is, h'⟩ := ih; exact ⟨_, .stray (decode_stray h) h'⟩

theorem items_unique {s : Str} {is js : List (Option Char)} (h : Items s is) (h' : Items s js) : js = is := by
  induction h generalizing js with
  | nil =>
    generalize hz : ([] : Str) = z at h'
    cases h' with
    | nil => rfl
    | char c h =>
      obtain ⟨b, p, e⟩ := enc_cons c
      rw [e] at hz; simp at hz
    | stray _ _ => simp at hz
  | @char c s is h ih =>
    generalize hz : String.utf8EncodeChar c ++ s = z at h'
    cases h' with
    | nil =>
      obtain ⟨b, p, e⟩ := enc_cons c
      rw [e] at hz; simp at hz
    | char d h =>
      obtain ⟨rfl, rfl⟩ := enc_prefix hz
      rw [ih h]
    | stray hn _ => exact absurd hz.symm (hn c s)
  | @stray b s is hn h ih =>
    generalize hz : b :: s = z at h'
    cases h' with
    | nil => simp at hz
    | char d h => exact absurd hz (hn d _)
    | stray _ h =>
      simp only [List.cons.injEq] at hz
      obtain ⟨rfl, rfl⟩ := hz
      rw [ih h]

theorem items_runes {s : Str} {is : List (Option Char)} (h : Items s is) : runes s = (is.map shown).map runeOf := by
  induction h with
  | nil => rfl
  | char c h ih => rw [runes_char, ih]; rfl
  | @stray b s is hn h ih =>
    rcases runes_step b s with ⟨c, rest, e, _⟩ | ⟨_, e⟩
    · exact absurd e (hn c rest)
    · rw [e, ih]; rfl

/-- C79: every byte string reads as characters and stray bytes in exactly one way. -/
theorem C79_one_reading (s : Str) : ∃ is, Items s is ∧ ∀ js, Items s js → js = is := by
  obtain ⟨is, h⟩ := items_exists s
  exact ⟨is, h, fun js h' => items_unique h h'⟩

/-- C79: it is valid UTF-8 exactly if no byte is stray. -/
theorem C79_valid {s : Str} {is : List (Option Char)} (h : Items s is) : IsUtf8 s ↔ none ∉ is := by
  constructor
  · rintro ⟨cs, rfl⟩
    have : ∀ cs, Items (utf8 cs) (cs.map some) := by
      intro cs
      induction cs with
      | nil => exact .nil
      | cons c cs ih => rw [utf8_cons]; exact .char c ih
    rw [items_unique (this cs) h]
    simp
  · intro hn
    induction h with
    | nil => exact ⟨[], rfl⟩
    | char c h ih =>
      obtain ⟨cs, e⟩ := ih fun hx => hn (by simp [hx])
      exact ⟨c :: cs, by rw [e, utf8_cons]⟩
    | stray _ _ _ => simp at hn

/-- C79: `To` encodes the characters one by one, and writes two question marks for every stray byte. -/
theorem C79_to {s : Str} {is : List (Option Char)} (h : Items s is) :
    To s = (is.flatMap fun | some c => (To (utf8 [c])).1 | none => [0x3F, 0x3F], none) := by
  rw [To_eq, items_runes h]
  simp only [Prod.mk.injEq, and_true]
  clear h
  induction is with
  | nil => rfl
  | cons i is ih =>
    rw [List.map_cons, List.map_cons, List.flatMap_cons, List.flatMap_cons, ih]
    cases i with
    | none => rw [show shown none = fffd from rfl, toUnit_fffd]
    | some c => simp only [To_one]; rfl

/-- C79: `Convert` converts the characters one by one, and writes U+FFFD for every stray byte. -/
theorem C79_convert {s : Str} {is : List (Option Char)} (h : Items s is) :
    Convert s = is.flatMap fun | some c => Convert (utf8 [c]) | none => utf8 ['�'] := by
  have hf : conv (runeOf fffd) = runeOf fffd := by
    cases hv : mapGet table (runeOf fffd) with
    | none => simp [conv, hv]
    | some v =>
      exfalso
      have : IsHanja (runeOf fffd) = true := by unfold IsHanja; rw [hv]; rfl
      rw [isHanja_iff] at this
      revert this
      decide
  rw [Convert_eq, items_runes h]
  clear h
  induction is with
  | nil => rfl
  | cons i is ih =>
    rw [List.map_cons, List.map_cons, List.map_cons, List.flatMap_cons, ← ih]
    unfold ofRunes
    rw [List.flatMap_cons]
    congr 1
    cases i with
    | none =>
      rw [show shown none = fffd from rfl, hf, encodeRune_runeOf]
      decide
    | some c =>
      simp only [shown]
      rw [Convert_eq, runes_utf8, List.map_cons, List.map_cons]
      simp [ofRunes]

/-- C79: the functions on words take a word that is not valid UTF-8 for the text with U+FFFD for the stray bytes, but
`AppendPostposition` keeps its bytes. -/
theorem C79_word {s : Str} {is : List (Option Char)} (h : Items s is) :
    LastConsonant s = LastConsonant (utf8 (is.map shown)) ∧
    EndsWithConsonant s = EndsWithConsonant (utf8 (is.map shown)) ∧
    ∀ w o, ∃ x, AppendPostposition s w o = s ++ x ∧
      AppendPostposition (utf8 (is.map shown)) w o = utf8 (is.map shown) ++ x := by
  have hl : LastConsonant s = LastConsonant (utf8 (is.map shown)) := by
    unfold LastConsonant
    rw [runes_utf8, items_runes h]
    cases h with
    | nil => rfl
    | char c h =>
      obtain ⟨b, p, e⟩ := enc_cons c
      rw [if_neg (by rw [e]; simp), if_neg]
      rw [List.map_cons, utf8_cons, show shown (some c) = c from rfl, e]
      simp
    | stray hn h =>
      rw [if_neg (by simp), if_neg]
      obtain ⟨b, p, e⟩ := enc_cons '�'
      rw [List.map_cons, utf8_cons, show shown none = '�' from rfl, e]
      simp
  refine ⟨hl, by unfold EndsWithConsonant; rw [hl], ?_⟩
  intro w o
  unfold AppendPostposition
  rw [← hl]
  simp only
  split
  · exact ⟨o, rfl, rfl⟩
  · split
    · exact ⟨w, rfl, rfl⟩
    · exact ⟨o, rfl, rfl⟩

/-- 가, a stray byte, the first two bytes of 나, and A. -/
example : Items [0xEA, 0xB0, 0x80, 0xFF, 0xEB, 0x82, 0x41] [some '가', none, none, none, some 'A'] := by
  have stray : ∀ {b : Byte} {s : Str}, decodeCode (b :: s) = (0xFFFD, 1) → ∀ {is}, Items s is →
      Items (b :: s) (none :: is) := fun h _ hi => .stray (decode_stray h) hi
  exact .char '가' (stray (by decide) (stray (by decide) (stray (by decide) (.char 'A' .nil))))

end Props
