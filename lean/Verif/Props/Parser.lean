import Verif.Spec.Parser
import Verif.Spec.Chart
import Verif.Props.Lines
import Verif.Props.Search
/-! C100: programs that take a text apart at ASCII punctuation. -/
namespace Props
open Go Spec Cp949 Hanja

attribute [local irreducible] fromTable toTable rawFrom rawTo rawTable table

/-- A run of bytes that are all the same to the program. -/
theorem run_others {Q : Type} (P : Parser Q) (u rest : Str) (hu : ∀ b ∈ u, isMeta b = false) (hn : u ≠ []) (q : Q) (part : Str) :
    P.run q part (u ++ rest) = P.run (P.other q).1 (if (P.other q).2 then part ++ u else part) rest := by
  induction u generalizing q part with
  | nil => exact absurd rfl hn
  | cons b u ih =>
    rw [List.cons_append, Parser.run, if_neg (by simp [hu b (by simp)])]
    by_cases h0 : u = []
    · subst h0; rfl
    · rw [ih (fun x hx => hu x (List.mem_cons_of_mem _ hx)) h0, P.stable]
      by_cases hk : (P.other q).2 = true
      · simp [hk]
      · simp [hk]

/-- `f` keeps punctuation and makes something without punctuation of every other character, one by one. -/
structure Skeleton (f : Str → Str) : Prop where
  concat : ∀ a b, f (utf8 (a ++ b)) = f (utf8 a) ++ f (utf8 b)
  meta_ : ∀ s, (f s).filter isMeta = s.filter isMeta
  punct : ∀ c : Char, c.toNat < 0x80 → f (utf8 [c]) = utf8 [c]
  unit_ne : ∀ c, f (utf8 [c]) ≠ []

theorem utf8_none : utf8 [] = [] := rfl

theorem utf8_first (c : Char) (cs : List Char) : utf8 (c :: cs) = utf8 [c] ++ utf8 cs := utf8_append [c] cs

theorem Skeleton.nil {f : Str → Str} (hf : Skeleton f) : f [] = [] := by
  have := hf.concat [] []
  simp only [List.append_nil, utf8_none] at this
  have := congrArg List.length this
  simp only [List.length_append] at this
  exact List.length_eq_zero_iff.1 (by omega)

theorem not_meta_of_filter {s : Str} (h : s.filter isMeta = []) : ∀ b ∈ s, isMeta b = false := by
  intro b hb
  have := List.filter_eq_nil_iff.1 h b hb
  simpa using this

/-- A character is one punctuation byte, or has none. -/
theorem punct_or (c : Char) : (∃ b, isMeta b = true ∧ c.toNat < 0x80 ∧ utf8 [c] = [b]) ∨ (utf8 [c]).filter isMeta = [] := by
  rw [utf8_one]
  by_cases h : c.toNat < 0x80
  · rw [utf8_ascii h]
    cases hm : isMeta (UInt8.ofNat c.toNat) with
    | true => exact .inl ⟨_, hm, h, rfl⟩
    | false => exact .inr (by simp [hm])
  · refine .inr (List.filter_eq_nil_iff.2 fun b hb => ?_)
    have := utf8EncodeChar_high (Nat.not_lt.1 h) b hb
    unfold isMeta isAscii
    simp only [Bool.and_eq_true, decide_eq_true_eq, not_and, Bool.not_eq_true]
    omega

theorem Skeleton.parse {f : Str → Str} (hf : Skeleton f) {Q : Type} (P : Parser Q) (cs ps : List Char) (q : Q) :
    P.run q (f (utf8 ps)) (f (utf8 cs)) = (P.run q (utf8 ps) (utf8 cs)).map fun x => (f x.1, x.2) := by
  induction cs generalizing q ps with
  | nil => rw [utf8_none, hf.nil]; rfl
  | cons c cs ih =>
    have e1 : f (utf8 (c :: cs)) = f (utf8 [c]) ++ f (utf8 cs) := hf.concat [c] cs
    have e2 : f (utf8 (ps ++ [c])) = f (utf8 ps) ++ f (utf8 [c]) := hf.concat ps [c]
    have e3 := utf8_append ps [c]
    rw [e1, utf8_first c cs]
    rcases punct_or c with ⟨b, hb, hc, e⟩ | hc
    · rw [hf.punct c hc, e] at e2 ⊢
      rw [e] at e3
      simp only [List.cons_append, List.nil_append, Parser.run, if_pos hb]
      rcases P.punct q b with ⟨q', a⟩
      cases a with
      | keep => simp only; rw [← e2, ih, e3]
      | drop => exact ih ps q'
      | cut k =>
        simp only [List.map_cons]
        have := ih [] q'
        rw [utf8_none, hf.nil] at this
        rw [this]
    · have hu : utf8 [c] ≠ [] := by rw [utf8_one]; exact encode_ne c
      rw [run_others P (f (utf8 [c])) _ (not_meta_of_filter (by rw [hf.meta_, hc])) (hf.unit_ne c),
        run_others P (utf8 [c]) _ (not_meta_of_filter hc) hu]
      cases (P.other q).2 with
      | true => simp only [if_true]; rw [← e2, ← e3]; exact ih _ _
      | false => simp only [Bool.false_eq_true, if_false]; exact ih _ _

/-- The parts of a text are texts. -/
theorem parts_utf8 {Q : Type} (P : Parser Q) (cs ps : List Char) (q : Q) :
    ∀ x ∈ P.run q (utf8 ps) (utf8 cs), ∃ ds, x.1 = utf8 ds ∧ ∀ d ∈ ds, d ∈ ps ∨ d ∈ cs := by
  induction cs generalizing q ps with
  | nil => intro x hx; rw [utf8_none, Parser.run, List.mem_singleton] at hx; subst hx; exact ⟨ps, rfl, fun d hd => .inl hd⟩
  | cons c cs ih =>
    have e3 := utf8_append ps [c]
    have keep : ∀ q', ∀ x ∈ P.run q' (utf8 ps ++ utf8 [c]) (utf8 cs), ∃ ds, x.1 = utf8 ds ∧ ∀ d ∈ ds, d ∈ ps ∨ d ∈ c :: cs := by
      intro q' x hx
      rw [← e3] at hx
      obtain ⟨ds, e, hd⟩ := ih _ _ x hx
      refine ⟨ds, e, fun d h => ?_⟩
      rcases hd d h with h | h
      · rcases List.mem_append.1 h with h | h
        · exact .inl h
        · exact .inr (by rw [List.mem_singleton.1 h]; simp)
      · exact .inr (List.mem_cons_of_mem _ h)
    have drop : ∀ q', ∀ x ∈ P.run q' (utf8 ps) (utf8 cs), ∃ ds, x.1 = utf8 ds ∧ ∀ d ∈ ds, d ∈ ps ∨ d ∈ c :: cs := by
      intro q' x hx
      obtain ⟨ds, e, hd⟩ := ih _ _ x hx
      exact ⟨ds, e, fun d h => (hd d h).imp id (List.mem_cons_of_mem _)⟩
    intro x hx
    rw [utf8_first c cs] at hx
    rcases punct_or c with ⟨b, hb, hc, e⟩ | hc
    · rw [e] at hx keep
      simp only [List.cons_append, List.nil_append, Parser.run, if_pos hb] at hx
      rcases hp : P.punct q b with ⟨q', a⟩
      rw [hp] at hx
      cases a with
      | keep => exact keep _ x hx
      | drop => exact drop _ x hx
      | cut k =>
        rcases List.mem_cons.1 hx with rfl | hx
        · exact ⟨ps, rfl, fun d hd => .inl hd⟩
        · obtain ⟨ds, e, hd⟩ := ih [] q' x hx
          exact ⟨ds, e, fun d h => .inr (List.mem_cons_of_mem _ ((hd d h).resolve_left (by simp)))⟩
    · have hu : utf8 [c] ≠ [] := by rw [utf8_one]; exact encode_ne c
      rw [run_others P (utf8 [c]) _ (not_meta_of_filter hc) hu] at hx
      cases hk : (P.other q).2 with
      | true => rw [hk] at hx; exact keep _ x hx
      | false => rw [hk] at hx; exact drop _ x hx

theorem ascii_char {c : Char} (h : c.toNat < 0x80) : ∀ b ∈ utf8 [c], b.toNat < 0x80 := by
  rw [utf8_one, utf8_ascii h]
  intro b hb
  rw [List.mem_singleton.1 hb]
  simp only [UInt8.toNat_ofNat']
  omega

theorem skeleton_To : Skeleton fun s => (To s).1 where
  concat a b := by rw [utf8_append, C33_concat _ _ ⟨a, rfl⟩]
  meta_ := C81_to
  punct c h := by show (To (utf8 [c])).1 = utf8 [c]; rw [(C34_ascii _ (ascii_char h)).2]
  unit_ne := To_unit_ne

theorem not_hanja_low {c : Char} (h : c.toNat < 0x80) : IsHanja (runeOf c) = false := by
  cases hh : IsHanja (runeOf c) with
  | false => rfl
  | true =>
    rw [isHanja_iff, Hanja.runeOf_toNat] at hh
    unfold IsIdeograph at hh
    simp only [List.mem_cons, List.not_mem_nil, or_false] at hh
    omega

theorem skeleton_Convert : Skeleton Convert where
  concat a b := by rw [utf8_append, C27_concat _ _ ⟨a, rfl⟩]
  meta_ s := by
    have h := congrArg (List.filter isMeta) (C81_convert s)
    have e : ∀ t : Str, (t.filter isAscii).filter isMeta = t.filter isMeta := by
      intro t
      rw [List.filter_filter]
      congr 1
      funext b
      unfold isMeta
      cases isAscii b <;> simp
    rwa [e, e] at h
  punct c h := (C26_untouched_partial _).2 ⟨⟨_, rfl⟩, by
    intro r hr
    rw [runes_utf8] at hr
    rw [List.mem_singleton.1 hr]
    exact not_hanja_low h⟩
  unit_ne := Convert_unit_ne

/-! ## C100 -/

/-- C100: whatever a program finds in a text that it takes apart at punctuation, in the encoded text it finds the
encodings of the same parts, with the same ends. So for a text converted from hanja. -/
theorem C100_parse {Q : Type} (P : Parser Q) (q : Q) (cs : List Char) :
    P.run q [] (To (utf8 cs)).1 = (P.run q [] (utf8 cs)).map (fun x => ((To x.1).1, x.2)) ∧
    P.run q [] (Convert (utf8 cs)) = (P.run q [] (utf8 cs)).map (fun x => (Convert x.1, x.2)) := by
  have h1 := skeleton_To.parse P cs [] q
  have h2 := skeleton_Convert.parse P cs [] q
  rw [utf8_none, skeleton_Convert.nil] at h2
  rw [utf8_none, show (To ([] : Str)).1 = [] from skeleton_To.nil] at h1
  exact ⟨h1, h2⟩

/-- C100, reading: the parts of an encoded text can each be decoded, and give what the program finds in the decoded text. -/
theorem C100_decode {Q : Type} (P : Parser Q) (q : Q) (cs : List Char) (b : Str) (h : Enc cs b) :
    (P.run q [] b).map (fun x => (From x.1, x.2)) = (P.run q [] (utf8 cs)).map (fun x => ((x.1, none), x.2)) := by
  have e := (C100_parse P q cs).1
  rw [To_enc h] at e
  rw [e, List.map_map]
  refine List.map_congr_left fun x hx => ?_
  obtain ⟨ds, e, hd⟩ := parts_utf8 P cs [] q x hx
  obtain ⟨d, e1, -, e2⟩ := C28_roundtrip_unicode ds fun d hd' => enc_repertoire h d ((hd d hd').resolve_left (by simp))
  simp only [Function.comp_apply, e, e1, e2]

/-- C100, the condition is needed: letters and `?` turn up where the text has none. A program that looks for A finds one
in 갂 encoded, one that looks for `?` finds one for each character that CP949 lacks. -/
theorem C100_letters_needed :
    0x41 ∉ utf8 ['갂'] ∧ 0x41 ∈ (To (utf8 ['갂'])).1 ∧ 0x3F ∉ utf8 ['\uFFFC'] ∧ 0x3F ∈ (To (utf8 ['\uFFFC'])).1 := by
  refine ⟨by decide +kernel, ?_, by decide +kernel, ?_⟩
  · rw [C81_letters]; decide
  · rw [To_one, toUnit_double (by decide) (by decide)]; decide

/-- C100 applies: a record of CSV with a comma, a quote and a line end inside quotes, and what the reader of CSV finds. -/
example : csv.run .plain [] (utf8 ['"', '가', ',', '"', '"', '\n', '"', ',', 'A', '나', '\n', '1']) =
    [(utf8 ['가', ',', '"', '\n'], some 0), (utf8 ['A', '나'], some 1), (utf8 ['1'], none)] := by decide +kernel

example : ∃ b, Enc ['가', ',', 'A', '\n'] b := by
  obtain ⟨b, -, h, -⟩ := C28_roundtrip_unicode ['가', ',', 'A', '\n'] (by
    intro c hc
    simp only [List.mem_cons, List.not_mem_nil, or_false] at hc
    rcases hc with rfl | rfl | rfl | rfl <;> exact C28_repertoire _ (by decide))
  exact ⟨b, h⟩

/-! ## C101 -/

/-- Changing single ASCII bytes of an encoded text. -/
theorem map_enc_iff {g : Byte → Byte} {G : Char → Char} (hg : ∀ b : Byte, 0x80 ≤ b.toNat → g b = b)
    (ha : ∀ (c : Char) (b : Byte), b.toNat < 0x80 → c.toNat = b.toNat → (g b).toNat < 0x80 ∧ (G c).toNat = (g b).toNat)
    (hG : ∀ c : Char, 0x80 ≤ c.toNat → G c = c) {cs : List Char} {b : Str} (h : Enc cs b) :
    b.map g = (To (utf8 (cs.map G))).1 ↔ ∀ y ∈ secondBytes b, g y = y := by
  have key : ∀ {cs : List Char} {b : Str}, Enc cs b → ∃ d, Enc (cs.map G) d ∧ d.length = b.length ∧
      (b.map g = d ↔ ∀ y ∈ secondBytes b, g y = y) := by
    intro cs b h
    induction h with
    | nil => exact ⟨[], .nil, rfl, by simp [secondBytes]⟩
    | @ascii b c cs bs h1 h2 _ ih =>
      obtain ⟨d, hd, hl, e⟩ := ih
      obtain ⟨h3, h4⟩ := ha c b h1 h2
      refine ⟨g b :: d, .ascii h3 h4 hd, by simp [hl], ?_⟩
      rw [seconds_ascii h1, ← e]
      simp
    | @pair hi lo c cs bs h1 _ ih =>
      obtain ⟨d, hd, hl, e⟩ := ih
      obtain ⟨hc, -⟩ := char_range h1
      have hr := code_range h1
      have hlo : lo.toNat < 256 := UInt8.toNat_lt lo
      have hhi : 0x80 ≤ hi.toNat := by omega
      refine ⟨hi :: lo :: d, by rw [List.map_cons, hG c (by omega)]; exact .pair h1 hd, by simp [hl], ?_⟩
      rw [seconds_pair hhi]
      simp only [List.map_cons, List.cons.injEq, hg hi hhi, true_and, e, List.forall_mem_cons]
  obtain ⟨d, hd, -, e⟩ := key h
  rw [To_enc hd]
  exact e

theorem ofNat_low {n : Nat} (h : n < 0x80) : (Char.ofNat n).toNat = n := by
  unfold Char.ofNat
  rw [dif_pos (by unfold Nat.isValidChar; omega)]
  rfl

theorem lower_low (c : Char) (b : Byte) (h : b.toNat < 0x80) (e : c.toNat = b.toNat) :
    (lowerByte b).toNat < 0x80 ∧ (lowerChar c).toNat = (lowerByte b).toNat := by
  unfold lowerByte lowerChar
  rw [e]
  by_cases hc : 0x41 ≤ b.toNat ∧ b.toNat ≤ 0x5A
  · rw [if_pos hc, if_pos hc, ofNat_low (by omega), UInt8.toNat_ofNat']
    omega
  · rw [if_neg hc, if_neg hc]
    exact ⟨h, e⟩

theorem upper_low (c : Char) (b : Byte) (h : b.toNat < 0x80) (e : c.toNat = b.toNat) :
    (upperByte b).toNat < 0x80 ∧ (upperChar c).toNat = (upperByte b).toNat := by
  unfold upperByte upperChar
  rw [e]
  by_cases hc : 0x61 ≤ b.toNat ∧ b.toNat ≤ 0x7A
  · rw [if_pos hc, if_pos hc, ofNat_low (by omega), UInt8.toNat_ofNat']
    omega
  · rw [if_neg hc, if_neg hc]
    exact ⟨h, e⟩

theorem lowerByte_fix (b : Byte) : lowerByte b = b ↔ ¬ (0x41 ≤ b.toNat ∧ b.toNat ≤ 0x5A) := by
  unfold lowerByte
  by_cases hc : 0x41 ≤ b.toNat ∧ b.toNat ≤ 0x5A
  · rw [if_pos hc]
    refine ⟨fun h => ?_, fun h => absurd hc h⟩
    have := congrArg UInt8.toNat h
    rw [UInt8.toNat_ofNat'] at this
    omega
  · rw [if_neg hc]
    exact ⟨fun _ => hc, fun _ => rfl⟩

theorem upperByte_fix (b : Byte) : upperByte b = b ↔ ¬ (0x61 ≤ b.toNat ∧ b.toNat ≤ 0x7A) := by
  unfold upperByte
  by_cases hc : 0x61 ≤ b.toNat ∧ b.toNat ≤ 0x7A
  · rw [if_pos hc]
    refine ⟨fun h => ?_, fun h => absurd hc h⟩
    have := congrArg UInt8.toNat h
    rw [UInt8.toNat_ofNat'] at this
    omega
  · rw [if_neg hc]
    exact ⟨fun _ => hc, fun _ => rfl⟩

/-- C101 is false of the code, as of any encoding whose second bytes are letters: 갂 made lower-case byte by byte is 갵. -/
theorem C101_case_fails :
    (¬ ∀ cs : List Char, (∀ c ∈ cs, InRepertoire c) →
      (To (utf8 cs)).1.map lowerByte = (To (utf8 (cs.map lowerChar))).1) ∧
    (¬ ∀ cs : List Char, (∀ c ∈ cs, InRepertoire c) →
      (To (utf8 cs)).1.map upperByte = (To (utf8 (cs.map upperChar))).1) ∧
    From ((To (utf8 ['갂'])).1.map lowerByte) = (utf8 ['갵'], none) := by
  have h1 : Enc ['갂'] [0x81, 0x41] := .pair (by unfold Chart; decide +kernel) .nil
  have h2 : Enc ['갵'] [0x81, 0x61] := .pair (by unfold Chart; decide +kernel) .nil
  have e1 : [(0x81 : Byte), 0x41].map lowerByte = [0x81, 0x61] := by decide
  have e2 : [(0x81 : Byte), 0x61].map upperByte = [0x81, 0x41] := by decide
  refine ⟨fun h => ?_, fun h => ?_, ?_⟩
  · have := h ['갂'] (enc_repertoire h1)
    rw [show ['갂'].map lowerChar = ['갂'] by decide +kernel, To_enc h1, e1] at this
    exact absurd this (by decide)
  · have := h ['갵'] (enc_repertoire h2)
    rw [show ['갵'].map upperChar = ['갵'] by decide +kernel, To_enc h2, e2] at this
    exact absurd this (by decide)
  · rw [To_enc h1, e1, From_enc h2]

/-- C101, what holds exactly (partial: texts with such a character are left out, and the claim is false of each of them): the
case of an encoded text can be changed byte by byte exactly if no character has a letter of the other case as its second byte. -/
theorem C101_case_partial (cs : List Char) (b : Str) (h : Enc cs b) :
    (b.map lowerByte = (To (utf8 (cs.map lowerChar))).1 ↔ ∀ y ∈ secondBytes b, ¬ (0x41 ≤ y.toNat ∧ y.toNat ≤ 0x5A)) ∧
    (b.map upperByte = (To (utf8 (cs.map upperChar))).1 ↔ ∀ y ∈ secondBytes b, ¬ (0x61 ≤ y.toNat ∧ y.toNat ≤ 0x7A)) := by
  constructor
  · rw [map_enc_iff (G := lowerChar) (fun x hx => (lowerByte_fix x).2 (by omega)) lower_low
      (fun c hc => by unfold lowerChar; rw [if_neg (by omega)]) h]
    exact forall_congr' fun y => forall_congr' fun _ => lowerByte_fix y
  · rw [map_enc_iff (G := upperChar) (fun x hx => (upperByte_fix x).2 (by omega)) upper_low
      (fun c hc => by unfold upperChar; rw [if_neg (by omega)]) h]
    exact forall_congr' fun y => forall_congr' fun _ => upperByte_fix y

theorem eucKr_enc (cs : List Char) (h : ∀ c ∈ cs, EucKr c) : ∃ b, Enc cs b ∧ ∀ y ∈ secondBytes b, 0xA1 ≤ y.toNat := by
  induction cs with
  | nil => exact ⟨[], .nil, by simp [secondBytes]⟩
  | cons c cs ih =>
    obtain ⟨b, hb, hs⟩ := ih fun d hd => h d (List.mem_cons_of_mem _ hd)
    rcases h c (by simp) with hc | ⟨code, h1, h2, hc⟩
    · have e : (UInt8.ofNat c.toNat).toNat = c.toNat := by rw [UInt8.toNat_ofNat']; omega
      refine ⟨UInt8.ofNat c.toNat :: b, .ascii (by omega) e.symm hb, ?_⟩
      rw [seconds_ascii (by omega)]
      exact hs
    · have e1 : (UInt8.ofNat (code / 256)).toNat = code / 256 := by rw [UInt8.toNat_ofNat']; omega
      have e2 : (UInt8.ofNat (code % 256)).toNat = code % 256 := by rw [UInt8.toNat_ofNat']; omega
      refine ⟨UInt8.ofNat (code / 256) :: UInt8.ofNat (code % 256) :: b, .pair ?_ hb, ?_⟩
      · rw [e1, e2, show code / 256 * 256 + code % 256 = code by omega]
        exact hc
      · rw [seconds_pair (by omega)]
        intro y hy
        rcases List.mem_cons.1 hy with rfl | hy
        · omega
        · exact hs y hy

/-- C101, what holds (partial: only EUC-KR texts, which have no characters of the extension): their case can be changed byte by
byte. -/
theorem C101_euckr_partial (cs : List Char) (h : ∀ c ∈ cs, EucKr c) :
    (To (utf8 cs)).1.map lowerByte = (To (utf8 (cs.map lowerChar))).1 ∧
    (To (utf8 cs)).1.map upperByte = (To (utf8 (cs.map upperChar))).1 := by
  obtain ⟨b, hb, hs⟩ := eucKr_enc cs h
  rw [To_enc hb]
  exact ⟨(C101_case_partial cs b hb).1.2 fun y hy => by have := hs y hy; omega,
    (C101_case_partial cs b hb).2.2 fun y hy => by have := hs y hy; omega⟩

example : ∀ c ∈ ['가', 'A'], EucKr c := by
  intro c hc
  simp only [List.mem_cons, List.not_mem_nil, or_false] at hc
  rcases hc with rfl | rfl
  · exact .inr ⟨0xB0A1, by decide, by decide, by unfold Chart; decide +kernel⟩
  · exact .inl (by decide)

/-- C101 applies: 가A has no letter as a second byte, 갂 has. -/
example : Enc ['가', 'A'] [0xB0, 0xA1, 0x41] ∧ secondBytes [0xB0, 0xA1, 0x41] = [0xA1] ∧ secondBytes [0x81, 0x41] = [0x41] :=
  ⟨.pair (by unfold Chart; decide +kernel) (.ascii (by decide) (by decide) .nil), by decide, by decide⟩

end Props
