import Verif.Props.Reader
import Verif.Props.Writer
/-! Further property theorems about streams: C39, C44, C45 (package cp949: `NewReader`), C63 (reader and
writer together). -/
namespace Props
open Go Spec Cp949

attribute [local irreducible] fromTable toTable rawFrom rawTo

variable {σ τ : Type}

/-! ### C39 -/

theorem reads_append {src : Source σ} {r r1 r2 : Reader σ} {b1 b2 : List Str} {x1 x2 : List Result}
    (h1 : Reads src r b1 x1 r1) (h2 : Reads src r1 b2 x2 r2) : Reads src r (b1 ++ b2) (x1 ++ x2) r2 := by
  induction h1 with
  | nil => exact h2
  | cons h _ ih => exact .cons h (ih h2)

theorem reads_split {src : Source σ} {r r2 : Reader σ} {b1 b2 : List Str} {x : List Result}
    (h : Reads src r (b1 ++ b2) x r2) :
    ∃ x1 x2 r1, x = x1 ++ x2 ∧ Reads src r b1 x1 r1 ∧ Reads src r1 b2 x2 r2 := by
  induction b1 generalizing r x with
  | nil => exact ⟨[], x, r, rfl, .nil r, h⟩
  | cons b bs ih =>
    cases h with
    | cons h1 h2 =>
      obtain ⟨x1, x2, r1, rfl, g1, g2⟩ := ih h2
      exact ⟨_ :: x1, x2, r1, rfl, .cons h1 g1, g2⟩

/-- As long as every call returns, a caller can go on for as many calls as it likes. -/
theorem follows_exists {src : Source σ} {r : Reader σ} (caller : List Result → Str)
    (hc : ∀ h, caller h ≠ [])
    (ex : ∀ bufs : List Str, (∀ b ∈ bufs, b ≠ []) → ∃ res r', Reads src r bufs res r') (n : Nat) :
    ∃ bufs res r', bufs.length = n ∧ (∀ b ∈ bufs, b ≠ []) ∧ Reads src r bufs res r' ∧
      Follows caller bufs res := by
  induction n with
  | zero => exact ⟨[], [], r, rfl, by simp, .nil r, fun i h => by simp at h⟩
  | succ n ih =>
    obtain ⟨bufs, res, r', hl, hb, hr, hf⟩ := ih
    have hb' : ∀ b ∈ bufs ++ [caller res], b ≠ [] := by
      intro b h
      rcases List.mem_append.1 h with h | h
      · exact hb b h
      · rw [List.mem_singleton.1 h]; exact hc _
    obtain ⟨res', r'', hr'⟩ := ex _ hb'
    obtain ⟨x1, x2, r1, rfl, g1, g2⟩ := reads_split hr'
    obtain ⟨rfl, rfl⟩ := Reads_det hr g1
    have hlen := reads_length hr
    refine ⟨_, _, _, by simp [hl], hb', hr', ?_⟩
    intro i h
    simp only [List.length_append, List.length_cons, List.length_nil] at h
    by_cases hi : i < bufs.length
    · rw [List.getElem_append_left hi, List.take_append_of_le_length (by omega)]
      exact hf i hi
    · have : i = bufs.length := by omega
      subst this
      rw [List.getElem_append_right (Nat.le_refl _), List.take_append_of_le_length (by omega),
        List.take_of_length_le (by omega)]
      simp

/-- Any caller, also one that chooses its buffers by what it has got so far, that goes on until it sees an
error gets exactly `From` of the stream, in calls that each deliver something, and then the source's error. -/
theorem C39_any_caller (src : Source σ) (e : Err) (s : σ) (D : Str) (h : Delivers src e s D)
    (hD : (From D).2 = none) (caller : List Result → Str) (hc : ∀ x, caller x ≠ []) :
    ∃ bufs good buf r', Reads src (NewReader s) bufs (good ++ [(0, some e, buf)]) r' ∧
      Follows caller bufs (good ++ [(0, some e, buf)]) ∧
      (∀ x ∈ good, 0 < x.1 ∧ x.1 ≤ x.2.2.length ∧ x.2.1 = none) ∧
      delivered good = (From D).1 := by
  obtain ⟨bufs, res, r', hl, hb, hr, hf⟩ := follows_exists (src := src) (r := NewReader s) caller hc
    (fun bufs hb => by
      obtain ⟨good, rest, r', h1, _⟩ := C39_delivers src e s D h hD bufs hb
      exact ⟨_, _, h1⟩) ((From D).1.length + 1)
  obtain ⟨good, rest, r2, h1, h2, h3, _, h5, h6⟩ := C39_delivers src e s D h hD bufs hb
  obtain ⟨rfl, rfl⟩ := Reads_det hr h1
  have hne := h6 (by omega)
  have hlen := reads_length hr
  cases rest with
  | nil => exact absurd rfl hne
  | cons x rest =>
    obtain ⟨n, err, buf⟩ := x
    obtain ⟨hn, he⟩ := h3 _ (List.mem_cons_self ..)
    simp only at hn he
    subst hn; subst he
    simp only [List.length_append, List.length_cons] at hlen
    have hsplit : bufs = bufs.take (good.length + 1) ++ bufs.drop (good.length + 1) :=
      (List.take_append_drop ..).symm
    rw [hsplit] at hr
    obtain ⟨x1, x2, r3, hx, g1, _⟩ := reads_split hr
    have hl1 := reads_length g1
    rw [List.length_take, Nat.min_eq_left (by omega)] at hl1
    have hx1 : x1 = good ++ [(0, some e, buf)] := by
      have := congrArg (List.take (good.length + 1)) hx
      rw [List.take_append_of_le_length (l₁ := x1) (by omega), List.take_of_length_le (l := x1) (by omega)]
        at this
      rw [← this, List.take_append, List.take_of_length_le (by omega)]
      simp
    subst hx1
    refine ⟨_, good, buf, r3, g1, ?_, h2, h5 hne⟩
    intro i hi
    rw [List.length_take] at hi
    have := hf i (by omega)
    rw [List.getElem_take, this]
    congr 1
    rw [show good ++ (0, some e, buf) :: rest = (good ++ [(0, some e, buf)]) ++ rest by simp]
    rw [List.take_append_of_le_length (by simp; omega)]

/-- Such a caller: its buffer grows with what it has got. -/
example : ∃ caller : List Result → Str, (∀ x, caller x ≠ []) ∧ caller [] ≠ caller [(1, none, [0x41])] := by
  refine ⟨fun x => List.replicate (512 + (x.map (·.1)).sum) 0, ?_, ?_⟩
  · intro x h
    have := congrArg List.length h
    rw [List.length_replicate, List.length_nil] at this
    omega
  · intro h
    have := congrArg List.length h
    rw [List.length_replicate, List.length_replicate] at this
    exact absurd this (by decide)

/-! ### C44 -/

/-- Exactly what the code does about sources that return 0 bytes and no error: it treats them as if they had
reported the end of file. (So C44 holds for all other sources.) -/
theorem C44_empty_source_read_exact (src : Source σ) (fuel : Nat) (r : Reader σ) (buf : Str) :
    readLoop src fuel r buf = readLoop (eofFor src) fuel r buf := by
  have hf : ∀ (r : Reader σ) len, fill src r len = fill (eofFor src) r len := by
    intro r len
    unfold fill
    simp only
    generalize ensureCapCap r.rcap (r.rdata.length + len) = c
    by_cases h : (src r.src (c - r.rdata.length)).1 = [] ∧ (src r.src (c - r.rdata.length)).2.1 = none
    · rw [show eofFor src r.src (c - r.rdata.length) = ([], some .eof, (src r.src (c - r.rdata.length)).2.2)
        from if_pos h]
      simp [h.1, h.2]
    · rw [show eofFor src r.src (c - r.rdata.length) = src r.src (c - r.rdata.length) from if_neg h]
  induction fuel generalizing r with
  | zero => rfl
  | succ fuel ih =>
    rw [readLoop, readLoop, hf]
    split
    · rfl
    · split
      · cases fill (eofFor src) r buf.length with
        | none => rfl
        | some r1 => exact ih _
      · split
        · rfl
        · exact ih _

/-- FALSE as stated (3): an empty buffer can also cut a stream short later on, after data has been
delivered. Here the stream is `A가`; after `A` a call with an empty buffer ends it. -/
theorem C44_later_empty_buffer_fails :
    ∃ (l : List Str) (bufs : List Str) (res : List Result) (r' : Reader (List Str)),
      Delivers chunked .eof l l.flatten ∧ (From l.flatten) = (utf8 ['A', '가'], none) ∧
      Reads chunked (NewReader l) bufs res r' ∧ bufs = [[0], [], [0, 0, 0]] ∧
      res = [(1, none, [0x41]), (0, some .eof, []), (0, some .eof, [0, 0, 0])] := by
  have hc : Chart (0xB0 * 256 + 0xA1) '가'.toNat := by
    unfold Chart
    decide +kernel
  have he : Enc ['A', '가'] [0x41, 0xB0, 0xA1] :=
    .ascii (by decide) (by decide) (.pair (hi := 0xB0) (lo := 0xA1) hc .nil)
  exact ⟨[[0x41], [0xB0, 0xA1]], _, _, ⟨[[0xA1]], [], [], 1, some .eof⟩, chunked_delivers _ (by simp),
    From_enc he,
    .cons (r' := ⟨[[0xB0, 0xA1]], [], [], 1, none⟩) ⟨2, rfl⟩
      (.cons (r' := ⟨[[0xA1]], [], [], 1, some .eof⟩) ⟨3, rfl⟩ (.cons ⟨1, rfl⟩ (.nil _))), rfl, rfl⟩

/-- What holds (2): with room in the buffer of the reader, a call with an empty buffer over a source whose
next read brings whole characters returns 0 and no error, and what it has fetched is kept for the next call.
Missing: a next read that ends inside a character. -/
theorem C44_empty_buffer_fetch_partial (src : Source σ) (r : Reader σ) (hc : r.cdata = []) (he : r.err = none)
    (hr : r.rdata = []) (hl : (src r.src r.rcap).1.length ≤ r.rcap) (hne : (src r.src r.rcap).1 ≠ [])
    (hf : (From (src r.src r.rcap).1).2 = none) :
    Returns src r [] 0 none []
      { src := (src r.src r.rcap).2.2, cdata := (From (src r.src r.rcap).1).1, rdata := [], rcap := r.rcap
        err := (src r.src r.rcap).2.1 } := by
  rcases dec_cases (src r.src r.rcap).1 with ⟨ds, hds⟩ | ht
  · refine ⟨2, ?_⟩
    have hfill : fill src r 0 = some { r with
        src := (src r.src r.rcap).2.2, rdata := (src r.src r.rcap).1, err := (src r.src r.rcap).2.1 } := by
      unfold fill
      simp [hr, ensureCapCap, hl, hne]
    rw [readLoop, if_neg (by simp [hc]), if_pos he]
    simp only [List.length_nil]
    rw [hfill]
    simp only
    rw [convert_dec (cs := ds) hds, From_dec hds]
    have hds0 : utf8 ds ≠ [] := by
      intro h0
      cases ds with
      | nil =>
        generalize (src r.src r.rcap).1 = w at hds hne
        cases hds
        exact hne rfl
      | cons d ds =>
        rw [utf8_cons] at h0
        have := (utf8EncodeChar_length d).1
        rw [(List.append_eq_nil_iff.1 h0).1] at this
        simp at this
    rw [readLoop, if_pos (List.length_pos_iff.2 hds0)]
    simp [copy]
  · rw [From_truncated ht] at hf; simp at hf

/-! ### C45 -/

theorem running_step {src : Source σ} {n : Nat} {r : Reader σ} {buf : Str}
    (h : readLoop src (n + 2) r buf = .running) : r.cdata = [] ∧ r.err = none ∧
      ∃ r1, fill src r buf.length = some r1 ∧ readLoop src (n + 1) (convert r1) buf = .running := by
  rw [readLoop] at h
  by_cases hc : r.cdata.length > 0
  · rw [if_pos hc] at h; simp at h
  · rw [if_neg hc] at h
    have hc : r.cdata = [] := List.length_eq_zero_iff.1 (by omega)
    by_cases he : r.err = none
    · rw [if_pos he] at h
      cases hf : fill src r buf.length with
      | none => rw [hf] at h; simp at h
      | some r1 => rw [hf] at h; exact ⟨hc, he, r1, rfl, h⟩
    · exfalso
      rw [if_neg he] at h
      by_cases hl : r.rdata.length = 0
      · rw [if_pos hl] at h; simp at h
      · rw [if_neg hl, readLoop] at h
        have hr : (convert r).rdata = [] := by
          rcases dec_cases r.rdata with ⟨ds, hds⟩ | ht
          · rw [convert_dec hds]
          · rw [convert_truncated_end ht he]
        have he2 : (convert r).err ≠ none := he
        by_cases hc2 : (convert r).cdata.length > 0
        · rw [if_pos hc2] at h; simp at h
        · rw [if_neg hc2, if_neg he2, if_pos (by rw [hr]; rfl)] at h
          simp at h

/-- What holds (3): for every source and every state: a call that is still running after `n + 2` rounds has
read `n` non-empty pieces from the source without an error, and after each of them the input received and
not yet delivered ended inside a character. So a call returns as soon as what has been received is made of
whole characters, or the source reports an error. -/
theorem C45_running_partial (src : Source σ) (n : Nat) (r : Reader σ) (buf : Str)
    (h : readLoop src (n + 2) r buf = .running) :
    r.cdata = [] ∧ r.err = none ∧ ∃ ps s', ps.length = n ∧ Supplies src r.src ps s' ∧ (∀ p ∈ ps, p ≠ []) ∧
      ∀ m, 0 < m → m ≤ n → Truncated (r.rdata ++ (ps.take m).flatten) := by
  induction n generalizing r with
  | zero =>
    refine ⟨?_, ?_, [], r.src, rfl, .nil _, by simp, fun m h1 h2 => by omega⟩
    · exact (running_step h).1
    · exact (running_step h).2.1
  | succ n ih =>
    obtain ⟨hc, he, r1, hf, h⟩ := running_step h
    obtain ⟨hc1, he1, ps, s', h1, h2, h3, h4⟩ := ih _ h
    obtain ⟨k, _, _, _, rfl⟩ := fill_some hf
    have hconv : ∀ r : Reader σ, (convert r).err = r.err := fun r => rfl
    have hsrc : ∀ r : Reader σ, (convert r).src = r.src := fun r => rfl
    rw [hconv] at he1
    rw [hsrc] at h2
    simp only at he1 h2
    have hne : (src r.src k).1 ≠ [] ∧ (src r.src k).2.1 = none := by
      by_cases h0 : (src r.src k).1 = [] ∧ (src r.src k).2.1 = none
      · rw [if_pos h0] at he1; simp at he1
      · rw [if_neg h0] at he1
        exact ⟨fun h5 => h0 ⟨h5, he1⟩, he1⟩
    have ht : Truncated (r.rdata ++ (src r.src k).1) := by
      rcases dec_cases (r.rdata ++ (src r.src k).1) with ⟨ds, hds⟩ | ht
      · exfalso
        rw [convert_dec (cs := ds) hds] at hc1
        simp only at hc1
        cases ds with
        | nil =>
          generalize hw : r.rdata ++ (src r.src k).1 = w at hds
          cases hds
          exact hne.1 (List.append_eq_nil_iff.1 hw).2
        | cons d ds =>
          rw [utf8_cons] at hc1
          have := (utf8EncodeChar_length d).1
          rw [(List.append_eq_nil_iff.1 hc1).1] at this
          simp at this
      · exact ht
    refine ⟨hc, he, (src r.src k).1 :: ps, s', by simp [h1], .cons (k := k) (by rw [← hne.2]) h2, ?_, ?_⟩
    · intro p hp
      rcases List.mem_cons.1 hp with rfl | hp
      · exact hne.1
      · exact h3 p hp
    · intro m hm1 hm2
      cases m with
      | zero => omega
      | succ m =>
        rw [List.take_succ_cons, List.flatten_cons, ← List.append_assoc]
        cases m with
        | zero => simpa using ht
        | succ m =>
          have := h4 (m + 1) (by omega) (by omega)
          rw [convert_truncated_more ht he1] at this
          exact this

-- a call that is still running after two rounds
example : readLoop chunked (0 + 2) (NewReader [[0x41, 0xB0], [0xA1]]) [0, 0] = .running := rfl

/-! ### C64 -/

/-- C64: a text that CP949 can represent, written in any pieces and read back with any chunking by any caller,
arrives as it was. -/
theorem C64_write_read (sink : Sink τ) (hs : ∀ t d, (sink t d).2.1 = none) (t : τ) (texts : List (List Char))
    (h : ∀ x ∈ texts, ∀ c ∈ x, InRepertoire c) :
    ∃ res w', Writes (loggedSink sink) (NewWriter (t, [])) (texts.map utf8) res w' ∧
      ∀ (src : Source σ) (e : Err) (s : σ), Delivers src e s w'.sink.2.flatten →
        ∀ caller : List Result → Str, (∀ x, caller x ≠ []) →
          ∃ bufs good buf r', Reads src (NewReader s) bufs (good ++ [(0, some e, buf)]) r' ∧
            Follows caller bufs (good ++ [(0, some e, buf)]) ∧ (∀ x ∈ good, x.2.1 = none) ∧
            delivered good = utf8 texts.flatten := by
  obtain ⟨b, _, he, hf⟩ := C28_roundtrip_unicode texts.flatten (by
    intro c hc
    obtain ⟨x, hx, hc⟩ := List.mem_flatten.1 hc
    exact h x hx c hc)
  obtain ⟨res, w', h1, h2⟩ := C46_encodes sink hs t texts b he
  refine ⟨res, w', h1, ?_⟩
  intro src e s hd caller hc
  rw [h2] at hd
  obtain ⟨bufs, good, buf, r', g1, g2, g3, g4⟩ := C39_any_caller src e s b hd (by rw [hf]) caller hc
  exact ⟨bufs, good, buf, r', g1, g2, fun x hx => (g3 x hx).2.2, by rw [g4, hf]⟩

example : ∀ x ∈ [['가', 'A'], [], ['나']], ∀ c ∈ x, InRepertoire c := by
  intro x hx c hc
  simp only [List.mem_cons, List.not_mem_nil, or_false] at hx
  rcases hx with rfl | rfl | rfl
  · simp only [List.mem_cons, List.not_mem_nil, or_false] at hc
    rcases hc with rfl | rfl
    · exact .inr ⟨0xB0A1, by unfold Chart; decide +kernel⟩
    · exact .inl (by decide)
  · simp at hc
  · rw [List.mem_singleton.1 hc]
    exact .inr ⟨0xB3AA, by unfold Chart; decide +kernel⟩

/-! ### C65 -/

/-- The pieces `io.Copy` hands on: what each call delivered, if anything. -/
def pieces (res : List Result) : List Str := (res.filter fun x => x.1 > 0).map fun x => x.2.2.take x.1

theorem pieces_flatten (res : List Result) : (pieces res).flatten = delivered res := by
  induction res with
  | nil => rfl
  | cons x xs ih =>
    unfold pieces delivered at *
    rw [List.flatMap_cons, ← ih, List.filter_cons]
    by_cases h : x.1 > 0
    · simp [h]
    · have : x.1 = 0 := by omega
      simp [this]

theorem utf8_flatten (texts : List (List Char)) : (texts.map utf8).flatten = utf8 texts.flatten := by
  induction texts with
  | nil => rfl
  | cons x xs ih => rw [List.map_cons, List.flatten_cons, ih, List.flatten_cons, utf8_append]

/-- A call with a buffer that has room for everything delivers whole characters. -/
theorem whole_read {src : Source σ} {D : Str} {ds : List Char} (hds : Dec D ds) {e : Err} {O R : Str}
    {r : Reader σ} (h : InvD src D e O R r) (hc : r.cdata = []) {buf : Str} (hb : (utf8 ds).length ≤ buf.length)
    (hne : buf ≠ []) :
    ∃ n err buf' r' R' text, Returns src r buf n err buf' r' ∧ InvD src D e (O ++ buf'.take n) R' r' ∧
      buf'.take n = utf8 text ∧ r'.cdata = [] := by
  obtain ⟨n, err, buf', r', R', h1, h2, h3⟩ := invD_read hne R.length (Nat.le_refl _) h
  have hP : ∀ r : Reader σ, ∃ cs, (convert r).cdata = utf8 cs := by
    intro r
    rcases dec_cases r.rdata with ⟨cs, hcs⟩ | ht
    · exact ⟨cs, by rw [convert_dec hcs]⟩
    · by_cases he : r.err = none
      · exact ⟨[], by rw [convert_truncated_more ht he]; rfl⟩
      · exact ⟨[], by rw [convert_truncated_end ht he]; rfl⟩
  obtain ⟨m, ⟨cs, hm⟩, hm2⟩ := Returns_ind (P := fun m => ∃ cs, m.cdata = utf8 cs)
    (fun r r' _ _ _ _ => hP r') (fun r _ _ _ _ => hP r) ⟨[], by rw [hc]; rfl⟩ ⟨_, h1⟩
  rcases hm2 with ⟨_, hn, _, hbuf, hr'⟩ | ⟨hm0, _, _, rfl, _, rfl, rfl⟩
  · have hle : (O ++ buf'.take n ++ r'.cdata).length ≤ (utf8 ds).length := by
      have hi : InvD src D e (O ++ buf'.take n ++ r'.cdata) R' { r' with cdata := [] } := by
        obtain ⟨p, cs, g1, g2, g3⟩ := h2
        exact ⟨p, cs, g1, by simpa using g2, g3⟩
      exact (invD_prefix hi hds).length_le
    have hn2 : n = min buf.length m.cdata.length := by rw [hn]; rfl
    have hl : (buf'.take n).length = n := by
      rw [List.length_take, hbuf, copy_length]
      omega
    have hcd : r'.cdata.length = m.cdata.length - n := by rw [hr']; simp
    rw [List.length_append, List.length_append, hl] at hle
    have hlast : n = m.cdata.length := by
      have := List.length_pos_iff.2 hne
      omega
    refine ⟨n, err, buf', r', R', cs, ⟨_, h1⟩, h2, ?_, List.length_eq_zero_iff.1 (by omega)⟩
    rw [hbuf, hn, copy_take, ← hn, ← hm, List.take_of_length_le (by omega)]
  · exact ⟨0, err, buf', r', R', [], ⟨_, h1⟩, h2, rfl, hm0⟩

theorem whole_reads {src : Source σ} {D : Str} {ds : List Char} (hds : Dec D ds) {e : Err} {O R : Str}
    {r : Reader σ} (h : InvD src D e O R r) (hc : r.cdata = []) {bufs : List Str}
    (hb : ∀ b ∈ bufs, (utf8 ds).length ≤ b.length ∧ b ≠ []) :
    ∃ res r', ∃ texts : List (List Char), Reads src r bufs res r' ∧ pieces res = texts.map utf8 := by
  induction bufs generalizing O R r with
  | nil => exact ⟨[], r, [], .nil r, rfl⟩
  | cons b bs ih =>
    obtain ⟨n, err, buf', r1, R1, text, h1, h2, h3, h4⟩ :=
      whole_read hds h hc (hb b (by simp)).1 (hb b (by simp)).2
    obtain ⟨res, r', texts, g1, g2⟩ := ih h2 h4 fun b h => hb b (by simp [h])
    by_cases hn : n > 0
    · refine ⟨_, r', text :: texts, .cons h1 g1, ?_⟩
      unfold pieces at *
      rw [List.filter_cons_of_pos (by simpa using hn), List.map_cons, List.map_cons, g2, h3]
    · refine ⟨_, r', texts, .cons h1 g1, ?_⟩
      unfold pieces at *
      rw [List.filter_cons_of_neg (by simpa using hn), g2]

/-- What holds: with buffers that have room for the whole decoded stream, copying a Reader into a Writer
reproduces the stream, for every chunking of the source. Missing: smaller buffers. -/
theorem C65_copy_partial (src : Source σ) (e : Err) (s : σ) (cs : List Char) (D : Str) (hD : Enc cs D)
    (h : Delivers src e s D) (bufs : List Str) (hb : ∀ b ∈ bufs, (From D).1.length ≤ b.length ∧ b ≠ [])
    (hn : (From D).1.length < bufs.length) (sink : Sink τ) (hs : ∀ t d, (sink t d).2.1 = none) (t : τ) :
    ∃ res r' out w', Reads src (NewReader s) bufs res r' ∧
      Writes (loggedSink sink) (NewWriter (t, [])) (pieces res) out w' ∧ w'.sink.2.flatten = D := by
  have hdec := enc_dec hD
  have hF := From_enc hD
  rw [hF] at hb hn
  obtain ⟨res, r', texts, h1, h2⟩ := whole_reads hdec (invD_new h) rfl hb
  obtain ⟨good, rest, r2, g1, _, g3, _, g5, g6⟩ :=
    C39_delivers src e s D h (by rw [hF]) bufs fun b hx => (hb b hx).2
  obtain ⟨rfl, rfl⟩ := Reads_det h1 g1
  have hdel : delivered (good ++ rest) = utf8 cs := by
    have hr : delivered rest = [] := by
      unfold delivered
      rw [List.flatMap_eq_nil_iff]
      intro x hx
      rw [(g3 x hx).1]
      rfl
    unfold delivered at *
    rw [List.flatMap_append, hr, List.append_nil, g5 (g6 (by rw [hF]; exact hn)), hF]
  have htext : texts.flatten = cs := by
    apply utf8_inj
    rw [← utf8_flatten, ← h2, pieces_flatten, hdel]
  obtain ⟨out, w', k1, k2⟩ := C46_encodes sink hs t texts D (by rw [htext]; exact hD)
  exact ⟨_, _, out, w', h1, by rw [h2]; exact k1, k2⟩

example : Enc ['A', '가'] [0x41, 0xB0, 0xA1] ∧
    Delivers chunked .eof [[0x41, 0xB0], [0xA1]] [0x41, 0xB0, 0xA1] :=
  ⟨.ascii (by decide) (by decide) (.pair (hi := 0xB0) (lo := 0xA1) (by unfold Chart; decide +kernel) .nil),
    chunked_delivers [[0x41, 0xB0], [0xA1]] (by simp)⟩

/-- `가` in UTF-8, cut after `j` bytes. -/
theorem To_cut (j : Nat) (h1 : 0 < j) (h2 : j < 3) :
    (To ((utf8 ['가']).take j)).1.length = 2 * j ∧ (To ((utf8 ['가']).drop j)).1.length = 2 * (3 - j) := by
  have h : toUnit (runeOf fffd) = [0x3F, 0x3F] :=
    toUnit_double (by rw [fffd_toNat]; omega) (by rw [fffd_toNat]; omega)
  have key : ∀ (s : Str) (n : Nat), runes s = List.replicate n (runeOf fffd) → (To s).1.length = 2 * n := by
    intro s n hs
    rw [To_eq, hs]
    simp only
    clear hs
    induction n with
    | zero => rfl
    | succ n ih => rw [List.replicate_succ, List.flatMap_cons, List.length_append, ih, h]; simp; omega
  have hj : j = 1 ∨ j = 2 := by omega
  rcases hj with rfl | rfl
  · exact ⟨key _ 1 (by decide +kernel), key _ 2 (by decide +kernel)⟩
  · exact ⟨key _ 2 (by decide +kernel), key _ 1 (by decide +kernel)⟩

theorem To_append_length (w s : Str) (h : Boundary s) :
    (To (w ++ s)).1.length = (To w).1.length + (To s).1.length := by
  rw [To_eq, To_eq, To_eq, runes_append w s h]
  simp

theorem To_gas_length (n : Nat) : (To (utf8 (List.replicate n '가'))).1.length = 2 * n := by
  obtain ⟨code, hc⟩ := chart_ga
  rw [← ga_toNat] at hc
  rw [To_eq, runes_utf8]
  simp only
  have hu := toUnit_found (c := '가') (code := code) (by decide)
    (by rw [Nat.mod_eq_of_lt (raw_lt hc).2]; exact hc)
  induction n with
  | zero => rfl
  | succ n ih =>
    rw [List.replicate_succ, List.map_cons, List.flatMap_cons, List.length_append, ih, hu]
    simp only [List.length_cons, List.length_nil]
    omega

theorem utf8_gas_length (n : Nat) : (utf8 (List.replicate n '가')).length = 3 * n := by
  induction n with
  | zero => rfl
  | succ n ih =>
    rw [List.replicate_succ, utf8_cons, List.length_append, ih]
    rw [show (String.utf8EncodeChar '가').length = 3 by decide]
    omega

/-- FALSE as stated: `io.Copy` uses buffers of one size, 32768 bytes. For every even size `L` that is not a
multiple of 3 the stream of `L/2` times 가 is damaged: the decoded text is longer than the
buffer, a character is cut, and the Writer turns it into question marks. -/
theorem C65_copy_fails (L : Nat) (h0 : 0 < L) (h2 : L % 2 = 0) (h3 : L % 3 ≠ 0) (sink : Sink τ)
    (hs : ∀ t d, (sink t d).2.1 = none) (t : τ) :
    ∃ (D : Str) (res : List Result) (r' : Reader (List Str)) (out : List (Nat × Option Err))
      (w' : Writer (τ × List Str)),
      Enc (List.replicate (L / 2) '가') D ∧ Delivers chunked .eof [D] D ∧
      Reads chunked (NewReader [D]) (List.replicate 3 (List.replicate L 0)) res r' ∧
      delivered res = (From D).1 ∧ r'.err = some .eof ∧
      Writes (loggedSink sink) (NewWriter (t, [])) (pieces res) out w' ∧
      w'.sink.2.flatten.length = D.length + 4 := by
  obtain ⟨D, _, hE, _⟩ := C28_roundtrip_unicode (List.replicate (L / 2) '가') (by
    intro c hc
    rw [(List.mem_replicate.1 hc).2]
    exact .inr (by rw [ga_toNat]; exact chart_ga))
  have hDl : D.length = L := by
    have := congrArg (List.length ∘ Prod.fst) (To_enc hE)
    simp only [Function.comp, To_gas_length] at this
    omega
  have hDne : D ≠ [] := by intro h; rw [h] at hDl; simp at hDl; omega
  generalize hU : utf8 (List.replicate (L / 2) '가') = U
  have hUl : U.length = 3 * (L / 2) := by rw [← hU]; exact utf8_gas_length _
  -- the three calls
  have r1 : Returns chunked (NewReader [D]) (List.replicate L 0) L none (U.take L)
      ⟨[], U.drop L, [], L, none⟩ := by
    refine ⟨2, ?_⟩
    have hf : fill chunked (NewReader [D]) L = some ⟨[], [], D, L, none⟩ := by
      have hcap : ensureCapCap 0 L = L := by
        unfold ensureCapCap
        rw [if_neg (by omega), if_pos (by rfl)]
      unfold fill
      simp [NewReader, hcap, chunked, hDl]
      omega
    rw [readLoop, if_neg (by simp [NewReader]), if_pos (by rfl), List.length_replicate, hf]
    simp only
    rw [convert_dec (cs := List.replicate (L / 2) '가') (enc_dec hE), hU, readLoop,
      if_pos (by simp only; omega)]
    simp only [copy, List.length_replicate, Nat.min_eq_left (show L ≤ U.length by omega)]
    rw [List.drop_eq_nil_of_le (by rw [List.length_replicate]; exact (by omega)), List.append_nil]
  have r2 : Returns chunked ⟨[], U.drop L, [], L, none⟩ (List.replicate L 0) (L / 2) none
      (U.drop L ++ (List.replicate L 0).drop (L / 2)) ⟨[], [], [], L, none⟩ := by
    refine ⟨1, ?_⟩
    have hl : (U.drop L).length = L / 2 := by rw [List.length_drop]; omega
    rw [readLoop, if_pos (by simp only; omega)]
    simp only [copy, List.length_replicate, hl, Nat.min_eq_right (show L / 2 ≤ L by omega)]
    rw [List.take_of_length_le (l := U.drop L) (by omega), List.drop_eq_nil_of_le (as := U.drop L) (by omega)]
  have r3 : Returns chunked ⟨[], [], [], L, none⟩ (List.replicate L 0) 0 (some .eof) (List.replicate L 0)
      ⟨[], [], [], L, some .eof⟩ := by
    refine ⟨2, ?_⟩
    have hf : fill chunked ⟨[], [], [], L, none⟩ L = some ⟨[], [], [], L, some .eof⟩ := by
      unfold fill
      simp [ensureCapCap, chunked]
    rw [readLoop, if_neg (by simp), if_pos (by rfl), List.length_replicate, hf]
    simp only
    rw [convert_dec (cs := []) .nil]
    exact sticky chunked rfl rfl rfl _ 0
  have hpieces : pieces [(L, none, U.take L), (L / 2, none, U.drop L ++ (List.replicate L 0).drop (L / 2)),
      (0, some .eof, List.replicate L 0)] = [U.take L, U.drop L] := by
    have hl : (U.drop L).length = L / 2 := by rw [List.length_drop]; omega
    have hh : 0 < L / 2 := by omega
    have e2 : (U.drop L ++ (List.replicate L (0 : Byte)).drop (L / 2)).take (L / 2) = U.drop L := by
      rw [List.take_append_of_le_length (by omega), List.take_of_length_le (by omega)]
    unfold pieces
    simp only [List.filter, h0, hh, decide_true, Nat.lt_irrefl, decide_false, List.map_cons, List.map_nil, e2,
      List.take_take, Nat.min_self, gt_iff_lt]
  obtain ⟨out, w', k1, k2⟩ := C47_exact sink hs t [U.take L, U.drop L]
  refine ⟨D, _, _, out, w', hE, ?_, .cons r1 (.cons r2 (.cons r3 (.nil _))), ?_, rfl, ?_, ?_⟩
  · have := chunked_delivers [D] (by simpa using hDne)
    simpa using this
  · rw [← pieces_flatten, hpieces, From_enc hE, hU]
    simp
  · rw [hpieces]; exact k1
  · rw [k2]
    simp only [List.flatMap_cons, List.flatMap_nil, List.append_nil, List.length_append]
    -- the cut
    have hsplit : U = utf8 (List.replicate (L / 3) '가') ++ (utf8 ['가'] ++
        utf8 (List.replicate (L / 2 - L / 3 - 1) '가')) := by
      rw [← hU, ← utf8_append, ← utf8_append]
      congr 1
      rw [show ['가'] = List.replicate 1 '가' from rfl, List.replicate_append_replicate,
        List.replicate_append_replicate]
      congr 1
      omega
    have hg : (utf8 ['가']).length = 3 := by decide
    have htake : U.take L = utf8 (List.replicate (L / 3) '가') ++ (utf8 ['가']).take (L % 3) := by
      rw [hsplit, List.take_append, utf8_gas_length, List.take_of_length_le (by rw [utf8_gas_length]; omega),
        List.take_append_of_le_length (by rw [hg]; omega)]
      congr 2
      omega
    have hdrop : U.drop L = (utf8 ['가']).drop (L % 3) ++ utf8 (List.replicate (L / 2 - L / 3 - 1) '가') := by
      rw [hsplit, List.drop_append, utf8_gas_length, List.drop_eq_nil_of_le (by rw [utf8_gas_length]; omega),
        List.nil_append, List.drop_append_of_le_length (by rw [hg]; omega)]
      congr 2
      omega
    obtain ⟨c1, c2⟩ := To_cut (L % 3) (by omega) (by omega)
    have hrunes : (To (utf8 (List.replicate (L / 3) '가') ++ (utf8 ['가']).take (L % 3))).1.length =
        2 * (L / 3) + 2 * (L % 3) := by
      rw [← c1, ← To_gas_length (L / 3), To_eq, To_eq, To_eq, runes_utf8_append, runes_utf8]
      simp
    rw [htake, hdrop, hrunes, To_append_length _ _ (boundary_utf8 _), c2, To_gas_length, hDl]
    omega

-- the buffer size of io.Copy
example : 0 < 32768 ∧ 32768 % 2 = 0 ∧ 32768 % 3 ≠ 0 := by decide

end Props
