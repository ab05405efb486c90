import Verif.Lemmas.Reader
/-! Property theorems C39–C45 (package cp949: `NewReader`). -/
namespace Props
open Go Spec Cp949

attribute [local irreducible] fromTable toTable rawFrom rawTo

/-! ### C39 -/

/-- Calls of `Read` have at most one outcome. -/
theorem C39_deterministic {σ : Type} (src : Source σ) (r : Reader σ) (bufs : List Str)
    (res res' : List Result) (r₁ r₂ : Reader σ) (h : Reads src r bufs res r₁)
    (h' : Reads src r bufs res' r₂) : res = res' ∧ r₁ = r₂ :=
  Reads_det h h'

/-- Whatever the chunks and the (non-empty) buffers: the calls return; first some that deliver at least
one byte each and no error, together a prefix of `From(D)`; then calls with `0` and the source's error,
which appear only when all of `From(D)` has been delivered, and do appear when there are more calls
than bytes. -/
theorem C39_delivers {σ : Type} (src : Source σ) (e : Err) (s : σ) (D : Str)
    (h : Delivers src e s D) (hD : (From D).2 = none) (bufs : List Str) (hb : ∀ b ∈ bufs, b ≠ []) :
    ∃ good rest r', Reads src (NewReader s) bufs (good ++ rest) r' ∧
      (∀ x ∈ good, 0 < x.1 ∧ x.1 ≤ x.2.2.length ∧ x.2.1 = none) ∧
      (∀ x ∈ rest, x.1 = 0 ∧ x.2.1 = some e) ∧
      delivered good <+: (From D).1 ∧
      (rest ≠ [] → delivered good = (From D).1) ∧
      ((From D).1.length < bufs.length → rest ≠ []) := by
  rcases dec_cases D with ⟨ds, hds⟩ | ht
  · obtain ⟨good, rest, r', R', h1, h2, h3, h4, h5⟩ := invD_reads hb (invD_new h)
    rw [List.nil_append] at h2
    rw [From_dec hds]
    have hp := invD_prefix h2 hds
    refine ⟨good, rest, r', h1, h3, h4, hp, ?_, ?_⟩
    · intro hr
      obtain ⟨he, hc⟩ := h5 hr
      obtain ⟨p, q, cs, rfl, hp, hcs, hq⟩ := invD_end h2 he hc
      rcases hq with rfl | hq
      · rw [List.append_nil] at hds
        have e1 := From_dec hds
        rw [From_dec hp, Prod.mk.injEq] at e1
        rw [← hcs, e1.1]
      · exact absurd (truncated_append hp hq) (dec_not_truncated hds)
    · rintro hlen rfl
      have l1 := delivered_length h3
      have l2 := hp.length_le
      have l3 := reads_length h1
      rw [List.append_nil] at l3
      simp only at hlen
      omega
  · rw [From_truncated ht] at hD; simp at hD

/-- Every way of cutting a stream into non-empty chunks is a source the theorem applies to. -/
theorem C39_every_chunking (l : List Str) (h : ∀ c ∈ l, c ≠ []) : Delivers chunked .eof l l.flatten :=
  chunked_delivers l h

-- 가 (B0 A1) and A, cut inside 가
example : Delivers chunked .eof [[0xB0], [0xA1, 0x41]] [0xB0, 0xA1, 0x41] ∧
    (From [0xB0, 0xA1, 0x41]).2 = none := by
  refine ⟨C39_every_chunking [[0xB0], [0xA1, 0x41]] (by simp), ?_⟩
  rcases dec_cases [0xB0, 0xA1, 0x41] with ⟨cs, h⟩ | h
  · rw [From_dec h]
  · cases h with
    | ascii h1 _ => exact absurd h1 (by decide)
    | pair _ h => cases h with
      | lone h => exact absurd h (by decide)
      | ascii _ h => cases h

/-! ### C40 -/

/-- FALSE as stated: for `41 B0` the letter `A` is delivered or not depending on the chunks, and even
for one and the same source depending on the size of the buffer. -/
theorem C40_chunking_fails :
    ∃ D s s', Delivers chunked .eof s D ∧ Delivers chunked .eof s' D ∧
      ∃ bufs bufs' res res' res'' r r' r'',
        (∀ b ∈ bufs ++ bufs', b ≠ []) ∧
        Reads chunked (NewReader s) bufs res r ∧ Reads chunked (NewReader s') bufs res' r' ∧
        Reads chunked (NewReader s) bufs' res'' r'' ∧
        delivered res = [] ∧ delivered res' = [0x41] ∧ delivered res'' = [0x41] ∧
        (res.getLast?.map (·.2.1)) = some (some .eof) ∧
        (res'.getLast?.map (·.2.1)) = some (some .eof) ∧
        (res''.getLast?.map (·.2.1)) = some (some .eof) := by
  refine ⟨[0x41, 0xB0], [[0x41, 0xB0]], [[0x41], [0xB0]],
    chunked_delivers [[0x41, 0xB0]] (by simp), chunked_delivers [[0x41], [0xB0]] (by simp),
    [[0, 0], [0, 0]], [[0], [0]], _, _, _, _, _, _, by simp,
    .cons ⟨5, rfl⟩ (.cons ⟨5, rfl⟩ (.nil _)), .cons ⟨5, rfl⟩ (.cons ⟨5, rfl⟩ (.nil _)),
    .cons ⟨5, rfl⟩ (.cons ⟨5, rfl⟩ (.nil _)), rfl, rfl, rfl, rfl, rfl, rfl⟩

/-- What holds (1): streams on which `From` succeeds. Two sources delivering the same data, read with any
buffers, more of them than there are bytes to deliver, give the same bytes and the same final error.
Missing: truncated streams. -/
theorem C40_chunking_partial {σ σ' : Type} (src : Source σ) (src' : Source σ') (e : Err) (s : σ) (s' : σ')
    (D : Str) (h : Delivers src e s D) (h' : Delivers src' e s' D) (hD : (From D).2 = none)
    (bufs bufs' : List Str) (hb : ∀ b ∈ bufs, b ≠ []) (hb' : ∀ b ∈ bufs', b ≠ [])
    (hl : (From D).1.length < bufs.length) (hl' : (From D).1.length < bufs'.length) :
    ∃ good rest r good' rest' r', Reads src (NewReader s) bufs (good ++ rest) r ∧
      Reads src' (NewReader s') bufs' (good' ++ rest') r' ∧
      delivered good = delivered good' ∧ rest ≠ [] ∧ rest' ≠ [] ∧
      (∀ x ∈ good ++ good', x.2.1 = none) ∧ (∀ x ∈ rest ++ rest', x.1 = 0 ∧ x.2.1 = some e) := by
  obtain ⟨good, rest, r, h1, h2, h3, _, h5, h6⟩ := C39_delivers src e s D h hD bufs hb
  obtain ⟨good', rest', r', g1, g2, g3, _, g5, g6⟩ := C39_delivers src' e s' D h' hD bufs' hb'
  refine ⟨good, rest, r, good', rest', r', h1, g1, ?_, h6 hl, g6 hl', ?_, ?_⟩
  · rw [h5 (h6 hl), g5 (g6 hl')]
  · intro x hx
    rcases List.mem_append.1 hx with hx | hx
    · exact (h2 x hx).2.2
    · exact (g2 x hx).2.2
  · intro x hx
    rcases List.mem_append.1 hx with hx | hx
    · exact h3 x hx
    · exact g3 x hx

/-- What holds (2): every stream, truncated or not. The error is always the source's, and what is delivered is
`From` of a decodable beginning, the remainder being nothing, or a piece that ends inside a
character; only how much goes with that piece depends on the chunks. -/
theorem C40_any_stream_partial {σ : Type} (src : Source σ) (e : Err) (s : σ) (D : Str)
    (h : Delivers src e s D) (bufs : List Str) (hb : ∀ b ∈ bufs, b ≠ [])
    (hl : 3 * D.length < 2 * bufs.length) :
    ∃ good rest r', Reads src (NewReader s) bufs (good ++ rest) r' ∧ rest ≠ [] ∧
      (∀ x ∈ good, 0 < x.1 ∧ x.1 ≤ x.2.2.length ∧ x.2.1 = none) ∧
      (∀ x ∈ rest, x.1 = 0 ∧ x.2.1 = some e) ∧
      ∃ p q, D = p ++ q ∧ From p = (delivered good, none) ∧ (q = [] ∨ Truncated q) := by
  obtain ⟨good, rest, r', R', h1, h2, h3, h4, h5⟩ := invD_reads hb (invD_new h)
  rw [List.nil_append] at h2
  have hr : rest ≠ [] := by
    rintro rfl
    have l1 := delivered_length h3
    have l2 := invD_length h2
    have l3 := reads_length h1
    rw [List.append_nil] at l3
    omega
  obtain ⟨he, hc⟩ := h5 hr
  obtain ⟨p, q, cs, hpq, hp, hcs, hq⟩ := invD_end h2 he hc
  exact ⟨good, rest, r', h1, hr, h3, h4, p, q, hpq, by rw [From_dec hp, hcs], hq⟩

/-! ### C41 -/

/-- For every source, well-behaved or not, and every sequence of buffers, empty ones included, whatever has
been delivered is a prefix of `From(p)`, for a prefix `p` of what the source has handed over on
which `From` succeeds. The log records what the source hands over. -/
theorem C41_decoded_prefix {σ : Type} (src : Source σ) (s : σ) (bufs : List Str) (res : List Result)
    (r' : Reader σ) (h : Reads src (NewReader s) bufs res r') :
    ∃ r₁ : Reader (σ × Str), Reads (logged src) (NewReader (s, [])) bufs res r₁ ∧ r₁.src.1 = r'.src ∧
      ∃ p, p <+: r₁.src.2 ∧ (From p).2 = none ∧ delivered res <+: (From p).1 := by
  obtain ⟨r₁, h1, h2⟩ := logged_reads h (NewReader (s, [])) rfl
  refine ⟨r₁, h1, by rw [← h2]; rfl, ?_⟩
  obtain ⟨p, q, cs, g1, g2, g3, _⟩ := inv_reads (O := [])
    (show Inv [] (NewReader (s, [])) from ⟨[], [], [], rfl, .nil, rfl, .inl rfl⟩) h1
  refine ⟨p, by rw [g1]; exact List.prefix_append .., by rw [From_dec g2], ?_⟩
  rw [From_dec g2]
  simp only
  rw [g3, List.nil_append]
  exact List.prefix_append ..

/-- The books balance: of what was handed over, `p` has been decoded, delivered or waiting in `cdata`, and the
rest is waiting in `rdata`, unless the source has ended inside a character. -/
theorem C41_nothing_lost {σ : Type} (src : Source σ) (s : σ) (bufs : List Str) (res : List Result)
    (r' : Reader σ) (h : Reads src (NewReader s) bufs res r') :
    ∃ r₁ : Reader (σ × Str), Reads (logged src) (NewReader (s, [])) bufs res r₁ ∧ r₁.src.1 = r'.src ∧
      ∃ p q, r₁.src.2 = p ++ q ∧ From p = (delivered res ++ r'.cdata, none) ∧
        (q = r'.rdata ∨ (r'.err ≠ none ∧ Truncated q)) := by
  obtain ⟨r₁, h1, h2⟩ := logged_reads h (NewReader (s, [])) rfl
  refine ⟨r₁, h1, by rw [← h2]; rfl, ?_⟩
  obtain ⟨p, q, cs, g1, g2, g3, g4⟩ := inv_reads (O := [])
    (show Inv [] (NewReader (s, [])) from ⟨[], [], [], rfl, .nil, rfl, .inl rfl⟩) h1
  subst h2
  refine ⟨p, q, g1, by rw [From_dec g2, g3]; rfl, ?_⟩
  rcases g4 with g4 | ⟨_, g4, g5⟩
  · exact .inl g4
  · exact .inr ⟨g4, g5⟩

example : ∃ res r', Reads chunked (NewReader [[0x41]]) [[0]] res r' ∧ delivered res = [0x41] :=
  ⟨_, _, .cons ⟨2, rfl⟩ (.nil _), rfl⟩

/-! ### C42 -/

/-- FALSE as stated: a stream that ends inside a character is reported as a clean end of file. -/
theorem C42_truncated_fails :
    ∃ D s, Truncated D ∧ (From D).2 ≠ none ∧ Delivers chunked .eof s D ∧
      ∃ buf r, buf ≠ [] ∧ Reads chunked (NewReader s) [buf] [(0, some .eof, buf)] r :=
  ⟨[0xB0], [[0xB0]], .lone (by decide), by rw [From_truncated (.lone (by decide))]; simp,
    chunked_delivers [[0xB0]] (by simp), [0, 0], _, by simp, .cons ⟨5, rfl⟩ (.nil _)⟩

/-- Worse: it is never reported, for no truncated stream, no chunks and no buffers. -/
theorem C42_never_reported_fails {σ : Type} (src : Source σ) (s : σ) (D : Str)
    (h : Delivers src .eof s D) (bufs : List Str) (hb : ∀ b ∈ bufs, b ≠ []) (res : List Result)
    (r' : Reader σ) (hr : Reads src (NewReader s) bufs res r') :
    ∀ x ∈ res, x.2.1 = none ∨ x.2.1 = some .eof := by
  obtain ⟨good, rest, r₁, R', h1, _, h3, h4, _⟩ := invD_reads hb (invD_new h)
  obtain ⟨rfl, rfl⟩ := Reads_det hr h1
  intro x hx
  rcases List.mem_append.1 hx with hx | hx
  · exact .inl (h3 x hx).2.2
  · exact .inr (h4 x hx).2

/-- What holds: what was delivered of a truncated stream is `From` of a proper beginning, so no
invented character stands for the cut one, and the error reported is the source's own, whatever that is.
Missing: a report that the stream was cut. -/
theorem C42_truncated_partial {σ : Type} (src : Source σ) (e : Err) (s : σ) (D : Str)
    (hD : Truncated D) (h : Delivers src e s D) (bufs : List Str) (hb : ∀ b ∈ bufs, b ≠ [])
    (hl : 3 * D.length < 2 * bufs.length) :
    ∃ good rest r', Reads src (NewReader s) bufs (good ++ rest) r' ∧ rest ≠ [] ∧
      (∀ x ∈ rest, x.1 = 0 ∧ x.2.1 = some e) ∧
      ∃ p q, D = p ++ q ∧ From p = (delivered good, none) ∧ Truncated q := by
  obtain ⟨good, rest, r', h1, h2, _, h4, p, q, h5, h6, h7⟩ := C40_any_stream_partial src e s D h bufs hb hl
  refine ⟨good, rest, r', h1, h2, h4, p, q, h5, h6, ?_⟩
  rcases h7 with rfl | h7
  · rw [List.append_nil] at h5
    subst h5
    rw [From_truncated hD] at h6
    simp at h6
  · exact h7

example : Truncated [0x41, 0xB0] ∧ Delivers chunked .eof [[0x41, 0xB0]] [0x41, 0xB0] :=
  ⟨.ascii (by decide) (.lone (by decide)), chunked_delivers [[0x41, 0xB0]] (by simp)⟩

/-! ### C43 -/

/-- One call, in any state whatever and with any source. -/
theorem C43_contract {σ : Type} (src : Source σ) (r : Reader σ) (buf : Str) (n : Nat)
    (err : Option Err) (buf' : Str) (r' : Reader σ) (h : Returns src r buf n err buf' r') :
    n ≤ buf.length ∧ buf'.length = buf.length ∧ buf'.drop n = buf.drop n ∧
      (buf ≠ [] → n = 0 → err ≠ none) ∧ (0 < n → err = none) := by
  obtain ⟨m, _, h⟩ := Returns_ind (fun _ => True) (fun _ _ _ _ _ _ => trivial)
    (fun _ _ _ _ _ => trivial) trivial h
  rcases h with ⟨h1, rfl, rfl, rfl, rfl⟩ | ⟨_, h2, _, rfl, rfl, rfl, rfl⟩
  · refine ⟨by simp only [copy]; omega, copy_length .., copy_drop .., ?_, fun _ => rfl⟩
    intro hb h0
    have := take_copy_pos hb h1
    omega
  · exact ⟨by omega, rfl, rfl, fun _ _ => h2, fun h => absurd h (by omega)⟩

/-- Once an error is returned every further call returns `0` and that error, leaves buffer and
reader alone, and does not call the source: the result is the same with any other source. -/
theorem C43_error_is_final {σ : Type} (src : Source σ) (r : Reader σ) (buf : Str) (n : Nat)
    (e : Err) (buf' : Str) (r' : Reader σ) (h : Returns src r buf n (some e) buf' r')
    (other : Source σ) (bufs : List Str) :
    Reads other r' bufs (bufs.map fun b => (0, some e, b)) r' := by
  obtain ⟨m, _, h⟩ := Returns_ind (fun _ => True) (fun _ _ _ _ _ _ => trivial)
    (fun _ _ _ _ _ => trivial) trivial h
  rcases h with ⟨_, _, h3, _⟩ | ⟨h1, _, h3, _, h5, _, rfl⟩
  · simp at h3
  · exact sticky_reads other h5.symm h1 h3 bufs

/-- No panic, if the source never claims more bytes than it was given room for. -/
theorem C43_no_panic {σ : Type} (src : Source σ) (hs : ∀ s k, (src s k).1.length ≤ k) (r : Reader σ)
    (buf : Str) (fuel : Nat) : readLoop src fuel r buf ≠ .panic := by
  induction fuel generalizing r with
  | zero => rw [readLoop]; simp
  | succ fuel ih =>
    rw [readLoop]
    split
    · simp
    · split
      · obtain ⟨r', hf⟩ := fill_isSome (src := src) (r := r) (len := buf.length) fun k _ => hs _ k
        rw [hf]
        exact ih _
      · split
        · simp
        · exact ih _

example : Returns chunked (NewReader [[0x41]]) [7, 7] 1 none [0x41, 7] ⟨[], [], [], 2, none⟩ ∧
    Returns chunked ⟨[], [], [], 2, none⟩ [7, 7] 0 (some .eof) [7, 7] ⟨[], [], [], 2, some .eof⟩ :=
  ⟨⟨2, rfl⟩, ⟨2, rfl⟩⟩

/-! ### C44 -/

/-- FALSE as stated (1): a first call with an empty buffer, over any source that answers an empty
buffer with 0 and no error, makes every later call report the end of file; nothing is ever delivered. -/
theorem C44_empty_buffer_fails {σ : Type} (src : Source σ) (s s' : σ)
    (h : src s 0 = ([], none, s')) (bufs : List Str) :
    ∃ r', Reads src (NewReader s) ([] :: bufs)
      ((0, some .eof, []) :: bufs.map fun b => (0, some .eof, b)) r' := by
  have hf : fill src (NewReader s) 0 = some ⟨s', [], [], 0, some .eof⟩ := by
    unfold fill
    simp [NewReader, ensureCapCap, h]
  have h1 : readLoop src 2 (NewReader s) [] =
      .ret 0 (some .eof) [] ⟨s', [], [], 0, some .eof⟩ := by
    rw [readLoop, if_neg (by simp [NewReader]), if_pos (by rfl)]
    simp only [List.length_nil]
    rw [hf]
    exact sticky src rfl rfl rfl [] 0
  exact ⟨_, .cons ⟨2, h1⟩ (sticky_reads src rfl rfl rfl bufs)⟩

example : chunked [[0x41]] 0 = ([], none, [[0x41]]) := rfl

/-- FALSE as stated (2): a source that once returns 0 bytes and no error is taken to have ended. -/
theorem C44_empty_read_fails {σ : Type} (src : Source σ) (s : σ) (b : Str) (bufs : List Str)
    (h : ∀ k, (src s k).1 = [] ∧ (src s k).2.1 = none) :
    ∃ r', Reads src (NewReader s) (b :: bufs)
      ((0, some .eof, b) :: bufs.map fun b => (0, some .eof, b)) r' := by
  obtain ⟨r', hf⟩ := fill_isSome (src := src) (r := NewReader s) (len := b.length)
    (fun k _ => by rw [show (NewReader s).src = s from rfl, (h k).1]; simp)
  have hs : ∀ fuel, readLoop src (fuel + 1) (convert r') b = .ret 0 (some .eof) b (convert r') ∧
      (convert r').err = some .eof ∧ (convert r').cdata = [] ∧ (convert r').rdata = [] := by
    intro fuel
    obtain ⟨k, _, _, _, rfl⟩ := fill_some hf
    have he : (if (src s k).1 = [] ∧ (src s k).2.1 = none then some Err.eof else (src s k).2.1) =
        some .eof := if_pos (h k)
    have hc := convert_dec (r := { (NewReader s) with
        src := (src s k).2.2, rdata := (NewReader s).rdata ++ (src s k).1
        rcap := ensureCapCap (NewReader s).rcap ((NewReader s).rdata.length + b.length)
        err := if (src s k).1 = [] ∧ (src s k).2.1 = none then some Err.eof else (src s k).2.1 })
      (cs := []) (by simp only [NewReader, (h k).1]; exact .nil)
    simp only [show (NewReader s).src = s from rfl] at *
    rw [hc]
    exact ⟨sticky src he rfl rfl b fuel, he, rfl, rfl⟩
  obtain ⟨h1, h2, h3, h4⟩ := hs 0
  refine ⟨convert r', .cons ⟨2, ?_⟩ (sticky_reads src h2 h3 h4 bufs)⟩
  rw [readLoop, if_neg (by simp [NewReader]), if_pos (by rfl), hf]
  exact h1

/-- What holds: a call with an empty buffer while decoded bytes are waiting returns `0` and no error and
changes nothing, and so does one after an error, returning that error.
Missing: calls with an empty buffer when nothing is waiting. -/
theorem C44_empty_buffer_partial {σ : Type} (src : Source σ) (r : Reader σ)
    (h : r.cdata ≠ [] ∨ ∃ e, r.err = some e ∧ r.cdata = [] ∧ r.rdata = []) :
    Returns src r [] 0 (if r.cdata ≠ [] then none else r.err) [] r := by
  rcases h with h | ⟨e, h1, h2, h3⟩
  · refine ⟨1, ?_⟩
    rw [readLoop, if_pos (List.length_pos_iff.2 h), if_pos h]
    simp [copy]
  · rw [if_neg (by simp [h2]), h1]
    exact ⟨1, sticky src h1 h2 h3 [] 0⟩

-- a reachable state with decoded bytes waiting, and one after the end
example : ∃ res res' r', Reads chunked (NewReader [[0x41], [0x42, 0x43]]) [[0, 0], [0]] res
      ⟨[], [0x43], [], 2, none⟩ ∧
    Reads chunked (NewReader [[0x41]]) [[0, 0], [0]] res' r' ∧ r'.err = some .eof ∧ r'.cdata = [] ∧
      r'.rdata = [] :=
  ⟨_, _, _, .cons ⟨2, rfl⟩ (.cons ⟨2, rfl⟩ (.nil _)), .cons ⟨2, rfl⟩ (.cons ⟨2, rfl⟩ (.nil _)), rfl,
    rfl, rfl⟩

/-! ### C45 -/

/-- One byte, then two bytes at a time, forever. -/
def odd : Source Bool := fun s k => ((if s then [0x81, 0x81] else [0x81]).take k, none, true)

theorem truncated_odd (m : Nat) : Truncated (List.replicate (2 * m + 1) 0x81) := by
  induction m with
  | zero => exact .lone (by decide)
  | succ m ih => exact .pair (by decide) ih

/-- FALSE as stated (1): the source always supplies data, complete characters come in with every read
after the first, and yet `Read` never returns. -/
theorem C45_terminates_fails :
    (∀ s k, (odd s k).1.length ≤ k ∧ (0 < k → (odd s k).1 ≠ []) ∧ (odd s k).2.1 = none) ∧
    ∀ fuel, readLoop odd fuel (NewReader false) [0, 0] = .running := by
  refine ⟨?_, ?_⟩
  · intro s k
    refine ⟨by simp only [odd, List.length_take]; omega, ?_, rfl⟩
    intro hk
    cases k with
    | zero => omega
    | succ k => cases s <;> simp [odd]
  · have loop : ∀ (fuel m cap : Nat),
        readLoop odd fuel ⟨true, [], List.replicate (2 * m + 1) 0x81, cap, none⟩ [0, 0] = .running := by
      intro fuel
      induction fuel with
      | zero => intro m cap; rfl
      | succ fuel ih =>
        intro m cap
        rw [readLoop, if_neg (by simp), if_pos (by rfl)]
        obtain ⟨r', hf⟩ := fill_isSome (src := odd)
          (r := ⟨true, [], List.replicate (2 * m + 1) 0x81, cap, none⟩) (len := [(0 : Byte), 0].length)
          (fun k _ => by simp only [odd, List.length_take]; omega)
        rw [hf]
        obtain ⟨k, hk, _, _, rfl⟩ := fill_some hf
        have h2 : (odd true k).1 = List.replicate 2 0x81 := by
          simp only [odd, if_true]
          rw [List.take_of_length_le (by simpa using hk)]
          rfl
        have h3 : List.replicate (2 * m + 1) 0x81 ++ (odd true k).1 =
            List.replicate (2 * (m + 1) + 1) 0x81 := by
          rw [h2, List.replicate_append_replicate]
          rfl
        simp only
        rw [convert_truncated_more]
        · simp only [h3]
          rw [show (if (odd true k).1 = [] ∧ (odd true k).2.1 = none then some Err.eof
            else (odd true k).2.1) = none by rw [h2]; simp [odd]]
          exact ih _ _
        · simp only [h3]; exact truncated_odd _
        · rw [h2]; simp [odd]
    intro fuel
    cases fuel with
    | zero => rfl
    | succ fuel =>
      have h1 : fill odd (NewReader false) 2 = some ⟨true, [], [0x81], 2, none⟩ := rfl
      rw [readLoop, if_neg (by simp [NewReader]), if_pos (by rfl)]
      simp only [List.length_cons, List.length_nil]
      rw [h1]
      simp only
      rw [convert_truncated_more (.lone (by decide)) rfl]
      exact loop fuel 0 2

/-- FALSE as stated (2): the complete character `A` has arrived, but `Read` asks the source for more
before it returns. -/
theorem C45_withheld_fails :
    ∃ r, r.src = [[0xA1]] ∧ fill chunked (NewReader [[0x41, 0xB0], [0xA1]]) 2 = some r ∧
      (convert r).cdata = [] ∧ (convert r).err = none ∧
      readLoop chunked 2 (NewReader [[0x41, 0xB0], [0xA1]]) [0, 0] = .running :=
  ⟨⟨[[0xA1]], [], [0x41, 0xB0], 2, none⟩, rfl, rfl, rfl, rfl, rfl⟩

/-- What holds (1): over a source with finite data each call, at any point of any history, returns, within
as many rounds of the loop as there are bytes in the stream, and three.
Missing: sources that never end. -/
theorem C45_finite_partial {σ : Type} (src : Source σ) (e : Err) (s : σ) (D : Str)
    (h : Delivers src e s D) (bufs : List Str) (hb : ∀ b ∈ bufs, b ≠ []) (res : List Result)
    (r : Reader σ) (hr : Reads src (NewReader s) bufs res r) (buf : Str) (hbuf : buf ≠ []) :
    ∃ n err buf' r', readLoop src (D.length + 3) r buf = .ret n err buf' r' := by
  obtain ⟨good, rest, r', R', h1, h2, _, _, _⟩ := invD_reads hb (invD_new h)
  obtain ⟨_, rfl⟩ := Reads_det hr h1
  have hR : R'.length ≤ D.length := by
    obtain ⟨p, cs, _, _, h3⟩ := h2
    rcases h3 with ⟨_, _, h4⟩ | ⟨_, h4, _⟩
    · rw [h4]; simp only [List.length_append]; omega
    · rw [h4]; simp
  obtain ⟨n, err, buf', r1, _, g1, _⟩ := invD_read hbuf D.length hR h2
  exact ⟨n, err, buf', r1, g1⟩

/-- What holds (2): for every source, finite or not, and every state without decoded bytes or error: if what
the next source read brings completes the pending input to whole characters, that read is the last
one of the call, and the call delivers the beginning of the decoded text. -/
theorem C45_prompt_partial {σ : Type} (src : Source σ) (r : Reader σ) (buf : Str) (hbuf : buf ≠ [])
    (hc : r.cdata = []) (he : r.err = none)
    (hs : ∀ k, buf.length ≤ k → (src r.src k).1.length ≤ k ∧ (src r.src k).1 ≠ [] ∧
      (From (r.rdata ++ (src r.src k).1)).2 = none) :
    ∃ k n buf' r', buf.length ≤ k ∧ readLoop src 2 r buf = .ret n none buf' r' ∧ 0 < n ∧
      buf'.take n = (From (r.rdata ++ (src r.src k).1)).1.take n ∧ r'.src = (src r.src k).2.2 := by
  obtain ⟨r1, hf⟩ := fill_isSome (src := src) (r := r) (len := buf.length) fun k hk => (hs k hk).1
  rw [readLoop, if_neg (by simp [hc]), if_pos he, hf]
  obtain ⟨k, hk, _, _, rfl⟩ := fill_some hf
  obtain ⟨_, hne, hfrom⟩ := hs k hk
  rcases dec_cases (r.rdata ++ (src r.src k).1) with ⟨ds, hds⟩ | ht
  · simp only
    rw [convert_dec (cs := ds) hds]
    have hds0 : utf8 ds ≠ [] := by
      intro h0
      cases ds with
      | nil =>
        generalize hw : r.rdata ++ (src r.src k).1 = w at hds
        cases hds
        exact hne (List.append_eq_nil_iff.1 hw).2
      | cons d ds =>
        rw [utf8_cons] at h0
        have := (utf8EncodeChar_length d).1
        rw [(List.append_eq_nil_iff.1 h0).1] at this
        simp at this
    refine ⟨k, (copy buf (utf8 ds)).2, (copy buf (utf8 ds)).1,
      { src := (src r.src k).2.2, cdata := (utf8 ds).drop (copy buf (utf8 ds)).2, rdata := []
        rcap := ensureCapCap r.rcap (r.rdata.length + buf.length)
        err := if (src r.src k).1 = [] ∧ (src r.src k).2.1 = none then some Err.eof
          else (src r.src k).2.1 }, hk, ?_, take_copy_pos hbuf hds0, ?_, rfl⟩
    · rw [readLoop, if_pos (List.length_pos_iff.2 hds0)]
    · rw [From_dec hds]; exact copy_take ..
  · rw [From_truncated ht] at hfrom; simp at hfrom

example : Delivers chunked .eof [[0xB0], [0xA1]] [0xB0, 0xA1] :=
  chunked_delivers [[0xB0], [0xA1]] (by simp)

end Props
