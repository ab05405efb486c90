import Verif.Props.Reader
import Verif.Spec.StreamAny
/-! Property theorems C78: `cp949Reader` over sources that break the contract of `io.Reader`. -/
namespace Cp949
open Go Spec

attribute [local irreducible] fromTable toTable rawFrom rawTo

variable {σ : Type}

/-! ## Helpers -/

theorem buffer_length (b : Nat → Byte) (k : Nat) : (buffer b k).length = k := by simp [buffer]

theorem buffer_take (b : Nat → Byte) {n k : Nat} (h : n ≤ k) : (buffer b k).take n = buffer b n := by
  unfold buffer
  rw [← List.map_take, List.take_range, Nat.min_eq_left h]

/-- What a source call does, if it does not panic. -/
theorem fillAny_some {src : SourceAny σ} {r r' : Reader σ} {len : Nat} (h : fillAny src r len = some r') :
    ∃ k, len ≤ k ∧ -(r.rdata.length : Int) ≤ (src r.src k).2.1 ∧ (src r.src k).2.1 ≤ k ∧
      r' = { r with
        src := (src r.src k).2.2.2
        rdata := (r.rdata ++ buffer (src r.src k).1 k).take (r.rdata.length + (src r.src k).2.1).toNat
        rcap := ensureCapCap r.rcap (r.rdata.length + len)
        err := if (src r.src k).2.1 = 0 ∧ (src r.src k).2.2.1 = none then some .eof else (src r.src k).2.2.1 } := by
  have hge := ensureCapCap_ge r.rcap (r.rdata.length + len)
  unfold fillAny at h
  simp only at h
  refine ⟨ensureCapCap r.rcap (r.rdata.length + len) - r.rdata.length, by omega, ?_⟩
  split at h
  · rename_i hm
    have hm : 0 ≤ (r.rdata.length : Int) + (src r.src (ensureCapCap r.rcap (r.rdata.length + len) - r.rdata.length)).2.1 ∧
      (r.rdata.length : Int) + (src r.src (ensureCapCap r.rcap (r.rdata.length + len) - r.rdata.length)).2.1 ≤
        ensureCapCap r.rcap (r.rdata.length + len) := hm
    refine ⟨by omega, by omega, ?_⟩
    exact (Option.some.inj h).symm
  · cases h

theorem fillAny_eq_fill (src : SourceAny σ) (r : Reader σ) (len : Nat) (h : ∀ s k, 0 ≤ (src s k).2.1) :
    fillAny src r len = fill (counted src) r len := by
  have hge := ensureCapCap_ge r.rcap (r.rdata.length + len)
  unfold fillAny fill counted
  generalize ensureCapCap r.rcap (r.rdata.length + len) = cap at *
  have h0 := h r.src (cap - r.rdata.length)
  simp only [buffer_length]
  generalize src r.src (cap - r.rdata.length) = x at *
  obtain ⟨b, n, err, s⟩ := x
  simp only at *
  have e1 : (n.toNat = 0 ∧ err = none) ↔ (n = 0 ∧ err = none) := by
    constructor <;> rintro ⟨h1, h2⟩ <;> exact ⟨by omega, h2⟩
  by_cases hm : 0 ≤ (r.rdata.length : Int) + n ∧ (r.rdata.length : Int) + n ≤ cap
  · rw [if_pos hm, if_pos (show r.rdata.length + n.toNat ≤ cap by omega)]
    have e2 : ((r.rdata.length : Int) + n).toNat = r.rdata.length + n.toNat := by omega
    rw [e2, List.take_append, List.take_of_length_le (by omega), Nat.add_sub_cancel_left, buffer_take _ (by omega)]
    simp only [e1]
  · rw [if_neg hm, if_neg (show ¬ r.rdata.length + n.toNat ≤ cap by omega)]

theorem readLoopAny_succ (src : SourceAny σ) (fuel : Nat) (r : Reader σ) (buf : Str) :
    readLoopAny src (fuel + 1) r buf =
      if r.cdata.length > 0 then
        .ret (copy buf r.cdata).2 none (copy buf r.cdata).1 { r with cdata := r.cdata.drop (copy buf r.cdata).2 }
      else if r.err = none then
        match fillAny src r buf.length with
        | none => .panic
        | some r => readLoopAny src fuel (convert r) buf
      else if r.rdata.length = 0 then .ret 0 r.err buf r
      else readLoopAny src fuel (convert r) buf := rfl

/-! ## C78 -/

/-- C78: as long as no count is negative, this is the reader of C39–C45, also if a count is too large. -/
theorem C78_same (src : SourceAny σ) (h : ∀ s k, 0 ≤ (src s k).2.1) (fuel : Nat) (r : Reader σ) (buf : Str) :
    readLoopAny src fuel r buf = readLoop (counted src) fuel r buf := by
  induction fuel generalizing r with
  | zero => rfl
  | succ fuel ih =>
    rw [readLoopAny_succ, readLoop, fillAny_eq_fill src r _ h]
    split
    · rfl
    · split
      · cases fill (counted src) r buf.length with
        | none => rfl
        | some r1 => exact ih _
      · split
        · rfl
        · exact ih _

/-- C78 is false of the code: a source that returns a negative count at once, or a count larger than its buffer, makes
the first `Read` panic. -/
theorem C78_survives_fails (src : SourceAny σ) (s : σ) (buf : Str)
    (h : ∀ k, (src s k).2.1 < 0 ∨ k < (src s k).2.1) (fuel : Nat) :
    readLoopAny src (fuel + 1) (NewReader s) buf = .panic := by
  rw [readLoopAny_succ, if_neg (by simp [NewReader]), if_pos (show (NewReader s).err = none from rfl)]
  cases hf : fillAny src (NewReader s) buf.length with
  | none => rfl
  | some r' =>
    obtain ⟨k, _, h1, h2, _⟩ := fillAny_some hf
    have := h k
    simp only [NewReader, List.length_nil, Int.natCast_zero] at h1 h2
    omega

example (k : Nat) : ((fun _ k => (fun _ => 0, (k : Int) + 1, none, ())) : SourceAny Unit) () k =
    (fun _ => 0, (k : Int) + 1, none, ()) ∧ (k : Int) < k + 1 := ⟨rfl, by omega⟩

/-- C78, what holds (1) (partial: this is when it does not panic): a call that has to ask the source panics in that round
exactly if the count is larger than the buffer it handed over, or takes back more than the input that is waiting. -/
theorem C78_panics_iff_partial (src : SourceAny σ) (r : Reader σ) (buf : Str) (hc : r.cdata = []) (he : r.err = none) :
    ∃ k, buf.length ≤ k ∧
      (readLoopAny src 1 r buf = .panic ↔ (src r.src k).2.1 < -(r.rdata.length : Int) ∨ k < (src r.src k).2.1) := by
  have hge := ensureCapCap_ge r.rcap (r.rdata.length + buf.length)
  refine ⟨ensureCapCap r.rcap (r.rdata.length + buf.length) - r.rdata.length, by omega, ?_⟩
  rw [readLoopAny_succ, if_neg (by rw [hc]; simp), if_pos he]
  unfold fillAny
  simp only
  generalize ensureCapCap r.rcap (r.rdata.length + buf.length) = cap at *
  generalize src r.src (cap - r.rdata.length) = x at *
  by_cases hm : 0 ≤ (r.rdata.length : Int) + x.2.1 ∧ (r.rdata.length : Int) + x.2.1 ≤ cap
  · rw [if_pos hm]
    simp only [readLoopAny]
    constructor
    · intro h; cases h
    · intro h; omega
  · rw [if_neg hm]
    simp only [true_iff]
    omega

/-- C78, what holds (2): and only when it has to ask. -/
theorem C78_no_panic_partial (src : SourceAny σ) (r : Reader σ) (buf : Str) (h : r.cdata ≠ [] ∨ r.err ≠ none)
    (fuel : Nat) : readLoopAny src fuel r buf ≠ .panic := by
  induction fuel generalizing r with
  | zero => intro h; cases h
  | succ fuel ih =>
    rw [readLoopAny_succ]
    split
    · intro h; cases h
    · rename_i hc
      have he := h.resolve_left fun x => hc (List.length_pos_iff.2 x)
      rw [if_neg he]
      split
      · intro h; cases h
      · exact ih _ (.inr he)

/-! ### What is delivered -/

theorem inv_fillAny {src : SourceAny σ} {O : Str} {r r' : Reader (σ × Str)} {len : Nat} (h : Inv O r)
    (he : r.err = none) (hf : fillAny (loggedAny src) r len = some r') : Inv O r' := by
  obtain ⟨p, q, cs, h1, h2, h3, h4⟩ := h
  obtain ⟨k, _, hlo, hhi, rfl⟩ := fillAny_some hf
  rcases h4 with rfl | ⟨_, h5, _⟩
  · refine ⟨p, _, cs, ?_, h2, h3, .inl rfl⟩
    simp only [loggedAny] at hlo hhi ⊢
    generalize src r.src.1 k = x at *
    obtain ⟨b, n, err, s⟩ := x
    simp only at *
    split
    · have e2 : ((r.rdata.length : Int) + n).toNat = r.rdata.length + n.toNat := by omega
      rw [e2, List.take_append, List.take_of_length_le (l := r.rdata) (by omega), Nat.add_sub_cancel_left,
        buffer_take _ (by omega), h1, List.append_assoc]
    · rename_i hn
      have e2 : ((r.rdata.length : Int) + n).toNat = r.rdata.length - n.natAbs := by omega
      rw [e2, h1, List.take_append_of_le_length (l₁ := r.rdata) (by omega), List.length_append, List.take_append,
        List.take_of_length_le (l := p) (by omega), show p.length + r.rdata.length - n.natAbs - p.length =
          r.rdata.length - n.natAbs by omega]
  · exact absurd he h5

theorem ReturnsAny_ind {src : SourceAny σ} {buf : Str} (P : Reader σ → Prop)
    (hfill : ∀ r r', P r → r.cdata = [] → r.err = none → fillAny src r buf.length = some r' → P (convert r'))
    (hconv : ∀ r, P r → r.cdata = [] → r.err ≠ none → r.rdata ≠ [] → P (convert r))
    {r : Reader σ} (hr : P r) {n err buf' r'} (h : ReturnsAny src r buf n err buf' r') :
    ∃ m, P m ∧
      ((m.cdata ≠ [] ∧ n = (copy buf m.cdata).2 ∧ err = none ∧ buf' = (copy buf m.cdata).1 ∧
          r' = { m with cdata := m.cdata.drop n }) ∨
       (m.cdata = [] ∧ m.err ≠ none ∧ m.rdata = [] ∧ n = 0 ∧ err = m.err ∧ buf' = buf ∧ r' = m)) := by
  obtain ⟨fuel, h⟩ := h
  induction fuel generalizing r with
  | zero => rw [readLoopAny] at h; simp at h
  | succ fuel ih =>
    rw [readLoopAny_succ] at h
    by_cases hc : r.cdata.length > 0
    · rw [if_pos hc] at h
      simp only [ReadOut.ret.injEq] at h
      obtain ⟨h1, h2, h3, h4⟩ := h
      refine ⟨r, hr, .inl ⟨?_, h1.symm, h2.symm, h3.symm, ?_⟩⟩
      · intro e; rw [e] at hc; simp at hc
      · rw [← h4, h1]
    · rw [if_neg hc] at h
      have hc : r.cdata = [] := List.length_eq_zero_iff.1 (by omega)
      by_cases he : r.err = none
      · rw [if_pos he] at h
        cases hf : fillAny src r buf.length with
        | none => rw [hf] at h; simp at h
        | some r1 => rw [hf] at h; exact ih (hfill r r1 hr hc he hf) h
      · rw [if_neg he] at h
        by_cases hl : r.rdata.length = 0
        · rw [if_pos hl] at h
          simp only [ReadOut.ret.injEq] at h
          obtain ⟨h1, h2, h3, h4⟩ := h
          exact ⟨r, hr, .inr ⟨hc, he, List.length_eq_zero_iff.1 hl, h1.symm, h2.symm, h3.symm, h4.symm⟩⟩
        · rw [if_neg hl] at h
          exact ih (hconv r hr hc he fun e => hl (by rw [e]; rfl)) h

theorem inv_returnsAny {src : SourceAny σ} {O buf : Str} {r r' : Reader (σ × Str)} {n err buf'}
    (h : Inv O r) (hr : ReturnsAny (loggedAny src) r buf n err buf' r') : Inv (O ++ buf'.take n) r' := by
  obtain ⟨m, hm, h⟩ := ReturnsAny_ind (fun r => Inv O r)
    (fun r r' hi hc he hf => inv_convert (inv_fillAny hi he hf) (by
      obtain ⟨k, _, _, _, rfl⟩ := fillAny_some hf
      exact hc))
    (fun r hi hc _ _ => inv_convert hi hc) h hr
  rcases h with ⟨_, rfl, rfl, rfl, rfl⟩ | ⟨_, _, _, rfl, _, rfl, rfl⟩
  · obtain ⟨p, q, cs, h1, h2, h3, h4⟩ := hm
    refine ⟨p, q, cs, h1, h2, ?_, h4⟩
    simp only
    rw [h3, copy_take, List.append_assoc, List.take_append_drop]
  · simpa using hm

theorem inv_readsAny {src : SourceAny σ} {O : Str} {r r' : Reader (σ × Str)} {bufs res}
    (h : Inv O r) (hr : ReadsAny (loggedAny src) r bufs res r') : Inv (O ++ delivered res) r' := by
  induction hr generalizing O with
  | nil => simpa [delivered] using h
  | cons h1 _ ih =>
    have := ih (inv_returnsAny h h1)
    simpa [delivered] using this

/-- The log does not influence what happens. -/
theorem unlog_fillAny (src : SourceAny σ) (r : Reader (σ × Str)) (len : Nat) :
    (fillAny (loggedAny src) r len).map unlog = fillAny src (unlog r) len := by
  have cases : ∀ (P : Prop) [Decidable P] (a : Reader (σ × Str)),
      (if P then some a else none).map unlog = if P then some (unlog a) else none := by
    intro P _ a
    split <;> rfl
  unfold fillAny
  exact cases _ _

theorem unlog_readLoopAny (src : SourceAny σ) (fuel : Nat) (r : Reader (σ × Str)) (buf : Str) :
    readLoopAny src fuel (unlog r) buf = match readLoopAny (loggedAny src) fuel r buf with
      | .ret n err b r' => .ret n err b (unlog r')
      | .panic => .panic
      | .running => .running := by
  induction fuel generalizing r with
  | zero => rfl
  | succ fuel ih =>
    rw [readLoopAny_succ, readLoopAny_succ, ← unlog_fillAny]
    by_cases hc : r.cdata.length > 0
    · rw [if_pos hc, if_pos (show (unlog r).cdata.length > 0 from hc)]
      rfl
    · rw [if_neg hc, if_neg (show ¬ (unlog r).cdata.length > 0 from hc)]
      by_cases he : r.err = none
      · rw [if_pos he, if_pos (show (unlog r).err = none from he)]
        cases fillAny (loggedAny src) r buf.length with
        | none => rfl
        | some r1 =>
          simp only [Option.map_some]
          rw [← unlog_convert, ih]
      · rw [if_neg he, if_neg (show ¬ (unlog r).err = none from he)]
        by_cases hl : r.rdata.length = 0
        · rw [if_pos hl, if_pos (show (unlog r).rdata.length = 0 from hl)]
          rfl
        · rw [if_neg hl, if_neg (show ¬ (unlog r).rdata.length = 0 from hl), ← unlog_convert, ih]

theorem logged_readsAny {src : SourceAny σ} {r : Reader σ} {bufs res r'} (h : ReadsAny src r bufs res r') :
    ∀ rl : Reader (σ × Str), unlog rl = r →
    ∃ r1, ReadsAny (loggedAny src) rl bufs res r1 ∧ unlog r1 = r' := by
  induction h with
  | nil r => intro rl hr; exact ⟨rl, .nil _, hr⟩
  | cons h1 _ ih =>
    intro rl hr
    subst hr
    obtain ⟨fuel, h1⟩ := h1
    rw [unlog_readLoopAny] at h1
    cases h2 : readLoopAny (loggedAny src) fuel rl _ with
    | panic => rw [h2] at h1; cases h1
    | running => rw [h2] at h1; cases h1
    | ret n err b r1 =>
      rw [h2] at h1
      simp only [ReadOut.ret.injEq] at h1
      obtain ⟨rfl, rfl, rfl, h3⟩ := h1
      obtain ⟨r2, h4, h5⟩ := ih r1 h3
      exact ⟨r2, .cons ⟨fuel, h2⟩ h4, h5⟩

/-- C78, what holds (3): for every source of whatever behaviour and every sequence of calls that return: what has been
delivered is a prefix of `From(p)` for a prefix `p` of what the source has handed over and not taken back. A negative
count takes back input that is waiting, and nothing that has been decoded. -/
theorem C78_decoded_prefix_partial (src : SourceAny σ) (s : σ) (bufs : List Str) (res : List Result) (r' : Reader σ)
    (h : ReadsAny src (NewReader s) bufs res r') :
    ∃ r₁ : Reader (σ × Str), ReadsAny (loggedAny src) (NewReader (s, [])) bufs res r₁ ∧ r₁.src.1 = r'.src ∧
      ∃ p, p <+: r₁.src.2 ∧ (From p).2 = none ∧ delivered res <+: (From p).1 := by
  obtain ⟨r1, h1, h2⟩ := logged_readsAny h (NewReader (s, [])) rfl
  refine ⟨r1, h1, by rw [← h2]; rfl, ?_⟩
  have hi : Inv [] (NewReader (s, [])) := ⟨[], [], [], rfl, .nil, rfl, .inl rfl⟩
  obtain ⟨p, q, cs, h3, h4, h5, _⟩ := inv_readsAny hi h1
  refine ⟨p, ⟨q, h3.symm⟩, by rw [From_dec h4], ?_⟩
  rw [From_dec h4]
  exact ⟨r1.cdata, by simpa using h5.symm⟩

/-- A source that hands over `41 B0`, takes back the second byte, and ends. -/
def takesBack : SourceAny Nat := fun s _ =>
  if s = 0 then (fun i => if i = 0 then 0x41 else 0xB0, 2, none, 1) else if s = 1 then (fun _ => 0, -1, none, 2)
  else (fun _ => 0, 0, some .eof, s)

/-- The letter is delivered, though it came with a byte that was later taken back. -/
example : ReadsAny takesBack (NewReader 0) [[0, 0], [0, 0]] [(1, none, [0x41, 0]), (0, some .eof, [0, 0])]
    ⟨2, [], [], 4, some .eof⟩ :=
  .cons (r' := ⟨2, [], [], 4, none⟩) ⟨3, rfl⟩ (.cons ⟨3, rfl⟩ (.nil _))

end Cp949
