import Verif.Env.Pipe
import Verif.Lemmas.Writer
import Verif.Props.Stream
/-! Property theorems C106: a Writer and a Reader at the two ends of an `io.Pipe`. -/
namespace Props
open Go Spec Cp949 GoIo

attribute [local irreducible] fromTable toTable rawFrom rawTo

/-! ### The parts of the model of the pipe against the model of `Read` and `Write` -/

/-- `round` and `fill` are the loop of `Read`. -/
theorem readLoop_round (src : Source Unit) (fuel : Nat) (r : Reader Unit) (buf : Str) :
    readLoop src (fuel + 1) r buf = match round r buf with
      | .ret n err buf' r' => .ret n err buf' r'
      | .again r' => readLoop src fuel r' buf
      | .ask => match fill src r buf.length with
        | none => .panic
        | some r' => readLoop src fuel (convert r') buf := by
  rw [readLoop, round]
  by_cases h1 : r.cdata.length > 0
  · rw [if_pos h1, if_pos h1]
  · rw [if_neg h1, if_neg h1]
    by_cases h2 : r.err = none
    · rw [if_pos h2, if_pos h2]
      cases fill src r buf.length <;> rfl
    · rw [if_neg h2, if_neg h2]
      by_cases h3 : r.rdata.length = 0
      · rw [if_pos h3, if_pos h3]
      · rw [if_neg h3, if_neg h3]

/-- `asked` and `answered` are `Write`, whatever the sink. -/
theorem write_asked (sink : Sink Unit) (w : Writer Unit) (d : Str) :
    Write sink w d = match asked w d with
      | [] => answered w d 0 none
      | b :: _ => answered w d (sink () b).1 (sink () b).2.1 := by
  obtain ⟨⟨⟩, buf⟩ := w
  unfold asked answered Write
  simp only
  generalize (if buf.length > 0 then buf ++ d else buf) = bf
  generalize (if buf.length > 0 then bf else d) = wd
  rcases toTranslate toTable wd with ⟨n, c, e⟩
  by_cases hn : n > 0
  · simp only [if_pos hn]
    rcases hs : sink () c with ⟨m, err, t⟩
    by_cases he : err = none <;> simp [hs, he]
  · simp [if_neg hn]

theorem asked_nil (t : Unit) : asked ⟨t, []⟩ [] = [] := by
  unfold asked
  rw [write_nil]

theorem asked_cons (t : Unit) {d : Str} (h : d ≠ []) : asked ⟨t, []⟩ d = [(To d).1] := by
  unfold asked
  rw [write_cons _ _ _ h]
  rfl

theorem answered_nil (t : Unit) (n : Nat) (e : Option Err) : answered ⟨t, []⟩ [] n e = (0, none, ⟨t, []⟩) := by
  unfold answered
  rw [write_nil]

theorem answered_cons (t : Unit) {d : Str} (h : d ≠ []) (n : Nat) (e : Option Err) :
    answered ⟨t, []⟩ d n e = (if e = none then d.length else 0, e, ⟨t, []⟩) := by
  unfold answered
  rw [write_cons _ _ _ h]

/-! ### What the writer sends -/

/-- The bytes sent for the pieces. -/
def sent (ds : List Str) : Str := (ds.map fun d => (To d).1).flatten

theorem sent_cons (d : Str) (ds : List Str) : sent (d :: ds) = (To d).1 ++ sent ds := by simp [sent]

theorem sent_ok (ds : List Str) : (From (sent ds)).2 = none := by
  induction ds with
  | nil => exact (congrArg Prod.snd (From_dec .nil) : _)
  | cons d ds ih =>
    obtain ⟨-, cs, -, h⟩ := C36_total d
    rw [sent_cons, C32_concat _ _ (by rw [h]), if_pos ih]

theorem To_ne_nil {d : Str} (h : d ≠ []) : (To d).1 ≠ [] := by
  obtain ⟨b, q, rfl⟩ := List.exists_cons_of_ne_nil h
  rw [To_eq]
  simp only
  rw [Ne, List.flatMap_eq_nil_iff]
  intro e
  obtain ⟨x, xs, hr⟩ := List.exists_cons_of_ne_nil (runes_ne_nil b q)
  have h0 := e x (by rw [hr]; exact .head _)
  unfold toUnit toUnitT at h0
  split at h0
  · cases h0
  · simp only [List.append_eq_nil_iff] at h0
    have h1 := h0.2
    split at h1 <;> cases h1

/-- What a call of `Write` that succeeds returns. -/
abbrev accepted (ds : List Str) : List (Nat × Option Err) := ds.map fun d => (d.length, none)

/-! ### The invariant -/

/-- The writing goroutine; `U` has not been taken yet. -/
def WInv (ds : List Str) (wres : List (Nat × Option Err)) (r : RProc) (U : Str) : WProc → Prop
  | .idle w todo => w.buf = [] ∧ ∃ dn, ds = dn ++ todo ∧ wres = accepted dn ∧ U = sent todo
  | .send w d todo b _ => w.buf = [] ∧ d ≠ [] ∧ b ≠ [] ∧
      ∃ dn, ds = dn ++ d :: todo ∧ wres = accepted dn ∧ U = b ++ sent todo
  | .closed => (wres = accepted ds ∧ U = []) ∨
      (r = .closed ∧ ∃ dn d todo, ds = dn ++ d :: todo ∧ d ≠ [] ∧ wres = accepted dn ++ [(0, some errClosedPipe)])

/-- A call of `Read` that has delivered something. -/
def Fine (x : Result) : Prop := x.2.1 = none ∧ 0 < x.1 ∧ x.1 ≤ x.2.2.length

/-- The reader, which has taken `S`. -/
structure RGood (ds : List Str) (fin : Err) (w : WProc) (wres : List (Nat × Option Err)) (rres : List Result) (S U : Str)
    (r : Reader Unit) : Prop where
  dec : ∃ p, S = p ++ r.rdata ∧ From p = (delivered rres ++ r.cdata, none)
  err : r.err = none ∨ (r.err = some fin ∧ w = .closed ∧ U = [] ∧ wres = accepted ds)
  res : ∀ x ∈ rres, Fine x

/-- The reading goroutine. -/
def RInv (ds : List Str) (fin : Err) (caller : List Result → Option Str) (w : WProc) (wres : List (Nat × Option Err))
    (rres : List Result) (S U : Str) : RProc → Prop
  | .idle r => RGood ds fin w wres rres S U r
  | .top r buf => RGood ds fin w wres rres S U r ∧ buf ≠ []
  | .ask r buf => RGood ds fin w wres rres S U r ∧ buf ≠ [] ∧ r.cdata = [] ∧ r.err = none
  | .closed => (∃ good b, rres = good ++ [(0, some fin, b)] ∧ (∀ x ∈ good, Fine x) ∧ delivered good = (From (sent ds)).1 ∧
        w = .closed ∧ wres = accepted ds) ∨
      (caller rres = none ∧ (∀ x ∈ rres, Fine x) ∧ delivered rres <+: (From (sent ds)).1)
  | .panic => False

def PInv (ds : List Str) (fin : Err) (caller : List Result → Option Str) (s : Piped) : Prop :=
  ∃ S U, sent ds = S ++ U ∧ WInv ds s.wres s.r U s.w ∧ RInv ds fin caller s.w s.wres s.rres S U s.r

/-! ### What is left to do -/

def wWork : WProc → Nat
  | .idle _ todo => 2 * todo.length + 1 + 16 * (sent todo).length
  | .send _ _ todo b _ => 2 * todo.length + 2 + 16 * b.length + 16 * (sent todo).length
  | .closed => 0

def rLoad (r : Reader Unit) : Nat := 12 * r.rdata.length + 4 * r.cdata.length + (if r.err = none then 4 else 0)

def rWork : RProc → Nat
  | .idle r => 4 + rLoad r
  | .top r _ => 3 + rLoad r
  | .ask r _ => 2 + rLoad r
  | .closed => 0
  | .panic => 0

def work (s : Piped) : Nat := wWork s.w + rWork s.r

theorem rinv_w {ds : List Str} {fin : Err} {caller : List Result → Option Str} {w w' : WProc}
    {wres wres' : List (Nat × Option Err)} {rres : List Result} {S U : Str} {r : RProc} (hw : w ≠ .closed)
    (h : RInv ds fin caller w wres rres S U r) : RInv ds fin caller w' wres' rres S U r := by
  have g : ∀ r, RGood ds fin w wres rres S U r → RGood ds fin w' wres' rres S U r := fun r h =>
    ⟨h.dec, h.err.imp id fun e => absurd e.2.1 hw, h.res⟩
  cases r with
  | idle r => exact g r h
  | top r buf => exact ⟨g r h.1, h.2⟩
  | ask r buf => exact ⟨g r h.1, h.2⟩
  | closed => exact h.imp (fun ⟨_, _, _, _, _, e, _⟩ => absurd e hw) id
  | panic => exact h

theorem roomFor_ge (r : Reader Unit) (buf : Str) : buf.length ≤ roomFor r buf := by
  have := ensureCapCap_ge r.rcap (r.rdata.length + buf.length)
  unfold roomFor
  omega

theorem got_top {r : Reader Unit} {buf x : Str} {e : Option Err} (hx : x.length ≤ roomFor r buf) (he : x ≠ [] ∨ e ≠ none) :
    RProc.got r buf x e = .top (convert { r with
      rdata := r.rdata ++ x, rcap := ensureCapCap r.rcap (r.rdata.length + buf.length), err := e }) buf := by
  have := ensureCapCap_ge r.rcap (r.rdata.length + buf.length)
  unfold RProc.got fill
  unfold roomFor at hx
  simp only
  rw [if_pos (by omega), if_neg]
  rintro ⟨h1, h2⟩
  rcases he with he | he
  · exact he (List.length_eq_zero_iff.1 h1)
  · exact he h2

/-- The reader takes `x`. -/
theorem got_more {ds : List Str} {fin : Err} {w w' : WProc} {wres wres' : List (Nat × Option Err)} {rres : List Result}
    {S U U' : Str} {r : Reader Unit} {buf x : Str} (h : RGood ds fin w wres rres S U r) (hc : r.cdata = []) (he : r.err = none)
    (hx : x ≠ []) (hl : x.length ≤ roomFor r buf) :
    ∃ r', RProc.got r buf x none = .top r' buf ∧ RGood ds fin w' wres' rres (S ++ x) U' r' ∧
      rLoad r' ≤ rLoad r + 12 * x.length := by
  rw [got_top hl (.inl hx)]
  refine ⟨_, rfl, ?_⟩
  obtain ⟨p, h1, h2⟩ := h.dec
  rw [hc, List.append_nil] at h2
  rcases dec_cases (r.rdata ++ x) with ⟨cs, hd⟩ | ht
  · have hF := From_dec hd
    have hg := From_length (r.rdata ++ x)
    rw [hF, List.length_append] at hg
    rw [convert_dec (cs := cs) hd]
    refine ⟨⟨⟨p ++ (r.rdata ++ x), by rw [h1]; simp, ?_⟩, .inl rfl, h.res⟩, ?_⟩
    · rw [C32_concat _ _ (by rw [h2]), hF, if_pos rfl, h2]
    · simp only [rLoad, he, hc, if_pos, List.length_nil] at hg ⊢
      omega
  · rw [convert_truncated_more ht rfl]
    refine ⟨⟨⟨p, by rw [h1]; simp, by rw [h2, List.append_nil]⟩, .inl rfl, h.res⟩, ?_⟩
    simp only [rLoad, he, hc, if_pos, List.length_nil, List.length_append]
    omega

/-- The reader is told that the writer has closed the pipe. -/
theorem got_end {ds : List Str} {fin : Err} {wres : List (Nat × Option Err)} {rres : List Result}
    {S : Str} {r : Reader Unit} {buf : Str} (h : RGood ds fin .closed wres rres S [] r) (hS : sent ds = S)
    (hw : wres = accepted ds) (hc : r.cdata = []) (he : r.err = none) :
    ∃ r', RProc.got r buf [] (some fin) = .top r' buf ∧ RGood ds fin .closed wres rres S [] r' ∧ rLoad r' + 4 ≤ rLoad r := by
  rw [got_top (Nat.zero_le _) (.inr (by simp)), List.append_nil]
  refine ⟨_, rfl, ?_⟩
  obtain ⟨p, h1, h2⟩ := h.dec
  rw [hc, List.append_nil] at h2
  have hok := sent_ok ds
  rw [hS, h1, C32_concat _ _ (by rw [h2])] at hok
  rcases dec_cases r.rdata with ⟨cs, hd⟩ | ht
  · have hF := From_dec hd
    have hg := From_length r.rdata
    rw [hF] at hg
    rw [convert_dec (r := { r with rcap := ensureCapCap r.rcap (r.rdata.length + buf.length), err := some fin }) (cs := cs) hd]
    refine ⟨⟨⟨p ++ r.rdata, by rw [h1]; simp, ?_⟩, .inr ⟨rfl, rfl, rfl, hw⟩, h.res⟩, ?_⟩
    · rw [C32_concat _ _ (by rw [h2]), hF, if_pos rfl, h2]
    · simp only [rLoad, he, hc, if_pos, List.length_nil] at hg ⊢
      simp
      omega
  · rw [From_truncated ht] at hok
    simp at hok

/-- Every step keeps the invariant, and takes the program nearer to its end. -/
theorem pipe_step {ds : List Str} {fin : Err} {caller : List Result → Option Str} (hb : ∀ x, caller x ≠ some [])
    {s s' : Piped} (hi : PInv ds fin caller s) (h : PipeStep fin caller s s') : PInv ds fin caller s' ∧ work s' < work s := by
  obtain ⟨S, U, hD, hw, hr⟩ := hi
  cases h with
  | @quiet w d todo wres r rres ha =>
    obtain ⟨hb, dn, h1, (h2 : wres = accepted dn), h3⟩ := hw
    obtain ⟨⟨⟩, buf⟩ := w
    simp only at hb
    subst hb
    by_cases hd : d = []
    · subst hd
      rw [answered_nil]
      refine ⟨⟨S, U, hD, ⟨rfl, dn ++ [[]], by rw [h1]; simp, by show wres ++ _ = _; rw [h2]; simp, ?_⟩, rinv_w (by simp) hr⟩, ?_⟩
      · rw [h3, sent_cons, To_nil]; rfl
      · simp only [work, WProc.returned, if_pos, wWork, List.length_cons, sent_cons, List.length_append]; omega
    · rw [asked_cons _ hd] at ha; cases ha
  | @write w d todo wres r rres b ha hn =>
    obtain ⟨hb, dn, h1, (h2 : wres = accepted dn), h3⟩ := hw
    obtain ⟨⟨⟩, buf⟩ := w
    simp only at hb
    subst hb
    have hd : d ≠ [] := by rintro rfl; rw [asked_nil] at ha; cases ha
    rw [asked_cons _ hd] at ha
    cases ha
    refine ⟨⟨S, U, hD, ⟨rfl, hd, To_ne_nil hd, dn, h1, h2, by rw [h3, sent_cons]⟩, rinv_w (by simp) hr⟩, ?_⟩
    simp only [work, wWork, List.length_cons, sent_cons, List.length_append]; omega
  | @refused w d todo wres rres b ha =>
    obtain ⟨hb, dn, h1, (h2 : wres = accepted dn), h3⟩ := hw
    obtain ⟨⟨⟩, buf⟩ := w
    simp only at hb
    subst hb
    have hd : d ≠ [] := by rintro rfl; rw [asked_nil] at ha; cases ha
    rw [answered_cons _ hd]
    refine ⟨⟨S, U, hD, ?_, rinv_w (by simp) hr⟩, ?_⟩
    · exact .inr ⟨rfl, dn, d, todo, h1, hd, by show wres ++ _ = _; rw [h2]; rfl⟩
    · simp [work, WProc.returned, wWork]; omega
  | @broken w d todo b n wres rres =>
    obtain ⟨hb, hd, -, dn, h1, (h2 : wres = accepted dn), h3⟩ := hw
    obtain ⟨⟨⟩, buf⟩ := w
    simp only at hb
    subst hb
    rw [answered_cons _ hd]
    refine ⟨⟨S, U, hD, ?_, rinv_w (by simp) hr⟩, ?_⟩
    · exact .inr ⟨rfl, dn, d, todo, h1, hd, by show wres ++ _ = _; rw [h2]; rfl⟩
    · simp only [work, WProc.returned, wWork]
      rw [if_neg (by simp)]
      simp only
      omega
  | @close w wres r rres =>
    obtain ⟨hb, dn, h1, (h2 : wres = accepted dn), h3⟩ := hw
    refine ⟨⟨S, U, hD, .inl ⟨by show wres = _; rw [h2, h1, List.append_nil], by rw [h3]; rfl⟩, rinv_w (by simp) hr⟩, ?_⟩
    simp only [work, wWork]; omega
  | @read w wres r rres buf hc =>
    refine ⟨⟨S, U, hD, ?_, hr, fun e => hb rres (by rw [hc, e])⟩, ?_⟩
    · cases w with
      | idle _ _ => exact hw
      | send _ _ _ _ _ => exact hw
      | closed => exact hw.imp id fun h => by cases h.1
    · simp only [work, rWork]; omega
  | @stop w wres r rres hc =>
    refine ⟨⟨S, U, hD, ?_, .inr ⟨hc, hr.res, ?_⟩⟩, ?_⟩
    · cases w with
      | idle _ _ => exact hw
      | send _ _ _ _ _ => exact hw
      | closed => exact hw.imp id fun h => by cases h.1
    · obtain ⟨p, h1, h2⟩ := hr.dec
      have hok := sent_ok ds
      rw [hD, h1, List.append_assoc] at hok ⊢
      rw [C32_concat _ _ (by rw [h2])] at hok ⊢
      split at hok
      · rename_i h; rw [if_pos h, h2]; simp only; rw [List.append_assoc]; exact List.prefix_append _ _
      · rename_i h; exact absurd hok h
    · simp only [work, rWork]; omega
  | @ret w wres r rres buf n err buf' r' hr' =>
    obtain ⟨g, hne⟩ := hr
    obtain ⟨p, h1, h2⟩ := g.dec
    unfold round at hr'
    split at hr'
    · rename_i hc
      simp only [Round.ret.injEq] at hr'
      obtain ⟨rfl, rfl, rfl, rfl⟩ := hr'
      have hpos : 0 < (copy buf r.cdata).2 := by
        have := List.length_pos_iff.2 hne
        simp only [copy]; omega
      refine ⟨⟨S, U, hD, ?_, ?_⟩, ?_⟩
      · cases w with
        | idle _ _ => exact hw
        | send _ _ _ _ _ => exact hw
        | closed => exact hw.imp id fun h => by cases h.1
      · refine ⟨⟨p, h1, ?_⟩, g.err, ?_⟩
        · rw [h2, delivered, delivered, List.flatMap_append]
          simp [copy_take]
        · intro x hx
          rcases List.mem_append.1 hx with hx | hx
          · exact g.res x hx
          · rw [List.mem_singleton] at hx
            subst hx
            refine ⟨rfl, hpos, ?_⟩
            rw [copy_length]
            simp only [copy]; omega
      · simp only [work, RProc.returned, if_pos, rWork, rLoad, List.length_drop]
        have : (copy buf r.cdata).2 ≤ r.cdata.length := by simp only [copy]; omega
        omega
    · rename_i hc
      have hc : r.cdata = [] := List.length_eq_zero_iff.1 (by omega)
      split at hr'
      · cases hr'
      · rename_i he
        split at hr'
        · rename_i hl
          simp only [Round.ret.injEq] at hr'
          obtain ⟨rfl, rfl, rfl, rfl⟩ := hr'
          obtain ⟨e1, rfl, rfl, e4⟩ := g.err.resolve_left he
          have hl := List.length_eq_zero_iff.1 hl
          rw [e1]
          refine ⟨⟨S, [], hD, .inl ⟨e4, rfl⟩, .inl ⟨rres, buf, rfl, g.res, ?_, rfl, e4⟩⟩, ?_⟩
          · rw [hD, h1, hl, List.append_nil, List.append_nil, h2, hc, List.append_nil]
          · simp only [work, RProc.returned]
            rw [if_neg (by simp)]
            simp only [rWork]; omega
        · cases hr'
  | @ask w wres r rres buf hr' =>
    obtain ⟨g, hne⟩ := hr
    unfold round at hr'
    split at hr'
    · cases hr'
    · rename_i hc
      split at hr'
      · rename_i he
        refine ⟨⟨S, U, hD, ?_, g, hne, List.length_eq_zero_iff.1 (by omega), he⟩, ?_⟩
        · cases w with
          | idle _ _ => exact hw
          | send _ _ _ _ _ => exact hw
          | closed => exact hw.imp id fun h => by cases h.1
        · simp only [work, rWork]; omega
      · split at hr' <;> cases hr'
  | @again w wres r rres buf r' hr' =>
    obtain ⟨g, hne⟩ := hr
    obtain ⟨p, h1, h2⟩ := g.dec
    unfold round at hr'
    split at hr'
    · cases hr'
    · rename_i hc
      have hc : r.cdata = [] := List.length_eq_zero_iff.1 (by omega)
      split at hr'
      · cases hr'
      · rename_i he
        split at hr'
        · cases hr'
        · rename_i hl
          cases hr'
          obtain ⟨e1, rfl, rfl, e4⟩ := g.err.resolve_left he
          rw [List.append_nil] at hD
          rw [hc, List.append_nil] at h2
          have hok := sent_ok ds
          rw [hD, h1, C32_concat _ _ (by rw [h2])] at hok
          rcases dec_cases r.rdata with ⟨cs, hd⟩ | ht
          · have hF := From_dec hd
            have hg := From_length r.rdata
            rw [hF] at hg
            rw [convert_dec (cs := cs) hd]
            refine ⟨⟨S, [], by rw [hD, List.append_nil], .inl ⟨e4, rfl⟩, ⟨⟨p ++ r.rdata, by rw [h1]; simp, ?_⟩,
              .inr ⟨e1, rfl, rfl, e4⟩, g.res⟩, hne⟩, ?_⟩
            · rw [C32_concat _ _ (by rw [h2]), hF, if_pos rfl, h2]
            · simp only [work, rWork, rLoad, hc, List.length_nil] at hg ⊢
              omega
          · rw [From_truncated ht] at hok
            simp at hok
  | @some_ w d todo b n wres r buf rres hlt =>
    obtain ⟨hb, hd, hbne, dn, h1, (h2 : wres = accepted dn), h3⟩ := hw
    obtain ⟨g, hne, hc, he⟩ := hr
    have hroom := roomFor_ge r buf
    have hpos := List.length_pos_iff.2 hne
    obtain ⟨r', hg, hgood, hload⟩ := got_more (w' := .send w d todo (b.drop (roomFor r buf)) (n + roomFor r buf))
      (wres' := wres) (U' := b.drop (roomFor r buf) ++ sent todo) (buf := buf) (x := b.take (roomFor r buf)) g hc he
      (fun e => by have := congrArg List.length e; rw [List.length_take, List.length_nil] at this; omega)
      (by rw [List.length_take]; omega)
    rw [hg]
    refine ⟨⟨_, _, ?_, ⟨hb, hd, fun e => ?_, dn, h1, h2, rfl⟩, hgood, hne⟩, ?_⟩
    · rw [hD, h3, List.append_assoc S, ← List.append_assoc (b.take _), List.take_append_drop]
    · have := congrArg List.length e; rw [List.length_drop, List.length_nil] at this; omega
    · simp only [work, wWork, rWork, List.length_drop]
      rw [List.length_take] at hload
      omega
  | @all w d todo b n wres r buf rres hle =>
    obtain ⟨hb, hd, hbne, dn, h1, (h2 : wres = accepted dn), h3⟩ := hw
    obtain ⟨g, hne, hc, he⟩ := hr
    have hpos := List.length_pos_iff.2 hbne
    obtain ⟨⟨⟩, wb⟩ := w
    simp only at hb
    subst hb
    rw [answered_cons _ hd]
    obtain ⟨r', hg, hgood, hload⟩ := got_more (w' := .idle ⟨(), []⟩ todo)
      (wres' := wres ++ [(d.length, none)]) (U' := sent todo) (buf := buf) (x := b) g hc he hbne hle
    rw [hg]
    refine ⟨⟨S ++ b, sent todo, by rw [hD, h3, List.append_assoc], ⟨rfl, dn ++ [d], by rw [h1]; simp, by show wres ++ _ = _; rw [h2]; simp, rfl⟩,
      hgood, hne⟩, ?_⟩
    simp only [work, WProc.returned, if_pos, wWork, rWork]
    omega
  | @end_ wres r buf rres =>
    obtain ⟨g, hne, hc, he⟩ := hr
    rcases hw with ⟨h1, rfl⟩ | ⟨h, -⟩
    · rw [List.append_nil] at hD
      obtain ⟨r', hg, hgood, hload⟩ := got_end (buf := buf) g hD h1 hc he
      rw [hg]
      refine ⟨⟨S, [], by rw [hD, List.append_nil], .inl ⟨h1, rfl⟩, hgood, hne⟩, ?_⟩
      simp only [work, rWork]; omega
    · cases h

theorem pipe_start (ds : List Str) (fin : Err) (caller : List Result → Option Str) : PInv ds fin caller (.start ds) :=
  ⟨[], sent ds, rfl, ⟨rfl, [], rfl, rfl, rfl⟩, ⟨⟨[], rfl, From_dec .nil⟩, .inl rfl, fun _ h => by cases h⟩⟩

theorem pipe_steps {ds : List Str} {fin : Err} {caller : List Result → Option Str} (hb : ∀ x, caller x ≠ some [])
    {n : Nat} {s₀ s : Piped} (h₀ : PInv ds fin caller s₀) (h : PipeSteps fin caller n s₀ s) :
    PInv ds fin caller s ∧ n + work s ≤ work s₀ := by
  induction h with
  | nil s => exact ⟨h₀, by omega⟩
  | snoc _ h ih =>
    obtain ⟨i1, i2⟩ := ih h₀
    obtain ⟨j1, j2⟩ := pipe_step hb i1 h
    exact ⟨j1, by omega⟩

/-- Unless both goroutines have ended, one of them can go on. -/
theorem pipe_progress {ds : List Str} {fin : Err} {caller : List Result → Option Str} {s : Piped} (hi : PInv ds fin caller s) :
    (s.w = .closed ∧ s.r = .closed) ∨ ∃ s', PipeStep fin caller s s' := by
  obtain ⟨w, wres, r, rres⟩ := s
  obtain ⟨S, U, hD, hw, hr⟩ := hi
  simp only at hw hr ⊢
  have top : ∀ r buf, ∃ s', PipeStep fin caller ⟨w, wres, .top r buf, rres⟩ s' := by
    intro r buf
    cases h : round r buf with
    | ret n err buf' r' => exact ⟨_, .ret h⟩
    | ask => exact ⟨_, .ask h⟩
    | again r' => exact ⟨_, .again h⟩
  have idle : ∀ r, ∃ s', PipeStep fin caller ⟨w, wres, .idle r, rres⟩ s' := by
    intro r
    cases h : caller rres with
    | none => exact ⟨_, .stop h⟩
    | some buf => exact ⟨_, .read h⟩
  cases r with
  | idle r => exact .inr (idle r)
  | top r buf => exact .inr (top r buf)
  | panic => exact absurd hr id
  | ask r buf =>
    right
    cases w with
    | closed => exact ⟨_, .end_⟩
    | send w d todo b n =>
      by_cases h : roomFor r buf < b.length
      · exact ⟨_, .some_ h⟩
      · exact ⟨_, .all (by omega)⟩
    | idle w todo =>
      cases todo with
      | nil => exact ⟨_, .close⟩
      | cons d todo =>
        obtain ⟨⟨⟩, buf⟩ := w
        obtain ⟨hb, -⟩ := hw
        simp only at hb
        subst hb
        by_cases hd : d = []
        · subst hd; exact ⟨_, .quiet (asked_nil _)⟩
        · exact ⟨_, .write (asked_cons _ hd) (by simp)⟩
  | closed =>
    cases w with
    | closed => exact .inl ⟨rfl, rfl⟩
    | send w d todo b n => exact .inr ⟨_, .broken⟩
    | idle w todo =>
      right
      cases todo with
      | nil => exact ⟨_, .close⟩
      | cons d todo =>
        obtain ⟨⟨⟩, buf⟩ := w
        obtain ⟨hb, -⟩ := hw
        simp only at hb
        subst hb
        by_cases hd : d = []
        · subst hd; exact ⟨_, .quiet (asked_nil _)⟩
        · exact ⟨_, .refused (asked_cons _ hd)⟩

theorem pipe_cons {fin : Err} {caller : List Result → Option Str} {n : Nat} {s s' s'' : Piped} (h : PipeStep fin caller s s')
    (h' : PipeSteps fin caller n s' s'') : PipeSteps fin caller (n + 1) s s'' := by
  induction h' with
  | nil _ => exact .snoc (.nil _) h
  | snoc _ h1 ih => exact .snoc (ih h) h1

theorem pipe_completes {ds : List Str} {fin : Err} {caller : List Result → Option Str} (hb : ∀ x, caller x ≠ some [])
    (k : Nat) {s : Piped} (hk : work s ≤ k) (hi : PInv ds fin caller s) :
    ∃ m s', PipeSteps fin caller m s s' ∧ s'.w = .closed ∧ s'.r = .closed := by
  induction k generalizing s with
  | zero =>
    rcases pipe_progress hi with h | ⟨s', h⟩
    · exact ⟨0, s, .nil s, h⟩
    · have := (pipe_step hb hi h).2; omega
  | succ k ih =>
    rcases pipe_progress hi with h | ⟨s', h⟩
    · exact ⟨0, s, .nil s, h⟩
    · obtain ⟨i1, i2⟩ := pipe_step hb hi h
      obtain ⟨m, s'', j1, j2⟩ := ih (by omega) i1
      exact ⟨m + 1, s'', pipe_cons h j1, j2⟩

/-! ### C106 -/

/-- C106: in every execution, however the goroutines take turns, what has been read is a beginning of the decoded form of what the
Writer makes of the pieces; nothing panics; and the goroutines cannot get stuck: they have ended, or one of them can go on. An
execution has no more steps than the given number, so that both goroutines do end. -/
theorem C106_always (fin : Err) (ds : List Str) (caller : List Result → Option Str) (hb : ∀ x, caller x ≠ some [])
    (n : Nat) (s : Piped) (h : PipeSteps fin caller n (.start ds) s) :
    delivered s.rres <+: (From (ds.map fun d => (To d).1).flatten).1 ∧ s.r ≠ .panic ∧
    ((s.w = .closed ∧ s.r = .closed) ∨ ∃ s', PipeStep fin caller s s') ∧
    n ≤ 16 * (ds.map fun d => (To d).1).flatten.length + 2 * ds.length + 9 := by
  obtain ⟨hi, hn⟩ := pipe_steps hb (pipe_start ds fin caller) h
  have hok := sent_ok ds
  refine ⟨?_, ?_, pipe_progress hi, ?_⟩
  · obtain ⟨S, U, hD, -, hr⟩ := hi
    have hg : ∀ w wres r, RGood ds fin w wres s.rres S U r → delivered s.rres <+: (From (sent ds)).1 := by
      intro w wres r g
      obtain ⟨p, h1, h2⟩ := g.dec
      rw [hD, h1, List.append_assoc] at hok ⊢
      rw [C32_concat _ _ (by rw [h2])] at hok ⊢
      split at hok
      · rename_i h; rw [if_pos h, h2]; simp only; rw [List.append_assoc]; exact List.prefix_append _ _
      · rename_i h; exact absurd hok h
    cases hs : s.r with
    | idle r => rw [hs] at hr; exact hg _ _ _ hr
    | top r buf => rw [hs] at hr; exact hg _ _ _ hr.1
    | ask r buf => rw [hs] at hr; exact hg _ _ _ hr.1
    | panic => rw [hs] at hr; exact absurd hr id
    | closed =>
      rw [hs] at hr
      rcases hr with ⟨good, b, h1, -, h3, -⟩ | ⟨-, -, h⟩
      · rw [h1, delivered, List.flatMap_append]
        rw [delivered] at h3
        rw [h3]
        simp [sent]
      · exact h
  · intro hs
    obtain ⟨S, U, -, -, hr⟩ := hi
    rw [hs] at hr
    exact hr
  · have : work (.start ds) = 2 * ds.length + 1 + 16 * (sent ds).length + 8 := rfl
    unfold sent at this
    omega

/-- C106: every execution can be continued until both have ended. -/
theorem C106_ends (fin : Err) (ds : List Str) (caller : List Result → Option Str) (hb : ∀ x, caller x ≠ some [])
    (n : Nat) (s : Piped) (h : PipeSteps fin caller n (.start ds) s) :
    ∃ m s', PipeSteps fin caller m s s' ∧ s'.w = .closed ∧ s'.r = .closed :=
  pipe_completes hb _ (Nat.le_refl _) (pipe_steps hb (pipe_start ds fin caller) h).1

/-- C106: when both have ended, then either the reading goroutine has read everything and then been told of the end (and all calls of
`Write` have returned the lengths of the pieces and no error); or it has stopped of its own accord, and then the writing goroutine
has been told so, unless it had already written everything. -/
theorem C106_ended (fin : Err) (ds : List Str) (caller : List Result → Option Str) (hb : ∀ x, caller x ≠ some [])
    (n : Nat) (s : Piped) (h : PipeSteps fin caller n (.start ds) s) (hw : s.w = .closed) (hr : s.r = .closed) :
    (∃ good buf, s.rres = good ++ [(0, some fin, buf)] ∧ (∀ x ∈ good, x.2.1 = none ∧ 0 < x.1 ∧ x.1 ≤ x.2.2.length) ∧
      delivered good = (From (ds.map fun d => (To d).1).flatten).1 ∧ s.wres = ds.map fun d => (d.length, none)) ∨
    (caller s.rres = none ∧ (∀ x ∈ s.rres, x.2.1 = none ∧ 0 < x.1 ∧ x.1 ≤ x.2.2.length) ∧
      ((s.wres = ds.map fun d => (d.length, none)) ∨
        ∃ ds₁ d ds₂, ds = ds₁ ++ d :: ds₂ ∧ s.wres = (ds₁.map fun d => (d.length, none)) ++ [(0, some errClosedPipe)])) := by
  obtain ⟨⟨S, U, hD, gw, gr⟩, -⟩ := pipe_steps hb (pipe_start ds fin caller) h
  rw [hw] at gw
  rw [hr] at gr
  rcases gr with ⟨good, b, h1, h2, h3, -, h4⟩ | ⟨h1, h2, -⟩
  · exact .inl ⟨good, b, h1, h2, h3, h4⟩
  · refine .inr ⟨h1, h2, ?_⟩
    rcases gw with ⟨h, -⟩ | ⟨-, ds₁, d, ds₂, e1, -, e2⟩
    · exact .inl h
    · exact .inr ⟨ds₁, d, ds₂, e1, e2⟩

theorem sent_texts (texts : List (List Char)) (h : ∀ x ∈ texts, ∀ c ∈ x, InRepertoire c) :
    From (sent (texts.map utf8)) = (utf8 texts.flatten, none) := by
  induction texts with
  | nil => exact From_dec .nil
  | cons x texts ih =>
    obtain ⟨b, hto, he, hf⟩ := C28_roundtrip_unicode x (h x (.head _))
    have ih := ih fun y hy => h y (.tail _ hy)
    rw [List.map_cons, sent_cons, hto, C32_concat _ _ (by rw [hf]), hf, ih, if_pos rfl, List.flatten_cons, utf8_append]

/-- C106: so texts that CP949 can represent, written in any pieces and read by a caller that goes on to the end, arrive as they
were, and every `Write` succeeds. -/
theorem C106_texts (fin : Err) (texts : List (List Char)) (h : ∀ x ∈ texts, ∀ c ∈ x, InRepertoire c)
    (caller : List Result → Option Str) (hb : ∀ x, ∃ buf, caller x = some buf ∧ buf ≠ [])
    (n : Nat) (s : Piped) (hs : PipeSteps fin caller n (.start (texts.map utf8)) s) :
    (∃ m s', PipeSteps fin caller m s s' ∧ s'.w = .closed ∧ s'.r = .closed) ∧
    (s.w = .closed → s.r = .closed → ∃ good buf, s.rres = good ++ [(0, some fin, buf)] ∧ (∀ x ∈ good, x.2.1 = none) ∧
      delivered good = utf8 texts.flatten ∧ s.wres = texts.map fun x => ((utf8 x).length, none)) := by
  have hb' : ∀ x, caller x ≠ some [] := fun x e => by
    obtain ⟨buf, h1, h2⟩ := hb x
    rw [h1] at e
    exact h2 (Option.some.inj e)
  refine ⟨C106_ends fin _ caller hb' n s hs, fun hw hr => ?_⟩
  rcases C106_ended fin _ caller hb' n s hs hw hr with ⟨good, buf, h1, h2, h3, h4⟩ | ⟨h1, -⟩
  · refine ⟨good, buf, h1, fun x hx => (h2 x hx).1, ?_, by rw [h4, List.map_map]; rfl⟩
    rw [h3]
    exact congrArg Prod.fst (sent_texts texts h)
  · obtain ⟨buf, e, -⟩ := hb s.rres
    rw [e] at h1
    cases h1

/-- C106 applies, to a caller that reads once with room for one byte and then stops: it has got "A" of "AB", and `Write` is told. -/
example : PipeSteps .eof (fun res => if res.isEmpty then some [0] else none) 7 (.start [[0x41, 0x42]])
      ⟨.closed, [(0, some errClosedPipe)], .closed, [(1, none, [0x41])]⟩ ∧
    ∀ x : List Result, (if x.isEmpty then some [0] else none) ≠ some ([] : Str) := by
  have hA : asked ⟨(), []⟩ [0x41, 0x42] = [[0x41, 0x42]] := by decide +kernel
  have hB : answered ⟨(), []⟩ [0x41, 0x42] 1 (some errClosedPipe) = (0, some errClosedPipe, ⟨(), []⟩) :=
    answered_cons _ (by simp) _ _
  refine ⟨?_, fun x => by split <;> simp⟩
  have hg : RProc.got (NewReader ()) [0] [0x41] none = .top ⟨(), [0x41], [], 1, none⟩ [0] := rfl
  have h4 := PipeStep.some_ (fin := .eof) (caller := fun res => if res.isEmpty then some [0] else none) (w := ⟨(), []⟩)
    (d := [0x41, 0x42]) (ds := []) (b := [0x41, 0x42]) (n := 0) (wres := []) (r := NewReader ()) (buf := [0]) (rres := [])
    (by decide)
  rw [show roomFor (NewReader ()) [0] = 1 from rfl, show List.take 1 [0x41, 0x42] = ([0x41] : Str) from rfl, hg] at h4
  refine pipe_cons (.write hA (by simp)) (pipe_cons (.read rfl) (pipe_cons (.ask rfl) (pipe_cons h4
    (pipe_cons (s' := ⟨.send ⟨(), []⟩ [0x41, 0x42] [] [0x42] 1, [], .idle ⟨(), [], [], 1, none⟩, [(1, none, [0x41])]⟩)
      (.ret (n := 1) (err := none) (buf' := [0x41]) (r' := ⟨(), [], [], 1, none⟩) (rres := []) rfl) (pipe_cons (.stop rfl) ?_)))))
  have h := PipeStep.broken (fin := .eof) (caller := fun res => if res.isEmpty then some [0] else none)
    (w := ⟨(), []⟩) (d := [0x41, 0x42]) (ds := []) (b := [0x42]) (n := 1) (wres := []) (rres := [(1, none, [0x41])])
  rw [hB] at h
  exact .snoc (.nil _) h

/-- C106_texts applies: "A" and "가", read with room for one byte at a time. -/
example : (∀ x ∈ [['A'], ['가']], ∀ c ∈ x, InRepertoire c) ∧
    ∀ x : List Result, ∃ buf, (fun _ => some [0] : List Result → Option Str) x = some buf ∧ buf ≠ [] := by
  refine ⟨?_, fun _ => ⟨[0], rfl, by simp⟩⟩
  intro x hx c hc
  simp only [List.mem_cons, List.not_mem_nil, or_false] at hx
  rcases hx with rfl | rfl <;> rw [List.mem_singleton] at hc <;> subst hc
  · exact .inl (by decide)
  · exact .inr ⟨0xB0A1, by unfold Chart; decide +kernel⟩

end Props
