/-!
A merge sort that the kernel can run on the lookup tables, and checkers for lists of pairs of
numbers. They are used only to establish facts about the generated tables.
-/
namespace KSort

/-- Insert `x` and then continue with `k`, in order of first components. -/
def mergeIn (x : Nat × Nat) (k : List (Nat × Nat) → List (Nat × Nat)) (xs : List (Nat × Nat)) :
    List (Nat × Nat) → List (Nat × Nat)
  | [] => x :: xs
  | y :: ys => bif Nat.ble x.1 y.1 then x :: k (y :: ys) else y :: mergeIn x k xs ys

def merge : List (Nat × Nat) → List (Nat × Nat) → List (Nat × Nat)
  | [] => fun ys => ys
  | x :: xs => mergeIn x (merge xs) xs

theorem mergeIn_perm (x : Nat × Nat) (k : List (Nat × Nat) → List (Nat × Nat))
    (xs : List (Nat × Nat)) (hk : ∀ ys, (k ys).Perm (xs ++ ys)) (ys : List (Nat × Nat)) :
    (mergeIn x k xs ys).Perm (x :: xs ++ ys) := by
  induction ys with
  | nil => simp [mergeIn]
  | cons y ys ih =>
    unfold mergeIn
    cases Nat.ble x.1 y.1
    · exact (ih.cons y).trans (List.perm_middle (l₁ := x :: xs)).symm
    · exact (hk (y :: ys)).cons x

theorem merge_perm (xs ys : List (Nat × Nat)) : (merge xs ys).Perm (xs ++ ys) := by
  induction xs generalizing ys with
  | nil => exact .refl _
  | cons x xs ih => exact mergeIn_perm x (merge xs) xs ih ys

/-- One bottom-up pass: merge neighbours. -/
def pass : List (List (Nat × Nat)) → List (List (Nat × Nat))
  | a :: b :: l => merge a b :: pass l
  | l => l

theorem pass_perm : ∀ l, (pass l).flatten.Perm l.flatten
  | [] => .refl _
  | [_] => .refl _
  | a :: b :: l => by
    simp only [pass, List.flatten_cons]
    rw [← List.append_assoc]
    exact (merge_perm a b).append (pass_perm l)

def passes : Nat → List (List (Nat × Nat)) → List (List (Nat × Nat))
  | 0, l => l
  | n + 1, l => passes n (pass l)

theorem passes_perm (n : Nat) (l) : (passes n l).flatten.Perm l.flatten := by
  induction n generalizing l with
  | zero => exact .refl _
  | succ n ih => exact (ih (pass l)).trans (pass_perm l)

/-- Sort by first component (2^16 elements at most). -/
def msort (l : List (Nat × Nat)) : List (Nat × Nat) := (passes 16 (l.map ([·]))).flatten

theorem msort_perm (l) : (msort l).Perm l := by
  have h : (l.map ([·])).flatten = l := by induction l <;> simp_all
  have := passes_perm 16 (l.map ([·]))
  rw [h] at this
  exact this

def eqb : List (Nat × Nat) → List (Nat × Nat) → Bool
  | [], [] => true
  | a :: l, b :: m => Nat.beq a.1 b.1 && (Nat.beq a.2 b.2 && eqb l m)
  | _, _ => false

theorem eqb_eq : ∀ l m, eqb l m = true → l = m
  | [], [], _ => rfl
  | a :: l, b :: m, h => by
    simp only [eqb, Bool.and_eq_true, Nat.beq_eq] at h
    rw [eqb_eq l m h.2.2, show a = b from Prod.ext h.1 h.2.1]
  | [], _ :: _, h => by simp [eqb] at h
  | _ :: _, [], h => by simp [eqb] at h

def eqKeys : List (Nat × Nat) → List Nat → Bool
  | [], [] => true
  | a :: l, b :: m => Nat.beq a.1 b && eqKeys l m
  | _, _ => false

theorem eqKeys_eq : ∀ l m, eqKeys l m = true → l.map Prod.fst = m
  | [], [], _ => rfl
  | a :: l, b :: m, h => by
    simp only [eqKeys, Bool.and_eq_true, Nat.beq_eq] at h
    rw [List.map_cons, eqKeys_eq l m h.2, h.1]
  | [], _ :: _, h => by simp [eqKeys] at h
  | _ :: _, [], h => by simp [eqKeys] at h

/-- First components strictly increasing, starting above `lo`. -/
def sortedFrom : Nat → List (Nat × Nat) → Bool
  | _, [] => true
  | lo, a :: l => Nat.ble (lo + 1) a.1 && sortedFrom a.1 l

theorem sortedFrom_spec : ∀ lo l, sortedFrom lo l = true →
    (∀ e ∈ l, lo < e.1) ∧ l.Pairwise (fun a b => a.1 < b.1)
  | _, [], _ => ⟨by simp, .nil⟩
  | lo, a :: l, h => by
    simp only [sortedFrom, Bool.and_eq_true, Nat.ble_eq] at h
    obtain ⟨h1, h2⟩ := sortedFrom_spec a.1 l h.2
    refine ⟨?_, List.pairwise_cons.2 ⟨h1, h2⟩⟩
    intro e he
    rcases List.mem_cons.1 he with rfl | he
    · omega
    · have := h1 e he; omega

/-- `f n`, with `n` evaluated first when the kernel computes it. -/
def force {α : Type} (n : Nat) (f : Nat → α) : α := Nat.rec (f 0) (fun m _ => f (Nat.succ m)) n

theorem force_eq {α : Type} (n : Nat) (f : Nat → α) : force n f = f n := by cases n <;> rfl

def lorPass : List Nat → List Nat
  | a :: b :: l => Nat.lor a b :: lorPass l
  | l => l

def lorPasses : Nat → List Nat → List Nat
  | 0, l => l
  | n + 1, l => lorPasses n (lorPass l)

/-- The set of first components as the bits of a number (2^15 elements at most). -/
def bitsOf (l : List (Nat × Nat)) : Nat :=
  ((lorPasses 15 (l.map fun e => Nat.shiftLeft 1 e.1)).head?).getD 0

def hasBit (s n : Nat) : Bool := Nat.beq (Nat.land (Nat.shiftRight s n) 1) 1

theorem hasBit_eq (s n : Nat) : hasBit s n = s.testBit n := by
  unfold hasBit Nat.testBit
  show Nat.beq (s >>> n &&& 1) 1 = (1 &&& s >>> n != 0)
  rw [Nat.and_comm, Nat.one_and_eq_mod_two]
  rcases Nat.mod_two_eq_zero_or_one (s >>> n) with h | h <;> rw [h] <;> rfl

theorem lorPass_bit {n : Nat} : ∀ l, (∃ x ∈ lorPass l, x.testBit n = true) → ∃ x ∈ l, x.testBit n = true
  | [], h => h
  | [_], h => h
  | a :: b :: l, ⟨x, hx, h⟩ => by
    simp only [lorPass, List.mem_cons] at hx
    rcases hx with rfl | hx
    · have h : (a ||| b).testBit n = true := h
      rw [Nat.testBit_or, Bool.or_eq_true] at h
      rcases h with h | h
      · exact ⟨a, by simp, h⟩
      · exact ⟨b, by simp, h⟩
    · obtain ⟨y, hy, hn⟩ := lorPass_bit l ⟨x, hx, h⟩
      exact ⟨y, by simp [hy], hn⟩

theorem lorPasses_bit {n : Nat} (k : Nat) (l : List Nat) (h : ∃ x ∈ lorPasses k l, x.testBit n = true) :
    ∃ x ∈ l, x.testBit n = true := by
  induction k generalizing l with
  | zero => exact h
  | succ k ih => exact lorPass_bit l (ih _ h)

theorem bitsOf_mem {l : List (Nat × Nat)} {n : Nat} (h : hasBit (bitsOf l) n = true) : n ∈ l.map Prod.fst := by
  rw [hasBit_eq] at h
  unfold bitsOf at h
  cases hh : (lorPasses 15 (l.map fun e => Nat.shiftLeft 1 e.1)).head? with
  | none => rw [hh] at h; simp at h
  | some x =>
    rw [hh, Option.getD_some] at h
    obtain ⟨y, hy, hn⟩ := lorPasses_bit 15 _ ⟨x, List.mem_of_mem_head? hh, h⟩
    obtain ⟨e, he, rfl⟩ := List.mem_map.1 hy
    have hn : (1 <<< e.1).testBit n = true := hn
    rw [Nat.one_shiftLeft, Nat.testBit_two_pow] at hn
    exact List.mem_map.2 ⟨e, he, by simpa using hn⟩

theorem perm_of_subset {l m : List Nat} (hl : l.Nodup) (hs : ∀ a ∈ l, a ∈ m) (hm : m.length ≤ l.length) :
    l.Perm m := by
  induction l generalizing m with
  | nil =>
    have : m = [] := List.eq_nil_of_length_eq_zero (by simpa using hm)
    rw [this]
  | cons a l ih =>
    rw [List.nodup_cons] at hl
    have ha := hs a (List.mem_cons_self ..)
    refine (List.Perm.cons a (ih hl.2 (m := m.erase a) ?_ ?_)).trans (List.perm_cons_erase ha).symm
    · intro b hb
      refine (List.mem_erase_of_ne ?_).2 (hs b (List.mem_cons_of_mem _ hb))
      rintro rfl
      exact hl.1 hb
    · rw [List.length_erase_of_mem ha]
      simp only [List.length_cons] at hm
      omega

end KSort
