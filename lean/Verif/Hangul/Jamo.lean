import Verif.Hangul.Const
/- jamo.go -/
namespace Hangul
open Go

/-- jamo.go:8-13 -/
def IsLead (r : Rune) : Bool := LeadG ≤ r && r ≤ LeadH

/-- jamo.go:16-21 -/
def IsMedial (r : Rune) : Bool := MedialA ≤ r && r ≤ MedialI

/-- jamo.go:24-29 -/
def IsTail (r : Rune) : Bool := TailG ≤ r && r ≤ TailH

/-- jamo.go:32-42, the `switch` as a chain of `if`. -/
def IsJaeum (r : Rune) : Bool :=
  if G ≤ r && r ≤ H then true
  else if IsLead r then true
  else if IsTail r then true
  else false

/-- jamo.go:45-53 -/
def IsMoeum (r : Rune) : Bool :=
  if A ≤ r && r ≤ I then true
  else if IsMedial r then true
  else false

/-- jamo.go:55-83. The slices are listed by value here; `Verif.Hangul.Heap` models that they are shared. -/
def multiElements : List (Rune × List Rune) :=
  [(GG, [G, G]), (GS, [G, S]), (NJ, [N, J]), (NH, [N, H]), (DD, [D, D]), (LG, [L, G]),
    (LM, [L, M]), (LB, [L, B]), (LS, [L, S]), (LT, [L, T]), (LP, [L, P]), (LH, [L, H]),
    (BB, [B, B]), (BS, [B, S]), (SS, [S, S]), (JJ, [J, J]), (AE, [A, I]), (E, [EO, I]),
    (YAE, [YA, I]), (YE, [YEO, I]), (WA, [O, A]), (WAE, [O, A, I]), (OE, [O, I]),
    (WEO, [U, EO]), (WE, [U, E]), (WI, [U, I]), (YI, [EU, I])]

/-- jamo.go:92-139.  -/
def toCompatJamo : List (Rune × Rune) :=
  [(LeadG, G), (TailG, G), (LeadGG, GG), (TailGG, GG), (TailGS, GS), (LeadN, N), (TailN, N),
    (TailNJ, NJ), (TailNH, NH), (LeadD, D), (TailD, D), (LeadDD, DD), (LeadR, L), (TailL, L),
    (TailLG, LG), (TailLM, LM), (TailLB, LB), (TailLS, LS), (TailLT, LT), (TailLP, LP),
    (TailLH, LH), (LeadM, M), (TailM, M), (LeadB, B), (TailB, B), (LeadBB, BB), (TailBS, BS),
    (LeadS, S), (TailS, S), (LeadSS, SS), (TailSS, SS), (LeadZS, ZS), (TailNG, ZS),
    (LeadJ, J), (TailJ, J), (LeadJJ, JJ), (LeadC, C), (TailC, C), (LeadK, K), (TailK, K),
    (LeadT, T), (TailT, T), (LeadP, P), (TailP, P), (LeadH, H), (TailH, H)]

/-- jamo.go:142-156. `r - medialBase + A` is wrapping `int32` arithmetic. -/
def CompatJamo (r : Rune) : Rune :=
  if G ≤ r && r ≤ H then r
  else if A ≤ r && r ≤ I then r
  else if MedialA ≤ r && r ≤ MedialI then r - medialBase + A
  else
    match mapGet toCompatJamo r with
    | some c => c
    | none => 0

/-- jamo.go:86-90, for arbitrary contents `tbl` of the package variable `multiElements`.
`(es, true)` is `some es`, `(nil, false)` is `none`. -/
def SplitMultiElementT (tbl : List (Rune × List Rune)) (r : Rune) : Option (List Rune) :=
  mapGet tbl (CompatJamo r)

/-- jamo.go:86-90 with the initial contents of `multiElements`. -/
def SplitMultiElement (r : Rune) : Option (List Rune) := SplitMultiElementT multiElements r

/-- jamo.go:158-178.  -/
def toLead : List (Rune × Rune) :=
  [(G, LeadG), (GG, LeadGG), (N, LeadN), (D, LeadD), (DD, LeadDD), (L, LeadR), (M, LeadM),
    (B, LeadB), (BB, LeadBB), (S, LeadS), (SS, LeadSS), (ZS, LeadZS), (J, LeadJ),
    (JJ, LeadJJ), (C, LeadC), (K, LeadK), (T, LeadT), (P, LeadP), (H, LeadH)]

/-- jamo.go:181-190 -/
def Lead (c : Rune) : Rune :=
  if LeadG ≤ c && c ≤ LeadH then c
  else
    match mapGet toLead c with
    | some l => l
    | none => 0

/-- jamo.go:193-202 -/
def Medial (c : Rune) : Rune :=
  if MedialA ≤ c && c ≤ MedialI then c
  else if A ≤ c && c ≤ I then c - A + medialBase
  else 0

/-- jamo.go:204-232.  -/
def toTail : List (Rune × Rune) :=
  [(G, TailG), (GG, TailGG), (GS, TailGS), (N, TailN), (NJ, TailNJ), (NH, TailNH),
    (D, TailD), (L, TailL), (LG, TailLG), (LM, TailLM), (LB, TailLB), (LS, TailLS),
    (LT, TailLT), (LP, TailLP), (LH, TailLH), (M, TailM), (B, TailB), (BS, TailBS),
    (S, TailS), (SS, TailSS), (ZS, TailNG), (J, TailJ), (C, TailC), (K, TailK), (T, TailT),
    (P, TailP), (H, TailH)]

/-- jamo.go:235-244 -/
def Tail (c : Rune) : Rune :=
  if TailG ≤ c && c ≤ TailH then c
  else
    match mapGet toTail c with
    | some t => t
    | none => 0

/-- jamo.go:246-252. `(i, true)` is `some i`, `(0, false)` is `none`; `int(l)` is `l.toInt`. -/
def leadIdx (l : Rune) : Option Int :=
  let i := l.toInt - leadBase.toInt
  if 0 > i || i > maxLeadIdx then none else some i

/-- jamo.go:254-260 -/
def medialIdx (v : Rune) : Option Int :=
  let i := v.toInt - medialBase.toInt
  if 0 > i || i > maxMedialIdx then none else some i

/-- jamo.go:262-272 -/
def tailIdx (t : Rune) : Option Int :=
  if t = 0 then some 0
  else
    let i := t.toInt - tailBase.toInt
    if 0 > i || i > maxTailIdx then none else some (i + 1)

end Hangul
