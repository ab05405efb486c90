import Verif.Hangul.Const
/-! The exported constants with the character names their comments give; generated by `tools/gen_unicode.py`. -/
namespace Hangul
open Go

/-- constant.go:6-56, the constants with a comment `HANGUL LETTER`. -/
def namesLetter : List (Rune × String) :=
  [(G, "KIYEOK"), (GG, "SSANGKIYEOK"), (GS, "KIYEOK-SIOS"), (N, "NIEUN"), (NJ, "NIEUN-CIEUC"), (NH, "NIEUN-HIEUH"),
   (D, "TIKEUT"), (DD, "SSANGTIKEUT"), (L, "RIEUL"), (LG, "RIEUL-KIYEOK"), (LM, "RIEUL-MIEUM"), (LB, "RIEUL-PIEUP"),
   (LS, "RIEUL-SIOS"), (LT, "RIEUL-THIEUTH"), (LP, "RIEUL-PHIEUPH"), (LH, "RIEUL-HIEUH"), (M, "MIEUM"), (B, "PIEUP"),
   (BB, "SSANGPIEUP"), (BS, "PIEUP-SIOS"), (S, "SIOS"), (SS, "SSANGSIOS"), (ZS, "IEUNG"), (J, "CIEUC"),
   (JJ, "SSANGCIEUC"), (C, "CHIEUCH"), (K, "KHIEUKH"), (T, "THIEUTH"), (P, "PHIEUPH"), (H, "HIEUH"),
   (A, "A"), (AE, "AE"), (YA, "YA"), (YAE, "YAE"), (EO, "EO"), (E, "E"),
   (YEO, "YEO"), (YE, "YE"), (O, "O"), (WA, "WA"), (WAE, "WAE"), (OE, "OE"),
   (YO, "YO"), (U, "U"), (WEO, "WEO"), (WE, "WE"), (WI, "WI"), (YU, "YU"),
   (EU, "EU"), (YI, "YI"), (I, "I")]

/-- constant.go:70-88, the constants with a comment `HANGUL CHOSEONG`. -/
def namesChoseong : List (Rune × String) :=
  [(LeadG, "KIYEOK"), (LeadGG, "SSANGKIYEOK"), (LeadN, "NIEUN"), (LeadD, "TIKEUT"), (LeadDD, "SSANGTIKEUT"), (LeadR, "RIEUL"),
   (LeadM, "MIEUM"), (LeadB, "PIEUP"), (LeadBB, "SSANGPIEUP"), (LeadS, "SIOS"), (LeadSS, "SSANGSIOS"), (LeadZS, "IEUNG"),
   (LeadJ, "CIEUC"), (LeadJJ, "SSANGCIEUC"), (LeadC, "CHIEUCH"), (LeadK, "KHIEUKH"), (LeadT, "THIEUTH"), (LeadP, "PHIEUPH"),
   (LeadH, "HIEUH")]

/-- constant.go:95-115, the constants with a comment `HANGUL JUNGSEONG`. -/
def namesJungseong : List (Rune × String) :=
  [(MedialA, "A"), (MedialAE, "AE"), (MedialYA, "YA"), (MedialYAE, "YAE"), (MedialEO, "EO"), (MedialE, "E"),
   (MedialYEO, "YEO"), (MedialYE, "YE"), (MedialO, "O"), (MedialWA, "WA"), (MedialWAE, "WAE"), (MedialOE, "OE"),
   (MedialYO, "YO"), (MedialU, "U"), (MedialWEO, "WEO"), (MedialWE, "WE"), (MedialWI, "WI"), (MedialYU, "YU"),
   (MedialEU, "EU"), (MedialYI, "YI"), (MedialI, "I")]

/-- constant.go:122-148, the constants with a comment `HANGUL JONGSEONG`. -/
def namesJongseong : List (Rune × String) :=
  [(TailG, "KIYEOK"), (TailGG, "SSANGKIYEOK"), (TailGS, "KIYEOK-SIOS"), (TailN, "NIEUN"), (TailNJ, "NIEUN-CIEUC"), (TailNH, "NIEUN-HIEUH"),
   (TailD, "TIKEUT"), (TailL, "RIEUL"), (TailLG, "RIEUL-KIYEOK"), (TailLM, "RIEUL-MIEUM"), (TailLB, "RIEUL-PIEUP"), (TailLS, "RIEUL-SIOS"),
   (TailLT, "RIEUL-THIEUTH"), (TailLP, "RIEUL-PHIEUPH"), (TailLH, "RIEUL-HIEUH"), (TailM, "MIEUM"), (TailB, "PIEUP"), (TailBS, "PIEUP-SIOS"),
   (TailS, "SIOS"), (TailSS, "SSANGSIOS"), (TailNG, "IEUNG"), (TailJ, "CIEUC"), (TailC, "CHIEUCH"), (TailK, "KHIEUKH"),
   (TailT, "THIEUTH"), (TailP, "PHIEUPH"), (TailH, "HIEUH")]

end Hangul
