import Verif.Go.Basic
/- constant.go. Each constant is written as base + iota, as in the Go `const` blocks. -/
namespace Hangul
open Go

/-- constant.go:6 HANGUL LETTER KIYEOK -/
def G : Rune := 0x3130 + 1
/-- constant.go:7 HANGUL LETTER SSANGKIYEOK -/
def GG : Rune := 0x3130 + 2
/-- constant.go:8 HANGUL LETTER KIYEOK-SIOS -/
def GS : Rune := 0x3130 + 3
/-- constant.go:9 HANGUL LETTER NIEUN -/
def N : Rune := 0x3130 + 4
/-- constant.go:10 HANGUL LETTER NIEUN-CIEUC -/
def NJ : Rune := 0x3130 + 5
/-- constant.go:11 HANGUL LETTER NIEUN-HIEUH -/
def NH : Rune := 0x3130 + 6
/-- constant.go:12 HANGUL LETTER TIKEUT -/
def D : Rune := 0x3130 + 7
/-- constant.go:13 HANGUL LETTER SSANGTIKEUT -/
def DD : Rune := 0x3130 + 8
/-- constant.go:14 HANGUL LETTER RIEUL -/
def L : Rune := 0x3130 + 9
/-- constant.go:15 HANGUL LETTER RIEUL-KIYEOK -/
def LG : Rune := 0x3130 + 10
/-- constant.go:16 HANGUL LETTER RIEUL-MIEUM -/
def LM : Rune := 0x3130 + 11
/-- constant.go:17 HANGUL LETTER RIEUL-PIEUP -/
def LB : Rune := 0x3130 + 12
/-- constant.go:18 HANGUL LETTER RIEUL-SIOS -/
def LS : Rune := 0x3130 + 13
/-- constant.go:19 HANGUL LETTER RIEUL-THIEUTH -/
def LT : Rune := 0x3130 + 14
/-- constant.go:20 HANGUL LETTER RIEUL-PHIEUPH -/
def LP : Rune := 0x3130 + 15
/-- constant.go:21 HANGUL LETTER RIEUL-HIEUH -/
def LH : Rune := 0x3130 + 16
/-- constant.go:22 HANGUL LETTER MIEUM -/
def M : Rune := 0x3130 + 17
/-- constant.go:23 HANGUL LETTER PIEUP -/
def B : Rune := 0x3130 + 18
/-- constant.go:24 HANGUL LETTER SSANGPIEUP -/
def BB : Rune := 0x3130 + 19
/-- constant.go:25 HANGUL LETTER PIEUP-SIOS -/
def BS : Rune := 0x3130 + 20
/-- constant.go:26 HANGUL LETTER SIOS -/
def S : Rune := 0x3130 + 21
/-- constant.go:27 HANGUL LETTER SSANGSIOS -/
def SS : Rune := 0x3130 + 22
/-- constant.go:28 HANGUL LETTER IEUNG (zero sound) -/
def ZS : Rune := 0x3130 + 23
/-- constant.go:29 HANGUL LETTER CIEUC -/
def J : Rune := 0x3130 + 24
/-- constant.go:30 HANGUL LETTER SSANGCIEUC -/
def JJ : Rune := 0x3130 + 25
/-- constant.go:31 HANGUL LETTER CHIEUCH -/
def C : Rune := 0x3130 + 26
/-- constant.go:32 HANGUL LETTER KHIEUKH -/
def K : Rune := 0x3130 + 27
/-- constant.go:33 HANGUL LETTER THIEUTH -/
def T : Rune := 0x3130 + 28
/-- constant.go:34 HANGUL LETTER PHIEUPH -/
def P : Rune := 0x3130 + 29
/-- constant.go:35 HANGUL LETTER HIEUH -/
def H : Rune := 0x3130 + 30
/-- constant.go:36 HANGUL LETTER A -/
def A : Rune := 0x3130 + 31
/-- constant.go:37 HANGUL LETTER AE -/
def AE : Rune := 0x3130 + 32
/-- constant.go:38 HANGUL LETTER YA -/
def YA : Rune := 0x3130 + 33
/-- constant.go:39 HANGUL LETTER YAE -/
def YAE : Rune := 0x3130 + 34
/-- constant.go:40 HANGUL LETTER EO -/
def EO : Rune := 0x3130 + 35
/-- constant.go:41 HANGUL LETTER E -/
def E : Rune := 0x3130 + 36
/-- constant.go:42 HANGUL LETTER YEO -/
def YEO : Rune := 0x3130 + 37
/-- constant.go:43 HANGUL LETTER YE -/
def YE : Rune := 0x3130 + 38
/-- constant.go:44 HANGUL LETTER O -/
def O : Rune := 0x3130 + 39
/-- constant.go:45 HANGUL LETTER WA -/
def WA : Rune := 0x3130 + 40
/-- constant.go:46 HANGUL LETTER WAE -/
def WAE : Rune := 0x3130 + 41
/-- constant.go:47 HANGUL LETTER OE -/
def OE : Rune := 0x3130 + 42
/-- constant.go:48 HANGUL LETTER YO -/
def YO : Rune := 0x3130 + 43
/-- constant.go:49 HANGUL LETTER U -/
def U : Rune := 0x3130 + 44
/-- constant.go:50 HANGUL LETTER WEO -/
def WEO : Rune := 0x3130 + 45
/-- constant.go:51 HANGUL LETTER WE -/
def WE : Rune := 0x3130 + 46
/-- constant.go:52 HANGUL LETTER WI -/
def WI : Rune := 0x3130 + 47
/-- constant.go:53 HANGUL LETTER YU -/
def YU : Rune := 0x3130 + 48
/-- constant.go:54 HANGUL LETTER EU -/
def EU : Rune := 0x3130 + 49
/-- constant.go:55 HANGUL LETTER YI -/
def YI : Rune := 0x3130 + 50
/-- constant.go:56 HANGUL LETTER I -/
def I : Rune := 0x3130 + 51
/-- constant.go:57 -/
def NG : Rune := ZS
/-- constant.go:62 HANGUL CHOSEONG KIYEOK -/
def leadBase : Rune := 0x1100
/-- constant.go:63 HANGUL JUNGSEONG A -/
def medialBase : Rune := 0x1161
/-- constant.go:64 HANGUL JONGSEONG KIYEOK -/
def tailBase : Rune := 0x11A8
/-- constant.go:70 HANGUL CHOSEONG KIYEOK -/
def LeadG : Rune := (leadBase - 1) + 1
/-- constant.go:71 HANGUL CHOSEONG SSANGKIYEOK -/
def LeadGG : Rune := (leadBase - 1) + 2
/-- constant.go:72 HANGUL CHOSEONG NIEUN -/
def LeadN : Rune := (leadBase - 1) + 3
/-- constant.go:73 HANGUL CHOSEONG TIKEUT -/
def LeadD : Rune := (leadBase - 1) + 4
/-- constant.go:74 HANGUL CHOSEONG SSANGTIKEUT -/
def LeadDD : Rune := (leadBase - 1) + 5
/-- constant.go:75 HANGUL CHOSEONG RIEUL -/
def LeadR : Rune := (leadBase - 1) + 6
/-- constant.go:76 HANGUL CHOSEONG MIEUM -/
def LeadM : Rune := (leadBase - 1) + 7
/-- constant.go:77 HANGUL CHOSEONG PIEUP -/
def LeadB : Rune := (leadBase - 1) + 8
/-- constant.go:78 HANGUL CHOSEONG SSANGPIEUP -/
def LeadBB : Rune := (leadBase - 1) + 9
/-- constant.go:79 HANGUL CHOSEONG SIOS -/
def LeadS : Rune := (leadBase - 1) + 10
/-- constant.go:80 HANGUL CHOSEONG SSANGSIOS -/
def LeadSS : Rune := (leadBase - 1) + 11
/-- constant.go:81 HANGUL CHOSEONG IEUNG (zero sound) -/
def LeadZS : Rune := (leadBase - 1) + 12
/-- constant.go:82 HANGUL CHOSEONG CIEUC -/
def LeadJ : Rune := (leadBase - 1) + 13
/-- constant.go:83 HANGUL CHOSEONG SSANGCIEUC -/
def LeadJJ : Rune := (leadBase - 1) + 14
/-- constant.go:84 HANGUL CHOSEONG CHIEUCH -/
def LeadC : Rune := (leadBase - 1) + 15
/-- constant.go:85 HANGUL CHOSEONG KHIEUKH -/
def LeadK : Rune := (leadBase - 1) + 16
/-- constant.go:86 HANGUL CHOSEONG THIEUTH -/
def LeadT : Rune := (leadBase - 1) + 17
/-- constant.go:87 HANGUL CHOSEONG PHIEUPH -/
def LeadP : Rune := (leadBase - 1) + 18
/-- constant.go:88 HANGUL CHOSEONG HIEUH -/
def LeadH : Rune := (leadBase - 1) + 19
/-- constant.go:90; an untyped constant, used as an `int`. -/
def maxLeadIdx : Int := LeadH.toInt - LeadG.toInt
/-- constant.go:95 HANGUL JUNGSEONG A -/
def MedialA : Rune := (medialBase - 1) + 1
/-- constant.go:96 HANGUL JUNGSEONG AE -/
def MedialAE : Rune := (medialBase - 1) + 2
/-- constant.go:97 HANGUL JUNGSEONG YA -/
def MedialYA : Rune := (medialBase - 1) + 3
/-- constant.go:98 HANGUL JUNGSEONG YAE -/
def MedialYAE : Rune := (medialBase - 1) + 4
/-- constant.go:99 HANGUL JUNGSEONG EO -/
def MedialEO : Rune := (medialBase - 1) + 5
/-- constant.go:100 HANGUL JUNGSEONG E -/
def MedialE : Rune := (medialBase - 1) + 6
/-- constant.go:101 HANGUL JUNGSEONG YEO -/
def MedialYEO : Rune := (medialBase - 1) + 7
/-- constant.go:102 HANGUL JUNGSEONG YE -/
def MedialYE : Rune := (medialBase - 1) + 8
/-- constant.go:103 HANGUL JUNGSEONG O -/
def MedialO : Rune := (medialBase - 1) + 9
/-- constant.go:104 HANGUL JUNGSEONG WA -/
def MedialWA : Rune := (medialBase - 1) + 10
/-- constant.go:105 HANGUL JUNGSEONG WAE -/
def MedialWAE : Rune := (medialBase - 1) + 11
/-- constant.go:106 HANGUL JUNGSEONG OE -/
def MedialOE : Rune := (medialBase - 1) + 12
/-- constant.go:107 HANGUL JUNGSEONG YO -/
def MedialYO : Rune := (medialBase - 1) + 13
/-- constant.go:108 HANGUL JUNGSEONG U -/
def MedialU : Rune := (medialBase - 1) + 14
/-- constant.go:109 HANGUL JUNGSEONG WEO -/
def MedialWEO : Rune := (medialBase - 1) + 15
/-- constant.go:110 HANGUL JUNGSEONG WE -/
def MedialWE : Rune := (medialBase - 1) + 16
/-- constant.go:111 HANGUL JUNGSEONG WI -/
def MedialWI : Rune := (medialBase - 1) + 17
/-- constant.go:112 HANGUL JUNGSEONG YU -/
def MedialYU : Rune := (medialBase - 1) + 18
/-- constant.go:113 HANGUL JUNGSEONG EU -/
def MedialEU : Rune := (medialBase - 1) + 19
/-- constant.go:114 HANGUL JUNGSEONG YI -/
def MedialYI : Rune := (medialBase - 1) + 20
/-- constant.go:115 HANGUL JUNGSEONG I -/
def MedialI : Rune := (medialBase - 1) + 21
/-- constant.go:117; an untyped constant, used as an `int`. -/
def maxMedialIdx : Int := MedialI.toInt - MedialA.toInt
/-- constant.go:122 HANGUL JONGSEONG KIYEOK -/
def TailG : Rune := (tailBase - 1) + 1
/-- constant.go:123 HANGUL JONGSEONG SSANGKIYEOK -/
def TailGG : Rune := (tailBase - 1) + 2
/-- constant.go:124 HANGUL JONGSEONG KIYEOK-SIOS -/
def TailGS : Rune := (tailBase - 1) + 3
/-- constant.go:125 HANGUL JONGSEONG NIEUN -/
def TailN : Rune := (tailBase - 1) + 4
/-- constant.go:126 HANGUL JONGSEONG NIEUN-CIEUC -/
def TailNJ : Rune := (tailBase - 1) + 5
/-- constant.go:127 HANGUL JONGSEONG NIEUN-HIEUH -/
def TailNH : Rune := (tailBase - 1) + 6
/-- constant.go:128 HANGUL JONGSEONG TIKEUT -/
def TailD : Rune := (tailBase - 1) + 7
/-- constant.go:129 HANGUL JONGSEONG RIEUL -/
def TailL : Rune := (tailBase - 1) + 8
/-- constant.go:130 HANGUL JONGSEONG RIEUL-KIYEOK -/
def TailLG : Rune := (tailBase - 1) + 9
/-- constant.go:131 HANGUL JONGSEONG RIEUL-MIEUM -/
def TailLM : Rune := (tailBase - 1) + 10
/-- constant.go:132 HANGUL JONGSEONG RIEUL-PIEUP -/
def TailLB : Rune := (tailBase - 1) + 11
/-- constant.go:133 HANGUL JONGSEONG RIEUL-SIOS -/
def TailLS : Rune := (tailBase - 1) + 12
/-- constant.go:134 HANGUL JONGSEONG RIEUL-THIEUTH -/
def TailLT : Rune := (tailBase - 1) + 13
/-- constant.go:135 HANGUL JONGSEONG RIEUL-PHIEUPH -/
def TailLP : Rune := (tailBase - 1) + 14
/-- constant.go:136 HANGUL JONGSEONG RIEUL-HIEUH -/
def TailLH : Rune := (tailBase - 1) + 15
/-- constant.go:137 HANGUL JONGSEONG MIEUM -/
def TailM : Rune := (tailBase - 1) + 16
/-- constant.go:138 HANGUL JONGSEONG PIEUP -/
def TailB : Rune := (tailBase - 1) + 17
/-- constant.go:139 HANGUL JONGSEONG PIEUP-SIOS -/
def TailBS : Rune := (tailBase - 1) + 18
/-- constant.go:140 HANGUL JONGSEONG SIOS -/
def TailS : Rune := (tailBase - 1) + 19
/-- constant.go:141 HANGUL JONGSEONG SSANGSIOS -/
def TailSS : Rune := (tailBase - 1) + 20
/-- constant.go:142 HANGUL JONGSEONG IEUNG -/
def TailNG : Rune := (tailBase - 1) + 21
/-- constant.go:143 HANGUL JONGSEONG CIEUC -/
def TailJ : Rune := (tailBase - 1) + 22
/-- constant.go:144 HANGUL JONGSEONG CHIEUCH -/
def TailC : Rune := (tailBase - 1) + 23
/-- constant.go:145 HANGUL JONGSEONG KHIEUKH -/
def TailK : Rune := (tailBase - 1) + 24
/-- constant.go:146 HANGUL JONGSEONG THIEUTH -/
def TailT : Rune := (tailBase - 1) + 25
/-- constant.go:147 HANGUL JONGSEONG PHIEUPH -/
def TailP : Rune := (tailBase - 1) + 26
/-- constant.go:148 HANGUL JONGSEONG HIEUH -/
def TailH : Rune := (tailBase - 1) + 27
/-- constant.go:150; an untyped constant, used as an `int`. -/
def maxTailIdx : Int := TailH.toInt - TailG.toInt

end Hangul
