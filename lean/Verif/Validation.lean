import Verif.Hangul.Stroke
import Verif.Hangul.Hangul
import Verif.Hanja.Hanja
import Verif.Env.Transform
/-!
The unit tests of the repository, run on the model. They prove nothing about all inputs; they check that the model
computes what the authors saw the code compute. Those that search a large table are run by the interpreter (`#guard`). Generated by tools/gen_validation.py from the test files.
-/
namespace Validation
open Go

section Hangul
open Hangul

/- hangul_test.go:10 -/
example : leadIdx (Lead T) = some 16 := by decide +kernel
/- hangul_test.go:18 -/
example : Stroke 49464 = 5 := by decide +kernel
/- hangul_test.go:18 -/
example : Stroke 49345 = 5 := by decide +kernel
/- hangul_test.go:18 -/
example : Stroke 50500 = 3 := by decide +kernel
/- hangul_test.go:18 -/
example : Stroke 32 = 0 := by decide +kernel
/- hangul_test.go:18 -/
example : Stroke 50504 = 4 := by decide +kernel
/- hangul_test.go:18 -/
example : Stroke 45397 = 5 := by decide +kernel
/- hangul_test.go:25 -/
example : Stroke JJ = 6 := by decide +kernel
/- hangul_test.go:28 -/
example : Stroke YAE = 4 := by decide +kernel
/- hangul_test.go:31 -/
example : Stroke WAE = 5 := by decide +kernel
/- hangul_test.go:37 -/
example : Join LeadS MedialEO 0 = 0xC11C := by decide +kernel
/- hangul_test.go:40 -/
example : Join LeadZS MedialU TailL = 0xC6B8 := by decide +kernel
/- hangul_test.go:43 -/
example : Join LeadP MedialYEO TailNG = 0xD3C9 := by decide +kernel
/- hangul_test.go:46 -/
example : Join LeadZS MedialYA TailNG = 0xC591 := by decide +kernel
/- hangul_test.go:66 -/
example : SplitCompat 51088 = (J, A, 0) := by decide +kernel
/- hangul_test.go:66 -/
example : SplitCompat 47784 = (M, O, 0) := by decide +kernel
/- hangul_test.go:66 -/
example : SplitCompat 54620 = (H, A, N) := by decide +kernel
/- hangul_test.go:66 -/
example : SplitCompat 44544 = (G, EU, L) := by decide +kernel
/- hangul_test.go:66 -/
example : SplitCompat 50504 = (ZS, A, N) := by decide +kernel
/- hangul_test.go:66 -/
example : SplitCompat 45397 = (N, YEO, NG) := by decide +kernel
/- hangul_test.go:86 -/
example : SplitMultiElement GG = some [G, G] := by decide +kernel
/- hangul_test.go:97 -/
example : SplitMultiElement G = none := by decide +kernel
/- hangul_test.go:103 -/
example : CompatJamo LeadG = G := by decide +kernel
/- hangul_test.go:107 -/
example : CompatJamo TailH = H := by decide +kernel
/- hangul_test.go:111 -/
example : CompatJamo MedialA = A := by decide +kernel
/- hangul_test.go:115 -/
example : CompatJamo MedialI = I := by decide +kernel
/- hangul_test.go:122 -/
example : H = 0x314E := by decide +kernel
/- hangul_test.go:127 -/
example : I = 0x3163 := by decide +kernel
/- hangul_test.go:132 -/
example : LeadH = 0x1112 := by decide +kernel
/- hangul_test.go:137 -/
example : MedialI = 0x1175 := by decide +kernel
/- hangul_test.go:142 -/
example : TailH = 0x11C2 := by decide +kernel
/- hangul_test.go:153 -/
example : EndsWithConsonant [] = false := by decide +kernel
/- hangul_test.go:154 -/
example : EndsWithConsonant [234, 176, 149] = true := by decide +kernel
/- hangul_test.go:155 -/
example : EndsWithConsonant [234, 183, 184, 235, 130, 160, 235, 167, 145] = true := by decide +kernel
/- hangul_test.go:156 -/
example : EndsWithConsonant [236, 157, 180] = false := by decide +kernel
/- hangul_test.go:157 -/
example : EndsWithConsonant [235, 172, 188, 234, 179, 160, 234, 184, 176] = false := by decide +kernel
/- hangul_test.go:171 -/
example : LastConsonant [] = 0 := by decide +kernel
/- hangul_test.go:172 -/
example : LastConsonant [234, 176, 149] = TailNG := by decide +kernel
/- hangul_test.go:173 -/
example : LastConsonant [234, 183, 184, 235, 130, 160, 235, 167, 145] = TailLG := by decide +kernel
/- hangul_test.go:174 -/
example : LastConsonant [236, 157, 180] = 0 := by decide +kernel
/- hangul_test.go:175 -/
example : LastConsonant [235, 172, 188, 234, 179, 160, 234, 184, 176] = 0 := by decide +kernel
/- hangul_test.go:191 -/
example : AppendPostposition [] [] [] = [] := by decide +kernel
/- hangul_test.go:192 -/
example : AppendPostposition [] [236, 157, 180] [234, 176, 128] = [234, 176, 128] := by decide +kernel
/- hangul_test.go:193 -/
example : AppendPostposition [236, 185, 184] [236, 157, 128] [235, 138, 148] = [236, 185, 184, 236, 157, 128] := by decide +kernel
/- hangul_test.go:194 -/
example : AppendPostposition [234, 183, 184] [236, 157, 128] [235, 138, 148] = [234, 183, 184, 235, 138, 148] := by decide +kernel
/- hangul_test.go:195 -/
example : AppendPostposition [234, 183, 184, 235, 130, 160, 235, 167, 145] [236, 157, 180] [234, 176, 128] = [234, 183, 184, 235, 130, 160, 235, 167, 145, 236, 157, 180] := by decide +kernel
/- hangul_test.go:196 -/
example : AppendPostposition [236, 138, 164, 235, 172, 180, 235, 148, 148] [236, 157, 132] [235, 165, 188] = [236, 138, 164, 235, 172, 180, 235, 148, 148, 235, 165, 188] := by decide +kernel
/- hangul_test.go:197 -/
example : AppendPostposition [236, 152, 129, 236, 178, 160] [236, 157, 180, 235, 158, 145] [235, 158, 145] = [236, 152, 129, 236, 178, 160, 236, 157, 180, 235, 158, 145] := by decide +kernel
/- hangul_test.go:198 -/
example : AppendPostposition [236, 136, 156, 237, 157, 172] [236, 157, 180, 235, 158, 145] [235, 158, 145] = [236, 136, 156, 237, 157, 172, 235, 158, 145] := by decide +kernel
/- hangul_test.go:199 -/
example : AppendPostposition [235, 167, 136, 236, 157, 132] [236, 156, 188, 235, 161, 156] [235, 161, 156] = [235, 167, 136, 236, 157, 132, 235, 161, 156] := by decide +kernel
/- example_test.go:10 -/
example : AppendPostposition [234, 176, 149] [236, 157, 180] [234, 176, 128] = [234, 176, 149, 236, 157, 180] := by decide +kernel
/- example_test.go:11 -/
example : AppendPostposition [235, 172, 188, 234, 179, 160, 234, 184, 176] [236, 157, 128] [235, 138, 148] = [235, 172, 188, 234, 179, 160, 234, 184, 176, 235, 138, 148] := by decide +kernel
/- example_test.go:12 -/
example : AppendPostposition [236, 152, 129, 236, 178, 160] [236, 157, 180, 235, 158, 145] [235, 158, 145] = [236, 152, 129, 236, 178, 160, 236, 157, 180, 235, 158, 145] := by decide +kernel
/- example_test.go:13 -/
example : AppendPostposition [236, 136, 156, 237, 157, 172] [236, 157, 180, 235, 158, 145] [235, 158, 145] = [236, 136, 156, 237, 157, 172, 235, 158, 145] := by decide +kernel
/- example_test.go:14 -/
example : AppendPostposition [235, 167, 136, 236, 157, 132] [236, 156, 188, 235, 161, 156] [235, 161, 156] = [235, 167, 136, 236, 157, 132, 235, 161, 156] := by decide +kernel
/- example_test.go:24 -/
example : LastConsonant [234, 176, 149] = 4540 := by decide +kernel
/- example_test.go:25 -/
example : LastConsonant [235, 172, 188, 234, 179, 160, 234, 184, 176] = 0 := by decide +kernel

end Hangul

section Hanja
open Hanja

/- hanja/hanja_test.go:15 -/
#guard Convert [229, 164, 167, 233, 159, 147, 230, 176, 145, 229, 156, 139, 236, 157, 128, 32, 230, 176, 145, 228, 184, 187, 229, 133, 177, 229, 146, 140, 229, 156, 139, 236, 157, 180, 235, 139, 164, 46] = [235, 140, 128, 237, 149, 156, 235, 175, 188, 234, 181, 173, 236, 157, 128, 32, 235, 175, 188, 236, 163, 188, 234, 179, 181, 237, 153, 148, 234, 181, 173, 236, 157, 180, 235, 139, 164, 46]

end Hanja

section Cp949
open Cp949

/- encoding/cp949/cp949_test.go:24 -/
#guard From [190, 198, 184, 167, 180, 217, 191, 238, 32, 191, 236, 184, 174, 184, 187] = ([236, 149, 132, 235, 166, 132, 235, 139, 164, 236, 154, 180, 32, 236, 154, 176, 235, 166, 172, 235, 167, 144], none)
/- encoding/cp949/cp949_test.go:24 -/
#guard To [236, 149, 132, 235, 166, 132, 235, 139, 164, 236, 154, 180, 32, 236, 154, 176, 235, 166, 172, 235, 167, 144] = ([190, 198, 184, 167, 180, 217, 191, 238, 32, 191, 236, 184, 174, 184, 187], none)
/- encoding/cp949/cp949_test.go:28 -/
#guard From [140, 99, 185, 230, 176, 162, 199, 207] = ([235, 152, 160, 235, 176, 169, 234, 176, 129, 237, 149, 152], none)
/- encoding/cp949/cp949_test.go:28 -/
#guard To [235, 152, 160, 235, 176, 169, 234, 176, 129, 237, 149, 152] = ([140, 99, 185, 230, 176, 162, 199, 207], none)
/- encoding/cp949/cp949_test.go:32 -/
#guard From [198, 233, 189, 195, 196, 221, 182, 243] = ([237, 142, 169, 236, 139, 156, 236, 189, 156, 235, 157, 188], none)
/- encoding/cp949/cp949_test.go:32 -/
#guard To [237, 142, 169, 236, 139, 156, 236, 189, 156, 235, 157, 188] = ([198, 233, 189, 195, 196, 221, 182, 243], none)
/- encoding/cp949/cp949_test.go:36 -/
#guard From [168, 192, 168, 192, 179, 179, 33, 33, 32, 236, 215, 206, 250, 234, 197, 198, 208, 146, 230, 144, 112, 177, 197, 32, 168, 222, 168, 211, 196, 82, 162, 175, 162, 175, 162, 175, 32, 177, 224, 138, 150, 32, 168, 209, 181, 179, 32, 168, 192, 46, 32, 46, 10, 228, 172, 191, 181, 168, 209, 180, 201, 200, 194, 32, 46, 32, 46, 32, 46, 32, 46, 32, 188, 173, 191, 239, 183, 239, 32, 181, 175, 199, 208, 235, 224, 32, 202, 171, 196, 82, 32, 33, 32, 33, 32, 33, 164, 208, 46, 164, 208, 10, 200, 229, 200, 229, 200, 229, 32, 164, 161, 164, 161, 164, 161, 161, 217, 164, 208, 95, 164, 208, 32, 190, 238, 144, 138, 32, 197, 203, 196, 226, 131, 79, 32, 181, 174, 192, 192, 32, 175, 104, 206, 250, 181, 233, 235, 224, 32, 168, 192, 181, 229, 131, 79, 10, 188, 179, 144, 106, 32, 202, 171, 196, 82, 32, 46, 32, 46, 32, 46, 32, 46, 32, 177, 188, 190, 214, 154, 102, 32, 168, 209, 177, 197, 32, 168, 222, 144, 116, 168, 194, 131, 79, 32, 236, 215, 236, 210, 244, 185, 229, 252, 241, 233, 177, 238, 163, 142, 10, 191, 205, 190, 172, 196, 82, 32, 33, 32, 33, 32, 228, 172, 191, 181, 168, 209, 32, 202, 171, 180, 201, 177, 197, 32, 161, 217, 223, 190, 176, 252, 32, 190, 248, 180, 201, 177, 197, 180, 201, 32, 228, 172, 180, 201, 181, 216, 196, 82, 32, 177, 219, 190, 214, 138, 219, 10, 168, 222, 183, 193, 181, 224, 206, 250, 32, 154, 195, 199, 180, 189, 164, 196, 82, 32, 190, 238, 144, 138, 32, 236, 215, 236, 210, 244, 185, 229, 252, 241, 233, 154, 196, 168, 239, 181, 233, 157, 218, 33, 33, 32, 168, 192, 168, 192, 179, 179, 162, 189, 32, 161, 210, 161, 210, 42] = ([227, 137, 175, 227, 137, 175, 235, 130, 169, 33, 33, 32, 229, 155, 160, 228, 185, 157, 230, 156, 136, 237, 140, 168, 235, 175, 164, 235, 166, 148, 234, 182, 136, 32, 226, 147, 161, 226, 147, 150, 237, 155, 128, 194, 191, 194, 191, 194, 191, 32, 234, 184, 141, 235, 146, 153, 32, 226, 147, 148, 235, 142, 168, 32, 227, 137, 175, 46, 32, 46, 10, 228, 186, 158, 236, 152, 129, 226, 147, 148, 235, 138, 165, 237, 154, 185, 32, 46, 32, 46, 32, 46, 32, 46, 32, 236, 132, 156, 236, 154, 184, 235, 164, 132, 32, 235, 142, 144, 237, 149, 153, 228, 185, 153, 32, 229, 174, 182, 237, 155, 128, 32, 33, 32, 33, 32, 33, 227, 133, 160, 46, 227, 133, 160, 10, 237, 157, 144, 237, 157, 144, 237, 157, 144, 32, 227, 132, 177, 227, 132, 177, 227, 132, 177, 226, 152, 134, 227, 133, 160, 95, 227, 133, 160, 32, 236, 150, 180, 235, 166, 168, 32, 237, 131, 184, 236, 189, 176, 234, 184, 144, 32, 235, 142, 140, 236, 157, 145, 32, 236, 185, 145, 228, 185, 157, 235, 147, 164, 228, 185, 153, 32, 227, 137, 175, 235, 147, 156, 234, 184, 144, 10, 236, 132, 164, 235, 166, 140, 32, 229, 174, 182, 237, 155, 128, 32, 46, 32, 46, 32, 46, 32, 46, 32, 234, 181, 180, 236, 149, 160, 236, 137, 140, 32, 226, 147, 148, 234, 182, 136, 32, 226, 147, 161, 235, 166, 152, 227, 137, 177, 234, 184, 144, 32, 229, 155, 160, 228, 187, 129, 229, 183, 157, 239, 166, 129, 228, 184, 173, 234, 185, 140, 236, 166, 188, 10, 236, 153, 128, 236, 146, 128, 237, 155, 128, 32, 33, 32, 33, 32, 228, 186, 158, 236, 152, 129, 226, 147, 148, 32, 229, 174, 182, 235, 138, 165, 234, 182, 136, 32, 226, 152, 134, 228, 184, 138, 234, 180, 128, 32, 236, 151, 134, 235, 138, 165, 234, 182, 136, 235, 138, 165, 32, 228, 186, 158, 235, 138, 165, 235, 146, 136, 237, 155, 128, 32, 234, 184, 128, 236, 149, 160, 235, 147, 180, 10, 226, 147, 161, 235, 160, 164, 235, 147, 128, 228, 185, 157, 32, 236, 139, 128, 237, 146, 148, 236, 136, 180, 237, 155, 128, 32, 236, 150, 180, 235, 166, 168, 32, 229, 155, 160, 228, 187, 129, 229, 183, 157, 239, 166, 129, 228, 184, 173, 236, 139, 129, 226, 145, 168, 235, 147, 164, 236, 149, 156, 33, 33, 32, 227, 137, 175, 227, 137, 175, 235, 130, 169, 226, 153, 161, 32, 226, 140, 146, 226, 140, 146, 42], none)
/- encoding/cp949/cp949_test.go:36 -/
#guard To [227, 137, 175, 227, 137, 175, 235, 130, 169, 33, 33, 32, 229, 155, 160, 228, 185, 157, 230, 156, 136, 237, 140, 168, 235, 175, 164, 235, 166, 148, 234, 182, 136, 32, 226, 147, 161, 226, 147, 150, 237, 155, 128, 194, 191, 194, 191, 194, 191, 32, 234, 184, 141, 235, 146, 153, 32, 226, 147, 148, 235, 142, 168, 32, 227, 137, 175, 46, 32, 46, 10, 228, 186, 158, 236, 152, 129, 226, 147, 148, 235, 138, 165, 237, 154, 185, 32, 46, 32, 46, 32, 46, 32, 46, 32, 236, 132, 156, 236, 154, 184, 235, 164, 132, 32, 235, 142, 144, 237, 149, 153, 228, 185, 153, 32, 229, 174, 182, 237, 155, 128, 32, 33, 32, 33, 32, 33, 227, 133, 160, 46, 227, 133, 160, 10, 237, 157, 144, 237, 157, 144, 237, 157, 144, 32, 227, 132, 177, 227, 132, 177, 227, 132, 177, 226, 152, 134, 227, 133, 160, 95, 227, 133, 160, 32, 236, 150, 180, 235, 166, 168, 32, 237, 131, 184, 236, 189, 176, 234, 184, 144, 32, 235, 142, 140, 236, 157, 145, 32, 236, 185, 145, 228, 185, 157, 235, 147, 164, 228, 185, 153, 32, 227, 137, 175, 235, 147, 156, 234, 184, 144, 10, 236, 132, 164, 235, 166, 140, 32, 229, 174, 182, 237, 155, 128, 32, 46, 32, 46, 32, 46, 32, 46, 32, 234, 181, 180, 236, 149, 160, 236, 137, 140, 32, 226, 147, 148, 234, 182, 136, 32, 226, 147, 161, 235, 166, 152, 227, 137, 177, 234, 184, 144, 32, 229, 155, 160, 228, 187, 129, 229, 183, 157, 239, 166, 129, 228, 184, 173, 234, 185, 140, 236, 166, 188, 10, 236, 153, 128, 236, 146, 128, 237, 155, 128, 32, 33, 32, 33, 32, 228, 186, 158, 236, 152, 129, 226, 147, 148, 32, 229, 174, 182, 235, 138, 165, 234, 182, 136, 32, 226, 152, 134, 228, 184, 138, 234, 180, 128, 32, 236, 151, 134, 235, 138, 165, 234, 182, 136, 235, 138, 165, 32, 228, 186, 158, 235, 138, 165, 235, 146, 136, 237, 155, 128, 32, 234, 184, 128, 236, 149, 160, 235, 147, 180, 10, 226, 147, 161, 235, 160, 164, 235, 147, 128, 228, 185, 157, 32, 236, 139, 128, 237, 146, 148, 236, 136, 180, 237, 155, 128, 32, 236, 150, 180, 235, 166, 168, 32, 229, 155, 160, 228, 187, 129, 229, 183, 157, 239, 166, 129, 228, 184, 173, 236, 139, 129, 226, 145, 168, 235, 147, 164, 236, 149, 156, 33, 33, 32, 227, 137, 175, 227, 137, 175, 235, 130, 169, 226, 153, 161, 32, 226, 140, 146, 226, 140, 146, 42] = ([168, 192, 168, 192, 179, 179, 33, 33, 32, 236, 215, 206, 250, 234, 197, 198, 208, 146, 230, 144, 112, 177, 197, 32, 168, 222, 168, 211, 196, 82, 162, 175, 162, 175, 162, 175, 32, 177, 224, 138, 150, 32, 168, 209, 181, 179, 32, 168, 192, 46, 32, 46, 10, 228, 172, 191, 181, 168, 209, 180, 201, 200, 194, 32, 46, 32, 46, 32, 46, 32, 46, 32, 188, 173, 191, 239, 183, 239, 32, 181, 175, 199, 208, 235, 224, 32, 202, 171, 196, 82, 32, 33, 32, 33, 32, 33, 164, 208, 46, 164, 208, 10, 200, 229, 200, 229, 200, 229, 32, 164, 161, 164, 161, 164, 161, 161, 217, 164, 208, 95, 164, 208, 32, 190, 238, 144, 138, 32, 197, 203, 196, 226, 131, 79, 32, 181, 174, 192, 192, 32, 175, 104, 206, 250, 181, 233, 235, 224, 32, 168, 192, 181, 229, 131, 79, 10, 188, 179, 144, 106, 32, 202, 171, 196, 82, 32, 46, 32, 46, 32, 46, 32, 46, 32, 177, 188, 190, 214, 154, 102, 32, 168, 209, 177, 197, 32, 168, 222, 144, 116, 168, 194, 131, 79, 32, 236, 215, 236, 210, 244, 185, 229, 252, 241, 233, 177, 238, 163, 142, 10, 191, 205, 190, 172, 196, 82, 32, 33, 32, 33, 32, 228, 172, 191, 181, 168, 209, 32, 202, 171, 180, 201, 177, 197, 32, 161, 217, 223, 190, 176, 252, 32, 190, 248, 180, 201, 177, 197, 180, 201, 32, 228, 172, 180, 201, 181, 216, 196, 82, 32, 177, 219, 190, 214, 138, 219, 10, 168, 222, 183, 193, 181, 224, 206, 250, 32, 154, 195, 199, 180, 189, 164, 196, 82, 32, 190, 238, 144, 138, 32, 236, 215, 236, 210, 244, 185, 229, 252, 241, 233, 154, 196, 168, 239, 181, 233, 157, 218, 33, 33, 32, 168, 192, 168, 192, 179, 179, 162, 189, 32, 161, 210, 161, 210, 42], none)
/- encoding/cp949/cp949_test.go:76 -/
#guard From [168] = ([], some .unexpectedStream)

/-- A `bytes.Buffer` as a source. -/
def buffer : Source Str := fun s k => if s = [] then ([], some .eof, []) else (s.take k, none, s.drop k)

/-- A `bytes.Buffer` as a sink. -/
def append : Sink Str := fun s bs => (bs.length, none, s ++ bs)

/-- `io.ReadAll` on the x/text Reader, with buffers of 512 bytes. -/
def readAll : (fuel : Nat) → XText.Reader Str → Str → Option (Str × Option Err)
  | 0, _, _ => none
  | fuel + 1, r, got =>
    match r.read decoderTransform buffer 100 (List.replicate 512 0) with
    | .ret (n, err, p, r) =>
      match err with
      | none => readAll fuel r (got ++ p.take n)
      | some .eof => some (got ++ p.take n, none)
      | some e => some (got ++ p.take n, some e)
    | _ => none

/-- One `Write` on the x/text Writer: what the sink has got, and the results. -/
def writeOnce (s : Str) : Option (Str × Nat × Option Err) :=
  match (XText.NewWriter ([] : Str)).write encoderTransform append 100 s with
  | .ret (n, err, w) => some (w.sink, n, err)
  | _ => none

/- encoding/cp949/encoding_test.go:14 -/
#guard readAll 100 (XText.NewReader [190, 198, 184, 167, 180, 217, 191, 238, 32, 191, 236, 184, 174, 184, 187]) [] = some ([236, 149, 132, 235, 166, 132, 235, 139, 164, 236, 154, 180, 32, 236, 154, 176, 235, 166, 172, 235, 167, 144], none)
/- encoding/cp949/encoding_test.go:33 -/
#guard writeOnce [236, 149, 132, 235, 166, 132, 235, 139, 164, 236, 154, 180, 32, 236, 154, 176, 235, 166, 172, 235, 167, 144] = some ([190, 198, 184, 167, 180, 217, 191, 238, 32, 191, 236, 184, 174, 184, 187], 22, none)
/- encoding/cp949/encoding_test.go:14 -/
#guard readAll 100 (XText.NewReader [140, 99, 185, 230, 176, 162, 199, 207]) [] = some ([235, 152, 160, 235, 176, 169, 234, 176, 129, 237, 149, 152], none)
/- encoding/cp949/encoding_test.go:33 -/
#guard writeOnce [235, 152, 160, 235, 176, 169, 234, 176, 129, 237, 149, 152] = some ([140, 99, 185, 230, 176, 162, 199, 207], 12, none)
/- encoding/cp949/encoding_test.go:14 -/
#guard readAll 100 (XText.NewReader [198, 233, 189, 195, 196, 221, 182, 243]) [] = some ([237, 142, 169, 236, 139, 156, 236, 189, 156, 235, 157, 188], none)
/- encoding/cp949/encoding_test.go:33 -/
#guard writeOnce [237, 142, 169, 236, 139, 156, 236, 189, 156, 235, 157, 188] = some ([198, 233, 189, 195, 196, 221, 182, 243], 12, none)
/- encoding/cp949/encoding_test.go:14 -/
#guard readAll 100 (XText.NewReader [168, 192, 168, 192, 179, 179, 33, 33, 32, 236, 215, 206, 250, 234, 197, 198, 208, 146, 230, 144, 112, 177, 197, 32, 168, 222, 168, 211, 196, 82, 162, 175, 162, 175, 162, 175, 32, 177, 224, 138, 150, 32, 168, 209, 181, 179, 32, 168, 192, 46, 32, 46, 10, 228, 172, 191, 181, 168, 209, 180, 201, 200, 194, 32, 46, 32, 46, 32, 46, 32, 46, 32, 188, 173, 191, 239, 183, 239, 32, 181, 175, 199, 208, 235, 224, 32, 202, 171, 196, 82, 32, 33, 32, 33, 32, 33, 164, 208, 46, 164, 208, 10, 200, 229, 200, 229, 200, 229, 32, 164, 161, 164, 161, 164, 161, 161, 217, 164, 208, 95, 164, 208, 32, 190, 238, 144, 138, 32, 197, 203, 196, 226, 131, 79, 32, 181, 174, 192, 192, 32, 175, 104, 206, 250, 181, 233, 235, 224, 32, 168, 192, 181, 229, 131, 79, 10, 188, 179, 144, 106, 32, 202, 171, 196, 82, 32, 46, 32, 46, 32, 46, 32, 46, 32, 177, 188, 190, 214, 154, 102, 32, 168, 209, 177, 197, 32, 168, 222, 144, 116, 168, 194, 131, 79, 32, 236, 215, 236, 210, 244, 185, 229, 252, 241, 233, 177, 238, 163, 142, 10, 191, 205, 190, 172, 196, 82, 32, 33, 32, 33, 32, 228, 172, 191, 181, 168, 209, 32, 202, 171, 180, 201, 177, 197, 32, 161, 217, 223, 190, 176, 252, 32, 190, 248, 180, 201, 177, 197, 180, 201, 32, 228, 172, 180, 201, 181, 216, 196, 82, 32, 177, 219, 190, 214, 138, 219, 10, 168, 222, 183, 193, 181, 224, 206, 250, 32, 154, 195, 199, 180, 189, 164, 196, 82, 32, 190, 238, 144, 138, 32, 236, 215, 236, 210, 244, 185, 229, 252, 241, 233, 154, 196, 168, 239, 181, 233, 157, 218, 33, 33, 32, 168, 192, 168, 192, 179, 179, 162, 189, 32, 161, 210, 161, 210, 42]) [] = some ([227, 137, 175, 227, 137, 175, 235, 130, 169, 33, 33, 32, 229, 155, 160, 228, 185, 157, 230, 156, 136, 237, 140, 168, 235, 175, 164, 235, 166, 148, 234, 182, 136, 32, 226, 147, 161, 226, 147, 150, 237, 155, 128, 194, 191, 194, 191, 194, 191, 32, 234, 184, 141, 235, 146, 153, 32, 226, 147, 148, 235, 142, 168, 32, 227, 137, 175, 46, 32, 46, 10, 228, 186, 158, 236, 152, 129, 226, 147, 148, 235, 138, 165, 237, 154, 185, 32, 46, 32, 46, 32, 46, 32, 46, 32, 236, 132, 156, 236, 154, 184, 235, 164, 132, 32, 235, 142, 144, 237, 149, 153, 228, 185, 153, 32, 229, 174, 182, 237, 155, 128, 32, 33, 32, 33, 32, 33, 227, 133, 160, 46, 227, 133, 160, 10, 237, 157, 144, 237, 157, 144, 237, 157, 144, 32, 227, 132, 177, 227, 132, 177, 227, 132, 177, 226, 152, 134, 227, 133, 160, 95, 227, 133, 160, 32, 236, 150, 180, 235, 166, 168, 32, 237, 131, 184, 236, 189, 176, 234, 184, 144, 32, 235, 142, 140, 236, 157, 145, 32, 236, 185, 145, 228, 185, 157, 235, 147, 164, 228, 185, 153, 32, 227, 137, 175, 235, 147, 156, 234, 184, 144, 10, 236, 132, 164, 235, 166, 140, 32, 229, 174, 182, 237, 155, 128, 32, 46, 32, 46, 32, 46, 32, 46, 32, 234, 181, 180, 236, 149, 160, 236, 137, 140, 32, 226, 147, 148, 234, 182, 136, 32, 226, 147, 161, 235, 166, 152, 227, 137, 177, 234, 184, 144, 32, 229, 155, 160, 228, 187, 129, 229, 183, 157, 239, 166, 129, 228, 184, 173, 234, 185, 140, 236, 166, 188, 10, 236, 153, 128, 236, 146, 128, 237, 155, 128, 32, 33, 32, 33, 32, 228, 186, 158, 236, 152, 129, 226, 147, 148, 32, 229, 174, 182, 235, 138, 165, 234, 182, 136, 32, 226, 152, 134, 228, 184, 138, 234, 180, 128, 32, 236, 151, 134, 235, 138, 165, 234, 182, 136, 235, 138, 165, 32, 228, 186, 158, 235, 138, 165, 235, 146, 136, 237, 155, 128, 32, 234, 184, 128, 236, 149, 160, 235, 147, 180, 10, 226, 147, 161, 235, 160, 164, 235, 147, 128, 228, 185, 157, 32, 236, 139, 128, 237, 146, 148, 236, 136, 180, 237, 155, 128, 32, 236, 150, 180, 235, 166, 168, 32, 229, 155, 160, 228, 187, 129, 229, 183, 157, 239, 166, 129, 228, 184, 173, 236, 139, 129, 226, 145, 168, 235, 147, 164, 236, 149, 156, 33, 33, 32, 227, 137, 175, 227, 137, 175, 235, 130, 169, 226, 153, 161, 32, 226, 140, 146, 226, 140, 146, 42], none)
/- encoding/cp949/encoding_test.go:33 -/
#guard writeOnce [227, 137, 175, 227, 137, 175, 235, 130, 169, 33, 33, 32, 229, 155, 160, 228, 185, 157, 230, 156, 136, 237, 140, 168, 235, 175, 164, 235, 166, 148, 234, 182, 136, 32, 226, 147, 161, 226, 147, 150, 237, 155, 128, 194, 191, 194, 191, 194, 191, 32, 234, 184, 141, 235, 146, 153, 32, 226, 147, 148, 235, 142, 168, 32, 227, 137, 175, 46, 32, 46, 10, 228, 186, 158, 236, 152, 129, 226, 147, 148, 235, 138, 165, 237, 154, 185, 32, 46, 32, 46, 32, 46, 32, 46, 32, 236, 132, 156, 236, 154, 184, 235, 164, 132, 32, 235, 142, 144, 237, 149, 153, 228, 185, 153, 32, 229, 174, 182, 237, 155, 128, 32, 33, 32, 33, 32, 33, 227, 133, 160, 46, 227, 133, 160, 10, 237, 157, 144, 237, 157, 144, 237, 157, 144, 32, 227, 132, 177, 227, 132, 177, 227, 132, 177, 226, 152, 134, 227, 133, 160, 95, 227, 133, 160, 32, 236, 150, 180, 235, 166, 168, 32, 237, 131, 184, 236, 189, 176, 234, 184, 144, 32, 235, 142, 140, 236, 157, 145, 32, 236, 185, 145, 228, 185, 157, 235, 147, 164, 228, 185, 153, 32, 227, 137, 175, 235, 147, 156, 234, 184, 144, 10, 236, 132, 164, 235, 166, 140, 32, 229, 174, 182, 237, 155, 128, 32, 46, 32, 46, 32, 46, 32, 46, 32, 234, 181, 180, 236, 149, 160, 236, 137, 140, 32, 226, 147, 148, 234, 182, 136, 32, 226, 147, 161, 235, 166, 152, 227, 137, 177, 234, 184, 144, 32, 229, 155, 160, 228, 187, 129, 229, 183, 157, 239, 166, 129, 228, 184, 173, 234, 185, 140, 236, 166, 188, 10, 236, 153, 128, 236, 146, 128, 237, 155, 128, 32, 33, 32, 33, 32, 228, 186, 158, 236, 152, 129, 226, 147, 148, 32, 229, 174, 182, 235, 138, 165, 234, 182, 136, 32, 226, 152, 134, 228, 184, 138, 234, 180, 128, 32, 236, 151, 134, 235, 138, 165, 234, 182, 136, 235, 138, 165, 32, 228, 186, 158, 235, 138, 165, 235, 146, 136, 237, 155, 128, 32, 234, 184, 128, 236, 149, 160, 235, 147, 180, 10, 226, 147, 161, 235, 160, 164, 235, 147, 128, 228, 185, 157, 32, 236, 139, 128, 237, 146, 148, 236, 136, 180, 237, 155, 128, 32, 236, 150, 180, 235, 166, 168, 32, 229, 155, 160, 228, 187, 129, 229, 183, 157, 239, 166, 129, 228, 184, 173, 236, 139, 129, 226, 145, 168, 235, 147, 164, 236, 149, 156, 33, 33, 32, 227, 137, 175, 227, 137, 175, 235, 130, 169, 226, 153, 161, 32, 226, 140, 146, 226, 140, 146, 42] = some ([168, 192, 168, 192, 179, 179, 33, 33, 32, 236, 215, 206, 250, 234, 197, 198, 208, 146, 230, 144, 112, 177, 197, 32, 168, 222, 168, 211, 196, 82, 162, 175, 162, 175, 162, 175, 32, 177, 224, 138, 150, 32, 168, 209, 181, 179, 32, 168, 192, 46, 32, 46, 10, 228, 172, 191, 181, 168, 209, 180, 201, 200, 194, 32, 46, 32, 46, 32, 46, 32, 46, 32, 188, 173, 191, 239, 183, 239, 32, 181, 175, 199, 208, 235, 224, 32, 202, 171, 196, 82, 32, 33, 32, 33, 32, 33, 164, 208, 46, 164, 208, 10, 200, 229, 200, 229, 200, 229, 32, 164, 161, 164, 161, 164, 161, 161, 217, 164, 208, 95, 164, 208, 32, 190, 238, 144, 138, 32, 197, 203, 196, 226, 131, 79, 32, 181, 174, 192, 192, 32, 175, 104, 206, 250, 181, 233, 235, 224, 32, 168, 192, 181, 229, 131, 79, 10, 188, 179, 144, 106, 32, 202, 171, 196, 82, 32, 46, 32, 46, 32, 46, 32, 46, 32, 177, 188, 190, 214, 154, 102, 32, 168, 209, 177, 197, 32, 168, 222, 144, 116, 168, 194, 131, 79, 32, 236, 215, 236, 210, 244, 185, 229, 252, 241, 233, 177, 238, 163, 142, 10, 191, 205, 190, 172, 196, 82, 32, 33, 32, 33, 32, 228, 172, 191, 181, 168, 209, 32, 202, 171, 180, 201, 177, 197, 32, 161, 217, 223, 190, 176, 252, 32, 190, 248, 180, 201, 177, 197, 180, 201, 32, 228, 172, 180, 201, 181, 216, 196, 82, 32, 177, 219, 190, 214, 138, 219, 10, 168, 222, 183, 193, 181, 224, 206, 250, 32, 154, 195, 199, 180, 189, 164, 196, 82, 32, 190, 238, 144, 138, 32, 236, 215, 236, 210, 244, 185, 229, 252, 241, 233, 154, 196, 168, 239, 181, 233, 157, 218, 33, 33, 32, 168, 192, 168, 192, 179, 179, 162, 189, 32, 161, 210, 161, 210, 42], 449, none)

end Cp949

end Validation
