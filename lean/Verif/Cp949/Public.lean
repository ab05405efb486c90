import Verif.Cp949.Cp949
/-! Model of encoding/cp949/public.go, `From` and `To`. The result is the returned slice and error. -/
namespace Cp949
open Go

/-- public.go:12-24. `fromCp949` (cp949.go:110-112) gives a fresh translator over `fromTable` and
never fails. -/
def From (in_ : Str) : Str × Option Err :=
  match fromTranslate fromTable in_ with
  | (_, _, some err) => ([], some err)
  | (_, out, none) => (out, none)

/-- public.go:27-39. `toCp949` (cp949.go:114-116) gives a fresh translator over `toTable` and
never fails. -/
def To (in_ : Str) : Str × Option Err :=
  match toTranslate toTable in_ with
  | (_, _, some err) => ([], some err)
  | (_, out, none) => (out, none)

end Cp949
