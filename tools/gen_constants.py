import re
src=open('/repo/constant.go').read().split('\n')
out=["import Verif.Go.Basic","/- constant.go. Each constant is written as base + iota, as in the Go `const` blocks. -/","namespace Hangul","open Go",""]
base=None;i=0
for ln,l in enumerate(src,1):
    if re.match(r'\s*_\s+= ',l):
        expr=l.split('=')[1].strip()
        b={'0x3130 + iota':'0x3130','(leadBase - 1) + iota':'(leadBase - 1)','(medialBase - 1) + iota':'(medialBase - 1)','(tailBase - 1) + iota':'(tailBase - 1)'}[expr]
        base=b;i=0;continue
    m=re.match(r'\t(leadBase|medialBase|tailBase)\s+= (0x[0-9A-F]+) // (.*)',l)
    if m:
        out.append(f"/-- constant.go:{ln} {m.group(3)} -/\ndef {m.group(1)} : Rune := {m.group(2)}"); continue
    m=re.match(r'\tNG\s+= ZS',l)
    if m: out.append(f"/-- constant.go:{ln} -/\ndef NG : Rune := ZS"); continue
    m=re.match(r'const (max\w+) = (\w+) - (\w+)',l)
    if m:
        out.append(f"/-- constant.go:{ln}; an untyped constant, used as an `int`. -/\ndef {m.group(1)} : Int := {m.group(2)}.toInt - {m.group(3)}.toInt"); continue
    m=re.match(r'\t(\w+)\s*// (.*)',l)
    if m and base:
        i+=1
        out.append(f"/-- constant.go:{ln} {m.group(2)} -/\ndef {m.group(1)} : Rune := {base} + {i}")
    elif l.strip() and not l.startswith('//') and l.strip() not in ('const (',')','package hangul'): print("SKIP",ln,l)
out.append("\nend Hangul")
open('/verif/lean/Verif/Hangul/Const.lean','w').write("\n".join(out)+"\n")
