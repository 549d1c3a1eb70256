"""Generates lean/Verif/UnicodeTable.lean: ranges of the characters >= U+0080 for which
CPython's str.isalnum() is true (what \\w matches besides ASCII and '_')."""
import sys
r=[];cur=None
for i in range(0x80,0x110000):
    if 0xd800<=i<=0xdfff: a=False
    else: a=chr(i).isalnum()
    if a:
        if cur: cur[1]=i
        else: cur=[i,i]
    elif cur: r.append(tuple(cur)); cur=None
if cur: r.append(tuple(cur))
sp=[i for i in range(0x110000) if not 0xd800<=i<=0xdfff and chr(i).isspace()]
print(len(r),[hex(x) for x in sp],sys.version, file=sys.stderr)
out="/-! Generated by tools/gen_unicode.py from CPython 3.11's `str.isalnum`: ranges of alphanumeric characters >= U+0080. -/\n\nnamespace NJ\n\n/-- (first, last) code points -/\ndef uniAlnumRanges : List (Nat × Nat) := [\n"
line="  "
for k,(a,b) in enumerate(r):
    t="(%d, %d)"%(a,b)+(", " if k<len(r)-1 else "]")
    if len(line)+len(t)>110: out+=line.rstrip()+"\n"; line="  "
    line+=t
out+=line+"\n\nend NJ\n"
open('/verif/lean/Verif/UnicodeTable.lean','w').write(out)
