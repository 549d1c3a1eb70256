"""Writes lean/Verif/ZoneChars.lean: the table of time zones (SchemaData.timezones) as characters, and a number for each zone."""
import re
s = open("/verif/lean/Verif/SchemaData.lean").read()
i = s.index("def timezones"); s = s[i:s.index("]", i)]
t = re.findall(r'\(\s*"([^"]+)",\s*"([^"]+)"\s*\)', s)
chars = lambda x: "[" + ", ".join("'%s'" % c for c in x) + "]"
def code(x):
    n = 0
    for c in x: n = n * 256 + ord(c)
    return n
def parts(name, typ, doc, l, n=120):
    names, r = [], []
    for k in range(0, len(l), n):
        names.append("%s%d" % (name, k // n))
        r += ["def %s : %s := [%s]" % (names[-1], typ, ",\n  ".join(l[k:k + n])), ""]
    return r + ["/-- %s -/" % doc, "def %s : %s := %s" % (name, typ, " ++ ".join(names)), ""]
out = ["import Verif.SchemaData", "", "/-! Generated by tools/zones_gen.py: the table of timezones.py as characters, for proofs about each entry. -/", "", "namespace NJ", ""]
out += parts("zoneChars", "List (List Char × List Char)", "the characters of `timezones`", ["(%s, %s)" % (chars(a), chars(b)) for a, b in t])
out += parts("zoneCodes", "List Nat", "a number for each zone: its characters as digits", [str(code(a)) for a, _ in t])
out += ["end NJ", ""]
open("/verif/lean/Verif/ZoneChars.lean", "w").write("\n".join(out))
print(len(t))
