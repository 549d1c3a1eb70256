#!/usr/bin/env python3
"""Translate the JSON schemas of /repo/netjsonconfig into Lean data (lean/Verif/SchemaData.lean).

The files are read as text and the literals in them are evaluated by the small evaluator below; nothing of /repo is run.
Keywords that only describe the schema (title, description, default, ...) are left out, and so are properties of the schema
that `jsonschema` does not know. The result of `merge_config` is written out; that it is the result is proved in Lean."""
import ast, copy, sys
R = "/repo/netjsonconfig/"
DROP = {"title", "description", "default", "propertyOrder", "options", "headerTemplate", "readOnly", "$schema", "maxmium", "additionalItems", "required_by", "readonly"}
MODS = {}
def merge_list(a, b): return copy.deepcopy(a) + b   # no identifiers: elements of the lists are kept apart by identity
def merge_config(t, c):
    r = copy.deepcopy(t)
    for k, v in c.items():
        e = r.get(k)
        if isinstance(v, dict) and isinstance(e, dict): r[k] = merge_config(e, v)
        elif isinstance(v, list) and isinstance(e, list): r[k] = merge_list(e, v)
        else: r[k] = v
    return r
MERGES = []   # arguments and results of merge_config at module level
class Ev:
    def __init__(self, path): self.env = {}; self.path = path
    def run(self):
        for s in ast.parse(open(self.path).read()).body:
            if isinstance(s, ast.Expr): 
                if isinstance(s.value, ast.Call): self.ev(s.value)
                continue
            if isinstance(s, ast.ImportFrom):
                for n in s.names: self.env[n.asname or n.name] = self.imp(s, n.name)
            elif isinstance(s, ast.Import): pass
            elif isinstance(s, ast.Assign):
                assert len(s.targets) == 1
                t = s.targets[0]; v = self.ev(s.value)
                if isinstance(t, ast.Name): self.env[t.id] = v
                else: self.ev(t.value)[self.ev(t.slice)] = v
            elif isinstance(s, (ast.FunctionDef, ast.ClassDef, ast.If, ast.For)): pass
            else: raise Exception("%s:%d %s" % (self.path, s.lineno, ast.dump(s)[:80]))
        return self.env
    def imp(self, s, name):
        if s.level == 0: return {"OrderedDict": dict, "deepcopy": copy.deepcopy}.get(name)
        if name == "merge_config": return merge_config
        base = self.path[:-3].split("/")[:-s.level]
        p = "/".join(base + s.module.split(".")) + ".py"
        return load(p)[name]
    def ev(self, n):
        if isinstance(n, ast.Constant): return n.value
        if isinstance(n, ast.Dict): return {self.ev(k): self.ev(v) for k, v in zip(n.keys, n.values)}
        if isinstance(n, ast.List): return [self.ev(x) for x in n.elts]
        # timezones.py l.282 writes a set where a pair is meant: taken in the order written
        if isinstance(n, (ast.Tuple, ast.Set)): return tuple(self.ev(x) for x in n.elts)
        if isinstance(n, ast.Name): return self.env[n.id]
        if isinstance(n, ast.Subscript): return self.ev(n.value)[self.ev(n.slice)]
        if isinstance(n, ast.BinOp) and isinstance(n.op, ast.Add): return self.ev(n.left) + self.ev(n.right)
        if isinstance(n, ast.UnaryOp) and isinstance(n.op, ast.USub): return -self.ev(n.operand)
        if isinstance(n, ast.ListComp) and len(n.generators) == 1:
            g = n.generators[0]; out = []
            for x in self.ev(g.iter):
                self.env[g.target.id] = x; out.append(self.ev(n.elt))
            return out
        if isinstance(n, ast.Call):
            a = [self.ev(x) for x in n.args]
            f = n.func
            if isinstance(f, ast.Name):
                if f.id == "merge_config":
                    r = merge_config(*a); MERGES.append((self.path, a, r)); return r
                if f.id == "deepcopy": return copy.deepcopy(a[0])
                if f.id == "list": return list(a[0])
                if f.id == "range": return range(*a)
                if f.id in ("OrderedDict", "dict"): return dict(a[0]) if a else {}
            if isinstance(f, ast.Attribute):
                o = self.ev(f.value)
                if f.attr in ("keys", "values", "items"): return list(getattr(o, f.attr)())
                if f.attr == "format": return o.format(*a)
                if f.attr == "insert": return o.insert(*a)
                if f.attr == "update": return o.update(*a)
        raise Exception("%s:%d %s" % (self.path, n.lineno, ast.dump(n)[:120]))
def load(p):
    if p not in MODS: MODS[p] = Ev(p).run()
    return MODS[p]
KW = {"type", "enum", "pattern", "format", "minimum", "maximum", "minLength", "maxLength", "items", "uniqueItems", "minItems", "properties",
      "required", "additionalProperties", "allOf", "oneOf", "anyOf", "not", "$ref", "definitions"}
def clean(s):
    """a schema without what only describes it"""
    if not isinstance(s, dict): return s
    r = {}
    for k, v in s.items():
        if k in DROP: continue
        if k not in KW: raise Exception("keyword " + k)
        if k in ("properties", "definitions"): r[k] = {p: clean(x) for p, x in v.items()}
        elif k in ("allOf", "oneOf", "anyOf"): r[k] = [clean(x) for x in v]
        elif k in ("items", "not"): r[k] = clean(v)
        elif k == "format" and v in ("checkbox", "textarea"): continue   # unknown to jsonschema: always met
        elif k == "additionalProperties" and v is True: continue          # always met
        else: r[k] = v
    return r
def lit(s): return '"' + s.replace("\\", "\\\\").replace('"', '\\"') + '"'
def lean(v, ind=0):
    if v is None: return ".none"
    if isinstance(v, bool): return ".bool " + ("true" if v else "false")
    if isinstance(v, int): return ".int %d" % v if v >= 0 else ".int (%d)" % v
    if isinstance(v, str): return ".str " + lit(v)
    if isinstance(v, list): return ".list [" + ", ".join(lean(x) for x in v) + "]"
    if isinstance(v, dict): return ".dict [" + ", ".join("(%s, %s)" % (lit(k), lean(x)) for k, x in v.items()) + "]"
    raise Exception(repr(v))
OUT = []
def emit(name, v, doc, parts):
    """definitions and properties of a schema one by one, then the schema"""
    d = {}
    for k, x in v.items():
        if k in parts and isinstance(x, dict):
            items = []
            for p, y in x.items():
                n = "%s_%s_%s" % (name, k[:3], p)
                OUT.append("def %s : Val := %s\n" % (n, lean(y)))
                items.append("(%s, %s)" % (lit(p), n))
            OUT.append("def %s_%s : VDict := [%s]\n" % (name, k, ", ".join(items)))
            d[k] = "(%s, .dict %s_%s)" % (lit(k), name, k)
        else: d[k] = "(%s, %s)" % (lit(k), lean(x))
    OUT.append("/-- %s -/\ndef %s : VDict := [%s]\n" % (doc, name, ", ".join(d.values())))
ow = load(R + "backends/openwrt/schema.py")["schema"]
ms = [m for m in MERGES if m[0].endswith("openwrt/schema.py")]
assert len(ms) == 3
P = ("definitions", "properties")
emit("baseSchema", clean(ms[0][1][0]), "schema.py", P)
emit("owPatch", clean(ms[0][1][1]), "openwrt/schema.py l.21-1402", P)
emit("vpnSchema", clean(ms[1][1][1]), "openvpn/schema.py l.104-961", P)
emit("owPatch2", clean(ms[2][1][1]), "openwrt/schema.py l.1409-1424", P)
emit("owSchema", clean(ow), "openwrt/schema.py: the schema of the OpenWrt backend", P)
tz = load(R + "backends/openwrt/timezones.py")["timezones"]
OUT.append("/-- timezones.py -/\ndef timezones : Dict String String := [%s]\n" % ", ".join("(%s, %s)" % (lit(k), lit(x)) for k, x in tz.items()))
def wrap(s, w=150):
    out = []
    for line in s.split("\n"):
        while len(line) > w:
            i = line.rfind(", ", 0, w)
            if i < 0: break
            out.append(line[:i + 1]); line = "  " + line[i + 2:]
        out.append(line)
    return "\n".join(out)
head = '''import Verif.Base

/-!
# The JSON schemas as data

Made by tools/schema_gen.py from schema.py, openwrt/schema.py, openvpn/schema.py and wireguard/schema.py. Left out: keywords that only describe
(`title`, `description`, `default`, `propertyOrder`, `options`, …), keywords `jsonschema` does not know (`maxmium`), formats it does not know
(`checkbox`, `textarea`), and keywords that are always met here (`additionalProperties: true`, `additionalItems` beside an `items` that is a schema).
-/

namespace NJ

'''
open("/verif/lean/Verif/SchemaData.lean", "w").write(head + wrap("\n".join(OUT)) + "\nend NJ\n")

# the schemas of the other backends; parts equal to parts written above are shared
OUT.clear()
SEEN = {}
def know(name, v):
    for k in P:
        for p, y in v.get(k, {}).items(): SEEN.setdefault(lean(y), "%s_%s_%s" % (name, k[:3], p))
def emit2(name, v, doc):
    d = {}
    for k, x in v.items():
        if k in P and isinstance(x, dict):
            items = []
            for p, y in x.items():
                t = lean(y)
                if t not in SEEN:
                    SEEN[t] = "%s_%s_%s" % (name, k[:3], p)
                    OUT.append("def %s : Val := %s\n" % (SEEN[t], t))
                items.append("(%s, %s)" % (lit(p), SEEN[t]))
            OUT.append("def %s_%s : VDict := [%s]\n" % (name, k, ", ".join(items)))
            d[k] = "(%s, .dict %s_%s)" % (lit(k), name, k)
        else: d[k] = "(%s, %s)" % (lit(k), lean(x))
    OUT.append("/-- %s -/\ndef %s : VDict := [%s]\n" % (doc, name, ", ".join(d.values())))
know("owSchema", clean(ow)); know("vpnSchema", clean(ms[1][1][1])); know("baseSchema", clean(ms[0][1][0]))
L = lambda b: clean(load(R + "backends/%s/schema.py" % b)["schema"])
owisp = L("openwisp")
om = [m for m in MERGES if m[0].endswith("openwisp/schema.py")]
assert len(om) == 1 and clean(om[0][1][0]) == clean(ow)
emit2("openvpnSchema", L("openvpn"), "openvpn/schema.py: the schema of the OpenVPN backend")
emit2("wireguardSchema", L("wireguard"), "wireguard/schema.py: the schema of the WireGuard backend")
emit2("vxlanSchema", L("vxlan"), "vxlan/schema.py: the schema of the VXLAN over WireGuard backend")
emit2("zerotierSchema", L("zerotier"), "zerotier/schema.py: the schema of the ZeroTier backend")
emit2("owispPatch", clean(om[0][1][1]), "openwisp/schema.py l.9-44")
emit2("owispSchema", owisp, "openwisp/schema.py: the schema of the OpenWisp backend")
head2 = '''import Verif.SchemaData

/-!
# The JSON schemas of the other backends as data

Made by tools/schema_gen.py, as SchemaData.lean. Parts that are equal to parts of other schemas are written once.
-/

namespace NJ

'''
open("/verif/lean/Verif/SchemaData2.lean", "w").write(head2 + wrap("\n".join(OUT)) + "\nend NJ\n")
