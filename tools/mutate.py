#!/usr/bin/env python3
"""Mutation testing of the model, in a scratch copy outside /verif.

usage: mutate.py batch.json   (list of {file, def, old, new, edit, claim})
Appends one line per mutation to /verif/seeded/LOG.jsonl."""
import json, os, re, shutil, subprocess, sys
SRC = "/tmp/mutsrc"; DST = "/tmp/mut"  # SRC: snapshot of /verif/lean taken at the start
def sync():
    subprocess.run(["rsync", "-a", "--delete", SRC + "/", DST + "/"], check=False) if shutil.which("rsync") else (
        shutil.rmtree(DST, ignore_errors=True), shutil.copytree(SRC, DST, symlinks=True))
def decl_at(text, line):
    name = None
    for i, l in enumerate(text.split("\n")[:line], 1):
        m = re.match(r"\s*(?:@\[[^\]]*\]\s*)?(?:private |protected |noncomputable )*(theorem|def|lemma|instance|example|abbrev)\s*([^\s:({\[]*)", l)
        if m: name = (m.group(2) or m.group(1)) if m.group(1) != "example" else "example"
    return name
def build(targets=()):
    r = subprocess.run(["lake", "build", *targets], cwd=DST, capture_output=True, text=True)
    out = r.stdout + r.stderr
    failed = []
    for m in re.finditer(r"error: (Verif/\S+?\.lean):(\d+):\d+", out):
        t = open(f"{DST}/{m.group(1)}").read()
        d = decl_at(t, int(m.group(2)))
        if d and d not in failed: failed.append(d)
    mods = re.findall(r"^- (Verif\S*)", out, re.M)
    return r.returncode, failed, mods
def main():
    batch = json.load(open(sys.argv[1]))
    dry = "--dry" in sys.argv
    shutil.rmtree(SRC, ignore_errors=True); shutil.copytree("/verif/lean", SRC, symlinks=True)
    if not os.path.isdir(DST): sync()
    for m in batch:
        sync()
        p = f"{DST}/Verif/{m['file']}"
        s = open(p).read()
        if s.count(m["old"]) < 1:
            print("NOT FOUND", m["def"], m["edit"]); continue
        open(p, "w").write(s.replace(m["old"], m["new"], 1))
        rc, failed, mods = build(m.get("targets", ()))
        if rc == 0 and m.get("targets") and not m.get("only"):  # not killed by the modules named: build all
            rc, failed, mods = build()
        e = {"definition": m["def"], "edit": m["edit"], "claim": m["claim"], "killed": rc != 0,
             "failed": failed, "failed_modules": mods, "tightened": m.get("tightened", [])}
        if m.get("note"): e["note"] = m["note"]
        print(json.dumps(e))
        if not dry:
            open("/verif/seeded/LOG.jsonl", "a").write(json.dumps(e) + "\n")
main()
