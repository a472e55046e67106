#!/usr/bin/env python3
"""Mutation test of the model in a scratch copy: reads JSON mutations
{"file","def","old","new","claim","what"} (one per line) from the file given, applies each to a copy of lean/,
builds, and appends the theorems that fail to seeded/LOG.jsonl."""
import json, os, re, subprocess, sys
root = os.path.dirname(os.path.dirname(os.path.abspath(__file__)))
scratch = "/tmp/work/mut"
log = os.path.join(root, "seeded", "LOG.jsonl")
os.makedirs(os.path.dirname(log), exist_ok=True)
os.makedirs(scratch, exist_ok=True)
def sync():
    subprocess.run("git -C %s archive HEAD lean | tar x -C %s --strip-components=1" % (root, scratch), shell=True, check=True)
def enclosing(path, line):
    name = None
    for k, l in enumerate(open(path), 1):
        if k > line: break
        m = re.match(r"\s*(?:private |protected |noncomputable |@\[[^\]]*\] ?)*(?:theorem|lemma|def|example|instance)\s*([^\s:({\[]*)", l)
        if m: name = m.group(1) or "example"
    return name
for l in open(sys.argv[1]):
    if not l.strip(): continue
    mu = json.loads(l)
    sync()
    p = os.path.join(scratch, "Verif", mu["file"])
    s = open(p).read()
    n = s.count(mu["old"])
    if n != 1 and not mu.get("all"):
        print("SKIP: %d occurrences" % n, mu["old"]); continue
    open(p, "w").write(s.replace(mu["old"], mu["new"]))
    r = subprocess.run(["lake", "build"], cwd=scratch, capture_output=True, text=True)
    out = r.stdout + r.stderr
    fails = []
    for m in re.finditer(r"error: (\S+?\.lean):(\d+):\d+", out):
        f = m.group(1)
        t = enclosing(os.path.join(scratch, f), int(m.group(2)))
        t = f.replace("Verif/", "").replace(".lean", "") + ":" + str(t)
        if t not in fails: fails.append(t)
    e = {"definition": mu["def"], "file": "lean/Verif/" + mu["file"], "edit": "%s => %s" % (mu["old"], mu["new"]),
         "bug": mu["what"], "claim": mu["claim"], "failed": fails, "caught": bool(fails), "tightened": mu.get("tightened", [])}
    print(("caught " if fails else "SURVIVED "), mu["def"], mu["what"], fails)
    with open(log, "a") as f: f.write(json.dumps(e) + "\n")
