#!/usr/bin/env python3
"""Seed bugs in a scratch copy of the model and see which theorems stop proving.

usage: mutate.py <mutations.py> [first [last]]
The file defines MUTS: a list of (model file, definition, old text, new text, claims broken).
Each attempt appends one line to /verif/seeded/LOG.jsonl.  Nothing under /verif/lean is touched.
"""
import json, os, re, subprocess, sys
SRC = "/verif/lean"
DST = "/tmp/mut/lean%d" % os.getpid()
LOG = "/verif/seeded/LOG.jsonl"

def sh(cmd, **kw):
    return subprocess.run(cmd, shell=True, capture_output=True, text=True, **kw)

def decl_at(path, line):
    name = None
    for i, l in enumerate(open(path), 1):
        if i > line:
            break
        m = re.match(r"\s*(?:@\[[^\]]*\]\s*)?(?:private |protected |noncomputable )*(theorem|def|abbrev|lemma|instance|example|structure)\s*([^\s:({\[]*)", l)
        if m:
            name = (m.group(2) or m.group(1)) if m.group(1) != "example" else "example@%d" % i
    return name

def deps_map():
    """Props theorem -> set of all Verif theorems it uses (transitively), by a Lean script."""
    out = "/tmp/mut/deps.json"
    src = "/tmp/mut/Deps.lean"
    open(src, "w").write('''import Verif
import Lean
open Lean
partial def go (env : Environment) (n : Name) (seen : NameSet) : NameSet := Id.run do
  if seen.contains n then return seen
  let mut s := seen.insert n
  if let some c := env.find? n then
    let cs := c.type.getUsedConstants ++ (match c.value? (allowOpaque := true) with | some v => v.getUsedConstants | none => #[])
    for d in cs do
      if (`Verif).isPrefixOf d || d.isInternal then s := go env d s
  return s
run_cmd do
  let env ← getEnv
  let mut lines := #[]
  for (n, c) in env.constants.map₁.toList do
    if (`Verif.Props).isPrefixOf n then
      if let .thmInfo _ := c then
        if (n.toString.splitOn "Props.C").length > 1 then
          let s := go env n {}
          lines := lines.push (n.toString ++ " " ++ " ".intercalate (s.toList.map (·.toString)))
  IO.FS.writeFile "/tmp/mut/deps.txt" ("\\n".intercalate lines.toList)
''')
    r = sh("cd %s && lake env lean %s" % (SRC, src))
    if r.returncode:
        print(r.stdout, r.stderr)
    d = {}
    for l in open("/tmp/mut/deps.txt"):
        p = l.split()
        if p:
            d[p[0].split(".")[-1]] = set(p[1:])
    return d

def main():
    g = {}
    exec(open(sys.argv[1]).read(), g)
    muts = g["MUTS"]
    lo = int(sys.argv[2]) if len(sys.argv) > 2 else 0
    hi = int(sys.argv[3]) if len(sys.argv) > 3 else len(muts)
    base = "/tmp/mut/base%d" % os.getpid()
    sh("cp -a %s %s" % (SRC, base))
    D = deps_map()
    for f, d, old, new, claims in muts[lo:hi]:
        sh("rm -rf %s; cp -a %s %s" % (DST, base, DST))
        p = os.path.join(DST, "Verif", f)
        s = open(p).read()
        at = max(s.find("def %s " % d), 0)
        if old not in s[at:]:
            print("SKIP", d, "text not found:", old)
            continue
        open(p, "w").write(s[:at] + s[at:].replace(old, new, 1))
        r = sh("cd %s && timeout 1500 nice -n 15 lake build 2>&1" % DST)
        direct = []
        for m in re.finditer(r"error: (Verif/\S+\.lean):(\d+):", r.stdout):
            n = decl_at(os.path.join(DST, m.group(1)), int(m.group(2)))
            mod = m.group(1)[6:-5].replace("/", ".")
            if (mod, n) not in direct:
                direct.append((mod, n))
        names = [n for _, n in direct if n]
        props = sorted(t for t, ds in D.items()
                       if any(t == n or any(x == n or x.endswith("." + n) for x in ds) for n in names))
        entry = {"definition": d, "file": f, "edit": "%s  =>  %s" % (old.strip(), new.strip()),
                 "claim_broken": claims, "caught": bool(direct),
                 "failed_directly": ["%s:%s" % (m, n) for m, n in direct],
                 "theorems_failed": props or ["%s:%s" % (m, n) for m, n in direct], "theorems_tightened": []}
        with open(LOG, "a") as fh:
            fh.write(json.dumps(entry) + "\n")
        print("CAUGHT" if direct else "SURVIVED", d, "|", entry["edit"], "|", entry["failed_directly"][:4], props[:6], flush=True)

main()
