#!/usr/bin/env python3
"""Write AXIOMS.txt: the axioms of every theorem named in MANIFEST.json.  Needs a finished `lake build`."""
import json, os, re, subprocess, tempfile

ROOT = os.path.join(os.path.dirname(os.path.abspath(__file__)), "..")
names = [t for c in json.load(open(os.path.join(ROOT, "MANIFEST.json")))["claims"] for t in c["theorems"]]
with tempfile.NamedTemporaryFile("w", suffix=".lean", delete=False) as f:
    f.write("import Verif\n" + "\n".join("#print axioms " + n for n in names))
out = subprocess.run(["lake", "env", "lean", f.name], cwd=os.path.join(ROOT, "lean"), stdout=subprocess.PIPE, text=True).stdout
out = re.sub(r"\s+", " ", out)
with open(os.path.join(ROOT, "AXIOMS.txt"), "w") as g:
    for name, axioms in re.findall(r"'([\w.']+)' (?:depends on axioms: \[([^\]]*)\]|does not depend on any axioms)", out):
        g.write("%s: %s\n" % (name, axioms or "none"))
