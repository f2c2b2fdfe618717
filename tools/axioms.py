"""Rewrites the axiom appendix of DESIGN.md: the axioms of every theorem named in MANIFEST.json, as the kernel reports them.

Run after `lake build` in lean/."""
import json, os, re, subprocess, collections
root = os.path.dirname(os.path.dirname(os.path.abspath(__file__)))
names = [t for c in json.load(open(root + "/MANIFEST.json"))["claims"] for t in c["theorems"]]
src = "import Verif\n" + "".join(f"#print axioms {t}\n" for t in names)
out = subprocess.run(["lake", "env", "lean", "--stdin"], cwd=root + "/lean", input=src, text=True, capture_output=True).stdout
out = re.sub(r"\n\s+", " ", out)
groups = collections.defaultdict(list)
seen = 0
for m in re.finditer(r"'Metro2\.(\w+)' (?:does not depend on any axioms|depends on axioms: \[(.*?)\])", out):
    key = ", ".join(sorted(a.strip() for a in m.group(2).split(","))) if m.group(2) else "none"
    groups[key].append(m.group(1))
    seen += 1
assert seen == len(names), (seen, len(names))
text = "## Appendix: axioms per theorem\n\nGenerated by `tools/axioms.py` from `#print axioms`.\n"
for key in sorted(groups):
    text += f"\n### {key}\n\n" + ", ".join(f"`{t}`" for t in sorted(groups[key])) + "\n"
path = root + "/DESIGN.md"
s = open(path).read()
s = s.split("## Appendix: axioms per theorem")[0].rstrip("\n") + "\n\n" + text
open(path, "w").write(s)
print({k: len(v) for k, v in groups.items()})
