"""Writes lean/Verif/Tests/Data.lean from the test data of the repository (/repo/test/testdata, read only)."""
import os, re
src = "/repo/test/testdata/"
root = os.path.dirname(os.path.dirname(os.path.abspath(__file__)))
def chunk(bs):
    if all(32 <= b < 127 or b == 10 for b in bs):
        t = bs.decode().replace("\\", "\\\\").replace('"', '\\"').replace("\n", "\\n")
        return '  b! "%s"' % t
    return "  [" + ", ".join(map(str, bs)) + "]"
def camel(n):
    n = re.sub(r"\.", "_", n)
    p = n.split("_")
    return p[0] + "".join(x.capitalize() for x in p[1:])
out = ["import Verif.Go.Basic", "", "/-! The test data of the repository, as lists of bytes. Written by tools/testdata.py from /repo/test/testdata. -/", "", "namespace Metro2.TestData", ""]
files = sorted(f for f in os.listdir(src) if os.path.isfile(src + f))
files += ["crashers/" + f for f in sorted(os.listdir(src + "crashers")) if not f.endswith(".output")]
for f in files:
    bs = open(src + f, "rb").read()
    name = camel(f) if "/" not in f else "crasher_" + f.split("/")[1][:8]
    w = 100 if all(32 <= b < 127 or b in (10, 13) for b in bs) else 30
    cs = [bs[i:i + w] for i in range(0, len(bs), w)]
    out += ["/-- /repo/test/testdata/%s, %d bytes. -/" % (f, len(bs)), "def %s : Bytes := List.flatten [" % name]
    out += [",\n".join(chunk(c) for c in cs) + "]", ""]
out += ["end Metro2.TestData"]
open(root + "/lean/Verif/Tests/Data.lean", "w").write("\n".join(out) + "\n")
