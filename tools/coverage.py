"""Lists, per model module, the files of /repo cited in its comments (with the cited lines), and the
files of /repo/lib, /repo/python and /repo/cython that no module cites.  Output: COVERAGE.md."""
import re, os, glob, collections
here = os.path.dirname(os.path.abspath(__file__))
root = os.path.join(here, "..")
allf = [os.path.relpath(p, "/repo") for p in glob.glob("/repo/lib/**/*", recursive=True) if re.search(r"\.(hpp|cpp|hxx|h)$", p)]
allpy = [os.path.relpath(p, "/repo") for p in glob.glob("/repo/python/**/*", recursive=True) if re.search(r"\.(py|pyx|pxd|hpp)$", p)]
allcy = [os.path.relpath(p, "/repo") for p in glob.glob("/repo/cython/**/*", recursive=True) if re.search(r"\.(py|pyx|pxd|hpp)$", p)]
base = collections.defaultdict(list)
for f in allf + allpy + allcy: base[os.path.basename(f)].append(f)
out = ["# Files of /repo cited by the model (generated by tools/coverage.py)", "",
       "The numbers are the lines cited in the comments of the definitions.  Code of these files outside the cited lines is not modelled.", "",
       "| model module | files and lines |", "|---|---|"]
cited = set()
for m in sorted(glob.glob(os.path.join(root, "lean/Verif/Model/*.lean"))):
    t = open(m).read()
    d = collections.OrderedDict()
    for x in re.finditer(r"([\w./]+\.(?:hpp|cpp|hxx|py|pyx|pxd))(?::\s*(\d[\d\-–, ]*\d|\d))?", t):
        name = x.group(1).lstrip("./")
        c = [f for f in base.get(os.path.basename(name), []) if f.endswith(name)]
        if len(c) > 1: c = [f for f in c if f in d] or c[:1]
        if not c: continue
        d.setdefault(c[0], [])
        if x.group(2):
            for r in re.split(r"[, ]+", x.group(2)):
                if r and r not in d[c[0]]: d[c[0]].append(r)
    cited |= set(d)
    cell = "; ".join(f"`{k}`" + (": " + ", ".join(v) if v else "") for k, v in d.items())
    out.append(f"| {os.path.basename(m)[:-5]} | {cell} |")
out += ["", f"Cited: {len(cited & set(allf))} of {len(allf)} files under lib/, {len(cited & set(allpy))} of {len(allpy)} under python/, {len(cited & set(allcy))} of {len(allcy)} under cython/.", "", "## Files that no definition cites", ""]
by = collections.defaultdict(list)
for f in sorted(allf + allpy + allcy):
    if f not in cited: by[os.path.dirname(f)].append(os.path.basename(f))
for k in sorted(by): out.append(f"* `{k}`: " + ", ".join(by[k]))
open(os.path.join(root, "COVERAGE.md"), "w").write("\n".join(out) + "\n")
print(len(cited), len(allf))
