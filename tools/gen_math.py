"""Write lean/Verif/Model/MathFiles.lean: the strings of the math files in /repo/src/calliope/math, as they stand.

Reads the subset of YAML that those files use: maps, lists of maps, `[a, b]` lists, folded scalars (`>-`), plain and
quoted scalars, anchors and aliases, and comments.
"""
import re, sys

SRC = "/repo/src/calliope/math/"
FILES = [("base", "base"), ("milp", "milp"), ("operate", "operate"), ("spores", "spores"),
         ("interCluster", "storage_inter_cluster")]


def strip_comment(s):
    out, q = "", None
    for i, c in enumerate(s):
        if q:
            if c == q:
                q = None
        elif c in "\"'":
            if not out.strip() or out.rstrip().endswith((":", "-", "[", ",")):
                q = c
        elif c == "#" and (i == 0 or s[i - 1] in " \t"):
            break
        out += c
    return out.rstrip()


class Y:
    def __init__(self, text):
        self.lines = []
        self.raw = text.split("\n")
        self.anchors = {}
        self.i = 0

    def peek(self):
        while self.i < len(self.raw):
            l = strip_comment(self.raw[self.i])
            if l.strip():
                return len(l) - len(l.lstrip()), l.strip()
            self.i += 1
        return None

    def folded(self, indent):
        # a block scalar with parent indentation `indent`
        out = []
        while self.i < len(self.raw):
            l = self.raw[self.i]
            if l.strip() and len(l) - len(l.lstrip()) <= indent:
                break
            out.append(l)
            self.i += 1
        while out and not out[-1].strip():
            out.pop()
        base = min(len(l) - len(l.lstrip()) for l in out if l.strip())
        out = [l[base:].rstrip() for l in out]
        # folding: single line breaks between lines at the base indentation become blanks, others stay
        res, prev_more = "", False
        for k, l in enumerate(out):
            more = l.startswith(" ")
            if k == 0:
                res = l
            elif not l:
                res += "\n"
            elif more or prev_more:
                res += "\n" + l
            elif res.endswith("\n"):
                res += l
            else:
                res += " " + l
            prev_more = more
        return res

    def scalar(self, s, indent):
        s = s.strip()
        m = re.match(r"&(\w+)\s*(.*)$", s)
        if m:
            v = self.value(m.group(2), indent)
            self.anchors[m.group(1)] = v
            return v
        if re.match(r"\*\w+$", s):
            return self.anchors[s[1:]]
        if s.startswith("["):
            assert s.endswith("]")
            inner = s[1:-1].strip()
            return [self.scalar(x, indent) for x in inner.split(",")] if inner else []
        if s == "{}":
            return {}
        if s and s[0] in "\"'":
            assert s[-1] == s[0], s
            return s[1:-1]
        if s in ("true", "True"):
            return True
        if s in ("false", "False"):
            return False
        return ("plain", s)

    def value(self, s, indent):
        if s.startswith("&"):
            return self.scalar(s, indent)
        if s in (">-", ">"):
            return self.folded(indent)
        if s == "":
            p = self.peek()
            if p and (p[0] > indent or (p[0] == indent and p[1].startswith("- "))):
                return self.block(p[0])
            return None
        v = self.scalar(s, indent)
        if isinstance(v, tuple):
            # plain scalars may go on in the next lines
            text = v[1]
            while True:
                p = self.peek()
                if p and p[0] > indent:
                    text += " " + p[1]
                    self.i += 1
                else:
                    break
            return text
        return v

    def block(self, indent):
        p = self.peek()
        if p[1].startswith("- "):
            out = []
            while (p := self.peek()) and p[0] == indent and p[1].startswith("- "):
                # replace the dash by a blank and read a map
                l = self.raw[self.i]
                self.raw[self.i] = l[:indent] + " " + l[indent + 1:]
                q = self.peek()
                out.append(self.block(q[0]))
            return out
        out = {}
        while (p := self.peek()) and p[0] == indent:
            m = re.match(r"([\w.]+):(?:\s+(.*))?$", p[1])
            assert m, p
            self.i += 1
            key, v = m.group(1), self.value(m.group(2) or "", indent)
            d = out
            ks = key.split(".")
            for k in ks[:-1]:
                d = d.setdefault(k, {})
            d[ks[-1]] = v
        assert not p or p[0] < indent, p
        return out


def load(name):
    return Y(open(SRC + name + ".yaml").read()).block(0)


def ch(s):
    assert '"' not in s and "\\" not in s, s
    return 'chars! "' + s.replace("\n", "\\n") + '"'


def lst(l):
    return "[" + ", ".join(l) + "]"


def opt(v, f):
    return "none" if v is None else "some (" + f(v) + ")"


def eqs(l):
    return lst(["⟨" + opt(e.get("where"), ch) + ", " + ch(e["expression"]) + "⟩" for e in l])


def table(d):
    return lst(["(" + ch(k) + ", " + eqs(v) + ")" for k, v in (d or {}).items()])


def boolean(b):
    return "true" if b else "false"


def component(name, d):
    f = []
    f.append("name := " + ch(name))
    if "active" in d: f.append("active := some " + boolean(d["active"]))
    if "foreach" in d: f.append("foreach := some " + lst([ch(x if isinstance(x, str) else x[1]) for x in d["foreach"]]))
    if "where" in d: f.append("cond := some (" + ch(d["where"]) + ")")
    if "equations" in d: f.append("equations := some " + eqs(d["equations"]))
    if "sub_expressions" in d: f.append("subs := " + table(d["sub_expressions"]))
    if "slices" in d: f.append("slices := " + table(d["slices"]))
    b = d.get("bounds") or {}
    if "min" in b: f.append("lower := some (" + ch(b["min"]) + ")")
    if "max" in b: f.append("upper := some (" + ch(b["max"]) + ")")
    if "domain" in d: f.append("domain := some (" + ch(d["domain"]) + ")")
    if "order" in d: f.append("order := some (" + ch(d["order"]) + ")")
    if "sense" in d: f.append("sense := some (" + ch(d["sense"]) + ")")
    if "message" in d: f.append("message := some (" + ch(d["message"]) + ")")
    if "errors" in d: f.append("errors := some (" + ch(d["errors"]) + ")")
    known = {"active", "foreach", "where", "equations", "sub_expressions", "slices", "bounds", "domain", "order", "sense",
             "message", "errors", "title", "description", "unit", "default", "dtype", "resample_method", "one_of",
             "pivot_values_to_dim", "iterator", "ordered"}
    assert set(d) <= known, set(d) - known
    return "{ " + ",\n      ".join(f) + " }"


GROUPS = ["dimensions", "parameters", "lookups", "variables", "global_expressions", "constraints", "objectives",
          "postprocessed", "checks"]
PLAIN = {"title", "description", "unit", "default", "dtype", "resample_method", "one_of", "pivot_values_to_dim",
         "iterator", "ordered"}
FIELD = {"global_expressions": "globals", "variables": "vars"}


def wrap(s):
    return s


def main():
    out = ["""import Verif.Model.MathText

/-!
# The strings of the math files

Source: `/repo/src/calliope/math/base.yaml`, `/repo/src/calliope/math/milp.yaml`, `/repo/src/calliope/math/operate.yaml`,
`/repo/src/calliope/math/spores.yaml` and `/repo/src/calliope/math/storage_inter_cluster.yaml`, written by
`tools/gen_math.py`: every component with its strings as they stand in the file.

Simplifications: titles, descriptions, units, defaults and the options of dimensions, parameters and lookups are left
out; YAML itself is read by the script (folded scalars, anchors, keys with dots).
-/

namespace Calliope
namespace MathText
"""]
    for lean, name in FILES:
        d = load(name)
        assert set(d) <= set(GROUPS) | {"piecewise_constraints"}, set(d)
        assert not d.get("piecewise_constraints")
        lists = []
        out.append(f"/-! ### `{name}.yaml` -/\n")
        for g in GROUPS:
            if not d.get(g):
                continue
            field = FIELD.get(g, g)
            if g in ("dimensions", "parameters", "lookups"):
                assert all(set(v or {}) <= PLAIN for v in d[g].values())
                parts = []
                names = [ch(k) for k in d[g]]
                for i in range(0, len(names), 20):
                    out.append(f"def {lean}_{field}_{i // 20} : List Raw :=\n  plain [" + ",\n    ".join(names[i:i + 20]) + "]\n")
                    parts.append(f"{lean}_{field}_{i // 20}")
                lists.append(f"  {field} := " + " ++ ".join(parts))
            else:
                parts = []
                for k, v in d[g].items():
                    out.append(f"def {lean}_{field}_{k} : Raw :=\n    " + component(k, v or {}) + "\n")
                    parts.append(f"{lean}_{field}_{k}")
                lists.append(f"  {field} := [\n    " + ",\n    ".join(parts) + "]")
        out.append(f"/-- `{name}.yaml`. -/\ndef {lean}File : File where")
        out += lists
        out.append("")
    out.append("/-- The math files (model_math.py:29-54). -/\ndef shipped (n : Grammar.Str) : Option File :=")
    for k, (lean, name) in enumerate(FILES):
        out.append(f"  {'else ' if k else ''}if n = chars! \"{name}\" then some {lean}File")
    out.append("  else none\n")
    out.append("end MathText\nend Calliope\n")
    text = "\n".join(out)
    open("/verif/lean/Verif/Model/MathFiles.lean", "w").write(text)


if __name__ == "__main__":
    main()
