"""Writes the functions of /repo/rockphypy into lean/Verif/Source/*.lean as terms of the syntax of
lean/Verif/Py/Syntax.lean.  The source is only parsed, never run.

    python3 tools/source.py /repo lean/Verif/Source
"""
import ast
import os
import sys

FILES = ["utils", "EM", "AVO", "Anisotropy", "BW", "Fluid", "GM", "Emp", "Perm", "QI"]
MODULES = {"np", "sp", "pd", "plt", "warnings", "matplotlib", "math", "self"}
BIN = {ast.Add: (" + ", 65), ast.Sub: (" - ", 65), ast.Mult: (" * ", 70), ast.Div: (" / ", 70),
       ast.MatMult: (" @@ ", 70), ast.Pow: (" ** ", 75)}
CMP = {ast.Eq: "eq", ast.Lt: "lt", ast.LtE: "le", ast.Gt: "gt", ast.GtE: "ge", ast.Is: "is"}


class Skip(Exception):
    pass


def quote(s):
    return '"' + s.replace("\\", "\\\\").replace('"', '\\"') + '"'


class Gen:
    def __init__(self, src, classes):
        self.src = src
        self.classes = classes

    def dotted(self, e):
        """np.linalg.inv -> 'np.linalg.inv', or None when the root is a local value."""
        if isinstance(e, ast.Name):
            return e.id if e.id in MODULES or e.id in self.classes else None
        if isinstance(e, ast.Attribute):
            d = self.dotted(e.value)
            return None if d is None else d + "." + e.attr
        return None

    def commas(self, args):
        return ", ".join(self.expr(x, 0) for x in args)

    def args(self, args, kws=()):
        a = self.commas(args)
        if not kws:
            return f"(.ofList [{a}])"
        k = ", ".join(f"(n!{quote(k.arg)}, {self.expr(k.value, 0)})" for k in kws)
        return f"(.ofKw [{a}] [{k}])"

    def expr(self, e, p):
        """The Lean text of e; p is the precedence the context asks for."""
        def par(s, q):
            return f"({s})" if q < p else s

        if isinstance(e, ast.Name):
            return f"v!{quote(e.id)}"
        if isinstance(e, ast.Constant):
            if e.value is None:
                return ".none"
            if e.value is True:
                return "(.bool true)"
            if e.value is False:
                return "(.bool false)"
            if isinstance(e.value, str):
                return f"(.str {quote(e.value)})"
            text = ast.get_source_segment(self.src, e)
            if isinstance(e.value, int):
                return text
            if isinstance(e.value, complex):
                return f"(.imag {self.decimal(text[:-1])})"
            return self.decimal(text)
        if isinstance(e, ast.UnaryOp) and isinstance(e.op, ast.USub):
            return par("-" + self.expr(e.operand, 75), 74)
        if isinstance(e, ast.BinOp):
            if isinstance(e.op, ast.BitAnd):
                return f"(.bin .bitand {self.expr(e.left, 1000)} {self.expr(e.right, 1000)})"
            s, q = BIN[type(e.op)]
            if isinstance(e.op, ast.Pow):
                return par(self.expr(e.left, 76) + s + self.expr(e.right, 75), q)
            return par(self.expr(e.left, q) + s + self.expr(e.right, q + 1), q)
        if isinstance(e, ast.Compare) and len(e.ops) == 1:
            return (f"(.cmp .{CMP[type(e.ops[0])]} {self.expr(e.left, 1000)} "
                    f"{self.expr(e.comparators[0], 1000)})")
        if isinstance(e, ast.Call):
            f = e.func
            name = f.id if isinstance(f, ast.Name) else self.dotted(f)
            if len(e.args) == 1 and isinstance(e.args[0], ast.GeneratorExp):
                return f"c!{quote(name)}[{self.gen(e.args[0])}]"
            if name is not None and not e.keywords:
                return f"c!{quote(name)}[{self.commas(e.args)}]"
            if name is not None:
                return f"(.call n!{quote(name)} {self.args(e.args, e.keywords)})"
            return (f"(.meth {self.expr(f.value, 1000)} n!{quote(f.attr)} "
                    f"{self.args(e.args, e.keywords)})")
        if isinstance(e, ast.Attribute):
            d = self.dotted(e)
            if d is not None:
                return f"v!{quote(d)}"
            return f"(.attr {self.expr(e.value, 1000)} n!{quote(e.attr)})"
        if isinstance(e, ast.Tuple):
            return f"t![{self.commas(e.elts)}]"
        if isinstance(e, ast.List):
            return f"l![{self.commas(e.elts)}]"
        if isinstance(e, ast.Subscript):
            return f"(.idx {self.expr(e.value, 1000)} {self.index(e.slice)})"
        if isinstance(e, ast.Slice):
            if e.step is not None:
                raise Skip("slice step")
            lo = ".none" if e.lower is None else self.expr(e.lower, 1000)
            hi = ".none" if e.upper is None else self.expr(e.upper, 1000)
            return f"(.slice {lo} {hi})"
        raise Skip(type(e).__name__)

    def gen(self, g):
        s = f"(.yield {self.expr(g.elt, 1000)})"
        for c in reversed(g.generators):
            if c.ifs:
                raise Skip("generator condition")
            s = f"(.gen n!{quote(c.target.id)} {self.expr(c.iter, 1000)} {s})"
        return s

    def decimal(self, text):
        """A decimal literal in a form Lean reads."""
        t = text.lower()
        if t.startswith("."):
            t = "0" + t
        if "." not in t and "e" not in t:
            t += "."
        return t

    def index(self, s):
        return self.args(s.elts if isinstance(s, ast.Tuple) else [s])

    def target(self, t):
        if isinstance(t, ast.Name):
            return f".var n!{quote(t.id)}"
        if isinstance(t, (ast.Tuple, ast.List)):
            if not all(isinstance(x, ast.Name) for x in t.elts):
                raise Skip("nested target")
            return ".tuple [" + ", ".join(f"n!{quote(x.id)}" for x in t.elts) + "]"
        if isinstance(t, ast.Subscript) and isinstance(t.value, ast.Name):
            return f".idx n!{quote(t.value.id)} {self.index(t.slice)}"
        if (isinstance(t, ast.Subscript) and isinstance(t.value, ast.Attribute)
                and t.value.attr == "values" and isinstance(t.value.value, ast.Attribute)
                and isinstance(t.value.value.value, ast.Name)):
            c = t.value.value
            return f".cell n!{quote(c.value.id)} {quote(c.attr)} {self.index(t.slice)}"
        if isinstance(t, ast.Attribute) and self.dotted(t) is not None:
            return f".var n!{quote(self.dotted(t))}"
        raise Skip("target " + ast.unparse(t))

    def stmt(self, s, ind):
        pad = " " * ind
        if isinstance(s, ast.Pass):
            return None
        if isinstance(s, ast.Expr):
            if isinstance(s.value, ast.Constant) and isinstance(s.value.value, str):
                return None
            return f"{pad}.expr {self.expr(s.value, 1000)}"
        if isinstance(s, ast.Assign) and len(s.targets) == 1:
            t = s.targets[0]
            v = self.expr(s.value, 0)
            if isinstance(t, ast.Name):
                return f"{pad}set! {quote(t.id)} := {v}"
            if isinstance(t, ast.Attribute) and self.dotted(t) is not None:
                return f"{pad}set! {quote(self.dotted(t))} := {v}"
            if isinstance(t, ast.Tuple) and all(isinstance(x, ast.Name) for x in t.elts):
                return f"{pad}set! {', '.join(quote(x.id) for x in t.elts)} := {v}"
            return f"{pad}.assign ({self.target(t)}) ({v})"
        if isinstance(s, ast.Return):
            return f"{pad}.ret {self.expr(s.value, 1000)}"
        if isinstance(s, ast.If):
            return (f"{pad}.ite {self.expr(s.test, 1000)}\n{self.block(s.body, ind + 2)}\n"
                    f"{self.block(s.orelse, ind + 2)}")
        if isinstance(s, ast.For) and not s.orelse:
            return (f"{pad}.each ({self.target(s.target)}) {self.expr(s.iter, 1000)}\n"
                    f"{self.block(s.body, ind + 2)}")
        raise Skip(type(s).__name__)

    def block(self, b, ind):
        pad = " " * ind
        l = [x for x in (self.stmt(s, ind + 2) for s in b) if x is not None]
        if not l:
            return f"{pad}.nil"
        return f"{pad}(.ofList [\n" + ",\n".join(l) + "])"

    def fun(self, f):
        a = f.args
        if a.vararg or a.kwonlyargs or a.posonlyargs:
            raise Skip("argument kinds")
        n = len(a.args) - len(a.defaults)
        ps = []
        for i, x in enumerate(a.args):
            if x.arg == "self":
                continue
            d = ".none" if i < n else f"some {self.expr(a.defaults[i - n], 1000)}"
            ps.append(f"⟨n!{quote(x.arg)}, {d}⟩")
        if a.kwarg:
            ps.append(f"⟨n!{quote(a.kwarg.arg)}, .none⟩")
        body = self.block(f.body, 2)
        return "  params := [" + ", ".join(ps) + "]\n  body :=\n" + body


def wrap(text):
    """Breaks lines longer than 100 columns at a blank."""
    out = []
    for line in text.split("\n"):
        ind = len(line) - len(line.lstrip())
        while len(line) > 100:
            k = -1
            inq = False
            for i in range(min(len(line), 100)):
                if line[i] == '"':
                    inq = not inq
                elif line[i] == " " and not inq and i > ind + 3:
                    k = i
            if k < 0:
                break
            out.append(line[:k].rstrip())
            line = " " * (ind + 2) + line[k:].strip()
        out.append(line)
    return "\n".join(out)


def main(repo, dest):
    os.makedirs(dest, exist_ok=True)
    trees = {}
    classes = set()
    for name in FILES:
        src = open(os.path.join(repo, "rockphypy", name + ".py")).read()
        t = ast.parse(src)
        trees[name] = (src, t)
        classes |= {c.name for c in t.body if isinstance(c, ast.ClassDef)}
    table, drawing, skipped = [], [], []
    for name in FILES:
        src, t = trees[name]
        g = Gen(src, classes)
        defs = []
        for c in t.body:
            if not isinstance(c, ast.ClassDef):
                continue
            for f in c.body:
                if not isinstance(f, ast.FunctionDef):
                    continue
                try:
                    body = g.fun(f)
                except Skip as e:
                    skipped.append((c.name, f.name, str(e)))
                    continue
                first = min([f.lineno] + [d.lineno for d in f.decorator_list])
                ident = f.name.strip("_")
                defs.append(
                    f"/-- `{c.name}.{f.name}`, {name}.py:{first}-{f.end_lineno}. -/\n"
                    f"def {ident} : Fun where\n{wrap(body)}\n")
                method = any(x.arg == "self" for x in f.args.args) or '"plt.' in body
                (drawing if method else table).append((c.name, f.name, ident))
        cls = [c.name for c in t.body if isinstance(c, ast.ClassDef)][0]
        with open(os.path.join(dest, name.capitalize() if name == "utils" else name) + ".lean",
                  "w") as o:
            o.write("import Verif.Py.Syntax\n\n"
                    f"/-! # The text of `rockphypy/{name}.py`\n\n"
                    "Written by `tools/source.py`; do not edit. -/\n\n"
                    f"namespace RockPhy.Source.{cls}\n\nopen RockPhy.Py\n\n")
            o.write("\n".join(defs))
            o.write(f"\nend RockPhy.Source.{cls}\n")
    with open(os.path.join(dest, "Program.lean"), "w") as o:
        for name in FILES:
            o.write(f"import Verif.Source.{name.capitalize() if name == 'utils' else name}\n")
        o.write("\n/-! # The functions of the package\n\n"
                "Written by `tools/source.py`; do not edit. -/\n\n"
                "namespace RockPhy.Source\n\nopen RockPhy.Py\n\n"
                "/-- Every function of the package that is not a plot, by its name. -/\n"
                "def program : List (Name × Fun) := [\n")
        o.write(",\n".join(f'  (n!"{c}.{f}", {c}.{i})' for c, f, i in table))
        o.write("]\n\n/-- The methods of objects and the plots, by their names. -/\n"
                "def methods : List (Name × Fun) := [\n")
        o.write(",\n".join(f'  (n!"{c}.{f}", {c}.{i})' for c, f, i in drawing))
        o.write("]\n\nend RockPhy.Source\n")
    for s in skipped:
        print("left out:", *s)
    print(len(table) + len(drawing), "functions")


main(*sys.argv[1:])
