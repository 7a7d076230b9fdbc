"""Writes lean/Verif/Data/Source.lean: the lines of some modules of /repo as bytes, and lean/Verif/Data/Syntax.lean: their syntax trees as
Python's own parser sees them (module ast; nothing of /repo is executed). Lines are numbers to base 256 with the first byte as the highest
digit."""
import ast, os
U = "/repo/UnicodeData/"
LEAN = os.path.join(os.path.dirname(os.path.abspath(__file__)), "..", "lean", "Verif", "Data")
FILES = ["Utilities", "Characters", "GeneralCategories", "Utrie2", "CharProps", "BidiProps", "CaseProps", "CPTrie", "Normalizer2", "UnicodeSet",
         "CharNames"]
OPS = {ast.Add: "add", ast.Sub: "sub", ast.Mult: "mul", ast.Div: "div", ast.FloorDiv: "floorDiv", ast.Mod: "mod", ast.LShift: "shl",
       ast.RShift: "shr", ast.BitAnd: "and", ast.BitOr: "or", ast.BitXor: "xor", ast.Eq: "eq", ast.NotEq: "ne", ast.Lt: "lt", ast.LtE: "le",
       ast.Gt: "gt", ast.GtE: "ge", ast.In: "in'", ast.NotIn: "notIn", ast.Is: "is", ast.IsNot: "isNot"}

def n(s):
    return '(n%% "%s")' % s

def text(s):
    return "[" + ", ".join(str(ord(c)) for c in s) + "]"

def chain(es):
    return "(.cons %s %s)" % (es[0], chain(es[1:])) if es else ".nil"

class Expr:
    def __init__(self, src):
        self.src = src

    def many(self, es):
        return chain([self(e) for e in es])

    def __call__(self, e):
        t = type(e)
        if t is ast.Constant:
            v = e.value
            if v is True or v is False or v is None:
                return "(.name %s)" % n(str(v))
            if v is Ellipsis:
                return ".ellipsis"
            if isinstance(v, int):
                return "(.num %s)" % (hex(v) if ast.get_source_segment(self.src, e).startswith("0x") else v)
            if isinstance(v, float):
                i, f = ast.get_source_segment(self.src, e).split(".")
                return "(.flt %d %d)" % (int(i + f), 10 ** len(f))
            return "(.str %s)" % text(v.decode("ascii") if isinstance(v, bytes) else v)
        if t is ast.JoinedStr:
            s = ast.get_source_segment(self.src, e)
            assert s.startswith('f"') and s.endswith('"') and "\\" not in s
            return "(.fstr %s)" % text(s[2:-1])
        if t is ast.Name:
            return "(.name %s)" % n(e.id)
        if t is ast.UnaryOp:
            return "(.%s %s)" % ({ast.USub: "neg", ast.UAdd: "pos", ast.Invert: "inv", ast.Not: "not"}[type(e.op)], self(e.operand))
        if t is ast.BinOp:
            return "(.bin .%s %s %s)" % (OPS[type(e.op)], self(e.left), self(e.right))
        if t is ast.Compare:
            assert len(e.ops) == 1
            return "(.bin .%s %s %s)" % (OPS[type(e.ops[0])], self(e.left), self(e.comparators[0]))
        if t is ast.BoolOp:
            # a and b and c: from the left, as the model reads it
            r = self(e.values[0])
            for v in e.values[1:]:
                r = "(.%s %s %s)" % ("and" if isinstance(e.op, ast.And) else "or", r, self(v))
            return r
        if t is ast.IfExp:
            return "(.cond %s %s %s)" % (self(e.test), self(e.body), self(e.orelse))
        if t is ast.Lambda:
            return "(.lam %s %s)" % (n(e.args.args[0].arg), self(e.body))
        if t is ast.Attribute:
            return "(.attr %s %s)" % (self(e.value), n(e.attr))
        if t is ast.Subscript:
            if isinstance(e.slice, ast.Slice):
                b = [self(x) if x else ".nil" for x in (e.slice.lower, e.slice.upper)]
                return "(.slice %s %s %s)" % (self(e.value), b[0], b[1])
            return "(.index %s %s)" % (self(e.value), self(e.slice))
        if t is ast.Call:
            ks = ["(.kwarg %s %s)" % (n(k.arg), self(k.value)) if k.arg else "(.dstar %s)" % self(k.value) for k in e.keywords]
            return "(.call %s %s)" % (self(e.func), chain([self(a) for a in e.args] + ks))
        if t is ast.Starred:
            return "(.star %s)" % self(e.value)
        if t is ast.Tuple:
            return "(.tuple %s)" % self.many(e.elts)
        if t is ast.List:
            return "(.list %s)" % self.many(e.elts)
        if t is ast.Dict:
            return "(.dict %s)" % chain(["(.item %s %s)" % (self(k), self(v)) for k, v in zip(e.keys, e.values)])
        if t is ast.ListComp:
            g, = e.generators
            assert not g.ifs
            return "(.comp %s %s %s)" % (self(e.elt), self(g.target), self(g.iter))
        raise Exception(ast.dump(e))

    def params(self, a):
        assert not a.posonlyargs and not a.kwonlyargs
        d = [None] * (len(a.args) - len(a.defaults)) + a.defaults
        r = ["(.kwarg %s %s)" % (n(x.arg), self(v)) if v else "(.name %s)" % n(x.arg) for x, v in zip(a.args, d)]
        if a.vararg:
            r.append("(.star (.name %s))" % n(a.vararg.arg))
        if a.kwarg:
            r.append("(.dstar (.name %s))" % n(a.kwarg.arg))
        return chain(r)

    def block(self, ss):
        return "(.seq %s %s)" % (self.stmt(ss[0]), self.block(ss[1:])) if ss else ".skip"

    def stmt(self, s):
        t = type(s)
        if t is ast.Expr:
            if isinstance(s.value, ast.Yield):
                return "(.yield %s)" % self(s.value.value)
            return "(.expr %s)" % self(s.value)
        if t is ast.Assign:
            assert len(s.targets) == 1
            return "(.assign %s %s)" % (self(s.targets[0]), self(s.value))
        if t is ast.AnnAssign:
            return "(.assign %s %s)" % (self(s.target), self(s.value)) if s.value else "(.decl %s)" % self(s.target)
        if t is ast.AugAssign:
            return "(.aug .%s %s %s)" % (OPS[type(s.op)], self(s.target), self(s.value))
        if t is ast.Return:
            return "(.ret %s)" % (self(s.value) if s.value else "(.name %s)" % n("None"))
        if t is ast.Assert:
            assert s.msg is None
            return "(.assert %s)" % self(s.test)
        if t is ast.Raise:
            return "(.raise %s)" % self(s.exc)
        if t is ast.Delete:
            x, = s.targets
            return "(.del %s)" % self(x)
        if t is ast.If:
            return "(.ifs %s %s %s)" % (self(s.test), self.block(s.body), self.block(s.orelse))
        if t is ast.While:
            return "(.while %s %s)" % (self(s.test), self.block(s.body))
        if t is ast.For:
            return "(.for %s %s %s)" % (self(s.target), self(s.iter), self.block(s.body))
        if t in (ast.Break, ast.Continue, ast.Pass):
            return {ast.Break: ".brk", ast.Continue: ".cont", ast.Pass: ".pass"}[t]
        if t is ast.FunctionDef:
            r = "(.defn %s %s %s)" % (n(s.name), self.params(s.args), self.block(s.body))
            for d in reversed(s.decorator_list):
                r = "(.deco %s %s)" % (self(d), r)
            return r
        if t is ast.ClassDef:
            return "(.cls %s %s %s)" % (n(s.name), self.many(s.bases), self.block(s.body))
        if t is ast.Import:
            x, = s.names
            return "(.imp %s)" % n(x.name)
        if t is ast.ImportFrom:
            if s.level == 0:
                return "(.imp %s)" % n(s.module.split(".")[-1])
            return "(.imps %s %s)" % (n(s.module), ".nil" if s.names[0].name == "*" else chain(["(.name %s)" % n(x.name) for x in s.names]))
        raise Exception(ast.dump(s))

def name(f, s, i):
    if isinstance(s, (ast.FunctionDef, ast.ClassDef)):
        return s.name
    if isinstance(s, ast.Assign) and isinstance(s.targets[0], ast.Name):
        return s.targets[0].id
    return "line%d" % s.lineno

src, syn = [], []
for f in FILES:
    data = open(U + f + ".py", "rb").read()
    lines = data.split(b"\n")
    assert max(map(len, lines)) <= 320
    src.append("/-- UnicodeData/%s.py:1-%d the lines of the file. -/\ndef %s : List Nat :=\n [%s]" % (f, len(lines) - 1, f, ",\n  ".join(hex(int.from_bytes(l, "big")) for l in lines)))
    t = data.decode("utf-8")
    E = Expr(t)
    E_ = E
    tree = ast.parse(t)
    out, refs, seen = [], [], set()
    for i, s in enumerate(tree.body):
        if isinstance(s, ast.ClassDef):
            inner = []
            for m in s.body:
                if isinstance(m, ast.FunctionDef):
                    nm = "%s.%s" % (s.name, m.name)
                    assert nm not in seen
                    seen.add(nm)
                    first = m.decorator_list[0].lineno if m.decorator_list else m.lineno
                    out.append("/-- UnicodeData/%s.py:%d-%d -/\ndef %s : Stmt :=\n  %s" % (f, first, m.end_lineno, nm, E.stmt(m)))
                    inner.append(nm)
                else:
                    inner.append(E.stmt(m))
            b = ".skip"
            for x in reversed(inner):
                b = "(.seq %s %s)" % (x, b)
            term = "(.cls %s %s %s)" % (n(s.name), E.many(s.bases), b)
            nm = "class" + s.name
        else:
            term = E.stmt(s)
            nm = name(f, s, i)
        while nm in seen:
            nm += "'"
        seen.add(nm)
        if isinstance(s, (ast.FunctionDef, ast.ClassDef)):
            out.append("/-- UnicodeData/%s.py:%d-%d -/\ndef %s : Stmt :=\n  %s" % (f, s.lineno, s.end_lineno, nm, term))
            refs.append(nm)
        else:
            refs.append(term)
    syn.append("namespace %s\n\n%s%s\n/-- UnicodeData/%s.py, all of it. -/\ndef module : Stmt :=\n  %s\n\nend %s" % (
        f, "\n\n".join(out), "\n" if out else "", f, "".join("\n  (.seq %s" % r for r in refs).strip() + " .skip" + ")" * len(refs), f))

open(os.path.join(LEAN, "Source.lean"), "w").write("""import Verif.Model.Lines
/-!
# Texts of modules with code

Generated by tools/gen_source.py from the texts of /repo. Lines are written as numbers, see Model/Lines.lean.
-/
namespace Verif.Data.Source

%s

end Verif.Data.Source
""" % "\n\n".join(src))
open(os.path.join(LEAN, "Syntax.lean"), "w").write("""import Verif.Model.PySyntax
/-!
# Syntax trees of modules with code

Generated by tools/gen_source.py with Python's own parser. Lemmas/SourceChecks proves that they are what Model/PySyntax reads in the texts.
-/
namespace Verif.Data.Syntax
open Verif.PySyntax
set_option maxRecDepth 4000

%s

end Verif.Data.Syntax
""" % "\n\n".join(syn))
