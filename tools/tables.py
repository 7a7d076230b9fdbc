"""Reads the numeric tables of /repo as text (nothing of /repo is imported or run)."""
import re
REPO = "/repo/UnicodeData/"

def text(name):
    with open(REPO + name, encoding="utf-8") as f:
        return f.read()

def table(fname, sym):
    """The numbers of `sym = [ ... ]` and the line range it occupies."""
    t = text(fname)
    m = re.search(r"^%s\s*=\s*\[([^\]]*)\]" % re.escape(sym), t, re.M)
    body = re.sub(r"#.*", "", m.group(1))
    nums = [int(x, 0) for x in re.findall(r"-?0[xX][0-9a-fA-F]+|-?\d+", body)]
    first = t.count("\n", 0, m.start()) + 1
    last = t.count("\n", 0, m.end()) + 1
    return nums, (first, last)

def scalar(fname, sym):
    t = text(fname)
    m = re.search(r"^%s\s*=\s*(0[xX][0-9a-fA-F]+|\d+)\s*$" % re.escape(sym), t, re.M)
    return int(m.group(1), 0), t.count("\n", 0, m.start()) + 1

def consts(*fnames):
    """Integer constants `NAME = expr` of the given files (names, numbers, + - * << | and parentheses)."""
    env = {}
    for fn in fnames:
        for line in text(fn).splitlines():
            m = re.match(r"^([A-Za-z_]\w*)\s*=\s*([^#]+?)\s*(#.*)?$", line)
            if not m:
                continue
            e = m.group(2).rstrip("\\").strip()
            if not re.fullmatch(r"[\w\s+\-*<|()]+", e):
                continue
            try:
                v = eval(e, {"__builtins__": {}}, env)
            except Exception:
                continue
            if isinstance(v, int):
                env[m.group(1)] = v
    return env

def dictionary(fname, sym, env):
    """The `key: "name"` entries of a dictionary literal, keys resolved in env."""
    t = text(fname)
    m = re.search(r"^%s\s*(?::[^=]*)?=\s*\{(.*?)^\}" % re.escape(sym), t, re.M | re.S)
    first = t.count("\n", 0, m.start()) + 1
    last = t.count("\n", 0, m.end()) + 1
    out = []
    for line in m.group(1).splitlines():
        line = re.sub(r"#.*", "", line).strip().rstrip(",")
        if not line:
            continue
        k, v = re.match(r"(\S+)\s*:\s*[\"'](.*)[\"']$", line).groups()
        out.append((env[k] if not k.isdigit() else int(k), v))
    return out, (first, last)
