#!/usr/bin/env python3
"""Translate the unit tests of /repo into Lean checks of the model (lean/Verif/Tests/*.lean)."""
import re, os
REPO = "/repo/src/parser/"
OUT = os.path.join(os.path.dirname(os.path.abspath(__file__)), "..", "lean", "Verif", "Tests")
TOK = re.compile(r'''\s+|//[^\n]*|"(?:\\.|[^"\\])*"|'(?:\\.|[^'\\])'|\d+(?:u32)?|[A-Za-z_][A-Za-z_0-9]*!?|=>|::|\.\.|[^\s]''')

def lex(s):
    out = []
    i = 0
    while i < len(s):
        m = TOK.match(s, i)
        assert m, s[i:i+40]
        i = m.end()
        t = m.group(0)
        if t.strip() and not t.startswith("//"): out.append(t)
    return out

class Slot:
    def __init__(self): self.kind = None; self.items = {}; self.n = None; self.args = None; self.name = None; self.txt = None; self.pfx = None
    def item(self, i):
        self.kind = "list"
        return self.items.setdefault(i, Slot())

def unesc(s):
    body = s[1:-1]
    return body.encode().decode("unicode_escape")

def chars(s):
    return "[" + ", ".join(ch(c) for c in s) + "]"
def ch(c):
    return {"'": "'\\''", "\\": "'\\\\'", "\n": "'\\n'", "\r": "'\\r'", "\t": "'\\t'", "\0": "'\\x00'"}.get(c, "'%s'" % c)

class P:
    def __init__(self, toks, env): self.t = toks; self.i = 0; self.env = env
    def peek(self): return self.t[self.i] if self.i < len(self.t) else None
    def next(self): self.i += 1; return self.t[self.i-1]
    def expect(self, x):
        y = self.next(); assert x == y, (x, y, self.t[max(0,self.i-12):self.i+8])
    def block(self, env):
        self.expect("{"); self.stmts(env); self.expect("}")
    def stmts(self, env):
        while self.peek() not in ("}", None): self.stmt(env)
    def stmt(self, env):
        t = self.peek()
        if t == ";": self.next()
        elif t == "match": self.match(env)
        elif t == "let":
            self.next()
            if self.peek() == "mut": self.next()
            x = self.next(); self.expect("=")
            env[x] = self.expr(env); self.expect(";")
        elif t in ("assert!", "assert_eq!"):
            self.next(); self.expect("(")
            if t == "assert!":
                v = self.next(); assert v == "true", v; self.expect(")")
            else:
                a = self.expr(env); self.expect(","); b = self.expr(env); self.expect(")")
                self.equal(a, b)
        else: raise Exception(("stmt", self.t[self.i:self.i+12]))
    def equal(self, a, b):
        if isinstance(a, (str, int)): a, b = b, a
        if isinstance(a, tuple) and a[0] == "len": a[1].kind = "list"; a[1].n = b
        else: assert a.kind in (None, "text", "some"), a.kind; a.kind = "text"; a.txt = b
    def expr(self, env):
        t = self.next()
        while t in ("&", "*"): t = self.next()
        if t == "(":
            v = self.expr(env); self.expect(")")
        elif t[0] == '"': v = unesc(t)
        elif t.isdigit(): v = int(t)
        else: v = env[t]
        while self.peek() in (".", "["):
            if self.next() == "[":
                n = int(self.next()); self.expect("]"); v = v.item(n)
            else:
                f = self.next(); self.expect("("); self.expect(")")
                if f == "len": v = ("len", v)
                elif f == "last": v.n = 1; v = v.item(0)
                else: assert f in ("clone", "as_str"), f
        return v
    def match(self, env):
        self.expect("match"); v = self.expr(env); self.expect("{")
        first = True
        while self.peek() != "}":
            save = self.i; d = 0
            while not (d == 0 and self.peek() == "=>"):
                x = self.next(); d += x in "([{"; d -= x in ")]}"
            self.next()
            if not first or self.t[self.i:self.i+4] == ["assert!", "(", "false", ")"]:
                self.skip()
                if self.peek() == ",": self.next()
                continue
            self.i = save
            e = dict(env); self.pattern(v, e, False); self.expect("=>")
            if self.peek() == "{": self.block(e)
            else: self.stmt(e)
            if self.peek() == ",": self.next()
            first = False
        self.expect("}")
    def skip(self):
        d = 0
        while True:
            x = self.peek()
            if d == 0 and x in (",", "}"): return
            self.next(); d += x in "([{"; d -= x in ")]}"
            if d == 0 and x == "}": return
    def pattern(self, v, env, inner):
        t = self.next()
        if t in ("Ok", "Some"):
            self.expect("("); self.pattern(v, env, True); self.expect(")")
            if t == "Some" and v.kind is None: v.kind = "some"
        elif t == "None": v.kind = "none"
        elif t == "(":
            i = 0
            while self.peek() != ")":
                self.pattern(v.item(i), env, True); i += 1
                if self.peek() == ",": self.next()
            v.n = i; self.expect(")")
        elif t in ("Token", "ASTNode", "Trivia") or t == "PySemiColon":
            if t == "PySemiColon": v.kind = "Token"; v.name = t
            else: self.expect("::"); v.kind = t; v.name = self.next()
            self.expect("(")
            v.args = []
            while self.peek() != ")":
                a = Slot(); self.pattern(a, env, True); v.args.append(a)
                if self.peek() == ",": self.next()
            self.expect(")")
        elif t[0] == '"': v.kind = "text"; v.txt = unesc(t)
        elif t[0] == "'": v.kind = "char"; v.txt = unesc(t)
        elif re.match(r"\d", t): v.kind = "int"; v.txt = int(t.replace("u32", ""))
        elif t == "_": pass
        else: env[t] = v

def nat(a): return "none" if a.kind is None else "(some %d)" % a.txt
def emit(v):
    if v.kind in (None, "some"): return ".any"
    if v.kind == "none": return ".none"
    if v.kind == "ASTNode":
        return "(.node .%s %d %d [%s])" % (v.name, v.args[0].txt, v.args[1].txt, ", ".join(emit(a) for a in v.args[2:]))
    if v.kind == "list":
        m = max(v.items, default=-1) + 1
        assert v.n is not None
        return "(.seq %d [%s])" % (v.n, ", ".join(emit(v.items[i]) if i in v.items else ".any" for i in range(m)))
    if v.kind == "Token":
        a = v.args
        if v.name == "Newline": return "(.newline %d %d %s %s)" % (a[0].txt, a[1].txt, ch(a[3].txt), ch(a[4].txt))
        nt = "none"
        if a[2].kind == "none": nt = "(some none)"
        if a[2].kind == "list":
            assert sorted(a[2].items) == list(range(a[2].n)) and all(x.name == "WhiteSpace" for x in a[2].items.values())
            nt = "(some (some [%s]))" % ", ".join(".whiteSpace %d %d %s" % (x.args[0].txt, x.args[1].txt, ch(x.args[2].txt)) for x in (a[2].items[i] for i in range(a[2].n)))
        txt = "none"; pfx = "none"
        if len(a) > 3 and a[3].kind == "text": txt = "(some %s)" % chars(a[3].txt)
        if len(a) > 4 and a[4].kind == "text": pfx = "(some %s)" % chars(a[4].txt)
        return "(.tok .%s %s %s %s %s %s)" % (v.name, nat(a[0]), nat(a[1]), nt, txt, pfx)
    raise Exception(v.kind)

def camel(f):
    f = re.sub(r"^parse_(expressions|statements|blocks|functions)_", "", f)
    p = f.split("_")
    return p[0] + "".join(x.capitalize() for x in p[1:])

def tests(path):
    s = open(REPO + path).read()
    s = s[s.index("mod tests"):]
    for part in s.split("#[test]")[1:]:
        m = re.search(r"fn (\w+)\(\)\s*\{", part)
        d = 0; i = m.end() - 1; j = i
        for mm in TOK.finditer(part, i):
            t = mm.group(0)
            if t == "{": d += 1
            if t == "}": d -= 1
            if d == 0 and t == "}": j = mm.end(); break
        yield m.group(1), part[i+1:j-1]

total = 0
for path, mod in [("tokenizer.rs", "Tokenizer"), ("expressions.rs", "Expressions"), ("statements.rs", "Statements")]:
    out = ["import Verif.Tests.Pat", "", "/-!", "# The unit tests of `%s`, run on the model (generated by `tools/conform.py`)" % path, "-/", "", "namespace Verif", ""]
    for name, body in tests(path):
        m = re.search(r'PythonCoreTokenizer::new\(\s*("(?:\\.|[^"\\])*")\.to_string', body)
        if not m: print("skipped", name, body.strip()[:60]); continue
        src = chars(unesc(m.group(1)))
        br = re.findall(r"parenthesis\.push\(('.')\)", body)
        k = body.index("match ")
        rest = re.sub(r"let _pattern = [^;]*;", "", body[k:])
        top = Slot()
        fn = re.search(r"parser\.(parse_\w+)\(\)", body)
        if fn is None: rest = rest.replace("tokenizer.get_symbol()", "res", 1)
        env = {"res": top}
        p = P(lex(rest), env); p.stmts(env)
        assert p.peek() is None
        lhs = "parses .%s %s" % (camel(fn.group(1)), src) if fn else "lexes [%s] %s" % (", ".join(br), src)
        ok = "false" if re.search(r"Err\(.*\) => assert!\(true\)", body) else "true"
        out += ["/-- `%s` `%s` -/" % (path, name), "example : %s\n    %s = %s := by decide +kernel" % (lhs, emit(top), ok), ""]
        total += 1
    out.append("end Verif\n")
    open(os.path.join(OUT, mod + ".lean"), "w").write("\n".join(out))
print(total)
