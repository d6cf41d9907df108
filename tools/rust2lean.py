#!/usr/bin/env python3
"""Translates the Rust functions of /repo/src into Lean definitions, statement by statement.

Usage: python3 tools/rust2lean.py            (writes lean/Verif/Gen/*.lean)

The output is compared with the hand-written model by theorems in lean/Verif/Proofs/Source*.lean.
The translation is purely syntactic; the meaning of Rust operations is in lean/Verif/Gen/Rt.lean.

- A `let`, an assignment and a call of a `&mut self` method become a shadowing `let`.
- A `for` loop becomes a `foldlM` over the index list; the state is the tuple of the outer variables
  assigned in the body.
- Every operation that may panic (checked arithmetic, indexing, `assert!`, `todo!`, `unwrap`) is an
  `Option` bound at the place where Rust evaluates it. A function without such operations is pure.
- Unsigned integers are `ℕ`, signed integers are `ℤ`, arrays are lists, newtypes of arrays are the
  list itself. References disappear.
- Integer types are inferred by unification as in Rust; an unconstrained literal is an `i32`.
- A source of random bytes is any state `σ` with a function that gives so many bytes and the next state.
"""
import os, re, sys

REPO = os.environ.get("REPO_SRC", "/repo/src")
OUT = os.path.join(os.path.dirname(os.path.dirname(os.path.abspath(__file__))), "lean/Verif/Gen")

# ---------------------------------------------------------------- lexer

TOK = re.compile(r"""
 (?P<ws>\s+|//[^\n]*|/\*.*?\*/)
|(?P<num>0x[0-9a-fA-F_]+(?:[ui](?:8|16|32|64|128|size))?|[0-9][0-9_]*(?:[ui](?:8|16|32|64|128|size))?)
|(?P<life>'[a-z_]+)
|(?P<id>[A-Za-z_][A-Za-z0-9_]*)
|(?P<str>"[^"]*")
|(?P<op><<=|>>=|\.\.=|\.\.|->|=>|::|&&|\|\||==|!=|<=|>=|\+=|-=|\*=|\|=|&=|\^=|<<|>>|[-+*/%&|^!<>=.,;:(){}\[\]#?@'$])
""", re.X | re.S)


def lex(src):
    pos, out, line = 0, [], 1
    while pos < len(src):
        m = TOK.match(src, pos)
        if not m:
            raise SyntaxError("lex %d: %r" % (line, src[pos:pos + 20]))
        k = m.lastgroup
        if k != "ws":
            out.append((k, m.group(), line))
        line += m.group().count("\n")
        pos = m.end()
    out.append(("eof", "", line))
    return out


# ---------------------------------------------------------------- AST


class N:
    def __init__(self, k, line, **kw):
        self.k = k
        self.line = line
        self.ty = None
        self.__dict__.update(kw)


class P:
    """Parser of the Rust subset."""

    def __init__(self, toks):
        self.t = toks
        self.i = 0
        self.nostruct = False

    def pk(self, o=0):
        return self.t[self.i + o][1]

    def kind(self, o=0):
        return self.t[self.i + o][0]

    def line(self):
        return self.t[self.i][2]

    def nx(self):
        v = self.t[self.i]
        self.i += 1
        return v[1]

    def eat(self, s):
        if self.kind() != "str" and self.pk() == s:
            self.i += 1
            return True
        return False

    def ex(self, s):
        if not self.eat(s):
            raise SyntaxError("line %d: expected %r got %r" % (self.line(), s, self.pk()))

    def skip_attr(self):
        a = ""
        while self.pk() == "#":
            self.nx()
            self.eat("!")
            self.ex("[")
            d = 1
            while d:
                x = self.nx()
                a += x
                d += (x == "[") - (x == "]")
            a += ";"
        return a

    def skip_braces(self):
        self.ex("{")
        d = 1
        while d:
            x = self.nx()
            d += (x == "{") - (x == "}")

    # items
    def items(self, end):
        out = []
        while self.pk() != end and self.kind() != "eof":
            attr = self.skip_attr()
            if self.kind() == "eof":
                break
            l0 = self.line()
            if self.eat("pub"):
                if self.eat("("):
                    while not self.eat(")"):
                        self.nx()
            x = self.pk()
            if x == "type":
                self.nx()
                n = self.nx()
                self.ex("=")
                out.append(N("type", l0, name=n, t=self.ty()))
                self.ex(";")
            elif x == "use":
                while not self.eat(";"):
                    self.nx()
            elif x == "mod":
                self.nx()
                n = self.nx()
                if self.eat(";"):
                    pass
                elif n in ("test", "tests"):
                    self.ex("{")
                    for f in self.items("}"):
                        f.attr += "test"
                        out.append(f)
                    self.ex("}")
                else:
                    self.skip_braces()
            elif x == "struct":
                while self.pk() not in "{;(":
                    self.nx()
                if self.pk() == "{":
                    self.skip_braces()
                else:
                    d = 0
                    while True:
                        y = self.nx()
                        d += (y in "([") - (y in ")]")
                        if y == ";" and d == 0:
                            break
            elif x == "const" and self.pk(1) != "fn":
                self.nx()
                nm = self.nx()
                self.ex(":")
                ty = self.ty()
                self.ex("=")
                e = self.expr()
                l1 = self.line()
                self.ex(";")
                out.append(N("const", l0, name=nm, t=ty, e=e, end=l1))
            elif x in ("fn", "const"):
                f = self.fn()
                f.attr = attr
                f.line = l0
                out.append(f)
            elif x == "impl":
                self.nx()
                if self.eat("<"):
                    d = 1
                    while d:
                        y = self.nx()
                        d += (y == "<") - (y == ">") - 2 * (y == ">>")
                a = self.ty()
                tr = None
                if self.eat("for"):
                    tr = a
                    a = self.ty()
                if self.eat("where"):
                    while self.pk() != "{":
                        self.nx()
                self.ex("{")
                its = self.items("}")
                self.ex("}")
                out.append(N("impl", l0, t=a, trait=tr, items=its))
            elif x == "macro_rules":
                self.nx()
                self.ex("!")
                n = self.nx()
                self.ex("{")
                self.ex("(")
                ps, d = [], 1
                while d:
                    y = self.nx()
                    d += (y == "(") - (y == ")")
                    if self.pk() == "$":
                        ps.append((y, self.pk(1))) if y != "=" else ps.append((self.t[self.i - 2][1], self.pk(1)))
                self.ex("=>")
                i0 = self.i + 1
                self.skip_braces()
                out.append(N("rules", l0, name=n, ps=ps, toks=self.t[i0:self.i - 1]))
                self.eat(";")
                self.ex("}")
            elif self.pk(1) == "!":
                n = self.nx()
                self.nx()
                self.ex("(")
                d, args = 1, []
                while not self.eat(")"):
                    k = self.nx()
                    self.ex("=")
                    args.append((k, self.nx()))
                    self.eat(",")
                self.eat(";")
                out.append(N("invoke", l0, name=n, args=dict(args)))
            else:
                raise SyntaxError("line %d: item %r" % (self.line(), x))
        return out

    def fn(self):
        l0 = self.line()
        self.eat("const")
        self.ex("fn")
        nm = self.nx()
        if self.eat("<"):
            while not self.eat(">"):
                self.nx()
        self.ex("(")
        ps = []
        while not self.eat(")"):
            ref = mut = False
            if self.eat("&"):
                ref = True
                if self.kind() == "life":
                    self.nx()
            if self.eat("mut"):
                mut = True
            n = self.nx()
            if n == "self":
                ps.append(("self", ("name", "Self", []), ref and mut))
            else:
                self.ex(":")
                t = self.ty()
                ps.append((n, t, t[0] == "refmut"))
            self.eat(",")
        rt = ("tuple", [])
        if self.eat("->"):
            rt = self.ty()
        if self.eat("where"):
            while self.pk() != "{":
                self.nx()
        b = self.block()
        return N("fn", l0, name=nm, params=ps, ret=rt, body=b, end=self.t[self.i - 1][2])

    def ty(self):
        if self.eat("&"):
            if self.kind() == "life":
                self.nx()
            if self.eat("mut"):
                return ("refmut", self.ty())
            return self.ty()
        if self.eat("["):
            e = self.ty()
            n = None
            if self.eat(";"):
                n = int(self.nx(), 0)
            self.ex("]")
            return ("arr", e, n)
        if self.eat("("):
            l = []
            while not self.eat(")"):
                l.append(self.ty())
                self.eat(",")
            return ("tuple", l)
        n = self.nx()
        while self.eat("::"):
            n = self.nx()
        args = []
        if self.eat("<"):
            while not self.eat(">"):
                if self.kind() == "life":
                    self.nx()
                elif self.pk(1) == "=":
                    self.nx(), self.nx()
                    self.ty()
                else:
                    args.append(self.ty())
                self.eat(",")
        return ("name", n, args)

    # statements
    def block(self):
        l0 = self.line()
        self.ex("{")
        ns, self.nostruct = self.nostruct, False
        st = []
        tail = None
        while not self.eat("}"):
            self.skip_attr()
            l = self.line()
            if self.eat("let"):
                p = self.pat()
                t = None
                if self.eat(":"):
                    t = self.ty()
                e = None
                if self.eat("="):
                    e = self.expr()
                self.ex(";")
                st.append(N("let", l, p=p, t=t, e=e))
            elif self.pk() == "const":
                self.nx()
                nm = self.nx()
                self.ex(":")
                t = self.ty()
                self.ex("=")
                e = self.expr()
                self.ex(";")
                st.append(N("let", l, p=("id", nm), t=t, e=e, const=True))
            elif self.pk() == "fn":
                st.append(N("localfn", l, f=self.fn()))
            elif self.pk() == "use":
                toks = []
                while not self.eat(";"):
                    toks.append(self.nx())
                if "as" in toks:
                    st.append(N("let", l, p=("id", toks[-1]), t=None, e=N("path", l, p=[toks[-3]])))
            elif self.eat(";"):
                pass
            else:
                # an expression statement that begins with a block ends with it
                e = self.prim() if self.pk() in ("for", "if", "{", "match") else self.expr()
                if e.k in ("for", "if", "block", "match") and self.pk() not in ("}", ";"):
                    st.append(N("expr", l, e=e))
                elif self.pk() in ("=", "+=", "-=", "*=", ">>=", "<<=", "|=", "&=", "^="):
                    op = self.nx()
                    r = self.expr()
                    st.append(N("assign", l, op=op, lhs=e, e=r))
                    if not self.eat(";") and self.pk() != "}":
                        raise SyntaxError("line %d: assign" % self.line())
                elif self.eat(";"):
                    st.append(N("expr", l, e=e))
                elif self.pk() == "}":
                    tail = e
                else:
                    raise SyntaxError("line %d: stmt %r" % (self.line(), self.pk()))
        if tail is not None and tail.k == "for":
            st.append(N("expr", tail.line, e=tail))
            tail = None
        self.nostruct = ns
        return N("block", l0, st=st, tail=tail)

    def pat(self):
        if self.eat("("):
            l = []
            while not self.eat(")"):
                l.append(self.pat())
                self.eat(",")
            return ("tup", l)
        self.eat("mut")
        n = self.nx()
        return ("wild",) if n == "_" else ("id", n)

    # expressions
    PREC = {"||": 1, "&&": 2, "==": 3, "!=": 3, "<": 3, ">": 3, "<=": 3, ">=": 3, "|": 4, "^": 5, "&": 6,
            "<<": 7, ">>": 7, "+": 8, "-": 8, "*": 9, "/": 9, "%": 9}

    def expr(self):
        l = self.line()
        if self.pk() == "return":
            self.nx()
            e = None if self.pk() in ";}" else self.expr()
            return N("return", l, e=e)
        if self.pk() == "|":
            self.nx()
            ps = []
            while not self.eat("|"):
                n = self.nx()
                t = None
                if self.eat(":"):
                    t = self.ty()
                ps.append((n, t))
                self.eat(",")
            rt = None
            if self.eat("->"):
                rt = self.ty()
            b = self.block() if self.pk() == "{" else N("block", l, st=[], tail=self.expr())
            return N("closure", l, ps=ps, rt=rt, body=b)
        a = self.bin(0)
        if self.pk() in ("..", "..="):
            inc = self.nx() == "..="
            b = None if self.pk() in ("]", ")") else self.bin(0)
            return N("range", l, a=a, b=b, inc=inc)
        return a

    def bin(self, p):
        a = self.cast()
        while self.kind() == "op" and self.pk() in self.PREC and self.PREC[self.pk()] > p:
            l = self.line()
            op = self.nx()
            b = self.bin(self.PREC[op])
            a = N("bin", l, op=op, a=a, b=b)
        return a

    def cast(self):
        a = self.unary()
        while self.pk() == "as":
            l = self.line()
            self.nx()
            a = N("cast", l, a=a, t=self.ty())
        return a

    def unary(self):
        l = self.line()
        if self.pk() == "-":
            self.nx()
            return N("neg", l, a=self.unary())
        if self.pk() == "!":
            self.nx()
            return N("not", l, a=self.unary())
        if self.eat("&"):
            if self.eat("mut"):
                return N("refmut", l, a=self.unary())
            return self.unary()
        if self.eat("*"):
            return self.unary()
        return self.postfix()

    def args(self):
        ns, self.nostruct = self.nostruct, False
        self.ex("(")
        l = []
        while not self.eat(")"):
            l.append(self.expr())
            self.eat(",")
        self.nostruct = ns
        return l

    def postfix(self):
        e = self.prim()
        while True:
            l = self.line()
            if self.pk() == ".":
                self.nx()
                n = self.nx()
                if self.pk() == "(":
                    e = N("method", l, a=e, m=n, args=self.args())
                else:
                    e = N("field", l, a=e, f=n)
            elif self.pk() == "(":
                e = N("call", l, f=e, args=self.args())
            elif self.pk() == "[":
                self.nx()
                ns, self.nostruct = self.nostruct, False
                if self.pk() == "..":
                    self.nx()
                    self.ex("]")
                else:
                    i = self.expr()
                    self.ex("]")
                    e = N("index", l, a=e, i=i)
                self.nostruct = ns
            else:
                return e

    def prim(self):
        l = self.line()
        k = self.kind()
        if k == "num":
            s = self.nx().replace("_", "")
            m = re.match(r"(0x[0-9a-fA-F]+?|[0-9]+)((?:[ui](?:8|16|32|64|128|size)))?$", s)
            return N("num", l, v=int(m.group(1), 0), suf=m.group(2))
        if self.eat("("):
            ns, self.nostruct = self.nostruct, False
            if self.eat(")"):
                self.nostruct = ns
                return N("tuple", l, es=[])
            e = self.expr()
            if self.pk() == ",":
                es = [e]
                while self.eat(","):
                    if self.pk() != ")":
                        es.append(self.expr())
                e = N("tuple", l, es=es)
            self.ex(")")
            self.nostruct = ns
            return e
        if self.eat("["):
            ns, self.nostruct = self.nostruct, False
            es = []
            if self.pk() != "]":
                es.append(self.expr())
                if self.eat(";"):
                    n = self.expr()
                    self.ex("]")
                    self.nostruct = ns
                    return N("rep", l, e=es[0], n=n)
                while self.eat(","):
                    if self.pk() != "]":
                        es.append(self.expr())
            self.ex("]")
            self.nostruct = ns
            return N("array", l, es=es)
        if self.pk() == "{":
            return self.block()
        if self.eat("if"):
            ns, self.nostruct = self.nostruct, True
            c = self.expr()
            self.nostruct = ns
            a = self.block()
            b = None
            if self.eat("else"):
                b = self.prim() if self.pk() == "if" else self.block()
                if b.k == "if":
                    b = N("block", l, st=[], tail=b)
            return N("if", l, c=c, a=a, b=b)
        if self.eat("match"):
            # only `match e { Some(x) => a, None => b }`
            ns, self.nostruct = self.nostruct, True
            c = self.expr()
            self.nostruct = ns
            self.ex("{")
            self.ex("Some")
            self.ex("(")
            x = self.nx()
            self.ex(")")
            self.ex("=>")
            a = self.expr()
            self.eat(",")
            self.ex("None")
            self.ex("=>")
            b = self.expr()
            self.eat(",")
            self.ex("}")
            return N("match", l, c=c, x=x, a=a, b=b)
        if self.eat("for"):
            p = self.pat()
            self.ex("in")
            ns, self.nostruct = self.nostruct, True
            it = self.expr()
            self.nostruct = ns
            b = self.block()
            return N("for", l, p=p, it=it, body=b)
        if k == "id":
            n = self.nx()
            path = [n]
            while self.pk() == "::":
                self.nx()
                if self.eat("<"):
                    while not self.eat(">"):
                        self.nx()
                    continue
                path.append(self.nx())
            if self.pk() == "!":
                self.nx()
                return N("macro", l, name=n, args=self.args())
            if self.pk() == "{" and not self.nostruct and n[0].isupper():
                self.nx()
                fs = []
                while not self.eat("}"):
                    f = self.nx()
                    v = self.expr() if self.eat(":") else N("path", l, p=[f])
                    fs.append((f, v))
                    self.eat(",")
                return N("struct", l, name=n, fs=fs)
            return N("path", l, p=path)
        if self.kind() == "str":
            return N("str", l, v=self.nx())
        raise SyntaxError("line %d: prim %r" % (l, self.pk()))


# ---------------------------------------------------------------- types


class TV:
    """Type variable of an integer literal."""

    def __init__(self):
        self.r = None


INTS = {"u8": 8, "u16": 16, "u32": 32, "u64": 64, "u128": 128, "usize": 64, "i8": 8, "i32": 32, "i64": 64,
        "i128": 128, "isize": 64}


def find(t):
    while isinstance(t, TV) and t.r is not None:
        t = t.r
    return t


def unify(a, b, line=0):
    a, b = find(a), find(b)
    if a is b:
        return a
    if isinstance(a, TV):
        a.r = b
        return b
    if isinstance(b, TV):
        b.r = a
        return a
    if a[0] == "arr" and b[0] == "arr":
        unify(a[1], b[1], line)
        return a
    if a[0] == "tuple" and b[0] == "tuple":
        for x, y in zip(a[1], b[1]):
            unify(x, y, line)
        return a
    if a[0] == "opt" and b[0] == "opt":
        unify(a[1], b[1], line)
        return a
    if {a, b} == {("F",), ("L",)}:
        return a
    if a != b:
        raise TypeError("line %d: %r vs %r" % (line, a, b))
    return a


def res(t):
    t = find(t)
    if isinstance(t, TV):
        t.r = ("int", "i32")
        return t.r
    return t


def signed(t):
    return t[1][0] == "i"


def width(t):
    return INTS[t[1]]


# Structs: Rust fields -> Lean fields.
STRUCTS = {
    "EdPt": [("X", "X"), ("Y", "Y"), ("Z", "Z"), ("T", "T")],
    "TwPt": [("X", "X"), ("Y", "Y"), ("Z", "Z"), ("T", "T")],
    "TwExt": [("X", "X"), ("Y", "Y"), ("Z", "Z"), ("T1", "T1"), ("T2", "T2")],
    "EdAff": [("x", "x"), ("y", "y")],
    "TwAff": [("x", "x"), ("y", "y")],
    "PNiels": [("Y_plus_X", "YpX"), ("Y_minus_X", "YmX"), ("Td", "Td"), ("Z", "Z")],
    "ANiels": [("y_plus_x", "YpX"), ("y_minus_x", "YmX"), ("td", "td")],
    "ProjMont": [("U", "U"), ("W", "W")],
}
# Newtypes represented by their content.
NEWTYPES = {
    "Scalar": ("arr", ("int", "u32"), 14),
    "FieldElement28": ("arr", ("int", "u32"), 16),
    "FieldElement56": ("nt", "fiat_p448_tight_field_element"),
    "fiat_p448_tight_field_element": ("arr", ("int", "u64"), 8),
    "fiat_p448_loose_field_element": ("arr", ("int", "u64"), 8),
    "MontgomeryPoint": ("arr", ("int", "u8"), 56),
    "CompressedEdwardsY": ("arr", ("int", "u8"), 57),
    "CompressedDecaf": ("arr", ("int", "u8"), 56),
    "CompressedRistretto": ("arr", ("int", "u8"), 56),
    "LookupTable": ("arr", ("struct", "PNiels"), 8),
}
# Newtypes around a point: Lean structure with field `pt`.
WRAP = {"DecafPt": ("struct", "TwPt"), "RistPt": ("struct", "TwPt")}


def lty(t, top=True):
    """Lean type."""
    t = res(t)
    k = t[0]
    if k == "int":
        return "ℤ" if signed(t) else "ℕ"
    if k == "bool":
        return "Bool"
    if k in ("F", "L"):
        return k
    if k == "nt":
        return lty(NEWTYPES[t[1]], top)
    if k == "arr":
        s = "List " + lty(t[1], False)
    elif k == "opt":
        s = "Option " + lty(t[1], False)
    elif k in ("struct", "wrap"):
        s = "Model.%s F" % t[1]
    elif k == "rng":
        return "σ"
    elif k == "tuple":
        if not t[1]:
            return "Unit"
        s = " × ".join(lty(x, False) for x in t[1])
    else:
        raise TypeError("lty %r" % (t,))
    return s if top else "(" + s + ")"


U8, U32, U64, USZ, BOOL, F, L, UNIT = (("int", "u8"), ("int", "u32"), ("int", "u64"), ("int", "usize"),
                                       ("bool",), ("F",), ("L",), ("tuple", []))


def repr_ty(t):
    t = find(t)
    while not isinstance(t, TV) and t[0] == "nt":
        t = NEWTYPES[t[1]]
    return t


# ---------------------------------------------------------------- program


class Fn:
    def __init__(self, key, lean, ast, selft, file, ps, ret, alias):
        self.key, self.lean, self.ast, self.selft, self.file = key, lean, ast, selft, file
        self.ps, self.ret, self.alias = ps, ret, alias
        self.fall = False
        self.leaky = False
        self.muts = [n for n, t, m in ast.params if m]
        self.calls = set()
        self.generic = False
        self.needX = False
        self.module = None
        self.test = "test" in getattr(ast, "attr", "")


class Prog:
    def __init__(self):
        self.fns = {}
        self.consts = {}
        self.order = []

    def ty(self, t, alias, selft):
        if t[0] == "refmut":
            return self.ty(t[1], alias, selft)
        if t[0] == "arr":
            return ("arr", self.ty(t[1], alias, selft), t[2])
        if t[0] == "tuple":
            return ("tuple", [self.ty(x, alias, selft) for x in t[1]])
        n = t[1]
        if n == "Self":
            return selft
        if n == "Output":
            return None
        if n in INTS:
            return ("int", n)
        if n in ("bool", "Choice"):
            return BOOL
        if n == "Option":
            return ("opt", self.ty(t[2][0], alias, selft))
        if n == "Vec":
            return ("arr", self.ty(t[2][0], alias, selft), None)
        if n in alias:
            return alias[n]
        if n in NEWTYPES:
            return ("nt", n)
        if n == "str":
            return ("arr", U8, None)
        raise TypeError("type %r" % (t,))


# Files: module, alias table, list of skipped functions (with the reason).
S = lambda n: ("struct", n)
W = lambda n: ("wrap", n)
FILES = [
    ("field/scalar.rs", "Scalar", {"R": ("rng",)}, set()),
    ("constants.rs", "Scalar", {}, {"DECAF_BASEPOINT"}),
    ("field/u32/prime_field.rs", "U32", {}, set()),
    ("field/u32/karatsuba.rs", "U32", {}, set()),
    ("field/u32/constants.rs", "U32", {"FieldElement": ("nt", "FieldElement28")}, set()),
    ("field/fiat_u64/prime_field.rs", "Fiat", {}, {"fmt"}),
    ("field/fiat_u64/constants.rs", "Fiat", {}, set()),
    ("field/mod.rs", "Curve", {"FieldElement": F}, set()),
    ("curve/edwards/affine.rs", "Curve", {"FieldElement": F, "AffinePoint": S("EdAff"), "ExtendedPoint": S("EdPt")}, set()),
    ("curve/edwards/extended.rs", "Curve",
     {"FieldElement": F, "AffinePoint": S("EdAff"), "ExtendedPoint": S("EdPt"), "TwistedExtendedPoint": S("TwPt"),
      "I": ("arr", S("EdPt"), None)}, set()),
    ("curve/twedwards/extensible.rs", "Curve",
     {"FieldElement": F, "ExtensiblePoint": S("TwExt"), "ExtendedPoint": S("TwPt"), "ProjectiveNielsPoint": S("PNiels"),
      "AffineNielsPoint": S("ANiels")}, set()),
    ("curve/twedwards/extended.rs", "Curve",
     {"FieldElement": F, "ExtensiblePoint": S("TwExt"), "ExtendedPoint": S("TwPt"), "EdwardsExtendedPoint": S("EdPt"),
      "AffinePoint": S("TwAff")}, set()),
    ("curve/twedwards/projective.rs", "Curve",
     {"FieldElement": F, "ExtensiblePoint": S("TwExt"), "ExtendedPoint": S("TwPt"), "ProjectiveNielsPoint": S("PNiels")},
     set()),
    ("curve/twedwards/affine.rs", "Curve",
     {"FieldElement": F, "ExtensiblePoint": S("TwExt"), "ExtendedPoint": S("TwPt"), "AffinePoint": S("TwAff"),
      "AffineNielsPoint": S("ANiels")}, set()),
    ("curve/scalar_mul/window/wnaf/mod.rs", "Curve",
     {"ExtendedPoint": S("TwPt"), "ProjectiveNielsPoint": S("PNiels")}, set()),
    ("curve/scalar_mul/variable_base.rs", "Curve",
     {"ExtendedPoint": S("TwPt"), "ExtensiblePoint": S("TwExt")}, set()),
    ("curve/scalar_mul/double_and_add.rs", "Curve", {"ExtendedPoint": S("TwPt")}, set()),
    ("curve/scalar_mul/double_base.rs", "Curve", {"ExtendedPoint": S("TwPt")}, set()),
    ("curve/montgomery/montgomery.rs", "Curve",
     {"FieldElement": F, "ProjectiveMontgomeryPoint": S("ProjMont"), "ExtendedPoint": S("EdPt")}, {"fmt"}),
    ("decaf/decaf.rs", "Curve",
     {"FieldElement": F, "ExtendedPoint": S("TwPt"), "DecafPoint": W("DecafPt")}, {"fmt"}),
    ("decaf/ops.rs", "Curve", {"DecafPoint": W("DecafPt")}, set()),
    ("ristretto/ristretto.rs", "Curve", {"ExtendedPoint": S("TwPt"), "RistrettoPoint": W("RistPt")}, {"fmt"}),
]
# Parameters of type FieldElement that receive a loose constant.
LOOSE_PARAM = {("EdPt", "edwards_isogeny"): {"a"}, ("TwPt", "edwards_isogeny"): {"a"}}
# Constants of the field backend.
FCONST = {"EDWARDS_D": L, "TWISTED_D": L, "TWO_TIMES_TWISTED_D": L, "NEG_EDWARDS_D": F,
          "NEG_FOUR_TIMES_TWISTED_D": F, "DECAF_FACTOR": F, "A_PLUS_TWO_OVER_FOUR": F}
PCONST = {"GOLDILOCKS_BASE_POINT": S("EdPt"), "TWISTED_EDWARDS_BASE_POINT": S("TwPt")}
RENAME = {"F": "F'", "L": "L'", "at": "at'", "end": "end'", "from": "from'"}


# The external functions of fiat_crypto: types of the arguments, the first one is the output.
TI, LO = ("nt", "fiat_p448_tight_field_element"), ("nt", "fiat_p448_loose_field_element")
RAW, B56 = ("arr", ("int", "u64"), 8), ("arr", ("int", "u8"), 56)
FIAT = {"relax": [LO, TI], "carry": [TI, LO], "carry_mul": [TI, LO, LO], "carry_square": [TI, LO],
        "add": [LO, TI, TI], "sub": [LO, TI, TI], "opp": [LO, TI], "selectznz": [RAW, ("int", "u8"), RAW, RAW],
        "to_bytes": [B56, TI], "from_bytes": [TI, B56]}


def tname(t):
    t = find(t)
    if t[0] == "F":
        return "Field"
    if t[0] in ("struct", "nt", "wrap"):
        return t[1]
    if t[0] == "int":
        return t[1]
    if t[0] == "arr":
        return "arr"
    if t[0] == "bool":
        return "Choice"
    return t[0]


def load():
    pr = Prog()
    rules = {}
    for it in P(lex(open(os.path.join(REPO, "macros.rs")).read())).items("<eof>"):
        rules[it.name] = it
    for file, module, alias, skip in FILES:
        src = open(os.path.join(REPO, file)).read()
        items = P(lex(src)).items("<eof>")
        modname = os.path.basename(file)[:-3]

        def add(f, selft, trait, output=None, file=file):
            if f.name in skip:
                return
            al = dict(alias)
            suffix = ""
            tn = tname(selft) if selft else modname
            if "test" in f.attr:
                tn = "Test." + re.sub(r"curve/|scalar_mul/|window/|/mod", "", file[:-3]).replace("/", "_")
            if trait and trait[1] in ("Add", "Sub", "Mul", "Neg", "AddAssign", "SubAssign", "MulAssign"):
                suffix = "op"
            nm = f.name
            if suffix:
                nm = "op_" + nm
                if trait[2]:
                    rhs = pr.ty(trait[2][0], al, selft)
                    if tname(rhs) != tn:
                        nm += "_" + tname(rhs)
            ps = []
            for n, t, m in f.params:
                tt = pr.ty(t, al, selft)
                if n in LOOSE_PARAM.get((tn, f.name), ()):
                    tt = L
                ps.append((n, tt))
            ret = pr.ty(f.ret, al, selft)
            if ret is None:
                ret = output
            if f.ret[0] == "refmut":
                # `fn index_mut(&mut self, i) -> &mut T { &mut place }` becomes the assignment to `place`
                f.params.append(("v", None, False))
                ps.append(("v", pr.fns[(tn, "index")].ret))
                lhs = f.body.tail.a
                f.body.st.append(N("assign", lhs.line, op="=", lhs=lhs, e=N("path", lhs.line, p=["v"])))
                f.body.tail = None
                ret = UNIT
            key = (tn, nm)
            if key in pr.fns:
                prev = pr.fns[key]
                i = 2
                while (tn, nm + str(i)) in pr.fns:
                    i += 1
                key = (tn, nm + str(i))
            fn = Fn(key, "%s.%s" % (key[0], key[1]), f, selft, file, ps, ret, al)
            # a function that takes a source of random bytes has a module of its own
            fn.module = "Random" if ("rng",) in [t for _, t in ps] else module
            pr.fns[key] = fn
            pr.order.append(fn)

        def expand(it, file=file):
            if it.k == "invoke":
                r = rules[it.name]
                sub = {v: it.args[k] for k, v in r.ps}
                toks, i = [], 0
                while i < len(r.toks):
                    if r.toks[i][1] == "$":
                        toks.append(("id", sub[r.toks[i + 1][1]], r.toks[i][2]))
                        i += 2
                    else:
                        toks.append(r.toks[i])
                        i += 1
                toks.append(("eof", "<eof>", 0))
                return [(x, "macros.rs") for x in P(toks).items("<eof>")]
            return [(it, file)]

        # the expansions come last, so that the hand-written variants keep their names
        for it, file in [y for it in sorted(items, key=lambda x: x.k == "invoke") for y in expand(it)]:
            if it.k == "fn":
                add(it, None, None)
            elif it.k == "const" and it.name not in skip:
                pr.consts[(file, it.name)] = (it, module, alias)
            elif it.k == "impl":
                st = pr.ty(it.t, alias, None)
                output = None
                for f in it.items:
                    if f.k == "type":
                        output = pr.ty(f.t, alias, st)
                for f in it.items:
                    if f.k == "fn":
                        add(f, st, it.trait, output, file)
    return pr


# ---------------------------------------------------------------- inference and emission

BINOPS = {"+": "add", "-": "sub", "*": "mul"}


class Ctx:
    def __init__(self, pr, fn):
        self.pr, self.fn = pr, fn
        self.env = [{}]

    def err(self, n, m):
        raise TypeError("%s:%d: %s" % (self.fn.file, n.line, m))

    def lookup(self, n):
        for e in reversed(self.env):
            if n in e:
                return e[n]
        return None

    # ---- inference
    def blk(self, b, want=None):
        self.env.append({})
        for s in b.st:
            self.stmt(s)
        t = UNIT
        if b.tail is not None:
            t = self.inf(b.tail, want)
        elif b.st and b.st[-1].k == "expr" and b.st[-1].e.k == "return":
            t = ("never",)
        b.ty = t
        self.env.pop()
        return t

    def bindpat(self, p, t):
        t = find(t)
        if p[0] == "id":
            self.env[-1][p[1]] = t
        elif p[0] == "tup":
            for q, x in zip(p[1], t[1]):
                self.bindpat(q, x)

    def stmt(self, s):
        if s.k == "let":
            want = self.pr.ty(s.t, self.fn.alias, self.fn.selft) if s.t else None
            if s.e is None:
                self.bindpat(s.p, want if want else TV())
                s.vt = want
                return
            t = self.inf(s.e, want)
            if want is not None:
                unify(want, t, s.line)
                t = want
            s.vt = t
            self.bindpat(s.p, t)
        elif s.k == "localfn":
            f = s.f
            ps = [(n, self.pr.ty(t, self.fn.alias, self.fn.selft)) for n, t, m in f.params]
            rt = self.pr.ty(f.ret, self.fn.alias, self.fn.selft)
            self.env.append(dict(ps))
            unify(self.blk(f.body, rt), rt, s.line)
            self.env.pop()
            s.ps, s.rt = ps, rt
            self.env[-1][f.name] = ("fun", [t for _, t in ps], rt, s)
        elif s.k == "assign":
            lt = self.inf(s.lhs)
            rt = self.inf(s.e, lt)
            s.g = None
            if s.op != "=" and find(lt)[0] == "struct":
                nm_ = "op_" + BINOPS[s.op[0]] + "_assign" + ("" if tname(lt) == tname(rt) else "_" + tname(rt))
                s.g = self.pr.fns[(tname(lt), nm_)]
            elif s.op not in ("<<=", ">>="):
                unify(lt, rt, s.line)
        elif s.k == "expr":
            self.inf(s.e)

    def inf(self, e, want=None):
        t = self.inf0(e, want)
        e.ty = t
        return t

    def inf0(self, e, want):
        k = e.k
        if k == "num":
            return ("int", e.suf) if e.suf else TV()
        if k == "path":
            return self.inf_path(e)
        if k == "tuple":
            w = find(want) if want else None
            ws = w[1] if w and not isinstance(w, TV) and w[0] == "tuple" and len(w[1]) == len(e.es) else [None] * len(e.es)
            return ("tuple", [self.inf(x, y) for x, y in zip(e.es, ws)])
        if k == "array":
            t = None
            for x in e.es:
                y = self.inf(x)
                t = y if t is None else unify(t, y, e.line)
            return ("arr", t, len(e.es))
        if k == "rep":
            t = self.inf(e.e)
            unify(self.inf(e.n), USZ, e.line)
            return ("arr", t, e.n.v)
        if k == "block":
            return self.blk(e, want)
        if k == "if":
            unify(self.inf(e.c), BOOL, e.line)
            a = self.blk(e.a, want)
            b = self.blk(e.b, want) if e.b else UNIT
            if a == ("never",):
                return b
            if b == ("never",):
                return a
            return unify(a, b, e.line)
        if k == "return":
            if e.e is not None:
                unify(self.inf(e.e, self.fn.ret), self.fn.ret, e.line)
            return ("never",)
        if k == "for":
            it = self.inf_iter(e.it)
            self.env.append({})
            self.bindpat(e.p, it)
            e.itv = it
            self.blk(e.body)
            self.env.pop()
            return UNIT
        if k == "neg":
            t = self.inf(e.a)
            if not isinstance(find(t), TV) and find(t)[0] != "int":
                e.g = self.pr.fns[(tname(t), "op_neg")]
                return e.g.ret
            return t
        if k == "not":
            return self.inf(e.a)
        if k == "refmut":
            return self.inf(e.a)
        if k == "cast":
            self.inf(e.a)
            return self.pr.ty(e.t, self.fn.alias, self.fn.selft)
        if k == "closure":
            ps = []
            for n, t in e.ps:
                ps.append((n, self.pr.ty(t, self.fn.alias, self.fn.selft) if t else TV()))
            self.env.append(dict(ps))
            rt = self.blk(e.body)
            if e.rt:
                rt = unify(self.pr.ty(e.rt, self.fn.alias, self.fn.selft), rt, e.line)
            self.env.pop()
            e.pst = ps
            return ("fun", [t for _, t in ps], rt, e)
        if k == "struct":
            st = self.fn.alias.get(e.name)
            for f, v in e.fs:
                self.inf(v)
            return st
        if k == "field":
            t = find(self.inf(e.a))
            if e.f == "0":
                if t[0] == "nt":
                    return NEWTYPES[t[1]]
                if t[0] == "wrap":
                    return WRAP[t[1]]
            if t[0] == "struct":
                return F
            self.err(e, "field %r of %r" % (e.f, t))
        if k == "index":
            t = repr_ty(self.inf(e.a))
            if e.i.k == "range":
                unify(self.inf(e.i.a), USZ, e.line)
                return ("arr", t[1], None)
            unify(self.inf(e.i), USZ, e.line)
            return t[1]
        if k == "bin":
            a, b = self.inf(e.a), self.inf(e.b)
            if e.op in ("&&", "||"):
                return BOOL
            if e.op in ("<<", ">>"):
                return a
            fa, fb = find(a), find(b)
            for x, y in ((fa, fb), (fb, fa)):
                pass
            if e.op in ("==", "!=", "<", ">", "<=", ">="):
                unify(a, b, e.line)
                return BOOL
            if isinstance(fa, TV) or isinstance(fb, TV) or fa[0] == "int":
                return unify(a, b, e.line)
            if fa[0] == "bool":
                return BOOL
            if fa[0] in "FL":
                return F
            g = self.binfn(e, fa, fb)
            return g.ret
        if k == "call":
            return self.inf_call(e, want)
        if k == "method":
            return self.inf_method(e, want)
        if k == "str":
            return ("arr", U8, None)
        if k == "match":
            t = find(self.inf(e.c))
            self.env.append({e.x: t[1]})
            a = self.inf(e.a)
            self.env.pop()
            b = self.inf(e.b)
            if b != ("never",):
                self.err(e, "match")
            e.xt = t[1]
            return a
        if k == "macro":
            ts = [self.inf(a) for a in e.args]
            if e.name == "assert_eq":
                unify(ts[0], ts[1], e.line)
            if e.name == "hex":
                return ("arr", U8, None)
            return ("never",) if e.name in ("todo", "panic") else UNIT
        self.err(e, "inf " + k)

    def binfn(self, e, a, b):
        nm = "op_" + BINOPS[e.op]
        if tname(a) != tname(b):
            nm += "_" + tname(b)
        g = self.pr.fns.get((tname(a), nm))
        if g is None:
            self.err(e, "no operator %s on %r %r" % (nm, a, b))
        return g

    def inf_iter(self, e):
        """Element type of an iterator expression."""
        if e.k == "range":
            t = unify(self.inf(e.a), self.inf(e.b), e.line)
            e.ty = t
            return t
        if e.k == "method" and e.m in ("rev", "iter", "into_iter"):
            return self.inf_iter(e.a)
        t = repr_ty(self.inf(e))
        return t[1]

    def const(self, n):
        if ((self.fn.file, n)) in self.pr.consts:
            return self.pr.consts[(self.fn.file, n)], (self.fn.file, n)
        for (f, m), v in self.pr.consts.items():
            if m == n and v[1] == "Scalar":
                return v, (f, m)
        return None, None

    def inf_path(self, e):
        n = e.p[-1]
        if len(e.p) == 1:
            t = self.lookup(n)
            if t is not None:
                return t
        if n == "None":
            return ("opt", TV())
        if n in FCONST and self.fn.module == "Curve":
            return FCONST[n]
        if n in PCONST and self.fn.module == "Curve":
            return PCONST[n]
        if n == "DECAF_BASEPOINT":
            return W("DecafPt")
        c, key = self.const(n)
        if c:
            e.ckey = key
            return self.pr.ty(c[0].t, c[2], None)
        self.err(e, "path %r" % (e.p,))

    def assoc(self, e):
        """Resolves a path call to a type and a name."""
        p = e.f.p
        if len(p) == 1:
            return None, p[0]
        if p[0] == "Self":
            return self.fn.selft, p[1]
        t = self.fn.alias.get(p[-2])
        if t is None and p[-2] in NEWTYPES:
            t = ("nt", p[-2])
        if t is None and p[-2] in INTS:
            t = ("int", p[-2])
        return t, p[-1]

    def inf_call(self, e, want):
        if e.f.k != "path":
            self.err(e, "call")
        p = e.f.p
        n = p[-1]
        if len(p) == 1:
            t = self.lookup(n)
            if t is not None and t[0] == "fun":
                for a, w in zip(e.args, t[1]):
                    unify(self.inf(a, w), w, e.line)
                e.tag = ("local", n)
                return t[2]
        if n in NEWTYPES or (n == "Self" and self.fn.selft and self.fn.selft[0] == "nt"):
            t = ("nt", n) if n != "Self" else self.fn.selft
            a = self.inf(e.args[0])
            unify(a, NEWTYPES[t[1]], e.line)
            e.tag = ("id",)
            return t
        if n in self.fn.alias and self.fn.alias[n][0] == "wrap":
            self.inf(e.args[0])
            e.tag = ("wrap",)
            return self.fn.alias[n]
        if n == "Some":
            t = self.inf(e.args[0])
            e.tag = ("some",)
            return ("opt", t)
        if p[-2:] == ["Choice", "from"]:
            unify(self.inf(e.args[0]), U8, e.line)
            e.tag = ("choice",)
            return BOOL
        if n == "with_capacity":
            self.inf(e.args[0])
            e.tag = ("nil",)
            return want if want else ("arr", TV(), None)
        if p[-2:] == ["array", "from_fn"]:
            f = self.inf(e.args[0])
            unify(f[1][0], USZ, e.line)
            w = find(want)
            unify(w[1], f[2], e.line)
            e.tag = ("from_fn", w[2])
            return want
        if n.startswith("fiat_p448_"):
            for a, w in zip(e.args, FIAT[n[10:]]):
                unify(self.inf(a), w, e.line)
            e.tag = ("fiat", n[10:])
            return UNIT
        if p == ["hex_literal", "decode"]:
            self.inf(e.args[0])
            e.tag = ("unhex",)
            return ("arr", U8, None)
        st, m = self.assoc(e)
        ats = [self.inf(a) for a in e.args]
        if st is not None and st[0] == "F" or (st and (tname(st), m) not in self.pr.fns):
            if m in ("zero", "one", "minus_one") and st[0] == "F":
                e.tag = ("fconst", m)
                return L if m == "minus_one" else F
            if m == "from_bytes" and st[0] == "F":
                e.tag = ("ffrom",)
                return F
            if m == "conditional_select" and st[0] == "F":
                e.tag = ("fselect",)
                return F
            if m == "conditional_select" and st[0] == "int":
                e.tag = ("iselect",)
                return st
            if m == "conditional_swap":
                e.tag = ("swap", st)
                return UNIT
            if m == "from_raw_slice":
                unify(ats[0], NEWTYPES[st[1]])
                e.tag = ("id",)
                return st
        key = (tname(st), m) if st is not None else None
        if key is None:
            mods = [g for g in self.pr.fns.values() if g.selft is None and g.ast.name == m]
            here = [g for g in mods if g.file == self.fn.file]
            g = (here or mods or [None])[0]
        elif key in self.pr.fns:
            g = self.pr.fns[key]
        else:
            g = None
        if g is None and len(p) > 1:
            mods = [g for g in self.pr.fns.values() if g.selft is None and g.ast.name == m and g.key[0] == p[-2]]
            g = mods[0] if mods else None
        if g is None:
            self.err(e, "call %r" % (p,))
        for (pn, pt), a in zip(g.ps, ats):
            unify(pt, a, e.line)
        e.tag = ("fn", g)
        return g.ret if g.ret != UNIT or not g.muts else UNIT

    def inf_method(self, e, want):
        m = e.m
        at = self.inf(e.a)
        t = find(at)
        if m in ("clone", "borrow", "as_ref") or m == "as_bytes" and t[0] == "arr":
            e.tag = ("id",)
            return at
        if isinstance(t, TV) and m == "into":
            t = unify(t, U8)
        if isinstance(t, TV):
            self.err(e, "method on unknown")
        # user methods: inherent first, then trait
        if not (t[0] == "F" and m in FMETH):
            for nm in (m, "op_" + m):
                g = self.pr.fns.get((tname(t), nm))
                if g:
                    for (pn, pt), a in zip(g.ps[1:], e.args):
                        unify(pt, self.inf(a), e.line)
                    e.tag = ("fn", g)
                    return g.ret
        if m == "fold":
            t0 = self.inf(e.args[0])
            c = e.args[1]
            self.env.append({c.ps[0][0]: t0, c.ps[1][0]: t[1]})
            unify(self.blk(c.body), t0, e.line)
            self.env.pop()
            e.tag = ("fold",)
            return t0
        ats = [self.inf(a) for a in e.args]
        if t[0] in "FL" and m in FMETH:
            e.tag = ("fmeth", m)
            return FMETH[m]
        if m in ("wrapping_add", "wrapping_sub", "wrapping_mul"):
            unify(at, ats[0], e.line)
            e.tag = ("wrapping", m)
            return at
        if m == "into":
            if t == BOOL:
                e.tag = ("id",)
                return BOOL
            unify(t, U8)
            e.tag = ("choice",)
            return BOOL
        if m == "unwrap_u8":
            e.tag = ("b2n",)
            return U8
        if m == "ct_eq" and t[0] in ("arr", "int", "nt"):
            unify(at, ats[0], e.line)
            e.tag = ("eq",)
            return BOOL
        if m == "conditional_assign":
            e.tag = ("cassign", t)
            return UNIT
        if m == "conditional_negate" and t[0] == "F":
            e.tag = ("fcneg",)
            return UNIT
        if m == "strong_reduce" and t[0] == "F":
            e.tag = ("fstrong",)
            return UNIT
        if m == "push":
            unify(t[1], ats[0], e.line)
            e.tag = ("push",)
            return UNIT
        if m == "reverse":
            e.tag = ("reverse",)
            return UNIT
        if m == "is_some":
            e.tag = ("is_some",)
            return BOOL
        if m == "len":
            e.tag = ("len",)
            return USZ
        if m == "split_last":
            e.tag = ("split_last",)
            return ("opt", ("tuple", [t[1], ("arr", t[1], None)]))
        if m == "unwrap":
            e.tag = ("unwrap",)
            return t[1]
        if m == "fill_bytes":
            e.tag = ("fill",)
            return UNIT
        if m == "copy_from_slice":
            e.tag = ("copy",)
            return UNIT
        if m == "last_mut":
            e.tag = ("last_mut",)
            return ("opt", t[1])
        self.err(e, "method %s on %r" % (m, t))


FMETH = {"square": F, "negate": F, "to_bytes": ("arr", U8, 56), "is_negative": BOOL}


# ---------------------------------------------------------------- emission


def assigned(b):
    """Names of variables assigned (or mutated) in a block, in order, and those declared in it."""
    out, decl = [], set()

    def root(e):
        while e.k in ("index", "field", "refmut", "method"):
            e = e.a
        return e.p[0] if e.k == "path" else None

    def mark(n, d):
        if n is not None and n not in d and n not in out:
            out.append(n)

    def pats(p):
        if p[0] == "id":
            return [p[1]]
        if p[0] == "tup":
            return [x for q in p[1] for x in pats(q)]
        return []

    def ex(e, d):
        if e is None:
            return
        k = e.k
        if k == "block":
            bl(e, d)
        elif k == "if":
            ex(e.c, d)
            bl(e.a, d)
            if e.b:
                bl(e.b, d)
        elif k == "for":
            bl(e.body, d | set(pats(e.p)))
        elif k == "closure":
            bl(e.body, d | {n for n, _ in e.ps})
        elif k == "method":
            ex(e.a, d)
            for a in e.args:
                ex(a, d)
            if e.tag[0] in ("cassign", "fcneg", "fstrong", "push", "copy", "reverse", "fill") or (e.tag[0] == "fn" and e.tag[1].muts):
                mark(root(e.a), d)
        elif k == "call":
            for a in e.args:
                ex(a, d)
                if a.k == "refmut":
                    mark(root(a), d)
        elif k in ("bin", "index", "range", "tuple", "array", "cast", "neg", "not", "struct", "rep", "refmut", "field"):
            for a in (getattr(e, "a", None), getattr(e, "b", None), getattr(e, "i", None)):
                if isinstance(a, N):
                    ex(a, d)

    def bl(b, d):
        d = set(d)
        for s in b.st:
            if s.k == "let":
                ex(s.e, d)
                d |= set(pats(s.p))
            elif s.k == "assign":
                ex(s.e, d)
                mark(root(s.lhs), d)
            elif s.k == "expr":
                ex(s.e, d)
        ex(b.tail, d)

    bl(b, set())
    return out


def nm(n):
    return RENAME.get(n, n)


# In leak mode the emitted code records what the leakage model observes; see Verif.Gen.Leak.
LEAK = False
# In release mode the arithmetic wraps instead of panicking; see Verif.Gen.Release.
REL = False
# In parametric mode the arithmetic of a release build is a parameter; see Verif.Gen.Ops.
PAR = False


class Em:
    """Emits one function."""

    def __init__(self, pr, fn):
        self.pr, self.fn = pr, fn
        self.cnt = 0
        self.fall = False
        self.calls = []
        self.env = [{}]
        self.localfall = {}
        self.localleak = {}
        self.generic = False
        self.leaky = False

    def tmp(self):
        self.cnt += 1
        return "τ%d" % self.cnt

    def lookup(self, n):
        for e in reversed(self.env):
            if n in e:
                return e[n]

    def ret(self, v):
        return "%s %s" % ("Lk.ret" if LEAK else "some", v)

    def lbind(self, out, e):
        """Binds a computation with leakage."""
        self.leaky = self.fall = True
        t = self.tmp()
        out.append("(%s).bind fun %s =>" % (e, t))
        return t

    def rt(self, out, f, *args):
        """A run-time operation that leaks an address, a shift amount or a comparison."""
        s = " ".join((f,) + args)
        return self.lbind(out, "Lk." + s) if LEAK else self.bind(out, "Rt." + s)

    def fop(self, out, e, f, *args):
        """A field operation."""
        if LEAK:
            return self.lbind(out, "Lk.tell (LeakBackend.%s) %s" % (" ".join((f,) + args), e))
        return e

    def bind(self, out, e):
        """Binds an optional computation."""
        self.fall = True
        t = self.tmp()
        if LEAK:
            e = "Lk.lift (%s)" % e
        out.append("(%s).bind fun %s =>" % (e, t))
        return t

    def num(self, v, t):
        t = res(t)
        return "(%d : %s)" % (v, lty(t))

    def iop(self, out, op, a, b, t, bn=None):
        """Integer operation at type t."""
        t = res(t)
        w = width(t)
        sg = signed(t)
        usz = t[1] in ("usize",)
        if PAR and not usz and op in ("+", "-", "*", "&", "|"):
            f = {"+": "add", "-": "sub", "*": "mul", "&": "and", "|": "or"}[op] + ("I" if sg else "U")
            e = " ".join(["o." + f] + ([] if f in ("andU", "orU") else [str(w)]) + [a, b])
            return "(%s)" % e if op in "&|" else self.bind(out, "some (%s)" % e)
        if op in ("+", "*") or (op == "-" and sg):
            ck = "Rt.ckUsize" if usz else ("ckI%d" if sg else "ckU%d") % w
            if t[1] == "i32":
                ck = "Rt.ckI32"
            if REL:
                ck = "wr%s %d" % ("I" if sg else "U", 32 if usz else w)
            return self.bind(out, "%s (%s %s %s)" % (ck, a, op, b))
        if op == "-":
            return self.bind(out, "wrSub %d %s %s" % (32 if usz else w, a, b) if REL else "ckSub %s %s" % (a, b))
        if op in ("/", "%"):
            if bn is None or bn.k != "num" or bn.v == 0:
                raise TypeError("division by non-literal")
            if sg:
                return "(%s %s %s)" % ({"/": "Int.tdiv", "%": "Int.tmod"}[op], a, b)
            return "(%s %s %s)" % (a, op, b)
        if op in ("&", "|", "^"):
            if sg:
                return "(Rt.%s %d %s %s)" % ({"&": "andZ", "|": "orZ", "^": "xorZ"}[op], w, a, b)
            return "(%s %s %s)" % (a, {"&": "&&&", "|": "|||", "^": "^^^"}[op], b)
        raise TypeError("iop " + op)

    def shift(self, out, op, a, b, t, bn):
        t = res(t)
        w = width(t)
        bt = res(bn.ty)
        if bn.k == "num":
            if bn.v >= w:
                raise TypeError("shift overflow")
            k = str(bn.v)
        else:
            f = "shiftAmount%s" % ("Z" if signed(bt) else "")
            k = self.bind(out, "%s %d %s" % (f, w, b)) if REL else self.rt(out, f, str(w), b)
        if PAR and t[1] != "usize":
            f = {"<<": "shl", ">>": "shr"}[op] + ("I" if signed(t) else "U")
            return "(%s)" % " ".join(["o." + f] + ([str(w)] if op == "<<" else []) + [a, k])
        if op == "<<":
            return "(Rt.%s %d %s %s)" % ("shlZ" if signed(t) else "shlU", w, a, k)
        if signed(t):
            return "(sarZ %s %s)" % (a, k)
        return "(%s >>> %s)" % (a, k)

    def cast(self, a, s, d):
        s, d = res(s), res(d)
        if s == BOOL:
            return "(Bool.toNat %s)" % a
        if s == d:
            return a
        ws, wd = width(s), width(d)
        if PAR:
            if signed(s) == signed(d):
                return a if wd >= ws else "(o.mod%s %d %s)" % ("I" if signed(s) else "U", wd, a)
            return "(o.asU %d %s)" % (wd, a) if signed(s) else "(o.ext %s)" % a if wd > ws else "(o.toI %d %s)" % (wd, a)
        if not signed(s) and not signed(d):
            return a if wd >= ws else "(%s %% 2 ^ %d)" % (a, wd)
        if signed(s) and not signed(d):
            return "(Rt.asU %d %s)" % (wd, a)
        if not signed(s) and signed(d):
            return "(%s : ℤ)" % a if wd > ws else "(Int.bmod (%s : ℤ) (2 ^ %d))" % (a, wd)
        return a if wd >= ws else "(Int.bmod %s (2 ^ %d))" % (a, wd)

    def call(self, out, g, args):
        self.calls.append(g)
        lk = LEAK and g.leaky
        s = "Gen." + g.lean if LEAK and not lk or REL and not g.rel else g.lean
        if PAR and g.rel:
            s += " o"
        if g.needF:
            s += " (F := F)"
        if g.needX:
            s += " fns"
        s = " ".join([s] + args)
        if lk:
            return self.lbind(out, s)
        if g.fall:
            return self.bind(out, s)
        return "(%s)" % s if args or g.needF or g.needX else s

    def coerce(self, a, s, d):
        """Tight to loose."""
        if find(d) == L and find(s) == F:
            return "(FieldBackend.relax %s)" % a
        return a

    def ex(self, out, e):
        k = e.k
        if k == "num":
            return self.num(e.v, e.ty)
        if k == "path":
            n = e.p[-1]
            if len(e.p) == 1 and self.lookup(n):
                return self.lookup(n)
            if n == "None":
                return "(none : %s)" % lty(e.ty)
            if n in FCONST and self.fn.module == "Curve":
                return "(FieldBackend.%s F)" % n if FCONST[n] == L else "(FieldBackend.%s : F)" % n
            if n in PCONST:
                return "(Rt.pt%s (FieldBackend.%s : F × F × F × F))" % (PCONST[n][1], n)
            if n == "DECAF_BASEPOINT":
                return "(⟨Rt.ptTwPt (FieldBackend.TWISTED_EDWARDS_BASE_POINT : F × F × F × F)⟩ : Model.DecafPt F)"
            c = self.pr.consts[e.ckey]
            self.calls.append(("const", e.ckey))
            return cname(e.ckey)
        if k == "tuple":
            xs = [self.ex(out, x) for x in e.es]
            return "(%s)" % ", ".join(xs) if xs else "()"
        if k == "array":
            xs = [self.ex(out, x) for x in e.es]
            return "([%s] : %s)" % (", ".join(xs), lty(e.ty))
        if k == "rep":
            return "(List.replicate %d %s)" % (e.n.v, self.ex(out, e.e))
        if k == "block":
            if not e.st:
                return self.ex(out, e.tail)
            return self.sub(out, lambda o: self.blockval(o, e), e.ty)
        if k == "neg":
            t = res(e.ty)
            a = self.ex(out, e.a)
            if t[0] != "int":
                return self.call(out, e.g, [a])
            if PAR:
                return self.bind(out, "some (o.negI %d %s)" % (width(t), a))
            if REL:
                return self.bind(out, "wrI %d (-%s)" % (width(t), a))
            return self.bind(out, "%s (-%s)" % ("Rt.ckI32" if t[1] == "i32" else "ckI%d" % width(t), a))
        if k == "not":
            return "(!%s)" % self.ex(out, e.a)
        if k == "refmut":
            return self.ex(out, e.a)
        if k == "cast":
            return self.cast(self.ex(out, e.a), e.a.ty, e.ty)
        if k == "struct":
            st = e.ty
            names = dict(STRUCTS[st[1]])
            vals = [(names[f], self.ex(out, v)) for f, v in e.fs]
            return "({ %s } : %s)" % (", ".join("%s := %s" % x for x in vals), lty(st))
        if k == "field":
            a = self.ex(out, e.a)
            t = find(e.a.ty)
            if e.f == "0":
                return a if t[0] == "nt" else "%s.pt" % a
            return "%s.%s" % (a, dict(STRUCTS[t[1]])[e.f])
        if k == "index":
            a = self.ex(out, e.a)
            if e.i.k == "range":
                i = self.ex(out, e.i.a)
                return self.rt(out, "sliceFrom", a, i)
            st = self.static(e)
            if st is not None:
                return "(%s.getD %d 0)" % (a, st)
            i = self.ex(out, e.i)
            return self.rt(out, "idx", a, i)
        if k == "bin":
            return self.binop(out, e)
        if k == "call":
            return self.callex(out, e)
        if k == "method":
            return self.methex(out, e)
        if k == "if":
            return self.ifex(out, e)
        if k == "macro":
            if e.name == "todo":
                return self.bind(out, "(none : Option Unit)")
            if e.name == "panic":
                return self.bind(out, "(none : Option Unit)")
            if e.name == "assert":
                c = self.ex(out, e.args[0])
                return self.bind(out, "Rt.require %s" % c)
            if e.name == "assert_eq":
                a, b = self.ex(out, e.args[0]), self.ex(out, e.args[1])
                return self.bind(out, "Rt.require %s" % self.equal(out, e.args[0].ty, a, b))
            if e.name == "hex":
                return self.bind(out, "Rt.hexDecode [%s]" % self.ex(out, e.args[0]))
            if e.name == "dbg":
                self.ex(out, e.args[0])
                return "()"
        if k == "str":
            return "([%s] : List ℕ)" % ", ".join(str(x) for x in e.v[1:-1].encode())
        if k == "match":
            c = self.ex(out, e.c)
            o2, o3 = [], []
            self.env.append({e.x: nm(e.x)})
            v = self.ex(o2, e.a)
            self.env.pop()
            w = self.ex(o3, e.b)
            return self.bind(out, "match %s with\n| some %s =>\n%s\n| none =>\n%s" % (
                c, nm(e.x), "\n".join(o2 + [self.ret(v)]), "\n".join(o3 + [self.ret(w)])))
        raise TypeError("%s:%d: ex %s" % (self.fn.file, e.line, k))

    def equal(self, out, t, a, b):
        """`PartialEq::eq`"""
        t = res(t)
        if t[0] == "opt":
            o2 = []
            r = self.equal(o2, t[1], "x'", "y'")
            return self.bind(out, "Rt.optEq (fun x' y' =>\n%s) %s %s" % ("\n".join(o2 + [self.ret(r)]), a, b))
        g = self.pr.fns.get((tname(t), "eq"))
        if g:
            return self.call(out, g, [a, b])
        if t[0] == "struct":
            # #[derive(PartialEq)]
            return "(%s)" % " && ".join(self.equal(out, F, a + "." + x, b + "." + x) for _, x in STRUCTS[t[1]])
        return "(%s == %s)" % (a, b)

    def static(self, e):
        """The value of a literal index within the static length of an integer array."""
        t = repr_ty(e.a.ty)
        try:
            i = consteval(e.i)
        except TypeError:
            return None
        if t[0] == "arr" and t[2] is not None and i < t[2] and res(t[1])[0] == "int":
            return i
        return None

    def binop(self, out, e):
        op = e.op
        if op in ("+", "-", "*") and e.a.k == "num" and e.b.k == "num" and consteval(e) >= 0:
            return self.num(consteval(e), e.ty)
        if op in ("&&", "||"):
            a = self.ex(out, e.a)
            o2 = []
            b = self.ex(o2, e.b)
            if LEAK:
                return self.lbind(out, "Lk.%s %s (\n%s)" % ({"&&": "and", "||": "or"}[op], a, "\n".join(o2 + [self.ret(b)])))
            if not o2:
                return "(%s %s %s)" % (a, op, b)
            rhs = "\n".join(o2 + ["some %s" % b])
            if op == "&&":
                return self.bind(out, "if %s then\n%s\nelse some false" % (a, rhs))
            return self.bind(out, "if %s then some true else\n%s" % (a, rhs))
        a, b = self.ex(out, e.a), self.ex(out, e.b)
        ta, tb = res(e.a.ty), res(e.b.ty)
        if op in ("<<", ">>"):
            return self.shift(out, op, a, b, ta, e.b)
        if op in ("==", "!="):
            if ta[0] in ("F", "struct") or (ta[0] == "nt"):
                r = self.equal(out, ta, a, b)
            elif LEAK and ta[0] != "int" and ta[0] != "bool":
                r = self.rt(out, "cmp", a, b)
            else:
                r = "(%s == %s)" % (a, b)
            return r if op == "==" else "(!%s)" % r
        if op in ("<", ">", "<=", ">="):
            return "(decide (%s %s %s))" % (a, {"<": "<", ">": ">", "<=": "≤", ">=": "≥"}[op], b)
        if ta[0] == "int":
            return self.iop(out, op, a, b, ta, e.b)
        if ta[0] == "bool":
            return "(%s %s %s)" % ({"&": "and", "|": "or", "^": "xor"}[op], a, b)
        if ta[0] in "FL":
            rx = lambda x, t: x if t[0] == "L" else "(FieldBackend.relax %s)" % x
            if op == "*":
                o = {("F", "F"): "*ᶠ", ("L", "F"): "*ˡ", ("F", "L"): "*ʳ"}[(ta[0], tb[0])]
                return self.fop(out, "(%s %s %s)" % (a, o, b), "mulTr F", rx(a, ta), rx(b, tb))
            if ta != F or tb != F:
                raise TypeError("%s:%d: loose operand" % (self.fn.file, e.line))
            o, f = {"+": ("+ᶠ", "addTr"), "-": ("-ᶠ", "subTr")}[op]
            return self.fop(out, "(%s %s %s)" % (a, o, b), f, a, b)
        nmx = "op_" + BINOPS[op]
        if tname(ta) != tname(tb):
            nmx += "_" + tname(tb)
        return self.call(out, self.pr.fns[(tname(ta), nmx)], [a, b])

    def callex(self, out, e):
        tag = e.tag
        if tag[0] == "swap":
            # subtle's default: let t = *a; a.conditional_assign(b, c); b.conditional_assign(&t, c)
            la, lb = e.args[0].a, e.args[1].a
            a, b = self.ex(out, la), self.ex(out, lb)
            c = self.ex(out, e.args[2])
            st = tag[1]
            t = self.tmp()
            out.append("let %s := %s" % (t, a))
            self.assign(out, la, self.select(out, st, a, b, c))
            b = self.ex(out, lb)
            self.assign(out, lb, self.select(out, st, b, t, c))
            return "()"
        if tag[0] == "from_fn":
            c = e.args[0]
            o2 = []
            self.env.append({c.ps[0][0]: nm(c.ps[0][0])})
            v = self.ex(o2, c.body.tail) if not c.body.st else self.err()
            self.env.pop()
            body = "\n".join(o2 + [self.ret(v)])
            if LEAK:
                return self.lbind(out, "Lk.mapM (fun (%s : ℕ) =>\n%s) (List.range %d)" % (nm(c.ps[0][0]), body, tag[1]))
            return self.bind(out, "(List.range %d).mapM fun (%s : ℕ) =>\n%s" % (tag[1], nm(c.ps[0][0]), body))
        args = [self.ex(out, a) for a in e.args]
        if tag[0] == "fiat":
            self.assign(out, e.args[0].a, self.bind(out, " ".join(["Rt.fiat_" + tag[1], "fns"] + args[1:])))
            return "()"
        if tag[0] == "local":
            n = self.lookup(tag[1])
            s = " ".join([n] + args)
            if LEAK and self.localleak[tag[1]]:
                return self.lbind(out, s)
            return self.bind(out, s) if self.localfall[tag[1]] else "(%s)" % s
        if tag[0] == "id":
            return args[0]
        if tag[0] == "unhex":
            return self.bind(out, "Rt.hexDecode %s" % args[0])
        if tag[0] == "wrap":
            return "(⟨%s⟩ : %s)" % (args[0], lty(e.ty))
        if tag[0] == "some":
            return "(some %s)" % args[0]
        if tag[0] == "choice":
            return self.bind(out, "Rt.choice %s" % args[0])
        if tag[0] == "nil":
            return "([] : %s)" % lty(e.ty)
        if tag[0] == "fconst":
            return "(FieldBackend.minusOne F)" if tag[1] == "minus_one" else "(FieldBackend.%s : F)" % tag[1]
        if tag[0] == "ffrom":
            return self.rt(out, "fieldFromBytes F", args[0])
        if tag[0] == "fselect":
            return self.fop(out, "(FieldBackend.select %s %s %s)" % tuple(args), "selectTr", *args)
        if tag[0] == "iselect":
            return "(Rt.selectWord %s %s %s)" % tuple(args)
        if tag[0] == "fn":
            g = tag[1]
            args = [self.coerce(a, x.ty, pt) for a, x, (_, pt) in zip(args, e.args, g.ps)]
            if g.muts:
                r = self.call(out, g, args)
                t = self.tmp()
                out.append("let %s := %s" % (t, r))
                ms = [(i, n) for i, (n, _) in enumerate(g.ps) if n in g.muts]
                for j, (i, n) in enumerate(ms):
                    self.assign(out, e.args[i].a, proj(t, j, len(ms)))
                return "()"
            return self.call(out, g, args)
        raise TypeError("call tag %r" % (tag,))

    def select(self, out, st, a, b, c):
        st = find(st)
        if st == F:
            return self.fop(out, "(FieldBackend.select %s %s %s)" % (a, b, c), "selectTr", a, b, c)
        g = self.pr.fns[(tname(st), "conditional_select")]
        return self.call(out, g, [a, b, c])

    def methex(self, out, e):
        tag = e.tag
        a = self.ex(out, e.a) if tag[0] != "last_mut" else None
        if tag[0] == "fold":
            i = self.ex(out, e.args[0])
            c = e.args[1]
            self.env.append({n: nm(n) for n, _ in c.ps})
            o2 = []
            v = self.ex(o2, c.body.tail) if not c.body.st else self.err()
            self.env.pop()
            names = " ".join("(%s : %s)" % (nm(n), lty(t)) for (n, _), t in zip(c.ps, (e.ty, find(e.a.ty)[1])))
            if LEAK:
                return self.lbind(out, "Lk.fold (fun %s =>\n%s) %s %s" % (names, "\n".join(o2 + [self.ret(v)]), i, a))
            if not o2:
                return "(List.foldl (fun %s => %s) %s %s)" % (names, v, i, a)
            return self.bind(out, "List.foldlM (fun %s =>\n%s) %s %s" % (names, "\n".join(o2 + ["some %s" % v]), i, a))
        args = [self.ex(out, x) for x in e.args]
        if tag[0] == "id":
            return a
        if tag[0] == "fn":
            g = tag[1]
            args = [self.coerce(x, y.ty, pt) for x, y, (_, pt) in zip(args, e.args, g.ps[1:])]
            r = self.call(out, g, [a] + args)
            if g.muts:
                self.assign(out, e.a, r)
                return "()"
            return r
        if tag[0] == "fmeth":
            if tag[1] == "to_bytes":
                return self.fop(out, "(FieldBackend.toBytes %s).l" % a, "toBytesTr", a)
            f = {"square": "square", "negate": "negate", "is_negative": "isNegative"}[tag[1]]
            x = "(FieldBackend.%s %s)" % (f, a)
            if f == "square":
                return self.fop(out, x, "squareTr F", "(FieldBackend.relax %s)" % a)
            return self.fop(out, x, {"negate": "negateTr", "isNegative": "toBytesTr"}[f], a)
        if tag[0] == "wrapping":
            t = res(e.ty)
            return "(%s%sU %d %s %s)" % ("o." if PAR else "Rt.", {"wrapping_add": "wadd", "wrapping_sub": "wsub", "wrapping_mul": "wmul"}[tag[1]],
                                       width(t), a, args[0])
        if tag[0] == "choice":
            return self.bind(out, "Rt.choice %s" % a)
        if tag[0] == "b2n":
            return "(Bool.toNat %s)" % a
        if tag[0] == "eq":
            return "(%s == %s)" % (a, args[0])
        if tag[0] == "cassign":
            self.assign(out, e.a, self.select(out, tag[1], a, args[0], args[1]))
            return "()"
        if tag[0] == "fcneg":
            self.assign(out, e.a, self.fop(out, "(FieldBackend.condNegate %s %s)" % (a, args[0]), "condNegateTr", a, args[0]))
            return "()"
        if tag[0] == "fstrong":
            self.assign(out, e.a, self.fop(out, "(FieldBackend.strongReduce %s)" % a, "strongReduceTr", a))
            return "()"
        if tag[0] == "push":
            self.assign(out, e.a, "(%s ++ [%s])" % (a, args[0]))
            return "()"
        if tag[0] == "reverse":
            self.assign(out, e.a, "(List.reverse %s)" % a)
            return "()"
        if tag[0] == "is_some":
            return "(Option.isSome %s)" % a
        if tag[0] == "len":
            return "(List.length %s)" % a
        if tag[0] == "split_last":
            return "(Rt.splitLast %s)" % a
        if tag[0] == "unwrap":
            return self.bind(out, a)
        if tag[0] == "fill":
            t = self.tmp()
            out.append("let %s := fill_bytes %s %s.length" % (t, a, args[0]))
            self.assign(out, e.args[0].a, t + ".1")
            self.assign(out, e.a, t + ".2")
            return "()"
        if tag[0] == "copy":
            self.assign(out, e.a, self.bind(out, "Rt.copyFrom %s %s" % (a, args[0])))
            return "()"
        raise TypeError("meth tag %r" % (tag,))

    def assign(self, out, lhs, v):
        """lhs := v"""
        if lhs.k == "path":
            n = lhs.p[0]
            out.append("let %s := %s" % (self.lookup(n), v))
        elif lhs.k == "index":
            a = self.ex(out, lhs.a)
            st = self.static(lhs)
            if st is not None:
                return self.assign(out, lhs.a, "(%s.set %d %s)" % (a, st, v))
            i = self.ex(out, lhs.i)
            self.assign(out, lhs.a, self.rt(out, "put", a, i, v))
        elif lhs.k == "field":
            t = find(lhs.a.ty)
            if lhs.f == "0" and t[0] == "nt":
                return self.assign(out, lhs.a, v)
            a = self.ex(out, lhs.a)
            self.assign(out, lhs.a, "{ %s with %s := %s }" % (a, dict(STRUCTS[t[1]])[lhs.f], v))
        elif lhs.k == "method" and lhs.m == "unwrap" and lhs.a.k == "method" and lhs.a.m == "last_mut":
            a = self.ex(out, lhs.a.a)
            self.assign(out, lhs.a.a, self.bind(out, "Rt.putLast %s %s" % (a, v)))
        else:
            raise TypeError("assign to " + lhs.k)

    def sub(self, out, f, ty):
        """A nested computation with its own binds."""
        o2 = []
        self.env.append({})
        v = f(o2)
        self.env.pop()
        if any(".bind fun" in x.split("\n")[-1] for x in o2):
            return (self.lbind if LEAK else self.bind)(out, "\n".join(o2 + [self.ret(v)]))
        t = self.tmp()
        out.append("let %s : %s :=\n%s" % (t, lty(ty), "\n".join(o2 + [v])))
        return t

    def ifex(self, out, e):
        """An `if` with a value, or a statement that assigns outer variables."""
        c = self.ex(out, e.c)
        vs = []
        for b in (e.a, e.b):
            if b:
                for n in assigned(b):
                    if self.lookup(n) and n not in vs:
                        vs.append(n)
        hasval = find(e.ty) != UNIT
        if hasval and vs:
            raise TypeError("if with value and assignments")

        def branch(b):
            o2 = []
            self.env.append({})
            if b is not None:
                v = self.stmts(o2, b)
            if not hasval:
                v = "(%s)" % ", ".join(self.lookup(n) for n in vs)
            self.env.pop()
            return o2, v

        oa, va = branch(e.a)
        ob, vb = branch(e.b)
        f = any(".bind fun" in x for x in oa + ob) or LEAK
        pre = self.ret("") if f else ""
        txt = "if %s then\n%s\nelse\n%s" % (c, "\n".join(oa + [pre + va]), "\n".join(ob + [pre + vb]))
        if LEAK:
            t = self.lbind(out, "Lk.ite %s (\n%s) (\n%s)" % (c, "\n".join(oa + [pre + va]), "\n".join(ob + [pre + vb])))
        elif f:
            t = self.bind(out, txt)
        else:
            t = self.tmp()
            out.append("let %s :=\n%s" % (t, txt))
        if hasval:
            return t
        for i, n in enumerate(vs):
            out.append("let %s := %s" % (self.lookup(n), proj(t, i, len(vs))))
        return "()"

    def iterex(self, out, e):
        if e.k == "range":
            a, b = self.ex(out, e.a), self.ex(out, e.b)
            z = "Z" if signed(res(e.ty)) else ""
            return "(Rt.%s%s %s %s)" % ("rangeIncl" if e.inc else "range", z, a, b)
        if e.k == "method" and e.m == "rev":
            return "(List.reverse %s)" % self.iterex(out, e.a)
        if e.k == "method" and e.m in ("iter", "into_iter"):
            return self.iterex(out, e.a)
        return self.ex(out, e)

    def forex(self, out, e):
        it = self.iterex(out, e.it)
        vs = [n for n in assigned(e.body) if self.lookup(n)]
        o2 = []
        iv = "_" if e.p[0] == "wild" else nm(e.p[1])
        self.env.append({e.p[1]: iv} if e.p[0] == "id" else {})
        st = self.tmp()
        for i, n in enumerate(vs):
            o2.append("let %s := %s" % (self.lookup(n), proj(st, i, len(vs))))
        self.stmts(o2, e.body)
        fin = "(%s)" % ", ".join(self.lookup(n) for n in vs)
        self.env.pop()
        f = any(".bind fun" in x for x in o2) or LEAK
        sty = " × ".join("(%s)" % lty(self.vty[n]) for n in vs) or "Unit"
        init = "(%s)" % ", ".join(self.lookup(n) for n in vs)
        lam = "(fun (%s : %s) (%s : %s) =>\n%s)" % (st, sty, iv, lty(e.itv), "\n".join(o2 + [(self.ret("") if f else "") + fin]))
        if LEAK:
            t = self.lbind(out, "Lk.fold %s %s %s" % (lam, init, it))
        elif f:
            t = self.bind(out, "List.foldlM %s %s %s" % (lam, init, it))
        else:
            t = self.tmp()
            out.append("let %s := List.foldl %s %s %s" % (t, lam, init, it))
        for i, n in enumerate(vs):
            out.append("let %s := %s" % (self.lookup(n), proj(t, i, len(vs))))

    def stmts(self, out, b):
        """Emits the statements of a block; returns the value of its tail."""
        for s in b.st:
            self.stmt(out, s)
        if b.tail is None:
            return "()"
        return self.ex(out, b.tail)

    blockval = stmts

    def letpat(self, out, p, v, t):
        if p[0] == "id":
            n = p[1]
            x = nm(n)
            self.env[-1][n] = x
            self.vty[n] = t
            out.append("let %s : %s := %s" % (x, lty(t), v))
        elif p[0] == "tup":
            x = self.tmp()
            out.append("let %s := %s" % (x, v))
            for i, q in enumerate(p[1]):
                self.letpat(out, q, proj(x, i, len(p[1])), find(t)[1][i])

    def closure(self, out, name, ps, body, rt):
        global LEAK
        sl, self.leaky, sc = self.leaky, False, self.cnt
        self.closure1(out, name, ps, body, rt)
        self.localleak[name] = self.leaky
        if LEAK and not self.leaky:
            out.pop()
            LEAK, self.cnt = False, sc
            self.closure1(out, name, ps, body, rt)
            LEAK = True
        self.leaky = sl or self.leaky

    def closure1(self, out, name, ps, body, rt):
        o2 = []
        self.env.append({n: nm(n) for n, _ in ps})
        sv, self.fall = self.fall, False
        v = self.stmts(o2, body)
        f = self.fall
        self.fall = sv
        self.env.pop()
        self.env[-1][name] = nm(name)
        self.localfall[name] = f
        out.append("let %s := fun %s =>\n%s" % (nm(name), " ".join("(%s : %s)" % (nm(n), lty(t)) for n, t in ps),
                                                "\n".join(o2 + [(self.ret("") if f else "") + v])))

    def stmt(self, out, s):
        if s.k == "let":
            if s.e is None:
                self.env[-1][s.p[1]] = nm(s.p[1])
                self.vty[s.p[1]] = s.vt if s.vt else None
                out.append("let %s : %s := 0" % (nm(s.p[1]), lty(s.vt)))
                return
            if s.e.k == "closure":
                return self.closure(out, s.p[1], s.e.pst, s.e.body, s.e.ty[2])
            if getattr(s, "const", False):
                v = self.num(consteval(s.e), s.vt)
            else:
                v = self.ex(out, s.e)
            self.letpat(out, s.p, v, s.vt)
        elif s.k == "localfn":
            self.closure(out, s.f.name, s.ps, s.f.body, s.rt)
        elif s.k == "assign":
            if s.op == "=":
                v = self.ex(out, s.e)
            else:
                # the primitive integer compound assignments evaluate the right operand first
                b = self.ex(out, s.e)
                a = self.ex(out, s.lhs)
                o = s.op[:-1]
                t = res(s.lhs.ty)
                v = self.call(out, s.g, [a, b]) if s.g else \
                    self.shift(out, o, a, b, t, s.e) if o in ("<<", ">>") else self.iop(out, o, a, b, t, s.e)
            self.assign(out, s.lhs, v)
        elif s.k == "expr":
            if s.e.k == "for":
                self.forex(out, s.e)
            elif s.e.k == "if":
                self.ifex(out, s.e)
            elif s.e.k in ("method", "call", "macro", "block", "match"):
                self.ex(out, s.e)
            else:
                raise TypeError("%s:%d stmt %s" % (self.fn.file, s.line, s.e.k))

    def body(self, b, fin):
        """Function body with early returns `if c { return e; }`."""
        out = []
        for i, s in enumerate(b.st):
            if s.k == "expr" and s.e.k == "if" and s.e.b is None and s.e.a.st and s.e.a.st[-1].k == "expr" \
                    and s.e.a.st[-1].e.k == "return":
                c = self.ex(out, s.e.c)
                o2 = []
                v = self.ex(o2, s.e.a.st[-1].e.e)
                rest = N("block", b.line, st=b.st[i + 1:], tail=b.tail)
                r = self.body(rest, fin)
                if LEAK:
                    self.leaky = True
                    return out + ["Lk.ite %s (\n%s) (\n%s)" % (c, "\n".join(o2 + [fin(v)]), "\n".join(r))]
                return out + ["if %s then\n%s\nelse\n%s" % (c, "\n".join(o2 + [fin(v)]), "\n".join(r))]
            if s.k == "expr" and s.e.k == "return":
                v = self.ex(out, s.e.e)
                return out + [fin(v)]
            self.stmt(out, s)
        if b.tail is None:
            return out + [fin("()")]
        if b.tail.k == "macro" and b.tail.name == "todo":
            self.fall = True
            return out + ["none"]
        return out + [fin(self.ex(out, b.tail))]

    def emit(self):
        f = self.fn
        self.vty = dict(f.ps)
        self.env = [{n: nm(n) for n, _ in f.ps}]
        fall = f.fall

        def fin(v):
            if f.muts:
                v = "(%s)" % ", ".join([v] * (f.module == "Random") + [nm(n) for n in f.muts])
            return self.ret(v) if fall or LEAK else v

        self.parts = []
        self.closures = []
        body = f.ast.body
        pre = []
        cuts = SPLIT(f)
        if cuts:
            groups = [[]]
            for s in body.st:
                while cuts and s.line > cuts[0]:
                    cuts.pop(0)
                    if groups[-1]:
                        groups.append([])
                groups[-1].append(s)
            for i, g in enumerate(groups[:-1]):
                pre += self.part(f, i + 1, g)
            for c in self.closures:
                self.stmt(pre, c)
            body = N("block", body.line, st=groups[-1], tail=body.tail)
        lines = pre + self.body(body, fin)
        if LEAK:
            f.leaky = self.leaky
        else:
            f.fall = self.fall
        txt = "\n".join(lines)
        f.needF = f.module == "Curve" and uses_generic(f)
        ret = f.ret if not f.muts else ("tuple", [t for n, t in f.ps if n in f.muts])
        if f.muts and len(f.muts) == 1:
            ret = [t for n, t in f.ps if n in f.muts][0]
        if f.module == "Random":
            ret = ("tuple", [f.ret, ret])
        rt = lty(ret, not f.fall and not LEAK)
        if LEAK:
            rt = "Lk " + rt
        elif f.fall:
            rt = "Option " + rt
        ps = " ".join("(%s : %s)" % (nm(n), lty(t)) for n, t in f.ps)
        if f.needX:
            ps = "(fns : Model.Fiat.Fns) " + ps
        if f.module == "Random":
            ps = "{σ : Type} (fill_bytes : σ → ℕ → List ℕ × σ) " + ps
        if PAR:
            ps = "(o : Ops) " + ps
        doc = "/-- Translation of `%s`" % f.ast.name + (" with its leakage" if LEAK else " with a parameter for the arithmetic" if PAR else " in a release build" if REL else "") + ". /repo/src/%s:%d-%d -/" % (f.file, f.ast.line, f.ast.end)
        return "".join(p + "\n\n" for p in self.parts) + "%s\ndef %s %s : %s :=\n%s" % (doc, f.lean, ps, rt, indent(txt))

    def part(self, f, k, g):
        """Emits a group of statements as a definition of its own; returns the call."""
        name = "%s.part%d" % (f.lean, k)
        isfn = lambda s: s.k == "localfn" or (s.k == "let" and s.e is not None and s.e.k == "closure")
        env = [(n, self.vty[n]) for n in self.env[0] if n not in self.localfall]
        out = []
        sv, self.leaky = self.leaky, False
        for c in self.closures:
            self.stmt(out, c)
        for s in g:
            self.stmt(out, s)
            if isfn(s):
                self.closures.append(s)
        lk = self.leaky
        self.leaky = sv or lk
        wrote = assigned(N("block", f.ast.line, st=[s for s in g if s.k != "localfn"], tail=None))
        new = [n for n in self.env[0] if n not in dict(env) and n not in self.localfall]
        vs = [n for n, _ in env if n in wrote] + new
        fall = any(".bind fun" in x.split("\n")[-1] for x in out)
        rt = " × ".join(lty(self.vty[n], False) for n in vs)
        if lk or fall:
            rt = "%s (%s)" % ("Lk" if lk else "Option", rt)
        if lk or not LEAK:
          self.parts.append("/-- Part %d of `%s`: lines %d-%d. /repo/src/%s:%d-%d -/\ndef %s %s : %s :=\n%s" % (
            k, f.ast.name, g[0].line, max(maxline(s) for s in g), f.file, g[0].line, max(maxline(s) for s in g), name,
            "(o : Ops) " * PAR + " ".join("(%s : %s)" % (nm(n), lty(t)) for n, t in env), rt,
            indent("\n".join(out + [(self.ret("") if fall or lk else "") + "(%s)" % ", ".join(nm(n) for n in vs)]))))
        res_ = []
        call = " ".join(["Gen." + name if LEAK and not lk else name] + ["o"] * PAR + [nm(n) for n, _ in env])
        t = self.lbind(res_, call) if lk else self.bind(res_, call) if fall else call
        if not fall and not lk:
            t = self.tmp()
            res_.append("let %s := %s" % (t, call))
        for i, n in enumerate(vs):
            res_.append("let %s : %s := %s" % (nm(n), lty(self.vty[n]), proj(t, i, len(vs))))
        return res_


def maxline(e):
    if isinstance(e, N):
        return max([e.line] + [maxline(v) for k, v in e.__dict__.items() if k in ("e", "a", "b", "lhs", "args", "i", "st", "tail", "body")])
    if isinstance(e, list):
        return max([0] + [maxline(x) for x in e])
    return 0


# Long functions are cut at these comment lines of the source.
CUT = {("karatsuba", "mul"): r"//\s*j\s*=|// Final step", ("karatsuba", "square"): r"// (start j|end j|final)"}


def SPLIT(f):
    if f.key not in CUT:
        return []
    ls = open(os.path.join(REPO, f.file)).read().split("\n")
    return [i + 1 for i, l in enumerate(ls) if f.ast.line <= i + 1 <= f.ast.end and re.search(CUT[f.key], l)]


def uses_generic(f):
    """All functions of the curve files take the field type, so that it can be written uniformly."""
    s = " ".join(lty(t) for _, t in f.ps) + " " + lty(f.ret)
    return f.generic or bool(re.search(r"\bF\b|\bL\b", s))


def proj(t, i, n):
    if n == 1:
        return t
    return t + ".2" * i + (".1" if i < n - 1 else "")


def indent(txt):
    out, depth = [], 1
    for l in txt.split("\n"):
        out.append("  " + l)
    return "\n".join(out)


def consteval(e):
    if e.k == "num":
        return e.v
    if e.k == "bin":
        a, b = consteval(e.a), consteval(e.b)
        return {"<<": lambda: a << b, "-": lambda: a - b, "+": lambda: a + b, "*": lambda: a * b, "/": lambda: a // b}[e.op]()
    raise TypeError("const")


def cname(key):
    f, n = key
    if f.startswith("field/fiat"):
        return "C.fiat_" + n
    return "C." + n if f != "field/u32/karatsuba.rs" else "C.karatsuba_" + n


HEADER = """import Verif.Gen.Rt
%s
/-!
# Mechanical translation of %s

Generated by tools/rust2lean.py; do not edit. Each definition is the translation of the cited Rust
function; see tools/rust2lean.py for the rules and `Verif.Gen.Rt` for the operations.
-/

set_option linter.all false

namespace Ed448.Gen
open Ed448.Model FieldBackend
%s
"""


def main():
    pr = load()
    bad = 0
    for f in pr.order:
        c = Ctx(pr, f)
        c.env = [dict(f.ps)]
        try:
            t = c.blk(f.ast.body, f.ret)
            if not f.muts and t != ("never",):
                unify(t, f.ret, f.ast.line)
        except TypeError as x:
            print("%s %s: %s" % (f.file, f.lean, x))
            bad += 1
    if bad:
        sys.exit(1)
    for f in pr.order:
        f.needF = f.module == "Curve" and uses_generic(f)
    # constants
    consts = {}
    for key, (it, module, alias) in pr.consts.items():
        fake = Fn(("const", key[1]), key[1], it, None, key[0], [], None, alias) if False else None
        class FF: pass
        ff = FF()
        ff.file, ff.alias, ff.selft, ff.module, ff.muts = key[0], alias, None, module, []
        t = pr.ty(it.t, alias, None) if not (it.t[0] == "name" and it.t[1] not in INTS and it.t[1] not in NEWTYPES and it.t[1] not in alias) else None
        if t is None:
            # a constant point: the tuple of its coordinates
            fe = ("nt", "FieldElement28" if module == "U32" else "FieldElement56")
            vals = dict(it.e.fs)
            vs = []
            for k in ("X", "Y", "Z", "T"):
                unify(Ctx(pr, ff).inf(vals[k], fe), fe, it.line)
                em = Em(pr, ff)
                out = []
                vs.append(em.ex(out, vals[k]))
                assert not out and not em.calls, (out, em.calls)
            l = lty(fe)
            consts[key] = (module, [], "/-- Constant `%s` (X, Y, Z, T). /repo/src/%s:%d-%d -/\ndef %s : %s :=\n  (%s)" % (
                key[1], key[0], it.line, it.end, cname(key), " × ".join([l] * 4), ",\n   ".join(vs)))
            continue
        c = Ctx(pr, ff)
        ti = c.inf(it.e, t)
        unify(ti, t, it.line)
        em = Em(pr, ff)
        em.vty = {}
        if t[0] == "int":
            v = em.num(consteval(it.e), t)
        else:
            out = []
            v = em.ex(out, it.e)
            assert not out, out
        deps = [x[1] for x in em.calls if isinstance(x, tuple)]
        consts[key] = (module, deps, "/-- Constant `%s`. /repo/src/%s:%d-%d -/\ndef %s : %s := %s" % (
            key[1], key[0], it.line, it.end, cname(key), lty(t), v))
    # fixpoint of fallibility and genericity
    for rnd in range(20):
        before = [(f.fall, f.needF, f.needX) for f in pr.order]
        texts = {}
        for f in pr.order:
            em = Em(pr, f)
            try:
                texts[f.key] = em.emit()
            except Exception:
                print("in %s %s" % (f.file, f.lean))
                raise
            f.calls = em.calls
            body = texts[f.key].split(":=", 1)[1]
            if f.module == "Curve" and (re.search(r"\bF\b", body)):
                f.generic = True
                f.needF = True
            if re.search(r"\bfns\b", body):
                f.needX = True
        if before == [(f.fall, f.needF, f.needX) for f in pr.order]:
            break
    # output
    done = set()
    outs = {"Scalar": [], "U32": [], "Fiat": [], "Curve": [], "Tests": [], "Random": []}

    def visitc(key):
        if key in done or key not in consts:
            return
        done.add(key)
        for d in consts[key][1]:
            visitc(d)
        outs[consts[key][0]].append(consts[key][2])

    def visit(f):
        if f.key in done:
            return
        done.add(f.key)
        for g in f.calls:
            if isinstance(g, tuple):
                visitc(g[1])
            else:
                visit(g)
        outs["Tests" if f.test else f.module].append(texts[f.key])

    for key in consts:
        visitc(key)
    for f in sorted(pr.order, key=lambda f: f.test):
        visit(f)
    heads = {"Scalar": ("", "src/field/scalar.rs", ""), "U32": ("", "src/field/u32", ""),
             "Fiat": ("import Verif.Model.Fiat", "src/field/fiat_u64", ""),
             "Random": ("import Verif.Gen.Scalar", "Scalar::random", ""),
             "Curve": ("import Verif.Gen.Scalar", "src/field/mod.rs, src/curve, src/decaf and src/ristretto",
                       "\nvariable {F L : Type} [FieldBackend F L]\n"),
             "Tests": ("import Verif.Gen.RtTest\nimport Verif.Gen.U32\nimport Verif.Gen.Fiat\nimport Verif.Gen.Curve", "the tests of the crate",
                       "\nvariable {F L : Type} [FieldBackend F L]\n")}
    os.makedirs(OUT, exist_ok=True)
    for m, l in outs.items():
        with open(os.path.join(OUT, m + ".lean"), "w") as h:
            h.write(HEADER % heads[m])
            for x in l:
                h.write("\n" + x + "\n")
            h.write("\nend Ed448.Gen\n")
    release(pr)
    release(pr, True)
    leak(pr)
    print({m: len(l) for m, l in outs.items()}, "functions", sum(not f.test for f in pr.order))


RELHEADER = """import Verif.Gen.Release
%s
/-!
# Mechanical translation of %s in a release build

Generated by tools/rust2lean.py; do not edit. Each definition is the translation of the cited Rust
function, with wrapping arithmetic; see `Verif.Gen.Release`. A function without arithmetic that can
overflow, and without calls to a function that has it, is that of `Verif.Gen`.
-/

set_option linter.all false

namespace Ed448.Rel
open Ed448.Model FieldBackend
%s
"""


PARHEADER = """import Verif.Gen.Ops
%s
/-!
# Mechanical translation of %s with a parameter for the arithmetic

Generated by tools/rust2lean.py; do not edit. Each definition is the translation of the cited Rust
function in a release build, with the arithmetic as a parameter; see `Verif.Gen.Ops`.
-/

set_option linter.all false

namespace Ed448.Par
open Ed448.Model FieldBackend
%s
"""


def release(pr, par=False):
    """The translation with wrapping arithmetic, or with the arithmetic as a parameter."""
    global REL, PAR
    PAR = par
    fns = [f for f in pr.order if not f.test]
    for f in fns:
        f.rel = False
    REL = True
    texts = {}
    while True:
        before = [f.rel for f in fns]
        for f in fns:
            em = Em(pr, f)
            texts[f.key] = em.emit()
            f.calls = em.calls
            f.rel = bool(re.search(r"\bo\.\w" if PAR else r"\bwr(U|I|Sub)\b|(?<!\.)\bshiftAmount", texts[f.key])) or \
                any(not isinstance(g, tuple) and g.rel for g in em.calls)
        if before == [f.rel for f in fns]:
            break
    done = set()
    outs = {"Scalar": [], "U32": [], "Fiat": [], "Curve": [], "Random": []}

    def visit(f):
        if f.key in done or not f.rel:
            return
        done.add(f.key)
        for g in f.calls:
            if not isinstance(g, tuple):
                visit(g)
        t = re.sub(r"(?<![\w.])(Rt|C)\.", r"Gen.\1.", texts[f.key])
        outs[f.module].append(re.sub(r"(?<![\w.])(wrU|wrI|wrSub|shiftAmountZ?)\b", r"Rel.\1", t) if PAR else t)

    for f in fns:
        visit(f)
    heads = {"Scalar": ("import Verif.Gen.Scalar", "src/field/scalar.rs", ""), "U32": ("import Verif.Gen.U32", "src/field/u32", ""),
             "Fiat": ("import Verif.Gen.Fiat", "src/field/fiat_u64", ""),
             "Random": ("import Verif.Gen.Random\nimport Verif.Gen.RelScalar", "Scalar::random", ""),
             "Curve": ("import Verif.Gen.Curve\nimport Verif.Gen.RelScalar", "src/field/mod.rs, src/curve, src/decaf and src/ristretto",
                       "\nvariable {F L : Type} [FieldBackend F L]\n")}
    ns = "Par" if PAR else "Rel"
    for m, l in outs.items():
        if l and not (PAR and m not in ("Scalar", "U32")):
            with open(os.path.join(OUT, ns + m + ".lean"), "w") as h:
                h.write((PARHEADER if PAR else RELHEADER) % heads[m])
                for x in l:
                    h.write("\n" + x + "\n")
                h.write("\nend Ed448.%s\n" % ns)
    print("parametric" if PAR else "release", {m: len(l) for m, l in outs.items()})
    REL = PAR = False


LEAKHEADER = """import Verif.Gen.Leak
%s
/-!
# Mechanical translation of %s with leakage

Generated by tools/rust2lean.py; do not edit. Each definition is the translation of the cited Rust
function in the monad `Lk`, which records the leakage; see `Verif.Gen.Leak`. A function that has no
branch, no loop and no computed address, and calls only such functions, is called without leakage.
-/

set_option linter.all false

namespace Ed448.Leak
open Ed448.Model FieldBackend
%s
"""


def leak(pr):
    """The second translation, with leakage."""
    global LEAK
    LEAK = True
    texts = {}
    for rnd in range(40):
        before = [f.leaky for f in pr.order]
        for f in pr.order:
            if f.test:
                continue
            em = Em(pr, f)
            texts[f.key] = em.emit()
            f.calls = em.calls
        if before == [f.leaky for f in pr.order]:
            break
    else:
        raise TypeError("leak")
    done = set()
    outs = {"Scalar": [], "U32": [], "Fiat": [], "Curve": [], "Random": []}

    def visit(f):
        if f.key in done:
            return
        done.add(f.key)
        for g in f.calls:
            if not isinstance(g, tuple):
                visit(g)
        if f.leaky or f.ps:
            t = re.sub(r"(?<![\w.])(Rt|C)\.", r"Gen.\1.", texts[f.key])
            outs[f.module].append(t)

    for f in pr.order:
        if not f.test:
            visit(f)
    heads = {"Scalar": ("import Verif.Gen.Scalar", "src/field/scalar.rs", ""), "U32": ("import Verif.Gen.U32", "src/field/u32", ""),
             "Fiat": ("import Verif.Gen.Fiat", "src/field/fiat_u64", ""),
             "Random": ("import Verif.Gen.Random\nimport Verif.Gen.LeakScalar", "Scalar::random", ""),
             "Curve": ("import Verif.Gen.Curve\nimport Verif.Gen.LeakScalar", "src/field/mod.rs, src/curve, src/decaf and src/ristretto",
                       "\nvariable {F L : Type} [FieldBackend F L] [LeakBackend F L]\n")}
    for m, l in outs.items():
        if l:
            with open(os.path.join(OUT, "Leak" + m + ".lean"), "w") as h:
                h.write(LEAKHEADER % heads[m])
                for x in l:
                    h.write("\n" + x + "\n")
                h.write("\nend Ed448.Leak\n")
    print("with leakage", {m: len(l) for m, l in outs.items()})
    LEAK = False


if __name__ == "__main__":
    main()
