#!/usr/bin/env python3
"""Turn the project's own tests into checks of the model: writes lean/Verif/Conform/{Syntax,Lexer,...}.lean.

The test files are read as text and walked with `ast`; nothing of the project is imported or run.  Only calls the model has
counterparts for are understood; a test that uses anything else (mocks, images, hypothesis, arguments of wrong types) is left out
and listed at the end of the module it would have gone to.
"""
import ast, collections, fractions, itertools, os, re, sys

TESTS = "/repo/python_dice/test"
OUT = os.path.join(os.path.dirname(os.path.abspath(__file__)), "..", "lean", "Verif", "Conform")

SYNTAX = {"AbsSyntax": "abs", "AddSyntax": "add", "AssignmentSyntax": "assign", "BinaryOperatorSyntax": "binop",
          "CloseParenthesisSyntax": "closeP", "CommaSyntax": "comma", "ConstantBinarySyntax": "constBin",
          "ConstantIntegerSyntax": "constInt", "DiceSyntax": "dice", "DropKeepSyntax": "dropKeep", "IntegerDivisionSyntax": "div",
          "MinMaxSyntax": "minmax", "MultiplySyntax": "mul", "NameSyntax": "name", "NotSyntax": "not", "OpenParenthesisSyntax": "openP",
          "SubtractSyntax": "sub", "VarSyntax": "var"}
NODES = {"DiceExpression": "diceE", "DropKeepExpression": "dropKeepE", "ConstantIntegerExpression": "constIntE",
         "ConstantBinaryExpression": "constBinE"}
DISTOPS = {"max_operator": "max", "min_operator": "min", "__equal__": "eq", "__not_equal__": "ne", "__and__": "and", "__or__": "or"}
BINOPS = {ast.Add: "add", ast.Sub: "sub", ast.Mult: "mul", ast.FloorDiv: "floordiv"}
CMPOPS = {ast.Lt: "lt", ast.LtE: "le", ast.Gt: "gt", ast.GtE: "ge"}
ERRORS = {"ValueError": ".value", "KeyError": ".key", "TypeError": ".type", "ZeroDivisionError": ".zeroDivision"}
SAFE = {"range": range, "sum": sum, "dict": dict, "list": list, "set": set, "sorted": sorted, "len": len, "str": str}
# Tests whose computation is too long for the kernel (`conform_heavy.txt`): evaluation by `#guard` instead of an `example`.
HEAVY = set()


class Skip(Exception):
    pass


class Sym:
    """A value of the model: `kind` says what it is, `lean` is the Lean term."""
    def __init__(self, kind, lean=None, **more):
        self.kind, self.lean = kind, lean
        self.__dict__.update(more)


def text(s):
    out = ""
    for c in s:
        out += {"\\": "\\\\", '"': '\\"', "\n": "\\n", "\t": "\\t"}.get(c, c)
    return f'(t! "{out}")'


def num(v):
    return f"({v})" if v < 0 else str(v)


def rat(v):
    f = fractions.Fraction(v)
    return num(f.numerator) if f.denominator == 1 else f"({f.numerator} / {f.denominator})"


def pairs(d, val=num):
    return "[" + ", ".join(f"({num(k)}, {val(v)})" for k, v in d.items()) + "]"


def texts(l):
    return "[" + ", ".join(text(x) for x in l) + "]"


class Test:
    def __init__(self, setup, body):
        self.env, self.me, self.checks, self.sessions = {}, {}, [], []
        for s in setup:
            try:
                self.stmt(s)
            except Skip:
                pass
        self.run(body)

    # expressions
    def ev(self, n):
        if isinstance(n, ast.Attribute) and isinstance(n.value, ast.Name) and n.value.id == "self":
            if n.attr in self.me:
                return self.me[n.attr]
            raise Skip("self." + n.attr)
        if isinstance(n, ast.Name) and n.id in self.env:
            return self.env[n.id]
        if isinstance(n, ast.Call):
            return self.call(n)
        if isinstance(n, ast.BinOp) and type(n.op) in BINOPS:
            a, b = self.ev(n.left), self.ev(n.right)
            if isinstance(a, Sym) or isinstance(b, Sym):
                if not (isinstance(a, Sym) and isinstance(b, Sym) and a.kind == b.kind == "dist"):
                    raise Skip("operand of another type")
                return Sym("dist", f"(distOp .{BINOPS[type(n.op)]} {a.lean} {b.lean})")
        if isinstance(n, ast.Compare) and len(n.ops) == 1 and type(n.ops[0]) in CMPOPS:
            a, b = self.ev(n.left), self.ev(n.comparators[0])
            if isinstance(a, Sym) or isinstance(b, Sym):
                if not (isinstance(a, Sym) and isinstance(b, Sym) and a.kind == b.kind == "dist"):
                    raise Skip("operand of another type")
                return Sym("dist", f"(distOp .{CMPOPS[type(n.ops[0])]} {a.lean} {b.lean})")
        if isinstance(n, ast.Subscript):
            a, i = self.ev(n.value), self.ev(n.slice)
            if isinstance(a, Sym) and a.kind == "asked":
                return Sym("entry", call=a, name=i)
            if isinstance(a, Sym):
                raise Skip("subscript")
            return a[i]
        if isinstance(n, ast.ListComp) and len(n.generators) == 1:
            g = n.generators[0]
            it = self.ev(g.iter)
            if isinstance(it, Sym) and it.kind == "tokens" and isinstance(n.elt, ast.Attribute) and n.elt.attr in ("name", "value"):
                return Sym("token_" + n.elt.attr, it.lean)
        return self.plain(n)

    def plain(self, n):
        names = {m.id for m in ast.walk(n) if isinstance(m, ast.Name)}
        scope = dict(SAFE, collections=collections, itertools=itertools)
        for k in names:
            if k in self.env:
                if isinstance(self.env[k], Sym):
                    raise Skip(ast.unparse(n)[:60])
                scope[k] = self.env[k]
        allowed = set(scope) | {"i", "t"}
        if names - allowed or any(isinstance(m, ast.Attribute) and not (isinstance(m.value, (ast.Name, ast.Constant)) and
                                  (getattr(m.value, "id", "") in ("collections", "itertools") or m.attr in ("items", "join", "keys")))
                                  for m in ast.walk(n)):
            raise Skip(ast.unparse(n)[:60])
        return eval(compile(ast.fix_missing_locations(ast.Expression(n)), "test", "eval"), dict(scope, __builtins__={}))

    def call(self, n):
        f = n.func
        if isinstance(f, ast.Name):
            if f.id in NODES:
                return Sym("expr", f"({NODES[f.id]} {text(self.ev(n.args[0]))})")
            if f.id == "PythonDiceInterpreter" and not n.args and not n.keywords:
                s = Sym("interpreter", asked=[])
                self.sessions.append(s)
                return s
            if f.id in ("PythonDiceLexer", "PythonDiceParser") and not n.args:
                return Sym(f.id)
            if f.id == "ProbabilityOutcomeFactory":
                return Sym("factory")
            if f.id == "ProbabilityDistributionFactory":
                return Sym("factory")
            if f.id == "ProbabilityDistribution":
                return Sym("dist", f"(mkDistInt {pairs(self.ev(n.args[1]))})")
            if f.id in ("str", "repr"):
                a = self.ev(n.args[0])
                if isinstance(a, Sym) and a.kind == "expr":
                    return Sym("text", f"(txt {a.lean})")
                if isinstance(a, Sym) and a.kind == "dist":
                    return Sym("text", f"(distTxt {a.lean})")
            if f.id == "abs":
                a = self.ev(n.args[0])
                if isinstance(a, Sym) and a.kind == "dist":
                    return Sym("dist", f"(Except.map Dist.absOp {a.lean})")
            if f.id in ("max", "min", "len"):
                a = self.ev(n.args[0])
                if isinstance(a, Sym) and a.kind == "rolls" and a.of:
                    return Sym("rolls_" + f.id, f"(rolls {a.of.lean})")
            if f.id == "set" and not n.args:
                return Sym("rolls", of=None)
        if isinstance(f, ast.Attribute):
            if isinstance(f.value, ast.Name) and f.value.id in SYNTAX:
                return Sym("token_name" if f.attr == "get_token_name" else "regex", "." + SYNTAX[f.value.id])
            if isinstance(f.value, ast.Name) and f.value.id == "re" and f.attr == "match":
                r, s = self.ev(n.args[0]), self.ev(n.args[1])
                return Sym("match", f"(Re.isMatch (TokType.regex {r.lean}) {text(s)})")
            if isinstance(f.value, ast.Name) and f.value.id == "dice_expression_helper":
                return Sym("table", f"(singleDiceMap {text(self.ev(n.args[0]))})")
            try:
                o = self.ev(f.value)
            except Skip:
                o = None
            if isinstance(o, Sym):
                return self.method(o, f.attr, n)
        return self.plain(n)

    def method(self, o, m, n):
        if o.kind == "PythonDiceLexer" and m == "lex":
            return Sym("tokens", f"(lex {text(self.ev(n.args[0]))})")
        if o.kind == "PythonDiceParser" and m == "parse":
            st = self.ev(n.args[1]) if len(n.args) > 1 else Sym("state", done=[])
            e = Sym("expr", f"(parse {text(self.ev(n.args[0]))})", state=st)
            return (e, st)
        if o.kind == "expr":
            if m in ("max", "min"):
                return Sym("int", f"(ext {'true' if m == 'max' else 'false'} {o.lean})")
            if m == "estimated_cost":
                return Sym("int", f"(cst {o.lean})")
            if m == "roll":
                return Sym("roll", o.lean)
            if m == "get_probability_distribution":
                if getattr(o, "state", None):
                    o.state.done.append(o.lean)
                return Sym("dist", f"(dst {o.lean})")
            if m == "get_contained_variables":
                return Sym("vars", f"(vars {o.lean})")
        if o.kind == "state" and m == "get_var":
            return Sym("dist", f"(varAfter [{', '.join(o.done)}] {text(self.ev(n.args[0]))})")
        if o.kind == "dist":
            if m == "get_result_map":
                return Sym("map", o.lean)
            if m == "get_dict_form":
                return Sym("dict", o.lean)
            if m in ("max", "min"):
                return Sym("int", f"(Except.bind {o.lean} Dist.{m})")
            if m == "contains_zero":
                return Sym("bool", f"(Except.map Dist.containsZero {o.lean})")
            if m == "not_operator":
                return Sym("dist", f"(Except.map Dist.notOp {o.lean})")
            if m in DISTOPS:
                b = self.ev(n.args[0])
                if not (isinstance(b, Sym) and b.kind == "dist"):
                    raise Skip("operand of another type")
                return Sym("dist", f"(distOp .{DISTOPS[m]} {o.lean} {b.lean})")
        if o.kind == "interpreter":
            p = self.ev(n.args[0])
            a = Sym("asked", method=m, slot=len(o.asked), of=o, program=p)
            if m == "roll":
                return a
            if m == "get_estimated_cost":
                o.asked.append([p, None])
                return a
            if m in ("get_probability_distributions", "get_probability_distributions_dict", "max", "min", "get_average"):
                o.asked.append([p, None])
                return a
        if o.kind == "entry" and o.call.method == "get_probability_distributions":
            if m == "get_result_map":
                return Sym("answer", call=o.call, query=lambda v: f".map {text(o.name)} {pairs(v)}")
            if m == "get_dict_form":
                return Sym("answer", call=o.call, query=lambda v: f".dictOf {text(o.name)} {pairs(v, rat)}")
        raise Skip(f"{o.kind}.{m}")

    # statements
    def run(self, body):
        for s in body:
            self.stmt(s)

    def stmt(self, s):
        if isinstance(s, ast.Expr) and isinstance(s.value, ast.Constant):
            return
        if isinstance(s, ast.Assign) and len(s.targets) == 1:
            t = s.targets[0]
            if isinstance(t, ast.Attribute):
                self.me[t.attr] = self.ev(s.value)
                return
            v = self.ev(s.value)
            if isinstance(t, ast.Name):
                self.env[t.id] = v
                return
            if isinstance(t, ast.Tuple) and isinstance(v, tuple):
                for x, y in zip(t.elts, v):
                    self.env[x.id] = y
                return
        if isinstance(s, ast.For):
            it = self.ev(s.iter)
            if isinstance(it, Sym) and it.kind == "tokens":
                b = s.body[0]
                if len(s.body) == 1 and ast.unparse(b).startswith("self.assertEqual(") and ast.unparse(b.value.args[1]) == "token.name":
                    self.checks.append(f"allNamed {it.lean} {text(self.ev(b.value.args[0]))}")
                    return
                raise Skip("loop over tokens")
            if isinstance(it, range) and isinstance(s.target, ast.Name) and s.target.id == "_":
                it = [0]
            for v in it:
                if isinstance(s.target, ast.Name):
                    self.env[s.target.id] = v
                else:
                    for x, y in zip(s.target.elts, v):
                        self.env[x.id] = y
                self.run(s.body)
            return
        if isinstance(s, ast.With):
            c = ast.unparse(s.items[0].context_expr)
            if c.startswith("self.subTest"):
                return self.run(s.body)
        if isinstance(s, ast.Try):
            call, raised = s.body[0].value, s.handlers[0].body[0].value
            if ast.unparse(raised).endswith("str(inst))") and ast.unparse(call).startswith("self._test_lexer.lex("):
                self.checks.append(f"decide (lex {text(self.ev(call.args[0]))} = .error (.valueError {text(self.ev(raised.args[0]))}))")
                return
        if isinstance(s, ast.Expr) and isinstance(s.value, ast.Call):
            c = s.value
            u = ast.unparse(c.func)
            if u == "print":
                return
            if u == "self.assertEqual" or u == "self.assertSetEqual":
                return self.equal(self.ev(c.args[0]), self.ev(c.args[1]))
            if u in ("self.assertTrue", "self.assertIsNone"):
                v = self.ev(c.args[0])
                if isinstance(v, Sym) and v.kind == "match":
                    self.checks.append(v.lean if u == "self.assertTrue" else f"!{v.lean}")
                    return
            if u == "self.assertRaises" and len(c.args) == 3 and ast.unparse(c.args[1]) == "self._test_parser.parse":
                self.checks.append(f"Raises (parse {text(self.ev(c.args[2]))}) {ERRORS[c.args[0].id]}")
                return
            if u == "self.assertIn":
                a, b = self.ev(c.args[0]), self.ev(c.args[1])
                if isinstance(a, Sym) and a.kind == "entry" and a.call.method == "roll":
                    self.checks.append(f"(interpRolls parse {texts(a.call.program)} {text(a.name)}).all fun x => decide (x ∈ "
                                       f"[{', '.join('some ' + num(v) for v in b)}])")
                    return
            if u == "self.assert_distribution":
                e, m, lo, hi = [self.ev(a) for a in c.args]
                self.checks.append(f"AssertDist {e.lean} {pairs(m)} {num(lo)} {num(hi)}")
                return
            if u.endswith(".add") and isinstance(c.func, ast.Attribute):
                o = self.ev(c.func.value)
                if isinstance(o, Sym) and o.kind == "rolls":
                    o.of = self.ev(c.args[0])
                    if o.of.kind == "roll":
                        return
            if u.endswith("get_probability_distribution"):
                self.ev(c)
                return
        raise Skip(ast.unparse(s).split("\n")[0][:70])

    def equal(self, a, b):
        if isinstance(a, Sym) and not isinstance(b, Sym):
            a, b = b, a
        if isinstance(a, Sym) and a.kind == "rolls" and a.of is None:
            a = set()
        if not isinstance(b, Sym) or isinstance(a, Sym):
            raise Skip("assertEqual of other things")
        add = self.checks.append
        k = b.kind
        if k == "int":
            add(f"Gives {b.lean} {num(a)}")
        elif k == "bool":
            add(f"Gives {b.lean} {str(a).lower()}")
        elif k == "text":
            add(f"Gives {b.lean} {text(a)}")
        elif k == "vars":
            add(f"Gives {b.lean} {texts(a)}")
        elif k == "map":
            add(f"HasMap {b.lean} {pairs(a)}")
        elif k == "dict":
            add(f"HasDict {b.lean} {pairs(a, rat)}")
        elif k == "table":
            add(f"HasTable {b.lean} {pairs(a)}")
        elif k == "token_name" and isinstance(a, str):
            add(f"decide (TokType.tokenName {b.lean} = {text(a)})")
        elif k == "regex":
            add(f"decide (source {b.lean} = {text(a)})")
        elif k == "token_name":
            add(f"names {b.lean} {texts(a)}")
        elif k == "token_value":
            add(f"values {b.lean} {texts(a)}")
        elif k == "roll":
            add(f"sameSet (rolls {b.lean}) [some {num(a)}]")
        elif k == "rolls":
            add(f"sameSet (rolls {b.of.lean}) [{', '.join('some ' + num(v) for v in sorted(a))}]")
        elif k == "rolls_len":
            add(f"decide ((distinct {b.lean}).length = {a})")
        elif k in ("rolls_max", "rolls_min"):
            add(f"decide ((distinct {b.lean}).{'max' if k == 'rolls_max' else 'min'}? = some {num(a)})")
        elif k == "asked" and b.method == "get_estimated_cost":
            b.of.asked[b.slot][1] = f".cost {num(a)}"
        elif k == "entry" and b.call.method in ("max", "min"):
            b.call.of.asked[b.call.slot][1] = f".{b.call.method} {text(b.name)} {num(a)}"
        elif k == "entry" and b.call.method == "get_average":
            b.call.of.asked[b.call.slot][1] = f".average {text(b.name)} {rat(a)}"
        elif k == "entry" and b.call.method == "get_probability_distributions_dict":
            b.call.of.asked[b.call.slot][1] = f".dict {text(b.name)} {pairs(a, rat)}"
        elif k == "answer":
            b.call.of.asked[b.call.slot][1] = b.query(a)
        else:
            raise Skip("assertEqual on " + k)

    def all(self):
        out = list(self.checks)
        for s in self.sessions:
            if any(q is None for _, q in s.asked):
                raise Skip("a call whose result is not looked at")
            if s.asked:
                out.append("session parse [" + ", ".join(f"({texts(p)}, {q})" for p, q in s.asked) + "] State.new")
        return out


def module(name, files, doc):
    lines = ["import Verif.Conform.Basic", "", f"/-! # {doc}", "", "Written by `tools/conform.py` from the test files named below; see `Verif/Conform/Basic.lean`. -/", "",
             "namespace PyDice.Conform", "", "attribute [local instance] listRuntime", "set_option maxRecDepth 100000", ""]
    left, done, total = [], 0, 0
    for f in files:
        tree = ast.parse(open(os.path.join(TESTS, f)).read())
        for cls in [c for c in tree.body if isinstance(c, ast.ClassDef)]:
            setup = next((m.body for m in cls.body if isinstance(m, ast.FunctionDef) and m.name == "setUp"), [])
            for m in cls.body:
                if not (isinstance(m, ast.FunctionDef) and m.name.startswith("test_")):
                    continue
                total += 1
                try:
                    if m.decorator_list:
                        raise Skip("hypothesis")
                    checks = Test(setup, m.body).all()
                    if not checks:
                        raise Skip("nothing to check")
                except Skip as e:
                    left.append(f"`{f}:{m.lineno}` `{m.name}`: {e}")
                    continue
                done += 1
                lines.append(f"-- {f}:{m.lineno} {m.name}")
                body = ",\n    ".join(checks)
                uses = any("parse" in c for c in checks)
                if m.name in HEAVY:
                    b = body.replace("(parse ", "(quick ").replace("session parse ", "session quick ")
                    lines.append(f"#guard ([{b}] : List Bool).all id")
                else:
                    lines.append(f"example : ([{body}] : List Bool).all id = true := by")
                    lines.append("  rw [quick_eq]; decide +kernel" if uses else "  decide +kernel")
                lines.append("")
    lines += ["end PyDice.Conform", ""]
    lines.append(f"/-! {done} of {total} tests replayed.  Left out:")
    lines.append("")
    if len(left) > 60:
        by = collections.Counter(l.split(":")[0].strip("`") for l in left)
        lines += [f"* {v} of `{f}`, whose operands are mocks" for f, v in by.items()]
    else:
        lines += [f"* {l}" for l in left]
    lines += ["-/", ""]
    open(os.path.join(OUT, name + ".lean"), "w").write("\n".join(lines))
    print(f"{name}: {done}/{total}")
    for l in left:
        print("   ", l)


SRC = "/repo/python_dice/src"


def constants(path, known=None):
    """The text constants of a file: assignments of literals, f-strings and concatenations, top level and in classes."""
    def value(e, env):
        if isinstance(e, ast.Constant) and isinstance(e.value, str):
            return e.value
        if isinstance(e, ast.Name):
            return env[e.id]
        if isinstance(e, ast.JoinedStr):
            return "".join(value(v.value if isinstance(v, ast.FormattedValue) else v, env) for v in e.values)
        if isinstance(e, ast.BinOp) and isinstance(e.op, ast.Add):
            return value(e.left, env) + value(e.right, env)
        raise KeyError
    env = dict(known or {})

    def block(body, prefix):
        for st in body:
            if isinstance(st, ast.ClassDef):
                block(st.body, st.name + ".")
            elif isinstance(st, ast.Assign) and isinstance(st.targets[0], ast.Name):
                try:
                    env[prefix + st.targets[0].id] = value(st.value, env)
                except KeyError:
                    pass
    block(ast.parse(open(path).read()).body, "")
    return env


def grammar():
    env = constants(f"{SRC}/syntax/dice_syntax_helper.py")
    for d in ("syntax", "expression"):
        for f in sorted(os.listdir(f"{SRC}/{d}")):
            if f.endswith(".py") and f != "dice_syntax_helper.py":
                env = constants(f"{SRC}/{d}/{f}", env)
    top = ast.parse(open(f"{SRC}/python_dice_syntax_objects.py").read())
    lists = {(st.target if isinstance(st, ast.AnnAssign) else st.targets[0]).id: st.value for st in top.body
             if isinstance(st, (ast.AnnAssign, ast.Assign))}
    tokens = [(env[e.id + ".TOKEN_NAME"], env[e.id + ".TOKEN_REGEX"]) for e in lists["LEXER_SYNTAX"].elts]
    rules = []
    for e in lists["PARSER_EXPRESSIONS"].elts:
        r = [env[e.id + k] for k in (".TOKEN_RULE", ".RULE") if e.id + k in env]
        assert len(r) == 1
        rules.append(r[0])
    prec = [(e.elts[0].value, [env[c.func.value.id + ".TOKEN_NAME"] for c in e.elts[1].elts]) for e in lists["PRECEDENCE"].elts]
    helper = [n for n in ast.walk(ast.parse(open(f"{SRC}/expression/dice_expression_helper.py").read())) if isinstance(n, ast.Call)
              and isinstance(n.func, ast.Attribute) and n.func.attr == "match"]
    helper = [n.args[0].value for n in sorted(helper, key=lambda n: n.lineno)]
    ignore = [n.args[0].value for n in ast.walk(ast.parse(open(f"{SRC}/python_dice_lexer.py").read())) if isinstance(n, ast.Call)
              and isinstance(n.func, ast.Attribute) and n.func.attr == "ignore"]
    L = ["import Verif.Conform.Source", "import Verif.DiceText", "", "/-! # The texts of the rules, as they stand in the source", "",
         "Written by `tools/conform.py` from `python_dice_syntax_objects.py`, `src/syntax/*.py`, `src/expression/*.py` and",
         "`python_dice_lexer.py`, whose constants it reads without running them. -/", "", "namespace PyDice.Conform", "",
         "/-- `(TOKEN_NAME, TOKEN_REGEX)` of the classes of `LEXER_SYNTAX`, in order. -/", "def tokenTexts : List (Str × Str) :="]
    L.append("  [" + ",\n   ".join(f"({text(a)}, {text(b)})" for a, b in tokens) + "]")
    L += ["", "/-- `RULE` / `TOKEN_RULE` of the classes of `PARSER_EXPRESSIONS`, in order. -/", "def ruleTexts : List Str :="]
    L.append("  [" + ",\n   ".join(text(r) for r in rules) + "]")
    L += ["", "/-- `PRECEDENCE`. -/", "def precedenceTexts : List (Str × List Str) :="]
    L.append("  [" + ",\n   ".join(f"({text(a)}, {texts(b)})" for a, b in prec) + "]")
    L += ["", "/-- The arguments of `ignore`. -/", f"def ignoreTexts : List Str := {texts(ignore)}", "",
          "/-- The patterns of `re.match` in `dice_expression_helper.py`, in order. -/", "def helperTexts : List Str :="]
    L.append("  [" + ",\n   ".join(text(r) for r in helper) + "]")
    L += ["", "set_option maxRecDepth 100000", "",
          "/-- The rules of the model are those of the source, in the same order, with the same names. -/",
          "theorem tokens_read : tokenTexts = lexerSyntax.map fun t => (t.tokenName, source t) := rfl", "",
          "/-- What is skipped between tokens. -/",
          "theorem ignore_read : ∃ pat, ignoreTexts.map readRe = [some pat] ∧ pat.re = reIgnore := ⟨_, rfl, rfl⟩", "",
          "/-- The productions of the model are those of the source, in the same order; production 0 is rply's own. -/",
          "theorem productions_read : ruleTexts.map readRule = productions.tail.map some := by decide +kernel", "",
          "/-- The precedences of the model are those of the source. -/",
          "theorem precedence_read : precedenceTexts.map readPrecedence = precedence.map some := by decide +kernel", "",
          "/-- The patterns of `dice_expression_helper.py` match as those of the model do. -/",
          "theorem helper_read : ∃ a b c d e, helperTexts.map readRe = [some a, some b, some c, some d, some e] ∧",
          "    norm a.re = norm rePosStart ∧ norm b.re = norm reNegEnd ∧ norm c.re = norm (Re.plus Re.digit) ∧",
          "    norm d.re = norm reMultiplied ∧ norm e.re = norm reRange :=",
          "  ⟨_, _, _, _, _, rfl, rfl, rfl, rfl, rfl, rfl⟩", "", "end PyDice.Conform", ""]
    open(os.path.join(OUT, "Grammar.lean"), "w").write("\n".join(L))


HEAVY |= set(l.strip() for l in open(os.path.join(os.path.dirname(os.path.abspath(__file__)), "conform_heavy.txt"))) \
    if os.path.exists(os.path.join(os.path.dirname(os.path.abspath(__file__)), "conform_heavy.txt")) else set()

if __name__ == "__main__":
    grammar()
    syn = sorted("syntax/" + f for f in os.listdir(TESTS + "/syntax") if f.startswith("test_"))
    module("Syntax", syn, "The tests of the token rules")
    module("Lexer", ["test_python_dice_lexer.py"], "The tests of the lexer")
    module("Parser", ["test_python_dice_parser.py"], "The tests of the parser")
    module("Interpreter", ["test_python_dice_interpreter.py"], "The tests of the interpreter")
    module("Dice", ["expression/test_dice_expression_helper.py", "expression/test_dice_expression.py"], "The tests of the dice")
    module("DropKeep", ["expression/test_drop_keep_expression.py"], "The tests of drop and keep")
    module("Nodes", sorted("expression/" + f for f in os.listdir(TESTS + "/expression") if f.startswith("test_") and "dice" not in f and "drop_keep" not in f),
           "The tests of the other expressions")
    module("Distribution", ["probability_distribution/test_probability_distribution.py"], "The tests of the distributions")
