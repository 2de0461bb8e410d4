#!/usr/bin/env python3
"""Copy the bodies of the project's functions into Lean as syntax trees: writes lean/Verif/Source/Text.lean.

The files are read as text and walked with `ast`; nothing of the project is imported or run.  Nothing is interpreted here: every
node of the tree becomes the constructor of the same name of `Verif/Source/Syntax.lean`.  Type annotations and comments are dropped, as are
the decorators of methods; the decorator of a nested function becomes a call of it, as a statement after the function (what the call
returns is dropped; rply's decorators return the function itself).  The function inside `add_production_function` is written out a second time as
`<Class>.production`.  The assignments of a module listed in MODULES become one block, named after the module.

    tools/source.py [SRC [OUT]]
"""
import ast, builtins, fractions, os, sys

SRC = sys.argv[1] if len(sys.argv) > 1 else "/repo/python_dice/src"
OUT = sys.argv[2] if len(sys.argv) > 2 else os.path.join(os.path.dirname(os.path.abspath(__file__)), "..", "lean", "Verif", "Source", "Text.lean")
FILES = ["constraint/null_constraint.py", "constraint/impossible_constraint.py", "constraint/var_value_constraint.py",
         "constraint/constraint_factory.py", "constraint/constraint_merger.py", "constraint/constraint_set.py",
         "constraint/constraint_set_factory.py",
         "probability_distribution/probability_outcome.py", "probability_distribution/probability_outcome_factory.py",
         "probability_distribution/probability_distribution.py", "probability_distribution/probability_distribution_factory.py",
         "probability_distribution/probability_distribution_state.py",
         "probability_distribution/probability_distribution_state_factory.py",
         "expression/dice_expression_helper.py", "expression/dice_expression.py", "expression/drop_keep_expression.py",
         "expression/constant_integer_expression.py", "expression/constant_binary_expression.py",
         "expression/parentheses_enclosed_expression.py", "expression/not_expression.py", "expression/abs_expression.py",
         "expression/add_expression.py", "expression/subtract_expression.py", "expression/multiply_expression.py",
         "expression/integer_division_expression.py", "expression/binary_operator_expression.py",
         "expression/minmax_expression.py", "expression/var_assignment_expression.py", "expression/get_var_expression.py",
         "python_dice_parser.py", "python_dice_interpreter.py", "python_dice_lexer.py"] + \
    ["syntax/" + x for x in sorted(os.listdir(os.path.join(SRC, "syntax"))) if x.endswith("_syntax.py")]
MODULES = ["syntax/dice_syntax_helper.py", "python_dice_syntax_objects.py"]
BIN = {ast.Add: "add", ast.Sub: "sub", ast.Mult: "mul", ast.FloorDiv: "floordiv", ast.Div: "div"}
CMP = {ast.Eq: "eq", ast.NotEq: "ne", ast.Lt: "lt", ast.LtE: "le", ast.Gt: "gt", ast.GtE: "ge", ast.In: "isIn", ast.NotIn: "notIn",
       ast.Is: "is", ast.IsNot: "isNot"}


class Skip(Exception):
    pass


def s(x):
    return '"' + x.replace("\\", "\\\\").replace('"', '\\"') + '"'


def ch(c):
    return {"\\": "'\\\\'", "'": "'\\''", "\n": "'\\n'", "\t": "'\\t'"}.get(c, f"'{c}'")


def chars(x):
    return "[" + ", ".join(ch(c) for c in x) + "]"


def seq(items):
    out = ".nil"
    for i in reversed(items):
        out = f"(.cons {i} {out})"
    return out


def num(i):
    return f"({i})" if i < 0 else str(i)


def const(v):
    if v is None:
        return ".none"
    if v is True:
        return ".true"
    if v is False:
        return ".false"
    if isinstance(v, int):
        return f"(.int {num(v)})"
    if isinstance(v, float):
        f = fractions.Fraction(repr(v))
        return f"(.flt {num(f.numerator)} {f.denominator})"
    if isinstance(v, str):
        return f"(.str {chars(v)})"
    raise Skip(repr(v))


def args(call):
    items = []
    for a in call.args:
        items.append(f"(.star {expr(a.value)})" if isinstance(a, ast.Starred) else expr(a))
    for k in call.keywords:
        if k.arg is None:
            raise Skip("**")
        items.append(f"(.kw {s(k.arg)} {expr(k.value)})")
    return seq(items)


def comp(gens):
    if len(gens) != 1 or gens[0].ifs or gens[0].is_async:
        raise Skip("comprehension")
    return f"{expr(gens[0].target)} {expr(gens[0].iter)}"


def path(e):
    names = []
    while isinstance(e, ast.Attribute):
        names.insert(0, e.attr)
        e = e.value
    return "[" + ", ".join(s(x) for x in [e.id] + names) + "]"


def params(a):
    if a.vararg or a.kwarg or a.posonlyargs or a.kwonlyargs:
        raise Skip("parameters")
    return "[" + ", ".join(s(x.arg) for x in a.args) + "]"


def expr(e):
    t = type(e)
    if t is ast.Constant:
        return const(e.value)
    if t is ast.Name:
        return f"(.name {s(e.id)})"
    if t is ast.Attribute:
        if isinstance(e.value, ast.Name) and e.value.id == "self":
            return f"(.self {s(e.attr)})"
        return f"(.attr {expr(e.value)} {s(e.attr)})"
    if t is ast.Call:
        f = e.func
        if isinstance(f, ast.Name):
            return f"(.callName {s(f.id)} {args(e)})"
        if isinstance(f, ast.Attribute):
            if isinstance(f.value, ast.Name) and f.value.id == "self":
                return f"(.callSelf {s(f.attr)} {args(e)})"
            return f"(.callAttr {expr(f.value)} {s(f.attr)} {args(e)})"
        return f"(.callE {expr(f)} {args(e)})"
    if t is ast.UnaryOp:
        if isinstance(e.op, ast.USub) and isinstance(e.operand, ast.Constant):
            return const(-e.operand.value)
        return f"(.{ {ast.Not: 'not', ast.USub: 'neg'}[type(e.op)] } {expr(e.operand)})"
    if t is ast.BinOp:
        return f"(.bin .{BIN[type(e.op)]} {expr(e.left)} {expr(e.right)})"
    if t is ast.Compare:
        if len(e.ops) != 1:
            raise Skip("chained comparison")
        return f"(.cmp .{CMP[type(e.ops[0])]} {expr(e.left)} {expr(e.comparators[0])})"
    if t is ast.BoolOp:
        if len(e.values) != 2:
            raise Skip("boolop")
        return f"(.{ {ast.And: 'and', ast.Or: 'or'}[type(e.op)] } {expr(e.values[0])} {expr(e.values[1])})"
    if t is ast.IfExp:
        return f"(.ite {expr(e.test)} {expr(e.body)} {expr(e.orelse)})"
    if t is ast.List:
        return f"(.list {seq([expr(x) for x in e.elts])})"
    if t is ast.Tuple:
        return f"(.tuple {seq([expr(x) for x in e.elts])})"
    if t is ast.Set:
        return f"(.set {seq([expr(x) for x in e.elts])})"
    if t is ast.Dict:
        return f"(.dict {seq([y for k, v in zip(e.keys, e.values) for y in (expr(k), expr(v))])})"
    if t is ast.Subscript:
        if isinstance(e.slice, ast.Slice):
            if e.slice.step is not None:
                raise Skip("step")
            lo = expr(e.slice.lower) if e.slice.lower is not None else ".none"
            hi = expr(e.slice.upper) if e.slice.upper is not None else ".none"
            return f"(.slice {expr(e.value)} {lo} {hi})"
        return f"(.index {expr(e.value)} {expr(e.slice)})"
    if t in (ast.ListComp, ast.GeneratorExp):
        return f"(.listComp {expr(e.elt)} {comp(e.generators)})"
    if t is ast.DictComp:
        return f"(.dictComp {expr(e.key)} {expr(e.value)} {comp(e.generators)})"
    if t is ast.JoinedStr:
        parts = []
        for p in e.values:
            if isinstance(p, ast.Constant):
                parts.append(const(p.value))
            elif p.conversion == -1 and p.format_spec is None:
                parts.append(expr(p.value))
            else:
                raise Skip("format")
        return f"(.fstr {seq(parts)})"
    if t is ast.Lambda:
        return f"(.lam {params(e.args)} {expr(e.body)})"
    raise Skip(t.__name__)


def block(stmts):
    if not stmts:
        return ".done"
    st, rest = stmts[0], stmts[1:]
    if isinstance(st, ast.FunctionDef):
        rest = [ast.Expr(ast.Call(d, [ast.Name(st.name)], [])) for d in reversed(st.decorator_list)] + rest
        return f"(.defn {s(st.name)} {params(st.args)} {block(st.body)}\n    {block(rest)})"
    if isinstance(st, ast.AnnAssign) and st.value is None:
        return block(rest)
    return f"(.seq {stmt(st)}\n    {block(rest)})"


def stmt(st):
    t = type(st)
    if t is ast.Return:
        return f"(.ret {expr(st.value) if st.value is not None else '.none'})"
    if t is ast.Expr:
        return f"(.expr {expr(st.value)})"
    if t is ast.Assign:
        if len(st.targets) != 1:
            raise Skip("targets")
        return f"(.assign {expr(st.targets[0])} {expr(st.value)})"
    if t is ast.AnnAssign:
        return f"(.assign {expr(st.target)} {expr(st.value)})"
    if t is ast.AugAssign:
        return f"(.aug .{BIN[type(st.op)]} {expr(st.target)} {expr(st.value)})"
    if t is ast.If:
        return f"(.ifs {expr(st.test)} {block(st.body)} {block(st.orelse)})"
    if t is ast.For:
        if st.orelse:
            raise Skip("for else")
        return f"(.for_ {expr(st.target)} {expr(st.iter)} {block(st.body)})"
    if t is ast.While:
        return f"(.while_ {expr(st.test)} {block(st.body)})"
    if t is ast.Try:
        if len(st.handlers) != 1 or st.orelse or st.finalbody or st.handlers[0].name is None:
            raise Skip("try")
        h = st.handlers[0]
        return f"(.tryx {block(st.body)} {path(h.type)} {s(h.name)} {block(h.body)})"
    if t is ast.Raise and isinstance(st.exc, ast.Name) and not hasattr(builtins, st.exc.id):
        return f"(.throw {expr(st.exc)})"
    if t is ast.Raise:
        return f"(.raise {expr(st.exc)})"
    if t is ast.Pass:
        return "(.expr .none)"
    raise Skip(t.__name__)


def fun(path, cls, f):
    defaults = f.args.defaults
    names = [a.arg for a in f.args.args][len(f.args.args) - len(defaults):] if defaults else []
    ds = "[" + ", ".join(f"({s(n)}, {expr(d)})" for n, d in zip(names, defaults)) + "]"
    name = f"{cls}.{f.name}" if cls else f.name
    kind = ""
    for d in f.decorator_list:
        if isinstance(d, ast.Name):
            kind = f" (`@{d.id}`)"
    lines = f"{f.lineno}-{f.end_lineno}"
    return f"/-- `{path}:{lines}`{kind}. -/\ndef Text.{name} : PyFun := ⟨{params(f.args)}, {ds},\n  {block(f.body)}⟩\n"


def main():
    out, left = [], []
    for path in FILES:
        tree = ast.parse(open(os.path.join(SRC, path)).read())
        for node in tree.body:
            members = [(None, node)] if isinstance(node, ast.FunctionDef) else \
                [(node.name, m) for m in node.body] if isinstance(node, ast.ClassDef) else []
            for cls, m in members:
                if isinstance(m, ast.FunctionDef):
                    if m.name == "add_production_function":
                        out.append(fun(path, cls, m))
                        m = [x for x in m.body if isinstance(x, ast.FunctionDef)][0]
                        m.name = "production"
                    try:
                        out.append(fun(path, cls, m))
                    except Skip as e:
                        left.append(f"`{path}:{m.lineno}` `{cls}.{m.name}`: {e}")
                elif isinstance(m, ast.Assign) and isinstance(m.targets[0], ast.Name):
                    try:
                        out.append(f"/-- `{path}:{m.lineno}`. -/\ndef Text.{cls}.{m.targets[0].id} : PyE :=\n  {expr(m.value)}\n")
                    except Skip as e:
                        left.append(f"`{path}:{m.lineno}` `{cls}`: {e}")
    for path in MODULES:
        body = [x for x in ast.parse(open(os.path.join(SRC, path)).read()).body if isinstance(x, (ast.Assign, ast.AnnAssign))]
        name = os.path.basename(path)[:-3]
        out.append(f"/-- `{path}:{body[0].lineno}-{body[-1].end_lineno}`. -/\ndef Text.{name} : PyS :=\n  {block(body)}\n")
    text = "import Verif.Source.Syntax\n/-!\n# The functions of the project as syntax trees\n\nWritten by `tools/source.py` from the files in `/repo/python_dice/src`; do not edit.\n"
    if left:
        text += "Left out (syntax not covered):\n" + "".join(f"* {l}\n" for l in left)
    text += "-/\n\nnamespace PyDice.Source\n\n" + "\n".join(out) + "\nend PyDice.Source\n"
    os.makedirs(os.path.dirname(OUT), exist_ok=True)
    open(OUT, "w").write(text)
    names = [l[len("def Text."):l.index(" : ")] for o in out for l in o.splitlines() if l.startswith("def Text.") and " : PyFun" in l]
    open(os.path.join(os.path.dirname(OUT), "All.lean"), "w").write(
        "import Verif.Source.Text\n/-!\n# The list of the functions in `Source/Text`\n\nWritten by `tools/source.py`; do not edit.\n-/\n\nnamespace PyDice.Source\n\n"
        "/-- Every function of the source that is written out, with its name. -/\ndef Text.all : List (String × PyFun) :=\n  [" +
        ",\n   ".join(f"({s(n)}, Text.{n})" for n in names) + "]\n\nend PyDice.Source\n")
    print(len(out), "written;", len(left), "left out")
    for l in left:
        print("  ", l)


main()
