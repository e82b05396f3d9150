#!/usr/bin/env python3
"""Write generated functions of ebcc/codegen as terms of the model (`Verif/Model/GenCode.lean`).

Usage: gencode.py /repo/ebcc/codegen output-directory MODULE[@OUTPUT]:FUNCTION[/RESULT+RESULT...][,...] ...

The modules are read as text.  Every statement of the output is preceded by the line it comes from.
An array put together by `np.block`, `pack_2e` or `np.array` is returned as its blocks, with names such as
`rdm1.oo`; entries of the argument `ints`, a namespace, are arguments with names such as `ints.tmp0`.
With `/RESULT+...` only these results are returned, and the statements after the last one that sets or changes one
of them are left out.
Stops with an error on anything that is not one of the statements of the model.
"""

import ast
import os
import sys
from fractions import Fraction

SPACE = {
    "nocc": 0, "nvir": 1, "nbos": 2, "naux": 3,
    "nocc[0]": 0, "nvir[0]": 1, "nocc[1]": 4, "nvir[1]": 5,
}


class Unsupported(Exception):
    pass


def number(node):
    """A numeric literal, as a fraction."""
    if isinstance(node, ast.UnaryOp) and isinstance(node.op, ast.USub):
        return -number(node.operand)
    if not (isinstance(node, ast.Constant) and isinstance(node.value, (int, float))):
        raise Unsupported(ast.unparse(node))
    value = node.value
    frac = Fraction(value).limit_denominator(600)
    if abs(float(frac) - value) > 1e-11:
        raise Unsupported(f"coefficient {value}")
    return frac


def is_number(node):
    try:
        number(node)
    except Unsupported:
        return False
    return True


def name_of(node):
    if isinstance(node, (ast.Name, ast.Attribute)):
        return ast.unparse(node)
    raise Unsupported(ast.unparse(node))


def expression(node):
    """Coefficient, expression, and whether the result is a new array."""
    if isinstance(node, ast.BinOp) and isinstance(node.op, ast.Mult):
        if is_number(node.right):
            coef, expr, _ = expression(node.left)
            return coef * number(node.right), expr, True
        if is_number(node.left):
            coef, expr, _ = expression(node.right)
            return coef * number(node.left), expr, True
    if isinstance(node, (ast.Name, ast.Attribute)):
        return Fraction(1), ("cp", name_of(node)), False
    if isinstance(node, ast.Call):
        func = ast.unparse(node.func)
        if func == "np.copy":
            coef, expr, _ = expression(node.args[0])
            return coef, expr, True
        if func == "np.transpose":
            return Fraction(1), ("tr", name_of(node.args[0]), list(ast.literal_eval(node.args[1]))), False
        if func == "einsum" and not node.keywords:
            if isinstance(node.args[0], ast.Constant):
                inp, out = node.args[0].value.split("->")
                labels = {}
                for char in inp.replace(",", ""):
                    labels.setdefault(char, len(labels))
                subs = [[labels[c] for c in s] for s in inp.split(",")]
                arrays = node.args[1:]
                if len(arrays) != len(subs):
                    raise Unsupported(ast.unparse(node))
                ops = [(name_of(a), s) for a, s in zip(arrays, subs)]
                return Fraction(1), ("ein", ops, [labels[c] for c in out]), True
            args = node.args
            if len(args) % 2 != 1:
                raise Unsupported(ast.unparse(node))
            ops = [(name_of(args[k]), list(ast.literal_eval(args[k + 1]))) for k in range(0, len(args) - 1, 2)]
            return Fraction(1), ("ein", ops, list(ast.literal_eval(args[-1]))), True
    if isinstance(node, ast.Call) and ast.unparse(node.func) == "np.eye":
        return Fraction(1), ("eye", space(ast.unparse(node.args[0]))), True
    raise Unsupported(ast.unparse(node)[:80])


def space(text):
    if text in SPACE:
        return SPACE[text]
    table = {"t2.shape[0]": 0, "t2.shape[-1]": 1, "t2.aaaa.shape[0]": 0, "t2.aaaa.shape[-1]": 1,
             "t2.bbbb.shape[0]": 4, "t2.bbbb.shape[-1]": 5}
    return table[text]


# the order of the arguments of `pack_2e`, util/permutations.py:586-603
OV2E = ["oooo", "ooov", "oovo", "ovoo", "vooo", "oovv", "ovov", "ovvo", "voov", "vovo", "vvoo", "ovvv", "vovv", "vvov",
        "vvvo", "vvvv"]


def blocks(node):
    """The blocks of an array put together by `np.block` or `pack_2e`, None for other expressions."""
    if not isinstance(node, ast.Call):
        return None
    func = ast.unparse(node.func)
    if func == "np.block":
        rows = node.args[0].elts
        if len(rows) != 2 or any(len(r.elts) != 2 for r in rows):
            raise Unsupported(ast.unparse(node))
        return [("ov"[i] + "ov"[j], name_of(rows[i].elts[j])) for i in range(2) for j in range(2)]
    if func == "pack_2e":
        if len(node.args) != 16:
            raise Unsupported(ast.unparse(node))
        return [(key, name_of(a)) for key, a in zip(OV2E, node.args)]
    if func == "np.array" and isinstance(node.args[0], (ast.List, ast.Tuple)):
        parts = [blocks(e) for e in node.args[0].elts]
        if all(parts):
            return [(f"{k}.{key}", name) for k, part in enumerate(parts) for key, name in part]
        if any(parts):
            raise Unsupported(ast.unparse(node))
        return [(str(k), name_of(e)) for k, e in enumerate(node.args[0].elts)]
    return None


def spaces(node):
    elts = node.elts if isinstance(node, ast.Tuple) else [node]
    return [space(ast.unparse(e)) for e in elts]


class Function:
    def __init__(self, node, source, only=None):
        self.node = node
        self.only = only
        self.source = source
        self.stmts = []  # (line, statement)
        self.ret = []
        params = [a.arg for a in node.args.args]
        self.params = [p for p in params]
        self.assigned = []
        self.used = []
        self.aliases = []
        self.adds = []
        self.packed = {}
        for stmt in node.body if only is None else self.prefix():
            self.statement(stmt)
        self.check_aliases()

    def prefix(self):
        last = 0
        for k, stmt in enumerate(self.node.body):
            targets = stmt.targets if isinstance(stmt, ast.Assign) else [getattr(stmt, "target", None)]
            if any(t is not None and ast.unparse(t).split(".")[0] in self.only for t in targets):
                last = k
        return self.node.body[:last + 1] + [self.node.body[-1]]

    def is_param(self, name):
        return name.split(".")[0] in self.params

    def use(self, expr):
        if expr[0] == "ein":
            for name, _ in expr[1]:
                self.use_name(name)
        elif expr[0] != "eye":
            self.use_name(expr[1])

    def use_name(self, name):
        if name not in self.assigned and name not in self.used:
            if not self.is_param(name):
                raise Unsupported(f"unbound {name}")
            self.used.append(name)

    def emit(self, line, *stmt):
        self.stmts.append((line, stmt))

    def assign(self, line, target, node):
        coef, expr, fresh = expression(node)
        self.use(expr)
        if not fresh:
            self.aliases.append((len(self.stmts), target, expr[1]))
        self.assigned.append(target)
        self.emit(line, "set", target, expr, coef)

    def namespace(self, line, target, call):
        if call.args:
            raise Unsupported(ast.unparse(call))
        for kw in call.keywords:
            name = f"{target}.{kw.arg}"
            if isinstance(kw.value, ast.Call) and ast.unparse(kw.value.func) == "Namespace":
                self.namespace(line, name, kw.value)
            else:
                self.assign(line, name, kw.value)

    def transpose_blocks(self, line, target, source, perm):
        old = dict(self.packed[source])
        parts = []
        for key, _ in self.packed[source]:
            inverse = "".join(key[perm.index(k)] for k in range(len(perm)))
            name = f"{target}'.{key}"
            self.assigned.append(name)
            self.emit(line, "set", name, ("tr", old[inverse], perm), Fraction(1))
            parts.append((key, name))
        self.packed[target] = parts

    def statement(self, stmt):
        line = stmt.lineno
        if isinstance(stmt, ast.Expr) and isinstance(stmt.value, ast.Constant):
            return
        if isinstance(stmt, ast.Delete):
            for target in stmt.targets:
                name = ast.unparse(target)
                if name.startswith("ints.") and name in self.used:
                    self.emit(line, "del", name)
                    continue
                names = [x for x in self.assigned if x == name or x.startswith(name + ".")]
                if not names:
                    raise Unsupported(f"del {name}")
                for x in dict.fromkeys(names):
                    self.emit(line, "del", x)
        elif isinstance(stmt, ast.Assign) and len(stmt.targets) == 1:
            target = ast.unparse(stmt.targets[0])
            value = stmt.value
            if isinstance(value, ast.Call):
                func = ast.unparse(value.func)
                if func == "np.zeros":
                    self.assigned.append(target)
                    self.emit(line, "zeros", target, spaces(value.args[0]))
                    return
                if func == "Namespace":
                    self.namespace(line, target, value)
                    return
            if isinstance(value, ast.Constant) and value.value == 0:
                self.assigned.append(target)
                self.emit(line, "zeros", target, [])
                return
            parts = blocks(value)
            if parts is not None:
                for _, name in parts:
                    self.use_name(name)
                self.packed[target] = parts
                return
            if isinstance(value, ast.Call) and ast.unparse(value.func) == "np.transpose":
                source = ast.unparse(value.args[0])
                if source in self.packed:
                    self.transpose_blocks(line, target, source, list(ast.literal_eval(value.args[1])))
                    return
            if target == "ints" and ast.unparse(value) == "kwargs['ints']":
                self.params.append("ints")
                return
            self.assign(line, target, value)
        elif isinstance(stmt, ast.AugAssign) and isinstance(stmt.op, (ast.Add, ast.Sub)):
            target = ast.unparse(stmt.target)
            if target not in self.assigned:
                raise Unsupported(f"{target} += ...")
            coef, expr, _ = expression(stmt.value)
            if isinstance(stmt.op, ast.Sub):
                coef = -coef
            self.use(expr)
            self.adds.append((len(self.stmts), target))
            self.emit(line, "add", target, expr, coef)
        elif isinstance(stmt, ast.Return):
            value = stmt.value
            if isinstance(value, ast.Dict):
                pairs = []
                for key, val in zip(value.keys, value.values):
                    key = ast.literal_eval(key) if isinstance(key, ast.Constant) else ast.unparse(key)[2:-1]
                    if self.only is None or key in self.only:
                        pairs.append((key, ast.unparse(val)))
            else:
                pairs = [(ast.unparse(value), ast.unparse(value))]
            seen = []
            for key, val in pairs:
                if val in self.packed:
                    self.ret += [(f"{key}.{block}", name) for block, name in self.packed[val]]
                    continue
                for name in self.assigned:
                    if (name == val or name.startswith(val + ".")) and name not in seen:
                        seen.append(name)
                        self.ret.append((key + name[len(val):], name))
        else:
            raise Unsupported(ast.unparse(stmt)[:80])

    def check_aliases(self):
        """No array is changed in place while it has two names."""
        for pos, target, source in self.aliases:
            for pos2, added in self.adds:
                if pos2 > pos and added in (target, source) and target != source:
                    raise Unsupported(f"alias {target} {source}")

    def lean(self, defname, citation):
        ids = {}
        for name in self.used:
            ids[name] = len(ids)
        for _, stmt in self.stmts:
            if stmt[1] not in ids:
                ids[stmt[1]] = len(ids)

        def lst(xs):
            return "[" + ", ".join(map(str, xs)) + "]"

        def expr(e):
            if e[0] == "eye":
                raise Unsupported("np.eye in an expression")
            if e[0] == "cp":
                return f"(.cp {ids[e[1]]})"
            if e[0] == "tr":
                return f"(.tr {ids[e[1]]} {lst(e[2])})"
            return "(.ein [" + ", ".join(f"({ids[n]}, {lst(l)})" for n, l in e[1]) + f"] {lst(e[2])})"

        lines = []
        for line, stmt in self.stmts:
            if stmt[0] == "del":
                text = f".del {ids[stmt[1]]}"
            elif stmt[0] == "zeros":
                text = f".zeros {ids[stmt[1]]} {lst(stmt[2])}"
            elif stmt[0] == "set" and stmt[2][0] == "eye" and stmt[3] == 1:
                text = f".eye {ids[stmt[1]]} {stmt[2][1]}"
            else:
                num, den = stmt[3].numerator, stmt[3].denominator
                num = f"({num})" if num < 0 else str(num)
                text = f".{stmt[0]} {ids[stmt[1]]} {expr(stmt[2])} {num} {den}"
            lines.append((line, text))
        out = [f"/-- {citation} -/", f"def {defname} : GenFun where"]
        out.append("  args := [" + ", ".join(f'chars! "{n}"' for n in self.used) + "]")
        out.append("  body := [")
        last = None
        for k, (line, text) in enumerate(lines):
            if line != last:
                out.append(f"    -- {line}: {self.source[line - 1].strip()}")
                last = line
            out.append("    " + text + ("," if k + 1 < len(lines) else ""))
        out.append("  ]")
        out.append("  ret := [" + ", ".join(f'(chars! "{k}", {ids[n]})' for k, n in self.ret) + "]")
        return "\n".join(out)


def results(name):
    name, _, only = name.partition("/")
    return name, only.split("+") if only else None


def main():
    root, outdir = sys.argv[1:3]
    for item in sys.argv[3:]:
        module, funcs = item.split(":")
        module, _, output = module.partition("@")
        output = output or module
        path = os.path.join(root, module + ".py")
        text = open(path).read()
        source = text.split("\n")
        defs = {d.name: d for d in ast.parse(text).body if isinstance(d, ast.FunctionDef)}
        funcs = funcs.split(",")
        out = [
            "import Verif.Model.GenCode",
            "/-!",
            f"Functions of `ebcc/codegen/{module}.py`, written by `tools/gencode.py`.  Comments give the",
            "number and the text of the line of each statement.",
            "-/",
            "",
            "set_option maxRecDepth 100000",
            "",
            f"namespace Ebcc.Gen.{output}",
            "",
        ]
        for name in funcs:
            name, only = results(name)
            node = defs[name]
            citation = f"codegen/{module}.py:{node.lineno}-{node.end_lineno} `{name}`."
            function = Function(node, source, only)
            if only is not None:
                line = function.stmts[-1][0]
                citation = f"codegen/{module}.py:{node.lineno}-{line} `{name}`, the statements for the results " + ", ".join(
                    f"`{x}`" for x in only) + f"; without\nthe other results and their statements, lines {line + 1}-{node.end_lineno}."
            out.append(function.lean(name, citation))
            out.append("")
        out.append(f"end Ebcc.Gen.{output}")
        with open(os.path.join(outdir, output + ".lean"), "w") as f:
            f.write("\n".join(out) + "\n")


if __name__ == "__main__":
    main()
