#!/usr/bin/env python3
"""Write lean/Verif/Py/Source.lean: syntax trees of functions of /repo, as Python's module `ast` parses them.

Only the text is read. Docstrings and annotations are left out; everything else is printed one to one, and a construct
without a counterpart in Verif/Py/Syntax.lean is an error.
"""
import ast
import os

REPO = "/repo/numba_pokemon_prngs/"
OUT = os.path.join(os.path.dirname(os.path.abspath(__file__)), "../lean/Verif/Py/Source.lean")

BIN = {ast.Add: "add", ast.Sub: "sub", ast.Mult: "mul", ast.BitAnd: "and", ast.BitOr: "or", ast.BitXor: "xor",
       ast.LShift: "shl", ast.RShift: "shr", ast.FloorDiv: "floordiv", ast.Mod: "mod"}
CMP = {ast.Eq: "eq", ast.NotEq: "ne", ast.Lt: "lt", ast.LtE: "le", ast.Gt: "gt", ast.GtE: "ge"}
TYPES = {"uint8": "u8", "uint16": "u16", "uint32": "u32", "uint64": "u64", "int32": "i32", "int64": "i64"}


ENUMS = ("DSType", "Language", "Game", "Encounter", "Lead", "Method")
MODULES = ("encounter_area_3",)


def np_type(e):
    """np.uint32 -> u32"""
    if isinstance(e, ast.Attribute) and isinstance(e.value, ast.Name) and e.value.id == "np" and e.attr in TYPES:
        return TYPES[e.attr]
    return None


def name(s):
    return '"%s"' % s


def seq(es):
    r = ".nil"
    for e in reversed(es):
        r = "(.cons %s %s)" % (expr(e), r)
    return r


def expr(e):
    if isinstance(e, ast.Constant) and type(e.value) is int:
        return "(.num %d)" % e.value if e.value < 10 else "(.num 0x%X)" % e.value
    if isinstance(e, ast.Constant) and type(e.value) is bool:
        return "(.bool %s)" % str(e.value).lower()
    if isinstance(e, ast.Constant) and type(e.value) is str:
        return "(.str %s)" % name(e.value)
    if isinstance(e, ast.UnaryOp) and isinstance(e.op, ast.USub) and isinstance(e.operand, ast.Constant):
        return "(.num (-0x%X))" % e.operand.value
    if isinstance(e, ast.UnaryOp) and isinstance(e.op, ast.Invert):
        return "(.inv %s)" % expr(e.operand)
    if isinstance(e, ast.Name):
        return "(.var %s)" % name(e.id)
    if isinstance(e, ast.Attribute) and isinstance(e.value, ast.Name) and e.value.id == "self":
        return "(.self %s)" % name(e.attr)
    if isinstance(e, ast.Attribute) and isinstance(e.value, ast.Name) and e.value.id in ENUMS:
        return "(.var %s)" % name(e.value.id + "." + e.attr)  # a member of an enumeration is a constant
    if isinstance(e, ast.Attribute) and isinstance(e.value, ast.Name) and e.value.id not in MODULES + ("np",):
        return "(.attr %s %s)" % (expr(e.value), name(e.attr))
    if isinstance(e, ast.Attribute) and isinstance(e.value, ast.Attribute) and ast.unparse(e.value.value) == "self":
        return "(.attr %s %s)" % (expr(e.value), name(e.attr))
    if isinstance(e, ast.Subscript) and isinstance(e.slice, ast.Tuple):  # a[:, i]
        s, i = e.slice.elts
        assert isinstance(s, ast.Slice) and s.lower is None and s.upper is None and s.step is None
        return "(.call %s %s)" % (name("[:,]"), seq([e.value, i]))
    if isinstance(e, ast.Call) and ast.unparse(e.func) == "np.sum" and len(e.args) == 1 and not e.keywords:
        return "(.call %s %s)" % (name("np.sum"), seq(e.args))
    if isinstance(e, ast.UnaryOp) and isinstance(e.op, ast.Not):
        return "(.not %s)" % expr(e.operand)
    if isinstance(e, ast.Subscript):
        return "(.item %s %s)" % (expr(e.value), expr(e.slice))
    if isinstance(e, ast.BinOp) and isinstance(e.op, ast.Div):
        return "(.call %s %s)" % (name("/"), seq([e.left, e.right]))  # a / b
    if isinstance(e, ast.BinOp):
        return "(.bin .%s %s %s)" % (BIN[type(e.op)], expr(e.left), expr(e.right))
    if isinstance(e, ast.Compare) and len(e.ops) == 1:
        return "(.cmp .%s %s %s)" % (CMP[type(e.ops[0])], expr(e.left), expr(e.comparators[0]))
    if isinstance(e, ast.Compare) and len(e.ops) == 2:  # a < b < c is a < b and b < c, if evaluating b has no effects
        b = e.comparators[0]
        assert isinstance(b, ast.Attribute) and isinstance(b.value, ast.Name)
        return "(.and %s %s)" % (expr(ast.Compare(e.left, e.ops[:1], [b])), expr(ast.Compare(b, e.ops[1:], e.comparators[1:])))
    if isinstance(e, ast.BoolOp):
        op = "and" if isinstance(e.op, ast.And) else "or"
        r = expr(e.values[-1])
        for v in reversed(e.values[:-1]):
            r = "(.%s %s %s)" % (op, expr(v), r)
        return r
    if isinstance(e, ast.IfExp):
        return "(.ite %s %s %s)" % (expr(e.test), expr(e.body), expr(e.orelse))
    if isinstance(e, ast.Tuple):
        return seq(e.elts)
    if isinstance(e, ast.Call) and ast.unparse(e.func) in ("np.empty", "np.zeros") and len(e.args) == 1:
        t = e.keywords[0]
        assert len(e.keywords) == 1 and t.arg == "dtype" and np_type(t.value)
        return "(.call %s %s)" % (name(ast.unparse(e.func) + "." + t.value.attr), seq(e.args))  # e.g. "np.empty.uint32"
    if isinstance(e, ast.Call) and ast.unparse(e.func) == "np.float32" and len(e.args) == 1:
        return "(.call %s %s)" % (name("np.float32"), seq(e.args))
    if isinstance(e, ast.Call) and ast.unparse(e.func) == "np.empty" and len(e.args) == 2 and np_type(e.args[1]):
        return "(.call %s %s)" % (name("np.empty." + e.args[1].attr), seq(e.args[:1]))
    if isinstance(e, ast.Call) and not e.keywords:
        t = np_type(e.func)
        if t and len(e.args) == 1:
            return "(.cast %s %s)" % (t, expr(e.args[0]))
        if isinstance(e.func, ast.Name):
            return "(.call %s %s)" % (name(e.func.id), seq(e.args))
        if isinstance(e.func, ast.Attribute) and isinstance(e.func.value, ast.Name) and e.func.value.id == "self":
            return "(.meth %s %s)" % (name(e.func.attr), seq(e.args))
        if isinstance(e.func, ast.Attribute) and isinstance(e.func.value, ast.Name) and e.func.value.id in MODULES:
            return "(.call %s %s)" % (name(e.func.attr), seq(e.args))
        if isinstance(e.func, ast.Attribute) and isinstance(e.func.value, ast.Name) and e.func.value.id != "np":
            # a method of another object, x.f(...): the function ".f" of the object and the arguments
            return "(.call %s %s)" % (name("." + e.func.attr), seq([e.func.value] + e.args))
        if (isinstance(e.func, ast.Attribute) and isinstance(e.func.value, ast.Call) and isinstance(e.func.value.func, ast.Name)
                and not e.args and not e.func.value.keywords):
            # a method of a new object, C(...).f(): the function "C.f" of the arguments of the constructor
            return "(.call %s %s)" % (name(e.func.value.func.id + "." + e.func.attr), seq(e.func.value.args))
    raise SystemExit("no counterpart: " + ast.dump(e))


def block(ss, ind):
    ss = [s for s in ss if not (isinstance(s, ast.Expr) and isinstance(s.value, ast.Constant))]
    if not ss:
        return " " * ind + ".pass"
    if len(ss) == 1:
        return stmt(ss[0], ind)
    return " " * ind + "(.seq\n" + stmt(ss[0], ind + 1) + "\n" + block(ss[1:], ind) + ")"


def stmt(s, ind):
    p = " " * ind
    if isinstance(s, ast.Assign) and isinstance(s.targets[0], ast.Subscript) and isinstance(s.targets[0].slice, ast.Slice):
        t = s.targets[0]
        assert len(s.targets) == 1 and t.slice.lower is None and t.slice.step is None
        if t.slice.upper is None:
            return p + "(.expr (.call %s %s))" % (name("[:]="), seq([t.value, s.value]))  # a[:] = e
        return p + "(.expr (.call %s %s))" % (name("[:]="), seq([t.value, t.slice.upper, s.value]))  # a[:n] = e
    if isinstance(s, ast.Assign) and len(s.targets) == 1:
        return p + "(.assign %s %s)" % (expr(s.targets[0]), expr(s.value))
    if isinstance(s, ast.Assign) and len(s.targets) == 2:
        return p + "(.assign2 %s %s %s)" % (expr(s.targets[0]), expr(s.targets[1]), expr(s.value))
    if isinstance(s, ast.AnnAssign) and s.value is not None:
        return p + "(.assign %s %s)" % (expr(s.target), expr(s.value))
    if isinstance(s, ast.AugAssign):
        return p + "(.aug .%s %s %s)" % (BIN[type(s.op)], expr(s.target), expr(s.value))
    if (isinstance(s, ast.Expr) and isinstance(s.value, ast.Call) and isinstance(s.value.func, ast.Attribute)
            and s.value.func.attr == "append" and isinstance(s.value.func.value, ast.Name)):
        # x.append(e) on a list with no other name: x = the longer list
        return p + "(.assign %s %s)" % (expr(s.value.func.value), expr(s.value))
    if isinstance(s, ast.For) and isinstance(s.target, ast.Tuple) and not s.orelse:
        # for a, b in e: each element is assigned to the tuple of targets
        x = ast.unparse(s.target)
        return p + "(.for %s %s\n%s(.seq\n%s(.assign %s (.var %s))\n%s))" % (
            name(x), expr(s.iter), " " * (ind + 1), " " * (ind + 2), expr(s.target), name(x), block(s.body, ind + 1))
    if isinstance(s, ast.Break):
        return p + ".break"
    if isinstance(s, ast.Continue):
        return p + ".continue"
    if isinstance(s, ast.Expr):
        return p + "(.expr %s)" % expr(s.value)
    if isinstance(s, ast.Return) and s.value is not None:
        return p + "(.ret %s)" % expr(s.value)
    if isinstance(s, ast.If):
        return p + "(.ite %s\n%s\n%s)" % (expr(s.test), block(s.body, ind + 1), block(s.orelse, ind + 1))
    if isinstance(s, ast.For) and isinstance(s.target, ast.Name) and not s.orelse:
        return p + "(.for %s %s\n%s)" % (name(s.target.id), expr(s.iter), block(s.body, ind + 1))
    if isinstance(s, ast.While) and not s.orelse:
        return p + "(.while %s\n%s)" % (expr(s.test), block(s.body, ind + 1))
    if isinstance(s, ast.Raise):
        return p + ".raise"
    raise SystemExit("no counterpart: " + ast.dump(s))


def decorator(f):
    """argument types, result type, result types of a tuple and local types of optional_njit(return_type(...), locals={...})"""
    args = result = results = None
    local = []
    for d in f.decorator_list:
        if isinstance(d, ast.Name) and d.id in ("staticmethod", "optional_njit"):
            continue
        if not (isinstance(d, ast.Call) and isinstance(d.func, ast.Name) and d.func.id == "optional_njit"):
            raise SystemExit("decorator " + ast.dump(d))
        for a in d.args:
            result = np_type(a.args[0])
            if ast.unparse(a.args[0]).startswith("unituple_type"):
                results = [np_type(a.args[0].args[0])] * a.args[0].args[1].value
            ts = [np_type(x) for x in a.args[1].elts]
            args = ts if all(ts) else None
        for k in d.keywords:
            if k.arg == "locals":
                local = [(x.value, np_type(v)) for x, v in zip(k.value.keys, k.value.values)]
    return args, result, results, local


def find(tree, path):
    for p in path:
        hits = [n for n in ast.walk(tree) if isinstance(n, (ast.FunctionDef, ast.ClassDef)) and n.name == p[0]]
        tree = hits[p[1]]
    return tree


# (file, [(lean name, path of (name, occurrence), ...)])
FILES = [
    ("fnv.py", [("fnv1_64", [("fnv1_64", 0)]), ("fnv1a_64", [("fnv1a_64", 0)])]),
    ("util.py", [(n, [(n, 0)]) for n in
                 ("change_endian_u32", "rotate_left_u32", "rotate_right_u32", "rotate_left_u64", "rotate_right_u64",
                  "compute_stat")]),
    ("gen3/util.py", [(n, [(n, 0)]) for n in ("get_gender", "get_shiny", "unown_check")]),
    ("lcrng/lcrng32.py",
     [("LCRNG32." + n, [("LCRNG32", 0), (n, 0)]) for n in ("re_init", "advance", "next_u16")]
     + [("LCRNG32.next", [("next_", 0)]), ("LCRNG32.jump", [("lcrng32_init", 0), ("jump", 0)]),
        ("LCRNG32.next_rand_modulo", [("lcrng32_init", 0), ("next_rand", 0)]),
        ("LCRNG32.next_rand_division", [("lcrng32_init", 0), ("next_rand", 1)]),
        ("LCRNG32.rand_func_modulo", [("lcrng32_init", 0), ("const_rand", 0), ("rand_func", 0)])]),
    ("lcrng/lcrng64.py",
     [("LCRNG64." + n, [("LCRNG64", 0), (n, 0)]) for n in ("re_init", "advance", "next_u32")]
     + [("LCRNG64.next", [("next_", 0)]), ("LCRNG64.jump", [("lcrng64_init", 0), ("jump", 0)]),
        ("LCRNG64.next_rand", [("lcrng64_init", 0), ("next_rand", 0)])]),
    ("mersenne_twister/mt.py", [("MersenneTwister." + n, [("MersenneTwister", 0), (n, 0)]) for n in
                                ("re_init", "advance", "next", "shuffle", "next_rand", "next_rand_mod")]),
    ("mersenne_twister/sfmt.py", [("sfmt_shuffle", [("sfmt_shuffle", 0)])] + [("SIMDFastMersenneTwister." + n, [("SIMDFastMersenneTwister", 0), (n, 0)]) for n in
                                  ("re_init", "advance", "next", "shuffle", "next_rand")]),
    ("mersenne_twister/tinymt.py", [("TinyMersenneTwister." + n, [("TinyMersenneTwister", 0), (n, 0)]) for n in
                                    ("re_init", "advance", "next", "shuffle", "temper", "next_rand", "next_rand_mod")]),
    ("xorshift/xorshift128.py", [("Xorshift128." + n, [("Xorshift128", 0), (n, 0)]) for n in
                                 ("re_init", "advance", "next", "previous", "next_randrange", "next_rand",
                                  "next_alternate_rand", "next_float_randrange")]),
    ("xorshift/xoroshiro128plus.py",
     [("Xoroshiro128Plus.advance", [("Xoroshiro128Plus", 0), ("advance", 0)])]
     + [("Xoroshiro128PlusRejection." + n, [("Xoroshiro128PlusRejection", 0), (n, 0)]) for n in
        ("re_init", "next", "previous", "next_rand", "bit_mask")]
     + [("SplitMixXoroshiro128Plus." + n, [("SplitMixXoroshiro128Plus", 0), (n, 0)]) for n in
        ("re_init", "splitmix", "next", "previous", "next_rand")]),
    ("sha1.py",
     [(n, [(n, 0)]) for n in ("compute_nazo_bw", "compute_nazo_bw2", "get_nazo", "section1_calc", "section2_calc",
                              "section3_calc", "section4_calc")]
     + [("SHA1." + n, [("SHA1", 0), (n, 0)]) for n in ("__init__", "hash_seed", "precompute", "set_button", "set_date", "set_timer0",
                                                       "set_time", "calc_w", "calc_w_simd")]),
    ("gen3/encounter_area_3.py",
     [(n, [(n, 0)]) for n in ("calculate_hslot", "calculate_hslot_lead", "calculate_level", "is_rse_safari_zone",
                              "get_modified_slots", "get_encounter_rate")]),
    ("data/encounter/encounter_area_la.py", [("EncounterAreaLA.calc_slot", [("EncounterAreaLA", 0), ("calc_slot", 0)])]),
    ("gen3/state.py", [("State.update_stats", [("State", 0), ("update_stats", 0)]), ("GeneratorState.__init__", [("GeneratorState", 0), ("__init__", 0)])]),
    ("data/personal/__init__.py", [("get_info_table_3", [("get_info_table_3", 0)])]),
    ("gen3/wild_generator_3.py", [("WildGenerator3." + n, [("WildGenerator3", 0), (n, 0)]) for n in ("__init__", "cute_charm_check", "generate")]),
    ("rng_list.py", [("RNGList." + n, [("SpecificRNGList", 0), (n, 0)]) for n in
                     ("re_init", "advance_states", "advance_state", "advance", "get_value")]),
]


def members(files):
    """the members of enumerations, with their values"""
    for file, cls in files:
        tree = ast.parse(open(REPO + "enums/%s.py" % file).read())
        values = {}
        for st in find(tree, [(cls, 0)]).body:
            if isinstance(st, ast.Assign):
                v = st.value
                if isinstance(v, ast.BinOp) and isinstance(v.op, ast.LShift):
                    value = v.left.value << v.right.value
                elif isinstance(v, ast.Name):
                    value = values[v.id]
                else:
                    value = v.value
                values[st.targets[0].id] = value
                yield cls + "." + st.targets[0].id, "0x%X" % value if value > 9 else str(value)


def main():
    out = ["import Verif.Py.Syntax", "/-",
           "Written by tools/gen_py.py: syntax trees of the functions of numba_pokemon_prngs named below, as Python's module `ast`",
           "parses the files. Do not edit.", "-/", "namespace Verif.Py.Source", ""]
    for file, funs in FILES:
        text = open(REPO + file).read()
        tree = ast.parse(text)
        lines = text.split("\n")
        out.append("/-! ### %s -/\n" % file)
        for lean, path in funs:
            f = find(tree, path)
            args, result, results, local = decorator(f)
            params = [a.arg for a in f.args.args if a.arg != "self"]
            first = min([f.lineno] + [d.lineno for d in f.decorator_list])
            src = "\n".join(lines[first - 1:f.end_lineno])
            assert "-/" not in src
            out.append("/-- `%s:%d-%d`\n```\n%s\n``` -/" % (file, first, f.end_lineno, src))
            out.append("def %s : Fun where" % lean)
            out.append("  params := [%s]" % ", ".join(map(name, params)))
            if args is not None:
                out.append("  args := some [%s]" % ", ".join(args))
            if result is not None:
                out.append("  result := some %s" % result)
            if results is not None:
                out.append("  results := some [%s]" % ", ".join(results))
            if local:
                out.append("  locals := [%s]" % ", ".join("(%s, %s)" % (name(x), t) for x, t in local))
            out.append("  body :=\n%s\n" % block(f.body, 4))
        if file == "gen3/encounter_area_3.py":
            out.append("/-- the members of the enumerations of enums/game.py, enums/encounter.py, enums/lead.py and enums/method.py -/")
            out.append("def enums3 : List (String × Int) :=\n  [%s]\n" % ",\n   ".join("(%s, %s)" % (name(x), v) for x, v in members(
                [("game", "Game"), ("encounter", "Encounter"), ("lead", "Lead"), ("method", "Method")])))
        if file == "sha1.py":
            out.append("/-- the members of the enumerations of enums/ds_type.py, enums/language.py and enums/game.py -/")
            out.append("def enums : List (String × Int) :=\n  [%s]\n" % ",\n   ".join("(%s, %s)" % (name(x), v) for x, v in
                           members([("ds_type", "DSType"), ("language", "Language"), ("game", "Game")])))
            consts = [(st.targets[0].id, st.value) for st in tree.body if isinstance(st, ast.Assign) and isinstance(st.value, ast.Call)
                      and isinstance(st.value.func, ast.Name)]
            first, last = consts[0][1].lineno, consts[-1][1].end_lineno
            out.append("/-- `%s:%d-%d`: the names assigned and the expressions -/" % (file, first, last))
            out.append("def sha1_constants : List (String × Expr) :=\n  [%s]\n" % ",\n   ".join("(%s, %s)" % (name(x), expr(e)) for x, e in consts))
    out.append("end Verif.Py.Source\n")
    open(OUT, "w").write("\n".join(out))


main()
