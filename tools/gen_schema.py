#!/usr/bin/env python3
"""Writes lean/Verif/Model/Schema/*.lean: the dataclasses of /repo/src/aws/osml/formats as data, one definition per class.

Reads the text of the Python modules (ast); nothing is imported or run.  Usage: python3 tools/gen_schema.py
"""
import ast
import os

BASE = "/repo/src/aws/osml/formats/"
OUT = os.path.join(os.path.dirname(os.path.dirname(os.path.abspath(__file__))), "lean/Verif/Model/Schema/")
MODULES = [  # file, short name, Lean module
    ("sicd/models/sicd_v1_2_1.py", "sicd121", "Sicd121"),
    ("sicd/models/sicd_v1_3_0.py", "sicd130", "Sicd130"),
    ("sidd/models/sicommon_types.py", "sicommon01", "SiCommon01"),
    ("sidd/models/sicommon_types_v1_0.py", "sicommon10", "SiCommon10"),
    ("sidd/models/sfa.py", "sfa", "Sfa"),
    ("sidd/models/sidd_v1_0_0.py", "sidd100", "Sidd100"),
    ("sidd/models/sidd_v2_0_0.py", "sidd200", "Sidd200"),
    ("sidd/models/sidd_v3_0_0.py", "sidd300", "Sidd300"),
]
PRIMS = {"str", "int", "float", "bool", "Decimal", "XmlDate", "XmlDateTime"}
SHORT = {f: s for f, s, _ in MODULES}
classes = {}  # (file, qualified name) -> ClassDef
imports = {}  # file -> local name -> (file, name)
namespaces = {}
enums = set()


def load(path):
    if path in imports:
        return
    imports[path] = {}
    tree = ast.parse(open(BASE + path).read())

    def visit(body, prefix):
        for n in body:
            if isinstance(n, ast.ClassDef) and n.name != "Meta":
                q = prefix + n.name
                classes[path, q] = n
                if [ast.unparse(b) for b in n.bases] == ["Enum"]:
                    enums.add((path, q))
                visit(n.body, q + ".")

    for n in tree.body:
        if isinstance(n, ast.Assign) and ast.unparse(n.targets[0]) == "__NAMESPACE__":
            namespaces[path] = ast.literal_eval(n.value)
        if isinstance(n, ast.ImportFrom) and n.level == 1:
            target = os.path.join(os.path.dirname(path), n.module.replace(".", "/") + ".py")
            load(target)
            for a in n.names:
                imports[path][a.asname or a.name] = (target, a.name)
    visit(tree.body, "")


def resolve(path, name):
    if (path, name) in classes:
        return path, name
    if name in imports[path]:
        return resolve(*imports[path][name])
    raise KeyError((path, name))


def fullname(key):
    return SHORT[key[0]] + "." + key[1]


def mro(key):
    out = [key]
    for b in classes[key].bases:
        out += mro(resolve(key[0], ast.unparse(b)))
    assert len(classes[key].bases) <= 1
    return out


def meta_namespace(key):
    for n in classes[key].body:
        if isinstance(n, ast.ClassDef) and n.name == "Meta":
            d = {ast.unparse(s.targets[0]): ast.literal_eval(s.value) for s in n.body}
            assert set(d) <= {"namespace", "target_namespace"}, d
            return d
    return {}


def lean_str(s):
    assert s.isascii() and "\\" not in s and '"' not in s
    return 'n!"' + s + '"'


def types(path, ann):
    """the types of an annotation, without Optional, List and Union; strings are forward references"""
    if isinstance(ann, ast.Constant):
        return [ann.value]
    if isinstance(ann, ast.Subscript):
        head = ast.unparse(ann.value)
        assert head in ("Optional", "List", "Union"), head
        inner = ann.slice.elts if isinstance(ann.slice, ast.Tuple) else [ann.slice]
        return [t for i in inner for t in types(path, i)]
    return [ast.unparse(ann)]


def fields(key):
    """dataclass fields: those of the bases first, an overridden field keeps its place"""
    out = {}
    for k in reversed(mro(key)):
        for s in classes[k].body:
            if isinstance(s, ast.AnnAssign):
                out[s.target.id] = (k, s)
    return out


def lean_field(key, name, owner, s):
    kw = {k.arg: k.value for k in s.value.keywords}
    assert set(kw) <= {"default", "default_factory", "init", "metadata"}, kw
    md = ast.literal_eval(kw["metadata"])
    assert set(md) <= {"name", "type", "namespace", "required", "min_occurs", "max_occurs", "min_inclusive", "max_inclusive", "max_exclusive",
                       "min_exclusive", "max_length", "min_length", "pattern", "tokens"}, md
    ts = types(owner[0], s.annotation)
    many = ast.unparse(s.annotation).startswith("List[")
    assert many == ("default_factory" in kw), (key, name)
    tokens = md.get("tokens", False)
    kind = md.get("type", "Text")
    xml = md.get("name", name)
    if kind == "Element":
        ns = md.get("namespace") or meta_namespace(key).get("namespace")
        assert ns, (key, name)
        assert not tokens
    else:
        ns = md.get("namespace", "")
        assert many == bool(tokens), (key, name)
    lean_types = []
    cls = None
    for t in ts:
        if t in PRIMS:
            lean_types.append(t)
        else:
            k = resolve(owner[0], t)
            if k in enums:
                lean_types.append(k[1])
            else:
                assert len(ts) == 1
                cls = fullname(k)
    default = ast.literal_eval(kw["default"]) if "default" in kw else None
    init = "init" not in kw
    line = s.lineno
    if cls:
        assert kind == "Element" and default is None and init
        ctor = "els" if many else "el"
        return f'{ctor} {lean_str(name)} {nsname(ns)} {lean_str(xml)} {lean_str(cls)}'
    tl = "[" + ", ".join(lean_str(t) for t in lean_types) + "]"
    if kind == "Element":
        assert default is None and init
        return f'{"vals" if many else "val"} {lean_str(name)} {nsname(ns)} {lean_str(xml)} {tl}'
    if default is not None:
        text = {True: "true", False: "false"}.get(default) if isinstance(default, bool) else str(default)
        d = f'(some "{text}")'
    else:
        d = "none"
    if kind == "Attribute":
        if tokens:
            return f'atts {lean_str(name)} {nsname(ns)} {lean_str(xml)} {tl}'
        if not init:
            return f'fixed {lean_str(name)} {nsname(ns)} {lean_str(xml)} {tl} "{text}"'
        assert default is None, (key, name, default)
        return f'att {lean_str(name)} {nsname(ns)} {lean_str(xml)} {tl}'
    assert init
    return f'texts {lean_str(name)} {tl}' if tokens else f'text {lean_str(name)} {tl} {d}'


NS = {}


def nsname(ns):
    if ns == "":
        return "0"
    return NS.setdefault(ns, {"urn:SICD:1.2.1": "sicd121", "urn:SICD:1.3.0": "sicd130", "urn:SICommon:0.1": "sicommon01", "urn:SICommon:1.0": "sicommon10",
                              "urn:SFA:1.2.0": "sfa", "urn:SIDD:1.0.0": "sidd100", "urn:SIDD:2.0.0": "sidd200", "urn:SIDD:3.0.0": "sidd300",
                              "urn:us:gov:ic:ism": "ism", "urn:us:gov:ic:ism:13": "ism13"}[ns])


def main():
    for f, _, _ in MODULES:
        load(f)
    os.makedirs(OUT, exist_ok=True)
    for f, short, mod in MODULES:
        lines = ["import Verif.Model.Xsdata", "", "/-!", f"# The dataclasses of `formats/{f}`", "",
                 "Written by `tools/gen_schema.py` from the text of the module; the comment of a class gives the lines of its declaration, and fields of a base class come first, as in Python.",
                 "Ranges, lengths, patterns and occurrence counts are left out: xsdata does not check them when it reads or writes.", "-/", "",
                 f"namespace Verif.Schema.{mod}", "", "open Verif.Xsdata Verif.Xsdata.Field Verif.Xsdata.Namespace", ""]
        names = []
        for (p, q), n in classes.items():
            if p != f or (p, q) in enums:
                continue
            key = (p, q)
            m = meta_namespace(key)
            tns = m.get("target_namespace") or m.get("namespace") or namespaces[f]
            ln = q.replace(".", "_")
            names.append(ln)
            start = min([d.lineno for d in n.decorator_list] + [n.lineno])
            bases = [fullname(k) for k in mro(key)[1:]]
            lines.append(f"/-- `{os.path.basename(f)}` L{start}-{n.end_lineno} -/")
            fs = [lean_field(key, nm, o, s) for nm, (o, s) in fields(key).items()]
            lines.append(f"def {ln} : Class := ⟨{lean_str(fullname(key))}, [{', '.join(map(lean_str, bases))}], {nsname(tns)}, {lean_str(q.split('.')[-1])}, [" +
                         ("" if fs else "]⟩"))
            for i, x in enumerate(fs):
                lines.append("  " + x + ("," if i + 1 < len(fs) else "]⟩"))
            lines.append("")
        lines.append(f"/-- The dataclasses of `{os.path.basename(f)}` (its enumerations are types of text). -/")
        lines.append("def classes : List Class := [")
        row = "  "
        for i, x in enumerate(names):
            piece = x + ("]" if i + 1 == len(names) else ", ")
            if len(row) + len(piece) > 150:
                lines.append(row.rstrip())
                row = "  "
            row += piece
        lines += [row, "", f"end Verif.Schema.{mod}"]
        open(OUT + mod + ".lean", "w").write("\n".join(lines) + "\n")


if __name__ == "__main__":
    main()
