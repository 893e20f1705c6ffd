#!/usr/bin/env python3
"""Writes lean/Verif/Specs/*.lean: the bundled specs of /repo/specs, line by line, with the check of every pair.

Usage: gen_specs.py [lang ...]        writes the modules
       gen_specs.py --check           compares the lines in the modules with /repo/specs
"""
import glob, os, re, sys

HERE = os.path.dirname(os.path.abspath(__file__))
OUT = os.path.join(HERE, "..", "lean", "Verif", "Specs")
REPO = "/repo/specs"
MAX_BYTES = 4000
MAX_RULES = 10
MAX_PARTS = 16
SPANNING = ["cym", "nld", "wlm"]


def lean(s):
    return '"' + s.replace("\\", "\\\\").replace('"', '\\"').replace("\n", "\\n").replace("\t", "\\t") + '"'


def unlean(s):
    return re.sub(r"\\(.)", lambda m: {"n": "\n", "t": "\t"}.get(m.group(1), m.group(1)), s)


def module(lang):
    return "".join(p.capitalize() for p in lang.split("-"))


def parse(text):
    toks, i, n = [], 0, len(text)
    while i < n:
        c = text[i]
        if c == "#":
            while i < n and text[i] != "\n":
                i += 1
        elif c.isspace():
            i += 1
        elif c == '"':
            j = text.index('"', i + 1)
            toks.append(("s", text[i + 1:j]))
            i = j + 1
        elif text.startswith("->", i):
            toks.append(("->",))
            i += 2
        elif c in ":=,":
            toks.append((c,))
            i += 1
        else:
            m = re.compile(r"\w+").match(text, i)
            toks.append(("s", m.group(0)))
            i = m.end()
    secs, cur, i = {}, None, 0
    while i < len(toks):
        k, d = toks[i][1], toks[i + 1][0]
        if d == ":":
            cur = secs.setdefault(k, [])
            i += 2
        else:
            vals = [toks[i + 2][1]]
            i += 3
            while i < len(toks) and toks[i][0] == ",":
                vals.append(toks[i + 1][1])
                i += 2
            cur.append((k, vals))
    return secs


def strs(l):
    return "[" + ", ".join("str " + lean(x) for x in l) + "]"


def generate(lang):
    text = open(os.path.join(REPO, lang + ".hsl"), encoding="utf8", newline="").read()
    lines = text.splitlines(keepends=True)
    assert "".join(lines) == text and text.endswith("\n") and "\\" not in text and "\r" not in text
    assert all(l.count("\n") == 1 for l in lines)
    secs = parse(text)
    d = dict(secs["lang"])
    first = next(i for i, l in enumerate(lines) if l.startswith("rewrite:"))
    parts, cur, size, rules, sect = [], [], 0, 0, ""
    for l in lines[first:]:
        m = re.match(r"^(\w+):", l)
        if m:
            nxt = m.group(1)
        is_rule = "->" in l and sect != "test"
        if cur and (size + len(l.encode()) > MAX_BYTES or rules + is_rule > MAX_RULES or (m and sect)):
            parts.append((cur, sect))
            cur, size, rules = [], 0, 0
        if m:
            sect = nxt
        cur.append(l)
        size += len(l.encode())
        rules += is_rule
    parts.append((cur, sect))
    name = module(lang)
    heads = [k for k in secs if k not in ("rewrite", "transcribe", "test") and secs[k]]
    one = lambda k: "str " + lean(d.get(k, [""])[0])

    def opening(imports, what):
        return ["\n".join("import " + i for i in imports) + "\n",
                "/-! specs/%s.hsl%s, generated by tools/gen_specs.py. -/\n" % (lang, what),
                "set_option Elab.async false\n", "namespace Verif.Specs.%s\n" % name, "open Hsl\n"]

    o = opening(["Verif.Proofs.Bundle"], ", the lines before the rules")
    w = o.append
    w("/-- The language of the spec. -/")
    w("def lang : Language :=")
    w("  ⟨%s, (str %s, str %s), %s, %s, %s, %s⟩\n" % (one("id"), lean(d["codes"][0]), lean(d["codes"][1]),
      one("english"), one("korean"), one("script"), strs(d.get("translit", []))))
    w("def macros : List (Bytes × Bytes) := [" + ", ".join(
        "(str %s, str %s)" % (lean(k), lean(v[0])) for k, v in secs.get("macros", [])) + "]\n")
    w("def vars : List (Bytes × List Bytes) := [" + ",\n  ".join(
        "(str %s, %s)" % (lean(k), strs(v)) for k, v in secs.get("vars", [])) + "]\n")
    norm = secs.get("normalize", [])
    assert all(len(f) == 1 for _, fs in norm for f in fs)
    w("def keys : List (Rune × List Rune) := [" + ",\n  ".join(
        ", ".join("(%d, [%s])" % (ord(f), ", ".join(str(ord(c)) for c in to)) for f in fs) for to, fs in norm) + "]\n")
    w("def kept : List Rune := [" + ", ".join(str(ord(to[0])) for to, _ in norm) + "]\n")
    w("def head : List String := [\n" + ",\n".join(lean(l) for l in lines[:first]) + "]\n")
    w("theorem head_ok : ∃ xs, Reads [] (runes (text head)) xs (str %s) ∧ headOk lang macros vars keys kept xs = true := by"
      % lean(heads[-1]))
    w("  apply piece_of")
    w("  · dsimp only [head]; repeat (first | exact .nil | apply Spells.cons)")
    w("  · decide +kernel\n")

    words = "false" if lang in SPANNING else "true"
    prev, blocks = heads[-1], []
    for i, (ls, s) in enumerate(parts, 1):
        blocks.append("\n".join([
            "def lines%d : List String := [\n" % i + ",\n".join(lean(l) for l in ls) + "]\n",
            "theorem lines%d_ok : Part %s lang macros vars (str %s) lines%d (str %s) := by" % (i, words, lean(prev), i, lean(s)),
            "  apply piece_of",
            "  · dsimp only [lines%d]; repeat (first | exact .nil | apply Spells.cons)" % i,
            "  · decide +kernel\n"]))
        prev = s
    n = len(parts)
    app = lambda f: "(".join(f(i) + (" ++ " if i < n else "") for i in range(1, n + 1)) + ")" * (n - 1)
    pf = "".join("lines%d_ok.append (" % i for i in range(1, n)) + "lines%d_ok" % n + ")" * (n - 1)
    closing = ["/-- The lines of the file. -/",
               "def lines : List String := head ++ (" + app(lambda i: "lines%d" % i) + ")\n",
               "/-- The file is a spec with checked rules. -/",
               "theorem sound : Sound (text lines) lang := sound_of head_ok (" + pf + ") (by decide +kernel)\n"]
    end = ["end Verif.Specs.%s" % name]
    if n <= MAX_PARTS:
        o[1] = "/-! specs/%s.hsl, generated by tools/gen_specs.py. -/\n" % lang
        return {name: "\n".join(o + blocks + closing + end) + "\n"}
    groups = [blocks[i:i + MAX_PARTS] for i in range(0, n, MAX_PARTS)]
    mods = {name + "Head": "\n".join(o + end) + "\n"}
    for k, g in enumerate(groups, 1):
        mods["%sPart%d" % (name, k)] = "\n".join(opening(["Verif.Specs.%sHead" % name], ", part %d" % k) + g + end) + "\n"
    mods[name] = "\n".join(opening(["Verif.Specs.%sPart%d" % (name, k) for k in range(1, len(groups) + 1)], "")
                           + closing + end) + "\n"
    return mods


def modules(lang):
    """The modules of a language, in the order of the lines."""
    name = module(lang)
    fs = [f for f in os.listdir(OUT) if re.fullmatch(name + r"(Head|Part\d+)?\.lean", f)]
    key = lambda f: (0, 0) if "Head" in f else (1, int(re.search(r"Part(\d+)", f).group(1))) if "Part" in f else (2, 0)
    return sorted(fs, key=key)


def check(lang):
    src = "".join(open(os.path.join(OUT, f), encoding="utf8").read() for f in modules(lang))
    blocks = re.findall(r"^def (?:head|lines\d+) : List String := \[\n(.*?)\]\n", src, re.S | re.M)
    got = "".join(unlean(m) for b in blocks for m in re.findall(r'"((?:[^"\\]|\\.)*)"', b))
    return got.encode() == open(os.path.join(REPO, lang + ".hsl"), "rb").read()


def everything(langs):
    o = ["\n".join("import Verif.Specs." + module(l) for l in langs) + "\nimport Verif.Model.Api\n"]
    w = o.append
    w("/-! The bundled specs, generated by tools/gen_specs.py. -/\n")
    w("namespace Verif.Specs\n")
    w("open Hsl\n")
    w("/-- The name, the text and the language of each spec. -/")
    w("def table : List (Bytes × Bytes × Language) := [\n  " + ",\n  ".join(
        "(str %s, text %s.lines, %s.lang)" % (lean(l), module(l), module(l)) for l in langs) + "]\n")
    w("theorem table_sound : ∀ x ∈ table, Sound x.2.1 x.2.2 :=\n  " + "".join(
        "List.forall_mem_cons.2 ⟨%s.sound,\n  " % module(l) for l in langs) + "by simp" + "⟩" * len(langs) + "\n")
    w("/-- specs.go:15-16: the embedded files. -/")
    w("def bundled : Files := fun lang => (table.find? (·.1 = lang)).map (·.2.1)\n")
    w("/-- The entries of the embedded directory. -/")
    w("def entries : List Bytes := table.map fun x => x.1 ++ ext\n")
    w("end Verif.Specs")
    return "\n".join(o) + "\n"


if __name__ == "__main__":
    langs = sorted(os.path.basename(f)[:-4] for f in glob.glob(REPO + "/*.hsl"))
    if sys.argv[1:] == ["--check"]:
        for l in langs:
            if os.path.exists(os.path.join(OUT, module(l) + ".lean")):
                print(l, "ok" if check(l) else "DIFFERENT")
            else:
                print(l, "missing")
    else:
        for l in sys.argv[1:] or langs:
            for f in modules(l):
                os.remove(os.path.join(OUT, f))
            for f, t in generate(l).items():
                open(os.path.join(OUT, f + ".lean"), "w", encoding="utf8").write(t)
        open(os.path.join(OUT, "All.lean"), "w", encoding="utf8").write(everything(langs))
