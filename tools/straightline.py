#!/usr/bin/env python3
"""Compare the straight-line functions of /repo with their Lean models, statement by statement.

Each Rust statement is rewritten by the rules below into the Lean line that models it; the result must be the
body of the Lean definition, line for line.  This is a check of the transcription, not part of any proof.

usage: straightline.py [/repo] [/verif/lean/Verif/Model]
"""
import re
import sys

REPO = sys.argv[1] if len(sys.argv) > 1 else "/repo"
MODEL = sys.argv[2] if len(sys.argv) > 2 else "/verif/lean/Verif/Model"


def rust_body(path, name):
    """The statements of `fn name`, comments removed, blanks squeezed."""
    s = open(f"{REPO}/core/src/{path}").read()
    s = re.sub(r"/\*.*?\*/", "", s, flags=re.S)
    s = re.sub(r"//[^\n]*", "", s)
    i = s.index(f"fn {name}(")
    i = s.index("{", i)
    d, j = 0, i
    while True:
        d += {"{": 1, "}": -1}.get(s[j], 0)
        if d == 0:
            break
        j += 1
    s = re.sub(r"\s+", " ", s[i + 1:j])
    s = re.sub(r"for _ in 0\.\.(\d+) \{ (\w+) = \2\.sqr\(\); \}", r"REPEAT \1 \2;", s)
    return [x.strip() for x in s.split(";") if x.strip()]


def lean_body(path, name):
    s = open(f"{MODEL}/{path}").read()
    m = re.search(rf"^def {name}\b[^\n]*\n((?:  [^\n]*\n)+)", s, flags=re.M)
    return [x.strip() for x in m.group(1).splitlines()]


# ---- field.rs: mul_inner, sqr_inner ---------------------------------------------------------------------
CONST = {"R0": 0x3d10, "R1": 0x400, "R1 << 4": 0x4000, "R0 >> 4": 0x3d1, "R1 >> 4": 0x40}


def fvar(x):
    x = x.strip()
    m = re.fullmatch(r"self\.n\[(\d)\]", x)
    if m:
        return "r" + m.group(1)
    m = re.fullmatch(r"([ab])\.n\[(\d)\]", x)
    if m:
        return f"{m.group(1)}.n{m.group(2)}"
    m = re.fullmatch(r"\(a\.n\[(\d)\] \* 2\)", x)
    if m:
        return "e" + m.group(1)
    assert re.fullmatch(r"[a-z]\d?", x), x
    return x


F = r"(?:\([^()]*\)|[^()]*?)"


def fprod(x):
    x = x.strip()
    m = re.fullmatch(rf"\(({F}) as u64\) \* \(({F}) as u64\)", x)
    assert m, x
    return f"mulw {fvar(m.group(1))} {fvar(m.group(2))}"


def fsum(x):
    parts = [p.strip() for p in x.split(".wrapping_add(")]
    out = []
    for k, p in enumerate(parts):
        if k:
            assert p.endswith(")")
            p = p[:-1]
        if re.fullmatch(r"[cd]", p):
            out.append(p)
        else:
            if k == 0 and p.startswith("((") and p.endswith("))") and len(parts) > 1:
                p = p[1:-1]
            out.append(fprod(p))
    return " + ".join(out)


def const(x):
    x = x.strip()
    if x.startswith("("):
        x = x[1:-1]
    return hex(CONST[x])


def low(x):
    return x.lower()


def field_stmt(s):
    if s.startswith("const") or re.match(r"let \(", s):
        return []
    m = re.fullmatch(r"debug_assert_bits!\((.*), (\d+)\)", s)
    if m:
        return [f"dassert ({fvar(m.group(1))} >>> {m.group(2)} == 0)"]
    m = re.fullmatch(r"debug_assert!\(([cd]) <= (0x[0-9a-fA-F]+)\)", s)
    if m:
        return [f"dassert (decide ({m.group(1)} ≤ {m.group(2)}))"]
    m = re.fullmatch(r"([cd]) >>= (\d+)", s)
    if m:
        return [f"let {m.group(1)} ← pure ({m.group(1)} >>> {m.group(2)})"]
    m = re.fullmatch(r"(\S+) = \(([cd]) & M\) as u32", s)
    if m:
        return [f"let {fvar(m.group(1))} ← pure (lo26 {m.group(2)})"]
    m = re.fullmatch(r"(\S+) = \(([cd]) & \(M >> 4\)\) as u32", s)
    if m:
        return [f"let {fvar(m.group(1))} ← pure (lo22 {m.group(2)})"]
    m = re.fullmatch(r"(v\d) = d & M", s)
    if m:
        return [f"let {m.group(1)} ← pure (d &&& 0x3ffffff)"]
    m = re.fullmatch(r"(\S+) = ([cd]) as u32", s)
    if m:
        return [f"let {fvar(m.group(1))} ← pure {m.group(2)}.toUInt32"]
    m = re.fullmatch(r"(self\.n\[\d\]) = (t\d)", s)
    if m:
        return [f"let {fvar(m.group(1))} ← pure {m.group(2)}"]
    m = re.fullmatch(r"([cd]) \+= (\w+) \* (R\d|\(R\d [<>]+ 4\))", s)
    if m:
        a, b, k = m.groups()
        return [f"let x ← mul64 {b} {const(k)}", f"let {a} ← add64 {a} x"]
    m = re.fullmatch(r"([cd]) \+= (\w+) \* (R\d|\(R\d [<>]+ 4\)) \+ (t\d) as u64", s)
    if m:
        a, b, k, t = m.groups()
        return [f"let x ← mul64 {b} {const(k)}", f"let x ← add64 x {t}.toUInt64", f"let {a} ← add64 {a} x"]
    m = re.fullmatch(r"([cd]) = (\w+) \* (R\d|\(R\d [<>]+ 4\)) \+ (t\d) as u64", s)
    if m:
        a, b, k, t = m.groups()
        return [f"let x ← mul64 {b} {const(k)}", f"let {a} ← add64 x {t}.toUInt64"]
    m = re.fullmatch(r"d \+= (t\d) as u64", s)
    if m:
        return [f"let d ← add64 d {m.group(1)}.toUInt64"]
    m = re.fullmatch(r"([cd]) = (.*)", s)
    if m:
        return [f"let {m.group(1)} ← pure ({fsum(m.group(2))})"]
    raise ValueError(s)


# ---- scalar.rs: mul_512, sqr_512, reduce_512 ------------------------------------------------------------
def svar(x):
    x = x.strip()
    for pat, rep in [(r"self\.0\[(\d+)\]", "a.d"), (r"b\.0\[(\d+)\]", "b.d"), (r"SECP256K1_N_C_(\d)", "nC")]:
        m = re.fullmatch(pat, x)
        if m:
            return rep + m.group(1)
    m = re.fullmatch(r"l\[(\d+)\]", x)
    if m:
        return "l.l" + m.group(1)
    assert re.fullmatch(r"[mnpc]\d+", x), x
    return x


OPS = {"muladd": "muladd", "muladd_fast": "muladdFast", "muladd2": "muladd2", "sumadd": "sumadd",
       "sumadd_fast": "sumaddFast", "extract": "extract", "extract_fast": "extractFast"}


def scalar_stmt(s):
    if re.match(r"let |define_ops!", s):
        return []
    m = re.fullmatch(r"(\w+)!\((.*)\)", s)
    if m and m.group(1) in OPS:
        return [" ".join(["let c ←", OPS[m.group(1)], "c"] + [svar(x) for x in m.group(2).split(",")])]
    m = re.fullmatch(r"(\w+|l\[\d+\]) = (extract|extract_fast)!\(\)", s)
    if m:
        t = re.sub(r"l\[(\d+)\]", r"l\1", m.group(1))
        return [f"let ({t}, c) ← {OPS[m.group(2)]} c"]
    m = re.fullmatch(r"debug_assert!\(c1 == 0\)", s)
    if m:
        return ["dassert (c.c1 == 0)"]
    m = re.fullmatch(r"debug_assert!\((\w+) <= (\d)\)", s)
    if m:
        v = "c.c0" if m.group(1) == "c0" else m.group(1)
        return [f"dassert (decide ({v} ≤ {m.group(2)}))"]
    m = re.fullmatch(r"(m12|l\[15\]) = c0", s)
    if m:
        return [f"let {re.sub(r'[][]', '', m.group(1))} := c.c0"]
    if s == "p8 = c0 + m12":
        return ["let p8 ← add32 c.c0 m12"]
    m = re.fullmatch(r"c0 = (\S+)", s)
    if m:
        return [f"let c : Acc := ⟨{svar(m.group(1))}, 0, 0⟩"]
    if s in ("c1 = 0", "c2 = 0"):
        return []
    raise ValueError(s)


def reduce_tail(ss):
    """`c = …; self.0[i] = (c & 0xFFFFFFFF) as u32; c >>= 32`, then the conditional subtraction."""
    out, i = ["let o := p.p8.toUInt64"], 0
    for k in range(8):
        c = "0" if k == 0 else "c"
        op = "=" if k == 0 else "+="
        s = ss[i]
        if k < 4:
            assert s == f"c {op} p{k} as u64 + SECP256K1_N_C_{k} as u64 * p8 as u64", s
            out += [f"let x ← addMul p.p{k} o nC{k}", f"let (d{k}, c) ← carryStep {c} x"]
        elif k == 4:
            assert s == "c += p4 as u64 + p8 as u64", s
            out += ["let x ← add64 p.p4.toUInt64 o", "let (d4, c) ← carryStep c x"]
        else:
            assert s == f"c += p{k} as u64", s
            out += [f"let (d{k}, c) ← carryStep c p.p{k}.toUInt64"]
        assert ss[i + 1] == f"self.0[{k}] = (c & 0xFFFFFFFF) as u32" and ss[i + 2] == "c >>= 32"
        i += 3
    assert ss[i:] == ["let overflow = self.check_overflow()", "self.reduce(Choice::from(c as u8) | overflow)"]
    out += ["let r : Scalar := ⟨d0, d1, d2, d3, d4, d5, d6, d7⟩", "let overflow := checkOverflow r",
            "let hi ← choiceFrom c.toUInt8", "reduce r (hi || overflow)"]
    return out


# ---- addition chains: Field::sqrt, Field::inv, Scalar::inv_in_place --------------------------------------
def chain(stmts):
    """`let mut b = a; for _ in 0..k { b = b.sqr(); }` is `let b ← sqrN k a`."""
    out, alias = [], {}
    for s in stmts:
        s = re.sub(r"\blet (mut )?", "", s)
        m = re.fullmatch(r"REPEAT (\d+) (\w+)", s)
        if m:
            k, v = m.groups()
            out.append(f"let {v} ← sqrN {k} {alias.pop(v, v)}")
            continue
        m = re.fullmatch(r"(\w+) = (\w+)\.sqr\(\)", s)
        if m:
            out.append(f"let {m.group(1)} ← sqr {m.group(2)}")
            continue
        m = re.fullmatch(r"(\w+) \*= &?(\w+)", s)
        if m:
            out.append(f"let {m.group(1)} ← mul {m.group(1)} {m.group(2)}")
            continue
        m = re.fullmatch(r"(\w+) = (\w+) \* \*?(\w+)", s)
        if m:
            out.append("let {} ← mul {} {}".format(*m.groups()))
            continue
        m = re.fullmatch(r"(\*self = |)(\w+) \* &?(\w+)", s)
        if m:
            out.append(f"mul {m.group(2)} {m.group(3)}")
            continue
        if s == "(r, &t1 == self)":
            out += ["let e ← eq t1 self", "pure (r, e)"]
            continue
        m = re.fullmatch(r"(\w+) = (\w+)", s)
        if m:
            if m.groups() == ("t", "x126"):
                out.append("let t := x126")
            else:
                alias[m.group(1)] = m.group(2)
            continue
        raise ValueError(s)
    assert not alias
    return out


bad = 0


def compare(what, got, want):
    global bad
    got, want = [low(x) for x in got], [low(x) for x in want]
    if got == want:
        print(f"ok    {what}: {len(got)} lines")
        return
    bad += 1
    print(f"DIFF  {what}: {len(got)} vs {len(want)} lines")
    for k, (x, y) in enumerate(zip(got, want)):
        if x != y:
            print(f"  line {k}\n    source {x}\n    model  {y}")
            return


def flat(f, ss):
    return [x for s in ss for x in f(s)]


PURE = "pure ⟨r0, r1, r2, r3, r4, r5, r6, r7, r8, r9⟩"
L16 = "pure ⟨" + ", ".join(f"l{i}" for i in range(16)) + "⟩"
compare("Field::mul_inner", flat(field_stmt, rust_body("field.rs", "mul_inner")) + [PURE],
        lean_body("Field.lean", "mulInner"))
sq = flat(field_stmt, rust_body("field.rs", "sqr_inner"))
used = sorted({x for s in sq for x in re.findall(r"\be\d\b", s)})
compare("Field::sqr_inner", [f"let {e} ← mul32 a.n{e[1]} 2" for e in used] + sq + [PURE],
        lean_body("Field.lean", "sqrInner"))
compare("Field::sqrt", chain(rust_body("field.rs", "sqrt")), lean_body("Field.lean", "sqrt"))
compare("Field::inv", chain(rust_body("field.rs", "inv")), lean_body("Field.lean", "inv"))
compare("Scalar::inv_in_place", chain(rust_body("scalar.rs", "inv_in_place")), lean_body("Scalar.lean", "inv"))
ACC0 = ["let c : Acc := ⟨0, 0, 0⟩"]
for r, l in (("mul_512", "mul512"), ("sqr_512", "sqr512")):
    b = rust_body("scalar.rs", r)
    assert b[0] == "let (mut c0, mut c1, mut c2): (u32, u32, u32) = (0, 0, 0)"
    compare(f"Scalar::{r}", ACC0 + flat(scalar_stmt, b) + [L16], lean_body("Scalar.lean", l))
r = rust_body("scalar.rs", "reduce_512")
i = [k for k, s in enumerate(r) if re.match(r"c0 = (l\[0\]|m0)$", s)] + [next(k for k, s in enumerate(r) if s.startswith("c = p0"))]
assert r[i[0]:i[0] + 3] == ["c0 = l[0]", "c1 = 0", "c2 = 0"] and r[i[1]:i[1] + 3] == ["c0 = m0", "c1 = 0", "c2 = 0"]
assert "let (n0, n1, n2, n3, n4, n5, n6, n7) = (l[8], l[9], l[10], l[11], l[12], l[13], l[14], l[15])" in r
compare("Scalar::reduce_512, first part",
        [f"let n{k} := l.l{k + 8}" for k in range(8)] + flat(scalar_stmt, r[i[0]:i[1]])
        + ["pure ⟨" + ", ".join(f"m{k}" for k in range(13)) + "⟩"], lean_body("Scalar.lean", "reduce512a"))
compare("Scalar::reduce_512, second part",
        ["let ⟨" + ", ".join(f"m{k}" for k in range(13)) + "⟩ := m"] + flat(scalar_stmt, r[i[1]:i[2]])
        + ["pure ⟨" + ", ".join(f"p{k}" for k in range(9)) + "⟩"], lean_body("Scalar.lean", "reduce512b"))
compare("Scalar::reduce_512, last part", reduce_tail(r[i[2]:]), lean_body("Scalar.lean", "reduce512c"))
sys.exit(1 if bad else 0)
