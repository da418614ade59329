#!/usr/bin/env python3
"""Copy the constant tables of xlat.c and card.c into lean/Verif/Tables.lean.
Usage: tools/gen_tables.py [/repo] > lean/Verif/Tables.lean"""
import re, sys
repo = sys.argv[1] if len(sys.argv) > 1 else "/repo"
TABS = [("src/device/xlat.c", "ascii_to_ebcdic", "asciiToEbcdicTab"),
        ("src/device/xlat.c", "ebcdic_to_ascii", "ebcdicToAsciiTab"),
        ("src/device/xlat.c", "odd_parity", "oddParityTab"),
        ("src/device/xlat.c", "parity_table", "parityTab"),
        ("src/device/xlat.c", "bcd_to_ebcdic", "bcdToEbcdicTab"),
        ("src/device/card.c", "ascii_to_hol_029", "asciiToHol029Tab"),
        ("src/device/card.c", "ascii_to_hol_ebcdic", "asciiToHolEbcdicTab"),
        ("src/device/card.c", "ebcdic_to_hol_table", "ebcdicToHolTab")]
def val(t):
    t = t.strip()
    if t.startswith("'"):
        body = t[1:-1]
        if body.startswith("\\"):
            m = {"n": 10, "r": 13, "t": 9, "b": 8, "f": 12, "\\": 92, "'": 39, '"': 34, "0": 0}
            return m[body[1:]] if body[1:] in m else int(body[1:], 8)
        assert len(body) == 1
        return ord(body)
    if re.fullmatch(r"0[0-7]+", t):
        return int(t, 8)
    return int(t, 0)
def tokens(s):
    out = []; i = 0
    while i < len(s):
        if s[i] == "'":
            j = i + 1
            if s[j] == "\\":
                j += 2
                while s[j] != "'": j += 1
            else:
                j += 1
            assert s[j] == "'"
            out.append(s[i:j+1]); i = j + 1
        elif s[i].isalnum():
            j = i
            while j < len(s) and s[j].isalnum(): j += 1
            out.append(s[i:j]); i = j
        else:
            i += 1
    return out
print("/- Generated by tools/gen_tables.py from the C sources; do not edit. -/\nnamespace Verif\n")
for f, c, l in TABS:
    src = open(f"{repo}/{f}", encoding="latin-1").read()
    m = re.search(r"\b" + c + r"\s*\[\s*(\d+)\s*\]\s*=\s*\{", src)
    start = m.end()
    # strip comments first (no table entry contains a comment opener)
    rest = re.sub(r"/\*.*?\*/", lambda k: "\n" * k.group(0).count("\n"), src[start:], flags=re.S)
    end = rest.index("};")
    vals = [val(t) for t in tokens(rest[:end])]
    n = int(m.group(1))
    assert len(vals) == n, (c, len(vals), n)
    l0 = src[:m.start()].count("\n") + 1
    l1 = l0 + src[m.start():start].count("\n") + rest[:end].count("\n")
    print(f"/-- `{c}[{n}]`, {f} {l0}-{l1}. -/\ndef {l} : List Nat := [")
    for i in range(0, n, 8):
        print("  " + ", ".join(hex(v) for v in vals[i:i+8]) + ("," if i + 8 < n else ""))
    print("]\n")
print("end Verif")
