#!/usr/bin/env python3
"""Translate /repo/src/model2841/ros.txt into lean/Verif/Ctl2841/Ros.lean.

Follows /repo/src/model2841/cros2841.c: one word of control storage per line, the address in
hexadecimal and again in binary, the sheet and the box, a dash, and the fields in binary.
"""
import sys

ROS = sys.argv[1] if len(sys.argv) > 1 else '/repo/src/model2841/ros.txt'
OUT = sys.argv[2] if len(sys.argv) > 2 else '/verif/lean/Verif/Ctl2841/Ros.lean'

# name and width of the fields kept, the first in the low bits
FIELDS = [('ca', 5), ('cb', 2), ('ck', 8), ('cl', 4), ('ch', 4), ('cn', 8), ('cd', 5), ('cv', 1),
          ('cc', 3), ('cs', 4), ('bp', 1)]
WIDTH = sum(w for _, w in FIELDS)


def parse(path):
    ros = {}
    for line in open(path, encoding='latin1'):
        if line[0] == ' ':
            continue
        p = 0
        a1 = 0
        while p < len(line) and line[p] not in ' \n':
            if line[p] not in '0123456789abcdefABCDEF':
                break
            a1 = a1 * 16 + int(line[p], 16)
            p += 1
        if p >= len(line) or line[p] == '\n':
            continue
        i = a2 = 0
        while i < 12 and p < len(line):
            c = line[p]
            if c in '01':
                a2 = a2 * 2 + int(c)
                i += 1
            elif c != ' ':
                break
            p += 1
        if i != 12 or a1 != a2:
            continue
        while line[p] == ' ':
            p += 1
        if line[p] != '-':
            for _ in range(2):
                while line[p] not in ' \n':
                    p += 1
                while line[p] == ' ':
                    p += 1
        p += 1
        f = line[p:].split()
        b = [int(x, 2) if set(x) <= set('01') else None for x in f]
        w = {}
        w['ca'] = b[0] | (16 if b[16] else 0)
        w['cb'] = b[1]
        w['ck'] = b[2] << len(f[3]) | b[3]
        w['cl'] = b[4]
        w['ch'] = b[5]
        w['cn'] = b[8] << 2
        w['cd'] = b[10] | (16 if b[11] else 0)
        w['cv'] = b[12]
        w['cc'] = b[13]
        w['cs'] = b[14]
        w['bp'] = b[17]
        for n, k in FIELDS:
            assert 0 <= w[n] < 2 ** k
        ros[a1] = w
    return ros


def main():
    ros = parse(ROS)
    f = open(OUT, 'w')
    f.write('''import Verif.Ctl2841.Model

/-!
# Control storage of the 2841

Written by `tools/gen_ros41.py` from `/repo/src/model2841/ros.txt`; do not edit.
Each row holds 64 words of %d bits, the fields `struct ROS_2841` uses as
`/repo/src/model2841/cros2841.c` reads them.  Addresses the listing leaves out are zero, as
`ros_2841` is.
-/

namespace Verif.Ctl2841
open Verif.Ctl2844 (Word)

/-- 64 words of control storage, the first in the low bits. -/
def rosRow (r : Nat) : Nat :=
  match r with
''' % WIDTH)
    for r in range(64):
        v = 0
        for i in range(64):
            w = ros.get(r * 64 + i)
            if w:
                x = sh = 0
                for n, k in FIELDS:
                    x |= w[n] << sh
                    sh += k
                v |= x << (WIDTH * i)
        if v:
            f.write('  | %d => 0x%x\n' % (r, v))
    f.write('  | _ => 0\n\n')
    f.write('/-- One word. -/\ndef decode (v : Nat) : Word :=\n  { ')
    sh = 0
    parts = []
    for n, k in FIELDS:
        parts.append('%s := v / 2 ^ %d %% %d' % (n, sh, 2 ** k))
        sh += k
    f.write(',\n    '.join(', '.join(parts[i:i + 3]) for i in range(0, len(parts), 3)))
    f.write(''' }

/-- `ros_2841`, the control storage of the repository (`model2841_ros.c`). -/
def ros (a : Nat) : Word := decode (rosRow (a / 64) / 2 ^ (%d * (a %% 64)) %% 2 ^ %d)

end Verif.Ctl2841
''' % (WIDTH, WIDTH))


main()
