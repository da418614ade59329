#!/usr/bin/env python3
"""Translate /repo/src/model2050/ros.txt into lean/Verif/Cpu50/Ros.lean.

Follows /repo/src/model2050/cros2050.c: the listing holds one word of control storage per
line, the address in hexadecimal and again in binary, a note, a mode, and the bits in groups
of 31, 25, 28 and 14.
"""
import sys

ROS = sys.argv[1] if len(sys.argv) > 1 else '/repo/src/model2050/ros.txt'
OUT = sys.argv[2] if len(sys.argv) > 2 else '/verif/lean/Verif/Cpu50/Ros.lean'


def parse(path):
    ros = {}
    for line in open(path, encoding='latin1'):
        low = line.lower()
        if low.startswith('hex') or low.startswith('add ') or line[:2] == '  ':
            continue
        p = 0
        a1 = 0
        while p < len(line) and line[p] != ' ':
            c = line[p]
            if c not in '0123456789abcdefABCDEF':
                break
            a1 = a1 * 16 + (int(c) if c.isdigit() else ord(c) - ord('a') + 10)
            p += 1
        if p >= len(line) or line[p] == '\n':
            continue
        i = a2 = 0
        while i < 13 and p < len(line):
            c = line[p]
            if c in '01':
                a2 = a2 * 2 + int(c)
                i += 1
            elif c != ' ':
                break
            p += 1
        if p >= len(line) or line[p] == '\n' or i != 13 or a1 != a2:
            continue
        while line[p] == ' ':
            p += 1
        if not line.startswith('- ', p) and not line.startswith('io', p):
            while line[p] not in ' \n':
                p += 1
            while line[p] == ' ':
                p += 1
            while line[p] not in ' \n':
                p += 1
        while line[p] == ' ':
            p += 1
        p += 5
        while p < len(line) and line[p] == ' ':
            p += 1
        bits = [0, 0, 0, 0]
        j = b = 0
        for c in line[p:].rstrip('\n'):
            if c in '01':
                bits[j] = bits[j] * 2 + int(c)
                b += 1
            if (b, j) in ((31, 0), (25, 1), (28, 2)):
                j += 1
                b = 0
        while b < 14:
            bits[j] *= 2
            b += 1
        ros[a1] = bits
    return ros


def main():
    ros = parse(ROS)
    f = open(OUT, 'w')
    f.write('''import Verif.Cpu50.Model

/-!
# Model 2050 control storage

Written by `tools/gen_ros50.py` from `/repo/src/model2050/ros.txt`; do not edit.
Each row holds 64 words of 104 bits: the groups of 31, 25, 28 and 20 bits of the listing, as
`/repo/src/model2050/cros2050.c` reads them.  Addresses the listing leaves out are zero, as
`ros_2050` is.
-/

namespace Verif.Cpu50

/-- 64 words of control storage, the first in the low bits. -/
def rosRow (r : Nat) : Nat :=
  match r with
''')
    for r in range(64):
        v = 0
        for k in range(64):
            a = 64 * r + k
            if a in ros:
                b = ros[a]
                b3 = b[3] & 0xfffff
                w = b[0] | b[1] << 31 | b[2] << 56 | b3 << 84
                assert b[0] < 2**31 and b[1] < 2**25 and b[2] < 2**28
                v |= w << (104 * k)
        if v:
            f.write('  | %d => 0x%x\n' % (r, v))
    f.write('''  | _ => 0

/-- Fields of a word, `cros2050.c` (the decoding of `bits[0]` to `bits[3]`). -/
def decode (b0 b1 b2 b3 : Nat) : Word :=
  { lu := b0 / 2 ^ 27 % 8, mv := b0 / 2 ^ 25 % 4, zp := b0 / 2 ^ 19 % 64 * 64,
    zf := b0 / 2 ^ 15 % 16, zn := b0 / 2 ^ 12 % 8, tr := b0 / 2 ^ 7 % 32,
    ws := b0 / 2 ^ 3 % 8, sf := b0 % 8,
    iv := b1 / 2 ^ 21 % 8, al := b1 / 2 ^ 16 % 32, wm := b1 / 2 ^ 12 % 16,
    up := b1 / 2 ^ 10 % 4, md := b1 / 2 ^ 9 % 2, lb := b1 / 2 ^ 8 % 2, mb := b1 / 2 ^ 7 % 2,
    dg := b1 / 2 ^ 4 % 8, ul := b1 / 2 ^ 2 % 4, ur := b1 % 4,
    ce := b2 / 2 ^ 23 % 16, lx := b2 / 2 ^ 20 % 8, tc := b2 / 2 ^ 19 % 2,
    ry := b2 / 2 ^ 16 % 8, ad := b2 / 2 ^ 12 % 16, ab := b2 / 2 ^ 6 % 64,
    bb := b2 / 2 % 32, ss := b3 / 2 ^ 8 % 64 }

/-- One word of 104 bits. -/
def decodeWord (v : Nat) : Word :=
  decode (v % 2 ^ 31) (v / 2 ^ 31 % 2 ^ 25) (v / 2 ^ 56 % 2 ^ 28) (v / 2 ^ 84 % 2 ^ 20)

/-- `ros_2050`, the control storage of the repository. -/
def ros (a : Nat) : Word := decodeWord (rosRow (a / 64) / 2 ^ (104 * (a % 64)) % 2 ^ 104)

end Verif.Cpu50
''')


main()
