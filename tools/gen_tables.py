#!/usr/bin/env python3
"""Transcribes the three .npy files of /repo/spherical_functions into Lean (lean/Verif/Data/*.lean).

Every number in the Lean files is a piece of the file read as one little-endian integer; the first eight bytes of the piece are the
lowest 64 bits of the integer.  The pieces are the rows that belong to one value of the first loop variable (binomial and ladder
coefficients) or of the first two loop variables (Wigner coefficients) of _generate_coefficients.py."""
import os, struct

REPO = '/repo/spherical_functions/'
OUT = os.path.join(os.path.dirname(os.path.abspath(__file__)), '..', 'lean', 'Verif', 'Data')


def data(name, n):
    b = open(REPO + name, 'rb').read()
    assert b[:8] == b'\x93NUMPY\x01\x00'
    hl = struct.unpack('<H', b[8:10])[0]
    h = b[10:10 + hl].decode()
    assert "'descr': '<f8'" in h and "'fortran_order': False" in h and f"'shape': ({n},)" in h
    d = b[10 + hl:]
    assert len(d) == 8 * n
    return d


def header(what, lo, hi):
    return (f"/-\nGenerated by tools/gen_tables.py from spherical_functions/{what}: bytes {lo} to {hi} after the header.\n-/\n"
            "set_option autoImplicit false\nnamespace SF\n\n")


def write(path, text):
    open(os.path.join(OUT, path), 'w').write(text)


def simple(name, ident, path):
    d = data(name, 2145)
    s = header(name, 0, len(d))
    rows, pos = [], 0
    for n in range(65):
        k = 8 * (n + 1)
        rows.append(hex(int.from_bytes(d[pos:pos + k], 'little')))
        pos += k
    assert pos == len(d)
    s += (f"/-- `{name}`: the `n`-th number consists of the `n + 1` doubles for `n`, the first in the lowest 64 bits. -/\n"
          f"def {ident} : List Nat := [\n  " + ",\n  ".join(rows) + "]\n\nend SF\n")
    write(path, s)


def wigner():
    name = 'Wigner_coefficients.npy'
    d = data(name, 93665)
    pos = 0
    groups = [(0, 27), (27, 36), (36, 43), (43, 49), (49, 54), (54, 58), (58, 62), (62, 65)]
    for g, (a, b) in enumerate(groups):
        lo = pos
        body = ""
        for n in range(a, b):
            rows = []
            for _ in range(n + 1):
                k = 8 * (n + 1)
                rows.append(hex(int.from_bytes(d[pos:pos + k], 'little')))
                pos += k
            body += (f"/-- The coefficients for `2 ell = {n}`: one number for each of the {n + 1} values of `mp`, consisting of the doubles for the {n + 1} values of `m`. -/\n"
                     f"def wigner{n} : List Nat := [\n  " + ",\n  ".join(rows) + "]\n\n")
        write(f"Wigner{g}.lean", header(name, lo, pos) + body + "end SF\n")
    assert pos == len(d)


os.makedirs(OUT, exist_ok=True)
simple('binomial_coefficients.npy', 'binomialData', 'Binomial.lean')
simple('ladder_operator_coefficients.npy', 'ladderData', 'Ladder.lean')
wigner()
