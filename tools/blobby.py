#!/usr/bin/env python3
"""Reads the test-vector files of /repo (blobby 0.3 format): prints `input_hex output_hex` lines."""
import sys

def vlq(b, p):
    # big-endian base-128 with the "+1 per continuation" convention of blobby
    n = 0
    while True:
        x = b[p]; p += 1
        n = (n << 7) | (x & 0x7f)
        if x & 0x80 == 0:
            return n, p
        n += 1

def parse(b):
    p = 0
    k, p = vlq(b, p)
    ded = []
    for _ in range(k):
        m, p = vlq(b, p)
        ded.append(b[p:p+m]); p += m
    out = []
    while p < len(b):
        v, p = vlq(b, p)
        if v & 1:
            out.append(ded[v >> 1])
        else:
            out.append(b[p:p+(v >> 1)]); p += v >> 1
    return out

if __name__ == '__main__':
    arity = int(sys.argv[2]) if len(sys.argv) > 2 else 2
    l = parse(open(sys.argv[1], 'rb').read())
    assert len(l) % arity == 0, len(l)
    for i in range(0, len(l), arity):
        print(*[x.hex() or '-' for x in l[i:i+arity]])
