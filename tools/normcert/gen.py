#!/usr/bin/env python3
"""Writes the certificate modules lean/Verif/NormCert*.lean: g++ -O2 -o search search.cpp, then gen.py <search> <simplex|super> <n> <factor> <leaves per theorem> <leaves per module>."""
import sys, subprocess, itertools, math
from fractions import Fraction as F
exe, kind, n, fac, LIM, PER = sys.argv[1], sys.argv[2], int(sys.argv[3]), F(sys.argv[4]), int(sys.argv[5]), int(sys.argv[6])
m = n + 1
R = ({2: F(1, 2), 3: F(3, 5), 4: F(3, 5)} if kind == 'simplex' else {2: F(2, 3), 3: F(3, 4), 4: F(4, 5)})[n]
M = ({2: F('0.010080204703'), 3: F('0.025074162912'), 4: F('0.022897336090')} if kind == 'simplex' else {2: F('0.055180410298'), 3: F('0.086776239188'), 4: F('0.125')})[n]
N = 5*2**22 if kind == 'simplex' and n == 3 else 2**24
T = R*m*N*N; assert T.denominator == 1
B = math.isqrt(int((M*fac)**2*(m*N*N)**9*2**120))
def z(x): return f"({x}, 0)" if x >= 0 else f"(0, {-x})"
V = [[1]*j+[0]*(n-j) for j in range(n+1)] if kind == 'simplex' else [list(v)[::-1] for v in itertools.product((-1, 0, 1, 2), repeat=n)]
r = subprocess.run([exe, kind, str(n), repr(float(R)), repr(float(M*fac))], capture_output=True, text=True)
sys.stderr.write(r.stderr)
txt = r.stdout.strip()
pos = 0
def parse():
    global pos
    if txt[pos] == '.':
        e = pos
        while e < len(txt) and txt[e] not in ' )': e += 1
        w = txt[pos:e]; pos = e; return (w,)
    assert txt[pos] == '('; pos += 1
    if txt.startswith('.ref ', pos):
        pos += 5; a = parse(); assert txt[pos] == ')'; pos += 1; return ('ref', a)
    assert txt.startswith('.cut ', pos); kx = int(txt[pos+5]); pos += 7
    a = parse(); assert txt[pos] == ' '; pos += 1; b = parse(); assert txt[pos] == ')'; pos += 1
    return ('cut', kx, a, b)
sys.setrecursionlimit(10000)
tree = parse(); assert pos == len(txt)
def leaves(t): return 1 if len(t) == 1 else leaves(t[1]) if t[0] == 'ref' else leaves(t[2])+leaves(t[3])
def show(t): return t[0] if len(t) == 1 else f"(.ref {show(t[1])})" if t[0] == 'ref' else f"(.cut {t[1]} {show(t[2])} {show(t[3])})"
pieces = []; sizes = []
def lst(c): return "[" + ", ".join(map(str, c)) + "]"
def build(t, c, h):
    while t[0] == 'ref' and leaves(t) > LIM: t = t[1]
    if leaves(t) <= LIM:
        i = len(pieces)
        if t[0] == 'cut': t = ('ref', t)
        sizes.append(leaves(t)); pieces.append(f"def t{i} : Tree := {show(t)}\ntheorem h{i} : check par t{i} {lst(c)} {lst(h)} st = true := by decide +kernel\n")
        return f"t{i}", f"h{i}"
    kx = t[1]; h2 = list(h); h2[kx] //= 2; c1 = list(c); c1[kx] -= h2[kx]; c2 = list(c); c2[kx] += h2[kx]
    e1, p1 = build(t[2], c1, h2); e2, p2 = build(t[3], c2, h2)
    return f"(.cut {kx} {e1} {e2})", f"(check_cut (c1 := {lst(c1)}) (c2 := {lst(c2)}) (h := {lst(h2)}) (fun _ => rfl) {p1} {p2})"
c0 = [N//2]*n
e, p = build(tree, c0, c0)
name = f"{'Simplex' if kind == 'simplex' else 'Super'}{n}"
hd = "/-! Generated by tools/normcert/gen.py: a certificate for the checker `Verif.NormCheck`. -/\n"
out = '/verif/lean/Verif/'
vs = "[" + ",\n  ".join("[" + ", ".join(z(x*N) for x in v) + "]" for v in V) + "]"
open(out+f"NormCert{name}.lean", 'w').write(f"""import Verif.NormCheck
{hd}namespace FastNoise.NormCheck.{name}
open FastNoise.RangeCheck (Z Par)

/-- The grid points, times {N}. -/
def st : List (List Z) := {vs}
def par : Par := ⟨{m}, 1, {int(T)}, {B}, {n*N}⟩

end FastNoise.NormCheck.{name}
""")
mods = []; cur = []; cnt = 0
for x, s in zip(pieces, sizes):
    cur.append(x); cnt += s
    if cnt >= PER: mods.append(cur); cur = []; cnt = 0
if cur: mods.append(cur)
for j, ps in enumerate(mods):
    open(out+f"NormCert{name}P{j}.lean", 'w').write(f"import Verif.NormCert{name}\n{hd}namespace FastNoise.NormCheck.{name}\nopen FastNoise.RangeCheck (Tree)\nset_option maxRecDepth 1000000\n" + "".join(ps) + f"end FastNoise.NormCheck.{name}\n")
open(out+f"NormCert{name}All.lean", 'w').write("import Verif.NormCheckLemmas\n" + "".join(f"import Verif.NormCert{name}P{j}\n" for j in range(len(mods))) + f"""{hd}namespace FastNoise.NormCheck.{name}
open FastNoise.RangeCheck (Tree)

def tree : Tree := {e}
theorem checked : check par tree {lst(c0)} {lst(c0)} st = true := {p}

end FastNoise.NormCheck.{name}
""")
print(len(mods), "modules")
