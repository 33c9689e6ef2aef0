#!/usr/bin/env python3
"""Writes the certificate modules lean/Verif/RangeCert*.lean: g++ -O2 -o search search.cpp, then gen.py <search> <simplex|super|osimplex|osuper> <n> <factor> <leaves per theorem> <leaves per module>."""
import sys, subprocess, itertools
from fractions import Fraction as F
from decimal import Decimal as Dd, getcontext
getcontext().prec = 80
exe, kind, n, fac, LIM, PER = sys.argv[1], sys.argv[2], int(sys.argv[3]), F(sys.argv[4]), int(sys.argv[5]), int(sys.argv[6])
K = 16; N = 2**K; m = n + 1
S = 2 if n == 3 else 2**40
odd = 1 + Dd(2).sqrt() if n == 2 else Dd(0)
k = {2: -1/(Dd(3).sqrt()+3), 3: Dd(-1)/2, 4: -1/(Dd(5).sqrt()+5)}[n]
rnd = lambda x: int(x.to_integral_value())
P, K1, K2 = rnd(odd*S), rnd(k*S), rnd(k*odd*S)
def z(x): return f"({x}, 0)" if x >= 0 else f"(0, {-x})"
G = []
for i in range(n):
    for b in itertools.product((1, -1), repeat=n):
        t = [b[j]*(P if j == i else S) + K1*sum(b[l] for l in range(n) if l != i) + K2*b[i] for j in range(n)]
        if t not in G: G.append(t)
outer = kind[0] == 'o'
if outer:
    # the gradients of the outer product warps, in the order of `simplex2` and `simplex4` of Verif.GradientSpec
    if n == 2:
        q = Dd(3).sqrt(); g = [(q, 1), (-q, -1), (1, q), (-1, -q), (q, -1), (-q, 1), (-1, q), (1, -q), (2, 0), (-2, 0), (0, 2), (0, -2)]
        G = [[rnd((Dd(x)+k*(Dd(a)+Dd(b)))*S) for x in (a, b)] for a, b in g]
    else:
        S = 1; G = [[int(j == i) for j in range(4)] for i in range(4)]
        for i, j in ((1, 0), (0, 1), (3, 2), (2, 3), (2, 0), (3, 1), (0, 2), (1, 3), (3, 0), (2, 1), (1, 2), (0, 3)):
            G.append([int(l == i)-int(l == j) for l in range(4)])
        G += [[-int(j == i) for j in range(4)] for i in range(4)]
if kind[-7:] == 'simplex':
    V = [[1]*j+[0]*(n-j) for j in range(n+1)]
    t = {2: 2, 3: 5, 4: 1}[n]; R = {2: F(1, 2), 3: F(3, 5), 4: F(3, 5)}[n]
    B = {2: F('0.0261208079755306243896484375'), 3: F('0.030586399137973785400390625'), 4: F('0.036730043590068817138671875')}[n]
else:
    V = [list(v)[::-1] for v in itertools.product((-1, 0, 1, 2), repeat=n)]
    t = 1; R = {2: F(2, 3), 3: F(3, 4), 4: F(4, 5)}[n]
    B = {2: F('0.14084912836551666259765625'), 3: 16*F('0.0069091119803488254547119140625'), 4: 16*F('0.011310013942420482635498046875')}[n]
if outer: B = {('osimplex', 2): 1/F('49.918426513671875'), ('osuper', 2): 1/F('9.28993664146183'), ('osimplex', 4): 1/F('33.653125584827855'), ('osuper', 4): 16/F('115.21625311930542')}[kind, n]
T = R*m*t*N*N; assert T.denominator == 1
slack = F(0) if n == 3 or outer and n == 4 else F(4, 10**9)
BZ = int((B*fac-slack)*S*N*(t*m*N*N)**4)
r = subprocess.run([exe, kind, str(n), str(float(fac)), str(LIM)], capture_output=True, text=True)
sys.stderr.write(r.stderr)
txt = r.stdout.strip()
# parse
pos = 0
def parse():
    global pos
    if txt[pos] == '.':
        e = pos
        while e < len(txt) and txt[e] not in ' )': e += 1
        w = txt[pos:e]; pos = e; return (w,)
    assert txt[pos] == '('; pos += 1
    if txt.startswith('.ref ', pos):
        pos += 5; a = parse(); assert txt[pos] == ')'; pos += 1; return ('ref', a)
    if txt.startswith('.new ', pos):
        pos += 5; a = parse(); assert txt[pos] == ')'; pos += 1; return ('new', a)
    assert txt.startswith('.cut ', pos); kx = int(txt[pos+5]); pos += 7
    a = parse(); assert txt[pos] == ' '; pos += 1; b = parse(); assert txt[pos] == ')'; pos += 1
    return ('cut', kx, a, b)
sys.setrecursionlimit(10000)
tree = parse(); assert pos == len(txt)
def leaves(t): return 1 if len(t) == 1 else leaves(t[1]) if t[0] in ('ref', 'new') else leaves(t[2])+leaves(t[3])
def show(t): return t[0] if len(t) == 1 else f"(.ref {show(t[1])})" if t[0] == 'ref' else f"(.cut {t[1]} {show(t[2])} {show(t[3])})"
pieces = []; sizes = []
def lst(c): return "[" + ", ".join(map(str, c)) + "]"
# returns (tree expression, proof expression)
def build(t, c, h):
    while t[0] == 'ref' and leaves(t) > LIM: t = t[1]
    if t[0] == 'new' or '(.new' not in txt and leaves(t) <= LIM:
        if t[0] == 'new': t = t[1]
        i = len(pieces)
        if t[0] == 'cut': t = ('ref', t)
        sizes.append(leaves(t)); pieces.append(f"def t{i} : Tree := {show(t)}\ntheorem h{i} : check par t{i} {lst(c)} {lst(h)} st = true := by decide +kernel\n")
        return f"t{i}", f"h{i}"
    kx = t[1]; h2 = list(h); h2[kx] //= 2; c1 = list(c); c1[kx] -= h2[kx]; c2 = list(c); c2[kx] += h2[kx]
    e1, p1 = build(t[2], c1, h2); e2, p2 = build(t[3], c2, h2)
    return f"(.cut {kx} {e1} {e2})", f"(check_cut (c1 := {lst(c1)}) (c2 := {lst(c2)}) (h := {lst(h2)}) (fun _ => rfl) {p1} {p2})"
c0 = [N//2]*n
e, p = build(tree, c0, c0)
name = f"{'Outer' if outer else ''}{'Simplex' if kind[-7:] == 'simplex' else 'Super'}{n}"
hd = "/-! Generated by tools/rangecert/gen.py: a certificate for the checker `Verif.RangeCheck`. -/\n"
import os
out = os.environ.get('OUT', '/verif/lean/Verif/')
gs = "[" + ",\n  ".join("[" + ", ".join(z(x) for x in t) + "]" for t in G) + "]"
vs = "[" + ",\n  ".join("([" + ", ".join(z(x*N) for x in v) + "], gs)" for v in V) + "]"
open(out+f"RangeCert{name}.lean", 'w').write(f"""import Verif.RangeCheck
{hd}namespace FastNoise.RangeCheck.{name}

/-- The ramps, in skewed coordinates, times {S}. -/
def gs : List (List Z) := {gs}
/-- The grid points, times {N}. -/
def st : St := {vs}
def par : Par := ⟨{m}, {t}, {int(T)}, {BZ}, {n*N}⟩

end FastNoise.RangeCheck.{name}
""")
mods = []; groups = []; acc = 0
for x, l in zip(pieces, sizes):
    if not groups or acc + l > PER: groups.append([]); acc = 0
    groups[-1].append(x); acc += l
for i, g in enumerate(groups):
    mod = f"RangeCert{name}P{i}"; mods.append(mod)
    open(out+mod+".lean", 'w').write(f"import Verif.RangeCert{name}\n{hd}namespace FastNoise.RangeCheck.{name}\nset_option maxRecDepth 1000000\n" + "".join(g) + f"end FastNoise.RangeCheck.{name}\n")
open(out+f"RangeCert{name}All.lean", 'w').write("import Verif.RangeCheckLemmas\n" + "".join(f"import Verif.{x}\n" for x in mods) + f"""{hd}namespace FastNoise.RangeCheck.{name}

def tree : Tree := {e}
theorem checked : check par tree {lst(c0)} {lst(c0)} st = true := {p}

end FastNoise.RangeCheck.{name}
""")
print(name, len(pieces), "pieces", len(mods), "modules")
