#!/usr/bin/env python3
"""Writes the certificates of the known-answer test: Lean modules with the blocks of the signatures of testvector.h.

Nothing here is trusted: every number written is checked in Lean by the kernel. Usage: katgen.py SET TREES PIECES LAYERS OUTDIR MODULE-OR-'-' [HEIGHT]; with HEIGHT the layers are computed in subtrees of that height, LAYERS of them in a module"""
import hashlib, hmac, re, sys

P = {'128s': (16, 63, 7, 9, 12, 14), '128f': (16, 66, 22, 3, 6, 33), '192s': (24, 63, 7, 9, 14, 17),
     '192f': (24, 66, 22, 3, 8, 33), '256s': (32, 64, 8, 8, 14, 22), '256f': (32, 68, 17, 4, 9, 35)}

def b4(x): return x.to_bytes(4, 'big')

class Slh:
    def __init__(s, name):
        s.fam, sz = name.split('_')
        s.n, s.h, s.d, s.hp, s.a, s.k = P[sz]
        s.len = 2 * s.n + 3
        n = s.n
        b = bytes(range(3 * n))
        s.skSeed, s.skPrf, s.pkSeed = b[:n], b[n:2 * n], b[2 * n:]
        s.mid = hashlib.sha256(s.pkSeed + bytes(64 - n))
        s.mid5 = hashlib.sha512(s.pkSeed + bytes(128 - n))
    def adr(s, layer, tree, ty, w1, w2, w3):
        if s.fam == 'sha2':
            return bytes([layer]) + tree.to_bytes(8, 'big') + bytes([ty]) + b4(w1) + b4(w2) + b4(w3)
        return b4(layer) + tree.to_bytes(12, 'big') + b4(ty) + b4(w1) + b4(w2) + b4(w3)
    def F(s, adr, m):
        if s.fam == 'sha2':
            c = s.mid.copy(); c.update(adr + m); return c.digest()[:s.n]
        return hashlib.shake_256(s.pkSeed + adr + m).digest(s.n)
    def T(s, adr, m):
        if s.fam == 'sha2' and s.n > 16:
            c = s.mid5.copy(); c.update(adr + m); return c.digest()[:s.n]
        return s.F(adr, m)
    def prfmsg(s, opt, m):
        if s.fam == 'sha2':
            return hmac.new(s.skPrf, opt + m, 'sha256' if s.n == 16 else 'sha512').digest()[:s.n]
        return hashlib.shake_256(s.skPrf + opt + m).digest(s.n)
    def hmsg(s, R, root, m):
        if s.fam == 'sha2':
            H = hashlib.sha256 if s.n == 16 else hashlib.sha512
            seed = R + s.pkSeed + H(R + s.pkSeed + root + m).digest()
            return b''.join(H(seed + b4(i)).digest() for i in range(3))[:s.m()]
        return hashlib.shake_256(R + s.pkSeed + root + m).digest(s.m())
    def m(s): return s.md() + s.tb() + s.lb()
    def md(s): return (s.k * s.a + 7) // 8
    def tb(s): return (s.h - s.hp + 7) // 8
    def lb(s): return (s.hp + 7) // 8
    def digits(s, M):
        d = [x for b in M for x in (b >> 4, b & 15)]
        c = sum(15 - x for x in d)
        return d + [c >> 8 & 15, c >> 4 & 15, c & 15]
    def xmss(s, layer, tree, idx, M):
        ds = s.digits(M); sig = []
        leaves = []
        for kp in range(1 << s.hp):
            ends = []
            for c in range(s.len):
                v = s.F(s.adr(layer, tree, 5, kp, c, 0), s.skSeed)
                for st in range(15):
                    if kp == idx and st == ds[c]: sig.append(v)
                    v = s.F(s.adr(layer, tree, 0, kp, c, st), v)
                if kp == idx and ds[c] == 15: sig.append(v)
                ends.append(v)
            leaves.append(s.T(s.adr(layer, tree, 1, kp, 0, 0), b''.join(ends)))
        z, lv, all_lv = 0, leaves, [leaves]
        while len(lv) > 1:
            sig.append(lv[(idx >> z) ^ 1]); z += 1
            lv = [s.T(s.adr(layer, tree, 2, 0, z, i), lv[2 * i] + lv[2 * i + 1]) for i in range(len(lv) // 2)]
            all_lv.append(lv)
        s.lv = all_lv
        return ds, sig, lv[0]
    def fors(s, tree, kp, ids):
        out = []
        for i in range(s.k):
            base = i << s.a
            sk = [s.F(s.adr(0, tree, 6, kp, 0, base + j), s.skSeed) for j in range(1 << s.a)]
            lv = [s.F(s.adr(0, tree, 3, kp, 0, base + j), v) for j, v in enumerate(sk)]
            sig = [sk[ids[i]]]
            for z in range(s.a):
                sig.append(lv[(ids[i] >> z) ^ 1])
                lv = [s.T(s.adr(0, tree, 3, kp, z + 1, (base >> (z + 1)) + j), lv[2 * j] + lv[2 * j + 1]) for j in range(len(lv) // 2)]
            out.append((sig, lv[0]))
        return out, s.T(s.adr(0, tree, 4, kp, 0, 0), b''.join(r for _, r in out))

def sign(name, opt, msg):
    s = Slh(name)
    top = s.xmss(s.d - 1, 0, 0, bytes(s.n))[2]
    R = s.prfmsg(opt, msg)
    D = s.hmsg(R, top, msg)
    bits = int.from_bytes(D[:s.md()], 'big'); tot = 8 * s.md()
    ids = [(bits >> (tot - s.a * (i + 1))) & ((1 << s.a) - 1) for i in range(s.k)]
    tree = int.from_bytes(D[s.md():s.md() + s.tb()], 'big') % (1 << (s.h - s.hp))
    leaf = int.from_bytes(D[s.md() + s.tb():], 'big') % (1 << s.hp)
    fs, pkf = s.fors(tree, leaf, ids)
    M, t, l, layers = pkf, tree, leaf, []
    for j in range(s.d):
        ds, sig, root = s.xmss(j, t, l, M)
        layers.append((j, t, l, M, ds, sig, root, s.lv))
        M, l, t = root, t % (1 << s.hp), t >> s.hp
    assert M == top
    blocks = [R] + [b for sg, _ in fs for b in sg] + [b for L in layers for b in L[5]]
    return s, R, D, ids, tree, leaf, fs, pkf, layers, top, b''.join(blocks)

def vectors(path='/repo/testvector.h'):
    """The vectors that the preprocessor keeps."""
    keep, st = [], []
    for ln in open(path):
        t = ln.strip()
        if t.startswith('#if 0'): st.append(False)
        elif t.startswith('#else'): st[-1] = not st[-1]
        elif t.startswith('#endif'): st.pop()
        elif all(st): keep.append(ln)
    out = []
    for mm in re.finditer(r'"(\w+)",\s*\{([^}]*)\},\s*\{([^}]*)\},\s*\{([^}]*)\},', ''.join(keep)):
        out.append((mm.group(1),) + tuple(bytes(int(x, 16) for x in re.findall(r'0x[0-9a-f]+', mm.group(i))) for i in (2, 3, 4)))
    return out
if __name__ == '__main__' and len(sys.argv) == 1:
    for nm, pk, opt, hs in vectors():
        short = nm.replace('_simple', '')
        print(nm, len(pk), len(opt), len(hs), flush=True)
        if short.endswith('f'):
            r = sign(short, opt, b'abc')
            print(r[0].pkSeed + r[9] == pk, hashlib.sha256(r[-1]).digest() == hs, len(r[-1]))

def hx(b): return '0x' + b.hex()
def words(b, k): return [int.from_bytes(b[i:i + k], 'big') for i in range(0, len(b), k)]

def iroot(k, N):
    lo, hi = 0, 1 << 90
    while hi - lo > 1:
        m = (lo + hi) // 2
        if m ** k <= N: lo = m
        else: hi = m
    return lo

PR = [p for p in range(2, 420) if all(p % q for q in range(2, p))][:80]

class Sha:
    """SHA-2 by hand: hashlib does not show its state."""
    def __init__(s, w):
        s.w = w; s.mask = (1 << w) - 1; s.nr = 64 if w == 32 else 80
        s.K = [iroot(3, p << 3 * w) % 2**w for p in PR[:s.nr]]
        s.H = [iroot(2, p << 2 * w) % 2**w for p in PR[:8]]
        s.c = ((17, 19, 10), (7, 18, 3), (6, 11, 25), (2, 13, 22)) if w == 32 else ((19, 61, 6), (1, 8, 7), (14, 18, 41), (28, 34, 39))
    def r(s, x, n): return (x >> n | x << (s.w - n)) & s.mask
    def compress(s, H, ws):
        w = list(ws); r = s.r; (p, q, u), (p2, q2, u2), (e1, e2, e3), (a1, a2, a3) = s.c
        for t in range(16, s.nr):
            a, b = w[t - 2], w[t - 15]
            w.append(((r(a, p) ^ r(a, q) ^ a >> u) + w[t - 7] + (r(b, p2) ^ r(b, q2) ^ b >> u2) + w[t - 16]) & s.mask)
        a, b, c, d, e, f, g, h = H
        for t in range(s.nr):
            t1 = h + (r(e, e1) ^ r(e, e2) ^ r(e, e3)) + (e & f ^ ~e & g) + s.K[t] + w[t]
            t2 = (r(a, a1) ^ r(a, a2) ^ r(a, a3)) + (a & b ^ a & c ^ b & c)
            a, b, c, d, e, f, g, h = (t1 + t2) & s.mask, a, b, c, (d + t1) & s.mask, e, f, g
        return [(x + y) & s.mask for x, y in zip(H, [a, b, c, d, e, f, g, h])]

S32, S64 = Sha(32), Sha(64)

def lst(ws): return '[' + ', '.join(hex(w) if w > 999 else str(w) for w in ws) + ']'

def emit(name, chunk, nf, nl, after, z=0):
    """Modules: FORS trees in pieces of `chunk`, `nf` pieces in a module, `nl` layers in a module; the first module imports `after`."""
    for nm, pk, opt, hs in vectors():
        if nm == name + '_simple': break
    s, R, D, ids, tree, leaf, fs, pkf, layers, top, sig = sign(name, opt, b'abc')
    assert s.pkSeed + top == pk and hashlib.sha256(sig).digest() == hs
    n = s.n
    if s.fam == 'sha2':
        B, k, enc, order = 32, 4, 'S256.enc4', 'big'
        mid = S32.compress(S32.H, words(s.pkSeed + bytes(64 - n), 4))
        mid5 = S64.compress(S64.H, words(s.pkSeed + bytes(128 - n), 8))
    else:
        B, k, enc, order = 64, 8, 'K.enc8', 'little'
    nw = n // k
    def ws(b): return [int.from_bytes(b[i:i + k], order) for i in range(0, len(b), k)]
    def num(b):
        r = 0
        for w in ws(b): r = r << B | w
        return hex(r)
    o = []
    imports = ['Verif.Kat.Nums', 'Verif.Proof.KRfl']
    if s.fam == 'sha2' and n == 16:
        imports.append('Verif.Kat.Ops256'); fns = 'sha2L1Fns 16'; S = 'S256'
        ops = 'S256.ops ⟨%s⟩ %d %s' % (', '.join(map(hex, mid)), nw, lst(ws(s.skSeed)))
        snd = 'S256.sound %d %d rfl (by omega) _ rfl ⟨%s⟩ (by decide +kernel) _ rfl (by decide)' % (n, nw, ', '.join(map(hex, mid)))
        fast = 'rw [S256.hashF_eq]; decide +kernel'
    elif s.fam == 'sha2':
        imports.append('Verif.Kat.Ops512'); imports.append('Verif.Kat.Hash512'); fns = 'sha2L35Fns %d' % n
        v8 = lambda m: '⟨%s⟩' % ', '.join(map(hex, m))
        ops = 'S512.ops %s %s %d %s' % (v8(mid), v8(mid5), n // 8, lst(ws(s.skSeed)))
        snd = 'S512.sound %d %d rfl (by omega) _ rfl %s (by decide +kernel) %s (by decide +kernel) _ rfl (by decide)' % (n, n // 8, v8(mid), v8(mid5))
        fast = 'rw [S512.hashF_eq]; decide +kernel'
    else:
        imports.append('Verif.Kat.OpsK'); fns = 'shakeFns %d' % n
        ops = 'K.ops %d %s %s' % (nw, lst(ws(s.pkSeed)), lst(ws(s.skSeed)))
        snd = 'K.sound %d %d rfl (by omega) _ _ (by decide) rfl (by decide)' % (n, nw)
        fast = 'rw [K.shakeF_eq _ _ (by decide)]; decide +kernel'
    cap = name[0].upper() + name[1:]
    files = []
    def begin(imps):
        for i in imps: o.append('import ' + i)
        o.append('/-!\n# Known answer for %s: parts of the signature, checked by the kernel\n\nWritten by tools/katgen.py from testvector.h.\n-/' % name)
        o.append('set_option Elab.async false\nnoncomputable section\nnamespace Kat.%s\nopen Spec Spec.Slh Model\n' % cap)
    def cut(imps=()):
        o.append('\nend Kat.%s' % cap)
        mod = 'P%d' % len(files) if imps is not None else 'Answer'
        files.append((mod, '\n'.join(o) + '\n')); o.clear()
        if imps is not None: begin(['Verif.Kat.%s.%s' % (cap, mod)] + list(imps))
    begin(imports + ([after] if after else []))
    o.append('abbrev P : Params := PsName.%s.P' % name)
    o.append('abbrev hf : HashFns := PsName.%s.fns' % name)
    o.append('def sk : List Nat := %s\ndef prf : List Nat := %s\ndef pk : List Nat := %s\ndef root : List Nat := %s' % tuple(lst(ws(x)) for x in (s.skSeed, s.skPrf, s.pkSeed, top)))
    o.append('abbrev skB : Bytes := %s sk\nabbrev pkB : Bytes := %s pk' % (enc, enc))
    o.append('def O : Ops := %s' % ops)
    o.append('theorem snd : Sound O %s hf pkB skB := %s\n' % (enc, snd))
    o.append('/-! ## FORS -/\n')
    o.append('def ids : List Nat := %s' % lst(ids))
    o.append('theorem ids_lt (i : Nat) : ids.getD i 0 < 2 ^ P.a := by\n  rw [List.getD_eq_getElem?_getD]\n  by_cases h : i < ids.length\n  · rw [List.getElem?_eq_getElem h, Option.getD_some]\n    exact of_decide_eq_true (List.all_eq_true.1 (show ids.all (fun x => decide (x < 2 ^ P.a)) = true by decide) _ (List.getElem_mem h))\n  · rw [List.getElem?_eq_none (by omega)]; decide')
    parts = [(r, min(chunk, s.k - r)) for r in range(0, s.k, chunk)]
    for q, (r, c) in enumerate(parts):
        if q and q % nf == 0: cut()
        o.append('def fs%d : List (List Nat) := blks %d %d %d %s' % (q, B, nw, c * (s.a + 1), num(b''.join(b for sg, _ in fs[r:r + c] for b in sg))))
        o.append('def fr%d : List (List Nat) := blks %d %d %d %s' % (q, B, nw, c, num(b''.join(rt for _, rt in fs[r:r + c]))))
        o.append('theorem fc%d : eqLL (forsP O %d %d %d %d %d ids) (fs%d ++ fr%d) = true := by krfl' % (q, s.a, r, c, tree, leaf, q, q))
        o.append('theorem fp%d : ForsPart %s hf pkB skB P %d %d ids %d %d fs%d fr%d := fors_part snd P (by decide) _ _ (by omega) (by omega) _ ids_lt _ _ (by decide) _ _ (by decide +kernel) fc%d' % (q, enc, tree, leaf, r, c, q, q, q))
    def app(p, n): return p + '0' if n == 1 else '(' + app(p, n - 1) + ' ++ %s%d)' % (p, n - 1)
    prev = 'fp0'
    for q in range(1, len(parts)):
        o.append('theorem fa%d : ForsPart %s hf pkB skB P %d %d ids 0 %d %s %s := fors_app P _ _ _ 0 %d %d _ _ _ _ %s fp%d' % (q, enc, tree, leaf, parts[q][0] + parts[q][1], app('fs', q + 1), app('fr', q + 1), parts[q][0], parts[q][1], prev, q))
        prev = 'fa%d' % q
    o.append('def m0 : List Nat := %s' % lst(ws(pkf)))
    o.append('theorem fk : forsPk P hf skB pkB %d %d = %s m0 := fors_pk snd P (by decide) _ _ (by omega) (by omega) ids _ _ %s (by decide +kernel) (by decide +kernel) _ (by decide +kernel)\n' % (tree, leaf, enc, prev))
    o.append('/-! ## Hypertree -/\n')
    if not z:
        for (j, t, l, M, ds, sg, rt, lv) in layers:
            if j % nl == 0: cut()
            o.append('def s%d : List (List Nat) := blks %d %d %d %s' % (j, B, nw, len(sg), num(b''.join(sg))))
            o.append('def m%d : List Nat := %s' % (j + 1, lst(ws(rt))))
            o.append('theorem c%d : eqLL (xmssP O %d %d %d %d %d %s) (s%d ++ [m%d]) = true := by krfl' % (j, s.len, s.hp, j, t, l, lst(ds), j, j + 1))
    else:
        up, cnt = s.hp - z, 0
        for (j, t, l, M, ds, sg, rt, lv) in layers:
            for r in range(1 << up):
                if cnt % nl == 0: cut(['Verif.Kat.Sub'] if cnt == 0 else [])
                cnt += 1
                o.append('def n%d_%d_%d : List Nat := %s' % (j, z, r, lst(ws(lv[z][r]))))
                if r == l >> z:
                    o.append('def s%d : List (List Nat) := blks %d %d %d %s' % (j, B, nw, s.len + z, num(b''.join(sg[:s.len + z]))))
                    o.append('theorem c%d : eqLL (subSig O %d %d %d %d %d %d %s) (s%d ++ [n%d_%d_%d]) = true := by krfl' % (j, s.len, z, r, j, t, l, lst(ds), j, j, z, r))
                else:
                    o.append('theorem d%d_%d : eqL (subRoot O %d %d %d %d %d) n%d_%d_%d = true := by krfl' % (j, r, s.len, z, r, j, t, j, z, r))
                    o.append('theorem k%d_%d_%d : xmssNode P hf skB pkB %d %d %d %d = %s n%d_%d_%d := sub_root snd P _ _ _ _ (by omega) (by omega) (by omega) (by omega) (by decide) _ d%d_%d' % (j, z, r, j, t, r, z, enc, j, z, r, j, r))
            o.append('def m%d : List Nat := %s' % (j + 1, lst(ws(rt))))
            r = l >> z
            o.append('theorem u%d : xmssNode P hf skB pkB %d %d %d %d = %s n%d_%d_%d ∧ wotsSign P hf skB pkB %d %d %d (%s m%d) ++ ((List.range %d).map fun j => xmssNode P hf skB pkB %d %d ((%d / 2 ^ j) ^^^ 1) j) = s%d.map %s := sub_sig snd P %d %d %d %d %d (by omega) (by omega) (by omega) (by omega) (by decide) (by decide) (%s m%d) _ (by decide +kernel) s%d n%d_%d_%d c%d' % (j, j, t, r, z, enc, j, z, r, j, t, l, enc, j, z, j, t, l, j, enc, j, t, r, z, l, enc, j, j, j, z, r, j))
            o.append('theorem k%d_%d_%d : xmssNode P hf skB pkB %d %d %d %d = %s n%d_%d_%d := u%d.1' % (j, z, r, j, t, r, z, enc, j, z, r, j))
            for h in range(z + 1, s.hp + 1):
                for i in range(1 << (s.hp - h)):
                    o.append('def n%d_%d_%d : List Nat := %s' % (j, h, i, lst(ws(lv[h][i]))))
                    o.append('theorem k%d_%d_%d : xmssNode P hf skB pkB %d %d %d %d = %s n%d_%d_%d := node_step snd P %d %d %d %d (by omega) (by omega) (by omega) (by omega) n%d_%d_%d n%d_%d_%d (by krfl) (by krfl) k%d_%d_%d k%d_%d_%d _ (by krfl)' % (
                        j, h, i, j, t, i, h, enc, j, h, i, j, t, i, h - 1, j, h - 1, 2 * i, j, h - 1, 2 * i + 1, j, h - 1, 2 * i, j, h - 1, 2 * i + 1))
            au = '(auth_nil P %d %d %d %d)' % (j, t, l, s.hp); al = []
            for h in reversed(range(z, s.hp)):
                i = (l >> h) ^ 1
                au = '(auth_cons P %d %d %d %d %d %d (by decide) n%d_%d_%d _ k%d_%d_%d %s)' % (j, t, l, h, s.hp - h - 1, i, j, h, i, j, h, i, au)
                al = ['n%d_%d_%d' % (j, h, i)] + al
            o.append('def au%d : List (List Nat) := [%s]' % (j, ', '.join(al)))
            o.append('theorem ap%d : ((List.range\' %d %d).map fun j => xmssNode P hf skB pkB %d %d ((%d / 2 ^ j) ^^^ 1) j) = au%d.map %s := %s' % (j, z, up, j, t, l, j, enc, au))
    o.append('')
    cut(['Verif.Kat.Chunk'])
    if not z:
        for (j, t, l, M, ds, sg, rt, lv) in reversed(layers):
            o.append('def y%d : List (List Nat) := s%d ++ %s' % (j, j, 'y%d' % (j + 1) if j + 1 < s.d else '[]'))
            o.append('theorem h%d : htSignFrom P hf skB pkB %d %d %d %d (%s m%d) = y%d.map %s := ht_step snd P (by decide) (by decide) %d %d %d %d (by omega) (by omega) (by decide) m%d _ (by decide +kernel) s%d %s m%d c%d %s' % (
                j, s.d - j, j, t, l, enc, j, j, enc, s.d - j - 1, j, t, l, j, j, 'y%d' % (j + 1) if j + 1 < s.d else '[]', j + 1, j, 'h%d' % (j + 1) if j + 1 < s.d else '(ht_zero _ _ _ _ _)'))
        j = s.d - 1
        o.append('theorem top : pkRoot P hf skB pkB = %s root := root_step snd P (by decide) (by decide) (by decide) %d (by decide) m%d _ (by decide +kernel) s%d m%d c%d\n' % (enc, layers[j][2], j, j, j + 1, j))
    else:
        for (j, t, l, M, ds, sg, rt, lv) in reversed(layers):
            y = 'y%d' % (j + 1) if j + 1 < s.d else '[]'
            o.append('def y%d : List (List Nat) := s%d ++ au%d ++ %s' % (j, j, j, y))
            o.append('theorem h%d : htSignFrom P hf skB pkB %d %d %d %d (%s m%d) = y%d.map %s := ht_parts P %d %d (by decide) %d %d %d %d (by decide) m%d s%d au%d %s m%d u%d.2 ap%d k%d_%d_0 %s' % (
                j, s.d - j, j, t, l, enc, j, j, enc, z, up, s.d - j - 1, j, t, l, j, j, j, y, j + 1, j, j, j, s.hp, 'h%d' % (j + 1) if j + 1 < s.d else '(ht_zero _ _ _ _ _)'))
        o.append('theorem top : pkRoot P hf skB pkB = %s root := k%d_%d_0\n' % (enc, s.d - 1, s.hp))
    o.append('/-! ## Message -/\n')
    o.append('def opt : Bytes := %s' % lst(opt))
    o.append('def R : List Nat := %s' % lst(ws(R)))
    o.append('def D : Bytes := %s' % lst(D))
    o.append('theorem hR : hf.PRFmsg (%s prf) opt [97, 98, 99] = %s R := by\n  unfold hf PsName.fns PsName.inst Instance.fns %s\n  simp only\n  %s' % (enc, enc, fns.split()[0], fast))
    o.append('theorem hD : hf.Hmsg (%s R) pkB (%s root) [97, 98, 99] P.m = D := by\n  unfold hf PsName.fns PsName.inst Instance.fns %s\n  simp only\n  %s\n' % (enc, enc, fns.split()[0], fast))
    o.append('def ws : List Nat := ([R] ++ %s ++ y0).flatten' % app('fs', len(parts)))
    o.append('theorem sig : (signBlocks P hf skB pkB (%s prf) (%s root) opt [97, 98, 99]).flatten = %s ws :=\n  sign_words snd P _ _ _ _ R hR D hD %d %d (by decide +kernel) (by decide +kernel) ids (by decide +kernel) _ _ %s _ fk _ h0' % (enc, enc, enc, tree, leaf, prev))
    pad = sig + b'\x80'
    while len(pad) % 64 != 56: pad += b'\0'
    pad += (8 * len(sig)).to_bytes(8, 'big')
    pw = words(pad, 4); nbl = len(pw) // 16; step = 100
    wz = 'ws' if s.fam == 'sha2' else 'ws4'
    if s.fam == 'shake': o.append('def ws4 : List Nat := K.conv ws')
    o.append('theorem bound : (' + wz + '.all fun w => Nat.blt w 4294967296) = true := by krfl')
    st = S32.H; o.append('def v0 : V8 Nat := S256.H0n')
    pieces = [(b, min(step, nbl - b)) for b in range(0, nbl, step)]
    for q, (b, c) in enumerate(pieces):
        for t in range(b, b + c): st = S32.compress(st, pw[16 * t:16 * t + 16])
        o.append('def v%d : V8 Nat := ⟨%s⟩' % (q + 1, ', '.join(map(hex, st))))
        o.append('def p%d : List Nat := nums 32 %d 0x%s' % (q, 16 * c, pad[64 * b:64 * (b + c)].hex()))
        o.append('theorem r%d : S256.Seg p%d %d v%d v%d := S256.Seg.of _ _ _ _ (by krfl) (by krfl)' % (q, q, c, q, q + 1))
    assert b''.join(map(b4, st)) == hs
    def rapp(a, f, op): return f % a if a == len(pieces) - 1 else op % (f % a, rapp(a + 1, f, op))
    o.append('def pw : List Nat := %s' % rapp(0, 'p%d', '%s ++ (%s)'))
    o.append('theorem pad : eqL (S256.padW %s) pw = true := by krfl' % wz)
    cut(['Verif.Kat.Final'])
    o.append('/-- The key and the hash of the signature. -/')
    o.append('theorem kat :\n    (Properties.standardKey .%s ((List.range (3 * P.n)).map UInt8.ofNat)).drop (2 * P.n) = S256.enc4 %s ∧\n    Sha256.hash (Properties.stdSig .%s ((List.range (3 * P.n)).map UInt8.ofNat) opt [97, 98, 99]) = S256.enc4 %s := by' % (name, lst(words(pk, 4)), name, lst(words(hs, 4))))
    o.append('  have h := key_sig .%s (%s prf) opt [97, 98, 99] (by decide +kernel) (by decide +kernel) (by decide +kernel) (by decide +kernel) _ top (by decide +kernel) _ sig' % (name, enc))
    o.append('  refine ⟨h.1.trans (by decide +kernel), ?_⟩\n  rw [h.2%s]\n  exact S256.Seg.hash %s pad bound (by decide)\n' % ('' if s.fam == 'sha2' else ', K.enc8_conv', rapp(0, 'r%d', '(S256.Seg.app %s %s)')))
    cut(None)
    return cap, files

if __name__ == '__main__' and len(sys.argv) > 4:
    name, chunk, nf, nl, out = sys.argv[1:6]
    cap, files = emit(name, int(chunk), int(nf), int(nl), None if sys.argv[6] == '-' else sys.argv[6], int(sys.argv[7]) if len(sys.argv) > 7 else 0)
    import os, shutil
    d = '%s/%s' % (out, cap)
    shutil.rmtree(d, ignore_errors=True); os.makedirs(d)
    for mod, txt in files: open('%s/%s.lean' % (d, mod), 'w').write(txt)
    print('Verif.Kat.%s.%s' % (cap, files[-2][0]))
