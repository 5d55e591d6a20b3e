#!/usr/bin/env python3
"""Writes lean/Verif/Model/TestVectors.lean from testvector.h."""
import re
src = open('/repo/testvector.h').read().split('\n')
keep, st = [], []
for i, ln in enumerate(src, 1):
    t = ln.strip()
    if t.startswith('#if 0'): st.append(False)
    elif t.startswith('#else'): st[-1] = not st[-1]
    elif t.startswith('#endif'): st.pop()
    elif all(st): keep.append((i, ln))
out, names = [], []
cur = None
for i, ln in keep:
    if ln.startswith('{'): cur = [i, '']
    if cur: cur[1] += ln + '\n'
    if ln.startswith('},') and cur:
        m = re.search(r'"(\w+)",\s*\{([^}]*)\},\s*\{([^}]*)\},\s*\{([^}]*)\},', cur[1])
        nm = m.group(1)
        f = [re.findall(r'0x[0-9a-f]+', m.group(k)) for k in (2, 3, 4)]
        names.append('vector_' + nm.replace('_simple', ''))
        out.append('/-- testvector.h:%d-%d. -/\ndef %s : TestVector where\n  parameter_set_name := "%s"\n' % (cur[0], i, names[-1], nm) +
                   ''.join('  %s := initArray %d\n    [%s]\n' % (a, n, (',\n     ').join(', '.join(b[j:j + 16]) for j in range(0, len(b), 16))) for a, n, b in zip(('public_key', 'optrand', 'hash_sig'), (64, 32, 32), f)))
        cur = None
open('/verif/lean/Verif/Model/TestVectors.lean', 'w').write('''import Verif.Model.Clients
/-!
# test_testvector.c: the vectors and the whole test

The vectors are those that the preprocessor keeps of testvector.h: the second half (after the `#else` in line 608) without the parts between
`#if 0` and `#endif`.
-/
namespace Model

/-- An array of `n` bytes with an initialiser: the bytes that the initialiser does not name are zero. -/
def initArray (n : Nat) (b : Bytes) : Bytes := b ++ List.replicate (n - b.length) 0

''' + '\n'.join(out) + '''
/-- `vectors`, test_testvector.c:47-49. -/
def vectors : List TestVector :=
  [%s]

/-- The variables of one round of the loop of `test_testvector`, test_testvector.c:124-125, 145-156, before it has written to them, and the
memory at that time. -/
structure VectorLocals where
  mem : Mem
  private_key : Nat
  public_key : Nat
  ctx : Ctx
  verify_ctx : Ctx
  hash_ctx : Sha256.Ctx
  buffer : Bytes

/-- `test_testvector`, test_testvector.c:105-198, without the messages: `loc i` are the variables of round `i`, which live only in that round.
`message` is the address of the three bytes of line 140. -/
def test_testvector (E : Env) (fuel : Nat) (message : Nat) (loc : Nat → VectorLocals) : (i : Nat) → List TestVector → C Nat
  | _, [] => .ok 1
  | i, v :: vs => do
    let l := loc i
    let r ← vectorTest E fuel l.mem l.private_key l.public_key l.ctx l.verify_ctx l.hash_ctx l.buffer message 3 v
    if r = 0 then .ok 0 else test_testvector E fuel message loc (i + 1) vs

end Model
''' % ',\n   '.join(', '.join(names[i:i + 3]) for i in range(0, 12, 3)))
