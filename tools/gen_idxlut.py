#!/usr/bin/env python3
"""Generate Verif/Avx2/IdxLut.lean from rejsample.c:7-264."""
import re
src=open('/repo/pqcrypto/pqclean/crypto_sign/dilithium2/avx2/rejsample.c').read()
t=src[src.index('idxlut[256][8] = {'):]
t=t[t.index('{')+1:t.index('};')]
rows=[[int(x) for x in r.split(',')] for r in re.findall(r'\{([^}]*)\}',t)]
assert len(rows)==256 and all(len(r)==8 for r in rows)
out="""/-!
Generated by tools/gen_idxlut.py from pqclean/crypto_sign/dilithium2/avx2/rejsample.c:7-264.
-/

namespace Verif.Avx2

/-- The table `idxlut` (rejsample.c:7-264). -/
def idxlut : List (List Nat) := [
"""
out+=',\n'.join('  ['+', '.join(map(str,r))+']' for r in rows)+']\n\nend Verif.Avx2\n'
open('/verif/lean/Verif/Avx2/IdxLut.lean','w').write(out)
