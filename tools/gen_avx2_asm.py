#!/usr/bin/env python3
"""Translate dilithium2/avx2/*.S macro by macro into lists of Instr (lean/Verif/Avx2/NttAsm.lean) and consts.c into a table."""
import re
D='/repo/pqcrypto/pqclean/crypto_sign/dilithium2/avx2/'
OUT='/verif/lean/Verif/Avx2/NttAsm.lean'
CONST={'_8XQINV':8,'_8XDIV_QINV':16,'_8XDIV':24,'_ZETAS_QINV':32,'_ZETAS':328,'_8XQ':0}
OPS={'vpmuldq':'muldq','vmovshdup':'shdup','vmovsldup':'sldup','vpaddd':'addd','vpsubd':'subd','vpaddq':'addq','vpsubq':'subq','vpunpcklqdq':'unpl','vpunpckhqdq':'unph'}
MACROS={}  # name -> (args, defaults, lean name, needs)
def reg(s):
    m=re.fullmatch(r'%ymm(\\?\w+)',s); assert m,s
    return m.group(1).lstrip('\\')
def mem(s):
    m=re.fullmatch(r'(.*)\(%(\w+)\)',s); assert m,s
    e,base=m.group(1).strip(),m.group(2)
    e=e.replace('\\','')
    for k in sorted(CONST,key=len,reverse=True): e=re.sub(r'(?<!\w)'+re.escape(k)+r'(?!\w)',str(CONST[k]),e)
    e=e.strip() or '0'
    e=re.sub(r'\s+','',e)
    m=re.fullmatch(r'\((.*)\)\*4',e) or re.fullmatch(r'(\d+)\*4',e)
    d=m.group(1) if m else (str(int(e)//4) if e.isdigit() else '(%s) / 4'%e)
    d=re.sub(r'([+*-])',r' \1 ',d)
    return '(%s + (%s))'%(base,d)
def split(ops):
    r,d,cur=[],0,''
    for ch in ops:
        if ch=='(':d+=1
        if ch==')':d-=1
        if ch==',' and d==0: r.append(cur.strip());cur=''
        else: cur+=ch
    if cur.strip(): r.append(cur.strip())
    return r
def instr(line,lib):
    op,_,rest=line.partition('\t'); op=op.strip(); rest=rest.strip()
    if ' ' in op: op,_,r2=op.partition(' '); rest=(r2+' '+rest).strip()
    a=split(rest)
    if op in lib:
        name,args,defs,ptr=lib[op]
        vals=list(a)+[defs[x] for x in args[len(a):]]
        return ('call','%s %s'%(name,' '.join(([] if not ptr else ptr)+[v.lstrip('\\') for v in vals])))
    if op=='vmovdqa':
        if '(' in a[0]: return ('i','.load %s %s'%(mem(a[0]),reg(a[1])))
        if '(' in a[1]: return ('i','.store %s %s'%(reg(a[0]),mem(a[1])))
        return ('i','.mov %s %s'%(reg(a[0]),reg(a[1])))
    if op=='vpbroadcastd': return ('i','.bcast %s %s'%(mem(a[0]),reg(a[1])))
    if op=='vpermq': return ('i','.permqm %d %s %s'%(int(a[0][1:],0),mem(a[1]),reg(a[2])))
    if op=='vpsrlq':
        assert a[0]=='$32'; return ('i','.srlq32 %s %s'%(reg(a[1]),reg(a[2])))
    if op=='vpblendd': return ('i','.blendd %d %s'%(int(a[0][1:],0),' '.join(map(reg,a[1:]))))
    if op=='vperm2i128': return ('i','.perm128 %d %s'%(int(a[0][1:],0),' '.join(map(reg,a[1:]))))
    if op in OPS: return ('i','.%s %s'%(OPS[op],' '.join(map(reg,a))))
    raise Exception(line)
def clean(l):
    l=re.sub(r'/\*.*?\*/','',l).strip()
    if l.startswith('#'): return ''
    return l
def body(lines,lib):
    out=[];cur=[]
    def flush():
        nonlocal cur
        if cur: out.append('[%s]'%',\n   '.join(cur))
        cur=[]
    for l in lines:
        l=clean(l)
        if not l: continue
        k,s=instr(l,lib)
        if k=='i': cur.append(s)
        else: flush(); out.append(s)
    flush()
    return ' ++\n  '.join(out)
def macros(path,prefix,lib,skip=()):
    src=open(D+path).read().split('\n'); i=0; res=[]
    while i<len(src):
        m=re.match(r'\.macro (\w+) ?(.*)',src[i])
        if m:
            j=i+1
            while src[j].strip()!='.endm': j+=1
            name=m.group(1); args=[];defs={}
            for a in split(m.group(2)):
                if '=' in a: a,v=a.split('='); defs[a]=v
                args.append(a)
            if name not in skip:
                b=body(src[i+1:j],lib)
                ptr=[p for p in ('rdi','rsi','rdx','rcx') if re.search(r'\b%s\b'%p,b)]
                lname=prefix+name
                res.append('/-- Macro `%s` (%s:%d-%d). -/\ndef %s (%s : Nat) : List Instr :=\n  %s\n'%(name,path,i+1,j+1,lname,' '.join(ptr+args),b) if ptr+args else '/-- Macro `%s` (%s:%d-%d). -/\ndef %s : List Instr :=\n  %s\n'%(name,path,i+1,j+1,lname,b))
                lib[name]=(lname,args,defs,ptr)
            i=j
        i+=1
    return res
def span(path,a,b,lib): return body(open(D+path).read().split('\n')[a-1:b],lib)
out=['''import Verif.Avx2.Simd

/-!
# The assembly of pqclean/crypto_sign/dilithium2/avx2: ntt.S, invntt.S, shuffle.inc, shuffle.S, pointwise.S

Generated by tools/gen_avx2_asm.py, macro by macro, one `Instr` per instruction.  `rdi`, `rsi`, `rdx`, `rcx` are the pointer arguments (dword addresses).
Pointer increments and the loop counters are unrolled: the body of a loop is repeated with its pointers advanced.
-/

namespace Verif.Avx2
''']
lib={}
out+=macros('shuffle.inc','',lib,skip=('shuffle1',))
sh=dict(lib)
out+=macros('ntt.S','ntt_',lib)
out.append('/-- `ntt_avx` (ntt.S:184-198). -/\ndef nttAvx (rdi rsi : Nat) : List Instr :=\n  %s\n'%span('ntt.S',186,196,lib))
lib=dict(sh)
out+=macros('invntt.S','inv_',lib)
out.append('/-- `invntt_avx` (invntt.S:226-240). -/\ndef invnttAvx (rdi rsi : Nat) : List Instr :=\n  %s\n'%span('invntt.S',228,238,lib))
lib=dict(sh)
out.append('/-- `nttunpack128_avx` (shuffle.S:5-42). -/\ndef nttunpack128 (rdi : Nat) : List Instr :=\n  %s\n'%span('shuffle.S',7,40,lib))
out.append('/-- `nttunpack_avx` (shuffle.S:45-54): four calls, `rdi` advanced by 256 bytes. -/\ndef nttunpackAvx (rdi : Nat) : List Instr :=\n  nttunpack128 rdi ++ nttunpack128 (rdi + 64) ++ nttunpack128 (rdi + 128) ++ nttunpack128 (rdi + 192)\n')
lib={}
out.append('/-- Constants of `pointwise_avx` (pointwise.S:10-11). -/\ndef pwConsts (rcx : Nat) : List Instr :=\n  %s\n'%span('pointwise.S',10,11,lib))
L=open(D+'pointwise.S').read().split('\n')
def find(s,start=0): return next(i for i in range(start,len(L)) if L[i].startswith(s))
t1=find('_looptop1'); e1=find('add',t1)
out.append('/-- Loop body of `pointwise_avx` (pointwise.S:%d-%d): three vectors. -/\ndef pwBody (rdi rsi rdx : Nat) : List Instr :=\n  %s\n'%(t1+2,e1,span('pointwise.S',t1+2,e1,lib)))
j1=find('jb',e1); r1=find('ret',j1)
out.append('/-- The last two vectors of `pointwise_avx` (pointwise.S:%d-%d). -/\ndef pwTail (rdi rsi rdx : Nat) : List Instr :=\n  %s\n'%(j1+2,r1,span('pointwise.S',j1+2,r1,lib)))
out.append('/-- `pointwise_avx` (pointwise.S:5-%d): ten iterations, pointers advanced by 96 bytes each. -/\ndef pointwiseAvx (rdi rsi rdx rcx : Nat) : List Instr :=\n  pwConsts rcx ++ (List.range 10).flatMap (fun i => pwBody (rdi + 24 * i) (rsi + 24 * i) (rdx + 24 * i)) ++ pwTail (rdi + 240) (rsi + 240) (rdx + 240)\n'%(r1+1))
out+=macros('pointwise.S','pwa_',lib)
t2=find('_looptop2'); e2=find('add',t2)
out.append('/-- Loop body of `pointwise_acc_avx` (pointwise.S:%d-%d): two vectors. -/\ndef pwaBody (rdi rsi rdx : Nat) : List Instr :=\n  %s\n'%(t2+2,e2,span('pointwise.S',t2+2,e2,lib)))
out.append('/-- `pointwise_acc_avx` (pointwise.S:%d-%d): sixteen iterations, pointers advanced by 64 bytes each. -/\ndef pointwiseAccAvx (rdi rsi rdx rcx : Nat) : List Instr :=\n  pwConsts rcx ++ (List.range 16).flatMap fun i => pwaBody (rdi + 16 * i) (rsi + 16 * i) (rdx + 16 * i)\n'%(t2-8,len(L)-1))
# consts.c
src=open(D+'consts.c').read(); b=src[src.index('{{')+2:src.index('}\n};')]
b=re.sub(r'//.*','',b)
vals=[v.strip() for v in b.split(',') if v.strip()]
mp={'Q':'8380417','QINV':'58728449','DIV_QINV':'-8395782','DIV':'41978'}
vals=[mp.get(v,v) for v in vals]; assert len(vals)==624
rows=[', '.join(vals[i:i+8]) for i in range(0,624,8)]
out.append('/-- `qdata` (consts.c:10-101). -/\ndef qdata : List Int :=\n  [%s]\n'%',\n   '.join(rows))
out.append('end Verif.Avx2\n')
open(OUT,'w').write('\n'.join(out))
