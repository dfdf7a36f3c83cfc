#!/usr/bin/env python3
"""Translate pqclean/crypto_sign/dilithium2/aarch64/{macros_common.inc,macros.inc,__asm_NTT.S,__asm_iNTT.S,__asm_poly.S,ntt.h} into lean/Verif/Neon/Asm.lean."""
import re
D='/repo/pqcrypto/pqclean/crypto_sign/dilithium2/aarch64/'
out=[]
macros={}   # name -> (params, file, l0, l1, lines)
def strip(l):
    l=re.sub(r'//.*','',l).strip()
    return l
for fn in ['macros_common.inc','macros.inc']:
    cur=None
    for n,l in enumerate(open(D+fn).read().split('\n'),1):
        s=strip(l)
        m=re.match(r'\.macro\s+(\w+)\s*(.*)',s)
        if m:
            cur=[m.group(1),[x.strip() for x in m.group(2).split(',')] if m.group(2) else [],fn,n,None,[]]; continue
        if s=='.endm':
            cur[4]=n; macros[cur[0]]=cur; cur=None; continue
        if cur is not None and s: cur[5].append(s)
SKIP={'push_all','pop_all'}
def args(s):
    r=[];d=0;c=''
    for ch in s:
        if ch in '{[': d+=1
        if ch in '}]': d-=1
        if ch==',' and d==0: r.append(c.strip()); c=''
        else: c+=ch
    if c.strip(): r.append(c.strip())
    return r
class Ctx: pass
def vreg(s):  # v12 or parameter name; returns lean term
    m=re.match(r'v(\d+)$',s)
    return m.group(1) if m else s
def wholeop(s):
    """vector operand: returns (kind, lean)"""
    s=s.strip()
    m=re.match(r'\\?(\w+)\.?(4S|2S|2D)$',s)
    if m: return '(.v %s)'%vreg(m.group(1)), m.group(2)
    m=re.match(r'\\?(\w+)\.S\[\\?(\w+)\]$',s)
    if m: return '(.e %s %s)'%(vreg(m.group(1)),m.group(2)), 'e'
    raise Exception('operand '+s)
def dst(s):
    m=re.match(r'\\?(\w+)\.(4S|2S|2D)$',s); 
    if not m: raise Exception('dst '+s)
    return vreg(m.group(1)),m.group(2)
def gp(c,s):
    s=s.strip(); s=c.get(s,s)
    m=re.match(r'[xw](\d+)$',s)
    if not m: raise Exception('gp '+s)
    return m.group(1)
def imm(s):
    e=s.strip().lstrip('#')
    return eval(e)
def dw(s):
    v=imm(s); assert v%4==0; return v//4
def xlate(s,c):
    """list of lean instrs for one instruction; c: .req map"""
    op,_,rest=s.partition(' '); a=args(rest)
    if op in('ld1','ld2','ld4','st1','st4'):
        regs=[vreg(re.match(r'(\w+)\.4S$',r.strip()).group(1)) for r in a[0].strip('{} ').split(',')]
        ptr=gp(c,a[1].strip('[]')); r=[]
        if op=='ld1':
            for i,g in enumerate(regs): r.append('.ldn 1 %d %s %s'%(4*i,g,ptr))
        elif op in('ld2','ld4'):
            n=int(op[2]); assert len(regs)==n
            for i,g in enumerate(regs): r.append('.ldn %d %d %s %s'%(n,i,g,ptr))
        elif op=='st1':
            for i,g in enumerate(regs): r.append('.st %s %s %d'%(g,ptr,4*i))
        else:
            assert len(regs)==4 and [int(x) for x in regs]==list(range(int(regs[0]),int(regs[0])+4))
            for j in range(4): r.append('.st4row %d %s %s'%(j,regs[0],ptr))
        if len(a)>2: r.append('.addx %s %s %d'%(ptr,ptr,dw(a[2])))
        return r
    if op=='add' and '4S' not in rest:
        return ['.addx %s %s %d'%(gp(c,a[0]),gp(c,a[1]),dw(a[2]))]
    if op=='mov':
        m=re.match(r'v(\d+)\.S\[(\d)\]$',a[0])
        if m: return ['.insS %s %s %s'%(m.group(1),m.group(2),gp(c,a[1]))]
        m=re.match(r'v(\d+)\.D\[0\]$',a[0])
        if m: return ['.insD0 %s %s'%(m.group(1),gp(c,a[1]))]
        if a[1].startswith('#'):
            return ['.movw %s %d'%(gp(c,a[0]),imm(a[1]))]
        return ['.addx %s %s 0'%(gp(c,a[0]),gp(c,a[1]))]
    if op=='ldr':
        full=c.get(a[0],a[0])
        m=re.match(r'\[(\w+)(?:,\s*(#\d+))?\]$',a[1])
        off=dw(m.group(2)) if m.group(2) else 0
        r=[('.ldrw' if full[0]=='w' else '.ldrx')+' %s %s %d'%(gp(c,a[0]),gp(c,m.group(1)),off)]
        if len(a)>2: r.append('.addx %s %s %d'%(gp(c,m.group(1)),gp(c,m.group(1)),dw(a[2])))
        return r
    if op=='str':
        m=re.match(r'\[(\w+)\]$',a[1])
        return ['.strw %s %s'%(gp(c,a[0]),gp(c,m.group(1))),'.addx %s %s %d'%(gp(c,m.group(1)),gp(c,m.group(1)),dw(a[2]))]
    if op=='ubfx': return ['.ubfx %s %s %d %d'%(gp(c,a[0]),gp(c,a[1]),imm(a[2]),imm(a[3]))]
    if op=='lsr': return ['.lsrw %s %s %d'%(gp(c,a[0]),gp(c,a[1]),imm(a[2]))]
    if op=='lsl': return ['.lslw %s %s %d'%(gp(c,a[0]),gp(c,a[1]),imm(a[2]))]
    if op=='orr': return ['.orrw %s %s %s'%tuple(gp(c,x) for x in a)]
    if op=='neg': return ['.negw %s %s'%(gp(c,a[0]),gp(c,a[1]))]
    if op=='dup':
        d,_=dst(a[0]); return ['.dup %s %s'%(d,gp(c,a[1]))]
    if op in('mul','mla','mls','sqrdmulh'):
        d,t=dst(a[0]); n,t2=dst(a[1]); m,_=wholeop(a[2]); assert t==t2=='4S'
        return ['.%s %s %s %s'%(op,d,n,m)]
    if op in('add','sub','cmge','uzp1','uzp2'):
        d,t=dst(a[0]); n,t2=dst(a[1]); m,t3=dst(a[2]); assert t==t2==t3=='4S'
        return ['.%s %s %s %s'%(op,d,n,m)]
    if op in('trn1','trn2'):
        d,t=dst(a[0]); n,t2=dst(a[1]); m,t3=dst(a[2]); assert t==t2==t3
        return ['.%s%s %s %s %s'%(op,{'4S':'s','2D':'d'}[t],d,n,m)]
    if op in('srshr','sshr','shl'):
        d,t=dst(a[0]); n,t2=dst(a[1]); assert t==t2=='4S'
        return ['.%s %s %s %d'%(op,d,n,imm(a[2]))]
    if op in('smull','smull2','smlal','smlal2','smlsl','smlsl2'):
        d,t=dst(a[0]); n,t2=dst(a[1]); m,t3=dst(a[2])
        assert t=='2D' and t2==t3==('4S' if op[-1]=='2' else '2S'),s
        return ['.%s %s %s %s'%(op,d,n,m)]
    raise Exception('unknown '+s)
used=[]
done=set()
def emit_macro(name):
    if name in done: return
    done.add(name)
    n,ps,fn,l0,l1,body=macros[name]
    segs=[]
    gps=[p for p in ps if p not in('wX','nX','lX','dwX','qS','dD')]
    cur=[]
    for s in body:
        for k,v in (('wX','.4S'),('nX','.S'),('lX','.2S'),('dwX','.2D'),('qS','.4S'),('dD','.2D')): s=s.replace('\\'+k,v)
        s2=s.replace('\\','')
        op=s2.split()[0]
        if op in macros:
            emit_macro(op)
            a=[x for x in args(s2.partition(' ')[2]) if not x.startswith('.')]
            if cur: segs.append(cur); cur=[]
            segs.append('%s %s'%(op,' '.join(vreg(x) for x in a)))
        else:
            cur+=xlate(re.sub(r'\s+',' ',s2),{})
    if cur: segs.append(cur)
    out.append('/-- Macro `%s` (%s:%d-%d). -/'%(n,fn,l0,l1))
    txt=' ++\n  '.join(x if isinstance(x,str) else '['+',\n   '.join(x)+']' for x in segs)
    usedps=[p if re.search(r'\b%s\b'%p,txt) else '_'+p for p in gps]
    out.append('def %s (%s : Nat) : List Instr :=\n  %s\n'%(n,' '.join(usedps),txt))
LBL={}
LPAR=4; PRE='PQCLEAN_DILITHIUM2_AARCH64_'
def routine(fn,sym,lean,doc):
    L=open(D+fn).read().split('\n')
    i0=next(i for i,l in enumerate(L) if l.strip()==PRE+sym+':')
    i1=next(i for i in range(i0,len(L)) if L[i].strip()=='br lr')
    c={}; segs=[]; cur=[]; stack=[]; skip=[]
    def flush():
        nonlocal cur
        if cur: segs.append('['+',\n   '.join(cur)+']'); cur=[]
    for i in range(i0+2,i1):
        s=strip(L[i])
        if not s: continue
        m=re.match(r'#if L > (\d)',s)
        if m: skip.append(not (LPAR>int(m.group(1)))); continue
        if s=='#endif': skip.pop(); continue
        if any(skip): continue
        m=re.match(r'(\w+)\s+\.req\s+(\w+)',s)
        if m: c[m.group(1)]=m.group(2); continue
        if s.startswith('.unreq'): continue
        s=re.sub(r'\s+',' ',s)
        if s in SKIP: continue
        m=re.match(r'mov (\w+), #(\d+)$',s)
        if m and strip(L[i+1]).endswith(':'):
            stack.append((m.group(1),int(m.group(2)),segs,cur)); 
            flush(); stack[-1]=(m.group(1),int(m.group(2)),segs); segs=[]; continue
        if s.endswith(':'): continue
        m=re.match(r'sub (\w+), (\w+), #1$',s)
        if m and stack and m.group(1)==stack[-1][0]==m.group(2): continue
        m=re.match(r'cbnz (\w+), ',s)
        if m:
            assert m.group(1)==stack[-1][0]
            flush(); body=segs; _,cnt,segs=stack.pop()
            bl=[]
            name='%s_body'%lean
            out.append('/-- The loop body of `%s` (%s:%d-%d). -/\ndef %s : List Instr :=\n  %s\n'%(sym,fn,i0+1,i+1,name,' ++\n  '.join(body)))
            segs.append('loop %d %s'%(cnt,name)); continue
        op=s.split()[0]
        if op in macros:
            emit_macro(op); flush()
            segs.append('%s %s'%(op,' '.join(vreg(x) for x in args(s.partition(' ')[2])))); continue
        cur+=xlate(s,c)
    flush()
    if LPAR>4:
        assert len(segs)==3
        for k,suf,wh in((0,'pre','before'),(2,'post','after')):
            out.append('/-- What comes %s the loop of `%s` (%s:%d-%d). -/\ndef %s_%s : List Instr :=\n  %s\n'%(wh,sym,fn,i0+1,i1+1,lean,suf,segs[k]))
            segs[k]='%s_%s'%(lean,suf)
    out.append('/-- `%s` (%s:%d-%d). %s -/\ndef %s : List Instr :=\n  %s\n'%(sym,fn,i0+1,i1+1,doc,lean,' ++\n  '.join(segs)))
routine('__asm_NTT.S','asm_ntt_SIMD_top','nttTop','`x0` the polynomial, `x1` the table, `x2` the constants.')
routine('__asm_NTT.S','asm_ntt_SIMD_bot','nttBot','Arguments as before.')
routine('__asm_iNTT.S','asm_intt_SIMD_bot','inttBot','Arguments as before.')
routine('__asm_iNTT.S','asm_intt_SIMD_top','inttTop','Arguments as before.')
routine('__asm_poly.S','asm_10_to_32','unpack10','`x0` the polynomial, `x1` the packed bytes.')
routine('__asm_poly.S','asm_poly_reduce','polyReduceAsm','`x0` the polynomial, `x1` the constants.')
routine('__asm_poly.S','asm_poly_caddq','polyCaddqAsm','`x0` the polynomial, `x1` the constants.')
routine('__asm_poly.S','asm_poly_freeze','polyFreezeAsm','`x0` the polynomial, `x1` the constants.')
routine('__asm_poly.S','asm_poly_power2round','polyPower2roundAsm','`x0`, `x1` the outputs, `x2` the input.')
routine('__asm_poly.S','asm_poly_pointwise_montgomery','polyPointwiseAsm','`x0` the output, `x1`, `x2` the inputs, `x3` the constants.')
routine('__asm_poly.S','asm_polyvecl_pointwise_acc_montgomery','pointwiseAccAsm','`x0` the output, `x1`, `x2` the inputs, `x3` the constants; `L = 4`.')
H=open(D+'ntt.h').read()
hl=H.split('\n')
def table(cname,lean):
    i=next(i for i,l in enumerate(hl) if cname in l and l.startswith('static'))
    nums=[int(x) for x in re.findall(r'-?\d+',hl[i+1])]
    assert len(nums)==546
    out.append('/-- `%s` (ntt.h:%d-%d). -/\ndef %s : List Int := [\n  %s]\n'%(cname,i+1,i+3,lean,',\n  '.join(', '.join(map(str,nums[k:k+16])) for k in range(0,546,16))))
table('streamlined_CT_negacyclic_table_Q1_extended','ctTable')
table('streamlined_inv_CT_table_Q1_extended','invTable')
i=next(i for i,l in enumerate(hl) if 'static const int constants[16]' in l)
defs=dict(re.findall(r'#define (\w+) \(?(-?\d+)\)?\s*$',open(D+'NTT_params.h').read(),re.M))
exprs=[x.strip() for x in re.search(r'constants\[16\] = \{(.*?)\}',H,re.S).group(1).split(',')]
vals=[]
for e in exprs:
    neg=e.startswith('-'); v=int(defs[e.lstrip('-')]); vals.append(-v if neg else v)
vals+= [0]*(16-len(vals))
out.append('/-- `constants` (ntt.h:%d-%d, NTT_params.h). -/\ndef nttConstants : List Int := %s\n'%(i+1,i+6,vals))
pre='''import Verif.Neon.Simd

/-!
# The assembly of pqclean/crypto_sign/dilithium2/aarch64: __asm_NTT.S, __asm_iNTT.S, __asm_poly.S, macros.inc, macros_common.inc, ntt.h

Generated by tools/gen_neon_asm.py, macro by macro, one or more `Instr` per instruction (structure loads and stores are split into their registers or
rows, post-increments into `addx`).  `push_all`, `pop_all` (saving callee-saved registers on the stack) and the return are left out.
-/

namespace Verif.Neon

'''
open('/verif/lean/Verif/Neon/Asm.lean','w').write(pre+'\n'.join(out)+'\nend Verif.Neon\n')

out=[]
for mode,LPAR in ((3,5),(5,7)):
    D='/repo/pqcrypto/pqclean/crypto_sign/dilithium%d/aarch64/'%mode; PRE='PQCLEAN_DILITHIUM%d_AARCH64_'%mode
    routine('__asm_poly.S','asm_polyvecl_pointwise_acc_montgomery','pointwiseAccAsm%d'%LPAR,'dilithium%d: `L = %d`.'%(mode,LPAR))
pre='''import Verif.Neon.Simd

/-!
# asm_polyvecl_pointwise_acc_montgomery of dilithium3/aarch64 and dilithium5/aarch64

Generated by tools/gen_neon_asm.py.  All other assembly of the two is, byte for byte up to the names, that of dilithium2 (`Asm.lean`); this routine too, but it
is assembled with `L = 5` and `L = 7`.
-/

namespace Verif.Neon

'''
open('/verif/lean/Verif/Neon35/Asm.lean','w').write(pre+'\n'.join(out)+'\nend Verif.Neon\n')
