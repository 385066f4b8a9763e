#!/usr/bin/env python3
"""Extracts the code tables (enum + From<uN> + Display) of the crate from the Rust text in /repo and
writes them as Lean modules. The Lean text is committed; this script is only how it was produced."""
import re,sys,os
ROOT='/repo/src/'
OUT='/verif/lean/Verif/Model/Enums.lean'
FILES=[('lib.rs',''),
('structures/001_system.rs','system'),('structures/002_baseboard.rs','baseboard'),
('structures/003_enclosure.rs','enclosure'),('structures/004_processor.rs','processor'),
('structures/007_cache.rs','cache'),('structures/008_port_connector.rs','port_connector'),
('structures/009_system_slots.rs','system_slots'),
('structures/015_system_event_log/mod.rs','system_event_log'),
('structures/015_system_event_log/log_record_format.rs','system_event_log'),
('structures/016_physical_memory_array.rs','physical_memory_array'),
('structures/017_memory_device.rs','memory_device'),
('structures/018_memory_error_32.rs','memory_error_32'),
('structures/021_built_in_pointing_device.rs','built_in_pointing_device')]
RENAME={('memory_device','Type'):'MemoryType',('built_in_pointing_device','Type'):'DeviceType'}
SKIP={'Voltage','CacheConfiguration','CacheSize','CacheSize2','SlotCharacteristics1','SlotCharacteristics2',
'DeviceAndFunctionNumber','SlotPitch','ContainedElementType','LogStatus','PostResults','SmbiosVersion','SystemManagementType','VariableDataFormatType'}
BITS={'u8':8,'u16':16,'u32':32}
def strip(t):
    t=re.sub(r'//[^\n]*',lambda m:' '*len(m.group(0)),t)
    return t
def body(t,i):
    j=t.index('{',i); d=0; k=j; ins=False
    while True:
        c=t[k]
        if ins:
            if c=='\\': k+=1
            elif c=='"': ins=False
        else:
            if c=='"': ins=True
            elif c=='{': d+=1
            elif c=='}':
                d-=1
                if d==0: return j,k
        k+=1
def line(t,i): return t.count('\n',0,i)+1
def arms(b):
    """split match body into (pattern, expr)"""
    res=[];i=0;n=len(b)
    while True:
        m=re.compile(r'\s*').match(b,i); i=m.end()
        if i>=n: break
        j=b.index('=>',i); pat=b[i:j].strip(); i=j+2
        m=re.compile(r'\s*').match(b,i); i=m.end()
        # expression until top-level comma
        d=0;ins=False;k=i
        while k<n:
            c=b[k]
            if ins:
                if c=='\\': k+=1
                elif c=='"': ins=False
            elif c=='"': ins=True
            elif c in '({[': d+=1
            elif c in ')}]':
                d-=1
                if d==0 and c=='}' : k+=1; break
            elif c==',' and d==0: break
            k+=1
        expr=b[i:k].strip(); i=k
        m=re.compile(r'\s*,?').match(b,i); i=m.end()
        res.append((pat,expr))
    return res
def lit(s): return int(s.replace('_',''),0)
def leanstr(s):
    # rust string literal content -> lean literal
    s=re.sub(r'\\\n\s*','',s)
    return '"'+s.replace('\n','\\n')+'"'
out=[]
out.append('''import Verif.Basic
/-!
# Code tables

Every enumeration of the crate that is decoded from an integer code by a `match`, with its
decoding function (`ofU8`, `ofU16`, `ofU32` for `From<u8>`, `From<u16>`, `From<u32>`).
The arms are in source order; a Rust `match` takes the first matching arm, as does the
`if` chain here. Generated from the Rust text by `tools/gen_enums.py`.
Two types called `Type` in Rust are renamed (`memory_device::Type` → `MemoryType`,
`built_in_pointing_device::Type` → `DeviceType`) because `Type` is a Lean keyword.
-/
set_option linter.unusedVariables false
namespace Dmi
''')
tables=[]
for f,mod in FILES:
    t=open(ROOT+f).read(); s=strip(t)
    cut=s.find('#[cfg(test)]')
    cut2=s.find('mod tests')
    for m in re.finditer(r'impl From<(u8|u16|u32)> for (\w+) \{',s):
        ty,name=m.group(1),m.group(2)
        if name in SKIP: continue
        a,b=body(s,m.start())
        mm=re.search(r'match (\w+) \{',s[a:b])
        if not mm:
            if name=='ProcessorFamily': continue
            print('no match',f,name); continue
        ma,mb=body(s,a+mm.start())
        ar=arms(s[ma+1:mb])
        # enum
        e=re.search(r'pub enum '+name+r' \{',s)
        ea,eb=body(s,e.start())
        vs=[]
        eb_txt=re.sub(r'#\[[^\]]*\]','',s[ea+1:eb])
        for v in eb_txt.split(','):
            v=v.strip()
            if not v: continue
            q=re.match(r'(\w+)(?:\((\w+)\))?$',v)
            if not q: print('bad variant',name,v); continue
            vs.append((q.group(1),q.group(2)))
        if re.search(r'\(',eb_txt) and any('{' in v[0] for v in vs): print('struct variant',name)
        ln=RENAME.get((mod,name),name)
        full=(mod+'.' if mod else '')+ln
        u={'u8':'UInt8','u16':'UInt16','u32':'UInt32','u64':'UInt64'}
        out.append(f'/-- `{name}`, `src/{f}` {line(t,e.start())}-{line(t,eb)}. -/')
        out.append(f'inductive {full} where')
        for v,arg in vs:
            out.append(f'  | {v}'+(f' (v : {u[arg]})' if arg else ''))
        out.append('deriving DecidableEq, Repr\n')
        fn={'u8':'ofU8','u16':'ofU16','u32':'ofU32'}[ty]
        out.append(f'/-- `impl From<{ty}> for {name}`, `src/{f}` {line(t,m.start())}-{line(t,b)}. -/')
        # faulty default?
        faulty=any('unreachable!' in x for _,x in ar)
        rty=f'Res ε {full}' if faulty else full
        eps='{ε : Type} ' if faulty else ''
        out.append(f'def {full}.{fn} {eps}(b : {u[ty]}) : {rty} :=')
        out.append('  let n := b.toNat')
        def ex(x,binder):
            if 'unreachable!' in x: return '.panic'
            q=re.match(r'(?:Self|'+name+r')::(\w+)(?:\((.*)\))?$',x,re.S)
            if not q: raise Exception((name,x))
            r='.'+q.group(1)
            if q.group(2):
                arg=q.group(2).strip()
                variant_ty=dict(vs)[q.group(1)]
                if arg==binder:
                    av='b' if u[variant_ty]==u[ty] else None
                elif re.match(r'^0x[0-9A-Fa-f]+$',arg): av=arg
                else: raise Exception((name,x,arg))
                if av is None: raise Exception((name,x))
                r=f'{r} {av}'
            if faulty: r=f'.ok {r}' if ' ' not in r else f'.ok ({r})'
            return r
        done=False
        chain=[]
        for pat,x in ar:
            binder=mm.group(1)
            q=re.match(r'(\w+) @ (.*)$',pat,re.S)
            p=pat
            if q: binder=q.group(1); p=q.group(2).strip()
            if re.match(r'^[a-z_]\w*$',p) and not p.startswith('0x'):
                if p!='_': binder=p
                chain.append((None,ex(x,binder))); done=True; break
            conds=[]
            pp=p.strip()
            if pp.startswith('(') and pp.endswith(')'): pp=pp[1:-1]
            for alt in pp.split('|'):
                alt=alt.strip()
                r=re.match(r'(\w+)\.\.=(\w+)$',alt)
                if r: conds.append(f'({r.group(1)} ≤ n ∧ n ≤ {r.group(2)})')
                elif re.match(r'^[0-9]\w*$',alt): conds.append(f'n = {alt}')
                else: raise Exception((name,pat))
            if len(conds)==1 and conds[0].startswith('('): conds[0]=conds[0][1:-1]
            chain.append((' ∨ '.join(conds),ex(x,binder)))
        CH=64
        def emit(part,lastpart,tailname):
            for i,(c,r) in enumerate(part):
                last=lastpart and i==len(part)-1
                pre='  else ' if i>0 else '  '
                if c is None: out.append(f'  else {r}')
                elif last:
                    # exhaustive match without wildcard: last arm is unconditional
                    out.append(f'  else {r} -- last arm of an exhaustive match: {c}')
                else: out.append(f'{pre}if {c} then {r}')
            if not lastpart: out.append(f'  else {tailname} b')
        if len(chain)<=100: emit(chain,True,None)
        else:
            # long chains are cut into consecutive pieces, last piece first
            head=out[-3:]; del out[-3:]
            parts=[chain[i:i+CH] for i in range(0,len(chain),CH)]
            for k in range(len(parts)-1,-1,-1):
                nm=f'{full}.{fn}'+(f'_{k}' if k else '')
                if k:
                    out.append(f'/-- Arms {k*CH+1} onwards of `{full}.{fn}`. -/')
                    out.append(f'def {nm} (b : {u[ty]}) : {rty} :=')
                    out.append('  let n := b.toNat')
                else: out.extend(head)
                emit(parts[k],k==len(parts)-1,f'{full}.{fn}_{k+1}')
                if k: out.append('')
        out.append('')
        tables.append((full,fn,ty,faulty,vs))
out.append('end Dmi')
open(OUT,'w').write('\n'.join(out)+'\n')
for x in tables: print(x[0],x[1],x[3],len(x[4]))
