#!/usr/bin/env python3
"""Extracts the `Display` implementations that are a single `match` over the variants of a code
enumeration from the Rust text in /repo and writes them as a Lean module. The Lean text is
committed; this script is only how it was produced."""
import re
exec(open('/verif/tools/gen_enums.py').read().split("out=[]")[0])
OUT='/verif/lean/Verif/Model/DisplayCodes.lean'
FILES=FILES+[('structures/022_portable_battery.rs','portable_battery')]
HAND={'MalformedStructureError','InvalidEntryPointError','Voltage','ContainedElementType','VariableDataFormatType','AccessMethod',
'ManufactureDate','SerialNumber'}
def rust_str(s):
    s=re.sub(r'\\\n\s*','',s)
    return s.replace('\\"','"')
def lean_str(s): return '"'+s.replace('\\','\\\\').replace('"','\\"')+'"'
SPEC={'':'dec','X':'hexUpper','04X':'zeroPad 4 (hexUpper'}
def fmt(s,names):
    """a format string as a Lean term"""
    parts=[]; i=0; s=rust_str(s)
    for m in re.finditer(r'\{(\w+)(?::([^}]*))?\}',s):
        if m.start()>i: parts.append('txt! '+lean_str(s[i:m.start()]))
        v,sp=m.group(1),m.group(2) or ''
        e=v if names.get(v)=='str' else None
        if e: parts.append(f'str {v}')
        elif sp=='': parts.append(f'dec {v}.toNat')
        elif sp=='X': parts.append(f'hexUpper {v}.toNat')
        elif sp=='#X': parts+=['txt! "0x"',f'hexUpper {v}.toNat']
        elif sp=='04X': parts.append(f'zeroPad 4 (hexUpper {v}.toNat)')
        else: raise Exception(sp)
        i=m.end()
    if i<len(s): parts.append('txt! '+lean_str(s[i:]))
    return ' ++ '.join(parts)
out=['''import Verif.Model.Fmt
import Verif.Model.S015
import Verif.Model.S022
/-!
# `Display` of the code enumerations

One function per `impl fmt::Display` that is a `match` over the variants of an enumeration; the
arms are in source order. `alt` is `f.alternate()` (`{:#}`). Generated from the Rust text by
`tools/gen_display.py`.
-/
set_option linter.unusedVariables false
namespace Dmi
open Fmt
''']
for f,mod in FILES:
    t=open(ROOT+f).read(); c=t.find('mod tests'); t=t[:c] if c>0 else t
    s=strip(t)
    # comments inside strings would break `strip`
    for m in re.finditer(r"impl fmt::Display for (\w+)(?:<'_>)? \{",s):
        name=m.group(1)
        if name in HAND: continue
        a,b=body(s,m.start())
        mm=re.search(r'match ([^{]+) \{',s[a:b])
        if not mm: continue
        ma,mb=body(s,a+mm.start())
        tup='alternate' in mm.group(1)
        ln=RENAME.get((mod,name),name)
        full=(mod+'.' if mod else '')+ln
        ar=arms(s[ma+1:mb])
        usesalt=tup or any('is_alt' in x for _,x in ar)
        out.append(f'/-- `impl fmt::Display for {name}`, `src/{f}` {line(t,m.start())}-{line(t,b)}. -/')
        sig=f'Bool → {full} → Text' if tup else (f'(alt : Bool) : {full} → Text' if usesalt else f'{full} → Text')
        out.append(f'def {full}.display '+(sig if usesalt and not tup else ': '+sig))
        for p,x in ar:
            al=''
            if tup:
                q=re.match(r'\(\s*(true|false|_),\s*(.*?),?\s*\)$',p,re.S); al=q.group(1)+', '; p=q.group(2)
            q=re.match(r'(?:Self|'+name+r')::(\w+)(?:\((\w+)\))?$',p)
            if not q: raise Exception((name,p))
            pat='.'+q.group(1)+(' '+q.group(2) if q.group(2) else '')
            names={}
            if q.group(1)=='SmartBatteryDataSpecification': names[q.group(2)]='str'
            ws=re.findall(r'write!\(\s*f,\s*"((?:[^"\\]|\\.|\\\n)*)"\s*,?\s*\)',x,re.S)
            if 'is_alt' in x:
                assert len(ws)==2 and re.match(r'\{\s*if is_alt',x)
                r=f'if alt then {fmt(ws[0],names)}\n    else {fmt(ws[1],names)}'
            else:
                assert len(ws)==1,(name,p,x)
                r=fmt(ws[0],names)
            l=f'  | {al}{pat} => {r}'
            if len(l)>100 and '\n' not in l: l=f'  | {al}{pat} =>\n    {r}'
            out.append(l)
        out.append('')
out.append('end Dmi')
open(OUT,'w').write('\n'.join(out)+'\n')
