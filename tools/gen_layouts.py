#!/usr/bin/env python3
"""Extracts the `layout!` invocations of the crate from the Rust text in /repo and writes them as a
Lean module. The Lean text is committed; this script is only how it was produced."""
import re
ROOT='/repo/src/structures/'
FILES=[('000_bios.rs','bios'),('009_system_slots.rs','system_slots'),('013_bios_language.rs','bios_language'),
('015_system_event_log/mod.rs','system_event_log'),('015_system_event_log/log_record_format.rs','system_event_log')]
out=['''import Verif.Model.Bitfield
/-!
# Bit field layouts

Every `layout!` invocation of the crate, in source order of the entries. Generated from the Rust text
by `tools/gen_layouts.py`.
-/
namespace Dmi
open bitfield (LayoutItem Layout layout)
open bitfield.LayoutItem (sig res)
''']
names=[]
def lit(s):
    s=re.sub(r'\\\n\s*','',s)          # line continuation
    return '"'+s+'"'                    # the escape \\" is the same in Lean
for f,mod in FILES:
    t=open(ROOT+f).read()
    for m in re.finditer(r'impl BitField<\'_> for (\w+) \{',t):
        name=m.group(1)
        i=t.index('layout!(',m.start()); 
        size=re.search(r'type Size = (u\d+);',t[m.start():i]).group(1)
        j=i+len('layout!(')
        toks=[];k=j
        while True:
            c=t[k]
            if c==')': break
            if c=='"':
                e=k+1
                while t[e]!='"':
                    if t[e]=='\\': e+=1
                    e+=1
                toks.append(('s',t[k+1:e])); k=e+1
            elif c.isspace(): k+=1
            elif c in ',;:=': toks.append((c,c)); k+=1
            else:
                mm=re.match(r'\w+',t[k:]); toks.append(('w',mm.group(0))); k+=len(mm.group(0))
        assert toks[0]==('w','length') and toks[1][0]=='=' and toks[3][0]==';'
        ln=int(toks[2][1]); toks=toks[4:]
        items=[];k=0
        while k<len(toks):
            assert toks[k][0]=='s'
            a=toks[k][1]
            if toks[k+1][0]==':':
                items.append(f'res {lit(a)} {int(toks[k+2][1])}'); assert toks[k+3][0]==','; k+=4
            elif toks[k+1][0]=='s':
                items.append(f'sig {lit(a)} {lit(toks[k+1][1])}'); assert toks[k+2][0]==','; k+=3
            else:
                assert toks[k+1][0]==','
                items.append(f'sig {lit(a)} {lit(a)}'); k+=2
        la=t.count('\n',0,i)+1; lb=t.count('\n',0,t.index(');',i))+1
        out.append(f'/-- `{name}::LAYOUT` (`type Size = {size}`), `src/structures/{f}` {la}-{lb}. -/')
        out.append(f'def {mod}.{name}.LAYOUT : Layout := layout {ln} [')
        out.append(',\n'.join('  '+x for x in items)+']\n')
        names.append((mod,name,size,ln))
out.append('end Dmi')
open('/verif/lean/Verif/Model/Layouts.lean','w').write('\n'.join(out)+'\n')
print(names)
