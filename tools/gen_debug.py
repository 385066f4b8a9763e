#!/usr/bin/env python3
"""Writes Model/Debug.lean (what the derived `Debug` of each type tells the formatter) from the Rust text in
/repo, and Proofs/DebugTypes.lean (that it determines the value). The types of the model are read from the
Lean text; names of types, variants and fields are those of the Rust text. The Lean text is committed; this
script is only how it was produced."""
import re,glob,os
ROOT='/repo/src/'; LEAN='/verif/lean/Verif/'
RUST={'':'lib.rs','bios':'structures/000_bios.rs','system':'structures/001_system.rs',
'baseboard':'structures/002_baseboard.rs','enclosure':'structures/003_enclosure.rs',
'processor':'structures/004_processor.rs','cache':'structures/007_cache.rs',
'port_connector':'structures/008_port_connector.rs','system_slots':'structures/009_system_slots.rs',
'oem_strings':'structures/011_oem_strings.rs',
'system_configuration_options':'structures/012_system_configuration_options.rs',
'bios_language':'structures/013_bios_language.rs','group_associations':'structures/014_group_associations.rs',
'system_event_log':['structures/015_system_event_log/mod.rs','structures/015_system_event_log/log_record_format.rs'],
'physical_memory_array':'structures/016_physical_memory_array.rs','memory_device':'structures/017_memory_device.rs',
'memory_error_32':'structures/018_memory_error_32.rs',
'memory_array_mapped_address':'structures/019_memory_array_mapped_address.rs',
'memory_device_mapped_address':'structures/020_memory_device_mapped_address.rs',
'built_in_pointing_device':'structures/021_built_in_pointing_device.rs',
'portable_battery':'structures/022_portable_battery.rs'}
RENAME={'memory_device.MemoryType':'Type','built_in_pointing_device.DeviceType':'Type'}
ROOTS=['EntryPoint','InvalidEntryPointError','MalformedStructureError','Structures','Structure',
'enclosure.ContainedElement','system_slots.Device','group_associations.GroupItem',
'system_event_log.EventLogTypeDescriptor','memory_device.ErrorGranularity','memory_device.ErrorOperation',
'memory_device.ErrorType']

# the types of the model
T={}
for p in [LEAN+'Model/Lib.lean',LEAN+'Model/Enums.lean',LEAN+'Model/Dispatch.lean']+sorted(glob.glob(LEAN+'Model/S0*.lean')):
    ns=[]; cur=None
    for l in open(p).read().split('\n'):
        m=re.match(r'namespace (\S+)',l)
        if m: ns.append(m.group(1)); cur=None; continue
        m=re.match(r'end (\S+)$',l)
        if m and ns and ns[-1]==m.group(1): ns.pop(); cur=None; continue
        m=re.match(r'(structure|inductive) (\S+) where',l)
        if m:
            full='.'.join(ns+[m.group(2)]); assert full.startswith('Dmi.'); full=full[4:]
            space='.'.join(ns)[4:]
            if '.' in m.group(2): space='.'.join(full.split('.')[:-1])
            cur=T[full]={'kind':m.group(1),'space':space,'items':[]}; continue
        if cur is not None:
            if not l.startswith('  '): cur=None; continue
            s=l.strip()
            if s.startswith('/--') or not s: continue
            if cur['kind']=='structure':
                m=re.match(r'(\w+) : (.*?)(?: := .*)?$',s)
                if m: cur['items'].append((m.group(1),m.group(2)))
            else:
                m=re.match(r'\| (\w+)(.*)$',s)
                if m:
                    args=[]
                    for names,t in re.findall(r'\(([^:()]*) : ([^()]*)\)',m.group(2)):
                        args+=[(n,t) for n in names.split()]
                    cur['items'].append((m.group(1),args))
def resolve(t,space):
    t=t.strip()
    if t.startswith('Dmi.'): return t[4:]
    parts=space.split('.') if space else []
    for k in range(len(parts),-1,-1):
        c='.'.join(parts[:k]+[t])
        if c in T: return c
    raise KeyError((t,space))

# the types of the crate
def strip(t):
    return re.sub(r'//[^\n]*',lambda m:' '*len(m.group(0)),t)
def body(t,i,o='{',c='}'):
    d=0;k=i
    while True:
        if t[k]==o: d+=1
        elif t[k]==c:
            d-=1
            if d==0: return k
        k+=1
def split(b):
    r=[];d=0;cur=''
    for c in b:
        if c in '({[<': d+=1
        elif c in ')}]>': d-=1
        if c==',' and d==0: r.append(cur); cur=''
        else: cur+=c
    if cur.strip(): r.append(cur)
    return [re.sub(r'#\[[^\]]*\]','',x).strip() for x in r if x.strip()]
def field(x):
    n,t=re.match(r'(?:pub(?:\(crate\))? )?(?:r#)?(\w+)\s*:\s*(.*)$',x,re.S).groups()
    return n,re.sub(r'\s+',' ',t)
def rust(full):
    ns='.'.join(full.split('.')[:-1]); nm=RENAME.get(full,full.split('.')[-1])
    fs=RUST[ns]; fs=fs if isinstance(fs,list) else [fs]
    for f in fs:
        t=strip(open(ROOT+f).read())
        m=re.search(r'((?:#\[[^\n]*\]\s*)*)pub (struct|enum) '+nm+r'\b(?:<[^>]*>)?\s*(:\s*(u\d+)\s*)?(?=[{(])',t)
        if m: break
    else: raise KeyError(full)
    i=m.end(); line=lambda k:t.count('\n',0,k)+1
    assert re.search(r'derive\([^)]*\bDebug\b',m.group(1)),full
    a=m.start(2)
    if t[i]=='(':
        j=body(t,i,'(',')'); r=('tuple',[(None,re.sub(r'^pub ','',x)) for x in split(t[i+1:j])])
    else:
        j=body(t,i); b=t[i+1:j]
        if m.group(3):
            r=('flags',[(n,int(v.replace('_',''),0)) for n,v in re.findall(r'const (\w+)\s*=\s*(\w+);',b)])
        elif m.group(2)=='struct': r=('struct',[field(x) for x in split(b)])
        else:
            vs=[]
            for x in split(b):
                n=re.match(r'\w+',x).group(0); y=x[len(n):].strip()
                if not y: vs.append((n,None,[]))
                elif y[0]=='(': vs.append((n,'tuple',[(None,z) for z in split(y[1:-1])]))
                else: vs.append((n,'struct',[field(z) for z in split(y[1:-1])]))
            r=('enum',vs)
    return nm,f,line(a),line(j),r
PRIM={'UInt8':('u8','good_u8'),'UInt16':('u16','good_u16'),'UInt32':('u32','good_u32'),'UInt64':('u64','good_u64')}
def norm(t):
    t=re.sub(r"&'\w+ ",'&',t); t=re.sub(r"<'\w+(, )?",'<',t); t=t.replace('<>','')
    return t
def shown(t,space,rt):
    """(function without argument, applied to {x}, proof of Good)"""
    rt=norm(rt)
    if t in PRIM: assert rt==PRIM[t][0],(t,rt); return f'.num {{x}}.toNat',PRIM[t][1]
    if t=='Nat': assert rt=='usize',rt; return '.num {x}','good_num'
    if t=='Bool': assert rt=='bool',rt; return '.bool {x}','good_bool'
    if t=='Str': assert rt=='&str',rt; return '.str {x}','good_str'
    if t=='String': assert rt=='&str',rt; return '.str {x}.toByteArray.data.toList','good_string'
    if t=='Bytes': assert rt=='&[u8]' or re.match(r'\[u8; \d+\]$',rt),rt; return '.bytes {x}','good_bytes'
    if t=='Uuid': assert rt=='uuid::Uuid',rt; return '.uuid {x}','good_uuid'
    if t=='Chunks': assert rt=='Chunks<u8>',rt; return '{x}.dbg','good_chunks'
    if t.startswith('Option '):
        m=re.match(r'Option<(.*)>$',rt); assert m,(t,rt)
        s,g=shown(t[7:],space,m.group(1))
        h=s.replace('{x}','y')
        ty={'Str':'Str','Uuid':'Uuid'}.get(t[7:],t[7:])
        f='.str' if s=='.str {x}' else '.uuid' if s=='.uuid {x}' else None
        if f is None: f='(fun y => '+h+')' if not h.endswith('y.dbg') else '(·.dbg)'
        return f'.opt {f} {{x}}',f'(good_opt {g})'
    full=resolve(t,space)
    assert norm(rt).split('::')[-1].split('<')[0]==RENAME.get(full,full.split('.')[-1]),(t,rt)
    return '{x}.dbg',good(full)
def good(full): return full+'.dbg_good'
def deps(t,space):
    t=t.replace('Option ','').strip()
    if t in PRIM or t in('Nat','Bool','Str','String','Bytes','Uuid','Chunks'): return []
    return [resolve(t,space)]
order=[]
def visit(f):
    if f in order: return
    d=T[f]
    for n,a in d['items']:
        for t in ([a] if d['kind']=='structure' else [y for _,y in a]):
            for g in deps(t,d['space']): visit(g)
    if f not in order: order.append(f)
for r in ROOTS: visit(r)

def wrap(s,ind,width=112):
    """break a long line at spaces"""
    out=[];
    while len(s)>width:
        k=s.rfind(' ',0,width)
        if s[:k].endswith('txt!'): k=s.rfind(' ',0,k)
        out.append(s[:k]); s=ind+s[k+1:]
    out.append(s)
    return '\n'.join(out)
M=['''import Verif.Model.DebugParts
import Verif.Model.Dispatch
/-!
# What the derived `Debug` of each type tells the formatter

Generated from the Rust text by `tools/gen_debug.py`: names of types, variants and fields in the order of
their declaration.
-/
namespace Dmi
variable [Shown]
''']
P=['''import Verif.Model.Debug
import Verif.Proofs.DebugGood
import Verif.Spec.Text
/-!
# What the derived `Debug` of each type tells determines the value

Written by `tools/gen_debug.py`.
-/
set_option linter.unusedSectionVars false
namespace Dmi
variable [Shown]
''']
def args(fs):
    """[(label, expr)] -> DbgArgs"""
    s='.nil'
    for l,e in reversed(fs):
        lab='[]' if l is None else f'(txt! "{l}")'
        s=f'.cons {lab} ({e}) <| {s}' if s!='.nil' else f'.cons {lab} ({e}) .nil'
    return s
def wfargs(fs):
    """[(label, good proof)] -> term"""
    s=[]
    for l,g in fs:
        s+=['rfl' if l is None else 'by decide',f'{g}.wf _']
    return '⟨'+', '.join(s+['trivial'])+'⟩' if s else 'trivial'
for full in order:
    d=T[full]; nm,f,a,b,(k,rs)=rust(full); sp=d['space']
    doc=f'/-- `{nm}`, `src/{f}` {a}-{b}. -/' if a!=b else f'/-- `{nm}`, `src/{f}` {a}. -/'
    M.append(doc)
    if k=='flags':
        assert d['kind']=='structure' and len(d['items'])==1 and d['items'][0][0]=='bits'
        M.append(f'def {full}.table : List (Text × Nat) :=')
        M.append(wrap('  ['+', '.join(f'(txt! "{n}", {v})' for n,v in rs)+']','   ')+'\n')
        M.append(f'/-- `{nm}`. -/\ndef {full}.dbg (x : {full}) : Dbg :=')
        M.append(f'  .tuple (txt! "{nm}") (.cons [] (.flags {full}.table x.bits.toNat) .nil)\n')
        u=d['items'][0][1]
        P.append(f'''theorem {good(full)} : Good {full}.dbg := by
  have h : Good (Dbg.flags {full}.table) := good_flags (by decide +kernel)
  refine ⟨fun x => ⟨by decide, rfl, h.wf _, trivial⟩, fun a b e => ?_⟩
  have h1 := {u}.toNat_inj.1 (h.inj _ _ (cons_inj (tuple_inj e)).1)
  cases a; cases b
  dsimp only at h1
  subst h1
  rfl
''')
    elif d['kind']=='structure':
        assert k in('struct','tuple') and len(rs)==len(d['items']),(full,rs,d)
        fs=[];gs=[]
        for (ln,lt),(rn,rt) in zip(d['items'],rs):
            if rn is not None: assert ln.strip('_')==rn.strip('_'),(full,ln,rn)
            s,g=shown(lt,sp,rt); fs.append((rn,s.replace('{x}','x.'+ln))); gs.append((rn,g))
        M.append(f'def {full}.dbg (x : {full}) : Dbg :=\n  .{k} (txt! "{nm}") <|')
        for i,(l,e) in enumerate(fs):
            lab='[]' if l is None else f'(txt! "{l}")'
            M.append(f'    .cons {lab} ({e}) '+('<|' if i<len(fs)-1 else '.nil'))
        M.append('')
        P.append(f'theorem {good(full)} : Good {full}.dbg where')
        P.append(wrap(f'  wf x := ⟨by decide, '+wfargs(gs)[1:],'    '))
        P.append(f'  inj a b e := by\n    replace e := {k}_inj e')
        for i in range(len(fs)):
            P.append(f'    obtain ⟨e{i+1}, e⟩ := cons_inj e')
        for i,(l,g) in enumerate(gs):
            P.append(f'    replace e{i+1} := {g}.inj _ _ e{i+1}')
        P.append('    cases a; cases b')
        for i in range(len(fs)): P.append(f'    dsimp only at e{i+1}; subst e{i+1}')
        P.append('    rfl\n')
    else:
        assert k=='enum' and [x[0] for x in rs]==[x[0] for x in d['items']],(full,)
        M.append(f'def {full}.dbg : {full} → Dbg')
        vs=[]
        for (n,ra_k,ra),(_,la) in zip(rs,d['items']):
            if full=='MalformedStructureError' and n=='InvalidSlice':
                M.append('  | .InvalidSlice => .tuple (txt! "InvalidSlice") (.cons [] (.tuple (txt! "TryFromSliceError")\n      (.cons [] .unit .nil)) .nil)')
                vs.append((n,'slice',[])); continue
            if n=='IndexedIoTwo8bitIndexOne8bitData':
                M.append(f'  | .{n} index0 index1 data => .struct (txt! "{n}") <|\n      .cons (txt! "index") (.bytes [index0, index1]) <| .cons (txt! "data") (.num data.toNat) .nil')
                vs.append((n,'two',[])); continue
            assert len(ra)==len(la),(full,n,ra,la)
            if not la: M.append(f'  | .{n} => .name (txt! "{n}")'); vs.append((n,None,[])); continue
            fs=[];gs=[];xs=[]
            for i,((ln,lt),(rn,rt)) in enumerate(zip(la,ra)):
                s,g=shown(lt,sp,rt); x=(rn or (f'v{i}' if len(la)>1 else 'v')); xs.append(x)
                fs.append((rn,s.replace('{x}',x))); gs.append((rn,g))
            M.append(wrap(f'  | .{n} '+' '.join(xs)+f' => .{ra_k} (txt! "{n}") <| '+args(fs),'      '))
            vs.append((n,ra_k,gs))
        M.append('')
        small=len(vs)<=25
        def same(kk,gs,ind):
            o=[f'{ind}replace e := {kk}_inj e']
            for i,(l,g) in enumerate(gs):
                o.append(f'{ind}obtain ⟨e{i+1}, e⟩ := cons_inj e')
            for i,(l,g) in enumerate(gs):
                o.append(f'{ind}obtain rfl := {g}.inj _ _ e{i+1}')
            o.append(ind+'rfl')
            return o
        if small:
            P.append(f'theorem {full}.dbg_idx (x : {full}) :')
            P.append(wrap('    ['+', '.join(f'txt! "{v[0]}"' for v in vs)+f'].idxOf x.dbg.head = x.ctorIdx := by','      '))
            P.append('  cases x <;> rfl\n')
            P.append(f'theorem {good(full)} : Good {full}.dbg where')
            P.append('  wf x := by\n    cases x')
            for n,kk,gs in vs:
                if kk is None: P.append('    · exact ⟨by decide, rfl⟩')
                elif kk=='slice': P.append('    · exact ⟨by decide, rfl, ⟨by decide, rfl, trivial, trivial⟩, trivial⟩')
                elif kk=='two': P.append('    · exact ⟨by decide, by decide, good_bytes.wf _, by decide, good_u8.wf _, trivial⟩')
                else: P.append('    · exact ⟨by decide, '+wfargs(gs)[1:])
            P.append('  inj a b e := by')
            P.append(f'    have h : a.ctorIdx = b.ctorIdx := by rw [← {full}.dbg_idx a, ← {full}.dbg_idx b, e]')
            P.append('    cases a <;> cases b <;> first | exact absurd h (Nat.ne_of_beq_eq_false rfl) | skip')
            for n,kk,gs in vs:
                if kk is None or kk=='slice': P.append('    · rfl')
                elif kk=='two':
                    P.append('    · replace e := struct_inj e\n      obtain ⟨e1, e⟩ := cons_inj e\n      obtain ⟨e2, e⟩ := cons_inj e')
                    P.append('      replace e1 := good_bytes.inj _ _ e1\n      obtain rfl := good_u8.inj _ _ e2')
                    P.append('      injection e1 with h1 h2\n      injection h2 with h2\n      subst h1 h2\n      rfl')
                else:
                    o=same(kk,gs,'      '); o[0]='    · '+o[0].strip(); P+=o
            P.append('')
        else:
            pay=[v for v in vs if v[1]]
            assert all(len(v[2])==1 and v[1]=='tuple' for v in pay)
            pr=' ∨ '.join(f'(∃ v, a = .{v[0]} v)' for v in pay)
            P.append(f'theorem {good(full)} : Good {full}.dbg := by')
            P.append(f'  refine good_enum {full}.dbg (@{full}.dbg .usual) (nullary! {full})\n    (fun a => {pr}) (fun a => ?_) (by decide +kernel) (by decide +kernel) ?_ ?_')
            n=len(pay)
            alts=[]
            for i in range(n):
                t='⟨_, rfl⟩'
                if i<n-1: t=f'(.inl {t})'
                for _ in range(i): t=f'(.inr {t})'
                alts.append(f'exact .inr {t}')
            P.append('  · cases a <;> first | '+' | '.join(alts)+' | exact .inl ⟨by decide +kernel, rfl⟩')
            pat=' | '.join('⟨v, rfl⟩' for _ in pay); pat2=' | '.join('⟨w, rfl⟩' for _ in pay)
            P.append(f'  · rintro _ ({pat})')
            for v in pay: P.append(f'    · exact ⟨rfl, by decide, rfl, {v[2][0][1]}.wf _, trivial⟩')
            P.append(f'  · rintro _ _ ({pat}) ({pat2}) e')
            for v in pay:
                for w in pay:
                    if v is w:
                        P.append(f'    · rw [{v[2][0][1]}.inj _ _ (cons_inj (tuple_inj e)).1]')
                    else:
                        P.append(f'    · have : txt! "{v[0]}" = txt! "{w[0]}" := congrArg Dbg.head e\n      exact absurd this (by decide)')
            P.append('')
M.append('end Dmi'); P.append('end Dmi')
open(LEAN+'Model/Debug.lean','w').write('\n'.join(M)+'\n')
open(LEAN+'Proofs/DebugTypes.lean','w').write('\n'.join(P)+'\n')
print(len(order),'types')
