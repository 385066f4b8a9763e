#!/usr/bin/env python3
"""Writes Model/Hash.lean (what the derived `Hash` of each type hands to the hasher) from the Rust text in
/repo, and Proofs/HashTypes.lean (that it determines the value). The types of the model are read from the
Lean text; the Rust text decides about the order and the types of the fields. The Lean text is committed;
this script is only how it was produced."""
import re,glob,os
ROOT='/repo/src/'; LEAN='/verif/lean/Verif/'
RUST={'':'lib.rs','bios':'structures/000_bios.rs','system':'structures/001_system.rs',
'baseboard':'structures/002_baseboard.rs','enclosure':'structures/003_enclosure.rs',
'processor':'structures/004_processor.rs','cache':'structures/007_cache.rs',
'port_connector':'structures/008_port_connector.rs','system_slots':'structures/009_system_slots.rs',
'oem_strings':'structures/011_oem_strings.rs',
'system_configuration_options':'structures/012_system_configuration_options.rs',
'bios_language':'structures/013_bios_language.rs','group_associations':'structures/014_group_associations.rs',
'system_event_log':['structures/015_system_event_log/mod.rs','structures/015_system_event_log/log_record_format.rs'],
'physical_memory_array':'structures/016_physical_memory_array.rs','memory_device':'structures/017_memory_device.rs',
'memory_error_32':'structures/018_memory_error_32.rs',
'memory_array_mapped_address':'structures/019_memory_array_mapped_address.rs',
'memory_device_mapped_address':'structures/020_memory_device_mapped_address.rs',
'built_in_pointing_device':'structures/021_built_in_pointing_device.rs',
'portable_battery':'structures/022_portable_battery.rs'}
RENAME={'memory_device.MemoryType':'Type','built_in_pointing_device.DeviceType':'Type'}
ROOTS=['Structure','enclosure.ContainedElement','system_slots.Device','group_associations.GroupItem',
'system_event_log.EventLogTypeDescriptor','memory_device.ErrorGranularity','memory_device.ErrorOperation',
'memory_device.ErrorType','EntryPoint','Structures']
# hand-written implementations of `Hash`
HAND={'enclosure.ContainedElements':('003_enclosure.rs` 447-453','[.chunks x.chunks, .u8 x.count, .u8 x.record_length]'),
'system_slots.PeerDevices':('009_system_slots.rs` 857-861','[.chunks x.chunks]'),
'system_event_log.SupportedEventLogTypeDescriptors':('015_system_event_log/mod.rs` 368-372','[.chunks x.chunks]')}

# the types of the model
T={}
for p in [LEAN+'Model/Lib.lean',LEAN+'Model/Enums.lean',LEAN+'Model/Dispatch.lean']+sorted(glob.glob(LEAN+'Model/S0*.lean')):
    ns=[]; cur=None
    for l in open(p).read().split('\n'):
        m=re.match(r'namespace (\S+)',l)
        if m: ns.append(m.group(1)); cur=None; continue
        m=re.match(r'end (\S+)$',l)
        if m and ns and ns[-1]==m.group(1): ns.pop(); cur=None; continue
        m=re.match(r'(structure|inductive) (\S+) where',l)
        if m:
            full='.'.join(ns+[m.group(2)]); assert full.startswith('Dmi.'); full=full[4:]
            space='.'.join(ns)[4:]
            if '.' in m.group(2): space='.'.join(full.split('.')[:-1])
            cur=T[full]={'kind':m.group(1),'space':space,'items':[]}; continue
        if cur is not None:
            if not l.startswith('  '): cur=None; continue
            s=l.strip()
            if s.startswith('/--') or not s: continue
            if cur['kind']=='structure':
                m=re.match(r'(\w+) : (.*?)(?: := .*)?$',s)
                if m: cur['items'].append((m.group(1),m.group(2)))
            else:
                m=re.match(r'\| (\w+)(.*)$',s)
                if m:
                    args=[]
                    for names,t in re.findall(r'\(([^:()]*) : ([^()]*)\)',m.group(2)):
                        args+=[(n,t) for n in names.split()]
                    cur['items'].append((m.group(1),args))
def resolve(t,space):
    t=t.strip()
    if t.startswith('Dmi.'): return t[4:]
    parts=space.split('.') if space else []
    for k in range(len(parts),-1,-1):
        c='.'.join(parts[:k]+[t])
        if c in T: return c
    raise KeyError((t,space))

# the types of the crate
def strip(t):
    return re.sub(r'//[^\n]*',lambda m:' '*len(m.group(0)),t)
def body(t,i,o='{',c='}'):
    d=0;k=i
    while True:
        if t[k]==o: d+=1
        elif t[k]==c:
            d-=1
            if d==0: return k
        k+=1
def split(b):
    r=[];d=0;cur=''
    for c in b:
        if c in '({[<': d+=1
        elif c in ')}]>': d-=1
        if c==',' and d==0: r.append(cur); cur=''
        else: cur+=c
    if cur.strip(): r.append(cur)
    return [re.sub(r'#\[[^\]]*\]','',x).strip() for x in r if x.strip()]
def field(x):
    n,t=re.match(r'(?:pub(?:\(crate\))? )?(?:r#)?(\w+)\s*:\s*(.*)$',x,re.S).groups()
    return n,re.sub(r'\s+',' ',t)
def rust(full):
    ns='.'.join(full.split('.')[:-1]); nm=RENAME.get(full,full.split('.')[-1])
    fs=RUST[ns]; fs=fs if isinstance(fs,list) else [fs]
    for f in fs:
        t=strip(open(ROOT+f).read())
        m=re.search(r'((?:#\[[^\n]*\]\s*)*)pub (struct|enum) '+nm+r'\b(?:<[^>]*>)?\s*(:\s*(u\d+)\s*)?(?=[{(])',t)
        if m: break
    else: raise KeyError(full)
    i=m.end(); line=lambda k:t.count('\n',0,k)+1
    assert full in HAND or re.search(r'derive\([^)]*\bHash\b',m.group(1)),full
    a=m.start(2)
    if t[i]=='(':
        j=body(t,i,'(',')'); r=('tuple',[(None,re.sub(r'^pub ','',x)) for x in split(t[i+1:j])])
    else:
        j=body(t,i); b=t[i+1:j]
        if m.group(3):
            r=('flags',[(n,int(v.replace('_',''),0)) for n,v in re.findall(r'const (\w+)\s*=\s*(\w+);',b)])
        elif m.group(2)=='struct': r=('struct',[field(x) for x in split(b)])
        else:
            vs=[]
            for x in split(b):
                n=re.match(r'\w+',x).group(0); y=x[len(n):].strip()
                if not y: vs.append((n,None,[]))
                elif y[0]=='(': vs.append((n,'tuple',[(None,z) for z in split(y[1:-1])]))
                else: vs.append((n,'struct',[field(z) for z in split(y[1:-1])]))
            r=('enum',vs)
    return nm,f,line(a),line(j),r
PRIM={'UInt8':'u8','UInt16':'u16','UInt32':'u32','UInt64':'u64'}
def norm(t):
    t=re.sub(r"&'\w+ ",'&',t); t=re.sub(r"<'\w+(, )?",'<',t); t=t.replace('<>','')
    return t
def fed(t,space,rt):
    """(list of Fed as a function of {x}, function, proof of Det, trivial proof of validity or None)"""
    rt=norm(rt)
    if t in PRIM: assert rt==PRIM[t],(t,rt); k=PRIM[t]; return f'[.{k} {{x}}]',f'(fun y => [.{k} y])','det_'+k
    if t=='Nat': assert rt=='usize',rt; return '[.usize {x}]','(fun y => [.usize y])','det_usize'
    if t=='Bool': assert rt=='bool',rt; return '[.bool {x}]','(fun y => [.bool y])','det_bool'
    if t=='Str': assert rt=='&str',rt; return '[.str {x}]','(fun y => [.str y])','det_str'
    if t=='Bytes': assert rt=='&[u8]' or re.match(r'\[u8; \d+\]$',rt),rt; return '[.slice {x}]','(fun y => [.slice y])','det_slice'
    if t=='Uuid': assert rt=='uuid::Uuid',rt; return '[.uuid {x}]','(fun y => [.uuid y])','det_uuid'
    if t.startswith('Option '):
        m=re.match(r'Option<(.*)>$',rt); assert m,(t,rt)
        s,f,g=fed(t[7:],space,m.group(1))
        return f'Fed.opt {f} {{x}}',None,f'(det_opt {g})'
    full=resolve(t,space)
    assert norm(rt).split('::')[-1].split('<')[0]==RENAME.get(full,full.split('.')[-1]),(t,rt)
    return '{x}.fed','(·.fed)',full+'.fed_det'
def deps(t,space):
    t=t.replace('Option ','').strip()
    if t in PRIM or t in('Nat','Bool','Str','String','Bytes','Uuid','Chunks'): return []
    return [resolve(t,space)]
order=[]
def visit(f):
    if f in order: return
    d=T[f]
    for n,a in d['items']:
        for t in ([a] if d['kind']=='structure' else [y for _,y in a]):
            for g in deps(t,d['space']): visit(g)
    if f not in order: order.append(f)
for r in ROOTS: visit(r)

def wrap(s,ind,width=112):
    """break a long line at spaces"""
    out=[];
    while len(s)>width:
        k=s.rfind(' ',0,width)
        out.append(s[:k]); s=ind+s[k+1:]
    out.append(s)
    return '\n'.join(out)
M=['''import Verif.Model.HashParts
import Verif.Model.Dispatch
/-!
# What the derived `Hash` of each type hands to the hasher

Generated from the Rust text by `tools/gen_hash.py`: the fields in the order of their declaration, behind the
discriminant (the position among the variants) in the case of an enumeration.
-/
namespace Dmi
''']
P=['''import Verif.Model.Hash
import Verif.Proofs.HashGood
/-!
# What the derived `Hash` of each type writes determines the value

Written by `tools/gen_hash.py`. Values that contain one of the three chunked iterators are not meant
(`Fed.Valid`).
-/
namespace Dmi
''']
PLAIN={}
def valid(t,space,x):
    """(hypothesis or None, proof term) for the items of field x of type t"""
    if t in PRIM: return None,f'valid_{PRIM[t]} n _'
    if t=='Bool': return None,'valid_u8 n _'
    if t=='Nat': return f'{x} < 2 ^ n','valid_one {h}'
    if t=='Str': return f'(0xFF : UInt8) ∉ {x}','valid_one {h}'
    if t=='Bytes': return f'{x}.length < 2 ^ n','valid_one {h}'
    if t=='Uuid': return f'{x}.length = 16','valid_one {h}'
    if t.startswith('Option '):
        c,p=valid(t[7:],space,'y')
        if c is None: return None,f'valid_opt fun _ _ => {p}'
        return f'∀ y, {x} = some y → {c}',f'valid_opt fun y hy => '+p.replace('{h}','({h} y hy)')
    full=resolve(t,space)
    if PLAIN.get(full): return None,full+'.fed_valid n _'
    return f'Fed.AllValid n {x}.fed','{h}'
def flat(fs): return '['+', '.join(fs)+'].flatten' if len(fs)!=1 else fs[0]
for full in order:
    d=T[full]; nm,f,a,b,(k,rs)=rust(full); sp=d['space']
    doc=f'/-- `{nm}`, `src/{f}` {a}-{b}. -/' if a!=b else f'/-- `{nm}`, `src/{f}` {a}. -/'
    if full in HAND:
        c,e=HAND[full]; PLAIN[full]=False
        M.append(f'/-- `impl Hash for {nm}`, `src/structures/{c}. -/\ndef {full}.fed (x : {full}) : List Fed := {e}\n')
        P.append(f'theorem {full}.fed_det : Det {full}.fed id := fun _ _ _ _ _ _ _ _ va _ _ =>\n  (allValid_cons.1 va).1.elim\n')
        continue
    M.append(doc)
    if k=='flags':
        PLAIN[full]=True
        assert d['kind']=='structure' and len(d['items'])==1 and d['items'][0][0]=='bits'
        u=PRIM[d['items'][0][1]]
        M.append(f'def {full}.fed (x : {full}) : List Fed := [.{u} x.bits]\n')
        P.append(f'theorem {full}.fed_det : Det {full}.fed id :=\n  (det_{u}.on {full}.bits).of fun a b e => by cases a; cases b; exact congrArg _ e\n')
        P.append(f'theorem {full}.fed_valid (n : Nat) (x : {full}) : Fed.AllValid n x.fed := valid_{u} n _\n')
    elif d['kind']=='structure':
        assert k in('struct','tuple') and len(rs)==len(d['items']),(full,rs,d)
        fs=[];gs=[]
        for (ln,lt),(rn,rt) in zip(d['items'],rs):
            if rn is not None: assert ln.strip('_')==rn.strip('_'),(full,ln,rn)
            s,_,g=fed(lt,sp,rt); fs.append(s.replace('{x}','x.'+ln)); gs.append((ln,g))
        hyp=[];pr=[]
        for (ln,lt) in d['items']:
            c,q=valid(lt,sp,'x.'+ln); 
            if c: hyp.append((f'h{len(hyp)+1}',c)); q=q.replace('{h}',hyp[-1][0])
            pr.append(q)
        PLAIN[full]=not hyp
        V=f'theorem {full}.fed_valid (n : Nat) (x : {full})'+''.join(f' ({a} : {c})' for a,c in hyp)+' : Fed.AllValid n x.fed :='
        V=wrap(V,'    ')+'\n'
        if len(pr)==1: V+='  '+pr[0]+'\n'
        else: V+=''.join(f'  allValid_append.2 ⟨{q},\n' for q in pr)+'  allValid_nil n'+'⟩'*len(pr)+'\n'
        M.append(f'def {full}.fed (x : {full}) : List Fed :=')
        M.append('  '+fs[0]+'\n' if len(fs)==1 else '  ['+',\n    '.join(fs)+'].flatten\n')
        P.append(f'theorem {full}.fed_det : Det {full}.fed id := by')
        if len(fs)==1:
            P.append(f'  exact ({gs[0][1]}.on {full}.{gs[0][0]}).of fun a b e => by cases a; cases b; exact congrArg _ e\n')
        else:
            P.append('  refine Det.of (')
            for ln,g in gs: P.append(f'    ({g}.on {full}.{ln}).cons <|')
            P.append('    det_nil) fun a b e => ?_')
            P.append('  cases a; cases b')
            P.append(f'  simpa only [id, Prod.mk.injEq, and_true, {full}.mk.injEq] using e\n')
        P.append(V)
    else:
        assert k=='enum' and [x[0] for x in rs]==[x[0] for x in d['items']] and len(rs)>1,(full,)
        assert not any('=' in x[0] for x in rs)
        vs=[]; arms=[]
        for (n,ra_k,ra),(_,la) in zip(rs,d['items']):
            if n=='IndexedIoTwo8bitIndexOne8bitData':
                arms.append(f'  | .{n} index0 index1 data => [[.slice [index0, index1]], [.u8 data]].flatten')
                vs.append((n,['two'])); continue
            assert len(ra)==len(la),(full,n,ra,la)
            if not la: vs.append((n,[])); continue
            fs=[];gs=[];xs=[]
            for i,((ln,lt),(rn,rt)) in enumerate(zip(la,ra)):
                s,_,g=fed(lt,sp,rt); x=(rn or (f'v{i}' if len(la)>1 else 'v')); xs.append(x)
                fs.append(s.replace('{x}',x)); gs.append(g)
            arms.append(wrap(f'  | .{n} '+' '.join(xs)+' => '+flat(fs),'      ')); vs.append((n,gs))
        if any(not v[1] for v in vs): arms.append('  | _ => []')
        if len(arms)==1: M.append(f'def {full}.fed (x : {full}) : List Fed := [.tag (.ofNat x.ctorIdx)]\n')
        else:
            M.append(f'def {full}.fields : {full} → List Fed'); M+=arms; M.append('')
            M.append(f'/-- `{nm}`. -/\ndef {full}.fed (x : {full}) : List Fed := .tag (.ofNat x.ctorIdx) :: x.fields\n')
        P.append(f'theorem {full}.idx_lt (x : {full}) : x.ctorIdx < 65536 := by\n  cases x <;> exact Nat.le_of_ble_eq_true rfl\n')
        pay=[v for v in vs if v[1]]
        if len(vs)<=25:
            P.append(f'theorem {full}.fed_det : Det {full}.fed id := by')
            P.append('  intro n h8 h32 pre a b r s va vb e')
            P.append(f'  obtain ⟨h, va, vb, e⟩ := idx_step h8 h32 ({full}.idx_lt a) ({full}.idx_lt b) va vb e')
            P[-1]=P[-1].replace('obtain ⟨h, va, vb, e⟩','replace e')
            P.append('  clear va vb; obtain ⟨h, va, vb, e⟩ := e')
            P.append('  cases a <;> cases b <;> first | exact absurd h (Nat.ne_of_beq_eq_false rfl) | skip')
            for n,gs in vs:
                if not gs: P.append('  · exact ⟨rfl, e⟩')
                elif gs==['two']:
                    P.append('  · obtain ⟨h1, va, vb, e⟩ := det_slice.step h8 h32 va vb e\n    obtain ⟨h2, va, vb, hr⟩ := det_u8.step h8 h32 va vb e')
                    P.append('    injection h1 with h1 h3\n    injection h3 with h3\n    cases h1; cases h3; cases h2\n    exact ⟨rfl, hr⟩')
                elif len(gs)==1:
                    P.append(f'  · obtain ⟨h1, hr⟩ := {gs[0]} n h8 h32 pre _ _ r s va vb e\n    cases h1\n    exact ⟨rfl, hr⟩')
                else:
                    for i,g in enumerate(gs):
                        P.append(('  · ' if i==0 else '    ')+f'obtain ⟨h{i+1}, va, vb, {"e" if i<len(gs)-1 else "hr"}⟩ := {g}.step h8 h32 va vb e')
                    P.append('    '+'; '.join(f'cases h{i+1}' for i in range(len(gs)))+'\n    exact ⟨rfl, hr⟩')
            P.append('')
        else:
            assert all(len(v[1])==1 for v in pay)
            fields='fun _ => []' if not pay else f'{full}.fields'
            pr=' ∨ '.join(f'(∃ v, a = .{v[0]} v)' for v in pay) or 'False'
            P.append(f'theorem {full}.fed_det : Det {full}.fed id := by')
            P.append(f'  refine det_enum {full}.ctorIdx ({fields}) (fun _ => rfl) {full}.idx_lt (nullary! {full})\n    (fun a => {pr}) (fun a => ?_) (by decide +kernel) (by decide +kernel) ?_ ?_')
            n=len(pay)
            alts=[]
            for i in range(n):
                t='⟨_, rfl⟩'
                if i<n-1: t=f'(.inl {t})'
                for _ in range(i): t=f'(.inr {t})'
                alts.append(f'exact .inr {t}')
            P.append('  · cases a <;> first | '+' | '.join(alts+['exact .inl (by decide +kernel)']))
            if pay:
                pat=' | '.join('⟨v, rfl⟩' for _ in pay); pat2=' | '.join('⟨w, rfl⟩' for _ in pay)
                P.append(f'  · rintro _ ({pat})')
                for v in pay: P.append(f'    · exact (by decide +kernel : {[x[0] for x in vs].index(v[0])} ∉ (nullary! {full}).map {full}.ctorIdx)')
                P.append(f'  · rintro _ _ ({pat}) ({pat2}) h n h8 h32 pre r s va vb e')
                for v in pay:
                    for w in pay:
                        if v is w:
                            P.append(f'    · obtain ⟨h1, hr⟩ := {v[1][0]} n h8 h32 pre _ _ r s va vb e\n      cases h1\n      exact ⟨rfl, hr⟩')
                        else:
                            P.append('    · exact absurd h (Nat.ne_of_beq_eq_false rfl)')
            else:
                P.append('  · rintro _ ⟨⟩\n  · rintro _ _ ⟨⟩')
            P.append('')
        plain=True; vp=[]
        for (n,ra_k,ra),(_,la) in zip(rs,d['items']):
            if n=='IndexedIoTwo8bitIndexOne8bitData':
                vp.append('allValid_append.2 ⟨valid_one (Nat.lt_of_lt_of_le (by decide : 2 < 2 ^ 32) (Nat.pow_le_pow_right (by decide) hn)),\n        allValid_append.2 ⟨valid_u8 n _, allValid_nil n⟩⟩'); plain=False; continue
            qs=[valid(lt,sp,'y') for _,lt in la]
            if any(c for c,_ in qs): plain=None; break
            if not qs: vp.append('allValid_nil n')
            elif len(qs)==1: vp.append(qs[0][1])
            else: vp.append(''.join(f'allValid_append.2 ⟨{q}, ' for _,q in qs)+'allValid_nil n'+'⟩'*len(qs))
        PLAIN[full]=plain is True
        if plain is not None:
            hn='' if plain else ' (hn : 32 ≤ n)'
            P.append(f'theorem {full}.fed_valid (n : Nat){hn} (x : {full}) : Fed.AllValid n x.fed := by')
            if not pay: P.append('  exact valid_one trivial\n')
            else:
                P.append('  refine allValid_cons.2 ⟨trivial, ?_⟩')
                if len(pay)<=2 and len(vs)>6: 
                    q=[p for p in vp if p!='allValid_nil n']
                    P.append('  cases x <;> first | exact allValid_nil n | '+' | '.join('exact '+p for p in dict.fromkeys(q))+'\n')
                else:
                    P.append('  cases x')
                    for p in vp: P.append('  · exact '+p)
                    P.append('')
M.append('end Dmi'); P.append('end Dmi')
open(LEAN+'Model/Hash.lean','w').write('\n'.join(M)+'\n')
open(LEAN+'Proofs/HashTypes.lean','w').write('\n'.join(P)+'\n')
print(len(order),'types')
