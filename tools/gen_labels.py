#!/usr/bin/env python3
"""Writes the theorems on labels (C59, C60) for the enumerations of Model/DisplayCodes.lean whose
`Display` has one catch-all variant with a number; the others are written by hand in
Props/Labels2.lean (their tables of exceptions are written here too)."""
import re
t=open('/verif/lean/Verif/Model/DisplayCodes.lean').read()
t=re.sub(r'=>\n\s+','=> ',t); t=re.sub(r'\n    else',' else',t)
HAND={'processor.ProcessorFamily','system_event_log.LogHeaderFormat','system_event_log.EventLogType',
'system_event_log.SystemManagementType','portable_battery.DeviceChemistry'}
n=lambda s: re.sub(r'[^a-z0-9]','',s.lower())
out=['''import Verif.Proofs.Fmt
import Verif.Model.DisplayCodes
/-!
# Properties C59, C60: labels of codes

For each enumeration with a `Display` implementation: distinct values have distinct labels, and the
label of a variant is its name up to spacing, punctuation and case, with the exceptions listed.
The theorems for enumerations with a single catch-all variant are written by `tools/gen_labels.py`.
-/
namespace Dmi.Props
open Fmt
''']
blocks=re.split(r'\n(?=/-- `impl fmt)',t)[1:]
for b in blocks:
    m=re.search(r'def (\S+)\.display (\(alt : Bool\) )?',b)
    T=m.group(1); alt=bool(m.group(2))
    if T in HAND: continue
    arms=re.findall(r'^  \| \.(\w+)( \w+)? => (.*)$',b,re.M)
    pay=[a for a in arms if a[1]]
    assert len(pay)<=1,(T,pay)
    short=T.split('.')[-1]
    nm=T.replace('.','_')
    D='(·.display alt)' if alt else '(·.display)'
    A=' alt' if alt else ''
    V='(alt : Bool) ' if alt else ''
    pre=None
    if pay:
        c=pay[0][0]; pre=re.match(r'txt! ("(?:[^"\\]|\\.)*") \+\+ dec',pay[0][2]).group(1)
    P=f'∃ v, a = .{c} v' if pay else 'False'
    out.append(f'theorem variants_{nm} (a : {T}) :\n    a ∈ nullary! {T} ∨ {P} := by')
    if pay: out.append('  cases a <;> first | exact .inr ⟨_, rfl⟩ | exact .inl (by decide +kernel)\n')
    else: out.append('  cases a <;> exact .inl (by decide +kernel)\n')
    out.append(f'/-- C59: distinct values of `{short}` have distinct labels. -/')
    out.append(f'theorem C59_{nm} {V}: ∀ a b : {T},\n    a.display{A} = b.display{A} → a = b := by')
    out.append(f'  refine labels_inj (fun a : {T} => a.display{A}) (nullary! {T}) _ [{"txt! "+pre if pre else ""}]')
    dec='(by cases alt <;> decide +kernel)' if alt else '(by decide +kernel)'
    out.append(f'    variants_{nm} {dec} {dec} ?_ ?_')
    if pay:
        out.append('  · rintro _ ⟨v, rfl⟩; exact ⟨_, List.mem_cons_self, List.prefix_append _ _⟩')
        out.append('  · rintro _ _ ⟨v, rfl⟩ ⟨w, rfl⟩ h')
        out.append('    rw [UInt8.toNat_inj.1 (dec_inj (List.append_cancel_left h))]')
    else:
        out.append('  · rintro _ ⟨⟩\n  · rintro _ _ ⟨⟩')
    # exceptions
    def exc(sel):
        r=[]
        for a in arms:
            if a[1]: continue
            x=a[2]
            q=re.match(r'if alt then (.*) else (.*)$',x)
            if q: x=q.group(1 if sel else 2)
            lab=re.match(r'txt! "((?:[^"\\]|\\.)*)"$',x).group(1)
            if n(lab)!=n(a[0]): r.append((a[0],lab))
        return r
    def thm(name,disp,ex,doc):
        out.append('')
        out.append(f'/-- C60: {doc} -/')
        out.append(f'theorem {name} : ∀ a ∈ nullary! {T},')
        out.append(f'    squash ({disp}) = squash ((ctorNames! {T})[a.ctorIdx]!)'+(' ∨' if ex else ' := by'))
        if ex:
            out.append(f'    (a, {disp}) ∈ [')
            for i,(c_,l) in enumerate(ex):
                s=f'      (.{c_}, txt! "{l}")'
                out.append(s+(',' if i<len(ex)-1 else f'] := by'))
        out.append('  decide +kernel')
    if alt:
        e0,e1=exc(0),exc(1)
        thm(f'C60_{nm}','a.display false',e0,f'the labels of `{short}`.')
        thm(f'C60_{nm}_alternate','a.display true',e1,f'the alternate labels of `{short}`.')
    else:
        thm(f'C60_{nm}','a.display',exc(0),f'the labels of `{short}`.')
    if pay:
        out.append('')
        out.append(f'/-- C60: the label of a code without a name is the name of the variant and the number. -/')
        out.append(f'theorem C60_{nm}_code {V}(v : UInt8) : ∃ p d : Text, ({T}.{c} v).display{A} = p ++ d ∧')
        out.append(f'    squash p = squash (txt! "{c}") ∧ IsDec 1 d v.toNat :=')
        out.append(f'  ⟨txt! {pre}, dec v.toNat, rfl, by decide +kernel, isDec _⟩')
    first=[a for a in arms if not a[1]][0]
    out.append('')
    ev='by decide +kernel'
    x=first[2]; q=re.match(r'if alt then (.*) else (.*)$',x); x=q.group(2) if q else x
    out.append(f'example : {T}.{first[0]}.display{" false" if alt else ""} = {x}'+(f' ∧\n    ({T}.{c} 200).display{" false" if alt else ""} = txt! "{eval(pre)}200"' if pay else '')+f' := {ev}\n')
def table(T,suffix,disp,labels):
    ex=[(c,l) for c,l in labels if n(c)!=n(l)]
    nm=T.replace('.','_')
    out.append(f'/-- C60: the {"alternate " if suffix else ""}labels of `{T.split(".")[-1]}`. -/')
    out.append(f'theorem C60_{nm}{suffix} : ∀ a ∈ nullary! {T},')
    out.append(f'    squash ({disp}) = squash ((ctorNames! {T})[a.ctorIdx]!)'+(' ∨' if ex else ' := by'))
    if ex:
        out.append(f'    (a, {disp}) ∈ [')
        for i,(c,l) in enumerate(ex):
            out.append(f'      (.{c}, txt! "{l}")'+(',' if i<len(ex)-1 else f'] := by'))
    out.append('  decide +kernel\n')
for b in blocks:
    T=re.search(r'def (\S+)\.display ',b).group(1)
    if T not in HAND: continue
    if re.search(r'display : Bool',b):
        for alt in ('false','true'):
            table(T,'_alternate' if alt=='true' else '',f'a.display {alt}',
                re.findall(rf'^  \| (?:{alt}|_), \.(\w+) => txt! "((?:[^"\\]|\\.)*)"$',b,re.M))
    else:
        table(T,'','a.display',re.findall(r'^  \| \.(\w+) => txt! "((?:[^"\\]|\\.)*)"$',b,re.M))
out.append('end Dmi.Props')
open('/verif/lean/Verif/Props/Labels.lean','w').write('\n'.join(out)+'\n')
