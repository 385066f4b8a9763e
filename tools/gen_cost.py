"""Writes Verif/Model/CostDecode.lean: the decoders that look up strings, with a count of the bytes looked at.

The text of each definition is taken from Verif/Model/S*.lean; only the monad and the lookups are replaced.
Props/CostDecode.lean proves that the results are the same.
"""
import re, os
ROOT = os.path.dirname(os.path.dirname(os.path.abspath(__file__))) + "/lean/Verif/"
WORK = [("bios", "S000", ["Bios.try_from"]), ("system", "S001", ["System.try_from"]),
        ("baseboard", "S002", ["BaseBoard.try_from"]), ("enclosure", "S003", ["findSku", "Enclosure.try_from"]),
        ("processor", "S004", ["Processor.try_from"]), ("cache", "S007", ["Cache.try_from"]),
        ("port_connector", "S008", ["PortConnector.try_from"]),
        ("system_slots", "S009", ["SystemSlots.decode", "SystemSlots.try_from"]),
        ("system_configuration_options", "S011", ["SystemConfigurationOptions.try_from"]),
        ("group_associations", "S014", ["GroupAssociations.try_from"]),
        ("memory_device", "S017", ["MemoryDevice.try_from"]),
        ("portable_battery", "S022", ["optString", "PortableBattery.try_from"])]


def counted(mod, file, name):
    t = open(ROOT + "Model/" + file + ".lean").read()
    m = re.search(r"/--(?:(?!-/).)*?-/\ndef (?:%s\.)?%s\b.*?(?=\n\n)" % (mod, re.escape(name)), t, re.S)
    doc, text = m.group(0).split("-/\n", 1)
    cite = re.findall(r"`src/[^`]*`\s[\d, -]*\d", doc)
    text = re.sub(r"^def (?:%s\.)?%s\b" % (mod, re.escape(name)), "def " + name + "C", text)
    text = re.sub(r": R ", ": CR ", text, count=1)
    text = re.sub(r"← letAsStruct (\S+) (\S+)", r"← (letAsStruct \1 \2 : R _)", text)
    text = re.sub(r"\b(find_string|get_string|optString|findSku)\b", r"\1C", text)
    text = text.replace("s.find_stringC", "s.find_stringW").replace("s.get_stringC", "s.get_stringW")
    text = text.replace("SystemSlots.decode oc", "SystemSlots.decodeC oc")
    text = re.sub(r"← (CacheConfiguration.ofU16 .*)\n", r"← (\1 : R _)\n", text)
    text = re.sub(r"← (subUsize oc .*)\n", r"← (\1 : R _)\n", text)
    text = re.sub(r"← Res\.ofOption (.*)\n    (.*)\n", r"← (Res.ofOption \1\n    \2 : R _)\n", text)
    text = text.replace("  if count.toNat ≠ strings.count then", "  let number ← strings.countW\n  if count.toNat ≠ number then")
    what = {"findSku": "The SKU string", "optString": "The string operand of `ManufactureDate::new`/`SerialNumber::new`"}
    what = what.get(name, "`" + name.replace(".", "::") + "`")
    return "/-- %s, %s, counted. -/\n%s\n" % (what, " ".join(cite[0].split()), text)


out = ["""import Verif.Model.Cost
/-!
# The decoders with a count of their work

Generated from `Model/S*.lean` by `tools/gen_cost.py`: the decoders that look up strings, with the number of
bytes their lookups look at. Everything else a decoder does takes no loop. `Props/CostDecode.lean` proves that
the results are those of the decoders.
-/
namespace Dmi

/-- An outcome and the number of bytes looked at on the way there. -/
structure CR (α : Type) where
  out : R α
  cost : Nat

/-- One computation after the other: the counts add up, up to where it ends. -/
def CR.bind {α β : Type} (x : CR α) (f : α → CR β) : CR β :=
  match x.out with
  | .ok a => ⟨(f a).out, x.cost + (f a).cost⟩
  | .err e => ⟨.err e, x.cost⟩
  | .panic => ⟨.panic, x.cost⟩
  | .ub => ⟨.ub, x.cost⟩

instance : Monad CR where
  pure a := ⟨.ok a, 0⟩
  bind := CR.bind

/-- What looks at no string. -/
def CR.free {α : Type} (x : R α) : CR α := ⟨x, 0⟩

instance : MonadLift R CR := ⟨CR.free⟩

def CR.err {α : Type} (e : MalformedStructureError) : CR α := ⟨.err e, 0⟩

def CR.panic {α : Type} : CR α := ⟨.panic, 0⟩

def CR.toOption {α : Type} (x : CR α) : CR (Option α) := ⟨x.out.toOption, x.cost⟩

def CR.map {α β : Type} (f : α → β) (x : CR α) : CR β := ⟨x.out.map f, x.cost⟩

/-- `RawStructure::find_string`, `src/lib.rs` 623-631, counted. -/
def RawStructure.find_stringW (r : RawStructure) (idx : UInt8) : CR Str :=
  ⟨(r.find_stringC idx).1, (r.find_stringC idx).2⟩

/-- `RawStructure::get_string`, `src/lib.rs` 655-657, counted. -/
def RawStructure.get_stringW [Usize] (oc : Bool) (r : RawStructure) (offset : Nat) : CR Str := do
  let idx ← r.get8 oc offset
  r.find_stringW idx

/-- `Iterator::count` (core) of the strings, at most `fuel` of them, counted. -/
def StructureStrings.countFuelC : Nat → StructureStrings → Nat × Nat
  | 0, _ => (0, 0)
  | fuel + 1, s =>
    match s.nextC with
    | ((some _, s'), c) =>
      let (n, d) := countFuelC fuel s'
      (n + 1, c + d)
    | ((none, _), c) => (0, c)

/-- `Iterator::count`, counted. -/
def StructureStrings.countW (s : StructureStrings) : CR Nat :=
  ⟨.ok (s.countFuelC (s.bytes.length + 1)).1, (s.countFuelC (s.bytes.length + 1)).2⟩
"""]
for mod, file, names in WORK:
    out.append("namespace %s\n" % mod)
    for n in names:
        out.append(counted(mod, file, n))
    out.append("end %s\n" % mod)
d = open(ROOT + "Model/Dispatch.lean").read()
m = re.search(r"def decodeStructure .*?(?=\n\n)", d, re.S)
t = m.group(0).replace("def decodeStructure", "def decodeStructureC").replace(": R Structure", ": CR Structure")
has = {m + "." + n for m, _, ns in WORK for n in ns}
def arm(m):
    f, args, c = m.group(1), m.group(2), m.group(3)
    return "(%sC %s).map %s" % (f, args, c) if f in has else "CR.free ((%s %s).map %s)" % (f, args, c)
t = re.sub(r"\((\S+\.try_from) ([^)]*)\)\.map\s+(\.\w+)", arm, t)
t = t.replace(".ok (.Other s)", "pure (.Other s)")
out.append("/-- The `match` on the type in `Structures::next`, `src/lib.rs` 487-519, counted. -/\n" + t + "\n")
out.append("""/-- `Structures::next`, `src/lib.rs` 467-520, with the number of executions of the loop body of `find_nulnul` and
the number of bytes the decoder's lookups look at. -/
def Structures.nextW [Usize] (oc : Bool) (s : Structures) :
    Fault ((Option (Except MalformedStructureError Structure) × Structures) × Nat × Nat) := do
  let ((o, s), c) ← s.next_rawC oc
  match o with
  | none => pure ((none, s), c, 0)
  | some (.error e) => pure ((some (.error e), { s with smbios_len := s.idx }), c, 0)
  | some (.ok structure_) => do
    let s := if s.smbios_version.major ≥ 3 ∧ structure_.info = .End
      then { s with smbios_len := s.idx } else s
    let item ← (decodeStructureC oc structure_).out.toItem
    pure ((some item, s), c, (decodeStructureC oc structure_).cost)

end Dmi
""")
open(ROOT + "Model/CostDecode.lean", "w").write("\n".join(out))
