"""Mechanical comparison of the hand-written model with the Rust source.

This is no proof and nothing depends on it; it guards against slips of transcription. Checked:
  1. every `repr(packed)` struct has a reader with the same fields, in the same order and of the
     same widths;
  2. every decoder mentions the same packed fields, offsets, widths, version thresholds and
     hexadecimal constants, in the same order;
  3. every `bitflags!` type declares the same names with the same values;
  4. every comment that cites a source line range names something that occurs there.
"""
import difflib, glob, os, re, sys

REPO = sys.argv[1] if len(sys.argv) > 1 else "/repo"
SRC = REPO + "/src/"
MODEL = os.path.dirname(os.path.dirname(os.path.abspath(__file__))) + "/lean/Verif/Model/"
bad = 0


def rust(f):
    return re.sub(r"//.*", "", open(f).read()).split("#[cfg(test)]")[0]


def lean(f):
    return re.sub(r"/-.*?-/", "", open(f).read(), flags=re.S)


def report(what, ok, detail=""):
    global bad
    print(("ok   " if ok else "DIFF ") + what)
    if not ok:
        bad += 1
        print(detail)


# 1. packed structs
models = "\n".join(lean(f) for f in sorted(glob.glob(MODEL + "*.lean")))
for f in sorted(glob.glob(SRC + "**/*.rs", recursive=True)):
    for m in re.finditer(r"#\[repr\(packed\)\](?:\s*#\[.*?\])*\s*(?:pub )?struct (\w+)(?:<.*?>)?\s*\{(.*?)\}",
                         rust(f), re.S):
        want = []
        for n, t in re.findall(r"(\w+)\s*:\s*([^,]+?)\s*(?:,|$)", m.group(2).strip()):
            a = re.match(r"\[u8; (\d+)\]", t)
            want.append((n.lstrip("_"), "." + t if re.match(r"u\d+$", t) else ".array " + a.group(1) if a
                         else ".array 16" if t.endswith("UuidRepr") else t + ".packed"))
        if m.group(1) == "ContainedElement2_3":
            continue  # read from a three byte slice, `ContainedElements.next` in S003.lean
        have = [re.findall(r"let (\w+) ← (\S+(?: \d+)?)", x)
                for x in re.findall(r"def %s\.packed .*?:= do\n(.*?)\n  pure" % m.group(1), models, re.S)]
        report("layout of " + m.group(1), want in have, f"  rust {want}\n  lean {have}")

# 2. decoders: (source, model, definitions in source order)
DECODERS = [
    ("000_bios", "S000", ["Bios.try_from"]),
    ("001_system", "S001", ["decode_by_smbios_version", "System.try_from"]),
    ("002_baseboard", "S002", ["BaseBoard.try_from"]),
    ("004_processor", "S004", ["Processor.try_from"]),
    ("007_cache", "S007", ["Cache.try_from"]),
    ("008_port_connector", "S008", ["PortConnector.try_from"]),
    ("009_system_slots", "S009", ["SystemSlots.try_from", "SystemSlots.decode"]),
    ("012_system_configuration_options", "S011",
     ["system_configuration_options.SystemConfigurationOptions.try_from"]),
    ("013_bios_language", "S013", ["BiosLanguage.try_from"]),
    ("015_system_event_log/mod", "S015",
     ["SystemEventLog.try_from", "SystemEventLog.decode", "descriptors"]),
    ("016_physical_memory_array", "S016", ["fill2_1", "PhysicalMemoryArray.try_from"]),
    ("017_memory_device", "S017", ["MemoryDevice.try_from"]),
    ("018_memory_error_32", "S018", ["memory_error_32.MemoryError32.try_from"]),
    ("019_memory_array_mapped_address", "S018",
     ["memory_array_mapped_address.MemoryArrayMappedAddress.try_from"]),
    ("020_memory_device_mapped_address", "S018",
     ["memory_device_mapped_address.MemoryDeviceMappedAddress.try_from"]),
    ("021_built_in_pointing_device", "S018", ["built_in_pointing_device.BuiltInPointingDevice.try_from"]),
    ("022_portable_battery", "S022", ["PortableBattery.try_from"]),
]
NUM = r"0x[0-9A-Fa-f_]+"
NEST = r"(?:v2_\d\.)*"


def tokens_rust(e):
    out = []
    for m in re.finditer(rf"get::<(\w+)>\(\s*({NUM})|get_string\(({NUM})|get_slice\(({NUM})|"
                         rf"\bpacked\.{NEST}(\w+)|\((\d), (\d)\)|({NUM})", e):
        g = m.groups()
        out.append(f"get {g[0][1:]} {int(g[1], 16)}" if g[0] else f"string {int(g[2], 16)}" if g[2]
                   else f"slice {int(g[3], 16)}" if g[3] else f"field {g[4]}" if g[4]
                   else f"version {g[5]}.{g[6]}" if g[5] else str(int(g[7].replace("_", ""), 16)))
    return out


def tokens_lean(e):
    out = []
    for m in re.finditer(rf"get(8|16|32|64|128) oc \(?({NUM})|get_string oc ({NUM})|get_slice oc ({NUM})|"
                         rf"optString oc s ({NUM})|\bpacked\.{NEST}(\w+)|ofPair (\d) (\d)|"
                         rf"verLt v (\d) (\d)|({NUM})", e):
        g = m.groups()
        out.append(f"get {g[0]} {int(g[1], 16)}" if g[0] else f"string {int(g[2], 16)}" if g[2]
                   else f"slice {int(g[3], 16)}" if g[3] else f"get 8 {int(g[4], 16)}" if g[4]
                   else f"field {g[5]}" if g[5] else f"version {g[6]}.{g[7]}" if g[6]
                   else f"version {g[8]}.{g[9]}" if g[8] else str(int(g[10].replace("_", ""), 16)))
    return out


def body(t):
    i = t.index("fn try_from(structure")
    j = t.index("{", i)
    depth = 0
    for k in range(j, len(t)):
        depth += {"{": 1, "}": -1}.get(t[k], 0)
        if depth == 0:
            return re.sub(r"struct \w+ \{.*?\}", "", t[j:k], flags=re.S)


for src, mod, names in DECODERS:
    r = tokens_rust(body(rust(SRC + "structures/" + src + ".rs")))
    text = lean(MODEL + mod + ".lean")
    l = []
    for n in names:
        m = re.search(r"^def %s\b(.*?)(?=\n(?:def|structure|inductive|end|open|namespace)\b)" % re.escape(n),
                      text, re.M | re.S)
        l += tokens_lean(m.group(1))
    # a match on the version is a chain of comparisons in the model, so thresholds may be repeated
    thresholds = [{x for x in t if x.startswith("version")} for t in (r, l)]
    r, l = ([x for x in t if not x.startswith("version")] for t in (r, l))
    # with the arms of a match in separate definitions, only the order within an arm is the same
    same = sorted(r) == sorted(l) if len(names) > 1 else r == l
    report("decoder " + src, same and thresholds[0] == thresholds[1], f"  {thresholds}\n" +
           "\n".join("  " + x for x in difflib.unified_diff(r, l, "rust", "lean", lineterm="", n=1)))

# 3. flags
for f in sorted(glob.glob(SRC + "**/*.rs", recursive=True)):
    for name, w, consts in re.findall(r"pub struct (\w+): (u\d+) \{(.*?)\}", rust(f), re.S):
        want = [(n, int(v, 0)) for n, v in re.findall(r"const (\w+)\s*=\s*(\w+)\s*;", consts)]
        m = re.search(r"def %s\.flags : List \(String × UInt%s\) :=\n(.*?)\n\n" % (name, w[1:]), models, re.S)
        have = re.findall(r'\("(\w+)", (?:\w+\.)*(\w+)\)', m.group(1)) if m else []
        have = [(n, int(v, 0) if v[0] == "0" else
                 int(re.search(r"def (?:\w+\.)*%s\b[^\n]*:=\s*(?:⟨)?(0\w+)" % v, models).group(1), 0))
                for n, v in have]
        report("flags of " + name, want == have, f"  rust {want}\n  lean {have}")

# 4. citations
cite = re.compile(r"/--(.*?)-/\s*(?:@\[.*?\]\s*)?(def|structure|inductive|abbrev)\s+(\S+)", re.S)
total = 0
wrong = []
for f in sorted(glob.glob(MODEL + "*.lean")):
    for m in cite.finditer(open(f).read()):
        doc, name = m.group(1), m.group(3).split(".")
        for p, a, b in re.findall(r"`(src/[\w/.]+)` (\d+)(?:-(\d+))?", doc):
            a, b = int(a), int(b or a)
            lines = open(f"{REPO}/{p}").read().split("\n")
            total += 1
            if b > len(lines):
                wrong.append((f, doc.strip(), "range"))
                continue
            area = "\n".join(lines[max(0, a - 20):b])  # the name may be in the surrounding item's head
            ids = set(re.findall(r"`[^`]*`", doc.replace(f"`{p}`", "")))
            words = {w for i in ids for w in re.findall(r"\w{2,}", i)} | {w for w in name if len(w) > 2}
            words |= set(re.findall(r"\b[A-Z]{3,}\b", doc))
            if not any(re.search(r"\b%s(\b|_)" % re.escape(w), area, re.I) for w in words):
                wrong.append((os.path.basename(f), doc.strip().replace("\n", " "), f"{a}-{b}"))
report(f"{total} citations", not wrong, "\n".join(f"  {w}" for w in wrong))
sys.exit(bool(bad))
