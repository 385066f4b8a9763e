import Lean.Elab.Term
import Lean.Meta.AppBuilder
import Verif.Basic
/-!
# The data files of the crate's tests

Byte for byte copies of the files in `/repo/tests/data` that the crate's unit tests include.
-/
namespace Dmi.Tests

/-- The `n` bytes of a number, most significant first, in front of `t`. -/
def pushBytes : Nat → Nat → Bytes → Bytes
  | 0, _, t => t
  | n + 1, x, t => UInt8.ofNat (x / 256 ^ n % 256) :: pushBytes n x t

open Lean Elab Term Meta in
/-- `hex! "…"` is the list of bytes written in hexadecimal; blanks and line breaks are ignored. It is
built sixteen bytes at a time, which keeps the term small. -/
elab "hex! " s:str : term => do
  let digit (c : Char) : Option Nat :=
    if '0' ≤ c ∧ c ≤ '9' then some (c.toNat - 48)
    else if 'a' ≤ c ∧ c ≤ 'f' then some (c.toNat - 87)
    else if 'A' ≤ c ∧ c ≤ 'F' then some (c.toNat - 55) else none
  let rec pairs : List Nat → List Nat
    | a :: b :: t => (16 * a + b) :: pairs t
    | _ => []
  let ds := s.getString.toList.filter fun c => !c.isWhitespace
  let some ds := ds.mapM digit | throwError "not hexadecimal"
  unless ds.length % 2 = 0 do throwError "odd number of digits"
  let rec rows (l : List Nat) (fuel : Nat) : List (List Nat) :=
    match fuel with
    | 0 => []
    | fuel + 1 => if l.isEmpty then [] else l.take 16 :: rows (l.drop 16) fuel
  let bs := pairs ds
  let nil ← mkListLit (mkConst ``UInt8) []
  return (rows bs (bs.length + 1)).foldr (fun r t =>
    mkApp3 (mkConst ``pushBytes) (mkNatLit r.length)
      (mkNatLit (r.foldl (fun a b => 256 * a + b) 0)) t) nil

/-- The bytes of an ASCII or UTF-8 literal. -/
def str (s : List Nat) : Str := s.map UInt8.ofNat

/-- `tests/data/dmidecode.bin`. -/
def DMIDECODE_BIN : Bytes := hex! "
  5f534d5ff01f02078a000000000000005f444d495f22b00a2000000045002700861000000053544d2001010000030102
  54504d20494e464f0053797374656d2052657365727665640000042a01000403cd02a9060300fffbebbf01896400280a
  280a41210300040005000305060202040400cd00496e74656c28522920436f726528544d292069352d333332304d2043
  5055204020322e363047487a00496e74656c28522920436f72706f726174696f6e004e6f6e650043505520536f636b65
  74202d2055334531004e6f6e65004e6f6e650000071302000180002000200002000200000404074c312d436163686500
  00071303000180002000200002000200000403074c312d43616368650000071304000181000001000102000200000605
  074c322d4361636865000007130500018201000c000c02000200000605094c332d436163686500008108060001010201
  496e74656c5f41534600496e74656c5f4153465f30303100001017070003030300000001feff02000000000000000000
  0000112208000700feff4000400000100d000102188000400603040506000000000040064368616e6e656c412d44494d
  4d300042414e4b20300048796e69782f4879756e646169003036433137383637004e6f6e6500484d5433353153364346
  5238432d504220200000112209000700feff4000400000100d000102188000400603040506000000000040064368616e
  6e656c422d44494d4d300042414e4b20320048796e69782f4879756e646169003036433137383031004e6f6e6500484d
  54333531533643465238432d50422020000014230a0000000000ffff7f0008000c000101020000000000000000000000
  0000000000000014230b0000000000ffff7f0008000c00010202000000000000000000000000000000000000131f0c00
  00000000ffff7f00070002000000000000000000000000000000000000860d0d00170812200000000000000000180e00
  010200e003bf809a097d00001200030d011401074c454e4f564f0047314554343557572028312e323020290030382f30
  372f323031320000011b0f000102030481d8c3b49251cb11aa19e6932635bc8b0605064c454e4f564f00323334374134
  39005468696e6b50616420543433300050424b474e4544004c454e4f564f5f4d545f32333437005468696e6b50616420
  543433300000020f10000102030405090600000a004c454e4f564f0032333437413439004e6f7420446566696e656400
  315a4c4d42323752305632004e6f7420417661696c61626c65004e6f7420417661696c61626c65000003161100010a02
  0304020202020000000000000000054c454e4f564f004e6f7420417661696c61626c650050424b474e4544004e6f2041
  7373657420496e666f726d6174696f6e004c454e4f564f5f4d545f32333437000008091200010002071c4e6f74204176
  61696c61626c650045787465726e616c204d6f6e69746f72000008091300010002ff1c4e6f7420417661696c61626c65
  004d696e6920446973706c6179506f727400007e091400010002ff1c4e6f7420417661696c61626c6500446973706c61
  79506f72742f4456492d44203100007e091500010002ff1c4e6f7420417661696c61626c6500446973706c6179506f72
  742f4456492d4420320000080916000100021f1d4e6f7420417661696c61626c65004865616470686f6e652f4d696372
  6f70686f6e6520436f6d626f204a61636b00007e0917000100021f1d4e6f7420417661696c61626c6500486561647068
  6f6e65204a61636b00007e0918000100021f1d4e6f7420417661696c61626c65004d6963726f70686f6e65204a61636b
  0000080919000100020b1f4e6f7420417661696c61626c650045746865726e657400007e091a000100020a1e4e6f7420
  417661696c61626c65004d6f64656d000008091b0001000212104e6f7420417661696c61626c65005553422031000008
  091c0001000212104e6f7420417661696c61626c65005553422032000008091d0001000212104e6f7420417661696c61
  626c65005553422033000008091e0001000212104e6f7420417661696c61626c6500555342203400007e091f00010002
  12104e6f7420417661696c61626c6500555342203500007e09200001000212104e6f7420417661696c61626c65005553
  42203600007e09210001000212104e6f7420417661696c61626c6500555342203700007e09220001000212104e6f7420
  417661696c61626c6500555342203800007e09230001000212104e6f7420417661696c61626c6500555342203900007e
  09240001000212104e6f7420417661696c61626c650055534220313000007e09250001000212104e6f7420417661696c
  61626c650055534220313100007e09260001000221114e6f7420417661696c61626c6500494545453133393400007e09
  270001000222204e6f7420417661696c61626c6500655341544100000911280001a50803010100000200000000457870
  726573734361726420536c6f74000009112900010101030102000002000000004d65646961204361726420536c6f7400
  007e112a0001010103010300000200000000536d6172744361726420536c6f7400000a062b00810149424d20456d6265
  6464656420536563757269747920686172647761726500000c052c000000000d162d0001010000000000000000000000
  0000000001656e2d55530000161a2e000102000003029012302a04ff31091b41050a00000000526561720053414e594f
  0034354e313030310030332e3031004c494f4e00007e1a2f000102000003020000000004ff00000000050a0000000000
  001217300003020200000000000000800000008000000080000015073100050403000015073200070402000083163300
  0100000000000000000000000000000000015456542d456e61626c656d656e740000880634005a5a0000821435002441
  4d540101010101a5ff02000001000000834036003f0000000800000000003f00f800551effffffff09e0000000000800
  da050c0000000000c80002150000000000000000660000007650726f000000000000874a37005450070242415920492f
  4f20030006ff00000000000000ff00000000000000ff00000000000000ff00000000000000ff00000000000000ff0000
  000000000006000204ff03ff000085053800014b484f494847495543434848494900000f513900420000001000040103
  000000f0000000011d020103020303000400050006000700080409000a000b000c000d000e0010001100120013001400
  150016001700800081008200830084008500860000008c433a004c454e4f564f0b00014564a2cc51fa44878bd869276b
  bf083a010000000000000000000000000000000000000000000000000000000000000000000000000000008c2f3b004c
  454e4f564f0b01012900dc6a29146f99496ef1e0f8165ce096da00000000100010001001d0002001000100008c3f3c00
  4c454e4f564f0b0201000000000000000000000000000000000000000000000000000000000000000000000000000000
  000000000000000000000000008c113d004c454e4f564f0b03010000000000008c133e004c454e4f564f0b0401b2004d
  532000000018053f002200008407400001d8360000871241005450070101d2000000000000000000008c0f42004c454e
  4f564f0b0701010247314854323957570030352f32352f3230313200008c2b43004c454e4f564f0b0801ffffffffffff
  ffffffffffffffffffffffffffffffffffffffffffffffff00007f04fffe0000"

/-- `tests/data/entry.bin`. -/
def ENTRY_V2_BIN : Bytes := hex! "
  5f534d5ff01f02078a000000000000005f444d495fefb00a00d0a9da450027"

/-- `tests/data/dmi.bin`. -/
def DMI_V2_BIN : Bytes := hex! "
  861000000053544d200101000003010254504d20494e464f0053797374656d2052657365727665640000042a01000403
  cd02a9060300fffbebbf01896400280a280a41210300040005000305060202040400cd00496e74656c28522920436f72
  6528544d292069352d333332304d20435055204020322e363047487a00496e74656c28522920436f72706f726174696f
  6e004e6f6e650043505520536f636b6574202d2055334531004e6f6e65004e6f6e650000071302000180002000200002
  000200000404074c312d43616368650000071303000180002000200002000200000403074c312d436163686500000713
  04000181000001000102000200000605074c322d4361636865000007130500018201000c000c02000200000605094c33
  2d436163686500008108060001010201496e74656c5f41534600496e74656c5f4153465f303031000010170700030303
  00000001feff020000000000000000000000112208000700feff4000400000100d000102188000400603040506000000
  000040064368616e6e656c412d44494d4d300042414e4b20300048796e69782f4879756e646169003036433137383637
  004e6f6e6500484d54333531533643465238432d504220200000112209000700feff4000400000100d00010218800040
  0603040506000000000040064368616e6e656c422d44494d4d300042414e4b20320048796e69782f4879756e64616900
  3036433137383031004e6f6e6500484d54333531533643465238432d50422020000014230a0000000000ffff7f000800
  0c0001010200000000000000000000000000000000000014230b0000000000ffff7f0008000c00010202000000000000
  000000000000000000000000131f0c0000000000ffff7f00070002000000000000000000000000000000000000860d0d
  00170812200000000000000000180e00010200e003bf809a097d00001200030d011401074c454e4f564f004731455434
  3557572028312e323020290030382f30372f323031320000011b0f000102030481d8c3b49251cb11aa19e6932635bc8b
  0605064c454e4f564f0032333437413439005468696e6b50616420543433300050424b474e4544004c454e4f564f5f4d
  545f32333437005468696e6b50616420543433300000020f10000102030405090600000a004c454e4f564f0032333437
  413439004e6f7420446566696e656400315a4c4d42323752305632004e6f7420417661696c61626c65004e6f74204176
  61696c61626c65000003161100010a020304020202020000000000000000054c454e4f564f004e6f7420417661696c61
  626c650050424b474e4544004e6f20417373657420496e666f726d6174696f6e004c454e4f564f5f4d545f3233343700
  0008091200010002071c4e6f7420417661696c61626c650045787465726e616c204d6f6e69746f720000080913000100
  02ff1c4e6f7420417661696c61626c65004d696e6920446973706c6179506f727400007e091400010002ff1c4e6f7420
  417661696c61626c6500446973706c6179506f72742f4456492d44203100007e091500010002ff1c4e6f742041766169
  6c61626c6500446973706c6179506f72742f4456492d4420320000080916000100021f1d4e6f7420417661696c61626c
  65004865616470686f6e652f4d6963726f70686f6e6520436f6d626f204a61636b00007e0917000100021f1d4e6f7420
  417661696c61626c65004865616470686f6e65204a61636b00007e0918000100021f1d4e6f7420417661696c61626c65
  004d6963726f70686f6e65204a61636b0000080919000100020b1f4e6f7420417661696c61626c650045746865726e65
  7400007e091a000100020a1e4e6f7420417661696c61626c65004d6f64656d000008091b0001000212104e6f74204176
  61696c61626c65005553422031000008091c0001000212104e6f7420417661696c61626c65005553422032000008091d
  0001000212104e6f7420417661696c61626c65005553422033000008091e0001000212104e6f7420417661696c61626c
  6500555342203400007e091f0001000212104e6f7420417661696c61626c6500555342203500007e0920000100021210
  4e6f7420417661696c61626c6500555342203600007e09210001000212104e6f7420417661696c61626c650055534220
  3700007e09220001000212104e6f7420417661696c61626c6500555342203800007e09230001000212104e6f74204176
  61696c61626c6500555342203900007e09240001000212104e6f7420417661696c61626c650055534220313000007e09
  250001000212104e6f7420417661696c61626c650055534220313100007e09260001000221114e6f7420417661696c61
  626c6500494545453133393400007e09270001000222204e6f7420417661696c61626c65006553415441000009112800
  01a50803010100000200000000457870726573734361726420536c6f7400000911290001010103010200000200000000
  4d65646961204361726420536c6f7400007e112a0001010103010300000200000000536d6172744361726420536c6f74
  00000a062b00810149424d20456d62656464656420536563757269747920686172647761726500000c052c000000000d
  162d00010100000000000000000000000000000001656e2d55530000161a2e000102000003029012302a04ff31091b41
  050a00000000526561720053414e594f0034354e313030310030332e3031004c494f4e00007e1a2f0001020000030200
  00000004ff00000000050a00000000000012173000030202000000000000008000000080000000800000150731000504
  030000150732000704020000831633000100000000000000000000000000000000015456542d456e61626c656d656e74
  0000880634005a5a00008214350024414d540101010101a5ff02000001000000834036003f0000000800000000003f00
  f800551effffffff09e0000000000800da050c0000000000c80002150000000000000000660000007650726f00000000
  0000874a37005450070242415920492f4f20030006ff00000000000000ff00000000000000ff00000000000000ff0000
  0000000000ff00000000000000ff0000000000000006000204ff03ff000085053800014b484f49484749554343484849
  4900000f513900420000001000040103000000f0000000011d020103020303000400050006000700080409000a000b00
  0c000d000e0010001100120013001400150016001700800081008200830084008500860000008c433a004c454e4f564f
  0b00014564a2cc51fa44878bd869276bbf083a0100000000000000000000000000000000000000000000000000000000
  00000000000000000000008c2f3b004c454e4f564f0b01012900dc6a29146f99496ef1e0f8165ce096da000000001000
  10001001d0002001000100008c3f3c004c454e4f564f0b02010000000000000000000000000000000000000000000000
  00000000000000000000000000000000000000000000000000000000008c113d004c454e4f564f0b0301000000000000
  8c133e004c454e4f564f0b0401b2004d532000000018053f002200008407400001d8360000871241005450070101d200
  0000000000000000008c0f42004c454e4f564f0b0701010247314854323957570030352f32352f3230313200008c2b43
  004c454e4f564f0b0801ffffffffffffffffffffffffffffffffffffffffffffffffffffffffffff00007f04fffe0000"

/-- `tests/data/entry_v3.bin`. -/
def ENTRY_V3_BIN : Bytes := hex! "
  5f534d335fed1803000001009515000000ae0e0000000000"

/-- `tests/data/dmi_v3.bin`. -/
def DMI_V3_BIN : Bytes := hex! "
  00180000010200f003ff809a893f00001700030f0201ffff44656c6c20496e632e00322e312e390030312f32342f3230
  31370000011b01000203000544454c4c4b00104e805ab7c04f424832060401507265636973696f6e0044656c6c20496e
  632e00507265636973696f6e20546f7765722033363230003036423700374b4e5a4248320000020f0200010203040009
  0003000a0044656c6c20496e632e0030395748353400413031002f374b4e5a4248322f434e373232303036434630314c
  582f00000316030001030002000303030300000000000100030344656c6c20496e632e00374b4e5a424832004465736b
  746f7000000b0504000644656c6c2053797374656d00315b303642375d00335b312e305d0031325b7777772e64656c6c
  2e636f6d5d0031345b315d0031355b335d00000c0505000144656661756c7420737472696e6700000f23060004000000
  02000200000000006a046c04000602ffffffffffffffffffffffff000019090700000000000000002014080000000000
  00000000000000000000000000001017090003030300000004feff04000000000000000000000011280a000900feff40
  0040000020090001001a80005508020304050200000000550800000000b00444494d4d31003830414430303030383041
  4400323832323139334300303131363435303000484d413431475536414652384e2d544620202020000011280b000900
  feff400040000020090001001a80005508020304050200000000550800000000b00444494d4d32003830414430303030
  3830414400323832323139323800303131363435303000484d413431475536414652384e2d544620202020000011280c
  000900feffffffffff0000020001000200000000000000000000000000000000000000000044494d4d33000011280d00
  0900feffffffffff0000020001000200000000000000000000000000000000000000000044494d4d340000131f0e0000
  000000ffffff0009000200000000000000000000000000000000000007130f000180010001000120002000000405074c
  312043616368650000071310000181010004000420002000000505054c32204361636865000007131100018201002000
  2020002000000605084c332043616368650000043012000103b302e3060500fffbebbf038b64003011e40c41010f0010
  001100040506040404ec00b3000400040004005533453100496e74656c28522920436f72706f726174696f6e00496e74
  656c2852292058656f6e285229204350552045332d31323235207635204020332e333047487a00546f2042652046696c
  6c6564204279204f2e452e4d2e00546f2042652046696c6c6564204279204f2e452e4d2e00546f2042652046696c6c65
  64204279204f2e452e4d2e0000080913000000010f0e5053324d6f7573650000080914000000010f0d5053324b657962
  6f6172640000080915000000010b1f4c414e000008091600000001ff1c48444d49000008091700000001ff1c44697370
  6c6179506f72742031000008091800000001ff1c446973706c6179506f72742032000008091900000001080953657269
  616c000008091a000000011f1d4c696e652d6f7574000008091b000000011f1d4c696e652d696e2f4d6963000008091c
  000000011210526561722055534220332e30000008091d000000011210526561722055534220332e30000008091e0000
  00011210526561722055534220332e30000008091f000000011210526561722055534220332e30000008092000000001
  1210526561722055534220322e300000080921000000011210526561722055534220322e300000080922000122000020
  534154413000000809230001220000205341544131000008092400012200002053415441320000080925000122000020
  534154413300000809260001ff0000ff46414e5f43505500000809270001ff0000ff46414e5f53595300000809280001
  ff0000ff494e54525544455200000809290001ff0000ff494e545f53504b52000008092a0001ff0000ff5448524d5f32
  000008092b000112000010494e545f555342000008092c0001ff021f1d46524f4e5450414e454c004d6963726f70686f
  6e65000008092d0001ff021f1d46524f4e5450414e454c004865616470686f6e65000008092e0001ff02121046524f4e
  5450414e454c0046726f6e742055534220322e30000008092f0001ff02121046524f4e5450414e454c0046726f6e7420
  55534220322e3000000809300001ff021210555342335f46524f4e540046726f6e742055534220332e30000008093100
  01ff021210555342335f46524f4e540046726f6e742055534220332e3000000911320001b10d04040100040100000100
  534c4f54310000091133000106080304020004010000ffff534c4f543200000911340001a5050303030004010000ffff
  534c4f543300000911350001b00a04040400040100000500534c4f543400000911360001170904010500040100000200
  534c4f543500000a063700030122496e74656c2048442047726170686963732200000a063800850122496e74656c204c
  4f4d2200000a063900870122496e74656c20484420417564696f220000290b3a0001030100000010496e74656c204844
  2047726170686963730000290b3b0001850100000098496e74656c204c4f4d0000290b3c00018701000000d8496e7465
  6c20484420417564696f0000290b3d00018901000000fa4f6e626f61726420534154412023310000290b3e0001090200
  0000fd4f6e626f6172642053415441202332000014233f0000000000ffff7f000a000e00010102000000000000000000
  0000000000000000001423400000008000ffffff000b000e000102020000000000000000000000000000000000001b0f
  001b001c650000dd00007017014350552046616e00001b0f011b011c660001dd00007017014d6f74686572626f617264
  2046616e00001c16001c0163f6040afbe8030080008000dc0000640043505520546865726d616c2050726f626500001c
  16011c0167f6040afbe8030080008001dc000064005472756520416d6269656e740000b10c00b1020000000000000000
  00b25000b207010c0008010a0009010b000a0112003b002000300024004200180048001400500013001000ff001100ff
  001200ff001300ff001400ff001e00ff001f00ff002000ff002100ff002200ff00202020202020202020202020202020
  20202020202020202020202020202020202020202020202020202020200000d01000d0030afe00b70601020000000032
  303137303230380032303137303231340000d20c00d2f8030403068004030000d80900d8010201880022496e74656c20
  436f72702e22002232303839220000dafb00dab20004ef1eb6000500050003000600060005000f000f00000011001100
  02001200120004001e001e0000002200220001002300230000002800280000002900290001002a002a0002002b002b00
  ffff2c002c00ffff2d002d0002002e002e0000004200420001004300430000005000500001005500550000005c005c00
  01005d005d0000006d006d0005006e006e00010090009000010091009100000092009200020093009300010094009400
  00009700970001009800980000009b009b0001009d009d0001009e009e0000009f009f000000a000a0000100a100a100
  0000a200a2000200a300a3000100ed00ed000000ffffffff00000000dafb01dab20004ef1eb600f000f0000100f500f5
  000400f600f60000000901090100001701170100001801180101001901190100001a011a0101001b011b0100001c011c
  0101001d011d0100001e011e0101001f011f0100002001200101002b012b0101002c012c01000035013501ff00380138
  0101003901390102004001400100004101410101004401440100004501450101004601460100004701470101004a014a
  0100004b014b0101004c014c0101004d014d0100004e014e0100004f014f010100540154010000550155010100680168
  0100006901690101007501750102007601760101009801980104009b019b010000ffffffff00000000dafb02dab20004
  ef1eb6009c019c010100a101a1010000a201a2010100a301a3010000a401a4010100a501a5010000a601a6010100a701
  a7010000a801a8010100a901a9010000aa01aa010100ab01ab010000ac01ac010100de01de010000df01df010100e801
  e8010000e901e9010100ea01ea010000eb01eb0101000202020200000302030201000402040200000502050201001602
  160206002d022d0201002e022e0200003202320202003302330201003502350201003602360200004a024a0201004b02
  4b0201004c024c020000640264020100650265020000660266020100670267020000680268020100690269020000ffff
  ffff00000000dafb03dab20004ef1eb6006c026c0201006d026d0200006e026e020000a702a7020100a802a8020000b9
  02b9020100ba02ba020000bd02bd020100be02be020000cd02cd020100d802d802ffffd902d902ffffda02da02ffffdb
  02db02ffffdc02dc02ffffdd02dd02ffffde02de02ffffdf02df02ffffe302e3020100e402e4020000e502e5020100f4
  02f4020100f502f5020000fd02fd020100fe02fe0200000f030f03020012031203030013031303010014031403000015
  03150301001603160300001703170301001803180300001903190301001a031a0300001b031b0301001c031c0300001d
  031d0301001e031e030000ffffffff00000000dafb04dab20004ef1eb6001f031f030100200320030000250325030100
  2603260301002d032d0301002e032e0300004f034f0301005003500300005703570300005803580301005d035d030100
  5e035e0300005f035f0301006003600300006103610301006203620300006903690300006a036a0301006b036b030200
  6f036f03ffff830383030700a203a2030100a303a3030000be03be03ffffc103c1030200c203c2030300c303c3030400
  c503c5030100c903c9030100ca03ca030000e203e2030000e303e3030100e403e4030000e503e5030100e603e6030000
  e703e7030100e803e8030000e903e9030100f603f6030100ffffffff00000000dae905dab20004ef1eb600f703f70300
  00fc03fc030100fd03fd0300001a041a0401001b041b0400001e041e0401001f041f04000020042004ffff2b042b04ff
  ff31043104ffff3204320401003304330400003604360401003704370400003a043a0401003b043b0400006104610401
  006204620400007d047d0401007e047e0400008504850401008604860400003e403e4000003f403f4001000080008000
  000280028002000380038003000c800c8000000d800d80000011801180ffff00a000a0010004a004a0010000f000f055
  0002f002f0030005f005f07f0006f006f00000ffffffff00000000da4106dab20004ef1eb60000f100f1010002f102f1
  010010f110f1010012f112f1010000f600f6010001f601f6010010f610f6010011f611f60100ffffffff00000000dc16
  00dc00f1000002f10000000000000000000000000000dc1601dc10f1000012f10000000000000000000000000000dd13
  00dd02010000f601f600000000000000000000dd1301dd02010010f611f600000000000000000000de1000de01040000
  17050919390100000000821423f024414d540101010101a5af02800001000000834024f03f0000000b00000000000800
  f80049a10000000009c0000006000b00bc040d0000000000fe00b7150000000000000000260000007650726f00000000
  0000ed1a25f003010001000400000200000000a000030000050000005265666572656e636520436f6465202d20435055
  0075436f64652056657273696f6e005458542041434d2076657273696f6e0000ed1a26f0030100010004000002000b00
  00080003040b060dbc045265666572656e636520436f6465202d204d452031312e30004d4542782076657273696f6e00
  4d45204669726d776172652056657273696f6e00436f72706f7261746520534b550000ed4427f0090100010004000002
  03ffffffffff0400ffffff31000500ffffff31000600ffffffffff07003e000000000800340000000009003e00000000
  0a0034000000005265666572656e636520436f6465202d20534b4c20504348005043482d435249442053746174757300
  44697361626c6564005043482d43524944204f726967696e616c2056616c7565005043482d43524944204e6577205661
  6c7565004f50524f4d202d20525354202d205241494400534b4c205043482048204278204873696f2056657273696f6e
  00534b4c205043482048204478204873696f2056657273696f6e00534b4c20504348204c50204278204873696f205665
  7273696f6e00534b4c20504348204c50204378204873696f2056657273696f6e0000ed3628f007010001000400000200
  0200000600030001000400000405ffffffffff0600ffffff07000700ffffff07000800ffffff02035265666572656e63
  6520436f6465202d205341202d2053797374656d204167656e74005265666572656e636520436f6465202d204d524300
  5341202d20504349652056657273696f6e0053412d43524944205374617475730044697361626c65640053412d435249
  44204f726967696e616c2056616c75650053412d43524944204e65772056616c7565004f50524f4d202d205642494f53
  0000ed6729f00e0100000000a6000200ffffffffff0304ffffffffff0506ffffffffff0708ffffffffff090000000000
  000a00ffffffffff0b00ffff0000000c00ffffffffff0d0002000000000e00ffffffffff0f00ffffffffff1011010303
  0100120000070300004c616e205068792056657273696f6e0053656e736f72204669726d776172652056657273696f6e
  004465627567204d6f6465205374617475730044697361626c656400506572666f726d616e6365204d6f646520537461
  7475730044697361626c656400446562756720557365205553422844697361626c65643a53657269616c290044697361
  626c656400494343204f766572636c6f636b696e672056657273696f6e00554e44492056657273696f6e004543204657
  2056657273696f6e00474f502056657273696f6e0042494f532047756172642056657273696f6e004261736520454320
  46572056657273696f6e0045432d45432050726f746f636f6c2056657273696f6e00526f79616c205061726b20566572
  73696f6e004250312e332e332e305f5250303100506c6174666f726d2056657273696f6e0000880636f05a5a00000e14
  37f001ed25f0ed26f0ed27f0ed28f0ed29f04669726d776172652056657273696f6e20496e666f00000d1638f0020000
  000000000000000000000000000001656e7c55537c69736f383835392d3100000e0839f001eb0000244d45490000eb51
  3af001030145020094068110893000000000400800011f0000c90bc04702ffffffffffffffffffffffffffffffffffff
  ffffffffffff030000008000000000000000000000000000000000000000004d454931004d454932004d45493300007f
  043bf00000"

/-- `tests/data/dmi_v3_short.bin`. -/
def DMI_V3_SHORT : Bytes := hex! "
  00180000010200f003ff80988b3f01000000030d0506ffff416d65726963616e204d6567617472656e647320496e632e
  00322e300031322f31382f323031350000011b010001020304000000000000000000000cc47a7939ba06050653757065
  726d6963726f00537570657220536572766572003031323334353637383900303132333435363738390044656661756c
  7420737472696e670044656661756c7420737472696e670000020f02000102030405090603000a0053757065726d6963
  726f0058313044414c2d6900312e3032005a4d313539533031373434330044656661756c7420737472696e6700446566
  61756c7420737472696e6700000316030001110203040303030300000000000100030553757065726d6963726f003031
  323334353637383900303132333435363738390044656661756c7420737472696e670044656661756c7420737472696e
  670000080904000100020f0e4a314131005053324d6f7573650000080905000100020f0d4a314131004b6579626f6172
  640000080906000100021dff4a324131005456204f757400000809070001000208094a3241324100434f4d2041000008
  090800010002071c4a3241324200566964656f00000809090001000212104a3341310055534231000008090a00010002
  12104a3341310055534232000008090b0001000212104a3341310055534233000008090c0001ff0000ff4a394131202d
  2054504d20484452000008090d0001ff0000ff4a394331202d205043494520444f434b494e4720434f4e4e000008090e
  0001ff0000ff4a324233202d204350552046414e000008090f0001ff0000ff4a364332202d204558542048444d490000
  0809100001ff0000ff4a334331202d20474d43482046414e00000809110001ff0000ff4a314431202d20495450000008
  09120001ff0000ff4a394532202d204d444320494e5450535200000809130001ff0000ff4a394534202d204d44432049
  4e5450535200000809140001ff0000ff4a394533202d204c504320484f5420444f434b494e4700000809150001ff0000
  ff4a394531202d205343414e204d415452495800000809160001ff0000ff4a394731202d204c50432053494445204241
  4e4400000809170001ff0000ff4a384631202d20554e494649454400000809180001ff0000ff4a364631202d204c5644
  5300000809190001ff0000ff4a324631202d204c41492046414e000008091a0001ff0000ff4a324731202d2047465820
  564944000008091b0001ff0000ff4a314736202d204143204a41434b000009111c0001b60b040301000c010000010043
  50553120534c4f5431205043492d4520332e302058382028494e2058313629000009111d0001b50a030302000c010000
  ff004350553220534c4f5432205043492d4520332e302058342028494e20583829000009111e0001b60d040303000c01
  000002004350553120534c4f5433205043492d4520332e3020583136000009111f0001b60d030305000c010000030043
  50553120534c4f5435205043492d4520332e302058313600000911200001af0a030306000c010000ff0050434820534c
  4f5436205043492d4520322e302058342028494e2058382900000b05210002496e74656c2048617377656c6c2f57656c
  6c73627572672f4772616e746c65790053757065726d6963726f206d6f74686572626f6172642d583130205365726965
  7300000c0522000144656661756c7420737472696e67000020142300000000000000000000000000000000000000220b
  240001020000000002554e4b4e4f574e00001a1625000100008000800080008000800000000000804c4d373841000024
  1026000100020003000400050006000000230b27000124002400250044656661756c7420737472696e6700001c162800
  0100008000800080008000800000000000804c4d3738410000241029000100020003000400050006000000230b2a0001
  24002700280044656661756c7420737472696e6700001b0f2b002800120100000000008001436f6f6c696e6720446576
  2031000024102c000100020003000400050006000000230b2d000124002a002b0044656661756c7420737472696e6700
  001b0f2e002800120100000000008000000024102f000100020003000400050006000000230b30000124002d002e0044
  656661756c7420737472696e6700001d1631000100008000800080008000800000000000804142430000241032000080
  008000800080008000800000230b330001240030002e0044656661756c7420737472696e670000221034000102000000
  0002554e4b4e4f574e2d3200001a1635000100008000800080008000800000000000804c4d3738420000241036000700
  080008000a000b000c000000230b37000134003400350044656661756c7420737472696e6700001a1638000100008000
  800080008000800000000000804c4d3738420000241039000d000e000f001000110012000000230b3a00013400370038
  0044656661756c7420737472696e6700001c163b000100008000800080008000800000000000804c4d37384200002410
  3c000100020003000400050006000000230b3d000134003a003b0044656661756c7420737472696e6700001b0f3e003b
  00120100000000008001436f6f6c696e67204465762032000024103f000100020003000400050006000000230b400001
  34003d003e0044656661756c7420737472696e6700001c1641000100008000800080008000800000000000804c4d3738
  420000241042000100020003000400050006000000230b43000134004000410044656661756c7420737472696e670000
  1b0f44004100120100000000008001436f6f6c696e672044657620320000241045000100020003000400050006000000
  230b46000134004300440044656661756c7420737472696e6700001d1647000100008000800080008000800000000000
  804445460000241048000080008000800080008000800000230b49000134004600440044656661756c7420737472696e
  6700001d164a00010000800080008000800080000000000080474849000024104b000080008000800080008000800000
  230b4c000134004900440044656661756c7420737472696e670000290b4d0001850100000500496e74656c2045746865
  726e657420693231302023310000290b4e0001850200000600496e74656c2045746865726e6574206932313020233200
  0010174f0003030600000010feff040000000000000000000000112850004f00feff480040000040090001021a800055
  08030405060200000000400600000000000050312d44494d4d41310050305f4e6f6465305f4368616e6e656c305f4469
  6d6d300053616d73756e670037323930374639340050312d44494d4d41315f41737365745461672028646174653a3135
  2f323529004d33393341324734304442302d4350422020200000112851004f00feff000000000000090001021a800000
  00030405060000000000000000000000000050312d44494d4d42310050305f4e6f6465305f4368616e6e656c315f4469
  6d6d30004e4f2044494d4d004e4f2044494d4d004e4f2044494d4d004e4f2044494d4d0000112852004f00feff000000
  000000090001021a80000000030405060000000000000000000000000050312d44494d4d43310050305f4e6f6465305f
  4368616e6e656c325f44696d6d30004e4f2044494d4d004e4f2044494d4d004e4f2044494d4d004e4f2044494d4d0000
  112853004f00feff000000000000090001021a80000000030405060000000000000000000000000050312d44494d4d44
  310050305f4e6f6465305f4368616e6e656c335f44696d6d30004e4f2044494d4d004e4f2044494d4d004e4f2044494d
  4d004e4f2044494d4d00001017540003030600000010feff040000000000000000000000112855005400feff00000000
  0000090001021a80000000030405060000000000000000000000000050322d44494d4d45310050315f4e6f6465315f43
  68616e6e656c305f44696d6d30004e4f2044494d4d004e4f2044494d4d004e4f2044494d4d004e4f2044494d4d000011
  2856005400feff000000000000090001021a80000000030405060000000000000000000000000050322d44494d4d4631
  0050315f4e6f6465315f4368616e6e656c315f44696d6d30004e4f2044494d4d004e4f2044494d4d004e4f2044494d4d
  004e4f2044494d4d0000112857005400feff000000000000090001021a80000000030405060000000000000000000000
  000050322d44494d4d47310050315f4e6f6465315f4368616e6e656c325f44696d6d30004e4f2044494d4d004e4f2044
  494d4d004e4f2044494d4d004e4f2044494d4d0000112858005400feff000000000000090001021a8000000003040506
  0000000000000000000000000050322d44494d4d48310050315f4e6f6465315f4368616e6e656c335f44696d6d30004e
  4f2044494d4d004e4f2044494d4d004e4f2044494d4d004e4f2044494d4d0000131f590000000000ffffff004f000100
  000000000000000000000000000000000014235a0000000000ffffff0050005900010000000000000000000000000000
  0000000000000f495b00ffff00001000030101000000000054ff0119020103020303000400050006000700080409030a
  030b000c000d000e0010001100120013001400150016001700ff00e0e0e1e1000007135c000180018001800102000200
  0004010743505520496e7465726e616c204c31000007135d0001810100060006020002000005050743505520496e7465
  726e616c204c32000007135e00018201003c003c020002000005050e43505520496e7465726e616c204c330000042a5f
  000103b302f2060300fffbebbf03926400a00f4006412b5c005d005e00000000060606ec00b3004350553100496e7465
  6c00496e74656c2852292058656f6e285229204350552045352d32363033207633204020312e363047487a0000071360
  0001800180018001020002000004010743505520496e7465726e616c204c310000071361000181010006000602000200
  0005050743505520496e7465726e616c204c32000007136200018201003c003c020002000005050e43505520496e7465
  726e616c204c330000042a63000103b302f2060300fffbebbf03926400a00f4006412b600061006200000000060606ec
  00b3004350553200496e74656c00496e74656c2852292058656f6e285229204350552045352d32363033207633204020
  312e363047487a00000d166400010000000000000000000000000000000001656e7c55537c69736f383835392d310000
  7f0465000000"

/-- `tests/data/entry_v3_short.bin`. -/
def ENTRY_V3_SHORT : Bytes := hex! "
  5f534d335f641803000001003b1d0000b0d90e0000000000"

/-- `tests/data/dmi.0.bin`. -/
def DMI_0_BIN : Bytes := hex! "
  5f534d335f191803020001000513000020000000000000000000000000000000da1100dab20017200e1003ffff000000
  000000001a0000010200f003ff909ae95900001f00030f0208ffff200044656c6c20496e632e00322e382e320030382f
  32372f323032300000011b00010102000333221100554477668899aabbccddeeff06050444656c6c20496e632e00506f
  7765724564676520523737377364005858585858585800506f7765724564676500534b553d303737373b4d6f64656c4e
  616d653d506f77657245646765205237373773640000020800020102030444656c6c20496e632e00303838383838004d
  3033002e585858585858582e58585858585858585858585858582e0000031c0003019700020003030302010101010202
  020391010203ff000344656c6c20496e632e005858585858585800534b55204e756d6265720000043000040103b30254
  060500fffbebbf0392a028a00f980841260007010702070000000e0e1cfc00b3000e000e001c004350553100496e7465
  6c00496e74656c2852292058656f6e28522920476f6c64203531323020435055204020322e323047487a000004300104
  0103b30254060500fffbebbf0392a028a00f980841260307040705070000000e0e1cfc00b3000e000e001c0043505532
  00496e74656c00496e74656c2852292058656f6e28522920476f6c64203531323020435055204020322e323047487a00
  00071b000700800180038003020002000004050700000000000000000000071b01070081010038003802000200000505
  0800000000000000000000071b0207008201004d004d020002000005050600000000000000000000071b030700800180
  038003020002000004050700000000000000000000071b04070081010038003802000200000505080000000000000000
  0000071b0507008201004d004d020002000005050600000000000000000000080900080112000010496e7465726e616c
  2055534220706f72742031000008090108000001121046726f6e742055534220706f7274203100000809020800000112
  104261636b2055534220706f72742031000008090308000001121046726f6e742055534220706f727420320000080904
  0800000112104261636b2055534220706f72742032000008090508000001071c566964656f20706f7274203100000809
  0608000001080953657269616c20706f727420310000080907080000010b1f310000080908080000010b1f3200000809
  09080000010b1f33000008090a080000010b1f3400000911000901b60b030401000401ffffffff5043496520536c6f74
  203100000911010901b60b030402000401ffffffff5043496520536c6f74203200000911020901b60b030403000401ff
  ffffff5043496520536c6f74203300000911030901b10d0404040004010000af005043496520536c6f74203400000b05
  000b0944656c6c2053797374656d00355b303030305d0031345b315d0032365b305d0031375b32303130363836354538
  3541453735425d0031375b323031353539453535424534323832415d0031385b305d0031395b315d0031395b315d0000
  0c05000c024e5652414d5f434c523a20436c6561722075736572207365747461626c65204e5652414d20617265617320
  616e64207365742064656661756c747300505752445f454e3a20436c6f736520746f20656e61626c652070617373776f
  726400000d16000d010000000000000000000000000000000001656e7c55537c69736f383835392d3100001017001003
  030600000080feff180000000000800700000000115400110010feff480040000040090101001a802055080203040502
  000000005508b004b004b004030800000000000000000000000000000000000000000000040000000000000000000000
  000000000000000041310030304144303042333030414400585858585858585800303131353339333000484d41343247
  52374d4652344e2d54460000115401110010feff480040000040090101001a802055080203040502000000005508b004
  b004b0040308000000000000000000000000000000000000000000000400000000000000000000000000000000000000
  41320030304144303042333030414400585858585858585800303131363033333000484d4134324752374d4652344e2d
  54460000115402110010feff480040000040090101001a802055080203040502000000005508b004b004b00403080000
  000000000000000000000000000000000000000004000000000000000000000000000000000000004133003030324330
  3042333030324300585858585858585800304631343439333000333641534632473732505a2d32473141320000115403
  110010feff480040000040090101001a802055080203040502000000005508b004b004b0040308000000000000000000
  000000000000000000000000000400000000000000000000000000000000000000413400303032433030423330303243
  00585858585858585800304631353237333000333641534632473732505a2d32473141320000115404110010feff0000
  000000000201010002000000000000000000000000000000000000000000000000000000000000000000000000000000
  000000000000000000000000000000000000000000000000000041350000115405110010feff00000000000002010100
  020000000000000000000000000000000000000000000000000000000000000000000000000000000000000000000000
  00000000000000000000000000000000000041360000115406110010feff000000000000020201000200000000000000
  000000000000000000000000000000000000000000000000000000000000000000000000000000000000000000000000
  0000000000000000000041370000115407110010feff0000000000000202010002000000000000000000000000000000
  000000000000000000000000000000000000000000000000000000000000000000000000000000000000000000000000
  000041380000115408110010feff00000000000002020100020000000000000000000000000000000000000000000000
  000000000000000000000000000000000000000000000000000000000000000000000000000000000000413900001154
  09110010feff000000000000020201000200000000000000000000000000000000000000000000000000000000000000
  00000000000000000000000000000000000000000000000000000000000000000000413130000011540a110010feff00
  000000000002020100020000000000000000000000000000000000000000000000000000000000000000000000000000
  000000000000000000000000000000000000000000000000000000413131000011540b110010feff0000000000000202
  010002000000000000000000000000000000000000000000000000000000000000000000000000000000000000000000
  0000000000000000000000000000000000000000413132000011540c110010feff480040000040090301001a80205508
  0203040502000000005508b004b004b00403080000000000000000000000000000000000000000000004000000000000
  000000000000000000000000004231003030414430304233303041440058585858585858580030313135333933300048
  4d4134324752374d4652344e2d5446000011540d110010feff480040000040090301001a802055080203040502000000
  005508b004b004b004030800000000000000000000000000000000000000000000040000000000000000000000000000
  000000000042320030303243303042333030324300585858585858585800304631353236333000333641534632473732
  505a2d3247314132000011540e110010feff480040000040090301001a802055080203040502000000005508b004b004
  b00403080000000000000000000000000000000000000000000004000000000000000000000000000000000000004233
  0030304144303042333030414400585858585858585800303131353337333000484d4134324752374d4652344e2d5446
  000011540f110010feff480040000040090301001a802055080203040502000000005508b004b004b004030800000000
  000000000000000000000000000000000000040000000000000000000000000000000000000042340030304144303042
  333030414400585858585858585800303131353338333000484d4134324752374d4652344e2d54460000115410110010
  feff00000000000002030100020000000000000000000000000000000000000000000000000000000000000000000000
  00000000000000000000000000000000000000000000000000000000000042350000115411110010feff000000000000
  020301000200000000000000000000000000000000000000000000000000000000000000000000000000000000000000
  0000000000000000000000000000000000000000000042360000115412110010feff0000000000000204010002000000
  000000000000000000000000000000000000000000000000000000000000000000000000000000000000000000000000
  000000000000000000000000000042370000115413110010feff00000000000002040100020000000000000000000000
  000000000000000000000000000000000000000000000000000000000000000000000000000000000000000000000000
  00000000000042380000115414110010feff000000000000020401000200000000000000000000000000000000000000
  000000000000000000000000000000000000000000000000000000000000000000000000000000000000000000004239
  0000115415110010feff0000000000000204010002000000000000000000000000000000000000000000000000000000
  000000000000000000000000000000000000000000000000000000000000000000000000000042313000001154161100
  10feff000000000000020401000200000000000000000000000000000000000000000000000000000000000000000000
  000000000000000000000000000000000000000000000000000000000000004231310000115417110010feff00000000
  000002040100020000000000000000000000000000000000000000000000000000000000000000000000000000000000
  0000000000000000000000000000000000000000000000004231320000131f001300000000ffff1f0000100200000000
  0000000000000000000000000000131f011300004000ffff1f0800100200000000000000000000000000000000000020
  0b002000000000000000000026120026012020ffa90c0000000000004a0a00002716002700000102030004004c041309
  ffffffffffff5057522053504c592c31313030572c52444e542c44454c544120202020200044454c4c00585858585858
  585858585858585800305932364b5841303200002716012700000102030004004c041309ffffffffffff505752205350
  4c592c31313030572c52444e542c44454c544120202020200044454c4c00585858585858585858585858585800305932
  364b584130320000290b002901850100001800496e7465677261746564204e494320310000290b012901850200001801
  496e7465677261746564204e494320320000290b022901850300001900496e7465677261746564204e49432033000029
  0b032901850400001901496e7465677261746564204e494320340000290b0429018a0100003b00496e74656772617465
  6420524149440000290b052901830100000300456d62656464656420566964656f0000b10c00b1020200000000000000
  00d01000d0030bfe0037070000000100000000d20c00d2f8020303068004050000d41b00d470007100000000005c0078
  fe015d0078fe00ffffffffff0000d80900d8010200f0034d6174726f78007b2a20436f6e74656e7420544244202a7d00
  00de1000de0080000020091515330300010000e10d00e10101000400020104004350552e536f636b65742e3100435055
  2e536f636b65742e320000e16501e1010100110002011100030211000403110005041100060511000706110008071100
  090811000a0911000b0a11000c0b11000d0c11000e0d11000f0e1100100f110011101100121111001312110014131100
  1514110016151100171611001817110044494d4d2e536f636b65742e41310044494d4d2e536f636b65742e4132004449
  4d4d2e536f636b65742e41330044494d4d2e536f636b65742e41340044494d4d2e536f636b65742e41350044494d4d2e
  536f636b65742e41360044494d4d2e536f636b65742e41370044494d4d2e536f636b65742e41380044494d4d2e536f63
  6b65742e41390044494d4d2e536f636b65742e4131300044494d4d2e536f636b65742e4131310044494d4d2e536f636b
  65742e4131320044494d4d2e536f636b65742e42310044494d4d2e536f636b65742e42320044494d4d2e536f636b6574
  2e42330044494d4d2e536f636b65742e42340044494d4d2e536f636b65742e42350044494d4d2e536f636b65742e4236
  0044494d4d2e536f636b65742e42370044494d4d2e536f636b65742e42380044494d4d2e536f636b65742e4239004449
  4d4d2e536f636b65742e4231300044494d4d2e536f636b65742e4231310044494d4d2e536f636b65742e42313200007f
  04fffe0000"

/-- `tests/data/02daadcd/entries/15-0/bin`. -/
def ENTRY_15_0 : Bytes := hex! "
  0f4d3600ff3f000010000301010000000000c4ff011b020100020003000400050006000700080409000a000b000c000d
  000e0010001100120013001400150016001700ff00b0b0b1b1e0e0e1e10000"

/-- `tests/data/02daadcd/entries/19-0/bin`. -/
def ENTRY_19_0 : Bytes := hex! "
  131f27000000000000c007022600ff000000000000000000000000000000000000"

/-- `tests/data/02daadcd/entries/20-0/bin`. -/
def ENTRY_20_0 : Bytes := hex! "
  1423290000000000ffffff002800270000ffff000000000000000000000000000000000000"

/-- `tests/data/________/entries/21-0/bin`. -/
def ENTRY_21_0 : Bytes := hex! "
  1507aaaa0303030000"

/-- `tests/data/________/entries/22-0/bin`. -/
def ENTRY_22_0 : Bytes := hex! "
  161a2800010200000302ec13283c04ff8b05e150050a0000000046726f6e74004c474300354231305731333933300030
  332e3031004c69500000"

/-- `tests/data/caf65269/entries/18-0/bin`. -/
def ENTRY_18_0 : Bytes := hex! "
  1217e301030202000000000000008000000080000000800000"

end Dmi.Tests
