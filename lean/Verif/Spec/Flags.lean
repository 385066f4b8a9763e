import Verif.Model.Fmt
/-!
# The flags of the bit fields of the SMBIOS reference specification

For every bit of every bit field what it stands for (DSP0134, sections 7.1.1, 7.1.2, 7.10.6, 7.10.7,
7.14, 7.16.3 and 7.16.6.4): the words to be found in its short and in its long label (letters
and digits only), or the reason it is reserved for.
-/
namespace Dmi.Spec

/-- What a bit is used for. -/
inductive BitUse where
  | flag (short long : Text)
  | reserved (what : Text)
deriving DecidableEq

/-- A flag with the same word in both labels. -/
abbrev BitUse.both (t : Text) : BitUse := .flag t t

/-- `w` occurs in `t`. -/
def occurs (w : Text) : Text → Bool
  | [] => w.isPrefixOf []
  | c :: t => w.isPrefixOf (c :: t) || occurs w t

open BitUse in
/-- BIOS characteristics (7.1.1); bits 0 and 1 are reserved. -/
def biosCharacteristics : List BitUse :=
  [reserved (txt! "reserved"), reserved (txt! "reserved"), both (txt! "unknown"),
   flag (txt! "bioscharacteristicsnotsupported") (txt! "bioscharacteristicsarenotsupported"),
   both (txt! "isaissupported"), both (txt! "mcaissupported"), both (txt! "eisaissupported"),
   both (txt! "pciissupported"), both (txt! "pccardpcmciaissupported"),
   flag (txt! "pnpissupported") (txt! "plugandplayissupported"), both (txt! "apmissupported"),
   both (txt! "biosisupgradeable"), both (txt! "biosshadowingisallowed"),
   flag (txt! "vlbissupported") (txt! "vlvesaissupported"), both (txt! "escdsupportisavailable"),
   both (txt! "bootfromcdissupported"), both (txt! "selectablebootissupported"),
   both (txt! "biosromissocketed"), both (txt! "bootfrompccardpcmciaissupported"),
   flag (txt! "eddissupported") (txt! "eddspecificationissupported"),
   flag (txt! "nec980012mbissupported") (txt! "nec980012mb"),
   flag (txt! "toshiba12mbissupported") (txt! "toshiba12mb"),
   both (txt! "525360kbfloppyservicesaresupported"),
   both (txt! "52512mbfloppyservicesaresupported"), both (txt! "35720kbfloppyservicesaresupported"),
   both (txt! "35288mbfloppyservicesaresupported"), both (txt! "printscreenserviceissupported"),
   both (txt! "8042keyboardservicesaresupported"), both (txt! "serialservicesaresupported"),
   both (txt! "printerservicesaresupported"), both (txt! "cgamonovideoservicesaresupported"),
   both (txt! "necpc98")] ++
  List.replicate 16 (reserved (txt! "biosvendor")) ++
  List.replicate 16 (reserved (txt! "systemvendor"))

open BitUse in
/-- BIOS characteristics extension byte 1 (7.1.2.1). -/
def biosExtension1 : List BitUse :=
  [both (txt! "acpiissupported"), both (txt! "usblegacyissupported"), both (txt! "agpissupported"),
   both (txt! "i2obootissupported"), both (txt! "ls120superdiskbootissupported"),
   both (txt! "atapizipdrivebootissupported"), both (txt! "1394bootissupported"),
   both (txt! "smartbatteryissupported")]

open BitUse in
/-- BIOS characteristics extension byte 2 (7.1.2.2). -/
def biosExtension2 : List BitUse :=
  [both (txt! "biosbootspecificationissupported"),
   flag (txt! "functionkeyinitiatednetworkbootissupported") (txt! "functionkeyinitiatednetworkservicebootissupported"),
   flag (txt! "targetedcontentdistributionissupported") (txt! "enabletargetedcontentdistribution"),
   both (txt! "uefiissupported"),
   flag (txt! "systemisavirtualmachine") (txt! "smbiostabledescribesavirtualmachine")] ++
  List.replicate 3 (reserved (txt! "reserved"))

open BitUse in
/-- Slot characteristics 1 (7.10.6). -/
def slotCharacteristics1 : List BitUse :=
  [both (txt! "characteristicsunknown"), flag (txt! "50visprovided") (txt! "provides50volts"),
   flag (txt! "33visprovided") (txt! "provides33volts"), both (txt! "openingisshared"),
   flag (txt! "pccard16issupported") (txt! "supportspccard16"),
   flag (txt! "cardbusissupported") (txt! "supportscardbus"),
   flag (txt! "zoomvideoissupported") (txt! "supportszoomvideo"),
   flag (txt! "modemringresumeissupported") (txt! "supportsmodemringresume")]

open BitUse in
/-- Slot characteristics 2 (7.10.7). -/
def slotCharacteristics2 : List BitUse :=
  [flag (txt! "pmesignalissupported") (txt! "supportspowermanagementeventpmesignal"),
   flag (txt! "hotplugdevicesaresupported") (txt! "supportshotplugdevices"),
   flag (txt! "smbussignalissupported") (txt! "supportssmbussignal"),
   flag (txt! "bifurcationissupported") (txt! "supportsbifurcation"),
   flag (txt! "surpriseremovalissupported") (txt! "supportsasyncsurpriseremoval"),
   both (txt! "cxl10capable"), both (txt! "cxl20capable"), reserved (txt! "reserved")]

open BitUse in
/-- BIOS language flags (7.14). -/
def languageFlags : List BitUse :=
  flag (txt! "abbreviated") (txt! "ifthebitis1eachlanguagestringconsistsofthetwocharacter") ::
  List.replicate 7 (reserved (txt! "reserved"))

open BitUse in
/-- Log status (7.16). -/
def logStatus : List BitUse :=
  [flag (txt! "valid") (txt! "logareavalid"), flag (txt! "full") (txt! "logareafull")] ++
  List.replicate 6 (reserved (txt! "reserved"))

open BitUse in
/-- POST results bitmap (7.16.6.4). -/
def postResults : List BitUse :=
  [both (txt! "channel2timererror"), both (txt! "primarypic82591error"),
   both (txt! "secondarypic82592error"), both (txt! "cmosrambatteryfailure"),
   both (txt! "cmosramsystemoptionsnotset"), both (txt! "cmosramchecksumerror"),
   both (txt! "cmosramconfigurationerror"), both (txt! "mouseandkeyboardswapped"),
   both (txt! "keyboardlocked"), both (txt! "keyboardnotfunctional"),
   both (txt! "keyboardcontrollernotfunctional"), both (txt! "cmosmemorysizedifferent"),
   both (txt! "memorydecreasedinsize"), both (txt! "cachememoryerror"),
   both (txt! "floppydrive0error"), both (txt! "floppydrive1error"),
   both (txt! "floppycontrollerfailure"), both (txt! "numberofatadrivesreducederror"),
   both (txt! "timenotset"), both (txt! "ddcmonitorconfigurationchange")] ++
  List.replicate 4 (reserved (txt! "reserved")) ++
  [both (txt! "seconddwordhasvaliddata")] ++
  List.replicate 3 (reserved (txt! "reserved")) ++
  List.replicate 11 (reserved (txt! "oem")) ++
  [both (txt! "pcimemoryconflict"), both (txt! "pciioconflict"), both (txt! "pciirqconflict"),
   both (txt! "pnpmemoryconflict"), both (txt! "pnp32bitmemoryconflict"),
   both (txt! "pnpioconflict"), both (txt! "pnpirqconflict"), both (txt! "pnpdmaconflict"),
   both (txt! "badpnpserialidchecksum"), both (txt! "badpnpresourcedatachecksum"),
   both (txt! "staticresourceconflict"), both (txt! "nvramchecksumerrornvramcleared"),
   both (txt! "systemboarddeviceresourceconflict"), both (txt! "primaryoutputdevicenotfound"),
   both (txt! "primaryinputdevicenotfound"), both (txt! "primarybootdevicenotfound"),
   both (txt! "nvramclearedbyjumper"), both (txt! "nvramdatainvalidnvramcleared"),
   both (txt! "fdcresourceconflict"), both (txt! "primaryatacontrollerresourceconflict"),
   both (txt! "secondaryatacontrollerresourceconflict"), both (txt! "parallelportresourceconflict"),
   both (txt! "serialport1resourceconflict"), both (txt! "serialport2resourceconflict"),
   both (txt! "audioresourceconflict")]

end Dmi.Spec
