import Verif.Model.Bitfield
/-!
# Bit field layouts

Every `layout!` invocation of the crate, in source order of the entries. Generated from the Rust text
by `tools/gen_layouts.py`.
-/
namespace Dmi
open bitfield (LayoutItem Layout layout)
open bitfield.LayoutItem (sig res)

/-- `Characteristics::LAYOUT` (`type Size = u64`), `src/structures/000_bios.rs` 215-268. -/
def bios.Characteristics.LAYOUT : Layout := layout 64 [
  sig "Reserved" "Reserved",
  sig "Reserved" "Reserved",
  sig "Unknown" "Unknown",
  sig "BIOS characteristics not supported" "BIOS Characteristics are not supported",
  sig "ISA is supported" "ISA is supported",
  sig "MCA is supported" "MCA is supported",
  sig "EISA is supported" "EISA is supported",
  sig "PCI is supported" "PCI is supported",
  sig "PC card (PCMCIA) is supported" "PC card (PCMCIA) is supported",
  sig "PNP is supported" "Plug and Play is supported",
  sig "APM is supported" "APM is supported",
  sig "BIOS is upgradeable" "BIOS is upgradeable (Flash)",
  sig "BIOS shadowing is allowed" "BIOS shadowing is allowed",
  sig "VLB is supported" "VL-VESA is supported",
  sig "ESCD support is available" "ESCD support is available",
  sig "Boot from CD is supported" "Boot from CD is supported",
  sig "Selectable boot is supported" "Selectable boot is supported",
  sig "BIOS ROM is socketed" "BIOS ROM is socketed (e.g. PLCC or SOP socket)",
  sig "Boot from PC card (PCMCIA) is supported" "Boot from PC card (PCMCIA) is supported",
  sig "EDD is supported" "EDD specification is supported",
  sig "Japanese floppy for NEC 9800 1.2 MB is supported (int 13h)" "Int 13h — Japanese floppy for NEC 9800 1.2 MB (3.5”, 1K bytes/sector, 360 RPM) is supported",
  sig "Japanese floppy for Toshiba 1.2 MB is supported (int 13h)" "Int 13h — Japanese floppy for Toshiba 1.2 MB (3.5”, 360 RPM) is supported",
  sig "5.25\"/360 kB floppy services are supported (int 13h)" "Int 13h — 5.25” / 360 KB floppy services are supported",
  sig "5.25\"/1.2 MB floppy services are supported (int 13h)" "Int 13h — 5.25” /1.2 MB floppy services are supported",
  sig "3.5\"/720 kB floppy services are supported (int 13h)" "Int 13h — 3.5” / 720 KB floppy services are supported",
  sig "3.5\"/2.88 MB floppy services are supported (int 13h)" "Int 13h — 3.5” / 2.88 MB floppy services are supported",
  sig "Print screen service is supported (int 5h)" "Int 5h, print screen Service is supported",
  sig "8042 keyboard services are supported (int 9h)" "Int 9h, 8042 keyboard services are supported",
  sig "Serial services are supported (int 14h)" "Int 14h, serial services are supported",
  sig "Printer services are supported (int 17h)" "Int 17h, printer services are supported",
  sig "CGA/mono video services are supported (int 10h)" "Int 10h, CGA/Mono Video Services are supported",
  sig "NEC PC-98" "NEC PC-98",
  res "Reserved for BIOS vendor" 16,
  res "Reserved for system vendor" 16]

/-- `CharacteristicsExtension1::LAYOUT` (`type Size = u8`), `src/structures/000_bios.rs` 276-288. -/
def bios.CharacteristicsExtension1.LAYOUT : Layout := layout 8 [
  sig "ACPI is supported" "ACPI is supported",
  sig "USB legacy is supported" "USB Legacy is supported",
  sig "AGP is supported" "AGP is supported",
  sig "I2O boot is supported" "I2O boot is supported",
  sig "LS-120 SuperDisk boot is supported" "LS-120 SuperDisk boot is supported",
  sig "ATAPI ZIP drive boot is supported" "ATAPI ZIP drive boot is supported",
  sig "IEEE 1394 boot is supported" "1394 boot is supported",
  sig "Smart battery is supported" "Smart battery is supported"]

/-- `CharacteristicsExtension2::LAYOUT` (`type Size = u8`), `src/structures/000_bios.rs` 296-315. -/
def bios.CharacteristicsExtension2.LAYOUT : Layout := layout 8 [
  sig "BIOS boot specification is supported" "BIOS Boot specification is supported",
  sig "Function key-initiated network boot is supported" "Function key-initiated network service boot is supported. When function key-uninitiated network service boot is not supported, a network adapter option ROM may choose to offer this functionality on its own, thus offering this capability to legacy systems. When the function is supported, the network adapter option ROM shall not offer this capability",
  sig "Targeted content distribution is supported" "Enable targeted content distribution. The manufacturer has ensured that the SMBIOS data is useful in identifying the computer for targeted delivery of model-specific software and firmware content through third-party content distribution services",
  sig "UEFI is supported" "UEFI is supported",
  sig "System is a virtual machine" "SMBIOS table describes a virtual machine. (If this bit is not set, no inference can be made about the virtuality of the system.)",
  res "Reserved for future assignment" 3]

/-- `SlotCharacteristics1::LAYOUT` (`type Size = u8`), `src/structures/009_system_slots.rs` 741-758. -/
def system_slots.SlotCharacteristics1.LAYOUT : Layout := layout 8 [
  sig "Characteristics unknown" "Characteristics unknown",
  sig "5.0 V is provided" "Provides 5.0 volts",
  sig "3.3 V is provided" "Provides 3.3 volts",
  sig "Opening is shared" "Slot’s opening is shared with another slot (for example, PCI/EISA shared slot)",
  sig "PC Card-16 is supported" "PC Card slot supports PC Card-16",
  sig "Cardbus is supported" "PC Card slot supports CardBus",
  sig "Zoom Video is supported" "PC Card slot supports Zoom Video",
  sig "Modem ring resume is supported" "PC Card slot supports Modem Ring Resume"]

/-- `SlotCharacteristics2::LAYOUT` (`type Size = u8`), `src/structures/009_system_slots.rs` 771-790. -/
def system_slots.SlotCharacteristics2.LAYOUT : Layout := layout 8 [
  sig "PME signal is supported" "PCI slot supports Power Management Event (PME#) signal",
  sig "Hot-plug devices are supported" "Slot supports hot-plug devices",
  sig "SMBus signal is supported" "PCI slot supports SMBus signal",
  sig "PCIe slot bifurcation is supported" "PCIe slot supports bifurcation. This slot can partition its lanes into two or more PCIe devices plugged into the slot. Note: This field does not indicate complete details on what levels of bifurcation are supported by the slot, but only that the slot supports some level of bifurcation",
  sig "Async/surprise removal is supported" "Slot supports async/surprise removal (i.e., removal without prior notification to the operating system, device driver, or applications)",
  sig "Flexbus slot, CXL 1.0 capable" "Flexbus slot, CXL 1.0 capable",
  sig "Flexbus slot, CXL 2.0 capable" "Flexbus slot, CXL 2.0 capable",
  res "Reserved" 1]

/-- `LanguageFlags::LAYOUT` (`type Size = u8`), `src/structures/013_bios_language.rs` 94-102. -/
def bios_language.LanguageFlags.LAYOUT : Layout := layout 8 [
  sig "Current Language strings use the abbreviated format" "If the bit is 0, each language string is in the form “ISO 639-1 Language Name | ISO 3166-1-alpha-2 Territory Name | Encoding Method”.\nIf the bit is 1, each language string consists of the two-character “ISO 639-1 Language Name” directly followed by the two-character “ISO 3166-1-alpha-2 Territory Name”.",
  res "Reserved" 7]

/-- `LogStatus::LAYOUT` (`type Size = u8`), `src/structures/015_system_event_log/mod.rs` 321-326. -/
def system_event_log.LogStatus.LAYOUT : Layout := layout 8 [
  sig "Valid" "Log area valid",
  sig "Full" "Log area full",
  res "Reserved" 6]

/-- `PostResults::LAYOUT` (`type Size = u64`), `src/structures/015_system_event_log/log_record_format.rs` 419-470. -/
def system_event_log.PostResults.LAYOUT : Layout := layout 64 [
  sig "Channel 2 Timer error" "Channel 2 Timer error",
  sig "Primary PIC (8259 #1) error" "Primary PIC (8259 #1) error",
  sig "Secondary PIC (8259 #2) error" "Secondary PIC (8259 #2) error",
  sig "CMOS RAM Battery Failure" "CMOS RAM Battery Failure",
  sig "CMOS RAM System Options Not Set" "CMOS RAM System Options Not Set",
  sig "CMOS RAM Checksum Error" "CMOS RAM Checksum Error",
  sig "CMOS RAM Configuration Error" "CMOS RAM Configuration Error",
  sig "Mouse and Keyboard Swapped" "Mouse and Keyboard Swapped",
  sig "Keyboard Locked" "Keyboard Locked",
  sig "Keyboard Not Functional" "Keyboard Not Functional",
  sig "Keyboard Controller Not Functional" "Keyboard Controller Not Functional",
  sig "CMOS Memory Size Different" "CMOS Memory Size Different",
  sig "Memory Decreased in Size" "Memory Decreased in Size",
  sig "Cache Memory Error" "Cache Memory Error",
  sig "Floppy Drive 0 Error" "Floppy Drive 0 Error",
  sig "Floppy Drive 1 Error" "Floppy Drive 1 Error",
  sig "Floppy Controller Failure" "Floppy Controller Failure",
  sig "Number of ATA Drives Reduced Error" "Number of ATA Drives Reduced Error",
  sig "RTC Time Not Set" "RTC Time Not Set",
  sig "DDC Monitor Configuration Change" "DDC Monitor Configuration Change",
  res "Reserved" 4,
  sig "Second DWORD has valid data" "Second DWORD has valid data",
  res "Reserved" 3,
  res "Available for OEM assignment" 11,
  sig "PCI Memory Conflict" "PCI Memory Conflict",
  sig "PCI I/O Conflict" "PCI I/O Conflict",
  sig "PCI IRQ Conflict" "PCI IRQ Conflict",
  sig "PNP Memory Conflict" "PNP Memory Conflict",
  sig "PNP 32 bit Memory Conflict" "PNP 32 bit Memory Conflict",
  sig "PNP I/O Conflict" "PNP I/O Conflict",
  sig "PNP IRQ Conflict" "PNP IRQ Conflict",
  sig "PNP DMA Conflict" "PNP DMA Conflict",
  sig "Bad PNP Serial ID Checksum" "Bad PNP Serial ID Checksum",
  sig "Bad PNP Resource Data Checksum" "Bad PNP Resource Data Checksum",
  sig "Static Resource Conflict" "Static Resource Conflict",
  sig "NVRAM Checksum Error, NVRAM Cleared" "NVRAM Checksum Error, NVRAM Cleared",
  sig "System Board Device Resource Conflict" "System Board Device Resource Conflict",
  sig "Primary Output Device Not Found" "Primary Output Device Not Found",
  sig "Primary Input Device Not Found" "Primary Input Device Not Found",
  sig "Primary Boot Device Not Found" "Primary Boot Device Not Found",
  sig "NVRAM Cleared By Jumper" "NVRAM Cleared By Jumper",
  sig "NVRAM Data Invalid, NVRAM Cleared" "NVRAM Data Invalid, NVRAM Cleared",
  sig "FDC Resource Conflict" "FDC Resource Conflict",
  sig "Primary ATA Controller Resource Conflict" "Primary ATA Controller Resource Conflict",
  sig "Secondary ATA Controller Resource Conflict" "Secondary ATA Controller Resource Conflict",
  sig "Parallel Port Resource Conflict" "Parallel Port Resource Conflict",
  sig "Serial Port 1 Resource Conflict" "Serial Port 1 Resource Conflict",
  sig "Serial Port 2 Resource Conflict" "Serial Port 2 Resource Conflict",
  sig "Audio Resource Conflict" "Audio Resource Conflict"]

end Dmi
