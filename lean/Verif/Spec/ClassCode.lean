import Verif.Model.ClassCode
import Verif.Spec
/- Specification of class codes: a table nested class, sub-class, interface. The codes and names in it
are transcribed from the arms of src/header/class_code.rs by a script, not from the PCI ID database
or the PCI Code and ID Assignment. What is specified independently of the code is the level by level
lookup; whether the names themselves are right is not checked. -/

namespace Pcics.Header
open Spec

/-- A programming interface of a sub-class. -/
abbrev InterfaceEntry := U8 × String
/-- A sub-class with its programming interfaces. -/
abbrev SubclassEntry := U8 × String × List InterfaceEntry
/-- A base class with its sub-classes. -/
abbrev ClassEntry := U8 × String × List SubclassEntry

/-- The class code table, transcribed from src/header/class_code.rs:29-232. -/
def classTable : List ClassEntry := [
  (0x00, "Unclassified device", [
    (0x00, "Non-VGA unclassified device", []),
    (0x01, "VGA compatible unclassified device", []),
    (0x05, "Image coprocessor", [])]),
  (0x01, "Mass storage controller", [
    (0x00, "SCSI storage controller", []),
    (0x01, "IDE interface", [
      (0x00, "ISA Compatibility mode-only controller"),
      (0x05, "PCI native mode-only controller"),
      (0x0a, "ISA Compatibility mode controller, supports both channels switched to PCI native mode"),
      (0x0f, "PCI native mode controller, supports both channels switched to ISA compatibility mode"),
      (0x80, "ISA Compatibility mode-only controller, supports bus mastering"),
      (0x85, "PCI native mode-only controller, supports bus mastering"),
      (0x8a, "ISA Compatibility mode controller, supports both channels switched to PCI native mode, supports bus mastering"),
      (0x8f, "PCI native mode controller, supports both channels switched to ISA compatibility mode, supports bus mastering")]),
    (0x02, "Floppy disk controller", []),
    (0x03, "IPI bus controller", []),
    (0x04, "RAID bus controller", []),
    (0x05, "ATA controller", [
      (0x20, "ADMA single stepping"),
      (0x30, "ADMA continuous operation")]),
    (0x06, "SATA controller", [
      (0x00, "Vendor specific"),
      (0x01, "AHCI 1.0"),
      (0x02, "Serial Storage Bus")]),
    (0x07, "Serial Attached SCSI controller", [
      (0x01, "Serial Storage Bus")]),
    (0x08, "Non-Volatile memory controller", [
      (0x01, "NVMHCI"),
      (0x02, "NVM Express")]),
    (0x80, "Mass storage controller", [])]),
  (0x02, "Network controller", [
    (0x00, "Ethernet controller", []),
    (0x01, "Token ring network controller", []),
    (0x02, "FDDI network controller", []),
    (0x03, "ATM network controller", []),
    (0x04, "ISDN controller", []),
    (0x05, "WorldFip controller", []),
    (0x06, "PICMG controller", []),
    (0x07, "Infiniband controller", []),
    (0x08, "Fabric controller", []),
    (0x80, "Network controller", [])]),
  (0x03, "Display controller", [
    (0x00, "VGA compatible controller", [
      (0x00, "VGA controller"),
      (0x01, "8514 controller")]),
    (0x01, "XGA compatible controller", []),
    (0x02, "3D controller", []),
    (0x80, "Display controller", [])]),
  (0x04, "Multimedia controller", [
    (0x00, "Multimedia video controller", []),
    (0x01, "Multimedia audio controller", []),
    (0x02, "Computer telephony device", []),
    (0x03, "Audio device", []),
    (0x80, "Multimedia controller", [])]),
  (0x05, "Memory controller", [
    (0x00, "RAM memory", []),
    (0x01, "FLASH memory", []),
    (0x80, "Memory controller", [])]),
  (0x06, "Bridge", [
    (0x00, "Host bridge", []),
    (0x01, "ISA bridge", []),
    (0x02, "EISA bridge", []),
    (0x03, "MicroChannel bridge", []),
    (0x04, "PCI bridge", [
      (0x00, "Normal decode"),
      (0x01, "Subtractive decode")]),
    (0x05, "PCMCIA bridge", []),
    (0x06, "NuBus bridge", []),
    (0x07, "CardBus bridge", []),
    (0x08, "RACEway bridge", [
      (0x00, "Transparent mode"),
      (0x01, "Endpoint mode")]),
    (0x09, "Semi-transparent PCI-to-PCI bridge", [
      (0x40, "Primary bus towards host CPU"),
      (0x80, "Secondary bus towards host CPU")]),
    (0x0a, "InfiniBand to PCI host bridge", []),
    (0x80, "Bridge", [])]),
  (0x07, "Communication controller", [
    (0x00, "Serial controller", [
      (0x00, "8250"),
      (0x01, "16450"),
      (0x02, "16550"),
      (0x03, "16650"),
      (0x04, "16750"),
      (0x05, "16850"),
      (0x06, "16950")]),
    (0x01, "Parallel controller", [
      (0x00, "SPP"),
      (0x01, "BiDir"),
      (0x02, "ECP"),
      (0x03, "IEEE1284"),
      (0xfe, "IEEE1284 Target")]),
    (0x02, "Multiport serial controller", []),
    (0x03, "Modem", [
      (0x00, "Generic"),
      (0x01, "Hayes/16450"),
      (0x02, "Hayes/16550"),
      (0x03, "Hayes/16650"),
      (0x04, "Hayes/16750")]),
    (0x04, "GPIB controller", []),
    (0x05, "Smard Card controller", []),
    (0x80, "Communication controller", [])]),
  (0x08, "Generic system peripheral", [
    (0x00, "PIC", [
      (0x00, "8259"),
      (0x01, "ISA PIC"),
      (0x02, "EISA PIC"),
      (0x10, "IO-APIC"),
      (0x20, "IO(X)-APIC")]),
    (0x01, "DMA controller", [
      (0x00, "8237"),
      (0x01, "ISA DMA"),
      (0x02, "EISA DMA")]),
    (0x02, "Timer", [
      (0x00, "8254"),
      (0x01, "ISA Timer"),
      (0x02, "EISA Timers"),
      (0x03, "HPET")]),
    (0x03, "RTC", [
      (0x00, "Generic"),
      (0x01, "ISA RTC")]),
    (0x04, "PCI Hot-plug controller", []),
    (0x05, "SD Host controller", []),
    (0x06, "IOMMU", []),
    (0x80, "System peripheral", []),
    (0x99, "Timing Card", [
      (0x01, "TAP Timing Card")])]),
  (0x09, "Input device controller", [
    (0x00, "Keyboard controller", []),
    (0x01, "Digitizer Pen", []),
    (0x02, "Mouse controller", []),
    (0x03, "Scanner controller", []),
    (0x04, "Gameport controller", [
      (0x00, "Generic"),
      (0x01, "Extended")]),
    (0x80, "Input device controller", [])]),
  (0x0a, "Docking station", [
    (0x00, "Generic Docking Station", []),
    (0x80, "Docking Station", [])]),
  (0x0b, "Processor", [
    (0x00, "386", []),
    (0x01, "486", []),
    (0x02, "Pentium", []),
    (0x10, "Alpha", []),
    (0x20, "Power PC", []),
    (0x30, "MIPS", []),
    (0x40, "Co-processor", [])]),
  (0x0c, "Serial bus controller", [
    (0x00, "FireWire (IEEE 1394)", [
      (0x00, "Generic"),
      (0x10, "OHCI")]),
    (0x01, "ACCESS Bus", []),
    (0x02, "SSA", []),
    (0x03, "USB controller", [
      (0x00, "UHCI"),
      (0x10, "OHCI"),
      (0x20, "EHCI"),
      (0x30, "XHCI"),
      (0x40, "USB4 Host Interface"),
      (0x80, "Unspecified"),
      (0xfe, "USB Device")]),
    (0x04, "Fibre Channel", []),
    (0x05, "SMBus", []),
    (0x06, "InfiniBand", []),
    (0x07, "IPMI Interface", [
      (0x00, "SMIC"),
      (0x01, "KCS"),
      (0x02, "BT (Block Transfer)")]),
    (0x08, "SERCOS interface", []),
    (0x09, "CANBUS", [])]),
  (0x0d, "Wireless controller", [
    (0x00, "IRDA controller", []),
    (0x01, "Consumer IR controller", []),
    (0x10, "RF controller", []),
    (0x11, "Bluetooth", []),
    (0x12, "Broadband", []),
    (0x20, "802.1a controller", []),
    (0x21, "802.1b controller", []),
    (0x80, "Wireless controller", [])]),
  (0x0e, "Intelligent controller", [
    (0x00, "I2O", [])]),
  (0x0f, "Satellite communications controller", [
    (0x01, "Satellite TV controller", []),
    (0x02, "Satellite audio communication controller", []),
    (0x03, "Satellite voice communication controller", []),
    (0x04, "Satellite data communication controller", [])]),
  (0x10, "Encryption controller", [
    (0x00, "Network and computing encryption device", []),
    (0x10, "Entertainment encryption device", []),
    (0x80, "Encryption controller", [])]),
  (0x11, "Signal processing controller", [
    (0x00, "DPIO module", []),
    (0x01, "Performance counters", []),
    (0x10, "Communication synchronizer", []),
    (0x20, "Signal processing management", []),
    (0x80, "Signal processing controller", [])]),
  (0x12, "Processing accelerators", [
    (0x00, "Processing accelerators", []),
    (0x01, "AI Inference Accelerator", [])]),
  (0x13, "Non-Essential Instrumentation", []),
  (0x40, "Coprocessor", []),
  (0xff, "Unassigned class", [])]

/-- The class code table read level by level: a class code means the name of its base class, of its
sub-class within that class, and of its programming interface within that sub-class, as far as they
are assigned. -/
def ClassCode.meaningSpec (c : ClassCode) : String × Option String × Option String :=
  match classTable.lookup c.base with
  | none => ("Reserved", none, none)
  | some (name, subs) =>
    match subs.lookup c.sub with
    | none => (name, none, none)
    | some (subName, interfaces) => (name, some subName, interfaces.lookup c.interface)

end Pcics.Header
