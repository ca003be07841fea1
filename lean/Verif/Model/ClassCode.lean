import Verif.Model.Header
/- Model of `ClassCode::meaning`, src/header/class_code.rs -/

namespace Pcics.Header

/-- A pattern of the `match` in `ClassCode::meaning`; `none` is `_`. -/
structure MeaningArm where
  base : Option U8
  sub : Option U8
  interface : Option U8
  meaning : String × Option String × Option String

/-- The pattern matches the value: `none` is `_`. -/
def armMatches (p : Option U8) (v : U8) : Bool :=
  match p with
  | none => true
  | some x => x == v

/-- src/header/class_code.rs:29-232, the arms of the `match` in their order -/
def meaningArms : List MeaningArm := [
  ⟨some 0x00, some 0x00, none,
    "Unclassified device", some "Non-VGA unclassified device", none⟩,
  ⟨some 0x00, some 0x01, none,
    "Unclassified device", some "VGA compatible unclassified device", none⟩,
  ⟨some 0x00, some 0x05, none,
    "Unclassified device", some "Image coprocessor", none⟩,
  ⟨some 0x00, none, none,
    "Unclassified device", none, none⟩,
  ⟨some 0x01, some 0x00, none,
    "Mass storage controller", some "SCSI storage controller", none⟩,
  ⟨some 0x01, some 0x01, some 0x00,
    "Mass storage controller", some "IDE interface", some "ISA Compatibility mode-only controller"⟩,
  ⟨some 0x01, some 0x01, some 0x05,
    "Mass storage controller", some "IDE interface", some "PCI native mode-only controller"⟩,
  ⟨some 0x01, some 0x01, some 0x0a,
    "Mass storage controller", some "IDE interface", some "ISA Compatibility mode controller, supports both channels switched to PCI native mode"⟩,
  ⟨some 0x01, some 0x01, some 0x0f,
    "Mass storage controller", some "IDE interface", some "PCI native mode controller, supports both channels switched to ISA compatibility mode"⟩,
  ⟨some 0x01, some 0x01, some 0x80,
    "Mass storage controller", some "IDE interface", some "ISA Compatibility mode-only controller, supports bus mastering"⟩,
  ⟨some 0x01, some 0x01, some 0x85,
    "Mass storage controller", some "IDE interface", some "PCI native mode-only controller, supports bus mastering"⟩,
  ⟨some 0x01, some 0x01, some 0x8a,
    "Mass storage controller", some "IDE interface", some "ISA Compatibility mode controller, supports both channels switched to PCI native mode, supports bus mastering"⟩,
  ⟨some 0x01, some 0x01, some 0x8f,
    "Mass storage controller", some "IDE interface", some "PCI native mode controller, supports both channels switched to ISA compatibility mode, supports bus mastering"⟩,
  ⟨some 0x01, some 0x01, none,
    "Mass storage controller", some "IDE interface", none⟩,
  ⟨some 0x01, some 0x02, none,
    "Mass storage controller", some "Floppy disk controller", none⟩,
  ⟨some 0x01, some 0x03, none,
    "Mass storage controller", some "IPI bus controller", none⟩,
  ⟨some 0x01, some 0x04, none,
    "Mass storage controller", some "RAID bus controller", none⟩,
  ⟨some 0x01, some 0x05, some 0x20,
    "Mass storage controller", some "ATA controller", some "ADMA single stepping"⟩,
  ⟨some 0x01, some 0x05, some 0x30,
    "Mass storage controller", some "ATA controller", some "ADMA continuous operation"⟩,
  ⟨some 0x01, some 0x05, none,
    "Mass storage controller", some "ATA controller", none⟩,
  ⟨some 0x01, some 0x06, some 0x00,
    "Mass storage controller", some "SATA controller", some "Vendor specific"⟩,
  ⟨some 0x01, some 0x06, some 0x01,
    "Mass storage controller", some "SATA controller", some "AHCI 1.0"⟩,
  ⟨some 0x01, some 0x06, some 0x02,
    "Mass storage controller", some "SATA controller", some "Serial Storage Bus"⟩,
  ⟨some 0x01, some 0x06, none,
    "Mass storage controller", some "SATA controller", none⟩,
  ⟨some 0x01, some 0x07, some 0x01,
    "Mass storage controller", some "Serial Attached SCSI controller", some "Serial Storage Bus"⟩,
  ⟨some 0x01, some 0x07, none,
    "Mass storage controller", some "Serial Attached SCSI controller", none⟩,
  ⟨some 0x01, some 0x08, some 0x01,
    "Mass storage controller", some "Non-Volatile memory controller", some "NVMHCI"⟩,
  ⟨some 0x01, some 0x08, some 0x02,
    "Mass storage controller", some "Non-Volatile memory controller", some "NVM Express"⟩,
  ⟨some 0x01, some 0x08, none,
    "Mass storage controller", some "Non-Volatile memory controller", none⟩,
  ⟨some 0x01, some 0x80, none,
    "Mass storage controller", some "Mass storage controller", none⟩,
  ⟨some 0x01, none, none,
    "Mass storage controller", none, none⟩,
  ⟨some 0x02, some 0x00, none,
    "Network controller", some "Ethernet controller", none⟩,
  ⟨some 0x02, some 0x01, none,
    "Network controller", some "Token ring network controller", none⟩,
  ⟨some 0x02, some 0x02, none,
    "Network controller", some "FDDI network controller", none⟩,
  ⟨some 0x02, some 0x03, none,
    "Network controller", some "ATM network controller", none⟩,
  ⟨some 0x02, some 0x04, none,
    "Network controller", some "ISDN controller", none⟩,
  ⟨some 0x02, some 0x05, none,
    "Network controller", some "WorldFip controller", none⟩,
  ⟨some 0x02, some 0x06, none,
    "Network controller", some "PICMG controller", none⟩,
  ⟨some 0x02, some 0x07, none,
    "Network controller", some "Infiniband controller", none⟩,
  ⟨some 0x02, some 0x08, none,
    "Network controller", some "Fabric controller", none⟩,
  ⟨some 0x02, some 0x80, none,
    "Network controller", some "Network controller", none⟩,
  ⟨some 0x02, none, none,
    "Network controller", none, none⟩,
  ⟨some 0x03, some 0x00, some 0x00,
    "Display controller", some "VGA compatible controller", some "VGA controller"⟩,
  ⟨some 0x03, some 0x00, some 0x01,
    "Display controller", some "VGA compatible controller", some "8514 controller"⟩,
  ⟨some 0x03, some 0x00, none,
    "Display controller", some "VGA compatible controller", none⟩,
  ⟨some 0x03, some 0x01, none,
    "Display controller", some "XGA compatible controller", none⟩,
  ⟨some 0x03, some 0x02, none,
    "Display controller", some "3D controller", none⟩,
  ⟨some 0x03, some 0x80, none,
    "Display controller", some "Display controller", none⟩,
  ⟨some 0x03, none, none,
    "Display controller", none, none⟩,
  ⟨some 0x04, some 0x00, none,
    "Multimedia controller", some "Multimedia video controller", none⟩,
  ⟨some 0x04, some 0x01, none,
    "Multimedia controller", some "Multimedia audio controller", none⟩,
  ⟨some 0x04, some 0x02, none,
    "Multimedia controller", some "Computer telephony device", none⟩,
  ⟨some 0x04, some 0x03, none,
    "Multimedia controller", some "Audio device", none⟩,
  ⟨some 0x04, some 0x80, none,
    "Multimedia controller", some "Multimedia controller", none⟩,
  ⟨some 0x04, none, none,
    "Multimedia controller", none, none⟩,
  ⟨some 0x05, some 0x00, none,
    "Memory controller", some "RAM memory", none⟩,
  ⟨some 0x05, some 0x01, none,
    "Memory controller", some "FLASH memory", none⟩,
  ⟨some 0x05, some 0x80, none,
    "Memory controller", some "Memory controller", none⟩,
  ⟨some 0x05, none, none,
    "Memory controller", none, none⟩,
  ⟨some 0x06, some 0x00, none,
    "Bridge", some "Host bridge", none⟩,
  ⟨some 0x06, some 0x01, none,
    "Bridge", some "ISA bridge", none⟩,
  ⟨some 0x06, some 0x02, none,
    "Bridge", some "EISA bridge", none⟩,
  ⟨some 0x06, some 0x03, none,
    "Bridge", some "MicroChannel bridge", none⟩,
  ⟨some 0x06, some 0x04, some 0x00,
    "Bridge", some "PCI bridge", some "Normal decode"⟩,
  ⟨some 0x06, some 0x04, some 0x01,
    "Bridge", some "PCI bridge", some "Subtractive decode"⟩,
  ⟨some 0x06, some 0x04, none,
    "Bridge", some "PCI bridge", none⟩,
  ⟨some 0x06, some 0x05, none,
    "Bridge", some "PCMCIA bridge", none⟩,
  ⟨some 0x06, some 0x06, none,
    "Bridge", some "NuBus bridge", none⟩,
  ⟨some 0x06, some 0x07, none,
    "Bridge", some "CardBus bridge", none⟩,
  ⟨some 0x06, some 0x08, some 0x00,
    "Bridge", some "RACEway bridge", some "Transparent mode"⟩,
  ⟨some 0x06, some 0x08, some 0x01,
    "Bridge", some "RACEway bridge", some "Endpoint mode"⟩,
  ⟨some 0x06, some 0x08, none,
    "Bridge", some "RACEway bridge", none⟩,
  ⟨some 0x06, some 0x09, some 0x40,
    "Bridge", some "Semi-transparent PCI-to-PCI bridge", some "Primary bus towards host CPU"⟩,
  ⟨some 0x06, some 0x09, some 0x80,
    "Bridge", some "Semi-transparent PCI-to-PCI bridge", some "Secondary bus towards host CPU"⟩,
  ⟨some 0x06, some 0x09, none,
    "Bridge", some "Semi-transparent PCI-to-PCI bridge", none⟩,
  ⟨some 0x06, some 0x0a, none,
    "Bridge", some "InfiniBand to PCI host bridge", none⟩,
  ⟨some 0x06, some 0x80, none,
    "Bridge", some "Bridge", none⟩,
  ⟨some 0x06, none, none,
    "Bridge", none, none⟩,
  ⟨some 0x07, some 0x00, some 0x00,
    "Communication controller", some "Serial controller", some "8250"⟩,
  ⟨some 0x07, some 0x00, some 0x01,
    "Communication controller", some "Serial controller", some "16450"⟩,
  ⟨some 0x07, some 0x00, some 0x02,
    "Communication controller", some "Serial controller", some "16550"⟩,
  ⟨some 0x07, some 0x00, some 0x03,
    "Communication controller", some "Serial controller", some "16650"⟩,
  ⟨some 0x07, some 0x00, some 0x04,
    "Communication controller", some "Serial controller", some "16750"⟩,
  ⟨some 0x07, some 0x00, some 0x05,
    "Communication controller", some "Serial controller", some "16850"⟩,
  ⟨some 0x07, some 0x00, some 0x06,
    "Communication controller", some "Serial controller", some "16950"⟩,
  ⟨some 0x07, some 0x00, none,
    "Communication controller", some "Serial controller", none⟩,
  ⟨some 0x07, some 0x01, some 0x00,
    "Communication controller", some "Parallel controller", some "SPP"⟩,
  ⟨some 0x07, some 0x01, some 0x01,
    "Communication controller", some "Parallel controller", some "BiDir"⟩,
  ⟨some 0x07, some 0x01, some 0x02,
    "Communication controller", some "Parallel controller", some "ECP"⟩,
  ⟨some 0x07, some 0x01, some 0x03,
    "Communication controller", some "Parallel controller", some "IEEE1284"⟩,
  ⟨some 0x07, some 0x01, some 0xfe,
    "Communication controller", some "Parallel controller", some "IEEE1284 Target"⟩,
  ⟨some 0x07, some 0x01, none,
    "Communication controller", some "Parallel controller", none⟩,
  ⟨some 0x07, some 0x02, none,
    "Communication controller", some "Multiport serial controller", none⟩,
  ⟨some 0x07, some 0x03, some 0x00,
    "Communication controller", some "Modem", some "Generic"⟩,
  ⟨some 0x07, some 0x03, some 0x01,
    "Communication controller", some "Modem", some "Hayes/16450"⟩,
  ⟨some 0x07, some 0x03, some 0x02,
    "Communication controller", some "Modem", some "Hayes/16550"⟩,
  ⟨some 0x07, some 0x03, some 0x03,
    "Communication controller", some "Modem", some "Hayes/16650"⟩,
  ⟨some 0x07, some 0x03, some 0x04,
    "Communication controller", some "Modem", some "Hayes/16750"⟩,
  ⟨some 0x07, some 0x03, none,
    "Communication controller", some "Modem", none⟩,
  ⟨some 0x07, some 0x04, none,
    "Communication controller", some "GPIB controller", none⟩,
  ⟨some 0x07, some 0x05, none,
    "Communication controller", some "Smard Card controller", none⟩,
  ⟨some 0x07, some 0x80, none,
    "Communication controller", some "Communication controller", none⟩,
  ⟨some 0x07, none, none,
    "Communication controller", none, none⟩,
  ⟨some 0x08, some 0x00, some 0x00,
    "Generic system peripheral", some "PIC", some "8259"⟩,
  ⟨some 0x08, some 0x00, some 0x01,
    "Generic system peripheral", some "PIC", some "ISA PIC"⟩,
  ⟨some 0x08, some 0x00, some 0x02,
    "Generic system peripheral", some "PIC", some "EISA PIC"⟩,
  ⟨some 0x08, some 0x00, some 0x10,
    "Generic system peripheral", some "PIC", some "IO-APIC"⟩,
  ⟨some 0x08, some 0x00, some 0x20,
    "Generic system peripheral", some "PIC", some "IO(X)-APIC"⟩,
  ⟨some 0x08, some 0x00, none,
    "Generic system peripheral", some "PIC", none⟩,
  ⟨some 0x08, some 0x01, some 0x00,
    "Generic system peripheral", some "DMA controller", some "8237"⟩,
  ⟨some 0x08, some 0x01, some 0x01,
    "Generic system peripheral", some "DMA controller", some "ISA DMA"⟩,
  ⟨some 0x08, some 0x01, some 0x02,
    "Generic system peripheral", some "DMA controller", some "EISA DMA"⟩,
  ⟨some 0x08, some 0x01, none,
    "Generic system peripheral", some "DMA controller", none⟩,
  ⟨some 0x08, some 0x02, some 0x00,
    "Generic system peripheral", some "Timer", some "8254"⟩,
  ⟨some 0x08, some 0x02, some 0x01,
    "Generic system peripheral", some "Timer", some "ISA Timer"⟩,
  ⟨some 0x08, some 0x02, some 0x02,
    "Generic system peripheral", some "Timer", some "EISA Timers"⟩,
  ⟨some 0x08, some 0x02, some 0x03,
    "Generic system peripheral", some "Timer", some "HPET"⟩,
  ⟨some 0x08, some 0x02, none,
    "Generic system peripheral", some "Timer", none⟩,
  ⟨some 0x08, some 0x03, some 0x00,
    "Generic system peripheral", some "RTC", some "Generic"⟩,
  ⟨some 0x08, some 0x03, some 0x01,
    "Generic system peripheral", some "RTC", some "ISA RTC"⟩,
  ⟨some 0x08, some 0x03, none,
    "Generic system peripheral", some "RTC", none⟩,
  ⟨some 0x08, some 0x04, none,
    "Generic system peripheral", some "PCI Hot-plug controller", none⟩,
  ⟨some 0x08, some 0x05, none,
    "Generic system peripheral", some "SD Host controller", none⟩,
  ⟨some 0x08, some 0x06, none,
    "Generic system peripheral", some "IOMMU", none⟩,
  ⟨some 0x08, some 0x80, none,
    "Generic system peripheral", some "System peripheral", none⟩,
  ⟨some 0x08, some 0x99, some 0x01,
    "Generic system peripheral", some "Timing Card", some "TAP Timing Card"⟩,
  ⟨some 0x08, some 0x99, none,
    "Generic system peripheral", some "Timing Card", none⟩,
  ⟨some 0x08, none, none,
    "Generic system peripheral", none, none⟩,
  ⟨some 0x09, some 0x00, none,
    "Input device controller", some "Keyboard controller", none⟩,
  ⟨some 0x09, some 0x01, none,
    "Input device controller", some "Digitizer Pen", none⟩,
  ⟨some 0x09, some 0x02, none,
    "Input device controller", some "Mouse controller", none⟩,
  ⟨some 0x09, some 0x03, none,
    "Input device controller", some "Scanner controller", none⟩,
  ⟨some 0x09, some 0x04, some 0x00,
    "Input device controller", some "Gameport controller", some "Generic"⟩,
  ⟨some 0x09, some 0x04, some 0x01,
    "Input device controller", some "Gameport controller", some "Extended"⟩,
  ⟨some 0x09, some 0x04, none,
    "Input device controller", some "Gameport controller", none⟩,
  ⟨some 0x09, some 0x80, none,
    "Input device controller", some "Input device controller", none⟩,
  ⟨some 0x09, none, none,
    "Input device controller", none, none⟩,
  ⟨some 0x0a, some 0x00, none,
    "Docking station", some "Generic Docking Station", none⟩,
  ⟨some 0x0a, some 0x80, none,
    "Docking station", some "Docking Station", none⟩,
  ⟨some 0x0a, none, none,
    "Docking station", none, none⟩,
  ⟨some 0x0b, some 0x00, none,
    "Processor", some "386", none⟩,
  ⟨some 0x0b, some 0x01, none,
    "Processor", some "486", none⟩,
  ⟨some 0x0b, some 0x02, none,
    "Processor", some "Pentium", none⟩,
  ⟨some 0x0b, some 0x10, none,
    "Processor", some "Alpha", none⟩,
  ⟨some 0x0b, some 0x20, none,
    "Processor", some "Power PC", none⟩,
  ⟨some 0x0b, some 0x30, none,
    "Processor", some "MIPS", none⟩,
  ⟨some 0x0b, some 0x40, none,
    "Processor", some "Co-processor", none⟩,
  ⟨some 0x0b, none, none,
    "Processor", none, none⟩,
  ⟨some 0x0c, some 0x00, some 0x00,
    "Serial bus controller", some "FireWire (IEEE 1394)", some "Generic"⟩,
  ⟨some 0x0c, some 0x00, some 0x10,
    "Serial bus controller", some "FireWire (IEEE 1394)", some "OHCI"⟩,
  ⟨some 0x0c, some 0x00, none,
    "Serial bus controller", some "FireWire (IEEE 1394)", none⟩,
  ⟨some 0x0c, some 0x01, none,
    "Serial bus controller", some "ACCESS Bus", none⟩,
  ⟨some 0x0c, some 0x02, none,
    "Serial bus controller", some "SSA", none⟩,
  ⟨some 0x0c, some 0x03, some 0x00,
    "Serial bus controller", some "USB controller", some "UHCI"⟩,
  ⟨some 0x0c, some 0x03, some 0x10,
    "Serial bus controller", some "USB controller", some "OHCI"⟩,
  ⟨some 0x0c, some 0x03, some 0x20,
    "Serial bus controller", some "USB controller", some "EHCI"⟩,
  ⟨some 0x0c, some 0x03, some 0x30,
    "Serial bus controller", some "USB controller", some "XHCI"⟩,
  ⟨some 0x0c, some 0x03, some 0x40,
    "Serial bus controller", some "USB controller", some "USB4 Host Interface"⟩,
  ⟨some 0x0c, some 0x03, some 0x80,
    "Serial bus controller", some "USB controller", some "Unspecified"⟩,
  ⟨some 0x0c, some 0x03, some 0xfe,
    "Serial bus controller", some "USB controller", some "USB Device"⟩,
  ⟨some 0x0c, some 0x03, none,
    "Serial bus controller", some "USB controller", none⟩,
  ⟨some 0x0c, some 0x04, none,
    "Serial bus controller", some "Fibre Channel", none⟩,
  ⟨some 0x0c, some 0x05, none,
    "Serial bus controller", some "SMBus", none⟩,
  ⟨some 0x0c, some 0x06, none,
    "Serial bus controller", some "InfiniBand", none⟩,
  ⟨some 0x0c, some 0x07, some 0x00,
    "Serial bus controller", some "IPMI Interface", some "SMIC"⟩,
  ⟨some 0x0c, some 0x07, some 0x01,
    "Serial bus controller", some "IPMI Interface", some "KCS"⟩,
  ⟨some 0x0c, some 0x07, some 0x02,
    "Serial bus controller", some "IPMI Interface", some "BT (Block Transfer)"⟩,
  ⟨some 0x0c, some 0x07, none,
    "Serial bus controller", some "IPMI Interface", none⟩,
  ⟨some 0x0c, some 0x08, none,
    "Serial bus controller", some "SERCOS interface", none⟩,
  ⟨some 0x0c, some 0x09, none,
    "Serial bus controller", some "CANBUS", none⟩,
  ⟨some 0x0c, none, none,
    "Serial bus controller", none, none⟩,
  ⟨some 0x0d, some 0x00, none,
    "Wireless controller", some "IRDA controller", none⟩,
  ⟨some 0x0d, some 0x01, none,
    "Wireless controller", some "Consumer IR controller", none⟩,
  ⟨some 0x0d, some 0x10, none,
    "Wireless controller", some "RF controller", none⟩,
  ⟨some 0x0d, some 0x11, none,
    "Wireless controller", some "Bluetooth", none⟩,
  ⟨some 0x0d, some 0x12, none,
    "Wireless controller", some "Broadband", none⟩,
  ⟨some 0x0d, some 0x20, none,
    "Wireless controller", some "802.1a controller", none⟩,
  ⟨some 0x0d, some 0x21, none,
    "Wireless controller", some "802.1b controller", none⟩,
  ⟨some 0x0d, some 0x80, none,
    "Wireless controller", some "Wireless controller", none⟩,
  ⟨some 0x0d, none, none,
    "Wireless controller", none, none⟩,
  ⟨some 0x0e, some 0x00, none,
    "Intelligent controller", some "I2O", none⟩,
  ⟨some 0x0e, none, none,
    "Intelligent controller", none, none⟩,
  ⟨some 0x0f, some 0x01, none,
    "Satellite communications controller", some "Satellite TV controller", none⟩,
  ⟨some 0x0f, some 0x02, none,
    "Satellite communications controller", some "Satellite audio communication controller", none⟩,
  ⟨some 0x0f, some 0x03, none,
    "Satellite communications controller", some "Satellite voice communication controller", none⟩,
  ⟨some 0x0f, some 0x04, none,
    "Satellite communications controller", some "Satellite data communication controller", none⟩,
  ⟨some 0x0f, none, none,
    "Satellite communications controller", none, none⟩,
  ⟨some 0x10, some 0x00, none,
    "Encryption controller", some "Network and computing encryption device", none⟩,
  ⟨some 0x10, some 0x10, none,
    "Encryption controller", some "Entertainment encryption device", none⟩,
  ⟨some 0x10, some 0x80, none,
    "Encryption controller", some "Encryption controller", none⟩,
  ⟨some 0x10, none, none,
    "Encryption controller", none, none⟩,
  ⟨some 0x11, some 0x00, none,
    "Signal processing controller", some "DPIO module", none⟩,
  ⟨some 0x11, some 0x01, none,
    "Signal processing controller", some "Performance counters", none⟩,
  ⟨some 0x11, some 0x10, none,
    "Signal processing controller", some "Communication synchronizer", none⟩,
  ⟨some 0x11, some 0x20, none,
    "Signal processing controller", some "Signal processing management", none⟩,
  ⟨some 0x11, some 0x80, none,
    "Signal processing controller", some "Signal processing controller", none⟩,
  ⟨some 0x11, none, none,
    "Signal processing controller", none, none⟩,
  ⟨some 0x12, some 0x00, none,
    "Processing accelerators", some "Processing accelerators", none⟩,
  ⟨some 0x12, some 0x01, none,
    "Processing accelerators", some "AI Inference Accelerator", none⟩,
  ⟨some 0x12, none, none,
    "Processing accelerators", none, none⟩,
  ⟨some 0x13, none, none,
    "Non-Essential Instrumentation", none, none⟩,
  ⟨some 0x40, none, none,
    "Coprocessor", none, none⟩,
  ⟨some 0xff, none, none,
    "Unassigned class", none, none⟩,
  ⟨none, none, none,
    "Reserved", none, none⟩]

/-- src/header/class_code.rs:27-234; `match` takes the first arm whose pattern matches. No arm
matching is an outcome of the model (a panic) only because the arms are data here. -/
def ClassCode.meaning (c : ClassCode) : Res Empty (String × Option String × Option String) :=
  match meaningArms.find? fun a =>
      armMatches a.base c.base && armMatches a.sub c.sub && armMatches a.interface c.interface with
  | some a => .ok a.meaning
  | none => .panic

end Pcics.Header
