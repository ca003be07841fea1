import Verif.Spec.Capabilities
import Verif.Spec.ExtendedCapabilities
/- What the texts of errors should say, as tables by capability id and by the bytes that are there. -/

namespace Pcics.Spec

/-- `n` as `width` lower case hexadecimal digits, the most significant first. -/
def hexDigits : Nat → Nat → List Char
  | 0, _ => []
  | width + 1, n =>
    hexDigits width (n / 16) ++
      [['0', '1', '2', '3', '4', '5', '6', '7', '8', '9', 'a', 'b', 'c', 'd', 'e', 'f'].getD (n % 16) '0']

def hex (width n : Nat) : String := String.ofList (hexDigits width n)

/-- The text of the error of a result, if it is one. -/
def said {ε α : Type} (show_ : ε → String) : Res ε α → Option String
  | .err e => some (show_ e)
  | .ok _ | .panic => none

/-- `text` when fewer than `need` bytes are there. -/
def lacks (d : Bytes) (need : Nat) (text : String) : Option String :=
  if d.length < need then some text else none

/-- `name` and `size` of a structure of `need` bytes when fewer are there. -/
def lacksData (d : Bytes) (name : String) (need size : Nat) : Option String :=
  lacks d need (name ++ " (" ++ toString size ++ " bytes) data read error")

/-- A text under a title. -/
def under (title : String) (text : Option String) : Option String := text.map (title ++ ·)

/-! ## Capabilities (`d`: the bytes after id and next pointer) -/

def msiText (d : Bytes) : Option String :=
  lacks d 2 "MessageControl" <|>
    match flag (rd16 d 0) 7, flag (rd16 d 0) 8 with
    | false, false => lacks d 10 "Size32bit"
    | true, false => lacks d 14 "Size64bit"
    | false, true => lacks d 18 "Size32bitPerVector"
    | true, true => lacks d 22 "Size64bitPerVector"

def pciXText (d : Bytes) : Option String :=
  lacks d 6 "command and status registers are unreadable" <|>
    pick (fld (rd16 d 0) 12 2 : U8) [
      (1, lacks d 22 "Mode 2 ECC registres unreadable"),
      (2, lacks d 22 "Mode 1/2 ECC registres unreadable")] none

def pciXBridgeText (d : Bytes) : Option String :=
  lacks d 14 "statuses and split trx control registers are unreadable" <|>
    pick (fld (rd16 d 0) 12 2 : U8) [
      (1, lacks d 30 "Mode 2 ECC registres unreadable"),
      (2, lacks d 30 "Mode 1/2 ECC registres unreadable")] none

/-- By bits 15:13 of the command register for the interfaces, bits 15:11 for other blocks. -/
def hypertransportText (d : Bytes) : Option String :=
  lacks d 2 "CapabilityType" <|>
    pick (fld (rd16 d 0) 13 3 : U8) [
      (0, lacks d 26 "SlaveOrPrimaryInterface"),
      (1, lacks d 22 "HostOrSecondaryInterface")]
      (pick (fld (rd16 d 0) 11 5 : U8) [(0b10101, lacks d 10 "MsiMapping")] none)

def vendorSpecificText (vendor device : U16) (d : Bytes) : Option String :=
  let l := (byteAt d 0).toNat
  if d = [] then some "length byte is unreadable"
  else if l < 2 then some ("length should be > 2, not " ++ toString l)
  else if l = 2 ∨ d.length < l - 2 then some ("unable to get " ++ toString (l - 2) ++ " bytes data")
  else if (vendor = 0x1af4 ∧ 0x1000 ≤ device.toNat ∧ device.toNat ≤ 0x107f) ∧ ¬ l - 3 > 12 then
    some "Virtio size shold be > 12"
  else none

def pciExpressText (d : Bytes) : Option String :=
  lacks d 0x1a "can't read mandatory (0x1a) bytes from slice" <|>
    pick (fld (rd16 d 0) 4 4 : U8) [
      (4, lacks d 34 "can't read root bytes from slice"),
      (10, lacks d 34 "can't read root bytes from slice")] none

/-- What is said about the capability with id `id` and bytes `d` after id and next pointer. -/
def capText (bridge : Bool) (vendor device : U16) (id : U8) (d : Bytes) : Option String :=
  pick id [
    (0x01, lacksData d "Power Management Interface" 6 6),
    (0x02, lacksData d "AGP" 10 10),
    (0x03, lacksData d "Vital Product Data" 6 6),
    (0x04, lacksData d "Slot Identification" 2 2),
    (0x05, under "MSI error: " (msiText d)),
    (0x07, if bridge then under "PCI-X Bridge error: " (pciXBridgeText d)
      else under "PCI-X error: " (pciXText d)),
    (0x08, under "HyperTransport: " (hypertransportText d)),
    (0x09, under "Vendor Specific error: " (vendorSpecificText vendor device d)),
    (0x0a, lacksData d "Debug port" 2 2),
    (0x0d, lacksData d "Bridge Subsystem Vendor ID" 6 6),
    (0x10, under "PCI Express error: " (pciExpressText d)),
    (0x11, lacksData d "MSI-X" 10 10),
    (0x12, lacksData d "Serial ATA" 6 6),
    (0x13, lacksData d "Advanced Features" 4 4),
    (0x14, under "Enhanced Allocation error: "
      (lacks d (if bridge then 6 else 2) "number of entries is unreadable")),
    (0x15, lacksData d "Flattening Portal Bridge" 34 34)] none

/-! ## Extended capabilities -/

def aerText (d : Bytes) : Option String :=
  lacks d 40 "can't read common registres" <|>
    if flag (rd32 d 20) 11 then lacks d 108 "can't read TLP Prefix Log" else none

def linkDeclarationText (d : Bytes) : Option String :=
  lacks d 4 "can't read Element Self Description (4 bytes) from slice" <|>
    (if (fld (rd32 d 0) 8 8 : U8) = 0 then some "number of link entries must be > 1" else none) <|>
    lacks d 12 "reserved space should be readable" <|>
    lacks d 28 "there must be at least one LinkEntry"

/-- `s` starts with the extended capability header, as in the other ones called `s`. -/
def mfvcText (s : Bytes) : Option String :=
  let offset := 16 * (fld (rd32 s 8) 24 8 : U8).toNat
  let size := pick (fld (rd16 s 12) 1 3 : U8) [(1, 16), (2, 32), (3, 64)] 0
  lacks s 16 "capability 1, capability 2, control and status of Port VC are unreadable" <|>
    if offset = 0 then none
    else if offset = 16 then some "VC Arbitration Table offset should be >= 2 * 10h"
    else lacks s offset "VC Arbitration Table data ureadable" <|>
      lacks s (offset + size) ("VC Arbitration Table data too short: expected " ++ toString size ++
        ", real " ++ toString (s.length - offset))

def dpcText (d : Bytes) : Option String :=
  let log := (fld (rd16 d 0) 8 4 : U8).toNat
  lacks d 8 "can't read manadatory registers (8 bytes)" <|>
    if flag (rd16 d 0) 5 then
      lacks d (8 + 36) "can't read RP Extensions registers (36 bytes)" <|>
      (if 5 ≤ log then lacks d (8 + 36 + 4) "can't read RP PIO ImpSpec Log Register (4 bytes)"
        else none) <|>
      lacks d (8 + 36 + 4 * min (log - 4) 5) ("can't read RP PIO TLP Prefix Log Register word#: " ++
        toString ((d.length - (8 + 36 + 4)) / 4))
    else none

def resizableBarText (s : Bytes) : Option String :=
  let bars := (fld (rd32 s 8) 5 3 : U8).toNat
  lacks s 12 "should have at least one entry" <|>
    (if 1 ≤ bars ∧ bars ≤ 6 then none else some "should have 1..=6 number of entries") <|>
    lacks s (4 + 8 * bars) "entries data too short"

def dpaText (s : Bytes) : Option String :=
  let substateMax := (fld (rd32 s 4) 0 5 : U8).toNat
  lacks s 16 "capability, latency indicator, status and control fields are unreadable" <|>
    lacks s (16 + (substateMax + 1)) (
      "number of entries must be equal to the Substate_Max plus one (expected: " ++
        toString substateMax ++ ", found: " ++ toString (s.length - 16) ++ ")")

def pmuxText (s : Bytes) : Option String :=
  let size := 4 * (fld (rd32 s 4) 0 6 : U8).toNat
  lacks s 16 "capability, control and status fields are unreadable" <|>
    lacks s (16 + size) ("ureadable bytes for PMUX Protocol Array (expected: " ++ toString size ++
      ", found: " ++ toString (s.length - 16) ++ ")")

def dvsecText (s : Bytes) : Option String :=
  let vendor : U16 := fld (rd32 s 4) 0 16
  let revision : U8 := fld (rd32 s 4) 16 4
  let length := (fld (rd32 s 4) 20 12 : U16).toNat
  let id : U16 := rd16 s 8
  lacks s 10 "mandatory fields are unreadable" <|>
    if length < 10 ∨ s.length < length then
      some ("Vendor-specific registers (VID: " ++ hex 4 vendor.toNat ++ ", rev: " ++
        hex 2 revision.toNat ++ ", ID: " ++ hex 4 id.toNat ++
        ") are unreadable. Length expected: " ++ toString length ++ ", real: " ++ toString s.length)
    else if vendor = 0x1e98 ∧ id = 0 ∧ length < 10 + 46 then
      some "Compute Express Link error: PCIe DVSEC for CXL Device"
    else none

/-- What is said about the extended capability with id `id`, bytes `s` of the structure and `d` after
the header. -/
def ecapText (id : U16) (s d : Bytes) : Option String :=
  pick id [
    (0x01, under "Advanced Error Reporting error: " (aerText d)),
    (0x02, lacksData d "Virtual Channel" 12 8),
    (0x03, lacksData d "Device Serial Number" 8 8),
    (0x04, lacksData d "Power Budgeting" 12 12),
    (0x05, under "Root Complex Link Declaration error: " (linkDeclarationText d)),
    (0x06, lacksData d "Root Complex Internal Link Control" 8 8),
    (0x07, lacksData d "Root Complex Event Collector Endpoint Association" 4 4),
    (0x08, under "Multi-Function Virtual Channel error: " (mfvcText s)),
    (0x09, lacksData d "Virtual Channel" 12 8),
    (0x0a, lacksData s "RCRB Header" 20 20),
    (0x0b, lacksData d "Vendor-Specific Extended Capability" 4 4),
    (0x0c, lacksData s "Configuration Access Correlation" 8 8),
    (0x0d, lacksData d "Access Control Services" 4 4),
    (0x0e, lacksData d "Alternative Routing-ID Interpretation" 4 4),
    (0x0f, lacksData d "Address Translation Services" 4 4),
    (0x10, lacksData d "Single Root I/O Virtualization" 60 60),
    (0x12, lacksData s "Multicast" 40 48),
    (0x13, lacksData d "Page Request Interface" 12 12),
    (0x15, under "Resizable BAR error: " (resizableBarText s)),
    (0x16, under "Dynamic Power Allocation error: " (dpaText s)),
    (0x17, lacksData d "TPH Requester" 8 8),
    (0x18, lacksData d "Latency Tolerance Reporting" 4 8),
    (0x19, lacksData d "Secondary PCI Express" 8 8),
    (0x1a, under "Protocol Multiplexing error: " (pmuxText s)),
    (0x1b, lacksData d "Process Address Space ID" 4 4),
    (0x1c, lacksData s "LN Requester" 8 8),
    (0x1d, under "Downstream Port Containment error: " (dpcText d)),
    (0x1e, lacksData d "L1 PM Substates" 12 12),
    (0x1f, lacksData d "Precision Time Measurement" 8 8),
    (0x20, lacksData s "M-PCIe" 28 28),
    (0x21, lacksData s "FRS Queuing" 16 16),
    (0x22, lacksData s "Readiness Time Reporting" 12 12),
    (0x23, under "Designated Vendor-Specific Extended Capabilities error: " (dvsecText s)),
    (0x24, under "VF Resizable BAR error: " (resizableBarText s))] none

end Pcics.Spec
