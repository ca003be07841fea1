import Verif.Spec.Frame
import Verif.Spec.ExtendedCapabilities
/- Which bytes an extended capability structure consists of, for the claim that it is decoded from
these bytes only. -/

namespace Pcics.ExtendedCapabilities
open Spec

/-- Downstream Port Containment: root port extensions are optional, their logs vary in size. -/
def dpcSize (d : Bytes) : Nat :=
  if flag (rd16 d 0) 5 = false then 8
  else if DownstreamPortContainment.logSize d < 5 then 44
  else 48 + 4 * DownstreamPortContainment.prefixDwords d

/-- Multi-Function Virtual Channel: the registers of the port and the VC arbitration table. -/
def mfvcSize (s : Bytes) : Nat :=
  let offset := (fld (rd32 s 8) 24 8 : U8).toNat
  if offset < 2 then 16
  else 16 * offset + VirtualChannel.vcPhases (fld (rd16 s 12) 1 3) / 2

/-- TPH Requester: an ST table of at most 64 words may follow the registers. -/
def tphSize (d : Bytes) : Nat :=
  let words := (fld (rd32 d 0) 16 11 : U16).toNat + 1
  if (fld (rd32 d 0) 9 2 : U8) = 1 ∧ words ≤ 64 then 8 + 2 * words else 8

/-- Number of bytes the structure of extended capability `id` consists of, given its first bytes:
with the header for the ids of `fromStart`, without it for the others.  Tables that are left to
accessors (Virtual Channel, Access Control Services, Secondary PCI Express) are not counted. -/
def structSize (id : U16) (x : Bytes) : Nat :=
  pick id [(0x01, if flag (rd32 x 20) 11 then 68 else 40), (0x02, 12), (0x03, 8), (0x04, 12),
    (0x05, 12 + 16 * RootComplexLinkDeclaration.announced x), (0x06, 8), (0x07, 4),
    (0x08, mfvcSize x), (0x09, 12), (0x0a, 20), (0x0b, max 4 ((fld (rd32 x 0) 20 12 : U16).toNat - 4)),
    (0x0c, 8), (0x0d, 4), (0x0e, 4), (0x0f, 4), (0x10, 60), (0x12, 40), (0x13, 12),
    (0x15, max 12 (4 + 8 * ResizableBar.numBars x)), (0x16, 16 + DynamicPowerAllocation.substates x),
    (0x17, tphSize x), (0x18, 4), (0x19, 8), (0x1a, 16 + ProtocolMultiplexing.arrayBytes x),
    (0x1b, 4), (0x1c, 8), (0x1d, dpcSize x), (0x1e, 12), (0x1f, 8), (0x20, 28), (0x21, 16),
    (0x22, 12), (0x23, max 10 (fld (rd32 x 4) 20 12 : U16).toNat),
    (0x24, max 12 (4 + 8 * ResizableBar.numBars x))] 0

/-- What is needed for the decoder to stay within the structure: the code takes root port registers
of every Advanced Error Reporting structure (and its prefix log from 92 on, see C42), and an overlay
BAR of every Multicast structure. -/
def readSize (id : U16) (x : Bytes) : Nat :=
  max (structSize id x) (pick id [(0x01, if flag (rd32 x 20) 11 then 108 else 52), (0x12, 48)] 0)

/-- Same TPH Requester, except for the bytes kept with an invalid ST table. -/
def sameTph (n : Nat) (a b : TphRequester.TphRequester) : Prop :=
  a.tph_requester_control = b.tph_requester_control ∧
  { a.tph_requester_capability with st_table := .Reserved } =
    { b.tph_requester_capability with st_table := .Reserved } ∧
  match a.tph_requester_capability.st_table, b.tph_requester_capability.st_table with
  | .Invalid x r, .Invalid y r' => x = y ∧ agree (n - 8) r r'
  | x, y => x = y

/-- Same decoded kind, from data known to agree in `n` bytes.  Some kinds keep the rest of the space
for later accesses: there the kept bytes agree as far as the data do, and all else is equal. -/
def ExtendedCapabilityKind.same (n : Nat) : ExtendedCapabilityKind → ExtendedCapabilityKind → Prop
  | .VirtualChannel a, .VirtualChannel b
  | .VirtualChannelMfvcPresent a, .VirtualChannelMfvcPresent b =>
    { a with data := [] } = { b with data := [] } ∧ agree n a.data b.data
  | .AccessControlServices a, .AccessControlServices b =>
    { a with data := [] } = { b with data := [] } ∧ agree (n - 4) a.data b.data
  | .SecondaryPciExpress a, .SecondaryPciExpress b =>
    { a with ecl_data := [] } = { b with ecl_data := [] } ∧ agree (n - 8) a.ecl_data b.ecl_data
  | .MultifunctionVirtualChannel a, .MultifunctionVirtualChannel b =>
    { a with extended_virtual_channels := { a.extended_virtual_channels with data := [] } } =
      { b with extended_virtual_channels := { b.extended_virtual_channels with data := [] } } ∧
    agree n a.extended_virtual_channels.data b.extended_virtual_channels.data
  | .TphRequester a, .TphRequester b => sameTph n a b
  | a, b => a = b

/-- The ids whose decoded values keep bytes beyond the structure for later accesses: Virtual Channel,
Multi-Function Virtual Channel, Access Control Services, TPH Requester, Secondary PCI Express. -/
def keeping : List U16 := [0x02, 0x08, 0x09, 0x0d, 0x17, 0x19]

/-- Same error; the one about the announced length of a DVSEC also tells how much space follows. -/
def sameError : ExtendedCapabilityError → ExtendedCapabilityError → Prop
  | .DesignatedVendorSpecificExtendedCapability o (.VendorSpecificRegisters v r l i _),
    .DesignatedVendorSpecificExtendedCapability o' (.VendorSpecificRegisters v' r' l' i' _) =>
    o = o' ∧ v = v' ∧ r = r' ∧ l = l' ∧ i = i'
  | a, b => a = b

/-- Same outcome: both decode to the same kind, or both fail in the same way. -/
def sameKind (n : Nat) : Res ExtendedCapabilityError ExtendedCapabilityKind →
    Res ExtendedCapabilityError ExtendedCapabilityKind → Prop
  | .ok a, .ok b => a.same n b
  | .err a, .err b => sameError a b
  | a, b => a = b

def sameItem (n : Nat) : Res ExtendedCapabilityError ExtendedCapability →
    Res ExtendedCapabilityError ExtendedCapability → Prop
  | .ok a, .ok b => a.version = b.version ∧ a.offset = b.offset ∧ a.kind.same n b.kind
  | .err a, .err b => sameError a b
  | a, b => a = b

end Pcics.ExtendedCapabilities
