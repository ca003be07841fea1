import Verif.Model.Ext.LatencyToleranceReporting
import Verif.Model.Ext.L1PmSubstates
import Verif.Model.Ext.VirtualChannel
import Verif.Model.Ext.MultifunctionVirtualChannel
import Verif.Model.Cap.PciX
/- The computations of the crate whose result or intermediate type is `usize`, for a `usize` of `w`
bits.  The other modules take `usize` as 64 bits. Overflow is a panic (a build with overflow checks);
`as usize` of a `u8` or `u16` and shifts themselves cannot fail but drop what does not fit. -/

namespace Pcics

/-- `1 << n` at type `usize`. -/
def oneShl {ε : Type} (w n : Nat) : Res ε Nat := if n < w then .ok (2 ^ n) else .panic

namespace LatencyToleranceReporting

/-- src/extended_capabilities/latency_tolerance_reporting.rs:71-78 -/
def MaxLatency.valueAt {ε : Type} (w : Nat) (m : MaxLatency) : Res ε (BitVec w) :=
  if m.scale.toNat ≤ 5 then
    if 5 * m.scale.toNat < w then .ok (m.value.setWidth w <<< (5 * m.scale.toNat)) else .panic
  else .ok 0

end LatencyToleranceReporting

namespace L1PmSubstates

/-- src/extended_capabilities/l1_pm_substates.rs:187-194 -/
def PortTPowerOn.valueAt {ε : Type} (w : Nat) (p : PortTPowerOn) : Res ε (Option Nat) :=
  match p.scale with
  | .Reserved => .ok none
  | s => if p.value.toNat * s.asUsize < 2 ^ w then .ok (some (p.value.toNat * s.asUsize)) else .panic

end L1PmSubstates

namespace PciX

/-- src/capabilities/pci_x.rs:274-279; `self.0 + 9` is an `u8` sum. -/
def MaximumByteCount.valueAt {ε : Type} (w : Nat) (c : MaximumByteCount) : Res ε Nat :=
  if c.val.toNat + 9 < 256 then oneShl w (c.val.toNat + 9) else .panic

/-- src/capabilities/pci_x.rs:397-399; `self.0 + 3` is an `u8` sum. -/
def MaximumCumulativeReadSize.adqsAt {ε : Type} (w : Nat) (c : MaximumCumulativeReadSize) :
    Res ε Nat :=
  if c.val.toNat + 3 < 256 then oneShl w (c.val.toNat + 3) else .panic

/-- src/capabilities/pci_x.rs:400-402 -/
def MaximumCumulativeReadSize.bytesAt {ε : Type} (w : Nat) (c : MaximumCumulativeReadSize) :
    Res ε Nat := oneShl w c.val.toNat

end PciX

/-- src/extended_capabilities/virtual_channel.rs:226-230 -/
def VirtualChannel.PortArbitrationTableEntrySize.bitsAt {ε : Type} (w : Nat)
    (s : VirtualChannel.PortArbitrationTableEntrySize) : Res ε Nat := oneShl w s.val.toNat

/-- src/extended_capabilities/multifunction_virtual_channel.rs:266-270 -/
def MultifunctionVirtualChannel.FunctionArbitrationTableEntrySize.bitsAt {ε : Type} (w : Nat)
    (s : MultifunctionVirtualChannel.FunctionArbitrationTableEntrySize) : Res ε Nat :=
  oneShl w s.val.toNat

/-- The additions and multiplications by which decoders find table offsets and lengths, as the
product of a decoded field and an entry size plus a constant: `field as usize * size + add`.
src/capabilities/enhanced_allocation.rs:179, src/extended_capabilities/tph_requester.rs:82,
src/extended_capabilities/multifunction_virtual_channel.rs:188 and 309,
src/extended_capabilities/virtual_channel.rs:121 and 140,
src/extended_capabilities/secondary_pci_express.rs:81,
src/extended_capabilities/protocol_multiplexing.rs:130,
src/extended_capabilities/root_complex_link_declaration.rs:247. -/
def offsetAt {ε : Type} {n : Nat} (w : Nat) (field : BitVec n) (size add : Nat) : Res ε Nat :=
  if field.toNat * size < 2 ^ w ∧ field.toNat * size + add < 2 ^ w then
    .ok (field.toNat * size + add) else .panic

end Pcics
