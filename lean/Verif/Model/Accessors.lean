import Verif.Model.Cap.PciX
import Verif.Model.Cap.Small
import Verif.Model.Cap.MessageSignaledInterrups
import Verif.Model.Ext.VirtualChannel
import Verif.Model.Ext.MultifunctionVirtualChannel
/-
Accessors with their overflow checks on values that parsing never produces but a caller can build:
the wrappers have public fields or a public `From<u8>`, the table iterators a public `new`.  The
unchecked definitions in the modules of the capabilities are what these return without overflow.
-/

namespace Pcics

namespace MultifunctionVirtualChannel

/-- src/extended_capabilities/multifunction_virtual_channel.rs:266-270: `1 << self.0` of a 64-bit
`usize`. -/
def FunctionArbitrationTableEntrySize.bitsChecked (s : FunctionArbitrationTableEntrySize) :
    Res Empty Nat :=
  if s.val.toNat < 64 then .ok s.bits else .panic

/-- src/extended_capabilities/multifunction_virtual_channel.rs:612-629: the shift of `u8::MAX`
overflows for entry sizes above 8, unless the iterator ends before. -/
def FunctionArbitrationTable.nextChecked (t : FunctionArbitrationTable) :
    Res Empty (Option (FunctionArbitrationTableEntry × FunctionArbitrationTable)) :=
  if t.shift = 0 ∧ t.data = [] then .ok none
  else if 8 < t.entry_size_bits then .panic
  else .ok t.next

end MultifunctionVirtualChannel

namespace VirtualChannel

/-- src/extended_capabilities/virtual_channel.rs:226-230: `1 << self.0` of a 64-bit `usize`. -/
def PortArbitrationTableEntrySize.bitsChecked (s : PortArbitrationTableEntrySize) :
    Res Empty Nat :=
  if s.val.toNat < 64 then .ok s.bits else .panic

/-- src/extended_capabilities/virtual_channel.rs:404-421, as for the function arbitration table. -/
def PortArbitrationTable.nextChecked (t : PortArbitrationTable) :
    Res Empty (Option (PortArbitrationTableEntry × PortArbitrationTable)) :=
  if t.shift = 0 ∧ t.data = [] then .ok none
  else if 8 < t.entry_size_bits then .panic
  else .ok t.next

end VirtualChannel
end Pcics
