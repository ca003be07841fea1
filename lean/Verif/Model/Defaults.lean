import Verif.Model.Header
import Verif.Model.Cap.Hypertransport
import Verif.Model.Cap.MessageSignaledInterrups
/-
`Default` implementations, hand-written and derived.  A derived one is the structure of the default
values of its fields: `false`, `0` and `None`.
-/

namespace Pcics

namespace Header

/-- src/header.rs:629, derived -/
def BuiltInSelfTest.default : BuiltInSelfTest :=
  { is_capable := false, is_running := false, completion_code := 0 }

/-- src/header.rs:672-674 -/
def InterruptPin.default : InterruptPin := .Unused

/-- src/header.rs:725-727 -/
def IoAccessAddressRange.default : IoAccessAddressRange := .Addr16Bit 0 0

/-- src/header.rs:780, derived -/
def ExpansionRom.default : ExpansionRom := { address := 0, reserved := 0, is_enabled := false }

/-- src/header/cardbus_bridge_control.rs:7, derived -/
def CardbusBridgeControl.default : CardbusBridgeControl :=
  ⟨false, false, false, false, false, false, false, false, false, false⟩

/-- src/header/command.rs:8, derived -/
def Command.default : Command :=
  ⟨false, false, false, false, false, false, false, false, false, false, false, 0⟩

/-- src/header/class_code.rs:4, derived -/
def ClassCode.default : ClassCode := { interface := 0, sub := 0, base := 0 }

/-- src/header/bridge_control.rs:11, derived -/
def BridgeControl.default : BridgeControl :=
  ⟨false, false, false, false, false, false, false, false, false, false, false, false⟩

end Header

namespace Hypertransport

/-- src/capabilities/hypertransport.rs:462-466 -/
def LinkWidth.default : LinkWidth := .Width8bits

/-- src/capabilities/hypertransport.rs:541-545 -/
def LinkFrequency.default : LinkFrequency := .Rate200MHz

end Hypertransport

namespace MessageSignaledInterrups

/-- src/capabilities/message_signaled_interrups.rs:191, derived -/
def MultipleMessage.default : MultipleMessage := ⟨0⟩

/-- src/capabilities/message_signaled_interrups.rs:163, derived -/
def MessageControl.default : MessageControl :=
  { msi_enable := false, multiple_message_capable := .default, multiple_message_enable := .default,
    a_64_bit_address_capable := false, per_vector_masking_capable := false,
    extended_message_data_capable := false, extended_message_data_enable := false }

/-- src/capabilities/message_signaled_interrups.rs:183-187 -/
def MessageAddress.default : MessageAddress := .Dword 0

/-- src/capabilities/message_signaled_interrups.rs:35, derived -/
def MessageSignaledInterrups.default : MessageSignaledInterrups :=
  { message_control := .default, message_address := .default, message_data := 0,
    extended_message_data := 0, mask_bits := none, pending_bits := none }

end MessageSignaledInterrups
end Pcics
