import Verif.Model.Cap.PciX
import Verif.Spec
/- Specification of src/capabilities/pci_x.rs: positions and value tables. -/

namespace Pcics.PciX
open Spec

/-- Values of `EccErrorPhase`. -/
def EccErrorPhase.spec (c : U8) : EccErrorPhase :=
  pick c [(0, .NoError), (1, .First32bits), (2, .Second32bits), (3, .AttributePhase),
    (4, .Phase32or16bit), (5, .Phase64bit)] .Reserved

/-- Values of `SecondaryBusMode`. -/
def SecondaryBusMode.spec (c : U8) : SecondaryBusMode :=
  pick c [(0, .Conventional), (1, .Mode1), (2, .Mode1), (3, .Mode1), (4, .Mode1), (5, .Mode1),
    (6, .Mode1), (7, .Mode1), (8, .PciX266), (9, .PciX266), (10, .PciX266), (11, .PciX266)]
    .PciX533

/-- Values of `ErrorProtection`. -/
def ErrorProtection.spec (c : U8) : ErrorProtection :=
  pick c [(0, .Parity), (1, .Parity), (2, .Parity), (3, .Parity)] .Ecc

/-- Values of `SecondaryBusFrequency`. -/
def SecondaryBusFrequency.spec (c : U8) : SecondaryBusFrequency :=
  pick c [(0, .NotAvailable), (1, .Freq66MHz), (2, .Freq100MHz), (3, .Freq133MHz),
    (4, .Reserved), (5, .Freq66MHz), (6, .Freq100MHz), (7, .Freq133MHz), (8, .Reserved),
    (9, .Freq66MHz), (10, .Freq100MHz), (11, .Freq133MHz), (12, .Reserved), (13, .Freq66MHz),
    (14, .Freq100MHz)] .Freq133MHz

/-- Layout of `Command`. -/
def Command.spec (w : U16) : Command :=
  {
    uncorrectable_data_error_recovery_enable := flag w 0, enable_relaxed_ordering := flag w 1,
    maximum_memory_read_byte_count := ⟨fld w 2 2⟩,
    maximum_outstanding_split_transactions := ⟨fld w 4 3⟩ }

/-- Values of `DeviceComplexity`. -/
def DeviceComplexity.spec (b : Bool) : DeviceComplexity := cond b .Bridge .Simple

/-- Layout of `Status`. -/
def Status.spec (w : U32) : Status :=
  {
    function_number := fld w 0 3, device_number := fld w 3 5, bus_number := fld w 8 8,
    device_64_bit := flag w 16, pci_x_133_capable := flag w 17,
    slit_completion_discarded := flag w 18, unexpected_split_completion := flag w 19,
    device_complexity := DeviceComplexity.spec (flag w 20),
    designed_maximum_memory_read_byte_count := ⟨fld w 21 2⟩,
    designed_maximum_outstanding_split_transactions := ⟨fld w 23 3⟩,
    designed_maximum_cumulative_read_size := ⟨fld w 26 3⟩,
    received_split_completion_error_message := flag w 29, pci_x_266_capable := flag w 30,
    pci_x_533_capable := flag w 31 }

/-- Layout of `Syndrome`. -/
def Syndrome.spec (w : U8) : Syndrome :=
  {
    e0 := flag w 0, e1 := flag w 1, e2 := flag w 2, e3 := flag w 3, e4 := flag w 4,
    e5 := flag w 5, e6 := flag w 6, e7 := flag w 7 }

/-- Layout of `EccControlAndStatus`. -/
def EccControlAndStatus.spec (w : U32) : EccControlAndStatus :=
  {
    select_secondary_ecc_registers := flag w 0,
    error_present_in_other_ecc_register_bank := flag w 1,
    additional_correctable_ecc_error := flag w 2, additional_uncorrectable_ecc_error := flag w 3,
    ecc_error_phase := EccErrorPhase.spec (fld w 4 3), ecc_error_corrected := flag w 7,
    syndrome := Syndrome.spec (fld w 8 8), error_first_command := fld w 16 4,
    error_second_command := fld w 20 4, error_upper_attributes := fld w 24 4,
    ecc_control_update_enable := flag w 28, disable_single_bit_error_correction := flag w 30,
    ecc_mode := flag w 31 }

/-- Layout of `SecondaryStatus`. -/
def SecondaryStatus.spec (w : U16) : SecondaryStatus :=
  {
    device_64_bit := flag w 0, pci_x_133_capable := flag w 1,
    slit_completion_discarded := flag w 2, unexpected_split_completion := flag w 3,
    split_completion_overrun := flag w 4, split_request_delayed := flag w 5,
    secondary_bus_mode := SecondaryBusMode.spec (fld w 6 4),
    error_protection := ErrorProtection.spec (fld w 6 4),
    secondary_bus_frequency := SecondaryBusFrequency.spec (fld w 6 4),
    pci_x_266_capable := flag w 14, pci_x_533_capable := flag w 15 }

/-- Layout of `BridgeStatus`. -/
def BridgeStatus.spec (w : U32) : BridgeStatus :=
  {
    function_number := fld w 0 3, device_number := fld w 3 5, bus_number := fld w 8 8,
    device_64_bit := flag w 16, pci_x_133_capable := flag w 17,
    slit_completion_discarded := flag w 18, unexpected_split_completion := flag w 19,
    split_completion_overrun := flag w 20, split_request_delayed := flag w 21,
    device_id_messaging_capable := flag w 29, pci_x_266_capable := flag w 30,
    pci_x_533_capable := flag w 31 }

/-- ECC registers: none for item version 0, four dwords at offset `o` for versions 1 and 2. -/
def Ecc.spec (version : U8) (d : Bytes) (o : Nat) : Ecc :=
  pick version [(0, .None),
    (1, .Mode2Only (.spec (rd32 d o)) (rd32 d (o + 4)) (rd32 d (o + 8)) (rd32 d (o + 12))),
    (2, .Mode1OrMode2 (.spec (rd32 d o)) (rd32 d (o + 4)) (rd32 d (o + 8)) (rd32 d (o + 12)))]
    .Reserved

/-- The type 0 item: command, status, ECC registers; the item version is bits 13:12 of the command
register. -/
def PciX.spec (d : Bytes) : PciX :=
  { command := .spec (rd16 d 0)
    status := .spec (rd32 d 2)
    ecc := .spec (fld (rd16 d 0) 12 2) d 6 }

/-- The bridge item; the item version is bits 13:12 of the secondary status register. -/
def PciXBridge.spec (d : Bytes) : PciXBridge :=
  { secondary_status := .spec (rd16 d 0)
    bridge_status := .spec (rd32 d 2)
    upstream_split_transaction_control := ⟨rd16 d 6, rd16 d 8⟩
    downstream_split_transaction_control := ⟨rd16 d 10, rd16 d 12⟩
    ecc := .spec (fld (rd16 d 0) 12 2) d 14 }

/-- Split transaction counts of the eight codes. -/
def splitTransactions (c : U8) : U8 :=
  pick c [(0, 1), (1, 2), (2, 3), (3, 4), (4, 8), (5, 12), (6, 16)] 32

end Pcics.PciX
