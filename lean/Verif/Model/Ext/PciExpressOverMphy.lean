import Verif.Model.Common
/- Model of src/extended_capabilities/pci_express_over_m_phy.rs -/

namespace Pcics.PciExpressOverMphy

/-- src/extended_capabilities/pci_express_over_m_phy.rs:281-286 -/
structure MpcieLinkSpeed where
  hs_g1 : Bool
  hs_g2 : Bool
  deriving DecidableEq, Repr

/-- src/extended_capabilities/pci_express_over_m_phy.rs:297-305 -/
structure LaneWidthSupported where
  x1 : Bool
  x2 : Bool
  x4 : Bool
  x8 : Bool
  x12 : Bool
  x16 : Bool
  x32 : Bool
  deriving DecidableEq, Repr

/-- src/extended_capabilities/pci_express_over_m_phy.rs:157-166 -/
structure MpcieCapabilities where
  mpcie_link_speed_capability : MpcieLinkSpeed
  configuration_software_supported : Bool
  maximum_tx_lane_width_capability : LaneWidthSupported
  maximum_rx_lane_width_capability : LaneWidthSupported
  deriving DecidableEq, Repr

/-- src/extended_capabilities/pci_express_over_m_phy.rs:183-186 -/
structure MpcieControl where
  mpcie_target_link_speed_control : MpcieLinkSpeed
  deriving DecidableEq, Repr

/-- src/extended_capabilities/pci_express_over_m_phy.rs:324-333 -/
inductive LaneWidthStatus where
  | X1
  | X2
  | X4
  | X8
  | X12
  | X16
  | X32
  | Reserved (v : U8)
  deriving DecidableEq, Repr

/-- src/extended_capabilities/pci_express_over_m_phy.rs:199-208 -/
structure MpcieStatus where
  mpcie_current_link_speed_status : MpcieLinkSpeed
  mpcie_configuration_software_status : Bool
  tx_lane_width_status : LaneWidthStatus
  rx_lane_width_status : LaneWidthStatus
  deriving DecidableEq, Repr

/-- src/extended_capabilities/pci_express_over_m_phy.rs:352-356 -/
inductive PhyLocation where
  | LocalPhy
  | RemotePhy
  | Reserved (v : U8)
  deriving DecidableEq, Repr

/-- src/extended_capabilities/pci_express_over_m_phy.rs:225-236 -/
structure MpciePhyControlAddress where
  lower_addr : U8
  upper_addr : U8
  phy_location : PhyLocation
  read : Bool
  config : Bool
  deriving DecidableEq, Repr

/-- src/extended_capabilities/pci_express_over_m_phy.rs:255-264 -/
structure MpciePhyControlData where
  phy_register_data : U8
  phy_control_error : Bool
  rrap_abort_a : Bool
  phy_control_pending : Bool
  deriving DecidableEq, Repr

/-- src/extended_capabilities/pci_express_over_m_phy.rs:105-112 -/
structure PciExpressOverMphy where
  mpcie_capabilities : MpcieCapabilities
  mpcie_control : MpcieControl
  mpcie_status : MpcieStatus
  mpcie_lane_error_status : U32
  mpcie_phy_control_address : MpciePhyControlAddress
  mpcie_phy_control_data : MpciePhyControlData
  deriving DecidableEq, Repr

/-- src/extended_capabilities/pci_express_over_m_phy.rs:288-293 -/
def MpcieLinkSpeed.ofU8 (w : U8) : MpcieLinkSpeed := runBits w do
  let hs_g1 ← bit
  let hs_g2 ← bit
  return { hs_g1 := hs_g1, hs_g2 := hs_g2 }

/-- src/extended_capabilities/pci_express_over_m_phy.rs:307-320 -/
def LaneWidthSupported.ofU8 (w : U8) : LaneWidthSupported := runBits w do
  let x1 ← bit
  let x2 ← bit
  let x4 ← bit
  let x8 ← bit
  let x12 ← bit
  let x16 ← bit
  let x32 ← bit
  return { x1 := x1, x2 := x2, x4 := x4, x8 := x8, x12 := x12, x16 := x16, x32 := x32 }

/-- src/extended_capabilities/pci_express_over_m_phy.rs:168-179 -/
def MpcieCapabilities.ofU32 (w : U32) : MpcieCapabilities := runBits w do
  let lsc ← bits 2
  skip 13
  let configuration_software_supported ← bit
  let tx ← bits 8
  let rx ← bits 8
  return {
    mpcie_link_speed_capability := MpcieLinkSpeed.ofU8 lsc,
    configuration_software_supported := configuration_software_supported,
    maximum_tx_lane_width_capability := LaneWidthSupported.ofU8 tx,
    maximum_rx_lane_width_capability := LaneWidthSupported.ofU8 rx }

/-- src/extended_capabilities/pci_express_over_m_phy.rs:188-195 -/
def MpcieControl.ofU32 (w : U32) : MpcieControl := runBits w do
  let tlsc ← bits 2
  skip 30
  return { mpcie_target_link_speed_control := MpcieLinkSpeed.ofU8 tlsc }

/-- src/extended_capabilities/pci_express_over_m_phy.rs:335-348 -/
def LaneWidthStatus.ofU8 (b : U8) : LaneWidthStatus :=
  match b.toNat with
  | 0b00000001 => .X1
  | 0b00000010 => .X2
  | 0b00000100 => .X4
  | 0b00001000 => .X8
  | 0b00001100 => .X12
  | 0b00010000 => .X16
  | 0b00100000 => .X32
  | _ => .Reserved b

/-- src/extended_capabilities/pci_express_over_m_phy.rs:210-221 -/
def MpcieStatus.ofU32 (w : U32) : MpcieStatus := runBits w do
  let clss ← bits 2
  skip 13
  let mpcie_configuration_software_status ← bit
  let tx ← bits 8
  let rx ← bits 8
  return {
    mpcie_current_link_speed_status := MpcieLinkSpeed.ofU8 clss,
    mpcie_configuration_software_status := mpcie_configuration_software_status,
    tx_lane_width_status := LaneWidthStatus.ofU8 tx,
    rx_lane_width_status := LaneWidthStatus.ofU8 rx }

/-- src/extended_capabilities/pci_express_over_m_phy.rs:358-366 -/
def PhyLocation.ofU8 (b : U8) : PhyLocation :=
  match b.toNat with
  | 0b000 => .LocalPhy
  | 0b001 => .RemotePhy
  | _ => .Reserved b

/-- src/extended_capabilities/pci_express_over_m_phy.rs:238-251 -/
def MpciePhyControlAddress.ofU32 (w : U32) : MpciePhyControlAddress := runBits w do
  let lower_addr ← bits 8
  skip 8
  let upper_addr ← bits 5
  skip 3
  let upper_addr_5 ← bits 1
  let phy_location ← bits 3
  skip 2
  let read ← bit
  let config ← bit
  return {
    lower_addr := lower_addr,
    upper_addr := upper_addr ||| upper_addr_5 <<< 5,
    phy_location := PhyLocation.ofU8 phy_location, read := read, config := config }

/-- src/extended_capabilities/pci_express_over_m_phy.rs:266-277 -/
def MpciePhyControlData.ofU32 (w : U32) : MpciePhyControlData := runBits w do
  let phy_register_data ← bits 8
  skip 21
  let phy_control_error ← bit
  let rrap_abort_a ← bit
  let phy_control_pending ← bit
  return {
    phy_register_data := phy_register_data, phy_control_error := phy_control_error,
    rrap_abort_a := rrap_abort_a, phy_control_pending := phy_control_pending }

/-- src/extended_capabilities/pci_express_over_m_phy.rs:119-153 -/
def PciExpressOverMphy.ofBytes (slice : Bytes) :
    Res ExtendedCapabilityDataError PciExpressOverMphy := do
  let slice := (getFrom slice 4).getD []
  BP.head (do
    let mpcie_capabilities ← le32
    let mpcie_control ← le32
    let mpcie_status ← le32
    let mpcie_lane_error_status ← le32
    let mpcie_phy_control_address ← le32
    let mpcie_phy_control_data ← le32
    return {
      mpcie_capabilities := MpcieCapabilities.ofU32 mpcie_capabilities,
      mpcie_control := MpcieControl.ofU32 mpcie_control,
      mpcie_status := MpcieStatus.ofU32 mpcie_status,
      mpcie_lane_error_status := mpcie_lane_error_status,
      mpcie_phy_control_address := MpciePhyControlAddress.ofU32 mpcie_phy_control_address,
      mpcie_phy_control_data := MpciePhyControlData.ofU32 mpcie_phy_control_data })
    { name := "M-PCIe", size := 0x1C } slice

end Pcics.PciExpressOverMphy
