import Verif.Model.Ext.PciExpressOverMphy
import Verif.Spec
/- Specification of src/extended_capabilities/pci_express_over_m_phy.rs: positions and value tables. -/

namespace Pcics.PciExpressOverMphy
open Spec

/-- Values of `LaneWidthStatus`. -/
def LaneWidthStatus.spec (c : U8) : LaneWidthStatus :=
  pick c [(1, .X1), (2, .X2), (4, .X4), (8, .X8), (12, .X12), (16, .X16), (32, .X32)]
    (.Reserved c)

/-- Values of `PhyLocation`. -/
def PhyLocation.spec (c : U8) : PhyLocation :=
  pick c [(0, .LocalPhy), (1, .RemotePhy)] (.Reserved c)

/-- Layout of `MpcieLinkSpeed`. -/
def MpcieLinkSpeed.spec (w : U8) : MpcieLinkSpeed :=
  { hs_g1 := flag w 0, hs_g2 := flag w 1 }

/-- Layout of `LaneWidthSupported`. -/
def LaneWidthSupported.spec (w : U8) : LaneWidthSupported :=
  {
    x1 := flag w 0, x2 := flag w 1, x4 := flag w 2, x8 := flag w 3, x12 := flag w 4,
    x16 := flag w 5, x32 := flag w 6 }

/-- Layout of `MpcieCapabilities`. -/
def MpcieCapabilities.spec (w : U32) : MpcieCapabilities :=
  {
    mpcie_link_speed_capability := MpcieLinkSpeed.spec (fld w 0 2),
    configuration_software_supported := flag w 15,
    maximum_tx_lane_width_capability := LaneWidthSupported.spec (fld w 16 8),
    maximum_rx_lane_width_capability := LaneWidthSupported.spec (fld w 24 8) }

/-- Layout of `MpcieControl`. -/
def MpcieControl.spec (w : U32) : MpcieControl :=
  { mpcie_target_link_speed_control := MpcieLinkSpeed.spec (fld w 0 2) }

/-- Layout of `MpcieStatus`. -/
def MpcieStatus.spec (w : U32) : MpcieStatus :=
  {
    mpcie_current_link_speed_status := MpcieLinkSpeed.spec (fld w 0 2),
    mpcie_configuration_software_status := flag w 15,
    tx_lane_width_status := LaneWidthStatus.spec (fld w 16 8),
    rx_lane_width_status := LaneWidthStatus.spec (fld w 24 8) }

/-- Layout of `MpciePhyControlAddress`. -/
def MpciePhyControlAddress.spec (w : U32) : MpciePhyControlAddress :=
  {
    lower_addr := fld w 0 8,
    upper_addr := cat (fld w 24 1 : BitVec 1) (fld w 16 5 : BitVec 5),
    phy_location := PhyLocation.spec (fld w 25 3), read := flag w 30, config := flag w 31 }

/-- Layout of `MpciePhyControlData`. -/
def MpciePhyControlData.spec (w : U32) : MpciePhyControlData :=
  {
    phy_register_data := fld w 0 8, phy_control_error := flag w 29, rrap_abort_a := flag w 30,
    phy_control_pending := flag w 31 }

/-- Layout of the structure (offsets with the header). -/
def PciExpressOverMphy.spec (d : Bytes) : PciExpressOverMphy :=
  {
    mpcie_capabilities := MpcieCapabilities.spec (rd32 d 4),
    mpcie_control := MpcieControl.spec (rd32 d 8), mpcie_status := MpcieStatus.spec (rd32 d 12),
    mpcie_lane_error_status := rd32 d 16,
    mpcie_phy_control_address := MpciePhyControlAddress.spec (rd32 d 20),
    mpcie_phy_control_data := MpciePhyControlData.spec (rd32 d 24) }

end Pcics.PciExpressOverMphy
