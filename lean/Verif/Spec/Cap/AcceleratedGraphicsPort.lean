import Verif.Model.Cap.AcceleratedGraphicsPort
import Verif.Spec
/- Specification of src/capabilities/accelerated_graphics_port.rs: positions and value tables. -/

namespace Pcics.AcceleratedGraphicsPort
open Spec

/-- Values of `CalCycle`. -/
def CalCycle.spec (c : U8) : CalCycle :=
  pick c [(0, .Period4ms), (1, .Period16ms), (2, .Period64ms), (3, .Period256ms),
    (7, .CalibrationCycleNotNeeded)] (.Reserved c)

/-- Values of `DataRateSupport`. -/
def DataRateSupport.spec (c : U8) : DataRateSupport :=
  pick c [(1, .Speed4x), (2, .Speed8x), (3, .Speed4xAnd8x)] (.Reserved c)

/-- Values of `DataRateEnabled`. -/
def DataRateEnabled.spec (c : U8) : DataRateEnabled :=
  pick c [(1, .Speed4x), (2, .Speed8x)] (.Reserved c)

/-- Layout of `Identifier`. -/
def Identifier.spec (w : U16) : Identifier :=
  { minor := fld w 0 4, major := fld w 4 4 }

/-- Layout of `Status`. -/
def Status.spec (w : U32) : Status :=
  {
    rq := fld w 24 8, isoch_support := flag w 17, reserved := flag w 16, arqsz := fld w 13 3,
    cal_cycle := CalCycle.spec (fld w 10 3), sba := flag w 9, ita_coh := flag w 8,
    gart64b := flag w 7, htrans := flag w 6, over4g := flag w 5, fw := flag w 4,
    agp_3_0_mode := flag w 3, rate := DataRateSupport.spec (fld w 0 3) }

/-- Layout of `Command`. -/
def Command.spec (w : U32) : Command :=
  {
    prq := fld w 24 8, parqsz := fld w 13 3, pcal_cycle := CalCycle.spec (fld w 10 3),
    sba_enable := flag w 9, agp_enable := flag w 8, gart64b := flag w 7, over4g := flag w 5,
    fw_enable := flag w 4, drate := DataRateEnabled.spec (fld w 0 3) }

/-- Layout of `IsochronousStatus`. -/
def IsochronousStatus.spec (w : U32) : IsochronousStatus :=
  {
    maxbw := fld w 16 8, isoch_n := fld w 8 8, isoch_y := ⟨fld w 6 2⟩, isoch_l := fld w 3 3,
    isoch_error_code := ⟨fld w 0 2⟩ }

/-- Layout of `Control`. -/
def Control.spec (w : U32) : Control :=
  { cal_cycle_dis := flag w 9, aperenb := flag w 8, gtlben := flag w 7 }

/-- Layout of `IsochronousCommand`. -/
def IsochronousCommand.spec (w : U16) : IsochronousCommand :=
  { pisoch_n := fld w 8 8, pisoch_y := fld w 6 2 }

/-- AGP 3.0 capability; `d` starts at offset 2 of the structure.  Each optional register is present
exactly when the data reaches its end; the isochronous registers also need bit 17 of the status
register; a missing upper half of the GART pointer reads as zero. -/
def AcceleratedGraphicsPort.spec (d : Bytes) : AcceleratedGraphicsPort where
  identifier := .spec (rd16 d 0)
  status := .spec (rd32 d 2)
  command := .spec (rd32 d 6)
  isochronous_status :=
    if 14 ≤ d.length ∧ flag (rd32 d 2) 17 then some (.spec (rd32 d 10)) else none
  control := if 18 ≤ d.length then some (.spec (rd32 d 14)) else none
  aperture_size := if 20 ≤ d.length then some ⟨rd16 d 18⟩ else none
  enabled_aperture_page_size := if 22 ≤ d.length then some ⟨rd16 d 20⟩ else none
  gart_pointer :=
    if 26 ≤ d.length then some ⟨rd32 d 22, if 30 ≤ d.length then rd32 d 26 else 0⟩ else none
  isochronous_command :=
    if 32 ≤ d.length ∧ flag (rd32 d 2) 17 then some (.spec (rd16 d 30)) else none

end Pcics.AcceleratedGraphicsPort
