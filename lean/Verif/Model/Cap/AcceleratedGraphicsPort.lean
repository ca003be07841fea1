import Verif.Model.Common
/- Model of src/capabilities/accelerated_graphics_port.rs -/

namespace Pcics.AcceleratedGraphicsPort

/-- src/capabilities/accelerated_graphics_port.rs:195-198 -/
structure Identifier where
  minor : U8
  major : U8
  deriving DecidableEq, Repr

/-- src/capabilities/accelerated_graphics_port.rs:277-290 -/
inductive CalCycle where
  | Period4ms
  | Period16ms
  | Period64ms
  | Period256ms
  | Reserved (v : U8)
  | CalibrationCycleNotNeeded
  deriving DecidableEq, Repr

/-- src/capabilities/accelerated_graphics_port.rs:320-329 -/
inductive DataRateSupport where
  | Speed4x
  | Speed8x
  | Speed4xAnd8x
  | Reserved (v : U8)
  deriving DecidableEq, Repr

/-- src/capabilities/accelerated_graphics_port.rs:209-236 -/
structure Status where
  rq : U8
  isoch_support : Bool
  reserved : Bool
  arqsz : U8
  cal_cycle : CalCycle
  sba : Bool
  ita_coh : Bool
  gart64b : Bool
  htrans : Bool
  over4g : Bool
  fw : Bool
  agp_3_0_mode : Bool
  rate : DataRateSupport
  deriving DecidableEq, Repr

/-- src/capabilities/accelerated_graphics_port.rs:412-419 -/
inductive DataRateEnabled where
  | Speed4x
  | Speed8x
  | Reserved (v : U8)
  deriving DecidableEq, Repr

/-- src/capabilities/accelerated_graphics_port.rs:355-377 -/
structure Command where
  prq : U8
  parqsz : U8
  pcal_cycle : CalCycle
  sba_enable : Bool
  agp_enable : Bool
  gart64b : Bool
  over4g : Bool
  fw_enable : Bool
  drate : DataRateEnabled
  deriving DecidableEq, Repr

/-- src/capabilities/accelerated_graphics_port.rs:471-471 -/
structure IsochY where
  val : U8
  deriving DecidableEq, Repr

/-- src/capabilities/accelerated_graphics_port.rs:487-487 -/
structure IsochErrorCode where
  val : U8
  deriving DecidableEq, Repr

/-- src/capabilities/accelerated_graphics_port.rs:443-454 -/
structure IsochronousStatus where
  maxbw : U8
  isoch_n : U8
  isoch_y : IsochY
  isoch_l : U8
  isoch_error_code : IsochErrorCode
  deriving DecidableEq, Repr

/-- src/capabilities/accelerated_graphics_port.rs:491-498 -/
structure Control where
  cal_cycle_dis : Bool
  aperenb : Bool
  gtlben : Bool
  deriving DecidableEq, Repr

/-- src/capabilities/accelerated_graphics_port.rs:513-513 -/
structure ApertureSize where
  val : U16
  deriving DecidableEq, Repr

/-- src/capabilities/accelerated_graphics_port.rs:517-517 -/
structure EnabledAperturePageSize where
  val : U16
  deriving DecidableEq, Repr

/-- src/capabilities/accelerated_graphics_port.rs:521-526 -/
structure GartPointer where
  gartlo : U32
  garthi : U32
  deriving DecidableEq, Repr

/-- src/capabilities/accelerated_graphics_port.rs:530-538 -/
structure IsochronousCommand where
  pisoch_n : U8
  pisoch_y : U8
  deriving DecidableEq, Repr

/-- src/capabilities/accelerated_graphics_port.rs:111-121 -/
structure AcceleratedGraphicsPort where
  identifier : Identifier
  status : Status
  command : Command
  isochronous_status : Option IsochronousStatus
  control : Option Control
  aperture_size : Option ApertureSize
  enabled_aperture_page_size : Option EnabledAperturePageSize
  gart_pointer : Option GartPointer
  isochronous_command : Option IsochronousCommand
  deriving DecidableEq, Repr

/-- src/capabilities/accelerated_graphics_port.rs:200-205 -/
def Identifier.ofU16 (w : U16) : Identifier := runBits w do
  let minor ← bits 4
  let major ← bits 4
  skip 8
  return { minor := minor, major := major }

/-- src/capabilities/accelerated_graphics_port.rs:292-303 -/
def CalCycle.ofU8 (b : U8) : CalCycle :=
  match b.toNat with
  | 0b000 => .Period4ms
  | 0b001 => .Period16ms
  | 0b010 => .Period64ms
  | 0b011 => .Period256ms
  | 0b111 => .CalibrationCycleNotNeeded
  | _ => .Reserved b

/-- src/capabilities/accelerated_graphics_port.rs:331-340 -/
def DataRateSupport.ofU8 (b : U8) : DataRateSupport :=
  match b.toNat with
  | 0b001 => .Speed4x
  | 0b010 => .Speed8x
  | 0b011 => .Speed4xAnd8x
  | _ => .Reserved b

/-- src/capabilities/accelerated_graphics_port.rs:238-272 -/
def Status.ofU32 (w : U32) : Status := runBits w do
  let rate ← bits 3
  let agp_3_0_mode ← bit
  let fw ← bit
  let over4g ← bit
  let htrans ← bit
  let gart64b ← bit
  let ita_coh ← bit
  let sba ← bit
  let cal_cycle ← bits 3
  let arqsz ← bits 3
  let reserved ← bit
  let isoch_support ← bit
  skip 6
  let rq ← bits 8
  return {
    rq := rq, isoch_support := isoch_support, reserved := reserved, arqsz := arqsz,
    cal_cycle := CalCycle.ofU8 cal_cycle, sba := sba, ita_coh := ita_coh, gart64b := gart64b,
    htrans := htrans, over4g := over4g, fw := fw, agp_3_0_mode := agp_3_0_mode,
    rate := DataRateSupport.ofU8 rate }

/-- src/capabilities/accelerated_graphics_port.rs:305-316 -/
def CalCycle.toU8 : CalCycle → U8
  | .Period4ms => 0b000
  | .Period16ms => 0b001
  | .Period64ms => 0b010
  | .Period256ms => 0b011
  | .CalibrationCycleNotNeeded => 0b111
  | .Reserved v => v

/-- src/capabilities/accelerated_graphics_port.rs:342-351 -/
def DataRateSupport.toU8 : DataRateSupport → U8
  | .Speed4x => 0b001
  | .Speed8x => 0b010
  | .Speed4xAnd8x => 0b011
  | .Reserved v => v

/-- src/capabilities/accelerated_graphics_port.rs:421-429 -/
def DataRateEnabled.ofU8 (b : U8) : DataRateEnabled :=
  match b.toNat with
  | 0b001 => .Speed4x
  | 0b010 => .Speed8x
  | _ => .Reserved b

/-- src/capabilities/accelerated_graphics_port.rs:379-408 -/
def Command.ofU32 (w : U32) : Command := runBits w do
  let drate ← bits 3
  skip 1
  let fw_enable ← bit
  let over4g ← bit
  skip 1
  let gart64b ← bit
  let agp_enable ← bit
  let sba_enable ← bit
  let pcal_cycle ← bits 3
  let parqsz ← bits 3
  skip 1
  skip 7
  let prq ← bits 8
  return {
    prq := prq, parqsz := parqsz, pcal_cycle := CalCycle.ofU8 pcal_cycle,
    sba_enable := sba_enable, agp_enable := agp_enable, gart64b := gart64b, over4g := over4g,
    fw_enable := fw_enable, drate := DataRateEnabled.ofU8 drate }

/-- src/capabilities/accelerated_graphics_port.rs:431-439 -/
def DataRateEnabled.toU8 : DataRateEnabled → U8
  | .Speed4x => 0b001
  | .Speed8x => 0b010
  | .Reserved v => v

/-- src/capabilities/accelerated_graphics_port.rs:455-467 -/
def IsochronousStatus.ofU32 (w : U32) : IsochronousStatus := runBits w do
  let isoch_error_code ← bits 2
  skip 1
  let isoch_l ← bits 3
  let isoch_y ← bits 2
  let isoch_n ← bits 8
  let maxbw ← bits 8
  skip 8
  return {
    maxbw := maxbw, isoch_n := isoch_n, isoch_y := ⟨isoch_y⟩, isoch_l := isoch_l,
    isoch_error_code := ⟨isoch_error_code⟩ }

/-- src/capabilities/accelerated_graphics_port.rs:499-509 -/
def Control.ofU32 (w : U32) : Control := runBits w do
  skip 7
  let gtlben ← bit
  let aperenb ← bit
  let cal_cycle_dis ← bit
  skip 6
  skip 8
  skip 8
  return { cal_cycle_dis := cal_cycle_dis, aperenb := aperenb, gtlben := gtlben }

/-- src/capabilities/accelerated_graphics_port.rs:539-544 -/
def IsochronousCommand.ofU16 (w : U16) : IsochronousCommand := runBits w do
  skip 6
  let pisoch_y ← bits 2
  let pisoch_n ← bits 8
  return { pisoch_n := pisoch_n, pisoch_y := pisoch_y }

/-- The registers the closures of lines 142-172 have stored so far. -/
structure Acc where
  isochronous_status : Option IsochronousStatus := none
  control : Option Control := none
  aperture_size : Option ApertureSize := none
  enabled_aperture_page_size : Option EnabledAperturePageSize := none
  gartlo : Option U32 := none
  garthi : Option U32 := none
  isochronous_command : Option IsochronousCommand := none

/-- src/capabilities/accelerated_graphics_port.rs:136-172: the `and_then` chain; it stops at the
first register that does not fit, keeping what the closures stored before. -/
def optionalRegisters (isoch_support : Bool) (tail : Bytes) : Acc :=
  match le32 tail with
  | none => {}
  | some (head, tail) =>
    let acc : Acc := {
      isochronous_status := if isoch_support then some (IsochronousStatus.ofU32 head) else none }
    match le32 tail with
    | none => acc
    | some (head, tail) =>
      let acc : Acc := { acc with control := some (Control.ofU32 head) }
      match le16 tail with
      | none => acc
      | some (head, tail) =>
        let acc : Acc := { acc with aperture_size := some ⟨head⟩ }
        match le16 tail with
        | none => acc
        | some (head, tail) =>
          let acc : Acc := { acc with enabled_aperture_page_size := some ⟨head⟩ }
          match le32 tail with
          | none => acc
          | some (head, tail) =>
            let acc : Acc := { acc with gartlo := some head }
            match le32 tail with
            | none => acc
            | some (head, tail) =>
              let acc : Acc := { acc with garthi := some head }
              match le16 tail with
              | none => acc
              | some (head, _) =>
                { acc with
                  isochronous_command :=
                    if isoch_support then some (IsochronousCommand.ofU16 head) else none }

/-- src/capabilities/accelerated_graphics_port.rs:126-190 -/
def AcceleratedGraphicsPort.ofBytes (slice : Bytes) :
    Res CapabilityDataError AcceleratedGraphicsPort := do
  let ((identifier, status, command), tail) ← BP.seq (do
    let identifier ← le16
    let status ← le32
    let command ← le32
    return (identifier, status, command)) { name := "AGP", size := 10 } slice
  let status := Status.ofU32 status
  let acc := optionalRegisters status.isoch_support tail
  let gart_pointer : Option GartPointer :=
    match acc.gartlo, acc.garthi with
    | some gartlo, some garthi => some { gartlo := gartlo, garthi := garthi }
    | some gartlo, none => some { gartlo := gartlo, garthi := 0 }
    | _, _ => none
  return {
    identifier := Identifier.ofU16 identifier
    status := status
    command := Command.ofU32 command
    isochronous_status := acc.isochronous_status
    control := acc.control
    aperture_size := acc.aperture_size
    enabled_aperture_page_size := acc.enabled_aperture_page_size
    gart_pointer := gart_pointer
    isochronous_command := acc.isochronous_command }

end Pcics.AcceleratedGraphicsPort
