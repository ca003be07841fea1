import Verif.Lemmas.Reads
import Verif.Spec.Cap.PciExpress
import Verif.Lemmas.Tactics
import Verif.Lemmas.Bv
/- Properties of src/capabilities/pci_express.rs -/

namespace Pcics.PciExpress
open Spec

/-- C39: the `8` codes of `MaxSize` decode without panic, to their meanings. -/
theorem MaxSize_total {ε : Type} (n : Nat) :
    (MaxSize.ofU8 (BitVec.ofNat 8 (n % 8)) : Res ε MaxSize) =
      .ok (MaxSize.spec (BitVec.ofNat 8 (n % 8))) := by
  have h : n % 8 < 8 := Nat.mod_lt _ (by decide)
  generalize n % 8 = m at h
  interval_cases m <;> rfl

/-- C39: the `4` codes of `PhantomFunctionsSupported` decode without panic, to their meanings. -/
theorem PhantomFunctionsSupported_total {ε : Type} (n : Nat) :
    (PhantomFunctionsSupported.ofU8 (BitVec.ofNat 8 (n % 4)) : Res ε PhantomFunctionsSupported) =
      .ok (PhantomFunctionsSupported.spec (BitVec.ofNat 8 (n % 4))) := by
  have h : n % 4 < 4 := Nat.mod_lt _ (by decide)
  generalize n % 4 = m at h
  interval_cases m <;> rfl

/-- C39: the `8` codes of `EndpointL0sAcceptableLatency` decode without panic, to their meanings. -/
theorem EndpointL0sAcceptableLatency_total {ε : Type} (n : Nat) :
    (EndpointL0sAcceptableLatency.ofU8 (BitVec.ofNat 8 (n % 8)) : Res ε EndpointL0sAcceptableLatency) =
      .ok (EndpointL0sAcceptableLatency.spec (BitVec.ofNat 8 (n % 8))) := by
  have h : n % 8 < 8 := Nat.mod_lt _ (by decide)
  generalize n % 8 = m at h
  interval_cases m <;> rfl

/-- C39: the `8` codes of `EndpointL1AcceptableLatency` decode without panic, to their meanings. -/
theorem EndpointL1AcceptableLatency_total {ε : Type} (n : Nat) :
    (EndpointL1AcceptableLatency.ofU8 (BitVec.ofNat 8 (n % 8)) : Res ε EndpointL1AcceptableLatency) =
      .ok (EndpointL1AcceptableLatency.spec (BitVec.ofNat 8 (n % 8))) := by
  have h : n % 8 < 8 := Nat.mod_lt _ (by decide)
  generalize n % 8 = m at h
  interval_cases m <;> rfl

/-- C39: meaning of every code of `LinkSpeed`. -/
theorem LinkSpeed_values (b : U8) : LinkSpeed.ofU8 b = LinkSpeed.spec b := by
  revert b; decide +kernel

/-- C39: meaning of every code of `LinkWidth`. -/
theorem LinkWidth_values (b : U8) : LinkWidth.ofU8 b = LinkWidth.spec b := by
  revert b; decide +kernel

/-- C39: the `4` codes of `ActiveStatePowerManagement` decode without panic, to their meanings. -/
theorem ActiveStatePowerManagement_total {ε : Type} (n : Nat) :
    (ActiveStatePowerManagement.ofU8 (BitVec.ofNat 8 (n % 4)) : Res ε ActiveStatePowerManagement) =
      .ok (ActiveStatePowerManagement.spec (BitVec.ofNat 8 (n % 4))) := by
  have h : n % 4 < 4 := Nat.mod_lt _ (by decide)
  generalize n % 4 = m at h
  interval_cases m <;> rfl

/-- C39: the `8` codes of `L0sExitLatency` decode without panic, to their meanings. -/
theorem L0sExitLatency_total {ε : Type} (n : Nat) :
    (L0sExitLatency.ofU8 (BitVec.ofNat 8 (n % 8)) : Res ε L0sExitLatency) =
      .ok (L0sExitLatency.spec (BitVec.ofNat 8 (n % 8))) := by
  have h : n % 8 < 8 := Nat.mod_lt _ (by decide)
  generalize n % 8 = m at h
  interval_cases m <;> rfl

/-- C39: the `8` codes of `L1ExitLatency` decode without panic, to their meanings. -/
theorem L1ExitLatency_total {ε : Type} (n : Nat) :
    (L1ExitLatency.ofU8 (BitVec.ofNat 8 (n % 8)) : Res ε L1ExitLatency) =
      .ok (L1ExitLatency.spec (BitVec.ofNat 8 (n % 8))) := by
  have h : n % 8 < 8 := Nat.mod_lt _ (by decide)
  generalize n % 8 = m at h
  interval_cases m <;> rfl

/-- C39: the `4` codes of `IndicatorControl` decode without panic, to their meanings. -/
theorem IndicatorControl_total {ε : Type} (n : Nat) :
    (IndicatorControl.ofU8 (BitVec.ofNat 8 (n % 4)) : Res ε IndicatorControl) =
      .ok (IndicatorControl.spec (BitVec.ofNat 8 (n % 4))) := by
  have h : n % 4 < 4 := Nat.mod_lt _ (by decide)
  generalize n % 4 = m at h
  interval_cases m <;> rfl

/-- C39: meaning of every code of `CompletionTimeoutRanges`. -/
theorem CompletionTimeoutRanges_values (b : U8) : CompletionTimeoutRanges.ofU8 b = CompletionTimeoutRanges.spec b := by
  revert b; decide +kernel

/-- C39: the `4` codes of `TphCompleter` decode without panic, to their meanings. -/
theorem TphCompleter_total {ε : Type} (n : Nat) :
    (TphCompleter.ofU8 (BitVec.ofNat 8 (n % 4)) : Res ε TphCompleter) =
      .ok (TphCompleter.spec (BitVec.ofNat 8 (n % 4))) := by
  have h : n % 4 < 4 := Nat.mod_lt _ (by decide)
  generalize n % 4 = m at h
  interval_cases m <;> rfl

/-- C39: the `4` codes of `LnSystemCls` decode without panic, to their meanings. -/
theorem LnSystemCls_total {ε : Type} (n : Nat) :
    (LnSystemCls.ofU8 (BitVec.ofNat 8 (n % 4)) : Res ε LnSystemCls) =
      .ok (LnSystemCls.spec (BitVec.ofNat 8 (n % 4))) := by
  have h : n % 4 < 4 := Nat.mod_lt _ (by decide)
  generalize n % 4 = m at h
  interval_cases m <;> rfl

/-- C39: the `4` codes of `Obff` decode without panic, to their meanings. -/
theorem Obff_total {ε : Type} (n : Nat) :
    (Obff.ofU8 (BitVec.ofNat 8 (n % 4)) : Res ε Obff) =
      .ok (Obff.spec (BitVec.ofNat 8 (n % 4))) := by
  have h : n % 4 < 4 := Nat.mod_lt _ (by decide)
  generalize n % 4 = m at h
  interval_cases m <;> rfl

/-- C39: the `4` codes of `MaxEndEndTlpPrefixes` decode without panic, to their meanings. -/
theorem MaxEndEndTlpPrefixes_total {ε : Type} (n : Nat) :
    (MaxEndEndTlpPrefixes.ofU8 (BitVec.ofNat 8 (n % 4)) : Res ε MaxEndEndTlpPrefixes) =
      .ok (MaxEndEndTlpPrefixes.spec (BitVec.ofNat 8 (n % 4))) := by
  have h : n % 4 < 4 := Nat.mod_lt _ (by decide)
  generalize n % 4 = m at h
  interval_cases m <;> rfl

/-- C39: the `4` codes of `EmergencyPowerReduction` decode without panic, to their meanings. -/
theorem EmergencyPowerReduction_total {ε : Type} (n : Nat) :
    (EmergencyPowerReduction.ofU8 (BitVec.ofNat 8 (n % 4)) : Res ε EmergencyPowerReduction) =
      .ok (EmergencyPowerReduction.spec (BitVec.ofNat 8 (n % 4))) := by
  have h : n % 4 < 4 := Nat.mod_lt _ (by decide)
  generalize n % 4 = m at h
  interval_cases m <;> rfl

/-- C39: meaning of every code of `CompletionTimeoutValue`. -/
theorem CompletionTimeoutValue_values (b : U8) : CompletionTimeoutValue.ofU8 b = CompletionTimeoutValue.spec b := by
  revert b; decide +kernel

/-- C39: the `4` codes of `ObffEnable` decode without panic, to their meanings. -/
theorem ObffEnable_total {ε : Type} (n : Nat) :
    (ObffEnable.ofU8 (BitVec.ofNat 8 (n % 4)) : Res ε ObffEnable) =
      .ok (ObffEnable.spec (BitVec.ofNat 8 (n % 4))) := by
  have h : n % 4 < 4 := Nat.mod_lt _ (by decide)
  generalize n % 4 = m at h
  interval_cases m <;> rfl

/-- C39: the `4` codes of `CrosslinkResolution` decode without panic, to their meanings. -/
theorem CrosslinkResolution_total {ε : Type} (n : Nat) :
    (CrosslinkResolution.ofU8 (BitVec.ofNat 8 (n % 4)) : Res ε CrosslinkResolution) =
      .ok (CrosslinkResolution.spec (BitVec.ofNat 8 (n % 4))) := by
  have h : n % 4 < 4 := Nat.mod_lt _ (by decide)
  generalize n % 4 = m at h
  interval_cases m <;> rfl

/-- C39: meaning of every code of `DownstreamComponentPresence`. -/
theorem DownstreamComponentPresence_values (b : U8) : DownstreamComponentPresence.ofU8 b = DownstreamComponentPresence.spec b := by
  revert b; decide +kernel

/-- C39: meaning of every code of `TransmitterPreset`. -/
theorem TransmitterPreset_values (b : U8) : TransmitterPreset.ofU8 b = TransmitterPreset.spec b := by
  revert b; decide +kernel

/-- C39: meaning of every code of `ReceiverPresetHint`. -/
theorem ReceiverPresetHint_values (b : U8) : ReceiverPresetHint.ofU8 b = ReceiverPresetHint.spec b := by
  revert b; decide +kernel

/-- C39: both values of `ExtendedTagFieldSupported`. -/
theorem ExtendedTagFieldSupported_values (b : Bool) : ExtendedTagFieldSupported.ofBOOL b = ExtendedTagFieldSupported.spec b := by
  cases b <;> rfl

/-- C39: the four scale codes of a slot power limit decode without panic. -/
theorem SlotPowerLimit_total {ε : Type} (v : U8) (n : Nat) :
    (SlotPowerLimit.new v (BitVec.ofNat 8 (n % 4)) : Res ε SlotPowerLimit) =
      .ok (SlotPowerLimit.spec v (BitVec.ofNat 8 (n % 4))) := by
  have h : n % 4 < 4 := Nat.mod_lt _ (by decide)
  generalize n % 4 = m at h
  interval_cases m <;> rfl

/-- C39: every field of `DeviceCapabilities` is at its bit position. -/
theorem DeviceCapabilities_layout {ε : Type} (w : U32) :
    (DeviceCapabilities.ofU32 w : Res ε DeviceCapabilities) = .ok (DeviceCapabilities.spec w) := by
  bits_simp [DeviceCapabilities.ofU32, DeviceCapabilities.spec, EndpointL0sAcceptableLatency_total,
    EndpointL1AcceptableLatency_total, ExtendedTagFieldSupported_values, MaxSize_total,
    PhantomFunctionsSupported_total, SlotPowerLimit_total]

/-- C39: every field of `DeviceControl` is at its bit position. -/
theorem DeviceControl_layout {ε : Type} (w : U16) :
    (DeviceControl.ofU16 w : Res ε DeviceControl) = .ok (DeviceControl.spec w) := by
  bits_simp [DeviceControl.ofU16, DeviceControl.spec, MaxSize_total]

/-- C39: every field of `DeviceStatus` is at its bit position. -/
theorem DeviceStatus_layout (w : U16) :
    DeviceStatus.ofU16 w = DeviceStatus.spec w := by
  bits_simp [DeviceStatus.ofU16, DeviceStatus.spec]

/-- C39: every field of `LinkCapabilities` is at its bit position. -/
theorem LinkCapabilities_layout {ε : Type} (w : U32) :
    (LinkCapabilities.ofU32 w : Res ε LinkCapabilities) = .ok (LinkCapabilities.spec w) := by
  bits_simp [LinkCapabilities.ofU32, LinkCapabilities.spec, ActiveStatePowerManagement_total,
    L0sExitLatency_total, L1ExitLatency_total, LinkSpeed_values, LinkWidth_values]

/-- C39: both values of `ReadCompletionBoundary`. -/
theorem ReadCompletionBoundary_values (b : Bool) : ReadCompletionBoundary.ofBOOL b = ReadCompletionBoundary.spec b := by
  cases b <;> rfl

/-- C39: every field of `LinkControl` is at its bit position. -/
theorem LinkControl_layout {ε : Type} (w : U16) :
    (LinkControl.ofU16 w : Res ε LinkControl) = .ok (LinkControl.spec w) := by
  bits_simp [LinkControl.ofU16, LinkControl.spec, ActiveStatePowerManagement_total,
    ReadCompletionBoundary_values]

/-- C39: every field of `LinkStatus` is at its bit position. -/
theorem LinkStatus_layout (w : U16) :
    LinkStatus.ofU16 w = LinkStatus.spec w := by
  bits_simp [LinkStatus.ofU16, LinkStatus.spec, LinkSpeed_values, LinkWidth_values]

/-- C39: every field of `SlotCapabilities` is at its bit position. -/
theorem SlotCapabilities_layout {ε : Type} (w : U32) :
    (SlotCapabilities.ofU32 w : Res ε SlotCapabilities) = .ok (SlotCapabilities.spec w) := by
  bits_simp [SlotCapabilities.ofU32, SlotCapabilities.spec, SlotPowerLimit_total]

/-- C39: every field of `SlotControl` is at its bit position. -/
theorem SlotControl_layout {ε : Type} (w : U16) :
    (SlotControl.ofU16 w : Res ε SlotControl) = .ok (SlotControl.spec w) := by
  bits_simp [SlotControl.ofU16, SlotControl.spec, IndicatorControl_total]

/-- C39: every field of `SlotStatus` is at its bit position. -/
theorem SlotStatus_layout (w : U16) :
    SlotStatus.ofU16 w = SlotStatus.spec w := by
  bits_simp [SlotStatus.ofU16, SlotStatus.spec]

/-- C39: every field of `RootControl` is at its bit position. -/
theorem RootControl_layout (w : U16) :
    RootControl.ofU16 w = RootControl.spec w := by
  bits_simp [RootControl.ofU16, RootControl.spec]

/-- C39: every field of `RootCapabilities` is at its bit position. -/
theorem RootCapabilities_layout (w : U16) :
    RootCapabilities.ofU16 w = RootCapabilities.spec w := by
  bits_simp [RootCapabilities.ofU16, RootCapabilities.spec]

/-- C39: every field of `RootStatus` is at its bit position. -/
theorem RootStatus_layout (w : U32) :
    RootStatus.ofU32 w = RootStatus.spec w := by
  bits_simp [RootStatus.ofU32, RootStatus.spec]

/-- C39: every field of `DeviceCapabilities2` is at its bit position. -/
theorem DeviceCapabilities2_layout {ε : Type} (w : U32) :
    (DeviceCapabilities2.ofU32 w : Res ε DeviceCapabilities2) = .ok (DeviceCapabilities2.spec w) := by
  bits_simp [DeviceCapabilities2.ofU32, DeviceCapabilities2.spec, CompletionTimeoutRanges_values,
    EmergencyPowerReduction_total, LnSystemCls_total, MaxEndEndTlpPrefixes_total, Obff_total,
    TphCompleter_total]

/-- C39: both values of `EndEndTlpPrefixBlocking`. -/
theorem EndEndTlpPrefixBlocking_values (b : Bool) : EndEndTlpPrefixBlocking.ofBOOL b = EndEndTlpPrefixBlocking.spec b := by
  cases b <;> rfl

/-- C39: every field of `DeviceControl2` is at its bit position. -/
theorem DeviceControl2_layout {ε : Type} (w : U16) :
    (DeviceControl2.ofU16 w : Res ε DeviceControl2) = .ok (DeviceControl2.spec w) := by
  bits_simp [DeviceControl2.ofU16, DeviceControl2.spec, CompletionTimeoutValue_values,
    EndEndTlpPrefixBlocking_values, ObffEnable_total]

/-- C39: every field of `SupportedLinkSpeedsVector` is at its bit position. -/
theorem SupportedLinkSpeedsVector_layout (w : U8) :
    SupportedLinkSpeedsVector.ofU8 w = SupportedLinkSpeedsVector.spec w := by
  bits_simp [SupportedLinkSpeedsVector.ofU8, SupportedLinkSpeedsVector.spec]

/-- C39: every field of `LinkCapabilities2` is at its bit position. -/
theorem LinkCapabilities2_layout (w : U32) :
    LinkCapabilities2.ofU32 w = LinkCapabilities2.spec w := by
  bits_simp [LinkCapabilities2.ofU32, LinkCapabilities2.spec, SupportedLinkSpeedsVector_layout]

/-- C39: both values of `DeEmphasis`. -/
theorem DeEmphasis_values (b : Bool) : DeEmphasis.ofBOOL b = DeEmphasis.spec b := by
  cases b <;> rfl

/-- C39: every field of `LinkControl2` is at its bit position. -/
theorem LinkControl2_layout (w : U16) :
    LinkControl2.ofU16 w = LinkControl2.spec w := by
  bits_simp [LinkControl2.ofU16, LinkControl2.spec, CompliancePresetOrDeEmphasis.ofU8,
    DeEmphasis_values, LinkSpeed_values, TransmitMargin.ofU8]

/-- C39: every field of `LinkStatus2` is at its bit position. -/
theorem LinkStatus2_layout {ε : Type} (w : U16) :
    (LinkStatus2.ofU16 w : Res ε LinkStatus2) = .ok (LinkStatus2.spec w) := by
  bits_simp [LinkStatus2.ofU16, LinkStatus2.spec, CrosslinkResolution_total, DeEmphasis_values,
    DownstreamComponentPresence_values]

private theorem caps_eq (w : U16) :
    (runBits w (do
      let version ← bits 4
      let device_type ← bits 4
      let slot_implemented ← bit
      let interrupt_message_number ← bits 5
      let tcs_routing_support ← bit
      skip 1
      return (version, device_type, slot_implemented, interrupt_message_number,
        tcs_routing_support)) : U8 × U8 × Bool × U8 × Bool) =
    (fld w 0 4, fld w 4 4, flag w 8, fld w 9 5, flag w 14) := by bits_simp []

private theorem device_type_eq (d : Bytes) (c : U8) (hc : c = fld (rd16 d 0) 4 4) :
    DeviceType.tryFrom c (Link.spec d) (Slot.spec d) (present d 34 (Root.spec d))
        (presentV2 d 50 (Link2.spec d)) (presentV2 d 58 Slot2.spec) =
      if needsRoot d ∧ d.length < 34 then .err .RootBytesSlice else .ok (DeviceType.spec d) := by
  have hv : c.toNat < 16 := by
    rw [hc]; simp only [fld, BitVec.toNat_setWidth, BitVec.extractLsb'_toNat]; omega
  have hb : c = BitVec.ofNat 8 c.toNat := by simp
  have hn : needsRoot d = pick c [(4, true), (10, true)] false := by rw [hc]; rfl
  rw [hn]
  unfold DeviceType.spec
  rw [← hc]
  clear hn hc
  generalize c.toNat = n at hv hb
  subst hb
  by_cases h : 34 ≤ d.length
  · have h' : ¬ d.length < 34 := by omega
    simp only [present, if_pos h, h', and_false, if_false]
    interval_cases n <;> rfl
  · have h' : d.length < 34 := by omega
    simp only [present, if_neg h, h', and_true]
    interval_cases n <;> rfl

/-- C39: the whole structure: 26 bytes are mandatory, root registers are mandatory for root ports
and event collectors, everything else is present exactly when the data reaches the end of the block
(and the version is at least 2 for the second set); all fields at the offsets of the PCI Express
specification; never a panic. -/
theorem PciExpress_bytes (d : Bytes) :
    PciExpress.ofBytes d =
      if d.length < 26 then .err .RequiredBytesSlice
      else if needsRoot d ∧ d.length < 34 then .err .RootBytesSlice
      else .ok (PciExpress.spec d) := by
  by_cases h : d.length < 26
  · unfold PciExpress.ofBytes
    bytes_len []
  rw [if_neg h]
  have hroot : optBlock (getRange d 26 34) (BP.arr do
      let root_ctrl ← le16
      let root_caps ← le16
      let root_st ← le32
      return Root.new root_ctrl root_caps root_st) = .ok (present d 34 (Root.spec d)) := by
    by_cases h34 : 34 ≤ d.length <;>
    bytes_len [optBlock, present, Root.spec, Root.new, RootControl_layout, RootCapabilities_layout,
      RootStatus_layout]
  have hdev2 : optBlock (getRange d 34 42) (fun s => Res.join (BP.arr (do
      let dev_ctrl ← le32
      let dev_caps ← le16
      let dev_st ← le16
      return Device2.new dev_ctrl dev_caps dev_st) s)) = .ok (present d 42 (Device2.spec d)) := by
    by_cases h42 : 42 ≤ d.length <;>
    bytes_len [optBlock, present, Device2.spec, Device2.new, DeviceCapabilities2_layout,
      DeviceControl2_layout, DeviceStatus2.ofU16]
  have hlink2 : optBlock (getRange d 42 50) (fun s => Res.join (BP.arr (do
      let link_caps_2 ← le32
      let link_ctrl_2 ← le16
      let link_st_2 ← le16
      return Link2.new link_caps_2 link_ctrl_2 link_st_2) s)) =
        .ok (present d 50 (Link2.spec d)) := by
    by_cases h50 : 50 ≤ d.length <;>
    bytes_len [optBlock, present, Link2.spec, Link2.new, LinkCapabilities2_layout,
      LinkControl2_layout, LinkStatus2_layout]
  have hslot2 : optBlock (getRange d 50 58) (BP.arr do
      let slot_caps_2 ← le32
      let slot_ctrl_2 ← le16
      let slot_st_2 ← le16
      return Slot2.new slot_caps_2 slot_ctrl_2 slot_st_2) = .ok (present d 58 Slot2.spec) := by
    by_cases h58 : 58 ≤ d.length <;>
    bytes_len [optBlock, present, Slot2.spec, Slot2.new, SlotCapabilities2.ofU32,
      SlotControl2.ofU16, SlotStatus2.ofU16]
  have key := device_type_eq d _ rfl
  unfold PciExpress.ofBytes
  simp only [hroot, hdev2, hlink2, hslot2]
  bytes_len [caps_eq, Device.new, Link.new, Slot.new, DeviceCapabilities_layout,
    DeviceControl_layout, DeviceStatus_layout, LinkCapabilities_layout, LinkControl_layout,
    LinkStatus_layout, SlotCapabilities_layout, SlotControl_layout, SlotStatus_layout]
  simp only [presentV2] at key
  simp only [PciExpress.spec, presentV2]
  by_cases hver : 2 ≤ (fld (rd16 d 0) 0 4 : U8).toNat
  · have hver' : (fld (rd16 d 0) 0 4 : U8).toNat > 1 := hver
    simp only [if_pos hver, if_pos hver', Res.bind_ok, Link.spec, Slot.spec, Device.spec] at key ⊢
    rw [key]
    split <;> rfl
  · have hver' : ¬ (fld (rd16 d 0) 0 4 : U8).toNat > 1 := hver
    simp only [if_neg hver, if_neg hver', Res.bind_ok, Link.spec, Slot.spec, Device.spec] at key ⊢
    rw [key]
    split <;> rfl

/-- C39: the classification of a decoded function depends only on its device/port type code. -/
theorem PciExpress_kind (d : Bytes) (x : PciExpress) (h : PciExpress.ofBytes d = .ok x) :
    let c := (fld (rd16 d 0) 4 4 : U8).toNat
    (x.device_type.is_endpoint = true ↔ c = 0 ∨ c = 1 ∨ c = 9) ∧
    (x.device_type.is_root = true ↔ c = 4 ∨ c = 10) ∧
    (x.device_type.is_downstream_port = true ↔ c = 4 ∨ c = 6 ∨ c = 8) := by
  rw [PciExpress_bytes] at h
  split at h
  · cases h
  split at h
  · cases h
  obtain rfl := Res.ok.inj h
  simp only [PciExpress.spec, DeviceType.spec]
  have hv : (fld (rd16 d 0) 4 4 : U8).toNat < 16 := by
    simp only [fld, BitVec.toNat_setWidth, BitVec.extractLsb'_toNat]; omega
  have hb : (fld (rd16 d 0) 4 4 : U8) = BitVec.ofNat 8 (fld (rd16 d 0) 4 4 : U8).toNat := by simp
  generalize (fld (rd16 d 0) 4 4 : U8).toNat = n at hv hb
  rw [hb]
  interval_cases n <;>
    simp [pick, DeviceType.is_endpoint, DeviceType.is_root, DeviceType.is_downstream_port]

/-- C56: encoding a decoded link speed or width code gives the code back. -/
theorem link_code_roundtrip (b : U8) :
    (LinkSpeed.ofU8 b).toU8 = b ∧ (LinkWidth.ofU8 b).toU8 = b := by
  revert b; decide +kernel

/-- C56: encoding a decoded completion timeout code gives the code back. -/
theorem completion_timeout_roundtrip (b : U8) :
    (CompletionTimeoutRanges.ofU8 b).toU8 = b ∧ (CompletionTimeoutValue.ofU8 b).toU8 = b := by
  revert b; decide +kernel

/-- C56: encoding a decoded two-bit code of the second device registers gives the code back. -/
theorem device2_code_roundtrip (n : Nat) (h : n < 4) :
    let b : U8 := BitVec.ofNat 8 n
    (TphCompleter.ofU8 b : Res Unit _).map' (·.toU8) = .ok b ∧
    (LnSystemCls.ofU8 b : Res Unit _).map' (·.toU8) = .ok b ∧
    (Obff.ofU8 b : Res Unit _).map' (·.toU8) = .ok b ∧
    (MaxEndEndTlpPrefixes.ofU8 b : Res Unit _).map' (·.toU8) = .ok b ∧
    (EmergencyPowerReduction.ofU8 b : Res Unit _).map' (·.toU8) = .ok b ∧
    (ObffEnable.ofU8 b : Res Unit _).map' (·.toU8) = .ok b := by
  interval_cases n <;> decide

/-- C56: the prefix blocking bit round trips. -/
theorem prefix_blocking_roundtrip (b : Bool) : (EndEndTlpPrefixBlocking.ofBOOL b).toBool = b := by
  cases b <;> rfl

/-- A version 1 root port with all bytes present, and one without its root registers. -/
example : ∃ x, PciExpress.ofBytes (0x41 :: List.replicate 40 0) = .ok x ∧
    x.device_type.is_root = true ∧ x.device_2 = none := ⟨_, rfl, rfl, rfl⟩
example : PciExpress.ofBytes (0x41 :: List.replicate 25 0) = .err .RootBytesSlice := by
  rw [PciExpress_bytes]; rfl
/-- A version 2 endpoint with the second register set. -/
example : ∃ x y, PciExpress.ofBytes (0x02 :: List.replicate 60 0) = .ok x ∧ x.device_2 = some y :=
  ⟨_, _, rfl, rfl⟩

/-! ### C76 -/

theorem MaxSize_bits3 {n : Nat} (a b : BitVec n) (lo : Nat) :
    MaxSize.spec (fld a lo 3) = MaxSize.spec (fld b lo 3) ↔
      ∀ i, i < 3 → a.getLsbD (lo + i) = b.getLsbD (lo + i) :=
  code_eq_iff _ 3 (by decide) (by decide +kernel) a b lo

theorem PhantomFunctionsSupported_bits2 {n : Nat} (a b : BitVec n) (lo : Nat) :
    PhantomFunctionsSupported.spec (fld a lo 2) = PhantomFunctionsSupported.spec (fld b lo 2) ↔
      ∀ i, i < 2 → a.getLsbD (lo + i) = b.getLsbD (lo + i) :=
  code_eq_iff _ 2 (by decide) (by decide +kernel) a b lo

theorem EndpointL0sAcceptableLatency_bits3 {n : Nat} (a b : BitVec n) (lo : Nat) :
    EndpointL0sAcceptableLatency.spec (fld a lo 3) = EndpointL0sAcceptableLatency.spec (fld b lo 3) ↔
      ∀ i, i < 3 → a.getLsbD (lo + i) = b.getLsbD (lo + i) :=
  code_eq_iff _ 3 (by decide) (by decide +kernel) a b lo

theorem EndpointL1AcceptableLatency_bits3 {n : Nat} (a b : BitVec n) (lo : Nat) :
    EndpointL1AcceptableLatency.spec (fld a lo 3) = EndpointL1AcceptableLatency.spec (fld b lo 3) ↔
      ∀ i, i < 3 → a.getLsbD (lo + i) = b.getLsbD (lo + i) :=
  code_eq_iff _ 3 (by decide) (by decide +kernel) a b lo

theorem LinkSpeed_bits4 {n : Nat} (a b : BitVec n) (lo : Nat) :
    LinkSpeed.spec (fld a lo 4) = LinkSpeed.spec (fld b lo 4) ↔
      ∀ i, i < 4 → a.getLsbD (lo + i) = b.getLsbD (lo + i) :=
  code_eq_iff _ 4 (by decide) (by decide +kernel) a b lo

theorem LinkWidth_bits6 {n : Nat} (a b : BitVec n) (lo : Nat) :
    LinkWidth.spec (fld a lo 6) = LinkWidth.spec (fld b lo 6) ↔
      ∀ i, i < 6 → a.getLsbD (lo + i) = b.getLsbD (lo + i) :=
  code_eq_iff _ 6 (by decide) (by decide +kernel) a b lo

theorem ActiveStatePowerManagement_bits2 {n : Nat} (a b : BitVec n) (lo : Nat) :
    ActiveStatePowerManagement.spec (fld a lo 2) = ActiveStatePowerManagement.spec (fld b lo 2) ↔
      ∀ i, i < 2 → a.getLsbD (lo + i) = b.getLsbD (lo + i) :=
  code_eq_iff _ 2 (by decide) (by decide +kernel) a b lo

theorem L0sExitLatency_bits3 {n : Nat} (a b : BitVec n) (lo : Nat) :
    L0sExitLatency.spec (fld a lo 3) = L0sExitLatency.spec (fld b lo 3) ↔
      ∀ i, i < 3 → a.getLsbD (lo + i) = b.getLsbD (lo + i) :=
  code_eq_iff _ 3 (by decide) (by decide +kernel) a b lo

theorem L1ExitLatency_bits3 {n : Nat} (a b : BitVec n) (lo : Nat) :
    L1ExitLatency.spec (fld a lo 3) = L1ExitLatency.spec (fld b lo 3) ↔
      ∀ i, i < 3 → a.getLsbD (lo + i) = b.getLsbD (lo + i) :=
  code_eq_iff _ 3 (by decide) (by decide +kernel) a b lo

theorem IndicatorControl_bits2 {n : Nat} (a b : BitVec n) (lo : Nat) :
    IndicatorControl.spec (fld a lo 2) = IndicatorControl.spec (fld b lo 2) ↔
      ∀ i, i < 2 → a.getLsbD (lo + i) = b.getLsbD (lo + i) :=
  code_eq_iff _ 2 (by decide) (by decide +kernel) a b lo

theorem CompletionTimeoutRanges_bits4 {n : Nat} (a b : BitVec n) (lo : Nat) :
    CompletionTimeoutRanges.spec (fld a lo 4) = CompletionTimeoutRanges.spec (fld b lo 4) ↔
      ∀ i, i < 4 → a.getLsbD (lo + i) = b.getLsbD (lo + i) :=
  code_eq_iff _ 4 (by decide) (by decide +kernel) a b lo

theorem TphCompleter_bits2 {n : Nat} (a b : BitVec n) (lo : Nat) :
    TphCompleter.spec (fld a lo 2) = TphCompleter.spec (fld b lo 2) ↔
      ∀ i, i < 2 → a.getLsbD (lo + i) = b.getLsbD (lo + i) :=
  code_eq_iff _ 2 (by decide) (by decide +kernel) a b lo

theorem LnSystemCls_bits2 {n : Nat} (a b : BitVec n) (lo : Nat) :
    LnSystemCls.spec (fld a lo 2) = LnSystemCls.spec (fld b lo 2) ↔
      ∀ i, i < 2 → a.getLsbD (lo + i) = b.getLsbD (lo + i) :=
  code_eq_iff _ 2 (by decide) (by decide +kernel) a b lo

theorem Obff_bits2 {n : Nat} (a b : BitVec n) (lo : Nat) :
    Obff.spec (fld a lo 2) = Obff.spec (fld b lo 2) ↔
      ∀ i, i < 2 → a.getLsbD (lo + i) = b.getLsbD (lo + i) :=
  code_eq_iff _ 2 (by decide) (by decide +kernel) a b lo

theorem MaxEndEndTlpPrefixes_bits2 {n : Nat} (a b : BitVec n) (lo : Nat) :
    MaxEndEndTlpPrefixes.spec (fld a lo 2) = MaxEndEndTlpPrefixes.spec (fld b lo 2) ↔
      ∀ i, i < 2 → a.getLsbD (lo + i) = b.getLsbD (lo + i) :=
  code_eq_iff _ 2 (by decide) (by decide +kernel) a b lo

theorem EmergencyPowerReduction_bits2 {n : Nat} (a b : BitVec n) (lo : Nat) :
    EmergencyPowerReduction.spec (fld a lo 2) = EmergencyPowerReduction.spec (fld b lo 2) ↔
      ∀ i, i < 2 → a.getLsbD (lo + i) = b.getLsbD (lo + i) :=
  code_eq_iff _ 2 (by decide) (by decide +kernel) a b lo

theorem CompletionTimeoutValue_bits4 {n : Nat} (a b : BitVec n) (lo : Nat) :
    CompletionTimeoutValue.spec (fld a lo 4) = CompletionTimeoutValue.spec (fld b lo 4) ↔
      ∀ i, i < 4 → a.getLsbD (lo + i) = b.getLsbD (lo + i) :=
  code_eq_iff _ 4 (by decide) (by decide +kernel) a b lo

theorem ObffEnable_bits2 {n : Nat} (a b : BitVec n) (lo : Nat) :
    ObffEnable.spec (fld a lo 2) = ObffEnable.spec (fld b lo 2) ↔
      ∀ i, i < 2 → a.getLsbD (lo + i) = b.getLsbD (lo + i) :=
  code_eq_iff _ 2 (by decide) (by decide +kernel) a b lo

theorem CrosslinkResolution_bits2 {n : Nat} (a b : BitVec n) (lo : Nat) :
    CrosslinkResolution.spec (fld a lo 2) = CrosslinkResolution.spec (fld b lo 2) ↔
      ∀ i, i < 2 → a.getLsbD (lo + i) = b.getLsbD (lo + i) :=
  code_eq_iff _ 2 (by decide) (by decide +kernel) a b lo

theorem DownstreamComponentPresence_bits3 {n : Nat} (a b : BitVec n) (lo : Nat) :
    DownstreamComponentPresence.spec (fld a lo 3) = DownstreamComponentPresence.spec (fld b lo 3) ↔
      ∀ i, i < 3 → a.getLsbD (lo + i) = b.getLsbD (lo + i) :=
  code_eq_iff _ 3 (by decide) (by decide +kernel) a b lo

theorem TransmitterPreset_bits4 {n : Nat} (a b : BitVec n) (lo : Nat) :
    TransmitterPreset.spec (fld a lo 4) = TransmitterPreset.spec (fld b lo 4) ↔
      ∀ i, i < 4 → a.getLsbD (lo + i) = b.getLsbD (lo + i) :=
  code_eq_iff _ 4 (by decide) (by decide +kernel) a b lo

theorem ReceiverPresetHint_bits3 {n : Nat} (a b : BitVec n) (lo : Nat) :
    ReceiverPresetHint.spec (fld a lo 3) = ReceiverPresetHint.spec (fld b lo 3) ↔
      ∀ i, i < 3 → a.getLsbD (lo + i) = b.getLsbD (lo + i) :=
  code_eq_iff _ 3 (by decide) (by decide +kernel) a b lo

theorem ExtendedTagFieldSupported_bit (x y : Bool) : ExtendedTagFieldSupported.spec x = ExtendedTagFieldSupported.spec y ↔ x = y := by
  revert x y; decide

theorem ReadCompletionBoundary_bit (x y : Bool) : ReadCompletionBoundary.spec x = ReadCompletionBoundary.spec y ↔ x = y := by
  revert x y; decide

theorem EndEndTlpPrefixBlocking_bit (x y : Bool) : EndEndTlpPrefixBlocking.spec x = EndEndTlpPrefixBlocking.spec y ↔ x = y := by
  revert x y; decide

theorem DeEmphasis_bit (x y : Bool) : DeEmphasis.spec x = DeEmphasis.spec y ↔ x = y := by
  revert x y; decide

/-- C76: `DeviceControl` registers decode to the same value only if they are equal. -/
theorem DeviceControl_reads {ε : Type} (a b : U16) :
    (DeviceControl.ofU16 a : Res ε DeviceControl) = DeviceControl.ofU16 b ↔
      a = b := by
  rw [eq_iff_bits a b]
  reads [DeviceControl_layout, DeviceControl.spec, DeviceControl.mk.injEq, MaxSize_bits3]

/-- C76: `DeviceStatus` registers decode to the same value exactly when they agree in bits 0-5. -/
theorem DeviceStatus_reads (a b : U16) :
    DeviceStatus.ofU16 a = DeviceStatus.ofU16 b ↔
      a &&& 0x003f#16 = b &&& 0x003f#16 := by
  reads [DeviceStatus_layout, DeviceStatus.spec, DeviceStatus.mk.injEq]

/-- C76: `LinkCapabilities` registers decode to the same value exactly when they agree in bits
0-22, 24-31. -/
theorem LinkCapabilities_reads {ε : Type} (a b : U32) :
    (LinkCapabilities.ofU32 a : Res ε LinkCapabilities) = LinkCapabilities.ofU32 b ↔
      a &&& 0xff7fffff#32 = b &&& 0xff7fffff#32 := by
  reads [LinkCapabilities_layout, LinkCapabilities.spec, LinkCapabilities.mk.injEq, LinkSpeed_bits4,
    LinkWidth_bits6, ActiveStatePowerManagement_bits2, L0sExitLatency_bits3, L1ExitLatency_bits3]

/-- C76: `LinkControl` registers decode to the same value exactly when they agree in bits 0-1,
3-11. -/
theorem LinkControl_reads {ε : Type} (a b : U16) :
    (LinkControl.ofU16 a : Res ε LinkControl) = LinkControl.ofU16 b ↔
      a &&& 0x0ffb#16 = b &&& 0x0ffb#16 := by
  reads [LinkControl_layout, LinkControl.spec, LinkControl.mk.injEq,
    ActiveStatePowerManagement_bits2, ReadCompletionBoundary_bit]

/-- C76: `LinkStatus` registers decode to the same value only if they are equal. -/
theorem LinkStatus_reads (a b : U16) :
    LinkStatus.ofU16 a = LinkStatus.ofU16 b ↔
      a = b := by
  rw [eq_iff_bits a b]
  reads [LinkStatus_layout, LinkStatus.spec, LinkStatus.mk.injEq, LinkSpeed_bits4, LinkWidth_bits6]

/-- C76: `SlotControl` registers decode to the same value exactly when they agree in bits 0-12. -/
theorem SlotControl_reads {ε : Type} (a b : U16) :
    (SlotControl.ofU16 a : Res ε SlotControl) = SlotControl.ofU16 b ↔
      a &&& 0x1fff#16 = b &&& 0x1fff#16 := by
  reads [SlotControl_layout, SlotControl.spec, SlotControl.mk.injEq, IndicatorControl_bits2]

/-- C76: `SlotStatus` registers decode to the same value exactly when they agree in bits 0-8. -/
theorem SlotStatus_reads (a b : U16) :
    SlotStatus.ofU16 a = SlotStatus.ofU16 b ↔
      a &&& 0x01ff#16 = b &&& 0x01ff#16 := by
  reads [SlotStatus_layout, SlotStatus.spec, SlotStatus.mk.injEq]

/-- C76: `RootControl` registers decode to the same value exactly when they agree in bits 0-4. -/
theorem RootControl_reads (a b : U16) :
    RootControl.ofU16 a = RootControl.ofU16 b ↔
      a &&& 0x001f#16 = b &&& 0x001f#16 := by
  reads [RootControl_layout, RootControl.spec, RootControl.mk.injEq]

/-- C76: `RootCapabilities` registers decode to the same value exactly when they agree in bits 0.
-/
theorem RootCapabilities_reads (a b : U16) :
    RootCapabilities.ofU16 a = RootCapabilities.ofU16 b ↔
      a &&& 0x0001#16 = b &&& 0x0001#16 := by
  reads [RootCapabilities_layout, RootCapabilities.spec, RootCapabilities.mk.injEq]

/-- C76: `RootStatus` registers decode to the same value exactly when they agree in bits 0-17. -/
theorem RootStatus_reads (a b : U32) :
    RootStatus.ofU32 a = RootStatus.ofU32 b ↔
      a &&& 0x0003ffff#32 = b &&& 0x0003ffff#32 := by
  reads [RootStatus_layout, RootStatus.spec, RootStatus.mk.injEq]

/-- C76: `DeviceCapabilities2` registers decode to the same value exactly when they agree in bits
0-26, 31. -/
theorem DeviceCapabilities2_reads {ε : Type} (a b : U32) :
    (DeviceCapabilities2.ofU32 a : Res ε DeviceCapabilities2) = DeviceCapabilities2.ofU32 b ↔
      a &&& 0x87ffffff#32 = b &&& 0x87ffffff#32 := by
  reads [DeviceCapabilities2_layout, DeviceCapabilities2.spec, DeviceCapabilities2.mk.injEq,
    CompletionTimeoutRanges_bits4, TphCompleter_bits2, LnSystemCls_bits2, Obff_bits2,
    MaxEndEndTlpPrefixes_bits2, EmergencyPowerReduction_bits2]

/-- C76: `DeviceControl2` registers decode to the same value only if they are equal. -/
theorem DeviceControl2_reads {ε : Type} (a b : U16) :
    (DeviceControl2.ofU16 a : Res ε DeviceControl2) = DeviceControl2.ofU16 b ↔
      a = b := by
  rw [eq_iff_bits a b]
  reads [DeviceControl2_layout, DeviceControl2.spec, DeviceControl2.mk.injEq,
    CompletionTimeoutValue_bits4, ObffEnable_bits2, EndEndTlpPrefixBlocking_bit]

/-- C76: `SupportedLinkSpeedsVector` registers decode to the same value exactly when they agree in
bits 0-6. -/
theorem SupportedLinkSpeedsVector_reads (a b : U8) :
    SupportedLinkSpeedsVector.ofU8 a = SupportedLinkSpeedsVector.ofU8 b ↔
      a &&& 0x7f#8 = b &&& 0x7f#8 := by
  reads [SupportedLinkSpeedsVector_layout, SupportedLinkSpeedsVector.spec,
    SupportedLinkSpeedsVector.mk.injEq]

/-- C76: `LinkCapabilities2` registers decode to the same value exactly when they agree in bits
1-24, 31. -/
theorem LinkCapabilities2_reads (a b : U32) :
    LinkCapabilities2.ofU32 a = LinkCapabilities2.ofU32 b ↔
      a &&& 0x81fffffe#32 = b &&& 0x81fffffe#32 := by
  reads [LinkCapabilities2_layout, LinkCapabilities2.spec, LinkCapabilities2.mk.injEq,
    SupportedLinkSpeedsVector.spec, SupportedLinkSpeedsVector.mk.injEq]

/-- C76: `LinkControl2` registers decode to the same value only if they are equal. -/
theorem LinkControl2_reads (a b : U16) :
    LinkControl2.ofU16 a = LinkControl2.ofU16 b ↔
      a = b := by
  rw [eq_iff_bits a b]
  reads [LinkControl2_layout, LinkControl2.spec, LinkControl2.mk.injEq, LinkSpeed_bits4,
    DeEmphasis_bit, TransmitMargin.mk.injEq, CompliancePresetOrDeEmphasis.mk.injEq]

/-- C76: `LinkStatus2` registers decode to the same value exactly when they agree in bits 0-9,
12-15. -/
theorem LinkStatus2_reads {ε : Type} (a b : U16) :
    (LinkStatus2.ofU16 a : Res ε LinkStatus2) = LinkStatus2.ofU16 b ↔
      a &&& 0xf3ff#16 = b &&& 0xf3ff#16 := by
  reads [LinkStatus2_layout, LinkStatus2.spec, LinkStatus2.mk.injEq, DeEmphasis_bit,
    CrosslinkResolution_bits2, DownstreamComponentPresence_bits3]

theorem SlotPowerLimit_bits {n : Nat} (a b : BitVec n) (i j : Nat) :
    SlotPowerLimit.spec (fld a i 8) (fld a j 2) = SlotPowerLimit.spec (fld b i 8) (fld b j 2) ↔
      (fld a i 8 : U8) = fld b i 8 ∧ (fld a j 2 : U8) = fld b j 2 := by
  simp only [SlotPowerLimit.spec, SlotPowerLimit.mk.injEq, BitVec.toNat_inj]

/-- C76: `DeviceCapabilities` registers decode to the same value exactly when they agree in bits
0-15, 18-28. -/
theorem DeviceCapabilities_reads {ε : Type} (a b : U32) :
    (DeviceCapabilities.ofU32 a : Res ε DeviceCapabilities) = DeviceCapabilities.ofU32 b ↔
      a &&& 0x1ffcffff#32 = b &&& 0x1ffcffff#32 := by
  reads [DeviceCapabilities_layout, DeviceCapabilities.spec, DeviceCapabilities.mk.injEq,
    MaxSize_bits3, PhantomFunctionsSupported_bits2, ExtendedTagFieldSupported_bit,
    EndpointL0sAcceptableLatency_bits3, EndpointL1AcceptableLatency_bits3, SlotPowerLimit_bits]

/-- C76: `SlotCapabilities` registers decode to the same value only if they are equal. -/
theorem SlotCapabilities_reads {ε : Type} (a b : U32) :
    (SlotCapabilities.ofU32 a : Res ε SlotCapabilities) = SlotCapabilities.ofU32 b ↔ a = b := by
  rw [eq_iff_bits a b]
  reads [SlotCapabilities_layout, SlotCapabilities.spec, SlotCapabilities.mk.injEq,
    SlotPowerLimit_bits]

/-- A reserved bit makes no difference to `DeviceStatus`, a defined one does. -/
example : DeviceStatus.ofU16 0xbde5 = DeviceStatus.ofU16 0x3de5 ∧
    DeviceStatus.ofU16 0xbde5 ≠ DeviceStatus.ofU16 0xbded :=
  ⟨(DeviceStatus_reads _ _).2 (by decide), fun h => absurd ((DeviceStatus_reads _ _).1 h) (by decide)⟩

end Pcics.PciExpress
