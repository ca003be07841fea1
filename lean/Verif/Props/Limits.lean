import Verif.Props.Display
import Verif.Props.Cap.EnhancedAllocation
import Verif.Props.Cap.PciExpress
import Verif.Props.Cap.VendorSpecific
import Verif.Props.Ext.DesignatedVendorSpecificExtendedCapability
import Verif.Props.Ext.DownstreamPortContainment
import Verif.Props.Ext.DynamicPowerAllocation
import Verif.Props.Ext.MultifunctionVirtualChannel
import Verif.Props.Ext.ProtocolMultiplexing
import Verif.Props.Ext.ResizableBar
import Verif.Props.Ext.RootComplexLinkDeclaration
/- Theorems about the limits that the texts of errors state -/

namespace Pcics
open Spec

/-- C80 (the code violates it): the text says that a capability pointer has to be greater than 0x40,
but 0x40 is accepted. -/
theorem cap_pointer_text_fails :
    CapabilityError.display .Pointer = "capabilities pointer should be greater than 0x40" ∧
      ∀ (d : Bytes) (h : Header.Header),
        (Capabilities.mk d h 0x40).next.1 ≠ some (.err .Pointer) := by
  refine ⟨rfl, fun d h he => ?_⟩
  have := cap_error_pointer _ _ he
  simp [CapabilityError.ptr] at this

/-- A null capability at 0x40. -/
example : ((Capabilities.mk [0, 0] (sampleHeader 0x40) 0x40).next.1.map fun r => r.isOk) = some true := by
  decide +kernel

/-- C80: what is enforced is a pointer of at least 0x40. Missing: the text says greater. -/
theorem cap_pointer_text_partial (s : Capabilities) :
    s.next.1 = some (.err .Pointer) ↔ s.pointer ≠ 0 ∧ ¬ 0x40 ≤ s.pointer.toNat := by
  constructor
  · intro he
    refine ⟨fun h0 => ?_, fun hp => ?_⟩
    · rw [next_zero s h0] at he; cases he
    · have := cap_error_pointer _ _ he
      rw [if_neg (by omega)] at this
      cases this
  · rintro ⟨h0, hp⟩
    rw [next_header s h0 (by omega)]

/-- C80: "extended capability offset should be greater than 0xFF" is said of the offsets that are
not, other than the end of the list. -/
theorem ecap_offset_text (s : ExtendedCapabilities.ExtendedCapabilities) :
    s.next.1 = some (.err .Offset) ↔
      s.next_capability_offset ≠ 0 ∧ ¬ s.next_capability_offset.toNat > 0xff := by
  constructor
  · intro he
    refine ⟨fun h0 => ?_, fun hp => ?_⟩
    · rw [ExtendedCapabilities.next_zero s h0] at he; cases he
    · have := ExtendedCapabilities.ecap_error_offset _ _ he
      rw [if_neg (by omega)] at this
      cases this
  · rintro ⟨h0, hp⟩
    rw [ExtendedCapabilities.next_low s h0 (by omega)]

example : (ExtendedCapabilities.ExtendedCapabilities.mk [] 0xfc).next.1 = some (.err .Offset) := by
  decide +kernel

/-- C80 (the code violates it): the text says that the length of a vendor specific capability has to
be greater than 2, but of length 2 the error says that 0 bytes could not be got. -/
theorem vendor_length_text_fails (d : Bytes) (v dev : U16) (hd : d ≠ []) (h : byteAt d 0 = 2) :
    ∃ e, VendorSpecific.VendorSpecific.tryNew d v dev = .err e ∧
      e.display = "unable to get 0 bytes data" := by
  refine ⟨.Data 0, ?_, by decide +kernel⟩
  rw [VendorSpecific.VendorSpecific_bytes d v dev hd]
  simp [h]

/-- C80: the length error is reported exactly of lengths below 2, and names the length. Missing: the
text says that lengths of 2 are wrong as well. -/
theorem vendor_length_text_partial (d : Bytes) (v dev : U16) (l : U8) :
    VendorSpecific.VendorSpecific.tryNew d v dev = .err (.Length l) ↔
      d ≠ [] ∧ l = byteAt d 0 ∧ l.toNat < 2 := by
  by_cases hd : d = []
  · subst hd
    rw [VendorSpecific.VendorSpecific_empty]
    simp
  · rw [VendorSpecific.VendorSpecific_bytes d v dev hd]
    dsimp only
    constructor
    · intro h
      repeat' split at h
      all_goals cases h
      exact ⟨hd, rfl, by assumption⟩
    · rintro ⟨-, rfl, hl⟩
      rw [if_pos hl]

example : VendorSpecific.VendorSpecific.tryNew [1, 0, 0] 0 0 = .err (.Length 1) := by decide +kernel

/-- C80: the data error names a number of bytes, counted from the length byte on, that is not there
(or none at all). -/
theorem vendor_data_text (d : Bytes) (v dev : U16) (n : Nat)
    (h : VendorSpecific.VendorSpecific.tryNew d v dev = .err (.Data n)) : n = 0 ∨ d.length < n := by
  by_cases hd : d = []
  · subst hd
    rw [VendorSpecific.VendorSpecific_empty] at h
    cases h
  · rw [VendorSpecific.VendorSpecific_bytes d v dev hd] at h
    dsimp only at h
    repeat' split at h
    all_goals cases h
    omega

example : VendorSpecific.VendorSpecific.tryNew [20, 0, 0] 0 0 = .err (.Data 18) := by decide +kernel

/-- C80: "Virtio size shold be > 12" is said exactly of the virtio devices whose payload is complete
and not longer than 12 bytes. -/
theorem virtio_size_text (d : Bytes) (v dev : U16) :
    VendorSpecific.VendorSpecific.tryNew d v dev = .err .Virtio ↔
      v = 0x1af4 ∧ 0x1000 ≤ dev.toNat ∧ dev.toNat ≤ 0x107f ∧ d ≠ [] ∧ 3 ≤ (byteAt d 0).toNat ∧
        (byteAt d 0).toNat ≤ d.length + 2 ∧ ¬ (byteAt d 0).toNat - 3 > 12 := by
  by_cases hd : d = []
  · subst hd
    rw [VendorSpecific.VendorSpecific_empty]
    simp
  · rw [VendorSpecific.VendorSpecific_bytes d v dev hd]
    dsimp only
    constructor
    · intro h
      repeat' split at h
      all_goals cases h
      rename_i h1 h2 h3 h4
      exact ⟨h3.1, h3.2.1, h3.2.2, hd, by omega, by omega, by omega⟩
    · rintro ⟨h1, h2, h3, -, h4, h5, h6⟩
      rw [if_neg (by omega), if_neg (by omega), if_pos ⟨h1, h2, h3⟩, if_pos (by omega)]

example : VendorSpecific.VendorSpecific.tryNew [4, 0] 0x1af4 0x1041 = .err .Virtio := by decide +kernel

/-- C80: PCI Express misses "mandatory (0x1a) bytes" exactly when fewer than 0x1a bytes are there. -/
theorem pci_express_text (d : Bytes) :
    PciExpress.PciExpress.ofBytes d = .err .RequiredBytesSlice ↔ d.length < 0x1a := by
  rw [PciExpress.PciExpress_bytes]
  constructor
  · intro h
    repeat' split at h
    all_goals cases h
    assumption
  · intro h
    rw [if_pos h]

/-- C80 (the code violates it): that the second DW of an Enhanced Allocation bridge is unreadable is
never said; when it is missing the text is that the number of entries is, although it is there. -/
theorem enhanced_allocation_text_fails (d : Bytes) :
    (∀ b, EnhancedAllocation.EnhancedAllocation.tryNew d b ≠ .err .Type1SecondDw) ∧
      (2 ≤ d.length → d.length < 6 →
        ∃ e, EnhancedAllocation.EnhancedAllocation.tryNew d true = .err e ∧
          e.display = "number of entries is unreadable") := by
  constructor
  · intro b h
    unfold EnhancedAllocation.EnhancedAllocation.tryNew at h
    dsimp only at h
    repeat' split at h
    all_goals cases h
  · intro h2 h6
    refine ⟨.NumEntries, ?_, rfl⟩
    match d with
    | [_, _] | [_, _, _] | [_, _, _, _] | [_, _, _, _, _] => rfl
    | [] | [_] => simp at h2
    | _ :: _ :: _ :: _ :: _ :: _ :: _ => simp only [List.length_cons] at h6; omega

/-- C80: without a bridge, the number of entries is said to be unreadable exactly when the first two
bytes are not there. -/
theorem enhanced_allocation_text_partial (d : Bytes) :
    EnhancedAllocation.EnhancedAllocation.tryNew d false = .err .NumEntries ↔ d.length < 2 := by
  match d with
  | [] | [_] => simp [EnhancedAllocation.EnhancedAllocation.tryNew]
  | _ :: _ :: _ => simp [EnhancedAllocation.EnhancedAllocation.tryNew]

/-- C80 (the code violates it): the text says that the number of link entries must be greater than 1,
but it is never said of a declaration of one entry; that is accepted when its 28 bytes are there. -/
theorem link_entries_text_fails (d : Bytes) (h1 : RootComplexLinkDeclaration.announced d = 1)
    (hd : 28 ≤ d.length) :
    (∃ r, RootComplexLinkDeclaration.RootComplexLinkDeclaration.ofBytes d = .ok r) ∧
      ∀ r, RootComplexLinkDeclaration.RootComplexLinkDeclarationError.display
        (.NumberOfLinkEntries r) = "number of link entries must be > 1" := by
  refine ⟨?_, fun _ => rfl⟩
  rw [RootComplexLinkDeclaration.RootComplexLinkDeclaration_bytes, if_neg (by omega),
    if_neg (by omega), if_neg (by omega), if_neg (by omega)]
  exact ⟨_, rfl⟩

/-- One entry is announced. -/
example : RootComplexLinkDeclaration.announced ([0, 1, 0, 0] ++ List.replicate 24 0) = 1 := by
  decide +kernel

/-- C80: the error is reported exactly when no entry is announced. Missing: the text says that one is
wrong as well. -/
theorem link_entries_text_partial (d : Bytes) :
    (∃ r, RootComplexLinkDeclaration.RootComplexLinkDeclaration.ofBytes d =
        .err (.NumberOfLinkEntries r)) ↔
      4 ≤ d.length ∧ RootComplexLinkDeclaration.announced d = 0 := by
  rw [RootComplexLinkDeclaration.RootComplexLinkDeclaration_bytes]
  constructor
  · rintro ⟨r, h⟩
    repeat' split at h
    all_goals cases h
    exact ⟨by omega, by assumption⟩
  · rintro ⟨h4, h0⟩
    exact ⟨_, by rw [if_neg (by omega), if_pos h0]⟩

/-- C80: a link declaration misses its "4 bytes" exactly when fewer are there, and "at least one
LinkEntry" exactly when its 16 bytes, from byte 12 on, are not complete. -/
theorem link_declaration_text (d : Bytes) :
    (RootComplexLinkDeclaration.RootComplexLinkDeclaration.ofBytes d = .err .ElementSelfDescription ↔
      d.length < 4) ∧
    ((∃ r, RootComplexLinkDeclaration.RootComplexLinkDeclaration.ofBytes d = .err (.LinkEntry1 r)) ↔
      0 < RootComplexLinkDeclaration.announced d ∧ 12 ≤ d.length ∧ d.length - 12 < 16) := by
  rw [RootComplexLinkDeclaration.RootComplexLinkDeclaration_bytes]
  refine ⟨⟨fun h => ?_, fun h => by rw [if_pos h]⟩, ⟨fun ⟨r, h⟩ => ?_, fun ⟨h0, h1, h2⟩ => ?_⟩⟩
  · repeat' split at h
    all_goals cases h
    assumption
  · repeat' split at h
    all_goals cases h
    omega
  · exact ⟨_, by rw [if_neg (by omega), if_neg (by omega), if_neg (by omega), if_pos (by omega)]⟩

/-- C80: "should have 1..=6 number of entries" is said exactly of the numbers outside 1..=6. -/
theorem resizable_bar_text (d : Bytes) (n : Nat) :
    ResizableBar.ResizableBar.ofBytes d = .err (.NumberOfResizableBars n) ↔
      12 ≤ d.length ∧ n = (fld (rd32 d 8) 5 3 : U8).toNat ∧ ¬ (1 ≤ n ∧ n ≤ 6) := by
  rw [ResizableBar.ResizableBar_bytes]
  show _ ↔ _ ∧ n = ResizableBar.numBars d ∧ _
  constructor
  · intro h
    repeat' split at h
    all_goals cases h
    exact ⟨by omega, rfl, by omega⟩
  · rintro ⟨h12, rfl, hn⟩
    rw [if_neg (by omega), if_pos (by omega)]

example : ResizableBar.ResizableBar.ofBytes [0, 0, 0, 0, 0, 0, 0, 0, 0xe0, 0, 0, 0] =
    .err (.NumberOfResizableBars 7) := by decide +kernel

/-- C80: the numbers of bytes in the texts of Downstream Port Containment errors (8, 36 and 4) are
those of the part that does not fit after the parts before it, and the number of the prefix log word
is that of the first one that does not fit. -/
theorem dpc_text (d : Bytes) :
    (DownstreamPortContainment.DownstreamPortContainment.ofBytes d = .err .Mandatory ↔
      d.length < 8) ∧
    (DownstreamPortContainment.DownstreamPortContainment.ofBytes d = .err .RpExtensions →
      8 ≤ d.length ∧ d.length - 8 < 36) ∧
    (DownstreamPortContainment.DownstreamPortContainment.ofBytes d = .err .RpPioImpspecLog →
      8 + 36 ≤ d.length ∧ d.length - (8 + 36) < 4) ∧
    ∀ n, DownstreamPortContainment.DownstreamPortContainment.ofBytes d =
        .err (.RpPioTlpPrefixLog n) →
      8 + 36 + 4 + 4 * n ≤ d.length ∧ d.length - (8 + 36 + 4 + 4 * n) < 4 ∧ n < 4 := by
  rw [DownstreamPortContainment.DownstreamPortContainment_bytes]
  refine ⟨⟨fun h => ?_, fun h => by rw [if_pos h]⟩, fun h => ?_, fun h => ?_, fun n h => ?_⟩
  all_goals
    repeat' split at h
    all_goals cases h
  · assumption
  · omega
  · omega
  · rename_i h4 h5
    have : DownstreamPortContainment.prefixDwords d ≤ 4 := by
      unfold DownstreamPortContainment.prefixDwords; omega
    omega

example : DownstreamPortContainment.DownstreamPortContainment.ofBytes
    ([0x20, 7] ++ List.replicate 50 0) = .err (.RpPioTlpPrefixLog 1) := by decide +kernel

/-- C80: "VC Arbitration Table offset should be >= 2 * 10h" is said exactly of the offsets (in units
of 10h) that are not, other than 0 for no table; of a table that is too short the length it needs and
the length that is left are named. -/
theorem mfvc_text (d : Bytes) :
    (MultifunctionVirtualChannel.MultifunctionVirtualChannel.ofBytes d =
        .err .VcArbitrationTableOffset ↔
      16 ≤ d.length ∧ (fld (rd32 d 8) 24 8 : U8).toNat ≠ 0 ∧
        ¬ (fld (rd32 d 8) 24 8 : U8).toNat * 0x10 ≥ 2 * 0x10) ∧
    ∀ expected real, MultifunctionVirtualChannel.MultifunctionVirtualChannel.ofBytes d =
        .err (.VcArbitrationTableLength expected real) →
      real < expected ∧ real + (fld (rd32 d 8) 24 8 : U8).toNat * 0x10 = d.length ∧
        expected = VirtualChannel.vcPhases (fld (rd16 d 12) 1 3) / 2 := by
  rw [MultifunctionVirtualChannel.MultifunctionVirtualChannel_bytes]
  unfold MultifunctionVirtualChannel.vcTable
  dsimp only
  refine ⟨⟨fun h => ?_, fun ⟨h1, h2, h3⟩ => ?_⟩, fun n m h => ?_⟩
  · repeat' split at h
    all_goals cases h
    omega
  · rw [if_neg (by omega), if_neg (by omega), if_pos (by omega)]
    rfl
  · repeat' split at h
    all_goals cases h
    omega

/-- C80: of a PMUX Protocol Array that is too short the number of bytes it needs, four for each
announced entry, and of those that are there are named. -/
theorem pmux_text (d : Bytes) (expected found : Nat) :
    ProtocolMultiplexing.ProtocolMultiplexing.ofBytes d =
        .err (.PmuxProtocolArray expected found) ↔
      d.length = 16 + found ∧ expected = 4 * (fld (rd32 d 4) 0 6 : U8).toNat ∧ found < expected := by
  rw [ProtocolMultiplexing.ProtocolMultiplexing_bytes]
  show _ ↔ _ ∧ expected = ProtocolMultiplexing.arrayBytes d ∧ _
  constructor
  · intro h
    repeat' split at h
    all_goals cases h
    omega
  · rintro ⟨h1, rfl, h3⟩
    rw [if_neg (by omega), if_pos (by omega), h1]
    simp

example : ProtocolMultiplexing.ProtocolMultiplexing.ofBytes
    ([0, 0, 0, 0, 2] ++ List.replicate 16 0) = .err (.PmuxProtocolArray 8 5) := by decide +kernel

/-- C80 (the code violates it): the text for a short power allocation array can ask for as many
entries as were found. -/
theorem dpa_text_fails :
    ∃ d e, DynamicPowerAllocation.DynamicPowerAllocation.ofBytes d = .err e ∧
      e.display = "number of entries must be equal to the Substate_Max plus one " ++
        "(expected: 3, found: 3)" :=
  ⟨[0x0c, 0, 1, 0, 3, 0x22, 0x55, 0xaa, 0, 0x11, 0x22, 0x33, 3, 1, 2, 0, 0, 0x11, 0x22],
    .DpaAllocationArray 3 3, by decide +kernel, by decide +kernel⟩

/-- C80: the number that was found is the number of bytes there, and is less than Substate_Max plus
one; the number that is named as expected is Substate_Max. Missing: the text says that it is
Substate_Max plus one. -/
theorem dpa_text_partial (d : Bytes) (expected found : Nat) :
    DynamicPowerAllocation.DynamicPowerAllocation.ofBytes d =
        .err (.DpaAllocationArray expected found) ↔
      d.length = 16 + found ∧ expected = (fld (rd32 d 4) 0 5 : U8).toNat ∧ found < expected + 1 := by
  rw [DynamicPowerAllocation.DynamicPowerAllocation_bytes]
  have hs : DynamicPowerAllocation.substates d = (fld (rd32 d 4) 0 5 : U8).toNat + 1 := rfl
  rw [hs]
  constructor
  · intro h
    repeat' split at h
    all_goals cases h
    omega
  · rintro ⟨h1, rfl, h3⟩
    rw [if_neg (by omega), if_pos (by omega), h1]
    simp

/-- C80: the expected and real lengths of a DVSEC error are the DVSEC Length field and the number of
bytes there; the expected length does not fit the real one, or not the ten bytes of the headers. -/
theorem dvsec_text (d : Bytes) (v : U16) (r : U8) (l id : U16) (real : Nat)
    (h : DesignatedVendorSpecificExtendedCapability.DesignatedVendorSpecificExtendedCapability.ofBytes d =
        .err (.VendorSpecificRegisters v r l id real)) :
    v = fld (rd32 d 4) 0 16 ∧ r = fld (rd32 d 4) 16 4 ∧ l = fld (rd32 d 4) 20 12 ∧ id = rd16 d 8 ∧
      real = d.length ∧ (real < l.toNat ∨ l.toNat < 10) := by
  rw [DesignatedVendorSpecificExtendedCapability.Dvsec_bytes] at h
  repeat' split at h
  all_goals try cases h
  · rename_i hl
    exact ⟨rfl, rfl, rfl, rfl, rfl, by omega⟩
  · rename_i he
    unfold DesignatedVendorSpecificExtendedCapability.DvsecType.spec at he
    repeat' split at he
    all_goals cases he

end Pcics
