import Verif.Props.Display
import Verif.Props.Capabilities
import Verif.Props.ExtendedCapabilities
import Verif.Spec.Texts
/- Theorems about what the texts of errors say, by the bytes that are there -/

namespace Pcics
open Spec

theorem lacks_eq (d : Bytes) (n : Nat) (t : String) (h : d.length < n) : lacks d n t = some t := if_pos h

theorem lacks_none (d : Bytes) (n : Nat) (t : String) (h : ¬ d.length < n) : lacks d n t = none := if_neg h

theorem dec_eq (n : Nat) : fmtDec n = toString n := rfl

theorem hexDigits_zero (w : Nat) : hexDigits w 0 = List.replicate w '0' := by
  induction w with
  | zero => rfl
  | succ w ih => rw [hexDigits, Nat.zero_div, ih, List.replicate_succ']; rfl

theorem digit_eq (n : Nat) (h : n < 16) :
    ['0', '1', '2', '3', '4', '5', '6', '7', '8', '9', 'a', 'b', 'c', 'd', 'e', 'f'].getD n '0' =
      n.digitChar := by
  interval_cases n <;> rfl

theorem hex_eq (w n : Nat) (hw : 0 < w) (h : n < 16 ^ w) : fmtHex w n = hex w n := by
  have key : ∀ w n, 0 < w → n < 16 ^ w →
      List.replicate (w - (Nat.toDigits 16 n).length) '0' ++ Nat.toDigits 16 n = hexDigits w n := by
    intro w
    induction w with
    | zero => intro n h; omega
    | succ w ih =>
      intro n _ hn
      rw [hexDigits, digit_eq _ (Nat.mod_lt _ (by decide))]
      by_cases h16 : n < 16
      · rw [Nat.toDigits_of_lt_base h16, Nat.div_eq_of_lt h16, Nat.mod_eq_of_lt h16, hexDigits_zero]
        simp
      · have hw : 0 < w := by
          rcases Nat.eq_zero_or_pos w with rfl | h
          · simp at hn; omega
          · exact h
        rw [Nat.toDigits_of_base_le (by decide) (by omega), ← ih (n / 16) hw
          (by rw [Nat.pow_succ] at hn; omega)]
        simp
  unfold fmtHex hex
  dsimp only
  rw [key w n hw h]

/-- Splits both sides of an equation of texts by the bytes that are there. -/
local macro "texts_by_cases" : tactic => `(tactic| (
  repeat' split
  all_goals first
    | rfl
    | (exfalso; simp_all; done)
    | (exfalso; omega)
    | (exfalso; simp_all; omega)))

/-- C91: what a Message Signaled Interrupts error says: the message control register or the layout,
by its 64 bit and per-vector masking bits, that is not there. -/
theorem msi_says (d : Bytes) :
    said MessageSignaledInterrups.MessageSignaledInterrupsError.display
      (MessageSignaledInterrups.MessageSignaledInterrups.ofBytes d) = msiText d := by
  rw [MessageSignaledInterrups.MessageSignaledInterrups_bytes]
  unfold msiText MessageSignaledInterrups.MessageSignaledInterrups.specSize
    MessageSignaledInterrups.MessageSignaledInterrups.specError lacks
  by_cases h2 : d.length < 2
  · rw [if_neg (by omega), if_pos h2]
    rfl
  · rw [if_pos (by omega), if_neg h2]
    dsimp only
    generalize flag (rd16 d 0) 7 = a
    generalize flag (rd16 d 0) 8 = b
    cases a <;> cases b <;> dsimp only [Bool.false_eq_true, reduceIte] <;> texts_by_cases

example : msiText [0x80, 0, 0, 0] = some "Size64bit" := by decide +kernel

/-- C91: what a PCI-X error says. -/
theorem pci_x_says (d : Bytes) :
    said PciX.PciXError.display (PciX.PciX.ofBytes d) = pciXText d := by
  rw [PciX.PciX_bytes]
  unfold pciXText lacks
  simp only [pick]
  texts_by_cases

example : pciXText [0, 0x20, 0, 0, 0, 0, 0] = some "Mode 1/2 ECC registres unreadable" := by
  decide +kernel

/-- C91: what a PCI-X error of a bridge says. -/
theorem pci_x_bridge_says (d : Bytes) :
    said PciX.PciXBridgeError.display (PciX.PciXBridge.ofBytes d) = pciXBridgeText d := by
  rw [PciX.PciXBridge_bytes]
  unfold pciXBridgeText lacks
  simp only [pick]
  texts_by_cases

/-- C91: what a HyperTransport error says: the name of the block, by its type, that is not there. -/
theorem hypertransport_says (d : Bytes) :
    said Hypertransport.HypertransportError.display (Hypertransport.Hypertransport.ofBytes d) =
      hypertransportText d := by
  rw [Hypertransport.Hypertransport_bytes]
  have ht : (fld (fld (rd16 d 0) 11 5 : U8) 2 3 : U8) = fld (rd16 d 0) 13 3 := by
    bv_bits [fld]
  unfold hypertransportText lacks Hypertransport.blockSpec
  dsimp only
  rw [ht]
  generalize pick (α := Hypertransport.Hypertransport) _ _ _ = b
  simp only [pick]
  texts_by_cases

example : hypertransportText [0, 0xa8, 0, 0] = some "MsiMapping" := by decide +kernel

/-- C91, C80: what a Vendor Specific error says. -/
theorem vendor_specific_says (d : Bytes) (v dev : U16) :
    said VendorSpecific.VendorSpecificError.display (VendorSpecific.VendorSpecific.tryNew d v dev) =
      vendorSpecificText v dev d := by
  by_cases hd : d = []
  · subst hd
    rw [VendorSpecific.VendorSpecific_empty]
    rfl
  · rw [VendorSpecific.VendorSpecific_bytes d v dev hd]
    unfold vendorSpecificText
    dsimp only
    rw [if_neg hd]
    texts_by_cases

example : vendorSpecificText 0 0 [20, 0, 0] = some "unable to get 18 bytes data" := by decide +kernel

/-- C91, C80: what a PCI Express error says. -/
theorem pci_express_says (d : Bytes) :
    said PciExpress.PciExpressError.display (PciExpress.PciExpress.ofBytes d) = pciExpressText d := by
  rw [PciExpress.PciExpress_bytes]
  unfold pciExpressText lacks PciExpress.needsRoot
  simp only [pick]
  texts_by_cases

example : pciExpressText ([0x42] ++ List.replicate 30 0) = some "can't read root bytes from slice" := by
  decide +kernel

/-- C91: what an Advanced Error Reporting error says. -/
theorem aer_says (d : Bytes) :
    said AdvancedErrorReporting.AdvancedErrorReportingError.display
      (AdvancedErrorReporting.AdvancedErrorReporting.ofBytes d) = aerText d := by
  rw [AdvancedErrorReporting.AdvancedErrorReporting_bytes]
  unfold aerText lacks
  texts_by_cases

example : aerText (List.replicate 39 0) = some "can't read common registres" := by decide +kernel

/-- C91, C80: what a Root Complex Link Declaration error says. -/
theorem link_declaration_says (d : Bytes) :
    said RootComplexLinkDeclaration.RootComplexLinkDeclarationError.display
      (RootComplexLinkDeclaration.RootComplexLinkDeclaration.ofBytes d) = linkDeclarationText d := by
  rw [RootComplexLinkDeclaration.RootComplexLinkDeclaration_bytes]
  have h0 : RootComplexLinkDeclaration.announced d = 0 ↔ (fld (rd32 d 0) 8 8 : U8) = 0 := by
    rw [BitVec.toNat_eq]; rfl
  simp only [h0]
  unfold linkDeclarationText lacks
  texts_by_cases

example : linkDeclarationText [0, 2, 0, 0, 0] = some "reserved space should be readable" := by
  decide +kernel

/-- C91, C80: what a Multi-Function Virtual Channel error says. -/
theorem mfvc_says (s : Bytes) :
    said MultifunctionVirtualChannel.MultifunctionVirtualChannelError.display
      (MultifunctionVirtualChannel.MultifunctionVirtualChannel.ofBytes s) = mfvcText s := by
  rw [MultifunctionVirtualChannel.MultifunctionVirtualChannel_bytes]
  have hs : VirtualChannel.vcPhases (fld (rd16 s 12) 1 3) / 2 =
      pick (fld (rd16 s 12) 1 3 : U8) [(1, 16), (2, 32), (3, 64)] 0 := by
    unfold VirtualChannel.vcPhases
    simp only [pick]
    repeat' split
    all_goals rfl
  unfold mfvcText lacks MultifunctionVirtualChannel.vcTable
  dsimp only
  rw [hs]
  texts_by_cases

example : mfvcText (List.replicate 11 0 ++ [1] ++ List.replicate 10 0) =
    some "VC Arbitration Table offset should be >= 2 * 10h" := by decide +kernel

/-- C91, C80: what a Downstream Port Containment error says. -/
theorem dpc_says (d : Bytes) :
    said DownstreamPortContainment.DownstreamPortContainmentError.display
      (DownstreamPortContainment.DownstreamPortContainment.ofBytes d) = dpcText d := by
  rw [DownstreamPortContainment.DownstreamPortContainment_bytes]
  unfold dpcText lacks DownstreamPortContainment.prefixDwords DownstreamPortContainment.logSize
  dsimp only
  texts_by_cases

example : dpcText ([0x20, 7] ++ List.replicate 50 0) =
    some "can't read RP PIO TLP Prefix Log Register word#: 1" := by decide +kernel

/-- C91, C80: what a Resizable BAR error says. -/
theorem resizable_bar_says (s : Bytes) :
    said ResizableBar.ResizableBarError.display (ResizableBar.ResizableBar.ofBytes s) =
      resizableBarText s := by
  rw [ResizableBar.ResizableBar_bytes]
  unfold resizableBarText lacks ResizableBar.numBars
  dsimp only
  texts_by_cases

/-- C91, C80: what a Dynamic Power Allocation error says. -/
theorem dpa_says (s : Bytes) :
    said DynamicPowerAllocation.DynamicPowerAllocationError.display
      (DynamicPowerAllocation.DynamicPowerAllocation.ofBytes s) = dpaText s := by
  rw [DynamicPowerAllocation.DynamicPowerAllocation_bytes]
  unfold dpaText lacks DynamicPowerAllocation.substates
  dsimp only
  texts_by_cases

/-- C91, C80: what a Protocol Multiplexing error says. -/
theorem pmux_says (s : Bytes) :
    said ProtocolMultiplexing.ProtocolMultiplexingError.display
      (ProtocolMultiplexing.ProtocolMultiplexing.ofBytes s) = pmuxText s := by
  rw [ProtocolMultiplexing.ProtocolMultiplexing_bytes]
  unfold pmuxText lacks ProtocolMultiplexing.arrayBytes
  dsimp only
  texts_by_cases

theorem hexDigits_4 (v : U16) : fmtHex 4 v.toNat = hex 4 v.toNat := hex_eq _ _ (by decide) v.isLt

theorem hexDigits_2 (v : U8) : fmtHex 2 v.toNat = hex 2 v.toNat := hex_eq _ _ (by decide) v.isLt

theorem cxl_ok (d : Bytes) (id : U16) (h : id ≠ 0) :
    ∃ c, ComputeExpressLink.ComputeExpressLink.spec d id = .ok c := by
  unfold ComputeExpressLink.ComputeExpressLink.spec
  simp only [pick]
  rw [if_neg h]
  repeat' split
  all_goals exact ⟨_, rfl⟩

theorem cxl_zero (d : Bytes) : ComputeExpressLink.ComputeExpressLink.spec d 0 =
    if 46 ≤ d.length then .ok (.PcieDvsecForCxlDevice (.spec d)) else .err .PcieDvsecForCxlDevice := rfl

/-- C91, C80: what a Designated Vendor-Specific Extended Capability error says. -/
theorem dvsec_says (s : Bytes) :
    said DesignatedVendorSpecificExtendedCapability.DesignatedVendorSpecificExtendedCapabilityError.display
      (DesignatedVendorSpecificExtendedCapability.DesignatedVendorSpecificExtendedCapability.ofBytes s) =
      dvsecText s := by
  rw [DesignatedVendorSpecificExtendedCapability.Dvsec_bytes]
  unfold dvsecText lacks DesignatedVendorSpecificExtendedCapability.DvsecType.spec
  have hl : (DesignatedVendorSpecificExtendedCapability.dvsecRegisters s).length =
      min ((fld (rd32 s 4) 20 12 : U16).toNat - 10) (s.length - 10) := by
    unfold DesignatedVendorSpecificExtendedCapability.dvsecRegisters
    simp
    omega
  dsimp only
  rw [← hexDigits_4, ← hexDigits_2, ← hexDigits_4]
  by_cases h1 : s.length < 10
  · rw [if_pos h1, if_pos h1]; rfl
  rw [if_neg h1, if_neg h1]
  by_cases h2 : (fld (rd32 s 4) 20 12 : U16).toNat < 10 ∨ s.length < (fld (rd32 s 4) 20 12 : U16).toNat
  · rw [if_pos h2, if_pos h2]; rfl
  rw [if_neg h2, if_neg h2]
  by_cases h3 : (fld (rd32 s 4) 0 16 : U16) = 0x1e98
  · rw [if_pos h3]
    by_cases h4 : rd16 s 8 = 0
    · rw [h4, cxl_zero, hl]
      by_cases h5 : (fld (rd32 s 4) 20 12 : U16).toNat < 10 + 46
      · rw [if_neg (by omega), if_pos ⟨h3, rfl, h5⟩]; rfl
      · rw [if_pos (by omega), if_neg (fun h => h5 h.2.2)]; rfl
    · obtain ⟨c, hc⟩ := cxl_ok (DesignatedVendorSpecificExtendedCapability.dvsecRegisters s) _ h4
      rw [hc, if_neg (fun h => h4 h.2.1)]
      rfl
  · rw [if_neg h3, if_neg (fun h => h3 h.1)]
    rfl

example : dvsecText [0x23, 0, 0, 0, 0x98, 0x1e, 0xb0, 0, 0, 0, 0] =
    some "Compute Express Link error: PCIe DVSEC for CXL Device" := by decide +kernel

/-! ## The walks -/

theorem under_under (a b : String) (t : Option String) : under a (under b t) = under (a ++ b) t := by
  cases t with
  | none => rfl
  | some t => simp only [under, Option.map_some, String.append_assoc]

/-- The text of an error with a source is a title and the text of the source. -/
theorem said_wrapped {ε α ε' β : Type} (f : ε → String) (g : ε' → String) (k : α → β) (c : ε → ε')
    (title : String) (r : Res ε α) (t : Option String) (hr : said f r = t)
    (hc : ∀ e, g (c e) = title ++ f e) :
    said g ((r.map' k).mapErr c) = under title t := by
  subst hr
  cases r with
  | ok a => rfl
  | err e => simp only [Res.map', Res.mapErr, said, under, Option.map_some, hc]
  | panic => rfl

theorem said_pick {n : Nat} {α ε : Type} (f : ε → String) (c : BitVec n)
    (t : List (BitVec n × Res ε α)) (o : Res ε α) :
    said f (pick c t o) = pick c (t.map fun x => (x.1, said f x.2)) (said f o) := by
  induction t with
  | nil => rfl
  | cons x t ih =>
    simp only [pick, List.map_cons]
    split
    · rfl
    · exact ih

theorem below_of_mem {n : Nat} {l : List (BitVec n)} {c : BitVec n} (m : Nat) (hc : c ∈ l)
    (h : (l.all fun x => decide (x.toNat < m)) = true) : c.toNat < m :=
  of_decide_eq_true (List.all_eq_true.1 h c hc)

theorem plain_text (p : U8) (d : Bytes) (name : String) (need : Nat) (k : CapabilityKind) :
    said CapabilityError.display (plainKind p d name need k) =
      under ("[" ++ fmtHex 2 p.toNat ++ "] ") (lacksData d name need need) := by
  unfold plainKind lacksData lacks
  by_cases h : need ≤ d.length
  · rw [if_pos h, if_neg (by omega)]; rfl
  · rw [if_neg h, if_pos (by omega)]
    simp only [said, under, Option.map_some, CapabilityError.display, CapabilityDataError.display,
      dec_eq, String.append_assoc]
    rfl

theorem ea_text (b : Bool) (p : U8) (d : Bytes) :
    said CapabilityError.display (enhancedAllocationKind b p d) =
      under ("[" ++ fmtHex 2 p.toNat ++ "] ") (under "Enhanced Allocation error: "
        (lacks d (if b then 6 else 2) "number of entries is unreadable")) := by
  unfold enhancedAllocationKind lacks
  by_cases h : d.length < (if b then 6 else 2)
  · rw [if_pos h, if_pos h]
    simp only [said, under, Option.map_some, CapabilityError.display, String.append_assoc]
    rfl
  · rw [if_neg h, if_neg h]
    rfl

theorem sourced_text {ε α : Type} (f : ε → String) (k : α → CapabilityKind) (p : U8)
    (c : U8 → ε → CapabilityError) (r : Res ε α) (t : Option String) (hr : said f r = t)
    (after title : String) (ha : after = "] " ++ title)
    (hc : ∀ e, (c p e).display = "[" ++ fmtHex 2 p.toNat ++ after ++ f e) :
    said CapabilityError.display ((r.map' k).mapErr (c p)) =
      under ("[" ++ fmtHex 2 p.toNat ++ "] ") (under title t) := by
  rw [under_under]
  refine said_wrapped f _ k (c p) _ r t hr fun e => ?_
  rw [hc, ha]
  simp only [String.append_assoc]

/-- The text of a decoding error is the place and what is said of the capability. -/
theorem kind_text (h : Header.Header) (p id : U8) (d : Bytes) :
    said CapabilityError.display (kindSpec h p id d) =
      under ("[" ++ hex 2 p.toNat ++ "] ") (capText (typeOne h) h.vendor_id h.device_id id d) := by
  rw [← hexDigits_2]
  have hmsi := sourced_text _ .MessageSignaledInterrups p .MessageSignaledInterrups _ _
    (msi_says d) "] MSI error: " "MSI error: " rfl (fun _ => rfl)
  have hht := sourced_text _ .Hypertransport p .Hypertransport _ _
    (hypertransport_says d) "] HyperTransport: " "HyperTransport: " rfl (fun _ => rfl)
  have hvs := sourced_text _ .VendorSpecific p .VendorSpecific _ _
    (vendor_specific_says d h.vendor_id h.device_id) "] Vendor Specific error: "
    "Vendor Specific error: " rfl (fun _ => rfl)
  have hpe := sourced_text _ .PciExpress p .PciExpress _ _
    (pci_express_says d) "] PCI Express error: " "PCI Express error: " rfl (fun _ => rfl)
  have hx := sourced_text _ .PciX p .PciX _ _
    (pci_x_says d) "] PCI-X error: " "PCI-X error: " rfl (fun _ => rfl)
  have hxb := sourced_text _ .PciXBridge p .PciXBridge _ _
    (pci_x_bridge_says d) "] PCI-X Bridge error: " "PCI-X Bridge error: " rfl (fun _ => rfl)
  rw [msi_kind] at hmsi
  rw [ht_kind] at hht
  rw [vendor_kind] at hvs
  rw [pcie_kind] at hpe
  have hpx : said CapabilityError.display (pciXKind (typeOne h) p d) =
      under ("[" ++ fmtHex 2 p.toNat ++ "] ")
        (if typeOne h then under "PCI-X Bridge error: " (pciXBridgeText d)
          else under "PCI-X error: " (pciXText d)) := by
    rw [← pcix_kind]
    cases typeOne h
    · exact hx
    · exact hxb
  have hea := ea_text (typeOne h) p d
  unfold kindSpec capText
  rw [said_pick]
  simp only [List.map_cons, List.map_nil, plain_text, hmsi, hht, hvs, hpe, hpx, hea]
  have hb : id = BitVec.ofNat 8 id.toNat := by simp
  have hl := id.isLt
  generalize id.toNat = n at hb hl
  subst hb
  by_cases hn : n < 0x16
  · interval_cases n <;> rfl
  · have hid : (BitVec.ofNat 8 n).toNat = n := by rw [BitVec.toNat_ofNat]; omega
    rw [ExtendedCapabilities.pick_other, ExtendedCapabilities.pick_other]
    · rfl
    all_goals
      intro hm
      refine hn ?_
      rw [← hid]
      exact below_of_mem 0x16 hm rfl

/-- C91: what the capability walk says, in every state: nothing at the end of the list, else the place
and what the table says of the capability found there. -/
theorem cap_walk_says (s : Capabilities) :
    s.next.1.bind (said CapabilityError.display) =
      if s.pointer = 0 then none
      else if s.pointer.toNat < 0x40 then some "capabilities pointer should be greater than 0x40"
      else under ("[" ++ hex 2 s.pointer.toNat ++ "] ")
        (if capFits s.data s.pointer then
          capText (typeOne s.header) s.header.vendor_id s.header.device_id (capId s.data s.pointer)
            (capData s.data s.pointer)
        else some "capability header is not available") := by
  by_cases h0 : s.pointer = 0
  · rw [next_zero s h0, if_pos h0]; rfl
  by_cases h1 : s.pointer.toNat < 0x40
  · rw [next_header s h0 h1, if_neg h0, if_pos h1]; rfl
  by_cases h2 : capFits s.data s.pointer
  · rw [next_fits s h2, if_neg h0, if_neg h1, if_pos h2, ← kind_text]
    show said _ (capItem _ _ _) = _
    unfold capItem
    cases kindSpec s.header s.pointer (capId s.data s.pointer) (capData s.data s.pointer) <;> rfl
  · rw [next_dangling s (by omega) h2, if_neg h0, if_neg h1, if_neg h2, ← hexDigits_2]
    simp only [Option.bind_some, said, CapabilityError.display, under, Option.map_some,
      String.append_assoc]
    rfl

example : (Capabilities.mk sampleRegion (sampleHeader 0x80) 0xa8).next.1.bind
    (said CapabilityError.display) = some "[a8] Serial ATA (6 bytes) data read error" := by
  decide +kernel

end Pcics
