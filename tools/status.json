{
 "C10": {
  "status": "partial",
  "note": "False as stated for 32-bit and reserved windows (refuted by the _fails and _panics theorems); exactly which windows survive (cardbus_io_roundtrip_iff) and when encoding panics is proved."
 },
 "C15": {
  "status": "partial",
  "note": "The never-panics clause is refuted for collecting into fewer registers, and reserved encodings are lost; exactly which arrays are restored (bar_collect_roundtrip_iff) and which lists make collecting panic (bar_collect_panics_iff) is proved."
 },
 "C18": {
  "status": "partial",
  "note": "False as stated: dangling pointers and cyclic lists make the walk endless (cap_walk_dangling_repeats, cap_walk_cycle). Proved: exactly which walks terminate, and that those yield at most 193 items."
 },
 "C41": {
  "status": "partial",
  "note": "False as stated: wrapping_shl takes the amount modulo 32, so large granularities wrap (fpb_rid_wraps, fpb_mem_low_wraps) and starts are not masked (_not_masked). The layout and the windows for smaller granularities are proved."
 },
 "C42": {
  "status": "partial",
  "note": "False as stated: the TLP prefix log is read 40 bytes too far (AdvancedErrorReporting_prefix_refused, _prefix_wrong). Everything else is proved at its offset."
 },
 "C47": {
  "status": "partial",
  "note": "False as stated: only size / 32 * 32 bits are yielded (egress_control_vectors_fails, _short) and the size field is read with 7 instead of 8 bits (AcsCapability_layout_fails). Proved for sizes below 128 that are multiples of 32, and the iterator itself for any data. What is yielded in every case: egress_control_vectors_exact."
 },
 "C48": {
  "status": "partial",
  "note": "MaxLatency values are proved; the u16 round trip is false (MaxLatency_roundtrip_fails, encoder and decoder disagree on the scale position) and ReadinessTime panics for scales it does not define (ReadinessTime_actual_panics)."
 },
 "C60": {
  "status": "partial",
  "note": "Thermal is decoded at code 3 instead of 7 (PowerRail_thermal_fails); all other codes and positions are proved."
 },
 "C43": {
  "status": "partial",
  "note": "The registers and the extended VC list are proved; the arbitration table accessors are proved for tables that lie inside the data (_partial) and refuted otherwise: they panic (vc_arbitration_table_panics, port_arbitration_table_panics)."
 },
 "C55": {
  "status": "partial",
  "note": "False as stated: asking for more lanes than the data holds panics (equalization_control_lanes_panics, exact condition). Proved for data with enough lanes; the fixed part is proved completely."
 },
 "C61": {
  "status": "partial",
  "note": "The decoder is proved completely; the entry count named by the error is one too small (DynamicPowerAllocation_expected_fails)."
 },
 "C26": {
  "status": "partial",
  "note": "False as stated: cyclic next offsets make the walk endless (ecap_walk_cycle). Proved: exactly which walks terminate, that those yield at most 3841 items, and that increasing next offsets suffice."
 },
 "C27": {
  "status": "partial",
  "note": "False as stated: thirteen ids are decoded from the start of the extended space instead of from the capability's own offset (ecap_item_from_start, ecap_not_local, ecap_item_fails). Proved for all other ids, and for every id at offset 0x100."
 },
 "C66": {
  "status": "proved",
  "note": "Proved as stated. The names and codes of the specification table are transcribed from the code, so the theorems check the selection logic, not the wording."
 },
 "C67": {
  "status": "partial",
  "note": "False as stated for PortArbitrationTable, whose comparison omits the byte being split up (PortArbitrationTable_eq_ignores_byte), and for the public state of LinkEntries (LinkEntries_eq_ignores_state). Proved for the other five, for the items of LinkEntries, and for PortArbitrationTable at byte boundaries."
 },
 "C69": {
  "status": "partial",
  "note": "The offsets are proved. The size is false as stated for Virtual Channel (both ids; 8 named, 12 needed) and Multicast (48 named, 40 needed), see ecap_error_size_vc and ecap_error_size_multicast; proved for all other ids."
 },
 "C71": {
  "status": "partial",
  "note": "False as stated: with scale 1 the values F0h to F2h (250, 275, 300 W) are read as 240 to 242 W (slot_power_alternative_encodings_fail), and the result is not always the nearest f32 (slot_power_not_nearest). Proved for every other register, with the error bound of the two roundings; exact in whole watts; strictly increasing."
 },
 "C72": {
  "status": "partial",
  "note": "False as stated: range C starts at 250 us (completion_timeout_ranges_fail). All other bounds are proved."
 },
 "C73": {
  "status": "partial",
  "note": "False as stated: F0h and above are taken for the alternative encodings whatever the scale (base_power_scaled_fails). Proved for all other registers."
 },
 "C76": {
  "status": "partial",
  "note": "False as stated for two registers: the PCI-X ECC control and status register does not tell the reserved error phases 6 and 7 apart (EccControlAndStatus_loses; EccControlAndStatus_reads_partial is the exact equivalence), and the CXL range base keeps the reserved bits 27:0 of its low register (CxlRangeBase_reserved_kept; CxlRangeBase_reads_partial). Proved for every other register type, 130 in all; for the DPC status register the mask depends on the trigger reason, as in the specification."
 },
 "C77": {
  "status": "partial",
  "note": "False as stated: bytes following an AGP structure of a revision before 3 are taken for revision 3 registers (agp_takes_foreign_bytes), and a complete PCI Express version 1 structure at the end of the region is rejected for lack of slot registers (pcie_v1_needs_foreign_bytes). Proved with these bytes counted in; Enhanced Allocation is compared by its header fields and the entries its iterator gives, since it keeps the rest of the region. The registers every AGP revision has are its own whatever follows (agp_own); of PCI Express only the number of bytes that follow matters (pcie_own)."
 },
 "C78": {
  "status": "partial",
  "note": "False as stated: bytes following an Advanced Error Reporting structure without root port registers are taken for these (aer_takes_foreign_bytes), bytes following a 40 byte Multicast structure for an overlay BAR (multicast_takes_foreign_bytes). Proved with these bytes counted in, and with the registers of the thirteen ids of C27 at the start of the space. Nothing else is taken from what follows (aer_own, multicast_own)."
 },
 "C80": {
  "status": "partial",
  "note": "False as stated for five texts: a capability pointer of 0x40 is accepted though it 'should be greater than 0x40' (cap_pointer_text_fails); a vendor specific length of 2 is reported as 'unable to get 0 bytes data' (vendor_length_text_fails); one link entry is accepted though the number 'must be > 1' (link_entries_text_fails); the missing second DW of an Enhanced Allocation bridge is reported as an unreadable number of entries (enhanced_allocation_text_fails); the expected number of power allocation entries is one too small (dpa_text_fails). For each the limit that is enforced is proved; all other texts with a limit are proved."
 },
 "C81": {
  "status": "partial",
  "note": "False as stated: Shadow Functions (0x2d) to Flit Error Injection (0x34) have variants and ids but are decoded as Reserved (ecap_named_not_decoded). Proved for all ids up to 0x2c; all other ids have no variant."
 },
 "C83": {
  "status": "partial",
  "note": "False as stated: the bit is never consulted (cap_list_bit_fails). Proved: whatever the bit, the walk is empty exactly when the pointer register is zero above its reserved bits or the layout is reserved."
 },
 "C84": {
  "status": "partial",
  "note": "False as stated: next pointers and next offsets are followed as they are (cap_link_bits_fail, ecap_link_bits_fail). Proved: the walks are those through masked links wherever the reserved bits met are zero."
 },
 "C88": {
  "status": "partial",
  "note": "False as stated: the decoded limit is the start of the last forwarded block (window_limit_too_low). Proved: addresses from the decoded base to the end of that block are exactly those forwarded."
 },
 "C89": {
  "status": "partial",
  "note": "Refuted for ExpansionRom, MaxLatency, the L1 threshold, VcResourceControl, LinkAddress and 32-bit CardBus I/O windows (fields are or-ed without being cut; witnesses in *_spills). Proved for every type: what comes back exactly (*_redecode) or exactly which values are restored (*_restored)."
 },
 "C90": {
  "status": "partial",
  "note": "False as stated for MaxLatency::value: with 32 bits the value bits from 7 on are lost at scale 5 (max_latency_width_fails, max_latency_32). Proved: it is exact for every register exactly from 35 bits on; everything else is the same for every width from 16 bits on."
 },
 "C96": {
  "status": "partial",
  "note": "False as stated: Enhanced Allocation and Access Control Services values keep all bytes that follow and compare them (ea_eq_foreign_bytes, acs_eq_foreign_bytes). Proved: every kind that keeps no foreign bytes compares equal when the structures agree; what the comparison of every extended capability amounts to; for Virtual Channels, Access Control Services and Secondary PCI Express exactly which bytes are compared (*_eq_all_bytes)."
 }
}