{"id": "C01", "title": "Header accepts exactly slices of >= 64 bytes", "statement": "Header::try_from(slice) succeeds if and only if the slice has at least 64 bytes; the result depends only on the first 64 bytes, so any longer dump (256 or 4096 bytes) of the same device parses to the same Header.", "quantifier": "every byte slice of every length", "why_tests_cant": "Needs all lengths and all tails; tests try one or two lengths.", "anchors": ["src/header.rs: impl TryFrom<&[u8]> for Header", "src/header.rs: Header::TOTAL_SIZE"]}
{"id": "C02", "title": "Common header fields sit at their PCI offsets", "statement": "For any 64-byte header the parsed vendor id, device id, command, status, revision, class code, cache line size, latency timer, header type and BIST equal the little-endian values at offsets 0x00,0x02,0x04,0x06,0x08,0x09..0x0B,0x0C,0x0D,0x0E,0x0F.", "quantifier": "every 64-byte header", "why_tests_cant": "Input space is 2^(8n) byte strings; sample dumps exercise only a handful of bit patterns, and a shifted or overlapping field is invisible whenever the sample has zeros there.", "anchors": ["src/header.rs: impl From<[u8; 64]> for Header"]}
{"id": "C03", "title": "Header layout selection and type-specific registers", "statement": "The header layout is chosen by bits 6:0 of byte 0x0E only (0 Normal, 1 Bridge, 2 CardBus, other Reserved carrying that value) and is_multi_function is bit 7; the registers of the selected layout are read from their PCI offsets (BARs, subsystem ids, bus numbers, windows, ROM, interrupt line/pin, bridge control).", "quantifier": "every 64-byte header", "why_tests_cant": "Input space is 2^(8n) byte strings; sample dumps exercise only a handful of bit patterns, and a shifted or overlapping field is invisible whenever the sample has zeros there.", "anchors": ["src/header.rs: Header, HeaderType, Normal, Bridge, Cardbus"]}
{"id": "C04", "title": "Capabilities pointer is dword aligned and from the right byte", "statement": "For every header the parsed capabilities_pointer has its two low bits clear, equals byte 0x34 (layout Normal/Bridge) or byte 0x14 (CardBus) with low bits masked, and is 0 for reserved layouts; so the capability walk of a reserved-layout header is empty.", "quantifier": "every 64-byte header", "why_tests_cant": "Quantifies over all 256 pointer bytes times all layouts.", "anchors": ["src/header.rs: Header.capabilities_pointer"]}
{"id": "C05", "title": "Command register is a faithful bit map", "statement": "Decoding any u16 command register puts every architected bit (0..10) in its named flag and bits 15:11 in reserved; no two flags read the same bit and no information is lost.", "quantifier": "every u16 register value", "why_tests_cant": "Input space is 2^(8n) byte strings; sample dumps exercise only a handful of bit patterns, and a shifted or overlapping field is invisible whenever the sample has zeros there.", "anchors": ["src/header/command.rs: Command"]}
{"id": "C06", "title": "Status registers are faithful bit maps", "statement": "Decoding any u16 status register (primary or secondary flavour) puts bits 3..15 in the named flags, with DEVSEL timing taken from bits 10:9.", "quantifier": "every u16 register value", "why_tests_cant": "Input space is 2^(8n) byte strings; sample dumps exercise only a handful of bit patterns, and a shifted or overlapping field is invisible whenever the sample has zeros there.", "anchors": ["src/header/status.rs: Status, DevselTiming"]}
{"id": "C07", "title": "Bridge control and CardBus bridge control bit maps", "statement": "Decoding any u16 bridge control / CardBus bridge control register puts every architected bit in its named flag at its architected position.", "quantifier": "every u16 register value", "why_tests_cant": "Input space is 2^(8n) byte strings; sample dumps exercise only a handful of bit patterns, and a shifted or overlapping field is invisible whenever the sample has zeros there.", "anchors": ["src/header/bridge_control.rs", "src/header/cardbus_bridge_control.rs"]}
{"id": "C08", "title": "BIST, interrupt pin and expansion ROM conversions", "statement": "u8 -> InterruptPin -> u8 and u32 -> ExpansionRom -> u32 are the identity for every register value, and u8 -> BuiltInSelfTest -> u8 is the identity up to the two reserved bits 5:4, which become zero.", "quantifier": "every u8/u32 register value", "why_tests_cant": "Round trip must hold for 2^32 values.", "anchors": ["src/header.rs: InterruptPin, BuiltInSelfTest, ExpansionRom"]}
{"id": "C09", "title": "Bridge I/O and prefetchable windows", "statement": "The I/O and prefetchable windows of a type-1 header are derived from base/limit registers and their upper halves exactly as the PCI-to-PCI bridge architecture says: capability nibble selects 16/32-bit (32/64-bit) addressing, disagreement is reported as malformed, all-zero as not implemented.", "quantifier": "every combination of base, limit and upper registers", "why_tests_cant": "Input space is 2^(8n) byte strings; sample dumps exercise only a handful of bit patterns, and a shifted or overlapping field is invisible whenever the sample has zeros there.", "anchors": ["src/header.rs: BridgeIoAddressRange::new, BridgePrefetchableMemory::new"]}
{"id": "C10", "title": "CardBus I/O window round trip", "statement": "Encoding a decoded CardBus I/O window back to registers and decoding again returns the same window, without panicking.", "quantifier": "every quadruple of u16 registers", "why_tests_cant": "Failing inputs are a specific capability nibble; needs universally quantified check.", "anchors": ["src/header.rs: IoAccessAddressRange conversions"]}
{"id": "C11", "title": "CardBus optional registers are all-or-nothing", "statement": "Reading the optional CardBus registers from a slice either fills all four (from offsets 0x40,0x42,0x44,0x48) when at least 64 bytes follow the header or fails leaving the previously parsed value unchanged.", "quantifier": "every byte slice of every length", "why_tests_cant": "All lengths and contents.", "anchors": ["src/header.rs: Cardbus::try_set_optional_registers"]}
{"id": "C12", "title": "BAR iteration yields each BAR once, in order", "statement": "Iterating base addresses of N dwords yields exactly the non-zero BAR slots in increasing slot order; each item carries its slot index, address with type bits masked, and prefetchable flag; a 64-bit BAR consumes two slots and combines them; an all-zero slot is skipped.", "quantifier": "every array of N dwords, every N", "why_tests_cant": "2^(32N) arrays; interplay of 64-bit pairs and zero slots is combinatorial.", "anchors": ["src/header/bar.rs: BaseAddresses, Iterator"]}
{"id": "C13", "title": "BAR iteration terminates within N steps", "statement": "Iterating base addresses always ends after at most N items and stays exhausted afterwards; region numbers are strictly increasing and < N.", "quantifier": "every array and every N", "why_tests_cant": "Termination is a statement about all runs.", "anchors": ["src/header/bar.rs: Iterator for BaseAddresses"]}
{"id": "C14", "title": "64-bit BAR in the last slot is reported broken", "statement": "A memory BAR with type 10b whose upper half would lie past the last register is yielded as a broken 64-bit BAR and iteration ends, instead of reading outside of the array.", "quantifier": "every array whose last consumed slot has type 10b", "why_tests_cant": "All N and all contents.", "anchors": ["src/header/bar.rs: BaseAddressType::MemorySpace64Broken"]}
{"id": "C15", "title": "Collecting BARs rebuilds the register array", "statement": "Collecting the iterated BARs back to an array of dwords gives the original registers whenever every BAR is of a representable kind; it never panics.", "quantifier": "every array of N dwords", "why_tests_cant": "Failing inputs (64-bit BAR recorded in last slot, reserved types) are corner cases not in samples.", "anchors": ["src/header/bar.rs: FromIterator for [u32; N]"]}
{"id": "C16", "title": "Capability walk follows the linked list", "statement": "For every device dependent region and start pointer the k-th item of the iterator is the capability at the k-th pointer of the chain defined by byte p (id), byte p+1 (next): same pointer reported, id taken from that byte, and data starting at p+2.", "quantifier": "every device dependent region, start pointer and k", "why_tests_cant": "Requires induction over the walk; the chain shape is input controlled.", "anchors": ["src/capabilities.rs: Capabilities, Iterator::next, parse_cap"]}
{"id": "C17", "title": "Capability walk ends at pointer zero", "statement": "If the chain reaches a zero next pointer after n capabilities the iterator yields exactly n items and then None forever.", "quantifier": "every well-formed chain of any length", "why_tests_cant": "All chain lengths and layouts.", "anchors": ["src/capabilities.rs: Iterator::next"]}
{"id": "C18", "title": "Capability walk always terminates", "statement": "Iterating the capabilities of any device dependent region yields finitely many items.", "quantifier": "every device dependent region and start pointer", "why_tests_cant": "Non-termination can not be observed by a finite test; it is triggered by cyclic or dangling next pointers.", "anchors": ["src/capabilities.rs: Iterator::next"]}
{"id": "C19", "title": "Pointer into the header is rejected once", "statement": "A capability pointer in 1..0x3f yields exactly one Pointer error and ends the walk.", "quantifier": "every region, every pointer 1..0x3f", "why_tests_cant": "All walks that reach such a pointer.", "anchors": ["src/capabilities.rs: CapabilityError::Pointer"]}
{"id": "C20", "title": "A malformed capability does not hide the rest", "statement": "If the data of one capability can not be decoded the iterator yields an error for it and continues at its next pointer: errors never change the sequence of visited pointers.", "quantifier": "every region and chain", "why_tests_cant": "Quantifies over error positions in a chain.", "anchors": ["src/capabilities.rs: parse_cap"]}
{"id": "C21", "title": "Capability id determines the variant", "statement": "For every id byte the decoded kind is the one assigned by the PCI code and ID list (0x00..0x15), PCI-X being decoded with the bridge layout exactly when the header is of type Bridge, and every other id is reported as Reserved with that id.", "quantifier": "every id byte, header type and data", "why_tests_cant": "Input space is 2^(8n) byte strings; sample dumps exercise only a handful of bit patterns, and a shifted or overlapping field is invisible whenever the sample has zeros there.", "anchors": ["src/capabilities.rs: CapabilityKind, parse_cap"]}
{"id": "C22", "title": "Capability decoding is local", "statement": "The decoded capability at pointer p depends only on the bytes at p and above (id, next and data); changing bytes below p, other than through the walk, does not change it.", "quantifier": "every two regions that agree from p on", "why_tests_cant": "Relational property over pairs of inputs.", "anchors": ["src/capabilities.rs: parse_cap"]}
{"id": "C23", "title": "Parsing capabilities never panics", "statement": "No device dependent region makes Header parsing or capability iteration panic.", "quantifier": "every region, start pointer, header type", "why_tests_cant": "Panics (unreachable!, slicing, overflow) hide in rare bit patterns.", "anchors": ["src/capabilities.rs", "src/capabilities/*.rs"]}
{"id": "C24", "title": "Extended capability walk follows the linked list", "statement": "For every extended configuration space the k-th item of the iterator is the extended capability at the k-th offset of the chain 0x100 -> bits 31:20 of the header dword, with reported offset, id (bits 15:0) and version (bits 19:16) of that header.", "quantifier": "every extended region and k", "why_tests_cant": "Induction over an input controlled walk.", "anchors": ["src/extended_capabilities.rs: ExtendedCapabilities, Iterator::next"]}
{"id": "C25", "title": "Extended walk termination conditions", "statement": "The extended walk ends exactly when the next offset is 0 or a zero header dword is met, an offset in 1..0xff yields one Offset error and ends, an offset whose header does not fit yields one Header error and ends; after the end the iterator stays ended.", "quantifier": "every extended region", "why_tests_cant": "All chains.", "anchors": ["src/extended_capabilities.rs: Iterator::next"]}
{"id": "C26", "title": "Extended walk always terminates", "statement": "Iterating extended capabilities of any region yields finitely many items.", "quantifier": "every extended region", "why_tests_cant": "Cyclic next offsets.", "anchors": ["src/extended_capabilities.rs: Iterator::next"]}
{"id": "C27", "title": "Extended capability decoding is local", "statement": "The decoded extended capability at offset o depends only on bytes at o and above: registers are read from the capability's own structure, wherever in the chain it is.", "quantifier": "every region and chain position", "why_tests_cant": "Only visible for capabilities not first in the chain, in relational form.", "anchors": ["src/extended_capabilities.rs: parse_ecap dispatch"]}
{"id": "C28", "title": "Extended capability id determines the variant", "statement": "For every 16-bit id the decoded kind is the one the code assigns, unknown ids are Reserved(id), and id() of the kind gives back the 16-bit id it was decoded from.", "quantifier": "every 16-bit id and data", "why_tests_cant": "65536 ids times data.", "anchors": ["src/extended_capabilities.rs: ExtendedCapabilityKind, id()"]}
{"id": "C29", "title": "Parsing extended capabilities never panics", "statement": "No extended region makes extended capability iteration panic.", "quantifier": "every extended region", "why_tests_cant": "Panics hide in rare bit patterns.", "anchors": ["src/extended_capabilities.rs", "src/extended_capabilities/*.rs"]}
{"id": "C30", "title": "Power Management Interface layout", "statement": "Power management capability decodes iff 6 data bytes are present and every PMC, PMCSR, bridge extension and data field is at its architected bit position.", "quantifier": "every byte slice of every length", "why_tests_cant": "Input space is 2^(8n) byte strings; sample dumps exercise only a handful of bit patterns, and a shifted or overlapping field is invisible whenever the sample has zeros there.", "anchors": ["src/capabilities/power_management_interface.rs"]}
{"id": "C31", "title": "AGP layout", "statement": "AGP capability decodes its mandatory registers iff present; AGP 3.0 registers appear exactly as far as data is available, in order, each at its offset; isochronous registers only if supported.", "quantifier": "every byte slice of every length", "why_tests_cant": "Input space is 2^(8n) byte strings; sample dumps exercise only a handful of bit patterns, and a shifted or overlapping field is invisible whenever the sample has zeros there.", "anchors": ["src/capabilities/accelerated_graphics_port.rs"]}
{"id": "C32", "title": "VPD, slot id, debug port, bridge SSVID, AF, SATA layouts", "statement": "Each of these small capabilities decodes iff its fixed size is available and every field is at its architected position.", "quantifier": "every byte slice of every length", "why_tests_cant": "Input space is 2^(8n) byte strings; sample dumps exercise only a handful of bit patterns, and a shifted or overlapping field is invisible whenever the sample has zeros there.", "anchors": ["src/capabilities/vital_product_data.rs", "src/capabilities/slot_identification.rs", "src/capabilities/debug_port.rs", "src/capabilities/bridge_subsystem_vendor_id.rs", "src/capabilities/advanced_features.rs", "src/capabilities/sata.rs"]}
{"id": "C33", "title": "MSI layout selected by control bits", "statement": "MSI registers are read in one of four layouts selected by the 64-bit and per-vector-masking bits; message address, data, mask and pending bits come from the architected offsets of that layout and decoding fails iff the layout does not fit.", "quantifier": "every byte slice of every length", "why_tests_cant": "Input space is 2^(8n) byte strings; sample dumps exercise only a handful of bit patterns, and a shifted or overlapping field is invisible whenever the sample has zeros there.", "anchors": ["src/capabilities/message_signaled_interrups.rs"]}
{"id": "C34", "title": "MSI vector counts are powers of two", "statement": "The number of requested/enabled vectors is 2^n for the 3-bit field and never overflows.", "quantifier": "every message control value", "why_tests_cant": "Shift overflow.", "anchors": ["src/capabilities/message_signaled_interrups.rs: number_of_vectors"]}
{"id": "C35", "title": "MSI-X layout", "statement": "MSI-X decodes iff 10 data bytes are present; table and PBA BIR are the low 3 bits and offsets are the dwords with the low 3 bits cleared.", "quantifier": "every byte slice of every length", "why_tests_cant": "Input space is 2^(8n) byte strings; sample dumps exercise only a handful of bit patterns, and a shifted or overlapping field is invisible whenever the sample has zeros there.", "anchors": ["src/capabilities/msi_x.rs"]}
{"id": "C36", "title": "PCI-X layout", "statement": "PCI-X type 0 and bridge capabilities decode command/status at architected positions; ECC registers are present exactly for capability versions with ECC.", "quantifier": "every byte slice of every length", "why_tests_cant": "Input space is 2^(8n) byte strings; sample dumps exercise only a handful of bit patterns, and a shifted or overlapping field is invisible whenever the sample has zeros there.", "anchors": ["src/capabilities/pci_x.rs"]}
{"id": "C37", "title": "HyperTransport block type and layouts", "statement": "The HyperTransport capability kind is determined by bits 15:11 of the command word (3-bit codes for slave/host), every other code is Reserved, and registers of each kind are at their offsets.", "quantifier": "every byte slice of every length", "why_tests_cant": "Input space is 2^(8n) byte strings; sample dumps exercise only a handful of bit patterns, and a shifted or overlapping field is invisible whenever the sample has zeros there.", "anchors": ["src/capabilities/hypertransport.rs"]}
{"id": "C38", "title": "Vendor specific capability length", "statement": "Vendor specific data is exactly the length-3 bytes following the length byte, or an error when length or data do not fit; never reads past the declared length.", "quantifier": "every byte slice of every length", "why_tests_cant": "All lengths against all slice sizes.", "anchors": ["src/capabilities/vendor_specific.rs"]}
{"id": "C39", "title": "PCI Express capability layout", "statement": "The PCI Express capability decodes device/link/slot/root registers (and the second set for version > 1) from their architected offsets and bit positions, and fails iff they do not fit.", "quantifier": "every byte slice of every length", "why_tests_cant": "Input space is 2^(8n) byte strings; sample dumps exercise only a handful of bit patterns, and a shifted or overlapping field is invisible whenever the sample has zeros there.", "anchors": ["src/capabilities/pci_express.rs"]}
{"id": "C40", "title": "Enhanced Allocation entries", "statement": "Iterating the entries of an Enhanced Allocation capability yields at most num_entries entries, each decoded from its own bytes with base/max offset widths selected by the S bits, and ends.", "quantifier": "every byte slice of every length", "why_tests_cant": "Variable-size entries chained by input controlled sizes.", "anchors": ["src/capabilities/enhanced_allocation.rs"]}
{"id": "C41", "title": "Flattening Portal Bridge windows", "statement": "RID/MEM vector starts are the architected bits masked by granularity, for every granularity value.", "quantifier": "every byte slice of every length", "why_tests_cant": "Shift amounts exceed the integer width only for rare granularities.", "anchors": ["src/capabilities/flattening_portal_bridge.rs"]}
{"id": "C42", "title": "AER layout", "statement": "Advanced Error Reporting registers are decoded from architected offsets: status/mask/severity/control/header log, root registers when present, TLP prefix log at 0x38.", "quantifier": "every byte slice of every length", "why_tests_cant": "Input space is 2^(8n) byte strings; sample dumps exercise only a handful of bit patterns, and a shifted or overlapping field is invisible whenever the sample has zeros there.", "anchors": ["src/extended_capabilities/advanced_error_reporting.rs"]}
{"id": "C43", "title": "Virtual channel tables never read out of the capability", "statement": "Asking a parsed Virtual Channel capability for its VC resources or arbitration tables never panics and yields the entries at the offset given by the capability.", "quantifier": "every parsed capability", "why_tests_cant": "Offsets and sizes are input controlled.", "anchors": ["src/extended_capabilities/virtual_channel.rs"]}
{"id": "C44", "title": "Arbitration tables unpack entries in order", "statement": "Iterating a port/function arbitration table with entry size 1, 2, 4 or 8 bits yields the 8/size entries of each byte from LSB to MSB, in byte order, and nothing else.", "quantifier": "every byte table and entry size", "why_tests_cant": "All table contents and lengths; stateful shift register.", "anchors": ["src/extended_capabilities/virtual_channel.rs: PortArbitrationTable", "src/extended_capabilities/multifunction_virtual_channel.rs: FunctionArbitrationTable"]}
{"id": "C45", "title": "Root complex link address round trip", "statement": "For every pair of dwords and link type, LinkAddress::new followed by conversion back gives the same two dwords.", "quantifier": "every link type and pair of u32", "why_tests_cant": "2^65 inputs with an input dependent field width.", "anchors": ["src/extended_capabilities/root_complex_link_declaration.rs: LinkAddress"]}
{"id": "C46", "title": "Root complex link entries", "statement": "Link entries iterate exactly min(declared, available complete) 16-byte entries in order, and state reports whether all declared entries are available.", "quantifier": "every slice and count", "why_tests_cant": "All lengths.", "anchors": ["src/extended_capabilities/root_complex_link_declaration.rs: LinkEntries"]}
{"id": "C47", "title": "ACS egress control vector", "statement": "egress_control_vectors yields exactly egress_control_vector_size bits, bit i being bit (i mod 32) of dword i/32 after the control register.", "quantifier": "every parsed ACS capability", "why_tests_cant": "All sizes not multiple of 32.", "anchors": ["src/extended_capabilities/access_control_services.rs"]}
{"id": "C48", "title": "Latency value conversions", "statement": "MaxLatency and ReadinessTime values are value * 32^scale without overflow, and u16 -> MaxLatency -> u16 is the identity on architected bits.", "quantifier": "every u16", "why_tests_cant": "Shift overflow and field misplacement.", "anchors": ["src/extended_capabilities/latency_tolerance_reporting.rs", "src/extended_capabilities/readiness_time_reporting.rs"]}
{"id": "C49", "title": "L1 PM substates round trip", "statement": "Each L1 PM Substates register decoded and re-encoded is the same register with reserved bits cleared.", "quantifier": "every u32 register", "why_tests_cant": "Input space is 2^(8n) byte strings; sample dumps exercise only a handful of bit patterns, and a shifted or overlapping field is invisible whenever the sample has zeros there.", "anchors": ["src/extended_capabilities/l1_pm_substates.rs"]}
{"id": "C50", "title": "Resizable BAR entries", "statement": "Resizable BAR parsing succeeds iff the first control register announces 1..6 entries and all of them fit; iteration yields exactly those entries; support of size 2^p is read from the architected bit for p in 20..63, and the table of size names lists exactly these sizes.", "quantifier": "every slice and power", "why_tests_cant": "Input space is 2^(8n) byte strings; sample dumps exercise only a handful of bit patterns, and a shifted or overlapping field is invisible whenever the sample has zeros there.", "anchors": ["src/extended_capabilities/resizable_bar.rs"]}
{"id": "C51", "title": "Vendor specific extended registers", "statement": "VSEC registers are exactly vsec_length-8 bytes when available, otherwise flagged incomplete/invalid length; DVSEC registers are bytes 0x0a..length or an error.", "quantifier": "every byte slice of every length", "why_tests_cant": "All lengths.", "anchors": ["src/extended_capabilities/vendor_specific_extended_capability.rs", "src/extended_capabilities/designated_vendor_specific_extended_capability.rs"]}
{"id": "C52", "title": "Downstream Port Containment conditional registers", "statement": "RP extension registers are decoded iff bit 5 is set; ImpSpec log iff log size >= 5, TLP prefix log has min(4, log size - 5) dwords read from consecutive offsets and the rest zero; truncated data is an error naming the missing part.", "quantifier": "every byte slice of every length", "why_tests_cant": "Variable structure driven by input.", "anchors": ["src/extended_capabilities/downstream_port_containment.rs"]}
{"id": "C53", "title": "Multi-Function Virtual Channel round trip", "statement": "A Multi-Function VC resource decoded from 12 bytes and re-encoded equals the original with reserved bits cleared.", "quantifier": "every 12 bytes", "why_tests_cant": "Input space is 2^(8n) byte strings; sample dumps exercise only a handful of bit patterns, and a shifted or overlapping field is invisible whenever the sample has zeros there.", "anchors": ["src/extended_capabilities/multifunction_virtual_channel.rs"]}
{"id": "C54", "title": "SR-IOV layout", "statement": "SR-IOV decodes iff 60 bytes follow the header and every field, including the six VF BARs, is at its architected offset.", "quantifier": "every byte slice of every length", "why_tests_cant": "Input space is 2^(8n) byte strings; sample dumps exercise only a handful of bit patterns, and a shifted or overlapping field is invisible whenever the sample has zeros there.", "anchors": ["src/extended_capabilities/single_root_io_virtualization.rs"]}
{"id": "C55", "title": "Secondary PCI Express lanes", "statement": "equalization_control_lanes(width) yields exactly width lanes, lane i from bytes 2i,2i+1 after lane error status; it never panics.", "quantifier": "every parsed capability and width", "why_tests_cant": "Width is independent of slice length.", "anchors": ["src/extended_capabilities/secondary_pci_express.rs"]}
{"id": "C56", "title": "Enumerated fields survive a round trip", "statement": "For each enumerated field with conversions in both directions, u8 -> enum -> u8 is the identity for every value the field can hold, and distinct codes give distinct values.", "quantifier": "every field value of every enumeration", "why_tests_cant": "Completeness over all tables.", "anchors": ["src/capabilities/pci_express.rs", "src/capabilities/accelerated_graphics_port.rs", "src/capabilities/hypertransport.rs", "src/extended_capabilities/*.rs"]}
{"id": "C57", "title": "CXL DVSEC layout", "statement": "The CXL device DVSEC decodes iff 46 register bytes are present; range sizes and bases combine the high and low dwords, snoop filter size is 2^(n+15).", "quantifier": "every byte slice of every length", "why_tests_cant": "Input space is 2^(8n) byte strings; sample dumps exercise only a handful of bit patterns, and a shifted or overlapping field is invisible whenever the sample has zeros there.", "anchors": ["src/extended_capabilities/designated_vendor_specific_extended_capability/compute_express_link.rs"]}
{"id": "C58", "title": "BAR equality compares the denoted BARs", "statement": "Two base address sets read from registers compare equal if and only if iterating them yields the same sequence of base addresses; reserved bits that the iteration drops do not matter.", "quantifier": "all register arrays of any length, pairs of them", "why_tests_cant": "Equality is defined through a stateful iterator over arbitrary arrays; tests compare a few pairs only.", "anchors": ["src/header/bar.rs: BaseAddresses PartialEq, Iterator"]}
{"id": "C59", "title": "Small extended capabilities", "statement": "Device Serial Number, ATS, ARI, PASID, LTR, PRI, PTM, CAC, LNR, RCEC endpoint association, RCRB header, RC internal link control, FRS queuing and Readiness Time Reporting decode iff their fixed number of bytes is available, with every field at its architected offset and bit position, and never panic.", "quantifier": "for every byte string", "why_tests_cant": "The repository has one example per capability; a field off by one bit agrees with it for most register values.", "anchors": ["src/extended_capabilities/device_serial_number.rs", "src/extended_capabilities/address_translation_services.rs", "src/extended_capabilities/alternative_routing_id_interpolation.rs", "src/extended_capabilities/process_address_space_id.rs", "src/extended_capabilities/latency_tolerance_reporting.rs", "src/extended_capabilities/page_request_interface.rs", "src/extended_capabilities/precision_time_measurement.rs", "src/extended_capabilities/configuration_access_correlation.rs", "src/extended_capabilities/ln_requester.rs", "src/extended_capabilities/root_complex_event_collector_endpoint_association.rs", "src/extended_capabilities/root_complex_register_block_header.rs", "src/extended_capabilities/root_complex_internal_link_control.rs", "src/extended_capabilities/frs_queuing.rs", "src/extended_capabilities/readiness_time_reporting.rs"]}
{"id": "C60", "title": "Power Budgeting layout", "statement": "Power Budgeting decodes iff its registers are available; base power, data scale, PM sub state, PM state, type and power rail are at their architected positions and every code of every field has its architected meaning.", "quantifier": "for every byte string and every field code", "why_tests_cant": "The example exercises one code per field; a wrong code in one table row is invisible.", "anchors": ["src/extended_capabilities/power_budgeting.rs"]}
{"id": "C61", "title": "Dynamic Power Allocation layout", "statement": "Dynamic Power Allocation decodes iff its 16 fixed bytes and Substate_Max + 1 allocation bytes are available; every field and code is at its architected position, the array has exactly Substate_Max + 1 entries, no input panics, and the error for a short array names the number of entries needed and found.", "quantifier": "every byte slice of every length", "why_tests_cant": "Input space is 2^(8n) byte strings; the repository has one example dump, and a shifted field or a wrong length test is invisible wherever the sample agrees.", "anchors": ["src/extended_capabilities/dynamic_power_allocation.rs"]}
{"id": "C62", "title": "Protocol Multiplexing layout", "statement": "Protocol Multiplexing decodes iff its 16 fixed bytes and the announced array are available, otherwise the error names what is missing; every field is at its position, the array iterator yields exactly the announced entries in order, and encoding an entry is inverse to decoding it.", "quantifier": "every byte slice of every length; every entry", "why_tests_cant": "Input space is 2^(8n) byte strings; the repository has one example dump, and a shifted field or a wrong length test is invisible wherever the sample agrees.", "anchors": ["src/extended_capabilities/protocol_multiplexing.rs"]}
{"id": "C63", "title": "TPH Requester layout and ST table", "statement": "TPH Requester decodes iff 8 bytes follow the header, without panic; the ST table is valid iff it is located in the structure, has at most 64 entries and is completely available, and then is exactly its size + 1 words.", "quantifier": "every byte slice of every length", "why_tests_cant": "Input space is 2^(8n) byte strings; the repository has one example dump, and a shifted field or a wrong length test is invisible wherever the sample agrees.", "anchors": ["src/extended_capabilities/tph_requester.rs"]}
{"id": "C64", "title": "Multicast layout", "statement": "Multicast decodes iff 40 bytes (with the header) are available; every register is at its position, addresses are the aligned upper bits of their registers, 64-bit vectors combine their two dwords, and the overlay register is present iff its 8 bytes are.", "quantifier": "every byte slice of every length", "why_tests_cant": "Input space is 2^(8n) byte strings; the repository has one example dump, and a shifted field or a wrong length test is invisible wherever the sample agrees.", "anchors": ["src/extended_capabilities/multicast.rs"]}
{"id": "C65", "title": "M-PCIe layout", "statement": "PCI Express over M-PHY decodes iff 28 bytes (with the header) are available; every field and code is at its position, including the split upper PHY address.", "quantifier": "every byte slice of every length", "why_tests_cant": "Input space is 2^(8n) byte strings; the repository has one example dump, and a shifted field or a wrong length test is invisible wherever the sample agrees.", "anchors": ["src/extended_capabilities/pci_express_over_m_phy.rs"]}
{"id": "C66", "title": "Class code names are a level by level lookup", "statement": "ClassCode::meaning returns a value for every class code; the ordered match arms select the entry found by looking up the base class, then the sub-class within it, then the interface within that: no arm shadows another and no combination falls through wrongly. The class name depends on the base only, the sub-class name on base and sub-class only, an interface is named only within a named sub-class. (Whether the names are the assigned ones is not part of the claim: the table is transcribed from the code.)", "quantifier": "all 2^24 class codes", "why_tests_cant": "204 overlapping wildcard arms, one test; an arm moved above a more specific one changes only the codes it shadows.", "anchors": ["src/header/class_code.rs: ClassCode::meaning"]}
{"id": "C67", "title": "Equal table iterators yield the same items", "statement": "The hand-written comparisons of EgressControlVectors, FunctionArbitrationTable, PmuxProtocolArray, ResizableBar, LinkEntries, VcArbitrationTable and PortArbitrationTable relate only iterators that yield the same items and have the same public fields, in every iteration state.", "quantifier": "all pairs of iterator states over byte slices of any length", "why_tests_cant": "Needs pairs of iterators stopped in the middle of a byte; the tests only compare fresh ones.", "anchors": ["src/extended_capabilities/access_control_services.rs", "src/extended_capabilities/multifunction_virtual_channel.rs", "src/extended_capabilities/protocol_multiplexing.rs", "src/extended_capabilities/resizable_bar.rs", "src/extended_capabilities/root_complex_link_declaration.rs", "src/extended_capabilities/virtual_channel.rs"]}
{"id": "C68", "title": "Capability errors name their capability and the size needed", "statement": "Every error of the capability walk names the pointer the walk is at (a pointer into the header being the one error without a pointer), and the size in a data error is exactly the number of register bytes needed: fewer give the same error, as many decode.", "quantifier": "every iterator state; every id, header and register bytes of any length", "why_tests_cant": "Each decoder has its own hand-written size and threshold; tests rarely reach the error arm.", "anchors": ["src/capabilities.rs: CapabilityError, CapabilityDataError, parse_cap"]}
{"id": "C69", "title": "Extended capability errors name their capability and the size needed", "statement": "Every error of the extended walk names the offset the walk is at (an offset below 0x100 being the one error without), and the size in a data error is exactly the number of bytes needed, counted after the extended capability header or from it.", "quantifier": "every iterator state; every id and bytes of any length", "why_tests_cant": "Each decoder has its own hand-written size and threshold; tests rarely reach the error arm.", "anchors": ["src/extended_capabilities.rs: ExtendedCapabilityError, ExtendedCapabilityDataError", "src/extended_capabilities/virtual_channel.rs", "src/extended_capabilities/latency_tolerance_reporting.rs", "src/extended_capabilities/multicast.rs"]}
{"id": "C70", "title": "Accessors of public wrapper values: value or overflow", "statement": "Every arithmetic accessor of a decoded value (SATA BAR offset, PCI-X byte counts, split transactions, cumulative read size and bus mode encoder, MSI vector count, arbitration table entry size and step) returns the documented number for codes in range and overflows (panics) exactly for the codes given, for every value a caller can construct.", "quantifier": "every value of each wrapper type, including values the decoders never produce", "why_tests_cant": "Tests only construct the few values found in sample dumps; the overflow bounds lie outside.", "anchors": ["src/capabilities/sata.rs: BarOffset::value", "src/capabilities/pci_x.rs: MaximumByteCount, MaximumOutstandingSplitTransactions, MaximumCumulativeReadSize, SecondaryStatus", "src/capabilities/message_signaled_interrups.rs: MultipleMessage::number_of_vectors", "src/extended_capabilities/virtual_channel.rs: PortArbitrationTable::next", "src/extended_capabilities/multifunction_virtual_channel.rs: FunctionArbitrationTable::next"]}
{"id": "C71", "title": "Slot power limit in watts", "statement": "The f32 slot power limit of the device and slot capabilities registers is the number of watts the register encodes, within the rounding of scale and product, and different limits give different numbers.", "quantifier": "every 32 bit register, every value and scale", "why_tests_cant": "Floating point products differ from the decimal value for some of the 1024 codes only; the alternative encodings are rare.", "anchors": ["src/capabilities/pci_express.rs: SlotPowerLimit, From<SlotPowerLimit> for f32"]}
{"id": "C72", "title": "Completion timeout ranges adjoin", "statement": "The completion timeout ranges A to D are 50 us-10 ms, 10-250 ms, 250 ms-4 s and 4-64 s: nonempty, each starting where the previous one ends.", "quantifier": "the four ranges", "why_tests_cant": "No test looks at the constants.", "anchors": ["src/capabilities/pci_express.rs: CompletionTimeoutRanges"]}
{"id": "C73", "title": "Power budget in watts", "statement": "Base power times data scale multiplier of a power budgeting data register is the power the register encodes, the alternative encodings of F0h and above being meant only with scale 1.", "quantifier": "every data register, bytes of any length", "why_tests_cant": "The alternative encodings interact with the scale field; tests decode one register.", "anchors": ["src/extended_capabilities/power_budgeting.rs: BasePower, DataScale"]}
{"id": "C74", "title": "Default values are the decodings of zero registers", "statement": "Every Default implementation of a register type, derived or hand-written, equals what all-zero registers decode to; the default MSI capability is decoded exactly from slices whose first ten bytes are zero apart from reserved bits.", "quantifier": "every type with a Default; byte slices of any length for MSI", "why_tests_cant": "Derived defaults follow field types and variant order, nothing ties them to the decoders.", "anchors": ["src/header.rs: Default impls", "src/capabilities/hypertransport.rs: LinkWidth, LinkFrequency", "src/capabilities/message_signaled_interrups.rs: MessageAddress"]}
{"id": "C75", "title": "Collected base addresses are read back", "statement": "A list of base addresses collected to N registers and iterated again gives the same list if and only if every base address is aligned, of a defined kind and non-zero, and they occupy disjoint slots below N in increasing order.", "quantifier": "every N and every list of base addresses, including hand-made ones", "why_tests_cant": "Tests collect lists that came from registers; arbitrary lists, their order, overlaps and slots are not covered.", "anchors": ["src/header/bar.rs: FromIterator<BaseAddress> for [u32; N], Iterator for BaseAddresses"]}
{"id": "C76", "title": "Decoding keeps every defined bit and ignores every reserved one", "statement": "For every register type, two raw values decode to the same value exactly when they agree in the bits of an explicit mask: no bit of a defined field is lost, and reserved bits have no influence.", "quantifier": "all pairs of raw values of each of the 129 register types of 8 to 64 bits", "why_tests_cant": "2^64 pairs of dwords per register; tests look at single values and never at two that must be told apart.", "anchors": ["src/header.rs: From<u16>/From<u8> impls", "src/capabilities/*.rs: From<u8>/From<u16>/From<u32> impls", "src/extended_capabilities/*.rs: From<u8>/From<u16>/From<u32>/From<u64> impls"]}
{"id": "C77", "title": "A capability is decoded from its own structure only", "statement": "Two regions that agree in the bytes of the capability structures visited by the walk give the same capabilities or the same failures, whatever the other bytes are and however long the regions are.", "quantifier": "all pairs of configuration regions, all headers, all finite chains of capability pointers", "why_tests_cant": "A relation between pairs of inputs; a decoder that reads past the end of its structure looks right on dumps in which zeros or plausible bytes follow.", "anchors": ["src/capabilities.rs: impl Iterator for Capabilities, fn parse_cap", "src/capabilities/*.rs: TryFrom<&[u8]> impls"]}
{"id": "C78", "title": "An extended capability is decoded from its own structure only", "statement": "Two extended configuration spaces that agree in the headers visited by the walk and in the bytes of the structures give the same offsets, versions and kinds or the same failures; bytes kept for later accesses agree as far as the structures do.", "quantifier": "all pairs of extended configuration spaces, all finite chains of extended capability offsets, all ids", "why_tests_cant": "A relation between pairs of inputs; reading past the end of a structure goes unnoticed in dumps where zeros follow.", "anchors": ["src/extended_capabilities.rs: impl Iterator for ExtendedCapabilities, fn parse_ecap", "src/extended_capabilities/*.rs: TryFrom<&[u8]> impls"]}
{"id": "C79", "title": "The text of an error names the place and identifies the error", "statement": "The text of an error of the capability walk starts with the pointer of the capability in brackets, as two lower case hexadecimal digits, that of an error of the extended walk with the offset as three; only errors of pointers or offsets outside their region name none. Two errors with the same text are the same error, up to the register and number that link declaration and Resizable BAR errors do not print.", "quantifier": "all states of the capability walk, all calls of all extended walks, all pairs of errors with all contents (pointers, names, sizes, causes)", "why_tests_cant": "Injectivity is a relation between all pairs of errors with unbounded numbers in them; tests compare a few texts.", "anchors": ["src/capabilities.rs: enum CapabilityError, struct CapabilityDataError", "src/extended_capabilities.rs: enum ExtendedCapabilityError, struct ExtendedCapabilityDataError", "src/capabilities/*.rs, src/extended_capabilities/*.rs: snafu(display) attributes"]}
{"id": "C80", "title": "Limits stated in error texts are the limits enforced", "statement": "An error whose text states a limit (a smallest pointer, offset or length, a number of bytes or of entries) is reported exactly for the inputs beyond that limit, and numbers expected and found named in a text are those needed and those there.", "quantifier": "all byte strings, all states of both walks, all vendor and device ids", "why_tests_cant": "Limits are off by one at single values; tests that do not hit the boundary of every check do not notice that the text is about another limit.", "anchors": ["src/capabilities.rs: enum CapabilityError", "src/extended_capabilities.rs: enum ExtendedCapabilityError", "src/capabilities/vendor_specific.rs: enum VendorSpecificError", "src/capabilities/enhanced_allocation.rs: enum EnhancedAllocationError", "src/extended_capabilities/root_complex_link_declaration.rs: enum RootComplexLinkDeclarationError", "src/extended_capabilities/dynamic_power_allocation.rs: enum DynamicPowerAllocationError", "src/extended_capabilities/downstream_port_containment.rs: enum DownstreamPortContainmentError"]}
{"id": "C81", "title": "Extended capabilities with a variant of their own are decoded to it", "statement": "For every extended capability id that is the id() of a variant other than Reserved, a capability with that id is decoded to that variant (or reported as an error of it), never as Reserved.", "quantifier": "all 16-bit ids, all variants, all data", "why_tests_cant": "Tests exist for the ids with a decoder; that an id named by id() has no arm in the dispatch shows only over all ids.", "anchors": ["src/extended_capabilities.rs: fn parse_ecap, fn id, enum ExtendedCapabilityKind"]}
{"id": "C82", "title": "A whole dump is decoded at its configuration addresses", "statement": "Cutting a dump at DDR_OFFSET and ECS_OFFSET as the usage example does, the header is decoded from address 0, every reported capability pointer and extended capability offset is the address in the dump at which its id, version and registers stand, following the links through the dump from the pointer register resp. from 0x100; dumps shorter than 256 bytes cannot be cut up, and nothing panics for the others.", "quantifier": "every byte string", "why_tests_cant": "The usage example checks one dump; an off-by-one between the three slices and the reported addresses can only be excluded for all dumps by proof.", "anchors": ["src/lib.rs: DDR_OFFSET, ECS_OFFSET, DDR_LENGTH, ECS_LENGTH", "README.md: Usage", "src/capabilities.rs: parse_cap", "src/extended_capabilities.rs: parse_ecap"]}
{"id": "C83", "title": "The capabilities list bit of the status register is respected", "statement": "If the Capabilities List bit of the status register is clear, the pointer register is not valid (as the documentation of Capabilities says) and the iterator yields nothing.", "quantifier": "every dump", "why_tests_cant": "Sample dumps with a clear bit also have a zero pointer.", "anchors": ["src/capabilities.rs: Capabilities::new", "src/header/status.rs: capabilities_list"]}
{"id": "C84", "title": "Reserved low bits of link fields are ignored", "statement": "The two low bits of next pointers and next offsets are reserved; the walks mask them, as the header decoder does for the first pointer.", "quantifier": "every region and every chain of capabilities", "why_tests_cant": "Sample dumps have these bits clear.", "anchors": ["src/capabilities.rs: parse_cap", "src/extended_capabilities.rs: parse_ecap"]}
{"id": "C85", "title": "Link speeds and widths are ordered by rate and lanes", "statement": "The derived order of LinkSpeed compares data rates, that of LinkWidth numbers of lanes; reserved speeds are above, reserved widths below all others; both are total orders consistent with equality.", "quantifier": "all pairs and triples of values", "why_tests_cant": "The order is derived from the declaration order of the variants and never tested; a reordered variant changes no decoding.", "anchors": ["src/capabilities/pci_express.rs: LinkSpeed, LinkWidth"]}
{"id": "C86", "title": "Iterators are fused", "statement": "Once an iterator of the crate has returned None, every later call of next returns None, for all fourteen iterators and from any state, including those that consume a short last chunk or decrement their count before they return None.", "quantifier": "all iterator states and all numbers of later calls", "why_tests_cant": "Tests collect an iterator once and stop at the first None; what next leaves behind after a None is never observed.", "anchors": ["impl Iterator for: Capabilities, ExtendedCapabilities, BaseAddresses, EnhancedAllocationEntries, ExtendedVirtualChannels, PortArbitrationTable, VcArbitrationTable, FunctionArbitrationTable, ResizableBar, EgressControlVectors, EqualizationControlLanes, PmuxProtocolArray, LinkEntries"]}
{"id": "C87", "title": "Inner iterators return a bounded number of items", "statement": "However often it is called, an inner iterator returns no more items than its count or its bytes allow: one per eight bytes (resizable BARs), four (PMUX), two (lanes), sixteen (link entries), two entries per byte (VC arbitration), at most eight per byte for any entry size (port and function arbitration), count (virtual channels, enhanced allocation entries), size (egress control), slots left (base addresses).", "quantifier": "all iterator states (arbitration tables: all states reached from new), all entry sizes, all numbers of calls", "why_tests_cant": "An iterator that never ends, or restarts after None, shows only on particular state and entry size combinations and an unbounded number of calls.", "anchors": ["impl Iterator for the twelve inner iterators"]}
{"id": "C88", "title": "Decoded window bounds are the first and last forwarded address", "statement": "For every implemented I/O, prefetchable memory and CardBus I/O window, an address is forwarded by the bridge (block comparison of the architecture: low bits of the limit taken as ones) exactly when it is between the decoded base and the decoded limit.", "quantifier": "all register values, all addresses", "why_tests_cant": "Tests compare decoded windows with the same literals the code computes; whether a boundary address lies in the window is never asked.", "anchors": ["src/header.rs: BridgeIoAddressRange::new, BridgePrefetchableMemory::new, IoAccessAddressRange::from"]}
{"id": "C89", "title": "Encoding a value and decoding it again", "statement": "For every type with conversions in both directions and every value of it (its fields are public, so a value need not come from the decoder): decoding the encoded value gives each field cut to the width of its register field, so a too wide field changes no other field, and the value is restored exactly when every field fits.", "quantifier": "all values of every encodable type, including those no decoder gives", "why_tests_cant": "Round-trip tests start from register values, which only reach values whose fields fit.", "anchors": ["src/header.rs:639-659", "src/header.rs:676-699", "src/header.rs:759-777", "src/header.rs:787-813", "src/capabilities/hypertransport.rs:482-486", "src/extended_capabilities/l1_pm_substates.rs:168-273", "src/extended_capabilities/latency_tolerance_reporting.rs:80-91", "src/extended_capabilities/multifunction_virtual_channel.rs:354-589", "src/extended_capabilities/root_complex_link_declaration.rs:400-422"]}
{"id": "C90", "title": "Results do not depend on the width of usize", "statement": "Every size, count, offset and latency the crate computes at type usize from a decoded register has the same value, without panic, on targets whose usize has 16, 32 or 64 bits.", "quantifier": "all register values, all widths of usize from 16 bits on", "why_tests_cant": "Tests run on the 64-bit host; the code is no_std and meant for firmware, where usize is narrower.", "anchors": ["src/extended_capabilities/latency_tolerance_reporting.rs:71-78", "src/extended_capabilities/l1_pm_substates.rs:187-194", "src/capabilities/pci_x.rs:274-279", "src/capabilities/pci_x.rs:397-402", "src/extended_capabilities/virtual_channel.rs:226-230", "src/extended_capabilities/multifunction_virtual_channel.rs:266-270", "src/extended_capabilities/tph_requester.rs:82"]}
{"id": "C91", "title": "Error texts name the capability and the part that is missing", "statement": "At every call, what a walk says (the text of the error it reports, or nothing) is a function of the capability id and the bytes there: the place in brackets, the name of the capability the id stands for, and the text of the first of its parts that is not there or not acceptable, with the lengths and numbers found; and nothing when all parts are there. The texts are given as tables by id and by register bits.", "quantifier": "all byte regions, headers, walk states, ids and lengths", "why_tests_cant": "Tests compare a few error values and never their texts; two texts swapped, a wrong title or an error missing for some length would not be seen.", "anchors": ["src/capabilities.rs:278-329", "src/extended_capabilities.rs:111-176", "src/capabilities/vendor_specific.rs:53-63", "src/capabilities/message_signaled_interrups.rs:22-29", "src/capabilities/hypertransport.rs:29-50", "src/capabilities/pci_x.rs:171-179", "src/capabilities/pci_x.rs:560-568", "src/capabilities/pci_express.rs:232-237", "src/extended_capabilities/downstream_port_containment.rs:153-163", "src/extended_capabilities/designated_vendor_specific_extended_capability.rs:47-70"]}
{"id": "C92", "title": "More readable bytes never lose a decoded capability", "statement": "If a capability (or extended capability) is decoded from a region, it is still decoded, as the same kind, at the same call of the walk, with the same pointer (offset and version), when more bytes become readable after the region; the pointers visited by the walk stay the same.", "quantifier": "all regions, all bytes appended, all headers, all walks, every capability id", "why_tests_cant": "Tests decode one region each; a length test with the wrong direction for one of the 60 layouts only shows when two lengths of the same region are compared.", "anchors": ["src/capabilities.rs:351-460", "src/extended_capabilities.rs:184-444"]}
{"id": "C93", "title": "What a walk has found can be inspected without a panic", "statement": "For every capability and extended capability returned by the walks, every derived value (SATA BAR offset, MSI vector counts, PCI-X counts and sizes, PCI-X bridge bus mode code, readiness times, virtual channel resources, arbitration table entry sizes and every step over an arbitration table that was handed out) is computed without overflow or panic.", "quantifier": "all regions, headers, calls of the walk, kinds found, all numbers of steps over each table", "why_tests_cant": "The accessors overflow for out-of-range codes; that no decoder lets such a code through is a statement about all register values of all layouts.", "anchors": ["src/capabilities/sata.rs:116", "src/capabilities/message_signaled_interrups.rs:194", "src/capabilities/pci_x.rs:276-300", "src/capabilities/pci_x.rs:397-402", "src/capabilities/pci_x.rs:674-702", "src/extended_capabilities/readiness_time_reporting.rs:114", "src/extended_capabilities/virtual_channel.rs:109-144", "src/extended_capabilities/multifunction_virtual_channel.rs:266-325"]}
{"id": "C94", "title": "A walk that does not end repeats itself", "statement": "What a walk returns is eventually periodic: every item a walk over capabilities (extended capabilities) will ever return is among its first 194 (3842) calls, and two capabilities returned at the same pointer (offset) are equal and mean that the walk is endless.", "quantifier": "all regions, headers and numbers of calls", "why_tests_cant": "An endless iterator can not be run to its end; that a bounded number of calls shows everything is a statement about all regions and all call numbers.", "anchors": ["src/capabilities.rs:351-372", "src/extended_capabilities.rs:195-206", "src/extended_capabilities.rs:261-287"]}
{"id": "C95", "title": "Comparing headers compares the registers", "statement": "Two decoded headers compare equal exactly when all their registers agree, apart from reserved bits, window enable encodings that read alike and what the comparison of base addresses leaves out; the comparison is an equivalence. Base addresses compare equal exactly when the registers agree, apart from the reserved bit of I/O base addresses and the upper bits of a 64-bit base address in the last slot.", "quantifier": "all pairs of 64-byte headers of every layout, every state of the base address iterators", "why_tests_cant": "Tests compare single headers with themselves; that no register is left out of the comparison, and no reserved bit gets into it, is a statement about all pairs.", "anchors": ["src/header.rs:145-200", "src/header.rs:383-462", "src/header.rs:576-604", "src/header/bar.rs:120-125"]}
{"id": "C96", "title": "Comparing capabilities compares their own structure", "statement": "Two decoded capabilities (extended capabilities) compare equal exactly when nothing that can be read from them differs; bytes after the structure make no difference.", "quantifier": "all capability and extended capability ids, all data, all bytes that follow", "why_tests_cant": "Tests compare capabilities decoded from one dump; the bytes that follow a structure would have to be varied for every kind.", "anchors": ["src/capabilities.rs:463-520", "src/capabilities/enhanced_allocation.rs:69-117", "src/extended_capabilities.rs:290-460", "src/extended_capabilities/access_control_services.rs:56-63", "src/extended_capabilities/root_complex_link_declaration.rs:261-272"]}
{"id": "C97", "title": "Every call of next returns the next entry, then None", "statement": "For the base addresses of a header and for every iterator inside of a capability, call number k of next returns entry number k of the decoded table, and None when there is no such entry, whatever the calls before returned; also for calls after the first None.", "quantifier": "all decoded data, all entry sizes, all call numbers", "why_tests_cant": "Tests collect the items of a few tables; they neither call next after the end nor vary the length of the data against the announced count.", "anchors": ["src/header/bar.rs:28-84", "src/capabilities/enhanced_allocation.rs:122-193", "src/extended_capabilities/resizable_bar.rs:137-151", "src/extended_capabilities/access_control_services.rs:212-234", "src/extended_capabilities/protocol_multiplexing.rs:316-331", "src/extended_capabilities/secondary_pci_express.rs:165-172", "src/extended_capabilities/root_complex_link_declaration.rs:267-284", "src/extended_capabilities/virtual_channel.rs:257-279,404-421,615-627", "src/extended_capabilities/multifunction_virtual_channel.rs:297-325,612-629"]}
{"id": "C98", "title": "Registers after collecting any list of base addresses", "statement": "After collecting a list of base addresses to N registers, when that does not panic, there are N registers and each holds what the last base address stored to it left, or zero. A base address whose region is N or more is stored to the last register, overwriting what was there; base addresses of a reserved kind and broken 64-bit ones store nothing.", "quantifier": "every N and every list of base addresses, including hand-made ones with regions past the end, duplicates and any order", "why_tests_cant": "Tests collect lists that came from registers, whose regions are distinct, increasing and below N; clamping and overwriting never happen there.", "anchors": ["src/header/bar.rs:87-112: FromIterator<BaseAddress> for [u32; N]"]}
{"id": "C99", "title": "Accessors of link frequencies and original registers", "statement": "The link frequency of a decoded HyperTransport interface, for either value of the extension bit, is the rate the five bit code of that bit and the low four bits of the frequency byte of that very link stands for; for a hand-made interface with a frequency of 16 or more it is Reserved with the code cut to five bits. A base address iterator gives back the registers it was made from, however often next was called.", "quantifier": "every byte slice, every interface value including hand-made ones, both extension bits, every list of registers, every number of calls", "why_tests_cant": "No test calls these accessors; one that did would use one interface, where reading the other link's field can give the same rate.", "anchors": ["src/capabilities/hypertransport.rs:216-224: link_freq_0, link_freq_1", "src/capabilities/hypertransport.rs:777-782: link_freq", "src/capabilities/hypertransport.rs:513-540: LinkFrequency::new", "src/header/bar.rs:20-23: orig"]}
