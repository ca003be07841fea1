# Formal model of pcics in Lean 4

The crate decodes PCI configuration space bytes.  Everything observable is a
pure function of byte slices (plus a few small iterators with private state),
so the model is an executable Lean transcription of those functions and the
properties are theorems quantified over all byte lists / register values /
iterator states.

## Layout

* `Verif/Base.lean` - machine words (`U8 = BitVec 8`, ...), outcome type with an
  explicit `panic`, byte parser and bit reader (the model of the `heterob`
  destructuring `Le((..)) = P<N>(bytes)` and `Lsb((..)) = P<N>::<_, s1,..>(w)`).
* `Verif/Spec.lean` - specification vocabulary, independent of the parser:
  `byteAt / rd16 / rd32 / rd64` (little endian read at an absolute offset),
  `flag w k` (bit k), `fld w lo len` (bits lo+len-1..lo).
* `Verif/Spec/*.lean` - per type specifications in that vocabulary (`X.spec`).
* `Verif/Model/*.lean` - function by function transcription; each definition
  cites the file and lines it models.
* `Verif/Lemmas/*.lean` - helper lemmas.
* `tools/crosscheck.py` - compares bit patterns, match arms, struct fields and enum variants of the
  model with the source lines it cites (a transcription check, not a proof).
* `Verif/Props/*.lean` - the property theorems, each with a non-vacuity example.

## Modelling decisions

* `&[u8]` is `List (BitVec 8)`; fixed width integers are `BitVec n`, so wrapping
  and truncation are explicit; `usize` is `Nat` (offsets are < 2^13 throughout; `Verif/Model/Width.lean`
  takes it as `w` bits, see C90).
* `Result` is `Except`-like data, a panic (`unreachable!`, slice index out of
  range, arithmetic overflow in debug builds) is the third outcome `Res.panic`.
* Iterators are a state structure with `next : S -> (Option item, S)`; what a
  client sees is the list obtained by `take n` from the iterator.
* `f32`/`f64` values (slot power limit, data scale multipliers, completion timeout ranges) are
  rationals; a literal and a product are rounded to the nearest multiple of the unit in the last
  place, ties to even (`Verif/Model/Float.lean`).  Exponent range, infinities and NaN are left out:
  no modelled value comes near them.
* Error texts (`Verif/Model/Display.lean`) are the format strings of the snafu attributes; `{}` and
  `{:0Nx}` of unsigned numbers are modelled, `Debug` is not.  The variant
  `ExtendedCapabilityError::SingleRootIoVirtualization`, which nothing constructs, is left out.

## External code (trusted, `heterob` 0.3.0, `snafu`, `core`)

* `Lsb((a,b,..)) = P<N>::<T, s1, s2, ..>(v).into()` : consecutive bit fields from
  the least significant bit; `()` fields are skipped; 1-bit fields may be `bool`.
* `Le((a,b,..)) = P<N>(bytes).into()/try_into()` : consecutive little endian fields of
  the sizes of their types; `Seq { head, tail }` takes a prefix, error iff too short.
* snafu: `Display` of an error is its `display` format string, of a variant without one (no doc
  comments on those) the name of the variant; `.context(sel)` wraps the source.
* `slice::chunks(n)`, `slice.get(a..b)`, `Iterator` adaptors as documented by `core`.

## Trusted base

* Lean's kernel.  `#print axioms` of the property theorems gives a subset of
  `propext`, `Classical.choice`, `Quot.sound`.  No own axioms, no `sorry`, no
  `native_decide`, no `bv_decide`.
* The transcription of the Rust code to `Verif/Model` (by hand and by scripts, from
  reading; nothing was compiled or run) and the external semantics above.
* The specifications.  There was no copy of the PCI specifications or of the PCI ID
  database at hand.  Field positions and codes in `Verif/Spec` were written from the
  register layouts documented in the repository and from general knowledge of the
  PCI specifications, with the code in view; where code and specification agree, that
  is not independent evidence that the layout is the one of the standard.
  In particular the class code table of C66 is generated from the arms of the code:
  C66 is about the selection logic only, the names are unchecked.

Not modelled: `Debug`, derived `Clone`.  Derived `PartialEq` is structural equality of the model's
values where no field has a hand-written `PartialEq`; where one has, it is modelled in
`Verif/Model/Equality.lean` (header, extended capabilities).

## Conformance examples (tests, not proofs)

The repository is not built here, so the model cannot be run against it.  Instead every unit test
and documentation example of the repository that decodes literal bytes or one of its sample dumps is
restated about the model in `lean/Verif/Tests` and evaluated by the kernel: 64 were translated by a
script that parses the Rust literals (`Capabilities.lean`, `ExtendedCapabilities.lean`,
`Header.lean`), the irregular ones by hand (`Manual.lean`), both with the source lines they restate.
`Dumps.lean` holds the dumps (8086:9dc8, 8086:2030, the first bytes of `tests/data/random/4k`).
All agree with the model.  No property counts these as evidence; they only support the claim that
the model is the code.

## Plan per property

| Property | What is modelled | How proved |
|---|---|---|
| C01-C04 | `Header` parser, all layouts | generic "reads n bytes" lemma for the parser monad gives exact success condition and absolute offsets |
| C05-C09 | register decoders and encoders | bit reader normalises to absolute positions; round trips by `toNat` arithmetic |
| C10 | CardBus I/O window encode/decode | negation with witness (capability nibble lost, panic), `_partial` for 16-bit windows |
| C11 | `try_set_optional_registers` | parser lemma |
| C12-C15 | `BaseAddresses<N>` iterator and collection | refinement of the stateful iterator to a recursive spec on slots; induction on N - region; C15 negation + partial |
| C16-C23 | `Capabilities` iterator | refinement to spec chain; induction on k; C18 negation by cyclic and dangling witnesses, `_partial` for decreasing/zero reaching chains |
| C24-C29 | `ExtendedCapabilities` iterator | same; C26, C27 negations + partial |
| C30-C41 | capability decoders | parser lemma + bit positions |
| C42-C57, C59-C65 | extended capability decoders, table iterators | parser lemma, induction for iterators, negations where the code violates the claim |
| C58 | `PartialEq` of `BaseAddresses` | refinement of the iterator (C12) |
| C66 | `ClassCode::meaning` as ordered arms | arms = flattened nested table, first match over a flattening = nested lookup by induction |
| C67 | hand-written `PartialEq` of seven iterators | `Iterator::eq` = equality of all items, by a decreasing measure; two negations, `_partial` for byte boundaries |
| C68, C69 | errors of both walks | case analysis over the dispatch tables of C21 and C28; C69 negations for three ids |
| C70 | accessors of public wrapper types | exact condition of overflow, by arithmetic or over all 256 codes |
| C71-C73 | `f32`/`f64` numbers as rounded rationals | relative error bound of one rounding, twice; negations for alternative encodings and range C |
| C75 | collecting base addresses and iterating again | registers for a fitting list are constructed by induction on the slots; converse from C15 |
| C98 | content of every register after collecting any list of base addresses | the fold is rewritten to a list of writes, induction on it; added because a mutant of the clamping violated no statement |
| C99 | `link_freq_0`, `link_freq_1`, `link_freq`, `LinkFrequency::new`, `BaseAddresses::orig` | inversion of `Hypertransport_bytes` over the block types; all 512 arguments of `new` by kernel evaluation; `orig` by induction over calls from `bar_next` |
| C76 | every bit-field decoder (`X_reads`, one theorem per register type beside its `X_layout`) | layouts reduce equality of decoded values to bit equalities (`Lemmas/Reads.lean`); each enumeration is shown injective on its codes by a finite table; the lossy PCI-X error phase is characterised exactly |
| C77 | `decodeKind`, `Capabilities.next` (sizes of structures in `Spec/Frame.lean`) | pairs of regions related by `agree n`; each decoder's specification is rewritten from the reads of one region to those of the other; lifted along `CapChain`; the two violations are refuted |
| C78 | `decodeKind`, `ExtendedCapabilities.next` (sizes in `Spec/ExtendedFrame.lean`) | as C77; kinds that keep the rest of the space (VC, ACS, Secondary PCIe, MFVC, invalid ST tables) are compared up to the kept bytes, which agree as far as the data do |
| C79 | `display` of every error type (`Model/Display.lean`) | place: from C68/C69 and the digits of a number; injectivity: cut at the first non-digit, compare the rest character by character; a data error differs from all others in its last three characters |
| C80 | as C79, with the decoders | from the exact outcome of each decoder; five texts are refuted, with the enforced limit in `_partial` theorems |
| C81 | `decodeKind`, `ExtendedCapability.id` | from the dispatch table of C28; refuted for 0x2d-0x34 |
| C82 | `Dump.ofBytes` (README usage, lib.rs constants) | chains restated in dump addresses, transported to the slices |
| C83 | same | refuted by a dump; exact condition for an empty walk from C04 |
| C84 | `Capabilities.next`, `ExtendedCapabilities.next` | refuted by regions; masked chains equal chains when the bits are zero, by induction |
| C85 | `LinkSpeed.cmp`, `LinkWidth.cmp` (derived orders) | order preserving numbering, then arithmetic |
| C86 | `step` of every inner iterator (Model/Iter.lean: `next` with the state left by `None`; `X.step_next` in Lemmas/Step.lean relates both), `next` of the outer ones | one-step invariance of the exhausted state, then induction over calls |
| C87 | as C86 | decreasing measure, for the tables the number of entries left in a byte |
| C88 | bridge and CardBus window decoders (header.rs:491-573, 606-660) against the block comparison of the bridge architecture | window addresses as numbers, then arithmetic; refuted, the limit is the start of the last block |
| C89 | every encoder of the crate (`toU8`, `toU16`, `toU32`, `toBytes`, `toDwords` definitions) after hand-made values, followed by its decoder | bit by bit; what comes back exactly, then the values that are restored; refuted, fields are or-ed without being cut |
| C90 | the `usize` computations of `Verif/Model/Width.lean`, for a `usize` of `w` bits | arithmetic with `w` left free; refuted for `MaxLatency::value` below 35 bits |
| C91 | the walks with the texts of `Verif/Model/Display.lean` | the table of texts in `Verif/Spec/Texts.lean` compared with the exact outcome of each decoder, then of each walk step, by cases on id and length |
| C92 | both walks | from C91: a decoder that does not panic succeeds exactly when nothing is said, and the table of texts is monotone in the bytes; then by induction along the chain |
| C93 | both walks with the checked accessors (C70) | what a successful item comes from (inversion of the dispatch), then the range of each decoded code; tables: the entry size is an invariant of stepping.  Which tables and lanes can not be had at all is C43 and C55 |
| C94 | both walks | the state after a call is determined by the pointer (offset); an endless walk stays in 192 (3840) of them: pigeonhole, then induction on the number of calls |
| C95 | derived `PartialEq` of `Header` and its parts, with the hand-written one of `BaseAddresses` | each decoded field compared with the bits it comes from (C04-C09, C12); what a comparison of BARs takes into account slot by slot |
| C96 | derived `PartialEq` of capabilities and extended capabilities | from C77/C78 and C67; refuted for kinds that keep what follows the structure; link declarations compared byte by byte |
| C97 | `step` of every inner iterator (as C86), `BaseAddresses.next` | the items of each table (C12, C40, C43, C44, C46, C47, C50, C53, C55, C62) and fusedness (C86), then by induction over calls |
| C74 | `Default` impls | evaluation of the decoders at zero; for MSI an equivalence over all slices |

## Findings

Claims that are false of the unchanged code, each with a theorem giving the witness:

* Capability walk: a dangling or cyclic next pointer makes it endless (C18). The
  extended walk likewise for cyclic offsets (C26).
* Thirteen extended capability ids are decoded from the start of the extended space
  instead of their own offset (C27); ids 0x2D-0x34 come out as Reserved although
  variants for them exist (C28 states the dispatch as it is).
* CardBus I/O windows: 32-bit windows do not round trip, encoding can panic (C10).
* BAR collection into fewer registers can panic, reserved encodings are lost (C15).
* Flattening Portal Bridge: `wrapping_shl` wraps for large granularities (C41).
* AER: TLP prefix log is read at 92 instead of 52 (C42).
* VC: arbitration table accessors panic at offset 0 or out of bounds (C43).
* ACS: egress vector size read with 7 bits, only size/32 dwords yielded (C47).
* LTR: encoder and decoder disagree on the scale position; Readiness Time panics (C48).
* Secondary PCIe: lane iterators panic on short data (C55).
* Power budgeting: Thermal decoded at code 3 instead of 7 (C60).
* DPA: the error names one entry too few (C61).
* Port Arbitration Table comparison omits the current byte; Link Entries comparison
  ignores the public `state` (C67).
* Virtual Channel and Multicast errors name another size than the one needed; that of
  Latency Tolerance Reporting counts the header, unlike the data handed to its decoder
  (C69).
* Slot power limit: the encodings F0h-F2h (250, 275, 300 W) come out as 240-242 W, and
  9 x 0.1 W is not the `f32` 0.9 (C71).
* Completion timeout range C starts at 250 us instead of 250 ms (C72).
* Power budgeting: base powers from F0h on are taken for the intervals above 239 W with
  any scale (C73).
* PCI-X ECC control and status: the reserved error phases 6 and 7 are one value (C76).
* AGP: bytes following a structure of a revision before 3 are taken for revision 3
  registers; PCI Express: a complete version 1 structure without slot registers at the
  end of the region is rejected (C77).
* AER: bytes following a structure without root port registers are taken for these;
  Multicast: bytes following an endpoint's structure are taken for an overlay BAR (C78).
* Error texts state other limits than the code enforces: pointer 0x40, vendor specific length 2, one
  link entry, second DW of an Enhanced Allocation bridge, Substate_Max (C80).
* The ids 0x2d (Shadow Functions) to 0x34 (Flit Error Injection) have variants, but are decoded as
  Reserved (C81).
* The limit of a decoded bridge window is the first address of the last 4 KiB, 1 MiB (CardBus:
  4 bytes) block forwarded, not the last address (C88).
* Encoders do not cut too wide fields of hand-made values: `ExpansionRom { reserved: 0x400, .. }` moves the
  ROM, `VcResourceControl { vc_id: 0x80, .. }` enables the channel, a `LinkAddress` function number 8 is
  device 1, and the address bits of an unaligned ROM enable it (C89).
* `MaxLatency::value` loses the upper bits of latencies from 2^32 ns on where `usize` has 32 bits (C90).
* Enhanced Allocation, Multi-Function Virtual Channel and Access Control Services values keep all bytes
  that follow the structure, and compare them: the same structure before different bytes compares unequal (C96).
* The Capabilities List bit of the status register is not consulted: with the bit clear the pointer
  register is followed all the same (C83).
* The reserved low bits of next pointers and next offsets are not masked (C84), those of the first
  pointer are.
* Arbitration tables made by hand with an entry size that does not divide 8 read each byte several times and
  cut entries at the top of the byte: size 3 yields eight entries of every byte (C97, `readings`).
* `LinkFrequency::new` of a hand-made frequency of 16 or more gives `Reserved` with a code that need not be a
  reserved one: `new(false, 0x11)` is `Reserved(1)` (C99, `LinkFrequency.ofAny`).
* `CxlRangeBase` keeps the reserved bits 27:0 of its low register (C76).
* PCI-X `MaximumCumulativeReadSize::bytes` returns KB (C36, `pcix_cumulative_bytes_in_kb`).

## Mutation testing

`seeded/LOG.jsonl` has one line per wrong program tried: the model definition edited, the edit, the claim
it breaks, the theorems that no longer prove, and the theorems tightened because of it.

A theorem that no longer proves may only show that its proof script is brittle.  So the statements
themselves were also checked: with the proofs taken out, each property statement of the affected files
was evaluated on sampled arguments, on the edited model and on the unedited one.  A statement that
came out false on the edited model only is listed under `statement_false`.  Limits of this check:

* it is sampling, it can miss a false statement, never prove a true one;
* a `∀ k` inside a statement is tried up to 40 only;
* some statements (long headers, class codes, defaults, texts) were instantiated by hand instead.

Edits for which no statement came out false were looked at one by one.  They are either equivalent
programs (the note says why; these reasons are by inspection, not proved), or they led to a new
theorem: `bar_collect_registers` (C98), the `_calls` and `_calls_any` theorems (C97) and `MaxLatency_encoded` (C48).
Lines with `statement_check` were not evaluated: there only the failure of the proof is known.
Lines with an empty `failed` and the note "statements evaluated only" are the opposite: a statement came
out false on the edited model, but the proofs were not rebuilt.  Where the note says that no statement
was evaluated false, only a failing proof was seen, sometimes that of a helper lemma.  A further campaign was
stopped at 301 of 440 random edits: 191 falsified a statement, 83 did not compile (not logged), 27 did
neither.  Of these 27 one led to `multiplier_f64` and `completion_timeout_f64_partial` (C72, C73), one to the
`_calls_any` theorems (C97).
