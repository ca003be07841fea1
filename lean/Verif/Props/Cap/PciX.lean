import Verif.Lemmas.Reads
import Verif.Spec.Cap.PciX
import Verif.Lemmas.Tactics
import Verif.Lemmas.Bv
/- Properties of src/capabilities/pci_x.rs -/

namespace Pcics.PciX
open Spec

/-- C36: the `8` codes of `EccErrorPhase` decode without panic, to their meanings. -/
theorem EccErrorPhase_total {ε : Type} (n : Nat) :
    (EccErrorPhase.ofU8 (BitVec.ofNat 8 (n % 8)) : Res ε EccErrorPhase) =
      .ok (EccErrorPhase.spec (BitVec.ofNat 8 (n % 8))) := by
  have h : n % 8 < 8 := Nat.mod_lt _ (by decide)
  generalize n % 8 = m at h
  interval_cases m <;> rfl

/-- C36: the `16` codes of `SecondaryBusMode` decode without panic, to their meanings. -/
theorem SecondaryBusMode_total {ε : Type} (n : Nat) :
    (SecondaryBusMode.ofU8 (BitVec.ofNat 8 (n % 16)) : Res ε SecondaryBusMode) =
      .ok (SecondaryBusMode.spec (BitVec.ofNat 8 (n % 16))) := by
  have h : n % 16 < 16 := Nat.mod_lt _ (by decide)
  generalize n % 16 = m at h
  interval_cases m <;> rfl

/-- C36: the `16` codes of `ErrorProtection` decode without panic, to their meanings. -/
theorem ErrorProtection_total {ε : Type} (n : Nat) :
    (ErrorProtection.ofU8 (BitVec.ofNat 8 (n % 16)) : Res ε ErrorProtection) =
      .ok (ErrorProtection.spec (BitVec.ofNat 8 (n % 16))) := by
  have h : n % 16 < 16 := Nat.mod_lt _ (by decide)
  generalize n % 16 = m at h
  interval_cases m <;> rfl

/-- C36: the `16` codes of `SecondaryBusFrequency` decode without panic, to their meanings. -/
theorem SecondaryBusFrequency_total {ε : Type} (n : Nat) :
    (SecondaryBusFrequency.ofU8 (BitVec.ofNat 8 (n % 16)) : Res ε SecondaryBusFrequency) =
      .ok (SecondaryBusFrequency.spec (BitVec.ofNat 8 (n % 16))) := by
  have h : n % 16 < 16 := Nat.mod_lt _ (by decide)
  generalize n % 16 = m at h
  interval_cases m <;> rfl

/-- C36: every field of `Command` is at its bit position. -/
theorem Command_layout (w : U16) :
    Command.ofU16 w = Command.spec w := by
  bits_simp [Command.ofU16, Command.spec]

/-- C36: both values of `DeviceComplexity`. -/
theorem DeviceComplexity_values (b : Bool) : DeviceComplexity.ofBOOL b = DeviceComplexity.spec b := by
  cases b <;> rfl

/-- C36: every field of `Status` is at its bit position. -/
theorem Status_layout (w : U32) :
    Status.ofU32 w = Status.spec w := by
  bits_simp [Status.ofU32, Status.spec, DeviceComplexity_values]

/-- C36: every field of `Syndrome` is at its bit position. -/
theorem Syndrome_layout (w : U8) :
    Syndrome.ofU8 w = Syndrome.spec w := by
  bits_simp [Syndrome.ofU8, Syndrome.spec]

/-- C36: every field of `EccControlAndStatus` is at its bit position. -/
theorem EccControlAndStatus_layout {ε : Type} (w : U32) :
    (EccControlAndStatus.ofU32 w : Res ε EccControlAndStatus) = .ok (EccControlAndStatus.spec w) := by
  bits_simp [EccControlAndStatus.ofU32, EccControlAndStatus.spec, EccErrorPhase_total, Syndrome_layout]

/-- C36: every field of `SecondaryStatus` is at its bit position. -/
theorem SecondaryStatus_layout {ε : Type} (w : U16) :
    (SecondaryStatus.ofU16 w : Res ε SecondaryStatus) = .ok (SecondaryStatus.spec w) := by
  bits_simp [SecondaryStatus.ofU16, SecondaryStatus.spec, ErrorProtection_total,
    SecondaryBusFrequency_total, SecondaryBusMode_total]

/-- C36: every field of `BridgeStatus` is at its bit position. -/
theorem BridgeStatus_layout (w : U32) :
    BridgeStatus.ofU32 w = BridgeStatus.spec w := by
  bits_simp [BridgeStatus.ofU32, BridgeStatus.spec]

private theorem version_eq (w : U16) :
    (runBits w (do skip 12; let version ← bits 2; return version) : U8) = fld w 12 2 := by
  bits_simp []

private theorem ecc_eq {ε : Type} (e1 e2 : ε) (w : U16) (d : Bytes) (o : Nat) (ho : o ≤ d.length) :
    eccRegisters e1 e2 w (d.drop o) =
      if fld w 12 2 = (1 : U8) ∧ d.length < o + 16 then .err e1
      else if fld w 12 2 = (2 : U8) ∧ d.length < o + 16 then .err e2
      else .ok (Ecc.spec (fld w 12 2) d o) := by
  unfold eccRegisters eccDwords
  rw [version_eq]
  have hv : (fld w 12 2 : U8).toNat < 4 := by
    simp only [fld, BitVec.toNat_setWidth, BitVec.extractLsb'_toNat]; omega
  have hb : (fld w 12 2 : U8) = BitVec.ofNat 8 (fld w 12 2 : U8).toNat := by simp
  generalize (fld w 12 2 : U8).toNat = n at hv hb
  simp only [hb]
  have hlen : ∀ k, o + k ≤ d.length ↔ ¬ d.length < o + k := fun k => by omega
  by_cases h : d.length < o + 16
  · interval_cases n
    · simp [Ecc.spec, pick]
    · bytes_len []; simp [h]
    · bytes_len []; simp [h]
    · simp [Ecc.spec, pick]
  · interval_cases n
    · simp [Ecc.spec, pick]
    · bytes_len [EccControlAndStatus_layout]; simp [h, Ecc.spec, pick]
    · bytes_len [EccControlAndStatus_layout]; simp [h, Ecc.spec, pick]
    · simp [Ecc.spec, pick]

/-- C36: type 0 item: command and status from 6 bytes; the ECC registers exactly for versions 1 and
2, which then need 16 more bytes; never a panic. -/
theorem PciX_bytes (d : Bytes) :
    PciX.ofBytes d =
      if d.length < 6 then .err .CommandAndStatus
      else if fld (rd16 d 0) 12 2 = (1 : U8) ∧ d.length < 22 then .err .EccMode2Only
      else if fld (rd16 d 0) 12 2 = (2 : U8) ∧ d.length < 22 then .err .EccMode1OrMode2
      else .ok (PciX.spec d) := by
  unfold PciX.ofBytes
  by_cases h : d.length < 6
  · bytes_len []
  · bytes_len [ecc_eq, Command_layout, Status_layout]
    split
    · rfl
    · split <;> rfl

/-- C36: bridge item: statuses and split transaction controls from 14 bytes; the ECC registers exactly
for versions 1 and 2, which then need 16 more bytes; never a panic. -/
theorem PciXBridge_bytes (d : Bytes) :
    PciXBridge.ofBytes d =
      if d.length < 14 then .err .Mandatory
      else if fld (rd16 d 0) 12 2 = (1 : U8) ∧ d.length < 30 then .err .BridgeEccMode2Only
      else if fld (rd16 d 0) 12 2 = (2 : U8) ∧ d.length < 30 then .err .BridgeEccMode1OrMode2
      else .ok (PciXBridge.spec d) := by
  unfold PciXBridge.ofBytes
  by_cases h : d.length < 14
  · bytes_len []
  · bytes_len [ecc_eq, SecondaryStatus_layout, BridgeStatus_layout]
    split
    · rfl
    · split <;> rfl

/-- C36: byte counts, split transaction counts and cumulative sizes of a decoded status register
never panic and have their architected values. -/
theorem pcix_values (w : U32) :
    let s := Status.ofU32 w
    s.designed_maximum_memory_read_byte_count.value = .ok (512 * 2 ^ (fld w 21 2 : U8).toNat)
    ∧ s.designed_maximum_outstanding_split_transactions.value =
        .ok (splitTransactions (fld w 23 3))
    ∧ s.designed_maximum_cumulative_read_size.adqs = .ok (8 * 2 ^ (fld w 26 3 : U8).toNat) := by
  simp only [Status_layout, Status.spec, MaximumByteCount.value,
    MaximumOutstandingSplitTransactions.value, MaximumCumulativeReadSize.adqs]
  have h1 : (fld w 21 2 : U8).toNat < 4 := by
    simp only [fld, BitVec.toNat_setWidth, BitVec.extractLsb'_toNat]; omega
  have h2 : (fld w 23 3 : U8).toNat < 8 := by
    simp only [fld, BitVec.toNat_setWidth, BitVec.extractLsb'_toNat]; omega
  have h3 : (fld w 26 3 : U8).toNat < 8 := by
    simp only [fld, BitVec.toNat_setWidth, BitVec.extractLsb'_toNat]; omega
  refine ⟨?_, ?_, ?_⟩
  · generalize (fld w 21 2 : U8).toNat = n at h1
    interval_cases n <;> rfl
  · have hb : (fld w 23 3 : U8) = BitVec.ofNat 8 (fld w 23 3 : U8).toNat := by simp
    generalize (fld w 23 3 : U8).toNat = n at h2 hb
    rw [hb]
    interval_cases n <;> rfl
  · generalize (fld w 26 3 : U8).toNat = n at h3
    interval_cases n <;> rfl

/-- C36: and of a decoded command register. -/
theorem pcix_command_values (w : U16) :
    let c := Command.ofU16 w
    c.maximum_memory_read_byte_count.value = .ok (512 * 2 ^ (fld w 2 2 : U8).toNat)
    ∧ c.maximum_outstanding_split_transactions.value = .ok (splitTransactions (fld w 4 3)) := by
  simp only [Command_layout, Command.spec, MaximumByteCount.value,
    MaximumOutstandingSplitTransactions.value]
  have h1 : (fld w 2 2 : U8).toNat < 4 := by
    simp only [fld, BitVec.toNat_setWidth, BitVec.extractLsb'_toNat]; omega
  have h2 : (fld w 4 3 : U8).toNat < 8 := by
    simp only [fld, BitVec.toNat_setWidth, BitVec.extractLsb'_toNat]; omega
  refine ⟨?_, ?_⟩
  · generalize (fld w 2 2 : U8).toNat = n at h1
    interval_cases n <;> rfl
  · have hb : (fld w 4 3 : U8) = BitVec.ofNat 8 (fld w 4 3 : U8).toNat := by simp
    generalize (fld w 4 3 : U8).toNat = n at h2 hb
    rw [hb]
    interval_cases n <;> rfl

/-- C36: the cumulative read size in bytes is 1 KB (128 bytes per ADQ) per 8 ADQs in the PCI-X
specification, but `bytes` returns the bare power of two: 1 where 1024 is meant. -/
theorem pcix_cumulative_bytes_in_kb (w : U32) :
    let s := (Status.ofU32 w).designed_maximum_cumulative_read_size
    ∃ n, s.adqs = .ok (8 * n) ∧ s.bytes = .ok n := by
  refine ⟨2 ^ (fld w 26 3 : U8).toNat, (pcix_values w).2.2, ?_⟩
  simp only [Status_layout, Status.spec, MaximumCumulativeReadSize.bytes]
  have h3 : (fld w 26 3 : U8).toNat < 8 := by
    simp only [fld, BitVec.toNat_setWidth, BitVec.extractLsb'_toNat]; omega
  generalize (fld w 26 3 : U8).toNat = n at h3
  interval_cases n <;> rfl

/-- C36, C56: the bus mode and frequency field of a decoded secondary status register is re-encoded
unchanged, without panic. -/
theorem pcix_mode_and_frequency {ε : Type} (w : U16) (s : SecondaryStatus)
    (hs : (SecondaryStatus.ofU16 w : Res ε SecondaryStatus) = .ok s) :
    s.secondary_bus_mode_and_frequency = .ok (fld w 6 4) := by
  rw [SecondaryStatus_layout] at hs
  cases hs
  simp only [SecondaryStatus.spec, SecondaryStatus.secondary_bus_mode_and_frequency]
  have h : (fld w 6 4 : U8).toNat < 16 := by
    simp only [fld, BitVec.toNat_setWidth, BitVec.extractLsb'_toNat]; omega
  have hb : (fld w 6 4 : U8) = BitVec.ofNat 8 (fld w 6 4 : U8).toNat := by simp
  generalize (fld w 6 4 : U8).toNat = n at h hb
  rw [hb]
  interval_cases n <;> rfl

example : ∃ p, PciX.ofBytes [0x53, 0x10, 0x08, 0x02, 0x43, 0x01, 0, 0, 0, 0x80, 1, 0, 0, 0, 2, 0, 0, 0,
    3, 0, 0, 0] = .ok p ∧ p.ecc ≠ .None := ⟨_, rfl, by decide +kernel⟩

/-! ### C76 -/

theorem DeviceComplexity_bit (x y : Bool) : DeviceComplexity.spec x = DeviceComplexity.spec y ↔ x = y := by
  revert x y; decide

/-- C76: `Command` registers decode to the same value exactly when they agree in bits 0-6. -/
theorem Command_reads (a b : U16) :
    Command.ofU16 a = Command.ofU16 b ↔
      a &&& 0x007f#16 = b &&& 0x007f#16 := by
  reads [Command_layout, Command.spec, Command.mk.injEq, MaximumByteCount.mk.injEq,
    MaximumOutstandingSplitTransactions.mk.injEq]

/-- C76: `Status` registers decode to the same value only if they are equal. -/
theorem Status_reads (a b : U32) :
    Status.ofU32 a = Status.ofU32 b ↔
      a = b := by
  rw [eq_iff_bits a b]
  reads [Status_layout, Status.spec, Status.mk.injEq, DeviceComplexity_bit,
    MaximumByteCount.mk.injEq, MaximumOutstandingSplitTransactions.mk.injEq,
    MaximumCumulativeReadSize.mk.injEq]

/-- C76: `Syndrome` registers decode to the same value only if they are equal. -/
theorem Syndrome_reads (a b : U8) :
    Syndrome.ofU8 a = Syndrome.ofU8 b ↔
      a = b := by
  rw [eq_iff_bits a b]
  reads [Syndrome_layout, Syndrome.spec, Syndrome.mk.injEq]

/-- C76: `BridgeStatus` registers decode to the same value exactly when they agree in bits 0-21,
29-31. -/
theorem BridgeStatus_reads (a b : U32) :
    BridgeStatus.ofU32 a = BridgeStatus.ofU32 b ↔
      a &&& 0xe03fffff#32 = b &&& 0xe03fffff#32 := by
  reads [BridgeStatus_layout, BridgeStatus.spec, BridgeStatus.mk.injEq]

theorem SecondaryStatus_codes (x y : BitVec 4) :
    SecondaryBusMode.spec (x.setWidth 8) = SecondaryBusMode.spec (y.setWidth 8) ∧
      ErrorProtection.spec (x.setWidth 8) = ErrorProtection.spec (y.setWidth 8) ∧
      SecondaryBusFrequency.spec (x.setWidth 8) = SecondaryBusFrequency.spec (y.setWidth 8) ↔
    x = y := by
  revert x y; decide +kernel

theorem EccErrorPhase_codes (x y : BitVec 3) :
    EccErrorPhase.spec (x.setWidth 8) = EccErrorPhase.spec (y.setWidth 8) ↔
      x &&& 6 = y &&& 6 ∧ (y &&& 6 = 6 ∨ x &&& 1 = y &&& 1) := by
  revert x y; decide +kernel

/-- C76: `SecondaryStatus` registers decode to the same value exactly when they agree in bits
0-9 and 14-15: mode, error protection and frequency together determine their common code. -/
theorem SecondaryStatus_reads {ε : Type} (a b : U16) :
    (SecondaryStatus.ofU16 a : Res ε SecondaryStatus) = SecondaryStatus.ofU16 b ↔
      a &&& 0xc3ff#16 = b &&& 0xc3ff#16 := by
  have h := SecondaryStatus_codes (a.extractLsb' 6 4) (b.extractLsb' 6 4)
  rw [extract_eq_iff] at h
  simp only [← fld_code] at h
  have e : (SecondaryStatus.spec a = SecondaryStatus.spec b) ↔
      (SecondaryBusMode.spec (fld a 6 4) = SecondaryBusMode.spec (fld b 6 4) ∧
        ErrorProtection.spec (fld a 6 4) = ErrorProtection.spec (fld b 6 4) ∧
        SecondaryBusFrequency.spec (fld a 6 4) = SecondaryBusFrequency.spec (fld b 6 4)) ∧
      ∀ k ∈ [0, 1, 2, 3, 4, 5, 14, 15], flag a k = flag b k := by
    simp only [SecondaryStatus.spec, SecondaryStatus.mk.injEq, List.forall_mem_cons,
      List.not_mem_nil, false_imp_iff, implies_true, and_true]
    simp only [and_assoc, and_comm, and_left_comm]
  rw [SecondaryStatus_layout, SecondaryStatus_layout, Res.ok.injEq, e, h]
  simp only [List.forall_mem_cons, List.not_mem_nil, false_imp_iff, implies_true, and_true]
  reads [all_lt_zero]

/-- C76 (the code violates it): `EccControlAndStatus` registers decode to the same value exactly
when they agree in every bit but 29 and 4 and, unless bits 5 and 6 are both set, in bit 4: the
two reserved ECC error phases 6 and 7 are not told apart. -/
theorem EccControlAndStatus_reads_partial {ε : Type} (a b : U32) :
    (EccControlAndStatus.ofU32 a : Res ε EccControlAndStatus) = EccControlAndStatus.ofU32 b ↔
      a &&& 0xdfffffef#32 = b &&& 0xdfffffef#32 ∧
        (b &&& 0x60#32 = 0x60#32 ∨ a &&& 0x10#32 = b &&& 0x10#32) := by
  have h := EccErrorPhase_codes (a.extractLsb' 4 3) (b.extractLsb' 4 3)
  simp only [← fld_code] at h
  reads [EccControlAndStatus_layout, EccControlAndStatus.spec, EccControlAndStatus.mk.injEq,
    Syndrome.spec, Syndrome.mk.injEq, h, mask_const_iff, BitVec.getLsbD_extractLsb',
    BitVec.ofNat_eq_ofNat]

/-- C76 (the code violates it): two ECC control and status registers that differ in a defined bit
and decode to the same value. -/
theorem EccControlAndStatus_loses :
    ∃ a b : U32, (fld a 4 3 : U8) ≠ fld b 4 3 ∧
      (EccControlAndStatus.ofU32 a : Res Empty EccControlAndStatus) =
        EccControlAndStatus.ofU32 b :=
  ⟨0x60, 0x70, by decide, (EccControlAndStatus_reads_partial _ _).2 (by decide)⟩

/-- The registers `0x0c00` and `0x0400` differ only in a reserved bit; `0x0040` and `0x0080` do not. -/
example : (SecondaryStatus.ofU16 0x0c00 : Res Empty _) = SecondaryStatus.ofU16 0x0400 ∧
    (SecondaryStatus.ofU16 0x0040 : Res Empty _) ≠ SecondaryStatus.ofU16 0x0080 :=
  ⟨(SecondaryStatus_reads _ _).2 (by decide), fun h => absurd ((SecondaryStatus_reads _ _).1 h) (by decide)⟩

/-- A reserved bit makes no difference to `Command`, a defined one does. -/
example : Command.ofU16 0xcb91 = Command.ofU16 0x4b91 ∧
    Command.ofU16 0xcb91 ≠ Command.ofU16 0xcb99 :=
  ⟨(Command_reads _ _).2 (by decide), fun h => absurd ((Command_reads _ _).1 h) (by decide)⟩

end Pcics.PciX
