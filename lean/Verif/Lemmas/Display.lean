import Verif.Spec.Display
import Mathlib.Tactic.IntervalCases
/- Lemmas about the digits of numbers in texts -/

namespace Pcics
open Spec

theorem digitChar_mem (d : Nat) (h : d < 16) : d.digitChar ∈ digits := by
  interval_cases d <;> decide

theorem digitChar_idx (d : Nat) (h : d < 16) : digits.idxOf d.digitChar = d := by
  interval_cases d <;> decide

theorem toDigits_mem (b n : Nat) (hb : 1 < b) (h16 : b ≤ 16) :
    ∀ c ∈ Nat.toDigits b n, c ∈ digits := by
  induction n using Nat.strongRecOn with
  | _ n ih =>
    by_cases h : n < b
    · rw [Nat.toDigits_of_lt_base h]
      intro c hc
      rw [List.mem_singleton] at hc
      subst hc
      exact digitChar_mem n (by omega)
    · rw [Nat.toDigits_of_base_le hb (by omega)]
      intro c hc
      rcases List.mem_append.1 hc with hc | hc
      · exact ih (n / b) (Nat.div_lt_self (by omega) hb) c hc
      · rw [List.mem_singleton] at hc
        subst hc
        exact digitChar_mem _ (lt_of_lt_of_le (Nat.mod_lt _ (by omega)) h16)

theorem value_toDigits (b n : Nat) (hb : 1 < b) (h16 : b ≤ 16) :
    value b (Nat.toDigits b n) = n := by
  induction n using Nat.strongRecOn with
  | _ n ih =>
    by_cases h : n < b
    · rw [Nat.toDigits_of_lt_base h]
      simp [value, digitChar_idx n (by omega)]
    · rw [Nat.toDigits_of_base_le hb (by omega), value, List.foldl_append]
      have := ih (n / b) (Nat.div_lt_self (by omega) hb)
      rw [value] at this
      rw [this]
      simp only [List.foldl_cons, List.foldl_nil]
      rw [digitChar_idx _ (lt_of_lt_of_le (Nat.mod_lt _ (by omega)) h16)]
      exact Nat.div_add_mod n b

theorem value_zeros (b k : Nat) (cs : List Char) :
    value b (List.replicate k '0' ++ cs) = value b cs := by
  induction k with
  | zero => simp
  | succ k ih =>
    rw [List.replicate_succ, List.cons_append, value, List.foldl_cons]
    exact ih

theorem fmtHex_value (w n : Nat) : value 16 (fmtHex w n).toList = n := by
  simp only [fmtHex, String.toList_ofList, value_zeros]
  exact value_toDigits 16 n (by omega) (by omega)

theorem fmtHex_mem (w n : Nat) : ∀ c ∈ (fmtHex w n).toList, c ∈ digits := by
  simp only [fmtHex, String.toList_ofList]
  intro c hc
  rcases List.mem_append.1 hc with hc | hc
  · rw [List.mem_replicate] at hc
    rw [hc.2]; decide
  · exact toDigits_mem 16 n (by omega) (by omega) c hc

theorem fmtHex_length (w n : Nat) (hw : 0 < w) (h : n < 16 ^ w) : (fmtHex w n).toList.length = w := by
  have := (Nat.length_toDigits_le_iff (b := 16) (n := n) (by omega) hw).2 h
  simp only [fmtHex, String.toList_ofList, List.length_append, List.length_replicate]
  omega

theorem fmtHex_inj (w n m : Nat) (h : (fmtHex w n).toList = (fmtHex w m).toList) : n = m := by
  rw [← fmtHex_value w n, h, fmtHex_value]

theorem fmtDec_value (n : Nat) : value 10 (fmtDec n).toList = n := by
  simp only [fmtDec, String.toList_ofList]
  exact value_toDigits 10 n (by omega) (by omega)

theorem fmtDec_mem (n : Nat) : ∀ c ∈ (fmtDec n).toList, c ∈ digits := by
  simp only [fmtDec, String.toList_ofList]
  exact toDigits_mem 10 n (by omega) (by omega)

theorem fmtDec_inj (n m : Nat) (h : (fmtDec n).toList = (fmtDec m).toList) : n = m := by
  rw [← fmtDec_value n, h, fmtDec_value]

theorem fmtDec_ne_nil (n : Nat) : (fmtDec n).toList ≠ [] := by
  simp only [fmtDec, String.toList_ofList]
  exact Nat.toDigits_ne_nil

/-- Digits up to the first other character are determined by the text. -/
theorem digits_split {P : Char → Prop} {a b : List Char} {x y : Char} {r s : List Char}
    (ha : ∀ c ∈ a, P c) (hb : ∀ c ∈ b, P c) (hx : ¬ P x) (hy : ¬ P y)
    (h : a ++ x :: r = b ++ y :: s) : a = b ∧ x = y ∧ r = s := by
  induction a generalizing b with
  | nil =>
    cases b with
    | nil => simpa using h
    | cons c b =>
      simp only [List.nil_append, List.cons_append, List.cons.injEq] at h
      exact absurd (h.1 ▸ hb c (by simp)) hx
  | cons d a ih =>
    cases b with
    | nil =>
      simp only [List.nil_append, List.cons_append, List.cons.injEq] at h
      exact absurd (h.1 ▸ ha d (by simp)) hy
    | cons c b =>
      simp only [List.cons_append, List.cons.injEq] at h
      obtain ⟨h1, h2, h3⟩ := ih (fun c hc => ha c (by simp [hc])) (fun c hc => hb c (by simp [hc])) h.2
      exact ⟨by rw [h.1, h1], h2, h3⟩

end Pcics

namespace Pcics
open Spec

theorem fmtDec_last (n : Nat) : ∃ l c, (fmtDec n).toList = l ++ [c] ∧ c ∈ digits := by
  refine ⟨_, _, (List.dropLast_concat_getLast (fmtDec_ne_nil n)).symm, ?_⟩
  exact fmtDec_mem n _ (List.getLast_mem _)

/-- Compares texts character by character. -/
macro "texts" f:ident "at" h:ident : tactic =>
  `(tactic| (delta $f:ident at $h:ident; dsimp only at $h:ident
             simp only [String.toList_append, String.reduceToList, List.append_assoc,
              List.cons_append, List.nil_append, List.cons.injEq, List.nil_eq, List.append_eq_nil_iff,
              Char.reduceEq, true_and, false_and, and_false, and_true, reduceCtorEq] at $h:ident))

theorem CapabilityDataError.display_inj (e e' : CapabilityDataError)
    (h : e.display.toList = e'.display.toList) : e = e' := by
  obtain ⟨name, size⟩ := e
  obtain ⟨name', size'⟩ := e'
  have h := congrArg List.reverse h
  simp [CapabilityDataError.display] at h
  obtain ⟨h1, _, h3⟩ := digits_split (P := (· ∈ digits))
    (fun c hc => fmtDec_mem _ c (List.mem_reverse.1 hc))
    (fun c hc => fmtDec_mem _ c (List.mem_reverse.1 hc)) (by decide) (by decide) h
  have h1 := fmtDec_inj _ _ (List.reverse_inj.1 h1)
  simp at h3
  rw [h1, String.toList_inj.1 h3]

theorem ExtendedCapabilityDataError.display_inj (e e' : ExtendedCapabilityDataError)
    (h : e.display.toList = e'.display.toList) : e = e' := by
  have := CapabilityDataError.display_inj ⟨e.name, e.size⟩ ⟨e'.name, e'.size⟩ h
  cases e; cases e'
  simpa using this

theorem PciExpress.PciExpressError.display_inj (e e' : PciExpress.PciExpressError)
    (h : e.display.toList = e'.display.toList) : e = e' := by
  cases e <;> cases e' <;> first | rfl | texts PciExpress.PciExpressError.display at h

theorem VendorSpecific.VendorSpecificError.display_inj (e e' : VendorSpecific.VendorSpecificError)
    (h : e.display.toList = e'.display.toList) : e = e' := by
  cases e <;> cases e' <;> first | rfl | texts VendorSpecific.VendorSpecificError.display at h
  · rw [BitVec.eq_of_toNat_eq (fmtDec_inj _ _ h)]
  · obtain ⟨h, -⟩ := digits_split (P := (· ∈ digits)) (fmtDec_mem _) (fmtDec_mem _) (by decide)
      (by decide) h
    rw [fmtDec_inj _ _ h]

set_option maxHeartbeats 1000000 in
theorem Hypertransport.HypertransportError.display_inj (e e' : Hypertransport.HypertransportError)
    (h : e.display.toList = e'.display.toList) : e = e' := by
  cases e <;> cases e' <;> first | rfl | texts Hypertransport.HypertransportError.display at h

set_option maxHeartbeats 1000000 in
theorem MessageSignaledInterrups.MessageSignaledInterrupsError.display_inj (e e' : MessageSignaledInterrups.MessageSignaledInterrupsError)
    (h : e.display.toList = e'.display.toList) : e = e' := by
  cases e <;> cases e' <;> first | rfl | texts MessageSignaledInterrups.MessageSignaledInterrupsError.display at h

set_option maxHeartbeats 1000000 in
theorem PciX.PciXError.display_inj (e e' : PciX.PciXError)
    (h : e.display.toList = e'.display.toList) : e = e' := by
  cases e <;> cases e' <;> first | rfl | texts PciX.PciXError.display at h

set_option maxHeartbeats 1000000 in
theorem PciX.PciXBridgeError.display_inj (e e' : PciX.PciXBridgeError)
    (h : e.display.toList = e'.display.toList) : e = e' := by
  cases e <;> cases e' <;> first | rfl | texts PciX.PciXBridgeError.display at h

set_option maxHeartbeats 1000000 in
theorem EnhancedAllocation.EnhancedAllocationError.display_inj (e e' : EnhancedAllocation.EnhancedAllocationError)
    (h : e.display.toList = e'.display.toList) : e = e' := by
  cases e <;> cases e' <;> first | rfl | texts EnhancedAllocation.EnhancedAllocationError.display at h

set_option maxHeartbeats 1000000 in
theorem AdvancedErrorReporting.AdvancedErrorReportingError.display_inj (e e' : AdvancedErrorReporting.AdvancedErrorReportingError)
    (h : e.display.toList = e'.display.toList) : e = e' := by
  cases e <;> cases e' <;> first | rfl | texts AdvancedErrorReporting.AdvancedErrorReportingError.display at h

theorem dec_split {n m : Nat} {x : Char} {r s : List Char} (hx : x ∉ digits)
    (h : (fmtDec n).toList ++ x :: r = (fmtDec m).toList ++ x :: s) : n = m ∧ r = s := by
  obtain ⟨h, -, h'⟩ := digits_split (P := (· ∈ digits)) (fmtDec_mem _) (fmtDec_mem _) hx hx h
  exact ⟨fmtDec_inj _ _ h, h'⟩

theorem hex_split {w n m : Nat} {x : Char} {r s : List Char} (hx : x ∉ digits)
    (h : (fmtHex w n).toList ++ x :: r = (fmtHex w m).toList ++ x :: s) : n = m ∧ r = s := by
  obtain ⟨h, -, h'⟩ := digits_split (P := (· ∈ digits)) (fmtHex_mem _ _) (fmtHex_mem _ _) hx hx h
  exact ⟨fmtHex_inj _ _ _ h, h'⟩

theorem RootComplexLinkDeclaration.RootComplexLinkDeclarationError.display_inj
    (e e' : RootComplexLinkDeclaration.RootComplexLinkDeclarationError)
    (h : e.display.toList = e'.display.toList) : e.shown = e'.shown := by
  cases e <;> cases e' <;>
    first | rfl | texts RootComplexLinkDeclaration.RootComplexLinkDeclarationError.display at h

theorem ResizableBar.ResizableBarError.display_inj (e e' : ResizableBar.ResizableBarError)
    (h : e.display.toList = e'.display.toList) : e.shown = e'.shown := by
  cases e <;> cases e' <;> first | rfl | texts ResizableBar.ResizableBarError.display at h

theorem MultifunctionVirtualChannel.MultifunctionVirtualChannelError.display_inj
    (e e' : MultifunctionVirtualChannel.MultifunctionVirtualChannelError)
    (h : e.display.toList = e'.display.toList) : e = e' := by
  cases e <;> cases e' <;>
    first | rfl | texts MultifunctionVirtualChannel.MultifunctionVirtualChannelError.display at h
  obtain ⟨h1, h2⟩ := dec_split (by decide) h
  simp only [List.cons.injEq, true_and] at h2
  rw [h1, fmtDec_inj _ _ h2]

theorem DownstreamPortContainment.DownstreamPortContainmentError.display_inj
    (e e' : DownstreamPortContainment.DownstreamPortContainmentError)
    (h : e.display.toList = e'.display.toList) : e = e' := by
  cases e <;> cases e' <;>
    first | rfl | texts DownstreamPortContainment.DownstreamPortContainmentError.display at h
  rw [fmtDec_inj _ _ h]

theorem DynamicPowerAllocation.DynamicPowerAllocationError.display_inj
    (e e' : DynamicPowerAllocation.DynamicPowerAllocationError)
    (h : e.display.toList = e'.display.toList) : e = e' := by
  cases e <;> cases e' <;>
    first | rfl | texts DynamicPowerAllocation.DynamicPowerAllocationError.display at h
  obtain ⟨h1, h2⟩ := dec_split (by decide) h
  simp only [List.cons.injEq, true_and] at h2
  rw [h1, (dec_split (by decide) h2).1]

theorem ProtocolMultiplexing.ProtocolMultiplexingError.display_inj
    (e e' : ProtocolMultiplexing.ProtocolMultiplexingError)
    (h : e.display.toList = e'.display.toList) : e = e' := by
  cases e <;> cases e' <;>
    first | rfl | texts ProtocolMultiplexing.ProtocolMultiplexingError.display at h
  obtain ⟨h1, h2⟩ := dec_split (by decide) h
  simp only [List.cons.injEq, true_and] at h2
  rw [h1, (dec_split (by decide) h2).1]

theorem DesignatedVendorSpecificExtendedCapability.DesignatedVendorSpecificExtendedCapabilityError.display_inj
    (e e' : DesignatedVendorSpecificExtendedCapability.DesignatedVendorSpecificExtendedCapabilityError)
    (h : e.display.toList = e'.display.toList) : e = e' := by
  cases e <;> cases e' <;> first | rfl |
    texts DesignatedVendorSpecificExtendedCapability.DesignatedVendorSpecificExtendedCapabilityError.display at h
  · obtain ⟨h1, h⟩ := hex_split (by decide) h
    simp only [List.cons.injEq, true_and] at h
    obtain ⟨h2, h⟩ := hex_split (by decide) h
    simp only [List.cons.injEq, true_and] at h
    obtain ⟨h3, h⟩ := hex_split (by decide) h
    simp only [List.cons.injEq, true_and] at h
    obtain ⟨h4, h⟩ := dec_split (by decide) h
    simp only [List.cons.injEq, true_and] at h
    rw [BitVec.eq_of_toNat_eq h1, BitVec.eq_of_toNat_eq h2, BitVec.eq_of_toNat_eq h3,
      BitVec.eq_of_toNat_eq h4, fmtDec_inj _ _ h]

/-- The text ends in "ror". -/
def endsInError (l : List Char) : Bool := l.reverse.take 3 == ['r', 'o', 'r']

theorem endsInError_digit (l : List Char) (n : Nat) : endsInError (l ++ (fmtDec n).toList) = false := by
  obtain ⟨m, c, hm, hc⟩ := fmtDec_last n
  rw [hm, endsInError, ← List.append_assoc, List.reverse_append]
  have : c ≠ 'r' := by rintro rfl; revert hc; decide
  simp [this]

theorem endsInError_append (p l : List Char) (h : 3 ≤ l.length) :
    endsInError (p ++ l) = endsInError l := by
  rw [endsInError, endsInError, List.reverse_append,
    List.take_append_of_le_length (by simpa using h)]

/-- The text cannot be the end of a data error. -/
def otherEnd (l : List Char) : Prop := 3 ≤ l.length ∧ endsInError l = false

theorem otherEnd_digit (l : List Char) (n : Nat) (h : 3 ≤ l.length) :
    otherEnd (l ++ (fmtDec n).toList) :=
  ⟨by rw [List.length_append]; omega, endsInError_digit l n⟩

theorem otherEnd_append (p l : List Char) (h : otherEnd l) : otherEnd (p ++ l) :=
  ⟨by rw [List.length_append]; have := h.1; omega, by rw [endsInError_append _ _ h.1]; exact h.2⟩

theorem otherEnd_cons (c : Char) (l : List Char) (h : otherEnd l) : otherEnd (c :: l) :=
  otherEnd_append [c] l h

/-- A data error is not another error. -/
theorem data_ne_other {a l : List Char} (h : otherEnd l)
    (he : a ++ " data read error".toList = l) : False := by
  have := h.2
  rw [← he, endsInError_append _ _ (by decide)] at this
  revert this
  decide

theorem PciExpress.PciExpressError.display_end
    (e : PciExpress.PciExpressError) :
    otherEnd e.display.toList := by
  cases e <;> delta PciExpress.PciExpressError.display <;> dsimp only <;>
    exact ⟨by decide +kernel, by decide +kernel⟩

theorem Hypertransport.HypertransportError.display_end
    (e : Hypertransport.HypertransportError) :
    otherEnd e.display.toList := by
  cases e <;> delta Hypertransport.HypertransportError.display <;> dsimp only <;>
    exact ⟨by decide +kernel, by decide +kernel⟩

theorem MessageSignaledInterrups.MessageSignaledInterrupsError.display_end
    (e : MessageSignaledInterrups.MessageSignaledInterrupsError) :
    otherEnd e.display.toList := by
  cases e <;> delta MessageSignaledInterrups.MessageSignaledInterrupsError.display <;> dsimp only <;>
    exact ⟨by decide +kernel, by decide +kernel⟩

theorem PciX.PciXError.display_end
    (e : PciX.PciXError) :
    otherEnd e.display.toList := by
  cases e <;> delta PciX.PciXError.display <;> dsimp only <;>
    exact ⟨by decide +kernel, by decide +kernel⟩

theorem PciX.PciXBridgeError.display_end
    (e : PciX.PciXBridgeError) :
    otherEnd e.display.toList := by
  cases e <;> delta PciX.PciXBridgeError.display <;> dsimp only <;>
    exact ⟨by decide +kernel, by decide +kernel⟩

theorem EnhancedAllocation.EnhancedAllocationError.display_end
    (e : EnhancedAllocation.EnhancedAllocationError) :
    otherEnd e.display.toList := by
  cases e <;> delta EnhancedAllocation.EnhancedAllocationError.display <;> dsimp only <;>
    exact ⟨by decide +kernel, by decide +kernel⟩

theorem AdvancedErrorReporting.AdvancedErrorReportingError.display_end
    (e : AdvancedErrorReporting.AdvancedErrorReportingError) :
    otherEnd e.display.toList := by
  cases e <;> delta AdvancedErrorReporting.AdvancedErrorReportingError.display <;> dsimp only <;>
    exact ⟨by decide +kernel, by decide +kernel⟩

theorem RootComplexLinkDeclaration.RootComplexLinkDeclarationError.display_end
    (e : RootComplexLinkDeclaration.RootComplexLinkDeclarationError) :
    otherEnd e.display.toList := by
  cases e <;> delta RootComplexLinkDeclaration.RootComplexLinkDeclarationError.display <;> dsimp only <;>
    exact ⟨by decide +kernel, by decide +kernel⟩

theorem ResizableBar.ResizableBarError.display_end
    (e : ResizableBar.ResizableBarError) :
    otherEnd e.display.toList := by
  cases e <;> delta ResizableBar.ResizableBarError.display <;> dsimp only <;>
    exact ⟨by decide +kernel, by decide +kernel⟩

theorem paren_end (l : List Char) (h : 3 ≤ l.length) : otherEnd (l ++ ")".toList) := by
  refine ⟨by rw [List.length_append]; omega, ?_⟩
  rw [endsInError, List.reverse_append]
  simp

theorem VendorSpecific.VendorSpecificError.display_end
    (e : VendorSpecific.VendorSpecificError) :
    otherEnd e.display.toList := by
  cases e
  all_goals
    delta VendorSpecific.VendorSpecificError.display
    dsimp only
  · exact ⟨by decide +kernel, by decide +kernel⟩
  · rw [String.toList_append]
    refine otherEnd_digit _ _ ?_
    simp only [String.toList_append, String.reduceToList, List.length_append, List.length_cons]
    omega
  · rw [String.toList_append]
    exact otherEnd_append _ _ ⟨by decide +kernel, by decide +kernel⟩
  · exact ⟨by decide +kernel, by decide +kernel⟩

theorem MultifunctionVirtualChannel.MultifunctionVirtualChannelError.display_end
    (e : MultifunctionVirtualChannel.MultifunctionVirtualChannelError) :
    otherEnd e.display.toList := by
  cases e
  all_goals
    delta MultifunctionVirtualChannel.MultifunctionVirtualChannelError.display
    dsimp only
  · exact ⟨by decide +kernel, by decide +kernel⟩
  · exact ⟨by decide +kernel, by decide +kernel⟩
  · exact ⟨by decide +kernel, by decide +kernel⟩
  · rw [String.toList_append]
    refine otherEnd_digit _ _ ?_
    simp only [String.toList_append, String.reduceToList, List.length_append, List.length_cons]
    omega
  · exact ⟨by decide +kernel, by decide +kernel⟩

theorem DownstreamPortContainment.DownstreamPortContainmentError.display_end
    (e : DownstreamPortContainment.DownstreamPortContainmentError) :
    otherEnd e.display.toList := by
  cases e
  all_goals
    delta DownstreamPortContainment.DownstreamPortContainmentError.display
    dsimp only
  · exact ⟨by decide +kernel, by decide +kernel⟩
  · exact ⟨by decide +kernel, by decide +kernel⟩
  · exact ⟨by decide +kernel, by decide +kernel⟩
  · rw [String.toList_append]
    refine otherEnd_digit _ _ ?_
    simp only [String.toList_append, String.reduceToList, List.length_append, List.length_cons]
    omega

theorem DynamicPowerAllocation.DynamicPowerAllocationError.display_end
    (e : DynamicPowerAllocation.DynamicPowerAllocationError) :
    otherEnd e.display.toList := by
  cases e
  all_goals
    delta DynamicPowerAllocation.DynamicPowerAllocationError.display
    dsimp only
  · exact ⟨by decide +kernel, by decide +kernel⟩
  · rw [String.toList_append]
    refine paren_end _ ?_
    simp only [String.toList_append, String.reduceToList, List.length_append, List.length_cons]
    omega

theorem ProtocolMultiplexing.ProtocolMultiplexingError.display_end
    (e : ProtocolMultiplexing.ProtocolMultiplexingError) :
    otherEnd e.display.toList := by
  cases e
  all_goals
    delta ProtocolMultiplexing.ProtocolMultiplexingError.display
    dsimp only
  · exact ⟨by decide +kernel, by decide +kernel⟩
  · rw [String.toList_append]
    refine paren_end _ ?_
    simp only [String.toList_append, String.reduceToList, List.length_append, List.length_cons]
    omega

theorem DesignatedVendorSpecificExtendedCapability.DesignatedVendorSpecificExtendedCapabilityError.display_end
    (e : DesignatedVendorSpecificExtendedCapability.DesignatedVendorSpecificExtendedCapabilityError) :
    otherEnd e.display.toList := by
  cases e
  all_goals
    delta DesignatedVendorSpecificExtendedCapability.DesignatedVendorSpecificExtendedCapabilityError.display
    dsimp only
  · exact ⟨by decide +kernel, by decide +kernel⟩
  · rw [String.toList_append]
    refine otherEnd_digit _ _ ?_
    simp only [String.toList_append, String.reduceToList, List.length_append, List.length_cons]
    omega
  · rename_i source
    cases source
    delta ComputeExpressLink.ComputeExpressLinkError.display
    rw [String.toList_append]
    exact otherEnd_append _ _ ⟨by decide +kernel, by decide +kernel⟩

theorem CapabilityError.display_data (p : U8) (src : CapabilityDataError) :
    (CapabilityError.display (.Data p src)).toList =
      ('[' :: ((fmtHex 2 p.toNat).toList ++ ']' :: ' ' :: src.display.toList)) ++
        " data read error".toList := by
  delta CapabilityError.display
  dsimp only
  simp only [String.toList_append, String.reduceToList, List.append_assoc, List.cons_append,
    List.nil_append]

theorem CapabilityError.display_end (e : CapabilityError)
    (h : ∀ p src, e ≠ .Data p src) : otherEnd e.display.toList := by
  cases e
  case Data p src => exact absurd rfl (h p src)
  all_goals
    delta CapabilityError.display
    dsimp only
    try rw [String.toList_append]
  case Pointer => exact ⟨by decide +kernel, by decide +kernel⟩
  case Header p => exact otherEnd_append _ _ ⟨by decide +kernel, by decide +kernel⟩
  case PciExpress p src => exact otherEnd_append _ _ src.display_end
  case Hypertransport p src => exact otherEnd_append _ _ src.display_end
  case VendorSpecific p src => exact otherEnd_append _ _ src.display_end
  case MessageSignaledInterrups p src => exact otherEnd_append _ _ src.display_end
  case PciX p src => exact otherEnd_append _ _ src.display_end
  case PciXBridge p src => exact otherEnd_append _ _ src.display_end
  case EnhancedAllocation p src => exact otherEnd_append _ _ src.display_end

theorem ExtendedCapabilities.ExtendedCapabilityError.display_data (p : U16) (src : ExtendedCapabilityDataError) :
    (ExtendedCapabilities.ExtendedCapabilityError.display (.Data p src)).toList =
      ('[' :: ((fmtHex 3 p.toNat).toList ++ ']' :: ' ' :: src.display.toList)) ++
        " data read error".toList := by
  delta ExtendedCapabilities.ExtendedCapabilityError.display
  dsimp only
  simp only [String.toList_append, String.reduceToList, List.append_assoc, List.cons_append,
    List.nil_append]

theorem ExtendedCapabilities.ExtendedCapabilityError.display_end (e : ExtendedCapabilities.ExtendedCapabilityError)
    (h : ∀ p src, e ≠ .Data p src) : otherEnd e.display.toList := by
  cases e
  case Data p src => exact absurd rfl (h p src)
  all_goals
    delta ExtendedCapabilities.ExtendedCapabilityError.display
    dsimp only
    try rw [String.toList_append]
  case Offset => exact ⟨by decide +kernel, by decide +kernel⟩
  case Header p => exact otherEnd_append _ _ ⟨by decide +kernel, by decide +kernel⟩
  case EmptyHeader p => exact otherEnd_append _ _ ⟨by decide +kernel, by decide +kernel⟩
  case RootComplexLinkDeclaration p src => exact otherEnd_append _ _ src.display_end
  case MultifunctionVirtualChannel p src => exact otherEnd_append _ _ src.display_end
  case AdvancedErrorReporting p src => exact otherEnd_append _ _ src.display_end
  case DownstreamPortContainment p src => exact otherEnd_append _ _ src.display_end
  case ResizableBar p src => exact otherEnd_append _ _ src.display_end
  case DynamicPowerAllocation p src => exact otherEnd_append _ _ src.display_end
  case ProtocolMultiplexing p src => exact otherEnd_append _ _ src.display_end
  case DesignatedVendorSpecificExtendedCapability p src => exact otherEnd_append _ _ src.display_end
  case VfResizableBar p src => exact otherEnd_append _ _ src.display_end

end Pcics
