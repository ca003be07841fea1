import Verif.Props.Cap.Hypertransport
import Verif.Props.Bar
import Verif.Spec.Frequency
import Verif.Spec.Iter

/-! Accessors that hand out a register or its meaning: link frequencies, original BAR registers. -/

namespace Pcics.Accessors
open Spec Hypertransport Header

private theorem frequency_any (ext : Bool) (v : U8) :
    LinkFrequency.new ext v = LinkFrequency.ofAny ext v := by
  revert v
  cases ext <;> decide +kernel

/-- C99: both link frequencies of any slave interface, hand-made ones included, are those of its own
fields. -/
theorem slave_frequencies_any (x : SlaveOrPrimaryInterface) (ext : Bool) :
    x.linkFreq0 ext = LinkFrequency.ofAny ext x.link_freq_0 ∧
    x.linkFreq1 ext = LinkFrequency.ofAny ext x.link_freq_1 :=
  ⟨frequency_any _ _, frequency_any _ _⟩

/-- C99: likewise for any host interface. -/
theorem host_frequency_any (x : HostOrSecondaryInterface) (ext : Bool) :
    x.linkFreq ext = LinkFrequency.ofAny ext x.link_freq :=
  frequency_any _ _

/-- Which decoded blocks are interfaces. -/
private theorem block_inv (d : Bytes) (t : U8) (y : Hypertransport) (ht : t.toNat < 32)
    (h : blockSpec d t = .ok y) :
    (∀ x, y = .SlaveOrPrimaryInterface x → x = .spec d) ∧
    (∀ x, y = .HostOrSecondaryInterface x → x = .spec d) := by
  have hite : ∀ {c : Prop} [Decidable c] {z : Hypertransport} {e : HypertransportError},
      (if c then Res.ok z else Res.err e) = Res.ok y → y = z := by
    intro c _ z e hc
    split at hc
    · exact (Res.ok.inj hc).symm
    · cases hc
  have hb : t = BitVec.ofNat 8 t.toNat := by simp
  generalize t.toNat = n at ht hb
  subst hb
  interval_cases n
  all_goals first
    | (have := Res.ok.inj h; subst this; constructor <;> (intro x hx; cases hx))
    | (have := hite h; subst this; constructor <;> (intro x hx; cases hx) <;> rfl)

private theorem decoded_inv (d : Bytes) (y : Hypertransport) (h : Hypertransport.ofBytes d = .ok y) :
    (∀ x, y = .SlaveOrPrimaryInterface x → x = .spec d) ∧
    (∀ x, y = .HostOrSecondaryInterface x → x = .spec d) := by
  rw [Hypertransport_bytes] at h
  split at h
  · refine block_inv d _ y ?_ h
    simp only [fld, BitVec.toNat_setWidth, BitVec.extractLsb'_toNat]; omega
  · cases h

/-- C99: the link frequencies of a decoded slave interface are those of bytes 11 and 15 after the
pointer, low four bits, extended by the given bit. -/
theorem slave_frequencies (d : Bytes) (x : SlaveOrPrimaryInterface) (ext : Bool)
    (h : Hypertransport.ofBytes d = .ok (.SlaveOrPrimaryInterface x)) :
    x.linkFreq0 ext = .spec ext (fld (byteAt d 11) 0 4) ∧
    x.linkFreq1 ext = .spec ext (fld (byteAt d 15) 0 4) := by
  rw [(decoded_inv d _ h).1 x rfl]
  have e : ∀ b : U8, LinkFrequency.new ext (fld b 0 4) = .spec ext (fld b 0 4) := by
    cases ext <;> decide +kernel
  exact ⟨e _, e _⟩

/-- C99: the link frequency of a decoded host interface is that of byte 7 after the pointer. -/
theorem host_frequency (d : Bytes) (x : HostOrSecondaryInterface) (ext : Bool)
    (h : Hypertransport.ofBytes d = .ok (.HostOrSecondaryInterface x)) :
    x.linkFreq ext = .spec ext (fld (byteAt d 7) 0 4) := by
  rw [(decoded_inv d _ h).2 x rfl]
  have e : ∀ b : U8, LinkFrequency.new ext (fld b 0 4) = .spec ext (fld b 0 4) := by
    cases ext <;> decide +kernel
  exact e _

/-- Two links running at different rates. -/
def twoRates : Bytes := List.replicate 11 0 ++ [0xf5, 0, 0, 0, 0x02] ++ List.replicate 10 0

example : ∃ x, Hypertransport.ofBytes twoRates = .ok (.SlaveOrPrimaryInterface x) ∧
    x.linkFreq0 false = .Rate800MHz ∧ x.linkFreq1 false = .Rate400MHz ∧
    x.linkFreq1 true = .Rate3000MHz ∧ x.linkFreq0 true = .Reserved 0x15 :=
  ⟨_, by rw [Hypertransport_bytes]; rfl, by decide +kernel⟩

example : ∃ x, Hypertransport.ofBytes ([0, 0x20] ++ List.replicate 5 0 ++ [0x13] ++ List.replicate 14 0)
    = .ok (.HostOrSecondaryInterface x) ∧ x.linkFreq true = .Rate3200MHz :=
  ⟨_, by rw [Hypertransport_bytes]; rfl, by decide +kernel⟩

example : LinkFrequency.ofAny false 0x11 = .Reserved 1 := by decide +kernel

private theorem next_data (s : BaseAddresses) : s.next.2.data = s.data := by
  rcases bar_next s with ⟨_, _, _, _, _, _, _, h, _⟩ | ⟨_, _, h, _⟩ <;> exact h

/-- C99: the registers given back are those the iterator was made from, however often `next` was
called. -/
theorem bar_original (data : List U32) (k : Nat) :
    (callsAfter BaseAddresses.next k (.new data)).orig = data := by
  have : ∀ k s, (callsAfter BaseAddresses.next k s).data = s.data := by
    intro k
    induction k with
    | zero => intro s; rfl
    | succ k ih => intro s; exact (ih _).trans (next_data s)
  exact this k _

example : (callsAfter BaseAddresses.next 2 (.new [0, 0xfe00000c, 1])).orig = [0, 0xfe00000c, 1] ∧
    (callsAfter BaseAddresses.next 2 (.new [0, 0xfe00000c, 1])).region = 3 := by decide +kernel

end Pcics.Accessors
