/- When a bridge forwards an address (PCI-to-PCI Bridge Architecture, PC Card Standard): the base and
limit registers hold only the upper bits of two addresses. The lower bits of the base are taken as
zeros and those of the limit as ones, so the comparison is one of blocks. -/

namespace Pcics.Spec

/-- A window whose registers hold the block numbers `base` and `limit` forwards address `x`, in blocks
of `2 ^ s` bytes. -/
def Forwards (s base limit x : Nat) : Prop := base ≤ x / 2 ^ s ∧ x / 2 ^ s ≤ limit

end Pcics.Spec
