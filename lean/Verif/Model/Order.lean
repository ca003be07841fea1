import Verif.Model.Cap.PciExpress
/- The derived orders of src/capabilities/pci_express.rs: `derive(PartialOrd, Ord)` on an enum compares
the positions of the variants in the declaration, then their contents. -/

namespace Pcics.PciExpress

/-- src/capabilities/pci_express.rs:918-935, position of the variant in the declaration -/
def LinkSpeed.position : LinkSpeed → Nat
  | .Rate2GTps => 0
  | .Rate5GTps => 1
  | .Rate8GTps => 2
  | .Rate16GTps => 3
  | .Rate32GTps => 4
  | .Rate64GTps => 5
  | .RateRsvdp => 6
  | .Reserved _ => 7

/-- src/capabilities/pci_express.rs:917, the derived `Ord::cmp` (and `PartialOrd::partial_cmp`, which
is `Some` of it) -/
def LinkSpeed.cmp (a b : LinkSpeed) : Ordering :=
  match a, b with
  | .Reserved v, .Reserved w => compare v.toNat w.toNat
  | a, b => compare a.position b.position

/-- src/capabilities/pci_express.rs:967-976, position of the variant in the declaration -/
def LinkWidth.position : LinkWidth → Nat
  | .Reserved _ => 0
  | .X1 => 1
  | .X2 => 2
  | .X4 => 3
  | .X8 => 4
  | .X12 => 5
  | .X16 => 6
  | .X32 => 7

/-- src/capabilities/pci_express.rs:966, the derived `Ord::cmp` (and `PartialOrd::partial_cmp`, which
is `Some` of it) -/
def LinkWidth.cmp (a b : LinkWidth) : Ordering :=
  match a, b with
  | .Reserved v, .Reserved w => compare v.toNat w.toNat
  | a, b => compare a.position b.position

end Pcics.PciExpress
