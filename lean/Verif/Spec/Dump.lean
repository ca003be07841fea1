import Verif.Spec.Capabilities
import Verif.Spec.ExtendedCapabilities
import Verif.Spec.Header
/- Specification of a whole dump `D` of the configuration space: everything at its configuration
address, byte `i` of the dump being address `i`. -/

namespace Pcics
open Spec

/-- The bytes of `D` from address `a` up to but not including `b`. -/
def bytesOf (D : Bytes) (a b : Nat) : Bytes := (D.take b).drop a

/-- `DumpChain D p ps q`: following the next pointers from address `p` one visits the capabilities at
the addresses `ps`, each within 0x40 .. 0xff, and is left with `q`. -/
inductive DumpChain (D : Bytes) : U8 → List U8 → U8 → Prop
  | stop (p : U8) : DumpChain D p [] p
  | step {p q : U8} {ps : List U8} (low : 0x40 ≤ p.toNat) (high : p.toNat + 2 ≤ 0x100)
      (rest : DumpChain D (byteAt D (p.toNat + 1)) ps q) : DumpChain D p (p :: ps) q

/-- `DumpEChain D o os q`: the same for extended capabilities, whose headers are the nonzero double
words from address 0x100 on. -/
inductive DumpEChain (D : Bytes) : U16 → List U16 → U16 → Prop
  | stop (o : U16) : DumpEChain D o [] o
  | step {o q : U16} {os : List U16} (low : 0x100 ≤ o.toNat) (high : o.toNat + 4 ≤ D.length)
      (head : rd32 D o.toNat ≠ 0) (rest : DumpEChain D (fld (rd32 D o.toNat) 20 12) os q) :
      DumpEChain D o (o :: os) q

/-- `MaskedChain d p ps q`: as `CapChain`, but the two reserved low bits of every next pointer are
masked, as the PCI Local Bus specification (6.7) asks software to do. -/
inductive MaskedChain (d : Bytes) : U8 → List U8 → U8 → Prop
  | stop (p : U8) : MaskedChain d p [] p
  | step {p q : U8} {ps : List U8} (fits : capFits d p)
      (rest : MaskedChain d (capNext d p &&& 0xfc) ps q) : MaskedChain d p (p :: ps) q

/-- `MaskedEChain d o os q`: as the chain of extended capabilities, but the two reserved low bits of
every next offset are masked. -/
inductive MaskedEChain (d : Bytes) : U16 → List U16 → U16 → Prop
  | stop (o : U16) : MaskedEChain d o [] o
  | step {o q : U16} {os : List U16} (here : ExtendedCapabilities.live d o)
      (rest : MaskedEChain d (ExtendedCapabilities.capNext d o &&& 0xffc) os q) :
      MaskedEChain d o (o :: os) q

end Pcics
