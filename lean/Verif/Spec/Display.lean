import Verif.Spec.Errors
import Verif.Model.Display
/- Vocabulary for the texts of errors: how a number is read back from its digits, and what two errors
have to have in common to get the same text. -/

namespace Pcics.Spec

/-- The sixteen digits, by value. -/
def digits : List Char :=
  ['0', '1', '2', '3', '4', '5', '6', '7', '8', '9', 'a', 'b', 'c', 'd', 'e', 'f']

/-- The number written by digits in a base, the most significant first. -/
def value (base : Nat) (cs : List Char) : Nat := cs.foldl (fun n c => base * n + digits.idxOf c) 0

/-- The text starts with a place: the number `n` in brackets, as exactly `width` lower case
hexadecimal digits, and a blank. -/
def startsWithPlace (text : String) (width n : Nat) : Prop :=
  ∃ ds rest, text.toList = '[' :: (ds ++ ']' :: ' ' :: rest) ∧ ds.length = width ∧
    (∀ c ∈ ds, c ∈ digits) ∧ value 16 ds = n

end Pcics.Spec

namespace Pcics

/-- The parts of a link declaration error that are shown: all but the decoded register. -/
def RootComplexLinkDeclaration.RootComplexLinkDeclarationError.shown :
    RootComplexLinkDeclaration.RootComplexLinkDeclarationError → Nat
  | .ElementSelfDescription => 0
  | .NumberOfLinkEntries _ => 1
  | .ReservedSpace _ => 2
  | .LinkEntry1 _ => 3

/-- The parts of a Resizable BAR error that are shown: all but the number of BARs. -/
def ResizableBar.ResizableBarError.shown : ResizableBar.ResizableBarError → Nat
  | .FirstEntry => 0
  | .NumberOfResizableBars _ => 1
  | .ShortData => 2

/-- Two errors are the same, up to the decoded register of a link declaration error and the number of
BARs of a Resizable BAR error. -/
def ExtendedCapabilities.ExtendedCapabilityError.sameShown :
    ExtendedCapabilities.ExtendedCapabilityError → ExtendedCapabilities.ExtendedCapabilityError → Prop
  | .RootComplexLinkDeclaration o e, .RootComplexLinkDeclaration o' e' => o = o' ∧ e.shown = e'.shown
  | .ResizableBar o e, .ResizableBar o' e' => o = o' ∧ e.shown = e'.shown
  | .VfResizableBar o e, .VfResizableBar o' e' => o = o' ∧ e.shown = e'.shown
  | e, e' => e = e'

end Pcics
