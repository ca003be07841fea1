import Verif.Lemmas.ClassCode
/- Theorems about `ClassCode::meaning`. The names in the table of Verif.Spec.ClassCode come from the
code, so these theorems are about which entry is selected, not about the wording of the entries. -/

namespace Pcics.Header

/-- C66: the ordered arms select exactly the entry found by looking up the base class, then the
sub-class within it, then the programming interface within that; no arm is shadowed by an earlier
one and none is missing. -/
theorem ClassCode_meaning (c : ClassCode) : c.meaning = .ok c.meaningSpec := by
  have h := find_classes c classTable
  rw [← arms_eq] at h
  unfold ClassCode.meaning
  change (match meaningArms.find? (hit c) with
    | some a => Res.ok a.meaning
    | none => Res.panic) = _
  rcases hf : meaningArms.find? (hit c) with _ | x
  · rw [hf] at h; simp at h
  · rw [hf] at h
    simp only [Option.map_some, Option.some.injEq] at h
    exact congrArg Res.ok h

example : ClassCode.meaning ⟨0x02, 0x08, 0x01⟩ =
    .ok ("Mass storage controller", some "Non-Volatile memory controller", some "NVM Express") := by
  rw [ClassCode_meaning]; rfl

/-- C66: the class name depends on the base class only. -/
theorem ClassCode_meaning_class (c d : ClassCode) (h : c.base = d.base)
    (m n : String × Option String × Option String) (hm : c.meaning = .ok m)
    (hn : d.meaning = .ok n) : m.1 = n.1 := by
  rw [ClassCode_meaning] at hm hn
  cases hm; cases hn
  simp only [ClassCode.meaningSpec, h]
  split
  · rfl
  · split <;> split <;> rfl

/-- C66: the sub-class name depends on the base class and sub-class only. -/
theorem ClassCode_meaning_sub (c d : ClassCode) (h : c.base = d.base) (hs : c.sub = d.sub)
    (m n : String × Option String × Option String) (hm : c.meaning = .ok m)
    (hn : d.meaning = .ok n) : m.2.1 = n.2.1 := by
  rw [ClassCode_meaning] at hm hn
  cases hm; cases hn
  simp only [ClassCode.meaningSpec, h, hs]
  split
  · rfl
  · split <;> rfl

/-- C66: a programming interface is named only within a named sub-class. -/
theorem ClassCode_meaning_interface (c : ClassCode) (m : String × Option String × Option String)
    (hm : c.meaning = .ok m) (h : m.2.1 = none) : m.2.2 = none := by
  rw [ClassCode_meaning] at hm
  cases hm
  revert h
  simp only [ClassCode.meaningSpec]
  split
  · simp
  · split <;> simp

example : ClassCode.meaning ⟨0x07, 0x42, 0x01⟩ = .ok ("Mass storage controller", none, none) := by
  rw [ClassCode_meaning]; rfl
example : ClassCode.meaning ⟨0x07, 0x42, 0x77⟩ = .ok ("Reserved", none, none) := by
  rw [ClassCode_meaning]; rfl

end Pcics.Header
