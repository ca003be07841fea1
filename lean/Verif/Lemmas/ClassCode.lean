import Verif.Spec.ClassCode
/- Lemmas for Verif.Props.ClassCode: the arms of `ClassCode::meaning` are the class code table
flattened, and the first matching arm of a flattened table is the level by level lookup. -/

namespace Pcics.Header

/-- The arms a table entry of a sub-class stands for. -/
def subArms (a : U8) (name : String) (s : SubclassEntry) : List MeaningArm :=
  s.2.2.map (fun i => ⟨some a, some s.1, some i.1, name, some s.2.1, some i.2⟩) ++
    [⟨some a, some s.1, none, name, some s.2.1, none⟩]

/-- The arms a table entry of a class stands for. -/
def classArms (e : ClassEntry) : List MeaningArm :=
  e.2.2.flatMap (subArms e.1 e.2.1) ++ [⟨some e.1, none, none, e.2.1, none, none⟩]

theorem arms_eq :
    meaningArms = classTable.flatMap classArms ++ [⟨none, none, none, "Reserved", none, none⟩] := by
  rfl

/-- The test of `ClassCode.meaning`. -/
def hit (c : ClassCode) (a : MeaningArm) : Bool :=
  armMatches a.base c.base && armMatches a.sub c.sub && armMatches a.interface c.interface

theorem find_interfaces (c : ClassCode) (name sub : String) (is : List InterfaceEntry) :
    ((subArms c.base name (c.sub, sub, is)).find? (hit c)).map MeaningArm.meaning =
      some (name, some sub, is.lookup c.interface) := by
  induction is with
  | nil => simp [subArms, hit, armMatches]
  | cons i is ih =>
    obtain ⟨k, v⟩ := i
    simp only [subArms, List.map_cons, List.cons_append, List.lookup] at ih ⊢
    by_cases h : k = c.interface
    · rw [List.find?_cons_of_pos (by simp [hit, armMatches, h])]
      simp [h]
    · have h' : (c.interface == k) = false := by simpa using fun e => h e.symm
      rw [List.find?_cons_of_neg (by simp [hit, armMatches, h]), h']
      exact ih

theorem find_other_sub (c : ClassCode) (a : U8) (name : String) (s : SubclassEntry)
    (h : s.1 ≠ c.sub) (R : List MeaningArm) :
    (subArms a name s ++ R).find? (hit c) = R.find? (hit c) := by
  rw [List.find?_append, List.find?_eq_none.2, Option.none_or]
  intro x hx
  simp only [subArms, List.mem_append, List.mem_map, List.mem_singleton] at hx
  rcases hx with ⟨i, _, rfl⟩ | rfl <;> simp [hit, armMatches, h]

theorem find_subs (c : ClassCode) (name : String) (subs : List SubclassEntry) :
    ((subs.flatMap (subArms c.base name) ++
      [(⟨some c.base, none, none, name, none, none⟩ : MeaningArm)]).find? (hit c)).map
        MeaningArm.meaning = some (match subs.lookup c.sub with
          | none => (name, none, none)
          | some (subName, is) => (name, some subName, is.lookup c.interface)) := by
  induction subs with
  | nil => simp [hit, armMatches]
  | cons s subs ih =>
    obtain ⟨k, v, is⟩ := s
    by_cases h : k = c.sub
    · subst h
      have := find_interfaces c name v is
      simp only [List.flatMap_cons, List.append_assoc, List.lookup, beq_self_eq_true]
      rw [List.find?_append]
      rcases hf : List.find? (hit c) (subArms c.base name (c.sub, v, is)) with _ | x
      · rw [hf] at this; simp at this
      · rw [hf] at this; simpa using this
    · have h' : (c.sub == k) = false := by simpa using fun e => h e.symm
      simp only [List.flatMap_cons, List.append_assoc, List.lookup, h']
      rw [find_other_sub c c.base name (k, v, is) h]
      exact ih

theorem find_other_class (c : ClassCode) (e : ClassEntry) (h : e.1 ≠ c.base) (R : List MeaningArm) :
    (classArms e ++ R).find? (hit c) = R.find? (hit c) := by
  rw [List.find?_append, List.find?_eq_none.2, Option.none_or]
  intro x hx
  simp only [classArms, subArms, List.mem_append, List.mem_flatMap, List.mem_map,
    List.mem_singleton] at hx
  rcases hx with ⟨s, _, ⟨i, _, rfl⟩ | rfl⟩ | rfl <;> simp [hit, armMatches, h]

theorem find_classes (c : ClassCode) (t : List ClassEntry) :
    ((t.flatMap classArms ++
      [(⟨none, none, none, "Reserved", none, none⟩ : MeaningArm)]).find? (hit c)).map
        MeaningArm.meaning = some (match t.lookup c.base with
          | none => ("Reserved", none, none)
          | some (name, subs) =>
            match subs.lookup c.sub with
            | none => (name, none, none)
            | some (subName, is) => (name, some subName, is.lookup c.interface)) := by
  induction t with
  | nil => simp [hit, armMatches]
  | cons e t ih =>
    obtain ⟨k, v, subs⟩ := e
    by_cases h : k = c.base
    · subst h
      have : ((classArms (c.base, v, subs)).find? (hit c)).map MeaningArm.meaning = _ :=
        find_subs c v subs
      simp only [List.flatMap_cons, List.append_assoc, List.lookup, beq_self_eq_true]
      rw [List.find?_append]
      rcases hf : List.find? (hit c) (classArms (c.base, v, subs)) with _ | x
      · rw [hf] at this; simp at this
      · rw [hf] at this; simpa using this
    · have h' : (c.base == k) = false := by simpa using fun e => h e.symm
      simp only [List.flatMap_cons, List.append_assoc, List.lookup, h']
      rw [find_other_class c (k, v, subs) h]
      exact ih

end Pcics.Header
