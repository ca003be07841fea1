import Verif.Lemmas.Basic
/- Tactics used by the layout theorems. -/

namespace Pcics

theorem ite_ite_none {α : Type} (a b : Prop) [Decidable a] [Decidable b] (x : Option α) :
    (if a then (if b then x else none) else none) = if a ∧ b then x else none := by
  by_cases a <;> by_cases b <;> simp_all

theorem ite_congr' {α : Type} {a b : Prop} [Decidable a] [Decidable b] {x x' y y' : α}
    (h : a ↔ b) (hx : x = x') (hy : y = y') : (if a then x else y) = if b then x' else y' := by
  subst hx hy
  by_cases b <;> simp_all

theorem okOr_ite {ε α : Type} (c : Prop) [Decidable c] (e : ε) (x : α) :
    Res.okOr e (if c then some x else none) = if c then .ok x else .err e := by
  by_cases c <;> simp_all [Res.okOr]

theorem map_ite_some {α β : Type} (c : Prop) [Decidable c] (f : α → β) (x : α) :
    Option.map f (if c then some x else none) = if c then some (f x) else none := by
  by_cases c <;> simp_all

theorem orPanic_ite {ε α : Type} (c : Prop) [Decidable c] (x : α) :
    (Res.orPanic (if c then some x else none) : Res ε α) = if c then .ok x else .panic := by
  by_cases c <;> simp_all [Res.orPanic]

theorem join_ite_panic {ε α : Type} (c : Prop) [Decidable c] (x : Res ε α) :
    Res.join (if c then .ok x else .panic) = if c then x else .panic := by
  by_cases c <;> simp_all [Res.join]

theorem join_ite_err {ε α : Type} (c : Prop) [Decidable c] (x : Res ε α) (e : ε) :
    Res.join (if c then .ok x else .err e) = if c then x else .err e := by
  by_cases c <;> simp_all [Res.join]

theorem le32s_run (n : Nat) (d : Bytes) :
    le32s n d = if 4 * n ≤ d.length then some (Spec.rd32s d 0 n, d.drop (4 * n)) else none := by
  induction n generalizing d with
  | zero => simp [le32s, BP.pure_run, Spec.rd32s]
  | succ n ih =>
    simp only [le32s, BP.bind_run, BP.pure_run, le32_run, ite_bind, ih, List.length_drop,
      List.drop_drop, ite_ite_none]
    refine ite_congr' (by omega) ?_ rfl
    simp only [Spec.rd32s, List.range_succ_eq_map, List.map_cons, List.map_map, rd32_drop]
    congr 2
    · congr 1
      apply List.map_congr_left
      intro a _
      simp only [Function.comp_apply]
      congr 1; omega
    · congr 1; omega

theorem rd32s_drop (d : Bytes) (i j n : Nat) :
    Spec.rd32s (d.drop i) j n = Spec.rd32s d (i + j) n := by
  simp only [Spec.rd32s, rd32_drop, Nat.add_assoc]

theorem byteAt_take (d : Bytes) (n i : Nat) (h : i < n) :
    Spec.byteAt (d.take n) i = Spec.byteAt d i := by
  simp [Spec.byteAt, List.getD_eq_getElem?_getD, h]

theorem rd16_take (d : Bytes) (n i : Nat) (h : i + 1 < n) :
    Spec.rd16 (d.take n) i = Spec.rd16 d i := by
  simp [Spec.rd16, byteAt_take, h, (by omega : i < n)]

theorem rd32_take (d : Bytes) (n i : Nat) (h : i + 3 < n) :
    Spec.rd32 (d.take n) i = Spec.rd32 d i := by
  simp [Spec.rd32, byteAt_take, h, (by omega : i < n), (by omega : i + 1 < n),
    (by omega : i + 2 < n)]

theorem Res.bind_ite {ε α β : Type} (c : Prop) [Decidable c] (e : ε) (x : α) (f : α → Res ε β) :
    (if c then Res.ok x else .err e) >>= f = if c then f x else .err e := by
  by_cases c <;> simp_all [Bind.bind, Res.bind]

@[simp] theorem Res.bind_ok {ε α β : Type} (x : α) (f : α → Res ε β) :
    (Res.ok x) >>= f = f x := rfl
@[simp] theorem Res.bind_err {ε α β : Type} (e : ε) (f : α → Res ε β) :
    (Res.err e) >>= f = .err e := rfl
@[simp] theorem Res.bind_panic {ε α β : Type} (f : α → Res ε β) :
    (Res.panic) >>= f = .panic := rfl
@[simp] theorem Res.pure_eq {ε α : Type} (x : α) : (pure x : Res ε α) = .ok x := rfl

theorem Res.okOr_some {ε α : Type} (e : ε) (x : α) : Res.okOr e (some x) = .ok x := rfl
theorem Res.okOr_none {ε α : Type} (e : ε) : (Res.okOr e none : Res ε α) = .err e := rfl
theorem Res.orPanic_some {ε α : Type} (x : α) : (Res.orPanic (some x) : Res ε α) = .ok x := rfl
theorem Res.orPanic_none {ε α : Type} : (Res.orPanic none : Res ε α) = .panic := rfl
theorem Res.join_ok {ε α : Type} (x : Res ε α) : Res.join (.ok x) = x := rfl
theorem Res.join_err {ε α : Type} (e : ε) : (Res.join (.err e) : Res ε α) = .err e := rfl

theorem getTo_eq (d : Bytes) (b : Nat) :
    getTo d b = if b ≤ d.length then some (d.take b) else none := rfl
theorem getFrom_eq (d : Bytes) (a : Nat) :
    getFrom d a = if a ≤ d.length then some (d.drop a) else none := rfl
theorem getRange_eq (d : Bytes) (a b : Nat) :
    getRange d a b = if a ≤ b ∧ b ≤ d.length then some ((d.take b).drop a) else none := rfl

theorem rd64_take (d : Bytes) (n i : Nat) (h : i + 7 < n) :
    Spec.rd64 (d.take n) i = Spec.rd64 d i := by
  simp [Spec.rd64, byteAt_take, h, (by omega : i < n), (by omega : i + 1 < n),
    (by omega : i + 2 < n), (by omega : i + 3 < n), (by omega : i + 4 < n),
    (by omega : i + 5 < n), (by omega : i + 6 < n)]

theorem rd32s_take (d : Bytes) (n i k : Nat) (h : i + 4 * k ≤ n) :
    Spec.rd32s (d.take n) i k = Spec.rd32s d i k := by
  simp only [Spec.rd32s]
  apply List.map_congr_left
  intro a ha
  have := List.mem_range.1 ha
  rw [rd32_take _ _ _ (by omega)]

/-- Sequential bit reader = fields at absolute positions. -/
macro "bits_simp" "[" ds:Lean.Parser.Tactic.simpLemma,* "]" : tactic =>
  `(tactic| simp [runBits_def, BR.bind_run, BR.pure_run, Res.bind_ok, bit, bits, skip, flag_eq, fld_eq,
      Nat.div_div_eq_div_mul, $ds,*])

/-- Rewrite a byte parser to little-endian reads at absolute offsets. -/
macro "bytes_norm" "[" ds:Lean.Parser.Tactic.simpLemma,* "]" : tactic =>
  `(tactic| (
    simp only [BP.seq, BP.head, BP.bind_run, BP.pure_run, le8_run, le16_run, le32_run, le64_run,
      bytesN_run, le32s_run, rd32s_drop, BP.arr, orPanic_ite, join_ite_panic, join_ite_err,
      ite_bind, List.length_drop, List.drop_drop, byteAt_drop, rd16_drop, rd32_drop,
      rd64_drop, ite_ite_none, okOr_ite, map_ite_some, Res.bind_ite, Res.bind_ok, Res.bind_err,
      Res.pure_eq, Nat.add_zero, Nat.zero_add, Nat.reduceAdd, Nat.reduceSub, Nat.reduceMul, $ds,*]))

/-- Sequential byte parser = little-endian reads at absolute offsets, succeeding iff the total
size is available. -/
macro "bytes_simp" "[" ds:Lean.Parser.Tactic.simpLemma,* "]" : tactic =>
  `(tactic| (
    bytes_norm [$ds,*]
    first
      | done
      | (refine ite_congr' ?h ?_ ?_; (case h => omega); all_goals (try rfl))
      | skip))

/-- As `bytes_norm`, deciding length tests (from hypotheses about the length) by `omega`, and seeing
through sub-slices. -/
macro "bytes_len" "[" ds:Lean.Parser.Tactic.simpLemma,* "]" : tactic =>
  `(tactic| (
    simp (disch := omega) only [BP.seq, BP.head, BP.bind_run, BP.pure_run, le8_run, le16_run,
      le32_run, le64_run,
      bytesN_run, le32s_run, rd32s_drop, BP.arr, orPanic_ite, join_ite_panic, join_ite_err,
      ite_bind, List.length_drop, List.drop_drop, byteAt_drop, rd16_drop, rd32_drop,
      rd64_drop, ite_ite_none, okOr_ite, map_ite_some, Res.bind_ite, Res.bind_ok, Res.bind_err,
      Res.bind_panic, Res.pure_eq, Nat.add_zero, Nat.zero_add, Nat.reduceAdd, Nat.reduceSub,
      Nat.reduceMul, getTo_eq, getFrom_eq, getRange_eq, List.length_take, List.drop_take, byteAt_take,
      rd16_take, rd32_take, rd64_take, rd32s_take, if_pos, if_neg, Res.okOr_some, Res.okOr_none, Res.orPanic_some,
      Res.orPanic_none, Res.join_ok, Res.join_err,
      Option.map_some, Option.map_none, Option.bind_some, Option.bind_none, ite_self, $ds,*]))

end Pcics
