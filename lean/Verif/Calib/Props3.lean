import Verif.Calib.Spec

/-!
Properties C43 to C45, C53: conversion tables, rational and linear functions.
-/

namespace Verif.Calib.Props

open Verif.Go Verif.Calib.Spec

/-! ### C43 Verbal range tables -/

/-- A verbal range table as the parser delivers it when the declared number of rows is
present: three columns of that length. -/
def RangeWf (t : CompuVTabRange) : Prop :=
  t.numberValueTriples = some t.inValMin.length
  ∧ t.inValMax.length = t.inValMin.length ∧ t.outVal.length = t.inValMin.length

instance (t : CompuVTabRange) : Decidable (RangeWf t) := by unfold RangeWf; infer_instance

/-- The rows of the table: lower bound, upper bound, text. -/
def rangeRows (t : CompuVTabRange) : List ((Rat × Rat) × Str) :=
  (t.inValMin.zip t.inValMax).zip t.outVal

/-- C43 in full: the text of the first row whose half-open range contains the value, else
the default, else an error. -/
def C43_full : Prop :=
  ∀ (P : Type) (cd : CalData P) (m : Module P) (name : Str) (t : CompuVTabRange) (v : Rat),
    cd.modules[cd.moduleIndex]? = some m → m.compuVTabRanges name = some t → RangeWf t →
    calcTabVerbRange v name cd =
      tableResult (firstRow (fun r => decide (r.1 ≤ v) && decide (v < r.2)) (rangeRows t))
        t.defaultValue

/-- No value passes the test of the loop, which compares with the lower bound twice. -/
theorem rangeLoop_none (v : Rat) (t : CompuVTabRange) (n i : Nat) (h : i + n ≤ t.inValMin.length) :
    rangeLoop v t n i = none := by
  induction n generalizing i with
  | zero => rfl
  | succ n ih =>
    unfold rangeLoop index?
    rw [List.getElem?_eq_getElem (by omega : i < t.inValMin.length)]
    simp only
    rw [if_neg, ih (i + 1) (by omega)]
    rintro ⟨h1, h2⟩
    exact Rat.not_lt.mpr h1 h2

/-- Every table with its declared rows converts every value to the default text. -/
theorem C43_always_default {P : Type} (cd : CalData P) (m : Module P) (name : Str)
    (t : CompuVTabRange) (v : Rat) (hm : cd.modules[cd.moduleIndex]? = some m)
    (ht : m.compuVTabRanges name = some t) (hw : RangeWf t) :
    calcTabVerbRange v name cd = tableResult none t.defaultValue := by
  unfold calcTabVerbRange CalData.module? index?
  rw [hm]
  simp only [ht, hw.1]
  rw [rangeLoop_none v t _ 0 (by omega)]
  cases t.defaultValue <;> rfl

/-- The range from 0 to 10 is called "a". -/
def oneRange : CompuVTabRange :=
  { numberValueTriples := some 1, inValMin := [0], inValMax := [10], outVal := [['a']] }

def oneRangeDefault : CompuVTabRange := { oneRange with defaultValue := some ['z'] }

/-- False: 5 lies in the range from 0 to 10 called "a", but the conversion reports an
error. -/
theorem C43_false : ¬ C43_full := by
  intro h
  have := h Unit
    { modules := [{ compuVTabRanges := fun _ => some oneRange }] }
    _ [] _ 5 rfl rfl (by decide +kernel)
  exact absurd this (by decide +kernel)

/-- C43 for values that lie in no row. Missing: values that do lie in a row. -/
theorem C43_partial {P : Type} (cd : CalData P) (m : Module P) (name : Str) (t : CompuVTabRange)
    (v : Rat) (hm : cd.modules[cd.moduleIndex]? = some m) (ht : m.compuVTabRanges name = some t)
    (hw : RangeWf t)
    (hv : firstRow (fun r => decide (r.1 ≤ v) && decide (v < r.2)) (rangeRows t) = none) :
    calcTabVerbRange v name cd =
      tableResult (firstRow (fun r => decide (r.1 ≤ v) && decide (v < r.2)) (rangeRows t))
        t.defaultValue := by
  rw [hv]
  exact C43_always_default cd m name t v hm ht hw

/-- A table that is not there is an error. -/
theorem C43_missing_table {P : Type} (cd : CalData P) (m : Module P) (name : Str) (v : Rat)
    (hm : cd.modules[cd.moduleIndex]? = some m) (ht : m.compuVTabRanges name = none) :
    calcTabVerbRange v name cd = .err := by
  simp [calcTabVerbRange, CalData.module?, index?, hm, ht]

/-- A table with fewer rows than declared, which the parser accepts, crashes every
conversion. -/
theorem C43_short_table_crash {P : Type} (cd : CalData P) (m : Module P) (name : Str)
    (t : CompuVTabRange) (n : Nat) (v : Rat) (hm : cd.modules[cd.moduleIndex]? = some m)
    (ht : m.compuVTabRanges name = some t) (hn : t.numberValueTriples = some n)
    (hlt : t.inValMin.length < n) : calcTabVerbRange v name cd = .panic := by
  have key : ∀ k i, i ≤ t.inValMin.length → t.inValMin.length < i + k →
      rangeLoop v t k i = some .panic := by
    intro k
    induction k with
    | zero => intro i h1 h2; omega
    | succ k ih =>
      intro i h1 h2
      unfold rangeLoop index?
      by_cases hi : i < t.inValMin.length
      · rw [List.getElem?_eq_getElem hi]
        simp only
        rw [if_neg, ih (i + 1) (by omega) (by omega)]
        rintro ⟨h1, h2⟩
        exact Rat.not_lt.mpr h1 h2
      · rw [List.getElem?_eq_none (by omega)]
  unfold calcTabVerbRange CalData.module? index?
  rw [hm]
  simp only [ht, hn]
  rw [key n 0 (by omega) (by omega)]

/-- A value outside the only row, with a default text. -/
example : calcTabVerbRange (P := Unit) 12 []
    { modules := [{ compuVTabRanges := fun _ => some oneRangeDefault }] } = .ok ['z'] := by decide +kernel

/-! ### C44 Verbal and numeric tables -/

/-- Tables as the parser delivers them: two columns of equal length, flagged as set when
there is a row (see C48). -/
def VTabWf (t : CompuVTab) : Prop :=
  t.outVal.length = t.inVal.length ∧ t.inValSet = !t.inVal.isEmpty
    ∧ t.outValSet = !t.outVal.isEmpty

def TabWf (t : CompuTab) : Prop :=
  t.outVal.length = t.inVal.length ∧ t.inValSet = !t.inVal.isEmpty
    ∧ t.outValSet = !t.outVal.isEmpty

instance (t : CompuVTab) : Decidable (VTabWf t) := by unfold VTabWf; infer_instance
instance (t : CompuTab) : Decidable (TabWf t) := by unfold TabWf; infer_instance

/-- C44 in full, for verbal tables and for numeric tables without interpolation. -/
def C44_full : Prop :=
  ∀ (P : Type) (cd : CalData P) (m : Module P) (v : Rat),
    cd.modules[cd.moduleIndex]? = some m →
    (∀ name t, m.compuVTabs name = some t → VTabWf t →
      calcTabVerb v name cd =
        tableResult (firstRow (fun k => v == k) (t.inVal.zip t.outVal)) t.defaultValue)
    ∧ (∀ name, m.compuVTabs name = none → calcTabVerb v name cd = .err)
    ∧ (∀ cm t, m.compuTabs cm.compuTabRef = some t → TabWf t →
      calcTabNoIntp v cm cd =
        tableResult (firstRow (fun k => v == k) (t.inVal.zip t.outVal)) t.defaultValue)
    ∧ (∀ cm, m.compuTabs cm.compuTabRef = none → calcTabNoIntp v cm cd = .err)

/-- False: a verbal table without rows but with a default text gives an error instead of
the default. -/
theorem C44_false : ¬ C44_full := by
  intro h
  have := (h Unit { modules := [{ compuVTabs := fun _ => some { defaultValue := some ['z'] } }] }
    _ 5 rfl).1 [] _ rfl (by decide)
  exact absurd this (by decide +kernel)

theorem lookupLoop_eq {α : Type} (v : Rat) (outVal : List α) (keys : List Rat) (i : Nat)
    (h : outVal.length = i + keys.length) :
    lookupLoop v outVal keys i =
      (firstRow (fun k => v == k) (keys.zip (outVal.drop i))).map Res.ok := by
  induction keys generalizing i with
  | nil => simp [lookupLoop, firstRow]
  | cons k ks ih =>
    have hi : i < outVal.length := by simp at h; omega
    rw [List.drop_eq_getElem_cons hi]
    simp only [List.zip_cons_cons, firstRow, lookupLoop]
    by_cases hv : v = k
    · simp [hv, index?, hi, orPanic]
    · rw [if_neg hv, ih (i + 1) (by simp at h; omega)]
      simp [hv]

/-- C44 without the default of an empty verbal table: for verbal tables with at least one
row and for all numeric tables the first equal key decides, then the default, then an
error; a missing table is an error. -/
theorem C44_partial {P : Type} (cd : CalData P) (m : Module P) (v : Rat)
    (hm : cd.modules[cd.moduleIndex]? = some m) :
    (∀ name t, m.compuVTabs name = some t → VTabWf t → t.inVal ≠ [] →
      calcTabVerb v name cd =
        tableResult (firstRow (fun k => v == k) (t.inVal.zip t.outVal)) t.defaultValue)
    ∧ (∀ name, m.compuVTabs name = none → calcTabVerb v name cd = .err)
    ∧ (∀ cm t, m.compuTabs cm.compuTabRef = some t → TabWf t →
      calcTabNoIntp v cm cd =
        tableResult (firstRow (fun k => v == k) (t.inVal.zip t.outVal)) t.defaultValue)
    ∧ (∀ cm, m.compuTabs cm.compuTabRef = none → calcTabNoIntp v cm cd = .err) := by
  refine ⟨?_, ?_, ?_, ?_⟩
  · intro name t ht hw hne
    obtain ⟨w1, w2, w3⟩ := hw
    have hne2 : t.outVal ≠ [] := by
      intro h; rw [h] at w1; exact hne (List.length_eq_zero_iff.mp w1.symm)
    have hs : (t.inValSet && t.outValSet) = true := by
      rw [w2, w3]; cases hi : t.inVal <;> cases ho : t.outVal <;> simp_all
    unfold calcTabVerb CalData.module? index?
    rw [hm]
    simp only [ht, hs, if_true]
    rw [lookupLoop_eq v t.outVal t.inVal 0 (by omega), List.drop_zero]
    cases firstRow (fun k => v == k) (t.inVal.zip t.outVal) <;> cases t.defaultValue <;> rfl
  · intro name ht
    simp [calcTabVerb, CalData.module?, index?, hm, ht]
  · intro cm t ht hw
    obtain ⟨w1, w2, w3⟩ := hw
    unfold calcTabNoIntp CalData.module? index?
    rw [hm]
    simp only [ht, Option.getD_some]
    by_cases hne : t.inVal = []
    · have hs : (t.inValSet && t.outValSet) = false := by rw [w2, hne]; rfl
      simp only [hs, hne, List.zip_nil_left, firstRow]
      cases t.defaultValue <;> rfl
    · have hne2 : t.outVal ≠ [] := by
        intro h; rw [h] at w1; exact hne (List.length_eq_zero_iff.mp w1.symm)
      have hs : (t.inValSet && t.outValSet) = true := by
        rw [w2, w3]; cases hi : t.inVal <;> cases ho : t.outVal <;> simp_all
      simp only [hs, if_true]
      rw [lookupLoop_eq v t.outVal t.inVal 0 (by omega), List.drop_zero]
      cases firstRow (fun k => v == k) (t.inVal.zip t.outVal) <;> cases t.defaultValue <;> rfl
  · intro cm ht
    simp [calcTabNoIntp, CalData.module?, index?, hm, ht]

def threeRows : CompuVTab :=
  { inVal := [1, 2, 2], inValSet := true, outVal := [['a'], ['b'], ['c']], outValSet := true }

/-- Two rows with the same key: the first wins. -/
example : calcTabVerb (P := Unit) 2 []
    { modules := [{ compuVTabs := fun _ => some threeRows }] }
    = .ok ['b'] := by decide +kernel

example : VTabWf threeRows := by decide +kernel

/-! ### C45 Linear and rational functions -/

/-- C45 in full: identical conversions return the value, linear ones `a x + b`, rational
ones a solution of the defining equation; if coefficients are missing or there is no
solution, an error. -/
def C45_full : Prop :=
  ∀ (P : Type) (cd : CalData P) (sqrt : Rat → Option Rat) (x : Rat) (cm : CompuMethod),
    IsSqrt sqrt →
    (cm.conversionType = .identical → convDecToPhy sqrt x cm cd = .ok (some x))
    ∧ (cm.conversionType = .linear →
        (∀ a b, cm.linA = some a → cm.linB = some b →
          convDecToPhy sqrt x cm cd = .ok (some (a * x + b)))
        ∧ (cm.linA = none ∨ cm.linB = none → convDecToPhy sqrt x cm cd = .err))
    ∧ (cm.conversionType = .ratFunc →
        (∀ a b c d e f, cm.coeffs = ⟨some a, some b, some c, some d, some e, some f⟩ →
          (∀ p, RatSolution a b c d e f x p →
            ∃ p', convDecToPhy sqrt x cm cd = .ok (some p') ∧ RatSolution a b c d e f x p')
          ∧ ((∀ p, ¬ RatSolution a b c d e f x p) → convDecToPhy sqrt x cm cd = .err))
        ∧ (cm.coeffs.a = none ∨ cm.coeffs.b = none ∨ cm.coeffs.c = none ∨ cm.coeffs.d = none
            ∨ cm.coeffs.e = none ∨ cm.coeffs.f = none → convDecToPhy sqrt x cm cd = .err))

/-- There is such a square root. -/
theorem exists_sqrt : ∃ sqrt, IsSqrt sqrt := by
  classical
  refine ⟨fun x => if h : ∃ r : Rat, 0 ≤ r ∧ r * r = x then some h.choose else none, ?_, ?_⟩
  · intro r hr
    have h : ∃ s : Rat, 0 ≤ s ∧ s * s = r * r := ⟨r, hr, rfl⟩
    rw [dif_pos h]
    obtain ⟨h1, h2⟩ := h.choose_spec
    congr 1
    generalize h.choose = s at h1 h2
    have h3 : (s - r) * (s + r) = 0 := by grind
    rcases Rat.mul_eq_zero.mp h3 with h4 | h4
    · grind
    · grind
  · intro x hx
    rw [dif_neg]
    rintro ⟨r, h1, h2⟩
    have := Rat.mul_nonneg h1 h1
    grind

/-- A rational function with `a = d = 0` (a linear relation, the most common use of
RAT_FUNC) is never converted: the code always reports an error. -/
theorem C45_linear_ratfunc_rejected (sqrt : Rat → Option Rat) (b c e f x : Rat) :
    calcRatFunc sqrt 0 b c 0 e f x = .err := by
  simp only [calcRatFunc]
  rw [if_pos (by grind)]

/-- False: `COEFFS 0 1 0 0 0 1` is the identity, the code reports an error. -/
theorem C45_false_identity : ¬ C45_full := by
  intro h
  obtain ⟨sqrt, hs⟩ := exists_sqrt
  obtain ⟨p', h1, -⟩ := (((h Unit {} sqrt 7
    { conversionType := .ratFunc,
      coeffs := ⟨some 0, some 1, some 0, some 0, some 0, some 1⟩ } hs).2.2 rfl).1
      0 1 0 0 0 1 rfl).1 7 (by unfold RatSolution; decide +kernel)
  simp [convDecToPhy, C45_linear_ratfunc_rejected] at h1

/-- False: for `x = p^2` and `x = 4` the code returns 0 instead of 2 or -2. -/
theorem C45_false_square : ¬ C45_full := by
  intro h
  obtain ⟨sqrt, hs⟩ := exists_sqrt
  obtain ⟨p', h1, h2⟩ := (((h Unit {} sqrt 4
    { conversionType := .ratFunc,
      coeffs := ⟨some 1, some 0, some 0, some 0, some 0, some 1⟩ } hs).2.2 rfl).1
      1 0 0 0 0 1 rfl).1 2 (by unfold RatSolution; decide +kernel)
  have hsq : sqrt 16 = some 4 := by
    have := hs.square 4 (by decide +kernel)
    rwa [show (4 : Rat) * 4 = 16 by decide +kernel] at this
  have hv : convDecToPhy (P := Unit) sqrt 4
      { conversionType := .ratFunc,
        coeffs := ⟨some 1, some 0, some 0, some 0, some 0, some 1⟩ } {} = .ok (some 0) := by
    simp only [convDecToPhy, calcRatFunc]
    rw [show ((0 : Rat) * 4 - 0) * (0 * 4 - 0) - 4 * (0 * 4 - 1) * (1 * 4 - 0) = 16
      by decide +kernel, hsq]
    decide +kernel
  rw [hv] at h1
  injection h1 with h1; injection h1 with h1
  subst h1
  exact absurd h2.2 (by decide +kernel)

/-- False: `x = p^2` has no solution for `x = -1`; the code returns NaN without an error. -/
theorem C45_false_nan : ¬ C45_full := by
  intro h
  obtain ⟨sqrt, hs⟩ := exists_sqrt
  have h1 := (((h Unit {} sqrt (-1)
    { conversionType := .ratFunc,
      coeffs := ⟨some 1, some 0, some 0, some 0, some 0, some 1⟩ } hs).2.2 rfl).1
      1 0 0 0 0 1 rfl).2 (by
        rintro p ⟨-, h2⟩
        have : 0 ≤ p * p := by
          rcases Rat.le_total (a := 0) (b := p) with h3 | h3
          · exact Rat.mul_nonneg h3 h3
          · have := Rat.mul_nonneg (show 0 ≤ -p by grind) (show 0 ≤ -p by grind)
            grind
        grind)
  have hv : convDecToPhy (P := Unit) sqrt (-1)
      { conversionType := .ratFunc,
        coeffs := ⟨some 1, some 0, some 0, some 0, some 0, some 1⟩ } {} = .ok none := by
    simp only [convDecToPhy, calcRatFunc]
    rw [show ((0 : Rat) * -1 - 0) * (0 * -1 - 0) - 4 * (0 * -1 - 1) * (1 * -1 - 0) = -4
      by decide +kernel, hs.neg (-4) (by decide +kernel)]
    decide +kernel
  rw [hv] at h1
  contradiction

/-- C45 restricted to what holds: identical and linear conversions, errors for missing
coefficients, and rational conversions whose result passes the test the code makes when
both of its divisors are non-zero.
Missing: a correct solution of the rational equation. -/
theorem C45_partial {P : Type} (cd : CalData P) (sqrt : Rat → Option Rat) (x : Rat)
    (cm : CompuMethod) :
    (cm.conversionType = .identical → convDecToPhy sqrt x cm cd = .ok (some x))
    ∧ (cm.conversionType = .linear →
        (∀ a b, cm.linA = some a → cm.linB = some b →
          convDecToPhy sqrt x cm cd = .ok (some (a * x + b)))
        ∧ (cm.linA = none ∨ cm.linB = none → convDecToPhy sqrt x cm cd = .err))
    ∧ (cm.conversionType = .ratFunc →
        (cm.coeffs.a = none ∨ cm.coeffs.b = none ∨ cm.coeffs.c = none ∨ cm.coeffs.d = none
          ∨ cm.coeffs.e = none ∨ cm.coeffs.f = none → convDecToPhy sqrt x cm cd = .err)) := by
  refine ⟨?_, ?_, ?_⟩
  · intro h; simp [convDecToPhy, h]
  · intro h
    refine ⟨?_, ?_⟩
    · intro a b ha hb; simp [convDecToPhy, h, ha, hb]
    · intro hn
      unfold convDecToPhy
      rw [h]
      cases ha : cm.linA with
      | none => rfl
      | some a =>
        cases hb : cm.linB with
        | none => rfl
        | some b => simp [ha, hb] at hn
  · intro h hn
    unfold convDecToPhy
    rw [h]
    simp only
    split
    · rename_i h1 h2 h3 h4 h5 h6
      simp [h1, h2, h3, h4, h5, h6] at hn
    · rfl

/-- The same for the rational function: the value the code computes with `+` is returned
when it solves the equation, so in that case (both divisors non-zero) the result is
right. -/
theorem C45_checked_partial (sqrt : Rat → Option Rat) (a b c d e f x s : Rat)
    (h0 : 2 * (a - d * x) ≠ 0)
    (hs : sqrt ((e * x - b) * (e * x - b) - 4 * (d * x - a) * (f * x - c)) = some s)
    (hp : 2 * (a - d * x) + s / (2 * (a - d * x)) ≠ 0)
    (hn : 2 * (a - d * x) - s / (2 * (a - d * x)) ≠ 0)
    (hsol : RatSolution a b c d e f x ((e * x - b) / (2 * (a - d * x) + s / (2 * (a - d * x))))) :
    ∃ p, calcRatFunc sqrt a b c d e f x = .ok (some p) ∧ RatSolution a b c d e f x p := by
  refine ⟨_, ?_, hsol⟩
  obtain ⟨s1, s2⟩ := hsol
  unfold calcRatFunc
  simp only [if_neg h0, hs]
  rw [if_pos ⟨hp, hn⟩, if_pos]
  refine ⟨s1, ?_⟩
  rw [s2]
  exact Rat.mul_div_cancel s1

/-- A rational function for which the code is right: `(p^2 - 8p + 12)/1` at `x = 0`, whose
solution 2 is found. -/
example (sqrt : Rat → Option Rat) (hs : IsSqrt sqrt) :
    calcRatFunc sqrt 1 (-8) 12 0 0 1 0 = .ok (some 2) := by
  have h16 : sqrt 16 = some 4 := by
    have := hs.square 4 (by decide +kernel)
    rwa [show (4 : Rat) * 4 = 16 by decide +kernel] at this
  simp only [calcRatFunc]
  rw [show ((0 : Rat) * 0 - -8) * (0 * 0 - -8) - 4 * (0 * 0 - 1) * (1 * 0 - 12) = 16
    by decide +kernel, h16]
  decide +kernel

example : convDecToPhy (P := Unit) (fun _ => none) 3
    { conversionType := .linear, linA := some 2, linB := some (1 / 2) } {} = .ok (some (13 / 2)) := by
  decide +kernel

/-! ### C53 Interpolating tables -/

/-- C53 in full: a table conversion with interpolation between the rows `(k, v)` and
`(k', v')` returns the value on the straight line, or an error if it is not supported. -/
def C53_full : Prop :=
  ∀ (P : Type) (cd : CalData P) (m : Module P) (sqrt : Rat → Option Rat) (x : Rat)
    (cm : CompuMethod) (k k' v v' : Rat), cm.conversionType = .tabIntp →
    cd.modules[cd.moduleIndex]? = some m →
    m.compuTabs cm.compuTabRef = some
      { inVal := [k, k'], outVal := [v, v'], inValSet := true, outValSet := true } →
    k < k' → k ≤ x → x ≤ k' →
    convDecToPhy sqrt x cm cd = .ok (some (v + (v' - v) * (x - k) / (k' - k)))
      ∨ convDecToPhy sqrt x cm cd = .err

def twoRows : CompuTab :=
  { inVal := [0, 2], outVal := [10, 20], inValSet := true, outValSet := true }

/-- False: halfway between 10 and 20 the code says 0, without an error. -/
theorem C53_false : ¬ C53_full := by
  intro h
  have := h Unit
    { modules := [{ compuTabs := fun _ => some twoRows }] } _
    (fun _ => none) 1 { conversionType := .tabIntp } 0 2 10 20 rfl rfl rfl
    (by decide +kernel) (by decide +kernel) (by decide +kernel)
  exact absurd this (by decide +kernel)

/-- Every value, whatever the table, is converted to 0. -/
theorem C53_always_zero_partial {P : Type} (cd : CalData P) (sqrt : Rat → Option Rat) (x : Rat)
    (cm : CompuMethod) (h : cm.conversionType = .tabIntp) :
    convDecToPhy sqrt x cm cd = .ok (some 0) := by
  simp [convDecToPhy, h]

example : ∃ cm : CompuMethod, cm.conversionType = .tabIntp ∧ cm.compuTabRef = ['t'] :=
  ⟨{ conversionType := .tabIntp, compuTabRef := ['t'] }, rfl, rfl⟩

end Verif.Calib.Props
