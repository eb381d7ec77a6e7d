import Verif.Calib.Props
import Verif.Calib.Props3

/-!
Properties C43, C44 and C49: for which tables, values and constants the code gives the right answer.
-/

namespace Verif.Calib.Props

open Verif.Go Verif.Calib.Spec

/-- C43, exactly: a range table converts a value rightly if and only if the value lies in no row or the text of its row happens to be
the default text. -/
theorem C43_iff {P : Type} (cd : CalData P) (m : Module P) (name : Str) (t : CompuVTabRange) (v : Rat)
    (hm : cd.modules[cd.moduleIndex]? = some m) (ht : m.compuVTabRanges name = some t) (hw : RangeWf t) :
    calcTabVerbRange v name cd =
        tableResult (firstRow (fun r => decide (r.1 ≤ v) && decide (v < r.2)) (rangeRows t)) t.defaultValue ↔
      ∀ text, firstRow (fun r => decide (r.1 ≤ v) && decide (v < r.2)) (rangeRows t) = some text →
        t.defaultValue = some text := by
  rw [C43_always_default cd m name t v hm ht hw]
  cases hr : firstRow (fun r => decide (r.1 ≤ v) && decide (v < r.2)) (rangeRows t) with
  | none => simp
  | some text => cases hd : t.defaultValue <;> simp [tableResult]

/-- A value inside the row "a" of a table whose default text is "z": wrong; outside of it: right. -/
example :
    (∃ text, firstRow (fun r => decide (r.1 ≤ (5 : Rat)) && decide ((5 : Rat) < r.2)) (rangeRows oneRangeDefault) = some text ∧
      oneRangeDefault.defaultValue ≠ some text) ∧
    firstRow (fun r => decide (r.1 ≤ (12 : Rat)) && decide ((12 : Rat) < r.2)) (rangeRows oneRangeDefault) = none :=
  ⟨⟨['a'], by decide +kernel, by decide⟩, by decide +kernel⟩

/-- C44, exactly: a verbal table converts a value rightly if and only if it has a row or has no default. -/
theorem C44_iff {P : Type} (cd : CalData P) (m : Module P) (name : Str) (t : CompuVTab) (v : Rat)
    (hm : cd.modules[cd.moduleIndex]? = some m) (ht : m.compuVTabs name = some t) (hw : VTabWf t) :
    calcTabVerb v name cd = tableResult (firstRow (fun k => v == k) (t.inVal.zip t.outVal)) t.defaultValue ↔
      (t.inVal ≠ [] ∨ t.defaultValue = none) := by
  by_cases hne : t.inVal = []
  · have hs : (t.inValSet && t.outValSet) = false := by rw [hw.2.1, hne]; rfl
    have he : calcTabVerb v name cd = .err := by
      unfold calcTabVerb CalData.module? index?
      rw [hm]
      simp only [ht, hs]
      rfl
    rw [he, hne]
    cases hd : t.defaultValue <;> simp [tableResult, firstRow]
  · exact iff_of_true ((C44_partial cd m v hm).1 name t ht hw hne) (Or.inl hne)

example : VTabWf { inVal := [1, 2], outVal := [['a'], ['b']], inValSet := true, outValSet := true, defaultValue := some ['z'] } ∧
    VTabWf { defaultValue := some ['z'] } := by decide

/-- C49, exactly: the value of a constant is returned if and only if there is no such constant, it has no value, or its value is the
empty string. -/
theorem C49_iff {P : Type} (cd : CalData P) (m : Module P) (name : Str) (hm : cd.modules[cd.moduleIndex]? = some m) :
    (getSystemConstantValue cd name =
      match m.systemConstants name with
      | some { value := some v, .. } => .ok v
      | _ => .err) ↔
    ∀ c v, m.systemConstants name = some c → c.value = some v → v = [] := by
  cases h : m.systemConstants name with
  | none => simp [getSystemConstantValue, getSystemConstant, CalData.module?, index?, hm, h, Res.bind]
  | some c =>
    obtain ⟨n, v⟩ := c
    cases v with
    | none =>
      simp [getSystemConstantValue, getSystemConstant, CalData.module?, index?, hm, h, Res.bind]
      rintro c v rfl hv
      exact absurd hv (by simp)
    | some v =>
      rw [C49_value_lost cd m name n v hm h]
      simp only [Res.ok.injEq, Option.some.injEq]
      constructor
      · rintro h c w rfl hw
        simp only [Option.some.injEq] at hw
        rw [← hw, ← h]
      · intro h
        exact (h _ v rfl rfl).symm

/-- A database with the constant `k` of value `1`: not right. -/
example : ∃ (m : Module Unit) (c : SystemConstant) (v : Str), m.systemConstants ['k'] = some c ∧ c.value = some v ∧ v ≠ [] :=
  ⟨{ systemConstants := fun _ => some { name := ['k'], value := some ['1'] } }, _, ['1'], rfl, rfl, by decide⟩

end Verif.Calib.Props
