import Verif.Calib.Props5

/-!
fnc_values.go: the two functions that read the values of a characteristic, and what they return (C72).
No other function of the package calls them.
-/

namespace Verif.Calib
open Verif.Go

/-- fnc_values.go:11-28 (`getFncValues1D`): the decoded value, its bytes and the new position. An unset data type is
the undefined one. On an error the bytes that are returned with it are left out. -/
def getFncValues1D {P : Type} (cd : CalData P) (rl : RecordLayout) (curPos : Nat)
    (get : Reader := getValue cd) : Res (Val × List Nat × Nat) :=
  let d := ((rl.field .fncValues).datatype).getD .undefined
  (get curPos d rl).bind fun bytes =>
    (convertByteSliceToDatatype cd bytes d).bind fun v =>
      .ok (v, bytes, (curPos + d.length) % 2 ^ 32)

/-- fnc_values.go:31-67 (`getFncValues2D`): the number of values is that of FIX_NO_AXIS_PTS_X; without it the matrix
dimension `dimX` of the characteristic (0 if not set) is only tested, the assignment of line 46 is commented out, so that the number
stays 0. The data type is that of the points of the first axis. The loop is that of axis_pts.go:36-49. -/
def getFncValues2D {P : Type} (cd : CalData P) (dimX : Nat) (rl : RecordLayout) (curPos : Nat)
    (get : Reader := getValue cd) : Res (List Val × Nat) :=
  let d := ((rl.field .axisPtsX).datatype).getD .undefined
  match rl.fixNoAxisPts .x with
  | some n => axisLoop cd rl d n curPos [] get
  | none => if dimX ≤ 0 then .err else axisLoop cd rl d 0 curPos [] get

end Verif.Calib

namespace Verif.Calib.Props
open Verif.Go Spec

/-- C72 for one value: with a data type, an address and all bytes present the decoded value comes back, and the position
is behind it. -/
def C72_full : Prop := ∀ (P : Type) (cd : CalData P) (rl : RecordLayout) (d : DataType) (pos a : Nat) (bs : List Nat) (v : Val),
  (rl.field .fncValues).datatype = some d → d ≠ .undefined → getNextAlignedAddress cd pos d rl = .ok a →
  bytesAt cd.hex a (d.length / 8) = some bs → convertByteSliceToDatatype cd bs d = .ok v →
  ∃ p, getFncValues1D cd rl pos = .ok (v, bs, p)

/-- C72 for a list of values: as many as the dimension of the characteristic says. -/
def C72_list_full : Prop := ∀ (P : Type) (cd : CalData P) (dimX : Nat) (rl : RecordLayout) (pos : Nat) (vs : List Val) (p : Nat),
  rl.fixNoAxisPts .x = none → getFncValues2D cd dimX rl pos = .ok (vs, p) → vs.length = dimX

/-- Reading one value of a real data type always crashes; without a data type it is an error. -/
theorem C72_partial {P : Type} (cd : CalData P) (rl : RecordLayout) (pos : Nat) :
    ((rl.field .fncValues).datatype = none → getFncValues1D cd rl pos = .err) ∧
    (∀ d a, (rl.field .fncValues).datatype = some d → d ≠ .undefined → getNextAlignedAddress cd pos d rl = .ok a →
      getFncValues1D cd rl pos = .panic) ∧
    ∀ x, getFncValues1D cd rl pos ≠ .ok x := by
  have hun : ∀ d, d = DataType.undefined → ((rl.field .fncValues).datatype).getD .undefined = d → getFncValues1D cd rl pos = .err := by
    intro d hd h
    subst hd
    simp only [getFncValues1D, h]
    simp [getValue, getNextAlignedAddress, Res.bind, DataType.length, getBytes, getBytesLoop, convertByteSliceToDatatype]
  have hre : ∀ d, d ≠ .undefined → ((rl.field .fncValues).datatype).getD .undefined = d →
      ∀ r, getNextAlignedAddress cd pos d rl = r → (∀ a, r = .ok a → getFncValues1D cd rl pos = .panic) ∧ ∀ x, getFncValues1D cd rl pos ≠ .ok x := by
    intro d hd h r hr
    have h8 : 8 ≤ d.length := by cases d <;> first | contradiction | decide
    simp only [getFncValues1D, h, getValue, hr]
    cases r with
    | ok a => simp [Res.bind, C40_always_crashes cd a d.length h8]
    | err => simp [Res.bind]
    | panic => simp [Res.bind]
  refine ⟨fun h => hun _ rfl (by rw [h]; rfl), fun d a h hd ha => (hre d hd (by rw [h]; rfl) _ ha).1 a rfl, fun x => ?_⟩
  by_cases hd : ((rl.field .fncValues).datatype).getD .undefined = .undefined
  · rw [hun _ rfl hd]; simp
  · exact (hre _ hd rfl _ rfl).2 x

/-- The hypotheses: one byte at address 0. -/
example : getFncValues1D oneByteData { field := fun f => if f = .fncValues then { datatype := some .ubyte } else {} } 0 = .panic :=
  (C72_partial oneByteData _ 0).2.1 .ubyte 0 rfl (by decide) (by decide +kernel)

theorem C72_false : ¬ C72_full := by
  intro h
  obtain ⟨p, hp⟩ := h Unit { modules := [{}], hex := fun _ => some 7 } { field := fun f => if f = .fncValues then { datatype := some .ubyte } else {} }
    .ubyte 0 0 [7] (.num 7) rfl (by decide) (by decide +kernel) (by decide +kernel) (by decide +kernel)
  exact (C72_partial _ _ _).2.2 _ hp

/-- Reading a list of values: without a fixed number of points nothing is read, whatever the dimension says; with one, every positive
number of points crashes (a real data type) or is an error (none); the data type of the values is not used. -/
theorem C72_list_partial {P : Type} (cd : CalData P) (dimX : Nat) (rl : RecordLayout) (pos : Nat) :
    (rl.fixNoAxisPts .x = none → getFncValues2D cd dimX rl pos = if dimX = 0 then .err else .ok ([], pos)) ∧
    (rl.fixNoAxisPts .x = some 0 → getFncValues2D cd dimX rl pos = .ok ([], pos)) ∧
    (∀ n d a, rl.fixNoAxisPts .x = some (n + 1) → (rl.field .axisPtsX).datatype = some d → d ≠ .undefined →
      getNextAlignedAddress cd pos d rl = .ok a → getFncValues2D cd dimX rl pos = .panic) ∧
    (∀ n, rl.fixNoAxisPts .x = some (n + 1) → (rl.field .axisPtsX).datatype = none → getFncValues2D cd dimX rl pos = .err) ∧
    (∀ t, getFncValues2D cd dimX { rl with field := fun f => if f = .fncValues then t else rl.field f } pos =
      getFncValues2D cd dimX rl pos) := by
  refine ⟨fun h => ?_, fun h => ?_, fun n d a h hd hne ha => ?_, fun n h hd => ?_, fun t => ?_⟩
  · simp only [getFncValues2D, h]
    by_cases hd : dimX = 0
    · simp [hd]
    · rw [if_neg (by omega), if_neg hd]; rfl
  · simp only [getFncValues2D, h]; rfl
  · simp only [getFncValues2D, h, hd, Option.getD_some]
    exact axisLoop_crashes cd rl d hne n pos a [] ha
  · simp only [getFncValues2D, h, hd, Option.getD_none, axisLoop]
    simp [getValue, getNextAlignedAddress, Res.bind, DataType.length, getBytes, getBytesLoop, convertByteSliceToDatatype]
  · have hl : ∀ d n p acc, axisLoop cd { rl with field := fun f => if f = .fncValues then t else rl.field f } d n p acc =
        axisLoop cd rl d n p acc := by
      intro d n
      induction n with
      | zero => intro p acc; rfl
      | succ n ih =>
        intro p acc
        simp only [axisLoop, ih]
        rfl
    simp only [getFncValues2D, hl]
    rfl

/-- A dimension of 3 and no fixed number of points. -/
example : getFncValues2D oneByteData 3 { field := fun f => if f = .axisPtsX then { datatype := some .ubyte } else {} } 5 = .ok ([], 5) :=
  ((C72_list_partial oneByteData 3 _ 5).1 rfl).trans rfl

theorem C72_list_false : ¬ C72_list_full := by
  intro h
  exact absurd (h Unit {} 3 {} 0 [] 0 rfl rfl) (by decide)

end Verif.Calib.Props
