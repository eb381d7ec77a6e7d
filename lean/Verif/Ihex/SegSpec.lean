import Verif.Ihex.Model

/-!
Specification of the effect of extended linear address records: one sequential pass,
written without reference to the workers.
-/

namespace Verif.Ihex

open Verif.Go

namespace Seg

/-- Walk the records once, from top to bottom, remembering the upper half of the address
given by the most recent extended linear address record, and give it to every data
record. `seg` is the current upper half ("0000" before the first such record). -/
def applySegments (seg : Str) : List Record → List Record
  | [] => []
  | r :: rs =>
    if r.recordType = ['0', '4'] then r :: applySegments r.offset rs
    else if r.recordType = ['0', '0'] then { r with offset := seg } :: applySegments seg rs
    else r :: applySegments seg rs

/-- Data records as the line parser leaves them: upper half not yet known. -/
def Fresh (recs : List Record) : Prop :=
  ∀ r ∈ recs, r.recordType = ['0', '0'] → r.offset = ['0', '0', '0', '0']

/-- The upper half of the address in force at record `i`: `none` before the first
extended linear address record. -/
def segOf (recs : List Record) (i : Nat) : Option Str :=
  ((recs.take i).filter (fun r => r.recordType = ['0', '4'])).getLast?.map (·.offset)

/-- An explicitly given upper half "0000" that is used by a data record is never followed
by data with another upper half. -/
def ZeroSegmentLast (recs : List Record) : Prop :=
  ∀ b i rb ri, b < i → recs[b]? = some rb → recs[i]? = some ri →
    rb.recordType = ['0', '0'] → ri.recordType = ['0', '0'] →
    segOf recs b = some ['0', '0', '0', '0'] → segOf recs i = some ['0', '0', '0', '0']

end Seg

/-! The same with the constants of the model, for the proofs. -/

def applySegments (seg : Str) : List Record → List Record
  | [] => []
  | r :: rs =>
    if r.recordType = extendedLinearAddressRecordToken then r :: applySegments r.offset rs
    else if r.recordType = dataRecordToken then { r with offset := seg } :: applySegments seg rs
    else r :: applySegments seg rs

def Fresh (recs : List Record) : Prop :=
  ∀ r ∈ recs, r.recordType = dataRecordToken → r.offset = zeroOffset

def segOf (recs : List Record) (i : Nat) : Option Str :=
  ((recs.take i).filter (fun r => r.recordType = extendedLinearAddressRecordToken)).getLast?.map (·.offset)

def ZeroSegmentLast (recs : List Record) : Prop :=
  ∀ b i rb ri, b < i → recs[b]? = some rb → recs[i]? = some ri →
    rb.recordType = dataRecordToken → ri.recordType = dataRecordToken →
    segOf recs b = some zeroOffset → segOf recs i = some zeroOffset

theorem applySegments_spec (seg : Str) (recs : List Record) :
    applySegments seg recs = Seg.applySegments seg recs := by
  induction recs generalizing seg with
  | nil => rfl
  | cons r rs ih =>
    simp only [applySegments, Seg.applySegments, ih]
    rfl

theorem fresh_spec {recs : List Record} : Fresh recs ↔ Seg.Fresh recs := Iff.rfl

theorem zeroSegmentLast_spec {recs : List Record} : ZeroSegmentLast recs ↔ Seg.ZeroSegmentLast recs := Iff.rfl

end Verif.Ihex
