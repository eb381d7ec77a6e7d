import Verif.Calib.Walk
import Verif.Calib.FncValues

/-!
C79 with the points of the axes and with failed reads: a whole record, read through an arbitrary byte reader.
-/

namespace Verif.Calib.Props

open Verif.Go Verif.Calib.Spec

/-- What comes out of one field. -/
inductive Got where
  /-- One number. -/
  | number (i : Int)
  /-- The points of an axis. -/
  | points (vs : List Val)
  /-- Nothing is stored, the position moves over the field. -/
  | skipped
  /-- Nothing is stored, the position does not move. -/
  | passed
  /-- The read failed after `k` values. -/
  | failed (k : Nat)

/-- The fields that are not read: rescaled axes and addresses inside the controller. -/
def unread : List Field :=
  [.axisRescaleX, .ripAddrW, .ripAddrX, .ripAddrY, .ripAddrZ, .ripAddr4, .ripAddr5, .srcAddrX, .srcAddrY, .srcAddrZ, .srcAddr4, .srcAddr5]

/-- The number of addresses by which the position moves. -/
def Got.moves (rl : RecordLayout) (f : Field) : Got → Nat
  | .number _ | .skipped => Props.moves rl f
  | .points vs => vs.length * Props.moves rl f
  | .passed => 0
  | .failed k => k * Props.moves rl f

/-- The position after the fields of `before`. -/
def behind (rl : RecordLayout) (start : Nat) (before : List (Field × Got)) : Nat :=
  (start + (before.map fun x => x.2.moves rl x.1).sum) % 2 ^ 32

/-- The number of points of axis `a` is known to be `n` when the fields `before` have been read: it is fixed by the layout, or it has been
read (it is positive then), or it was known at the beginning. -/
def Known (rl : RecordLayout) (cv : CharValues) (before : List (Field × Got)) (a : Axis) (n : Nat) : Prop :=
  rl.fixNoAxisPts a = some n ∨
  rl.fixNoAxisPts a = none ∧ 0 < n ∧ ((a.noField, .number n) ∈ before ∨ (∀ g, (a.noField, g) ∉ before) ∧ cv.scalar a.noField = some (n : Int))

/-- The number of points is not known. -/
def Unknown (rl : RecordLayout) (cv : CharValues) (before : List (Field × Got)) (a : Axis) : Prop :=
  rl.fixNoAxisPts a = none ∧
  ((∃ k, (a.noField, .failed k) ∈ before) ∨ (∃ i, i ≤ 0 ∧ (a.noField, .number i) ∈ before) ∨
    (∀ g, (a.noField, g) ∉ before) ∧ (∀ i, cv.scalar a.noField = some i → i ≤ 0))

/-- One value of data type `d` at position `p`. -/
def ValueAt {P : Type} (cd : CalData P) (rl : RecordLayout) (get : Reader) (d : DataType) (p : Nat) (v : Val) : Prop :=
  ∃ bs, get p d rl = .ok bs ∧ convertByteSliceToDatatype cd bs d = .ok v

/-- What is read of field `f` at position `p`, the fields `before` having been read. -/
inductive FieldReads {P : Type} (cd : CalData P) (trunc : Val → Int) (rl : RecordLayout) (get : Reader) (cv : CharValues)
    (before : List (Field × Got)) (p : Nat) : Field → Got → Prop
  | number {f d v} (hf : f ∈ numberFields) (hd : (rl.field f).datatype = some d) (hv : ValueAt cd rl get d p v) :
      FieldReads cd trunc rl get cv before p f (.number (trunc v))
  | numberFails {f d} (hf : f ∈ numberFields) (hd : (rl.field f).datatype = some d) (he : NoValue cd rl get d p) :
      FieldReads cd trunc rl get cv before p f (.failed 0)
  | numberUntyped {f} (hf : f ∈ numberFields) (hd : (rl.field f).datatype = none) : FieldReads cd trunc rl get cv before p f (.failed 0)
  | points {a} {vs : List Val} {d} (hn : Known rl cv before a vs.length) (hd : (rl.field a.ptsField).datatype = some d)
      (hv : ∀ k v, vs[k]? = some v → ValueAt cd rl get d ((p + k * stepOf d) % 2 ^ 32) v) :
      FieldReads cd trunc rl get cv before p a.ptsField (.points vs)
  | pointsFail {a} {vs : List Val} {d n} (hn : Known rl cv before a n) (hl : vs.length < n) (hd : (rl.field a.ptsField).datatype = some d)
      (hv : ∀ k v, vs[k]? = some v → ValueAt cd rl get d ((p + k * stepOf d) % 2 ^ 32) v)
      (he : NoValue cd rl get d ((p + vs.length * stepOf d) % 2 ^ 32)) : FieldReads cd trunc rl get cv before p a.ptsField (.failed vs.length)
  | pointsUnknown {a} (hn : Unknown rl cv before a) : FieldReads cd trunc rl get cv before p a.ptsField (.failed 0)
  | values {v} (ht : rl.addressType = none ∨ rl.addressType = some .direct ∨ rl.addressType = some .pbyte)
      (hv : ValueAt cd rl get .ubyte p v) : FieldReads cd trunc rl get cv before p .fncValues .passed
  | valuesFail (ht : rl.addressType = none ∨ rl.addressType = some .direct ∨ rl.addressType = some .pbyte)
      (he : NoValue cd rl get .ubyte p) : FieldReads cd trunc rl get cv before p .fncValues .passed
  | pointers (ht : rl.addressType = some .undefined ∨ rl.addressType = some .pword ∨ rl.addressType = some .plong ∨ rl.addressType = some .plonglong) :
      FieldReads cd trunc rl get cv before p .fncValues .passed
  | identification {d bs} (hd : (rl.field .identification).datatype = some d) (hg : get p d rl = .ok bs) :
      FieldReads cd trunc rl get cv before p .identification .skipped
  | identificationFails {d} (hd : (rl.field .identification).datatype = some d) (hg : get p d rl = .err) :
      FieldReads cd trunc rl get cv before p .identification .passed
  | identificationUntyped (hd : (rl.field .identification).datatype = none) : FieldReads cd trunc rl get cv before p .identification .passed
  | reserved {s} (hs : rl.reservedSize = some s) : FieldReads cd trunc rl get cv before p .reserved .skipped
  | noReserved (hs : rl.reservedSize = none) : FieldReads cd trunc rl get cv before p .reserved .passed
  | unread {f} (hf : f ∈ unread) : FieldReads cd trunc rl get cv before p f .passed

/-- What a characteristic holds after the fields `xs` have been read: every number and every list of points under its own name,
the zero value where the read failed, and what was there before everywhere else. -/
structure Holds (cv : CharValues) (xs : List (Field × Got)) (cv' : CharValues) : Prop where
  number : ∀ f i, (f, Got.number i) ∈ xs → cv'.scalar f = some i
  noNumber : ∀ f k, f ∈ numberFields → (f, Got.failed k) ∈ xs → cv'.scalar f = none
  otherNumber : ∀ f, (∀ g, (f, g) ∉ xs) → cv'.scalar f = cv.scalar f
  points : ∀ (a : Axis) vs, (a.ptsField, Got.points vs) ∈ xs → cv'.axis a = some vs
  noPoints : ∀ (a : Axis) k, (a.ptsField, Got.failed k) ∈ xs → cv'.axis a = none
  otherPoints : ∀ a : Axis, (∀ g, (a.ptsField, g) ∉ xs) → cv'.axis a = cv.axis a
  deposit : cv'.deposit = cv.deposit
  address : cv'.address = cv.address
  recordLayout : cv'.recordLayout = cv.recordLayout

theorem pts_not_number (a : Axis) : a.ptsField ∉ numberFields := by cases a <;> decide
theorem no_number (a : Axis) : a.noField ∈ numberFields := by cases a <;> decide
theorem pts_action (a : Axis) : a.ptsField.action = .axis a := by cases a <;> rfl
theorem pts_injective {a b : Axis} (h : a.ptsField = b.ptsField) : a = b := by
  cases a <;> cases b <;> first | rfl | cases h
theorem pts_not_reserved (a : Axis) : a.ptsField ≠ .reserved := by cases a <;> simp [Axis.ptsField]

theorem unread_action {f : Field} (h : f ∈ unread) : f.action = .skip := by
  revert h
  cases f <;> decide

theorem known_count {rl : RecordLayout} {cv cv1 : CharValues} {before : List (Field × Got)} (hb : Holds cv before cv1) {a : Axis} {n : Nat}
    (h : Known rl cv before a n) : axisCount cv1 rl a = some n := by
  unfold axisCount
  rcases h with h | ⟨h, h0, h1⟩
  · rw [h]
  · have : cv1.scalar a.noField = some (n : Int) := by
      rcases h1 with h1 | ⟨h1, h2⟩
      · exact hb.number _ _ h1
      · rw [hb.otherNumber _ h1, h2]
    rw [h, this]
    simp only
    rw [if_neg (by omega)]
    rfl

theorem unknown_count {rl : RecordLayout} {cv cv1 : CharValues} {before : List (Field × Got)} (hb : Holds cv before cv1) {a : Axis}
    (h : Unknown rl cv before a) : axisCount cv1 rl a = none := by
  unfold axisCount
  rw [h.1]
  simp only
  rcases h.2 with ⟨k, h1⟩ | ⟨i, hi, h1⟩ | ⟨h1, h2⟩
  · rw [hb.noNumber _ k (no_number a) h1]
  · rw [hb.number _ _ h1]
    simp only
    rw [if_pos hi]
  · rw [hb.otherNumber _ h1]
    cases he : cv.scalar a.noField with
    | none => rfl
    | some i =>
      simp only
      rw [if_pos (h2 i he)]

theorem fncValues_harmless {P : Type} (cd : CalData P) (rl : RecordLayout) (p : Nat) (get : Reader)
    (h : getFncValues cd rl p get ≠ .panic) (trunc : Val → Int) (cv : CharValues) :
    fieldStep trunc cd rl (cv, p) Field.fncValues.name get = some (cv, p) := by
  unfold fieldStep
  rw [find_position]
  simp only [Field.action]
  cases hg : getFncValues cd rl p get with
  | ok _ => rfl
  | err => rfl
  | panic => exact absurd hg h

theorem mem_append_one {α : Type} {x y : α} {l : List α} : x ∈ l ++ [y] ↔ x ∈ l ∨ x = y := by
  rw [List.mem_append, List.mem_singleton]

/-- A field after which nothing has changed. -/
theorem holds_same {cv cv1 : CharValues} {before : List (Field × Got)} (hb : Holds cv before cv1) {f : Field} {g : Got}
    (h1 : ∀ i, g ≠ .number i) (h2 : ∀ vs, g ≠ .points vs) (h3 : ∀ k, g ≠ .failed k)
    : Holds cv (before ++ [(f, g)]) cv1 where
  number f' i h := by
    rcases mem_append_one.1 h with h | h
    · exact hb.number _ _ h
    · exact absurd (Prod.mk.inj h).2.symm (h1 i)
  noNumber f' k hf h := by
    rcases mem_append_one.1 h with h | h
    · exact hb.noNumber _ _ hf h
    · exact absurd (Prod.mk.inj h).2.symm (h3 k)
  otherNumber f' h := hb.otherNumber _ fun g' hg => h g' (mem_append_one.2 (.inl hg))
  points a vs h := by
    rcases mem_append_one.1 h with h | h
    · exact hb.points _ _ h
    · exact absurd (Prod.mk.inj h).2.symm (h2 vs)
  noPoints a k h := by
    rcases mem_append_one.1 h with h | h
    · exact hb.noPoints _ _ h
    · exact absurd (Prod.mk.inj h).2.symm (h3 k)
  otherPoints a h := hb.otherPoints _ fun g' hg => h g' (mem_append_one.2 (.inl hg))
  deposit := hb.deposit
  address := hb.address
  recordLayout := hb.recordLayout

/-- A number has been stored, or has failed to be. -/
theorem holds_number {cv cv1 : CharValues} {before : List (Field × Got)} (hb : Holds cv before cv1) {f : Field} (hf : f ∈ numberFields)
    (hnew : ∀ g, (f, g) ∉ before) {g : Got} {r : Option Int} (hg : (∃ i, g = .number i ∧ r = some i) ∨ ∃ k, g = .failed k ∧ r = none) :
    Holds cv (before ++ [(f, g)]) { cv1 with scalar := fun f' => if f' = f then r else cv1.scalar f' } where
  number f' i h := by
    rcases mem_append_one.1 h with h' | h
    · have : f' ≠ f := by rintro rfl; exact hnew _ h'
      simp only [if_neg this]
      exact hb.number _ _ h'
    · obtain ⟨rfl, rfl⟩ := Prod.mk.inj h
      rcases hg with ⟨i', h1, h2⟩ | ⟨k, h1, h2⟩
      · cases h1; simp [h2]
      · cases h1
  noNumber f' k hf' h := by
    rcases mem_append_one.1 h with h' | h
    · have : f' ≠ f := by rintro rfl; exact hnew _ h'
      simp only [if_neg this]
      exact hb.noNumber _ _ hf' h'
    · obtain ⟨rfl, rfl⟩ := Prod.mk.inj h
      rcases hg with ⟨i', h1, h2⟩ | ⟨k, h1, h2⟩
      · cases h1
      · simp [h2]
  otherNumber f' h := by
    have : f' ≠ f := by rintro rfl; exact h _ (mem_append_one.2 (.inr rfl))
    simp only [if_neg this]
    exact hb.otherNumber _ fun g' hg' => h g' (mem_append_one.2 (.inl hg'))
  points a vs h := by
    rcases mem_append_one.1 h with h | h
    · exact hb.points _ _ h
    · exact absurd ((Prod.mk.inj h).1 ▸ hf) (pts_not_number a)
  noPoints a k h := by
    rcases mem_append_one.1 h with h | h
    · exact hb.noPoints _ _ h
    · exact absurd ((Prod.mk.inj h).1 ▸ hf) (pts_not_number a)
  otherPoints a h := hb.otherPoints _ fun g' hg => h g' (mem_append_one.2 (.inl hg))
  deposit := hb.deposit
  address := hb.address
  recordLayout := hb.recordLayout

/-- The points of an axis have been stored, or have failed to be. -/
theorem holds_points {cv cv1 : CharValues} {before : List (Field × Got)} (hb : Holds cv before cv1) {a : Axis}
    (hnew : ∀ g, (a.ptsField, g) ∉ before) {g : Got} {r : Option (List Val)}
    (hg : (∃ vs, g = .points vs ∧ r = some vs) ∨ ∃ k, g = .failed k ∧ r = none) :
    Holds cv (before ++ [(a.ptsField, g)]) { cv1 with axis := fun b => if b = a then r else cv1.axis b } where
  number f' i h := by
    rcases mem_append_one.1 h with h | h
    · exact hb.number _ _ h
    · rcases hg with ⟨_, h1, _⟩ | ⟨_, h1, _⟩ <;> rw [h1] at h <;> cases (Prod.mk.inj h).2
  noNumber f' k hf h := by
    rcases mem_append_one.1 h with h | h
    · exact hb.noNumber _ _ hf h
    · exact absurd ((Prod.mk.inj h).1 ▸ hf) (pts_not_number a)
  otherNumber f' h := hb.otherNumber _ fun g' hg => h g' (mem_append_one.2 (.inl hg))
  points b vs h := by
    rcases mem_append_one.1 h with h' | h
    · have : b ≠ a := by rintro rfl; exact hnew _ h'
      simp only [if_neg this]
      exact hb.points _ _ h'
    · obtain ⟨h0, rfl⟩ := Prod.mk.inj h
      cases pts_injective h0
      rcases hg with ⟨_, h1, h2⟩ | ⟨k, h1, h2⟩
      · cases h1; simp [h2]
      · cases h1
  noPoints b k h := by
    rcases mem_append_one.1 h with h' | h
    · have : b ≠ a := by rintro rfl; exact hnew _ h'
      simp only [if_neg this]
      exact hb.noPoints _ _ h'
    · obtain ⟨h0, rfl⟩ := Prod.mk.inj h
      cases pts_injective h0
      rcases hg with ⟨_, h1, h2⟩ | ⟨k, h1, h2⟩
      · cases h1
      · simp [h2]
  otherPoints b h := by
    have : b ≠ a := by rintro rfl; exact h _ (mem_append_one.2 (.inr rfl))
    simp only [if_neg this]
    exact hb.otherPoints _ fun g' hg' => h g' (mem_append_one.2 (.inl hg'))
  deposit := hb.deposit
  address := hb.address
  recordLayout := hb.recordLayout

theorem moves_typed {rl : RecordLayout} {f : Field} {d : DataType} (h : (rl.field f).datatype = some d) (hr : f ≠ .reserved) :
    moves rl f = stepOf d := by
  rw [moves, if_neg hr, h]; rfl

/-- One field of the walk. -/
theorem record_step {P : Type} {cd : CalData P} {trunc : Val → Int} {rl : RecordLayout} {get : Reader} {cv cv1 : CharValues}
    {before : List (Field × Got)} (hb : Holds cv before cv1) {p : Nat} (hp : p < 2 ^ 32) {f : Field} {g : Got}
    (hnew : ∀ g, (f, g) ∉ before) (h : FieldReads cd trunc rl get cv before p f g) :
    ∃ cv2, fieldStep trunc cd rl (cv1, p) f.name get = some (cv2, (p + g.moves rl f) % 2 ^ 32) ∧ Holds cv (before ++ [(f, g)]) cv2 := by
  have hp0 : (p + 0) % 2 ^ 32 = p := by rw [Nat.add_zero, Nat.mod_eq_of_lt hp]
  have hscalar : f ∈ numberFields → fieldStep trunc cd rl (cv1, p) f.name get = match readScalar trunc cd rl f p get with
      | .ok (v, p) => some ({ cv1 with scalar := fun g => if g = f then some v else cv1.scalar g }, p)
      | .err => some ({ cv1 with scalar := fun g => if g = f then none else cv1.scalar g }, p)
      | .panic => none := by
    intro hf
    unfold fieldStep
    rw [find_position]
    simp only [number_action hf]
    cases readScalar trunc cd rl f p get <;> rfl
  have haxis : ∀ a : Axis, f = a.ptsField → fieldStep trunc cd rl (cv1, p) f.name get = match getAxisPoints cd cv1 rl a p get with
      | .ok (vs, p) => some ({ cv1 with axis := fun b => if b = a then some vs else cv1.axis b }, p)
      | .err => some ({ cv1 with axis := fun b => if b = a then none else cv1.axis b }, axisErrPos cd cv1 rl a p get)
      | .panic => none := by
    intro a ha
    subst ha
    unfold fieldStep
    rw [find_position]
    simp only [pts_action]
    cases getAxisPoints cd cv1 rl a p get <;> rfl
  cases h with
  | number hf hd hv =>
    obtain ⟨bs, h1, h2⟩ := hv
    refine ⟨_, (hscalar hf).trans ?_, holds_number hb hf hnew (.inl ⟨_, rfl, rfl⟩)⟩
    simp only [readScalar, hd, h1, h2, Res.bind, Got.moves, moves_typed hd (number_not_reserved hf), length_step]
  | numberFails hf hd he =>
    refine ⟨_, (hscalar hf).trans ?_, holds_number hb hf hnew (.inr ⟨_, rfl, rfl⟩)⟩
    rcases he with he | ⟨bs, he, hc⟩
    · simp only [readScalar, hd, he, Res.bind, Got.moves, Nat.zero_mul, hp0]
    · simp only [readScalar, hd, he, hc, Res.bind, Got.moves, Nat.zero_mul, hp0]
  | numberUntyped hf hd =>
    refine ⟨_, (hscalar hf).trans ?_, holds_number hb hf hnew (.inr ⟨_, rfl, rfl⟩)⟩
    simp only [readScalar, hd, Got.moves, Nat.zero_mul, hp0]
  | @points a vs d hn hd hv =>
    refine ⟨_, (haxis a rfl).trans ?_, holds_points hb hnew (.inl ⟨_, rfl, rfl⟩)⟩
    simp only [getAxisPoints, known_count hb hn, hd, Option.getD_some, (C79_axis_partial cd rl get d vs [] p hp hv).1, List.nil_append,
      Got.moves, moves_typed hd (pts_not_reserved a)]
  | @pointsFail a vs d n hn hl hd hv he =>
    refine ⟨_, (haxis a rfl).trans ?_, holds_points hb hnew (.inr ⟨_, rfl, rfl⟩)⟩
    have := C79_axis_error cd rl get d vs [] p n hp hl hv he
    simp only [getAxisPoints, axisErrPos, known_count hb hn, hd, Option.getD_some, this.1, this.2,
      Got.moves, moves_typed hd (pts_not_reserved a)]
  | @pointsUnknown a hn =>
    refine ⟨_, (haxis a rfl).trans ?_, holds_points hb hnew (.inr ⟨_, rfl, rfl⟩)⟩
    simp only [getAxisPoints, axisErrPos, unknown_count hb hn, Got.moves, Nat.zero_mul, hp0]
  | values ht hv =>
    obtain ⟨bs, h1, h2⟩ := hv
    refine ⟨cv1, ?_, holds_same hb (by simp) (by simp) (by simp)⟩
    rw [fncValues_harmless, Got.moves, hp0]
    rcases ht with ht | ht | ht <;> simp [getFncValues, ht, h1, h2, Res.bind]
  | valuesFail ht he =>
    refine ⟨cv1, ?_, holds_same hb (by simp) (by simp) (by simp)⟩
    rw [fncValues_harmless, Got.moves, hp0]
    rcases he with he | ⟨bs, he, hc⟩
    · rcases ht with ht | ht | ht <;> simp [getFncValues, ht, he, Res.bind]
    · rcases ht with ht | ht | ht <;> simp [getFncValues, ht, he, hc, Res.bind]
  | pointers ht =>
    refine ⟨cv1, ?_, holds_same hb (by simp) (by simp) (by simp)⟩
    rw [fncValues_harmless, Got.moves, hp0]
    rcases ht with ht | ht | ht | ht <;> simp [getFncValues, ht]
  | identification hd hg =>
    refine ⟨cv1, ?_, holds_same hb (by simp) (by simp) (by simp)⟩
    unfold fieldStep
    rw [find_position]
    simp only [Field.action, getIdentification, hd, hg, Res.bind, Got.moves, moves_typed hd (by decide), length_step]
  | identificationFails hd hg =>
    refine ⟨cv1, ?_, holds_same hb (by simp) (by simp) (by simp)⟩
    unfold fieldStep
    rw [find_position]
    simp only [Field.action, getIdentification, hd, hg, Res.bind, Got.moves, hp0]
  | identificationUntyped hd =>
    refine ⟨cv1, ?_, holds_same hb (by simp) (by simp) (by simp)⟩
    unfold fieldStep
    rw [find_position]
    simp only [Field.action, getIdentification, hd, Got.moves, hp0]
  | noReserved hs =>
    refine ⟨cv1, ?_, holds_same hb (by simp) (by simp) (by simp)⟩
    unfold fieldStep
    rw [find_position]
    simp only [Field.action, getReserved, hs, Got.moves, hp0]
  | reserved hs =>
    refine ⟨cv1, ?_, holds_same hb (by simp) (by simp) (by simp)⟩
    unfold fieldStep
    rw [find_position]
    simp only [Field.action, (C54_partial rl p).2.1 _ hs, Got.moves, moves, hs]
    rfl
  | unread hf =>
    refine ⟨cv1, ?_, holds_same hb (by simp) (by simp) (by simp)⟩
    unfold fieldStep
    rw [find_position]
    simp only [unread_action hf, Got.moves, hp0]

theorem record_loop {P : Type} {cd : CalData P} {trunc : Val → Int} {rl : RecordLayout} {get : Reader} {cv : CharValues} (start : Nat) :
    ∀ (xs before : List (Field × Got)) (cv1 : CharValues), Holds cv before cv1 → ((before ++ xs).map Prod.fst).Nodup →
    (∀ k f g, xs[k]? = some (f, g) → FieldReads cd trunc rl get cv (before ++ xs.take k) (behind rl start (before ++ xs.take k)) f g) →
    ∃ cv2, fieldLoop trunc cd rl (xs.map fun x => x.1.name) (cv1, behind rl start before) get = some (cv2, behind rl start (before ++ xs)) ∧
      Holds cv (before ++ xs) cv2
  | [], before, cv1, hb, _, _ => ⟨cv1, by simp [fieldLoop], by simpa using hb⟩
  | (f, g) :: xs, before, cv1, hb, hn, h => by
    have h0 := h 0 f g rfl
    rw [List.take_zero, List.append_nil] at h0
    have hnew : ∀ g, (f, g) ∉ before := by
      intro g' hg'
      rw [List.map_append, List.nodup_append] at hn
      exact hn.2.2 _ (List.mem_map.2 ⟨_, hg', rfl⟩) f (by simp) rfl
    obtain ⟨cv2, e1, hb2⟩ := record_step (p := behind rl start before) hb (Nat.mod_lt _ (by decide)) hnew h0
    have hpos : (behind rl start before + g.moves rl f) % 2 ^ 32 = behind rl start (before ++ [(f, g)]) := by
      simp only [behind, List.map_append, List.map_cons, List.map_nil, List.sum_append, List.sum_cons, List.sum_nil, Nat.add_zero]
      rw [Nat.mod_add_mod, Nat.add_assoc]
    have happ : ∀ l, before ++ (f, g) :: l = before ++ [(f, g)] ++ l := by simp
    obtain ⟨cv3, e2, hb3⟩ := record_loop start xs (before ++ [(f, g)]) cv2 hb2 (by rw [← happ]; exact hn) (fun k f' g' hk => by
      rw [← happ, ← List.take_succ_cons]
      exact h (k + 1) f' g' hk)
    refine ⟨cv3, ?_, by rw [happ]; exact hb3⟩
    rw [List.map_cons, fieldLoop, e1]
    simp only
    rw [hpos, e2, happ xs]

/-- C79 for whole records, restricted to what holds, for any byte reader: numbers, points of axes whose number is fixed or has been read
before, identifications, reserved space, values and addresses inside the controller, in the order in which Go ranges over the positions.
Everything that can be read is stored under its own name, what fails is zero, nothing else changes, and each field is
looked for at the start plus the bits of the fields before it; a failed read does not move the position, except over the points read before the
one that failed.
Missing: the number of bytes (`C79_false`), the order of the fields (`C79_order_false`). -/
theorem C79_record_partial {P : Type} (cd : CalData P) (trunc : Val → Int) (rl : RecordLayout) (get : Reader) (cv : CharValues) (start : Nat)
    (hs : start < 2 ^ 32) (xs : List (Field × Got)) (hn : (xs.map Prod.fst).Nodup)
    (h : ∀ (k : Nat) f g, xs[k]? = some (f, g) → FieldReads cd trunc rl get cv (xs.take k) (behind rl start (xs.take k)) f g) :
    ∃ cv', fieldLoop trunc cd rl (xs.map fun x => x.1.name) (cv, start) get = some (cv', behind rl start xs) ∧ Holds cv xs cv' := by
  have := record_loop start xs [] cv ⟨by simp, by simp, fun _ _ => rfl, by simp, by simp, fun _ _ => rfl, rfl, rfl, rfl⟩ (by simpa using hn)
    (by simpa using h)
  rw [show behind rl start [] = start by simp [behind, Nat.mod_eq_of_lt hs]] at this
  simpa using this

/-- `getFncValues1D` and `getFncValues2D` with any byte reader: the value at the position and the position after it, in bits; as many values as
FIX_NO_AXIS_PTS_X says, found like the points of an axis, with the data type of the x-axis.
Missing: `C72_false`, `C72_list_false`. -/
theorem C72_reader_partial {P : Type} (cd : CalData P) (rl : RecordLayout) (get : Reader) (pos dimX : Nat) (hp : pos < 2 ^ 32) :
    (∀ d bs v, (rl.field .fncValues).datatype = some d → get pos d rl = .ok bs → convertByteSliceToDatatype cd bs d = .ok v →
      getFncValues1D cd rl pos get = .ok (v, bs, (pos + stepOf d) % 2 ^ 32)) ∧
    (∀ d, (rl.field .fncValues).datatype = some d → NoValue cd rl get d pos → getFncValues1D cd rl pos get = .err) ∧
    (∀ d (vs : List Val), rl.fixNoAxisPts .x = some vs.length → (rl.field .axisPtsX).datatype = some d →
      (∀ k v, vs[k]? = some v → ValueAt cd rl get d ((pos + k * stepOf d) % 2 ^ 32) v) →
      getFncValues2D cd dimX rl pos get = .ok (vs, (pos + vs.length * stepOf d) % 2 ^ 32)) := by
  refine ⟨fun d bs v hd hg hc => ?_, fun d hd hg => ?_, fun d vs hn hd hv => ?_⟩
  · simp only [getFncValues1D, hd, Option.getD_some, hg, Res.bind, hc, length_step]
  · rcases hg with hg | ⟨bs, hg, hc⟩
    · simp only [getFncValues1D, hd, Option.getD_some, hg, Res.bind]
    · simp only [getFncValues1D, hd, Option.getD_some, hg, hc, Res.bind]
  · simp only [getFncValues2D, hn, hd, Option.getD_some, (C79_axis_partial cd rl get d vs [] pos hp hv).1, List.nil_append]

/-- Near the end of the address space: the position wraps. -/
example : getFncValues1D emptyData { field := fun f => if f = .fncValues then { datatype := some .ubyte } else {} } 4294967295 (fun _ _ _ => .ok [5]) =
    .ok (.num 5, [5], 7) :=
  (C72_reader_partial emptyData _ _ 4294967295 0 (by decide)).1 .ubyte [5] (.num 5) rfl rfl (by decide +kernel)

/-- `getFncValues` with any byte reader: it reads one byte if the address type is DIRECT or PBYTE or is not given, nothing for the longer
pointers, and rejects every other address type. It answers no values in any case: it succeeds or fails or crashes. -/
theorem C72_address_types {P : Type} (cd : CalData P) (rl : RecordLayout) (get : Reader) (pos : Nat) :
    (getFncValues cd rl pos get = .ok () ↔
      rl.addressType ∈ [some .pword, some .plong, some .plonglong] ∨
      rl.addressType ∈ [none, some .direct, some .pbyte] ∧ ∃ v, ValueAt cd rl get .ubyte pos v) ∧
    (getFncValues cd rl pos get = .err ↔
      rl.addressType = some .undefined ∨ rl.addressType ∈ [none, some .direct, some .pbyte] ∧ NoValue cd rl get .ubyte pos) := by
  have hread : ∀ r : Res Unit, r = ((get pos .ubyte rl).bind fun bs => (convertByteSliceToDatatype cd bs .ubyte).bind fun _ => .ok ()) →
      (r = .ok () ↔ ∃ v, ValueAt cd rl get .ubyte pos v) ∧ (r = .err ↔ NoValue cd rl get .ubyte pos) := by
    intro r hr
    subst hr
    unfold ValueAt NoValue
    cases hg : get pos .ubyte rl with
    | ok bs =>
      cases hc : convertByteSliceToDatatype cd bs .ubyte with
      | ok v => exact ⟨⟨fun _ => ⟨v, bs, rfl, hc⟩, fun _ => by simp [Res.bind, hc]⟩, by simp [Res.bind, hc]⟩
      | err => exact ⟨by simp [Res.bind, hc], by simp [Res.bind, hc]⟩
      | panic => exact ⟨by simp [Res.bind, hc], by simp [Res.bind, hc]⟩
    | err => simp [Res.bind]
    | panic => simp [Res.bind]
  have := hread _ rfl
  cases ht : rl.addressType with
  | none => simp only [getFncValues, ht, Option.getD_none]; simpa using this
  | some t =>
    cases t <;> simp only [getFncValues, ht, Option.getD_some] <;> first | (simpa using this) | simp

/-- Two bytes of a pointer are not read. -/
example : getFncValues emptyData { addressType := some .pword } 0 (fun _ _ _ => .panic) = .ok () ∧
    getFncValues emptyData { addressType := some .pbyte } 0 (fun _ _ _ => .err) = .err :=
  ⟨(C72_address_types _ _ _ _).1.2 (.inl (by decide)), (C72_address_types _ _ _ _).2.2 (.inr ⟨by decide, .inl rfl⟩)⟩

/-- Such a record: the number of points of the x-axis, its points, a number that has no data type, and an address inside the controller. -/
def axisRecord : RecordLayout := { field := fun f => if f = .noAxisPtsX ∨ f = .axisPtsX then { datatype := some .ubyte } else {} }

/-- The bytes 2, 7 and 9 at the addresses 0, 8 and 16. -/
def axisGet : Reader := fun p _ _ => if p = 0 then .ok [2] else if p = 8 then .ok [7] else if p = 16 then .ok [9] else .err

def axisReads : List (Field × Got) := [(.noAxisPtsX, .number 2), (.axisPtsX, .points [.num 7, .num 9]), (.distOpX, .failed 0), (.srcAddrX, .passed)]

example : ∃ cv', fieldLoop intOf emptyData axisRecord ([.noAxisPtsX, .axisPtsX, .distOpX, .srcAddrX].map Field.name) (emptyValues, 0) axisGet = some (cv', 24) ∧
    cv'.scalar .noAxisPtsX = some 2 ∧ cv'.axis .x = some [.num 7, .num 9] ∧ cv'.scalar .distOpX = none ∧ cv'.axis .y = none := by
  obtain ⟨cv', h1, h2⟩ := C79_record_partial emptyData intOf axisRecord axisGet emptyValues 0 (by decide) axisReads (by decide) (fun k f g hk => by
    match k with
    | 0 => cases hk; exact .number (d := .ubyte) (v := .num 2) (by decide) rfl ⟨[2], by decide +kernel, by decide +kernel⟩
    | 1 =>
      cases hk
      refine .points (a := .x) (d := .ubyte) (.inr ⟨rfl, by decide, .inl (List.mem_singleton.2 rfl)⟩) rfl (fun k v hk => ?_)
      match k with
      | 0 => cases hk; exact ⟨[7], by decide +kernel, by decide +kernel⟩
      | 1 => cases hk; exact ⟨[9], by decide +kernel, by decide +kernel⟩
      | k + 2 => simp at hk
    | 2 => cases hk; exact .numberUntyped (by decide) rfl
    | 3 => cases hk; exact .unread (by decide)
    | k + 4 => simp [axisReads] at hk)
  exact ⟨cv', h1, h2.number _ _ (by simp [axisReads]), h2.points .x _ (by simp [axisReads, Axis.ptsField]), h2.noNumber _ 0 (by decide) (by simp [axisReads]),
    h2.otherPoints .y (by simp [axisReads, Axis.ptsField])⟩

end Verif.Calib.Props
