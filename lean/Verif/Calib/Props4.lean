import Verif.Calib.Spec
import Verif.Calib.Props

/-!
Properties C46, C47, C52, C54: record layouts.
-/

namespace Verif.Calib.Props

open Verif.Go Verif.Calib.Spec

/-! ### C46 Positions -/

/-- Two different fields have the same position. -/
def Clash (rl : RecordLayout) : Prop :=
  ∃ f g p, f ≠ g ∧ (rl.field f).position = some p ∧ (rl.field g).position = some p

theorem mem_positionOrder (f : Field) : f ∈ positionOrder := by cases f <;> decide +kernel

theorem nodup_positionOrder : positionOrder.Nodup := by decide +kernel

theorem name_inj : ∀ f ∈ positionOrder, ∀ g ∈ positionOrder, f.name = g.name → f = g := by
  decide +kernel

/-- Different fields have different names. -/
theorem Field.name_injective {f g : Field} (h : f.name = g.name) : f = g :=
  name_inj f (mem_positionOrder f) g (mem_positionOrder g) h

theorem positionsFrom_spec (rl : RecordLayout) (done fs : List Field) (order : Nat → Option Str)
    (hnd : (done ++ fs).Nodup)
    (horder : ∀ p n, order p = some n ↔ ∃ f ∈ done, (rl.field f).position = some p ∧ f.name = n)
    (hdone : ∀ f ∈ done, ∀ g ∈ done, ∀ p, (rl.field f).position = some p →
      (rl.field g).position = some p → f = g) :
    ((positionsFrom rl fs order).2 = true ↔
      ∃ f ∈ done ++ fs, ∃ g ∈ done ++ fs, ∃ p, f ≠ g ∧ (rl.field f).position = some p
        ∧ (rl.field g).position = some p)
    ∧ ((positionsFrom rl fs order).2 = false →
        ∀ p n, (positionsFrom rl fs order).1 p = some n ↔
          ∃ f ∈ done ++ fs, (rl.field f).position = some p ∧ f.name = n) := by
  induction fs generalizing done order with
  | nil =>
    simp only [positionsFrom, List.append_nil]
    refine ⟨?_, fun _ => horder⟩
    simp only [Bool.false_eq_true, false_iff]
    rintro ⟨f, hf, g, hg, p, hne, h1, h2⟩
    exact hne (hdone f hf g hg p h1 h2)
  | cons f fs ih =>
    have happ : done ++ f :: fs = (done ++ [f]) ++ fs := by simp
    have hfd : f ∉ done := by
      intro h
      rw [List.nodup_append] at hnd
      exact hnd.2.2 f h f (List.mem_cons_self ..) rfl
    rw [happ] at hnd ⊢
    unfold positionsFrom
    cases hp : (rl.field f).position with
    | none =>
      simp only
      apply ih (done ++ [f]) order hnd
      · intro p n
        rw [horder]
        constructor
        · rintro ⟨g, hg, h⟩; exact ⟨g, List.mem_append_left _ hg, h⟩
        · rintro ⟨g, hg, h⟩
          rcases List.mem_append.mp hg with hg | hg
          · exact ⟨g, hg, h⟩
          · simp at hg; subst hg; rw [hp] at h; exact absurd h.1 (by simp)
      · intro g hg g' hg' p h1 h2
        rcases List.mem_append.mp hg with hg | hg
        · rcases List.mem_append.mp hg' with hg' | hg'
          · exact hdone g hg g' hg' p h1 h2
          · simp at hg'; subst hg'; rw [hp] at h2; contradiction
        · simp at hg; subst hg; rw [hp] at h1; contradiction
    | some p0 =>
      simp only
      cases ho : order p0 with
      | some n0 =>
        simp only [true_iff]
        refine ⟨?_, by simp⟩
        obtain ⟨g, hg, h1, h2⟩ := (horder p0 n0).mp ho
        refine ⟨f, by simp, g, by simp [hg], p0, ?_, hp, h1⟩
        rintro rfl; exact hfd hg
      | none =>
        simp only
        apply ih (done ++ [f]) _ hnd
        · intro p n
          by_cases hpp : p = p0
          · subst hpp
            simp only [if_true]
            constructor
            · intro h; injection h with h; exact ⟨f, by simp, hp, h⟩
            · rintro ⟨g, hg, h1, h2⟩
              rcases List.mem_append.mp hg with hg | hg
              · have := (horder p n).mpr ⟨g, hg, h1, h2⟩
                rw [ho] at this; contradiction
              · simp at hg; subst hg; rw [h2]
          · simp only [hpp, if_false]
            rw [horder]
            constructor
            · rintro ⟨g, hg, h⟩; exact ⟨g, List.mem_append_left _ hg, h⟩
            · rintro ⟨g, hg, h⟩
              rcases List.mem_append.mp hg with hg | hg
              · exact ⟨g, hg, h⟩
              · simp at hg; subst hg; rw [hp] at h
                exact absurd (Option.some.inj h.1).symm hpp
        · have hno : ∀ g ∈ done, (rl.field g).position ≠ some p0 := by
            intro g hg h
            have := (horder p0 g.name).mpr ⟨g, hg, h, rfl⟩
            rw [ho] at this; contradiction
          intro g hg g' hg' p h1 h2
          rcases List.mem_append.mp hg with hg | hg
          · rcases List.mem_append.mp hg' with hg' | hg'
            · exact hdone g hg g' hg' p h1 h2
            · have e : g' = f := by simpa using hg'
              rw [e, hp] at h2; injection h2 with h2
              rw [← h2] at h1
              exact absurd h1 (hno g ‹_›)
          · simp at hg; subst hg
            rw [hp] at h1; injection h1 with h1; subst h1
            rcases List.mem_append.mp hg' with hg' | hg'
            · exact absurd h2 (hno g' hg')
            · simp at hg'; exact hg'.symm

/-- C46: the positions are rejected exactly when two fields share one; otherwise the map
sends each position to the name of the one field declared there, and contains nothing
else. -/
theorem C46 (rl : RecordLayout) :
    ((getRelativePositions rl).2 = true ↔ Clash rl)
    ∧ ((getRelativePositions rl).2 = false →
        (∀ p n, (getRelativePositions rl).1 p = some n ↔
          ∃ f, (rl.field f).position = some p ∧ f.name = n)
        ∧ (∀ p f g, (rl.field f).position = some p → (rl.field g).position = some p → f = g)) := by
  have h := positionsFrom_spec rl [] positionOrder (fun _ => none)
    (by simpa using nodup_positionOrder) (by simp) (by simp)
  simp only [List.nil_append] at h
  have hclash : (getRelativePositions rl).2 = true ↔ Clash rl := by
    unfold getRelativePositions
    rw [h.1]
    constructor
    · rintro ⟨f, -, g, -, p, h⟩; exact ⟨f, g, p, h⟩
    · rintro ⟨f, g, p, h⟩; exact ⟨f, mem_positionOrder f, g, mem_positionOrder g, p, h⟩
  refine ⟨hclash, fun hf => ⟨?_, ?_⟩⟩
  · intro p n
    have := h.2 hf p n
    unfold getRelativePositions
    rw [this]
    constructor
    · rintro ⟨f, -, h⟩; exact ⟨f, h⟩
    · rintro ⟨f, h⟩; exact ⟨f, mem_positionOrder f, h⟩
  · intro p f g h1 h2
    by_cases hfg : f = g
    · exact hfg
    · have := hclash.mpr ⟨f, g, p, hfg, h1, h2⟩
      rw [hf] at this; contradiction

/-- A layout with two fields at positions 1 and 2. -/
def twoFields : RecordLayout :=
  { field := fun f => if f = .noAxisPtsX then { position := some 1, datatype := some .ubyte }
      else if f = .axisPtsX then { position := some 2, datatype := some .uword } else {} }

example : (getRelativePositions twoFields).2 = false
    ∧ (getRelativePositions twoFields).1 2 = some "AxisPtsX".toList
    ∧ (getRelativePositions twoFields).1 3 = none := by decide +kernel

example : (getRelativePositions
    { field := fun f => if f = .noAxisPtsX ∨ f = .axisPtsX then { position := some 1 } else {} }).2
    = true := by decide +kernel

/-! ### C47 Data types by name -/

/-- A field with everything the standard demands: position and data type, for RESERVED
position and data size. -/
def Declared (rl : RecordLayout) (f : Field) : Prop :=
  (rl.field f).position ≠ none ∧
    (if f = .reserved then rl.reservedSize ≠ none else (rl.field f).datatype ≠ none)

/-- C47 in full. -/
def C47_full : Prop :=
  ∀ (rl : RecordLayout),
    (∀ f d, (rl.field f).datatype = some d → getDatatypeByFieldName rl f.name = .ok d)
    ∧ (∀ f, (rl.field f).datatype = none → getDatatypeByFieldName rl f.name = .err)
    ∧ (∀ n, (∀ f : Field, f.name ≠ n) → getDatatypeByFieldName rl n = .err)
    ∧ (∀ p n f, (getRelativePositions rl).2 = false → (getRelativePositions rl).1 p = some n →
        f.name = n → Declared rl f → ∃ d, getDatatypeByFieldName rl n = .ok d)

/-- False: "Reserved" is delivered as a positioned field but has no data type (it has a
data size, for which there is no lookup). -/
theorem C47_false : ¬ C47_full := by
  intro h
  obtain ⟨d, hd⟩ := (h { field := fun f => if f = .reserved then { position := some 1 } else {},
                          reservedSize := some .byte }).2.2.2 1 "Reserved".toList .reserved
    (by decide +kernel) (by decide +kernel) (by decide +kernel)
    ⟨by decide +kernel, by simp⟩
  have : getDatatypeByFieldName
      { field := fun f => if f = .reserved then { position := some 1 } else {},
        reservedSize := some .byte } "Reserved".toList = .err := by decide +kernel
  rw [this] at hd
  contradiction

theorem mem_datatypeOrder (f : Field) (h : f ≠ .reserved) : f ∈ datatypeOrder := by
  cases f <;> first | contradiction | decide +kernel

theorem find_name (f : Field) (h : f ≠ .reserved) :
    datatypeOrder.find? (fun g => g.name == f.name) = some f := by
  cases hf : datatypeOrder.find? (fun g => g.name == f.name) with
  | none =>
    have := List.find?_eq_none.mp hf f (mem_datatypeOrder f h)
    simp at this
  | some g =>
    have := List.find?_some hf
    simp at this
    rw [Field.name_injective this]

theorem find_unknown (n : Str) (h : ∀ f : Field, f ≠ .reserved → f.name ≠ n) :
    datatypeOrder.find? (fun g => g.name == n) = none := by
  rw [List.find?_eq_none]
  intro g hg
  have hr : g ≠ .reserved := by
    rintro rfl; exact absurd hg (by decide +kernel)
  simpa using h g hr

/-- C47 for all fields but RESERVED: the declared type is found, an undeclared one and an
unknown name are errors, and every delivered name of a fully declared field has its type.
Missing: "Reserved", whose lookup always fails (last part). -/
theorem C47_partial (rl : RecordLayout) :
    (∀ f d, f ≠ .reserved → (rl.field f).datatype = some d →
      getDatatypeByFieldName rl f.name = .ok d)
    ∧ (∀ f, (rl.field f).datatype = none → getDatatypeByFieldName rl f.name = .err)
    ∧ (∀ n, (∀ f : Field, f.name ≠ n) → getDatatypeByFieldName rl n = .err)
    ∧ (∀ p n f, (getRelativePositions rl).2 = false → (getRelativePositions rl).1 p = some n →
        f.name = n → f ≠ .reserved → Declared rl f →
        ∃ d, (rl.field f).datatype = some d ∧ getDatatypeByFieldName rl n = .ok d)
    ∧ getDatatypeByFieldName rl "Reserved".toList = .err := by
  have hres : getDatatypeByFieldName rl "Reserved".toList = .err := by
    unfold getDatatypeByFieldName
    rw [find_unknown]
    intro f hf h
    exact hf (Field.name_injective (g := .reserved) h)
  have hok : ∀ f d, f ≠ .reserved → (rl.field f).datatype = some d →
      getDatatypeByFieldName rl f.name = .ok d := by
    intro f d hf hd
    unfold getDatatypeByFieldName
    rw [find_name f hf]
    simp only [hd]
  refine ⟨hok, ?_, ?_, ?_, hres⟩
  · intro f hd
    by_cases hf : f = .reserved
    · subst hf; exact hres
    · unfold getDatatypeByFieldName
      rw [find_name f hf]
      simp only [hd]
  · intro n hn
    unfold getDatatypeByFieldName
    rw [find_unknown n (fun f _ => hn f)]
  · rintro p n f - - rfl hf ⟨-, hd⟩
    rw [if_neg hf] at hd
    obtain ⟨d, hd⟩ := Option.ne_none_iff_exists'.mp hd
    exact ⟨d, hd, hok f d hf hd⟩

example : getDatatypeByFieldName twoFields "AxisPtsX".toList = .ok .uword
    ∧ getDatatypeByFieldName twoFields "AxisPtsY".toList = .err := by decide +kernel

/-! ### C54 Reserved space -/

/-- Size of a RESERVED entry in bytes (ASAP2: BYTE 1, WORD 2, LONG 4). -/
def reservedBytes : DataSize → Nat
  | .byte => 1
  | .word => 2
  | .long => 4
  | .undefined => 0

/-- C54 in full: a reserved entry moves the read position by its size in bytes. -/
def C54_full : Prop :=
  ∀ (rl : RecordLayout) (s : DataSize) (pos : Nat), rl.reservedSize = some s →
    pos + reservedBytes s < 2 ^ 32 → getReserved rl pos = .ok (pos + reservedBytes s)

/-- False: a reserved byte moves the position by 8. -/
theorem C54_false : ¬ C54_full := by
  intro h
  have := h { reservedSize := some .byte } .byte 0 rfl (by decide)
  exact absurd this (by decide)

/-- The number by which the code moves the position: bits, WORD and LONG being taken for 32 and 64 bits. -/
def reservedStep : DataSize → Nat
  | .byte => 8
  | .word => 32
  | .long => 64
  | .undefined => 0

/-- C54 restricted to what holds: without a size there is an error, and the position moves
by 8, 32 or 64 - the code counts bits (and takes WORD and LONG for 32 and 64 bits) - and wraps
around at 2^32. The number is never that of the bytes.
Missing: the number of bytes. -/
theorem C54_partial (rl : RecordLayout) (pos : Nat) :
    (rl.reservedSize = none → getReserved rl pos = .err)
    ∧ (∀ s, rl.reservedSize = some s → getReserved rl pos = .ok ((pos + reservedStep s) % 2 ^ 32))
    ∧ (∀ s, s ≠ .undefined → reservedStep s ≠ reservedBytes s ∧ (reservedStep s = 8 * reservedBytes s ↔ s = .byte)) := by
  refine ⟨fun h => by simp [getReserved, h], fun s hs => ?_, fun s hu => ?_⟩
  · simp only [getReserved, hs]
    cases s <;> rfl
  · cases s <;> first | contradiction | decide

example : getReserved { reservedSize := some .word } 100 = .ok 132 ∧ getReserved { reservedSize := some .word } (2 ^ 32 - 2) = .ok 30 :=
  ⟨(C54_partial { reservedSize := some .word } 100).2.1 .word rfl, (C54_partial { reservedSize := some .word } (2 ^ 32 - 2)).2.1 .word rfl⟩

/-! ### C52 Reading the values of a characteristic -/

/-- The data type of a scalar field. -/
def scalarFields : List Field :=
  [.distOpX, .distOpY, .distOpZ, .distOp4, .distOp5, .noAxisPtsX, .noAxisPtsY, .noAxisPtsZ,
   .noAxisPts4, .noAxisPts5, .offsetX, .offsetY, .offsetZ, .offset4, .offset5,
   .shiftOpX, .shiftOpY, .shiftOpZ, .shiftOp4, .shiftOp5]

/-- `order` lists the fields of the map in some order (Go ranges over maps in an
unspecified order). -/
def IsRange (positions : Nat → Option Str) (order : List Str) : Prop :=
  order.Nodup ∧ ∀ n, n ∈ order ↔ ∃ p, positions p = some n

/-- C52 in full, for the simplest layouts: a record layout with a single one-byte scalar
field whose byte is in the hex data; the value read for that field is the byte. The
characteristic is set up by `NewCharacteristicValues` with the parsed record layout, in
which `RelativePositions` is not yet filled. -/
def C52_full : Prop :=
  ∀ (P : Type) (trunc : Val → Int) (cd : CalData P) (m : Module P) (rl : RecordLayout)
    (cv : CharValues) (dep addr : Str) (f : Field) (b : Nat) (bytes : List Nat)
    (order : List Str),
    cd.modules[cd.moduleIndex]? = some m → (∀ i, trunc (.num i) = i) →
    m.recordLayouts dep = some rl → m.modCommon.byteOrderSet = false →
    rl.relativePositions = (fun _ => none) →
    cv = { deposit := some dep, address := '0' :: 'x' :: addr, recordLayout := rl } →
    eightDigits addr = some bytes →
    f ∈ scalarFields →
    (rl.field f) = { position := some 1, datatype := some .ubyte } →
    (∀ g, g ≠ f → (rl.field g).position = none) →
    cd.hex (bigEndian bytes) = some b → b < 256 →
    IsRange cv.recordLayout.relativePositions order →
    ∃ cv', getValuesFromHex trunc cd cv order = some cv' ∧ cv'.scalar f = some (b : Int)

/-- A characteristic whose record layout comes from the parser (with an empty
`RelativePositions`) is left as it was: nothing is ever read. -/
theorem C52_nothing_read {P : Type} (trunc : Val → Int) (cd : CalData P) (cv : CharValues)
    (order : List Str) (hr : cv.recordLayout.relativePositions = fun _ => none)
    (ho : IsRange cv.recordLayout.relativePositions order) (cv' : CharValues)
    (h : getValuesFromHex trunc cd cv order = some cv') : cv' = cv := by
  have hnil : order = [] := by
    cases order with
    | nil => rfl
    | cons n ns =>
      obtain ⟨p, hp⟩ := (ho.2 n).mp (List.mem_cons_self ..)
      rw [hr] at hp; contradiction
  subst hnil
  unfold getValuesFromHex at h
  split at h
  · contradiction
  · contradiction
  · simp only at h
    split at h
    · contradiction
    · simp [fieldLoop] at h; exact h.symm
    · simp [fieldLoop] at h; exact h.symm

/-- The layout and data of the witness against C52: one byte, 7, at address 0. -/
def oneByteLayout : RecordLayout :=
  { field := fun f => if f = .noAxisPtsX then { position := some 1, datatype := some .ubyte } else {} }

def oneByteData : CalData Unit :=
  { modules := [{ recordLayouts := fun _ => some oneByteLayout }], hex := fun _ => some 7 }

/-- False: the byte is not read. -/
theorem C52_false : ¬ C52_full := by
  intro h
  obtain ⟨cv', h1, h2⟩ := h Unit (fun v => match v with | .num i => i | _ => 0)
    oneByteData { recordLayouts := fun _ => some oneByteLayout } oneByteLayout
    { deposit := some [], address := "0x00000000".toList, recordLayout := oneByteLayout }
    [] "00000000".toList .noAxisPtsX 7 [0, 0, 0, 0] [] rfl (fun _ => rfl) rfl rfl rfl rfl
    (by decide +kernel) (by decide +kernel) rfl
    (by intro g hg; simp [oneByteLayout, hg]) rfl (by decide)
    ⟨by simp, by simp [oneByteLayout]⟩
  have := C52_nothing_read _ _ _ [] rfl ⟨by simp, by simp [oneByteLayout]⟩ cv' h1
  rw [this] at h2
  simp at h2

/-- Even if the positions are filled in, reading any scalar field of a real data type
crashes (because every read of a byte does). -/
theorem C52_read_crashes {P : Type} (trunc : Val → Int) (cd : CalData P) (rl : RecordLayout)
    (f : Field) (d : DataType) (pos a : Nat) (hf : (rl.field f).datatype = some d)
    (hd : d ≠ .undefined) (ha : getNextAlignedAddress cd pos d rl = .ok a) :
    readScalar trunc cd rl f pos = .panic := by
  have h8 : 8 ≤ d.length := by cases d <;> first | contradiction | decide
  simp [readScalar, hf, getValue, ha, Res.bind, C40_always_crashes cd a d.length h8]

/-- C52 restricted to what holds: a characteristic without deposit, or whose deposit names
no record layout, crashes the reader, and otherwise (parsed layout, address of eight
digits) the call returns, leaving all values unread.
Missing: that any value is read. -/
theorem C52_partial {P : Type} (trunc : Val → Int) (cd : CalData P) (m : Module P)
    (cv : CharValues) (order : List Str) (hm : cd.modules[cd.moduleIndex]? = some m)
    (hr : cv.recordLayout.relativePositions = fun _ => none)
    (ho : IsRange cv.recordLayout.relativePositions order) :
    ((cv.deposit = none ∨ ∃ d, cv.deposit = some d ∧ m.recordLayouts d = none) →
      getValuesFromHex trunc cd cv order = none)
    ∧ (∀ d rl, cv.deposit = some d → m.recordLayouts d = some rl →
        convertStringToUint32Address cd cv.address ≠ .panic →
        getValuesFromHex trunc cd cv order = some cv) := by
  have hnil : order = [] := by
    cases order with
    | nil => rfl
    | cons n ns =>
      obtain ⟨p, hp⟩ := (ho.2 n).mp (List.mem_cons_self ..)
      rw [hr] at hp; contradiction
  subst hnil
  refine ⟨?_, ?_⟩
  · rintro (h | ⟨d, h1, h2⟩)
    · simp [getValuesFromHex, getRecordLayout, h]
    · simp [getValuesFromHex, getRecordLayout, h1, CalData.module?, index?, hm, h2]
  · intro d rl h1 h2 h3
    unfold getValuesFromHex getRecordLayout CalData.module? index?
    rw [h1, hm]
    simp only [h2]
    cases h : convertStringToUint32Address cd cv.address with
    | ok a => simp [fieldLoop]
    | err => simp [fieldLoop]
    | panic => exact absurd h h3

example : getValuesFromHex (fun _ => 0) oneByteData
    { deposit := some [], address := "0x00000000".toList, recordLayout := oneByteLayout } [] ≠ none := by
  rw [(C52_partial (fun _ => 0) oneByteData _
    { deposit := some [], address := "0x00000000".toList, recordLayout := oneByteLayout } [] rfl rfl
    ⟨by simp, by simp [oneByteLayout]⟩).2 [] oneByteLayout rfl rfl (by decide +kernel)]
  simp

end Verif.Calib.Props
