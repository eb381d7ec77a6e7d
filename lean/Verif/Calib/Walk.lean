import Verif.Calib.Props5

/-!
C79: the walk through the fields of a record. What the functions do apart from `getValue`, which crashes for every data
type (C40), is stated for an arbitrary byte reader in its place.
-/

namespace Verif.Calib.Props

open Verif.Go Verif.Calib.Spec

/-- The number by which the position moves after a value of a data type: bits, UWORD and SWORD being taken for 32 bits. -/
def stepOf : DataType → Nat
  | .ubyte | .sbyte => 8
  | .uword | .sword | .ulong | .slong | .float32 => 32
  | .aUint64 | .aInt64 | .float64 => 64
  | .float16 => 16
  | .undefined => 0

/-- The fields that hold one number. -/
def numberFields : List Field := scalarFields ++ [.noRescaleX]

/-- What is read of field `f` at position `p`: a number; or something that is skipped (`none`). -/
inductive Reads {P : Type} (cd : CalData P) (trunc : Val → Int) (rl : RecordLayout) (get : Reader) (p : Nat) : Field → Option Int → Prop
  | number {f d bs v} (hf : f ∈ numberFields) (hd : (rl.field f).datatype = some d) (hg : get p d rl = .ok bs)
      (hc : convertByteSliceToDatatype cd bs d = .ok v) : Reads cd trunc rl get p f (some (trunc v))
  | identification {d bs} (hd : (rl.field .identification).datatype = some d) (hg : get p d rl = .ok bs) :
      Reads cd trunc rl get p .identification none
  | reserved {s} (hs : rl.reservedSize = some s) : Reads cd trunc rl get p .reserved none

/-- The number by which field `f` moves the position. -/
def moves (rl : RecordLayout) (f : Field) : Nat :=
  if f = .reserved then (rl.reservedSize.map reservedStep).getD 0 else ((rl.field f).datatype.map stepOf).getD 0

/-- The position of a field after the fields `before`. -/
def after (rl : RecordLayout) (start : Nat) (before : List Field) : Nat := (start + (before.map (moves rl)).sum) % 2 ^ 32

theorem find_position (f : Field) : positionOrder.find? (fun g => g.name == f.name) = some f := by
  cases f <;> decide +kernel

theorem number_action {f : Field} (h : f ∈ numberFields) : f.action = .scalar := by
  revert h
  cases f <;> decide

theorem number_not_reserved {f : Field} (h : f ∈ numberFields) : f ≠ .reserved := by
  rintro rfl
  exact absurd h (by decide)

theorem length_step (d : DataType) : d.length = stepOf d := by cases d <;> rfl

/-- One field. -/
theorem walk_step {P : Type} {cd : CalData P} {trunc : Val → Int} {rl : RecordLayout} {get : Reader} {p : Nat} {f : Field} {r : Option Int}
    (h : Reads cd trunc rl get p f r) (cv : CharValues) :
    ∃ cv', fieldStep trunc cd rl (cv, p) f.name get = some (cv', (p + moves rl f) % 2 ^ 32) ∧
      (∀ g, cv'.scalar g = if g = f ∧ r.isSome then r else cv.scalar g) ∧ cv'.axis = cv.axis ∧ cv'.deposit = cv.deposit ∧
      cv'.address = cv.address ∧ cv'.recordLayout = cv.recordLayout := by
  unfold fieldStep
  rw [find_position]
  cases h with
  | number hf hd hg hc =>
    simp only [number_action hf, readScalar, hd, hg, hc, Res.bind]
    refine ⟨{ cv with scalar := fun g => if g = _ then some _ else cv.scalar g },
      by rw [moves, if_neg (number_not_reserved hf), hd, length_step]; rfl, fun g => ?_, rfl, rfl, rfl, rfl⟩
    simp only [Option.isSome_some, and_true]
  | identification hd hg =>
    simp only [Field.action, getIdentification, hd, hg, Res.bind]
    exact ⟨_, by rw [moves, if_neg (by decide), hd, length_step]; rfl, fun g => by simp, rfl, rfl, rfl, rfl⟩
  | reserved hs =>
    simp only [Field.action, (C54_partial rl p).2.1 _ hs]
    exact ⟨_, by rw [moves, if_pos rfl, hs]; rfl, fun g => by simp, rfl, rfl, rfl, rfl⟩

/-- C79 restricted to what holds, for any byte reader: if all fields can be read, then each number is the one found at the start
plus the bits (not the bytes) of the fields before it, in the order in which Go ranges over the positions, and nothing else
of the characteristic changes.
Missing: the number of bytes (`C79_false`), the order of the fields (`C79_order_false`). -/
theorem C79_walk_partial {P : Type} (cd : CalData P) (trunc : Val → Int) (rl : RecordLayout) (get : Reader) :
    ∀ (fs : List Field) (rs : List (Option Int)) (start : Nat) (cv : CharValues), start < 2 ^ 32 → fs.Nodup → rs.length = fs.length →
    (∀ k f r, fs[k]? = some f → rs[k]? = some r → Reads cd trunc rl get (after rl start (fs.take k)) f r) →
    ∃ cv', fieldLoop trunc cd rl (fs.map Field.name) (cv, start) get = some (cv', after rl start fs) ∧
      (∀ (k : Nat) f i, fs[k]? = some f → rs[k]? = some (some i) → cv'.scalar f = some i) ∧
      (∀ f, f ∉ fs → cv'.scalar f = cv.scalar f) ∧ cv'.axis = cv.axis ∧ cv'.deposit = cv.deposit ∧ cv'.address = cv.address ∧
      cv'.recordLayout = cv.recordLayout
  | [], rs, start, cv, hs, _, _, _ => ⟨cv, by simp [fieldLoop, after, Nat.mod_eq_of_lt hs], by simp, fun _ _ => rfl, rfl, rfl, rfl, rfl⟩
  | f :: fs, [], _, _, _, _, h, _ => by simp at h
  | f :: fs, r :: rs, start, cv, hs, hnd, hl, h => by
    have h0 := h 0 f r rfl rfl
    rw [show after rl start ((f :: fs).take 0) = start by simp [after, Nat.mod_eq_of_lt hs]] at h0
    obtain ⟨cv1, e1, s1, a1, a2, a3, a4⟩ := walk_step h0 cv
    rw [List.nodup_cons] at hnd
    have hpos : ∀ l : List Field, after rl ((start + moves rl f) % 2 ^ 32) l = after rl start (f :: l) := by
      intro l
      simp only [after, List.map_cons, List.sum_cons]
      rw [Nat.mod_add_mod, Nat.add_assoc]
    obtain ⟨cv', e2, s2, s3, b1, b2, b3, b4⟩ := C79_walk_partial cd trunc rl get fs rs ((start + moves rl f) % 2 ^ 32) cv1
      (Nat.mod_lt _ (by decide)) hnd.2 (by simpa using hl) (fun k g q h1 h2 => by
        rw [hpos, ← List.take_succ_cons]
        exact h (k + 1) g q h1 h2)
    refine ⟨cv', ?_, fun k g i h1 h2 => ?_, fun g hg => ?_, b1.trans a1, b2.trans a2, b3.trans a3, b4.trans a4⟩
    · rw [List.map_cons, fieldLoop, e1]
      simp only
      rw [e2, hpos]
    · match k with
      | 0 =>
        simp only [List.getElem?_cons_zero, Option.some.injEq] at h1 h2
        subst h1 h2
        rw [s3 f hnd.1, s1, if_pos ⟨rfl, rfl⟩]
      | k + 1 => exact s2 k g i h1 h2
    · rw [List.mem_cons, not_or] at hg
      rw [s3 g hg.2, s1, if_neg (fun hh => hg.1 hh.1)]

/-- The same for a whole characteristic whose positions are filled in: the walk starts at its address, or at 0 if that is no address. -/
theorem C79_values_partial {P : Type} (cd : CalData P) (m : Module P) (hm : cd.modules[cd.moduleIndex]? = some m) (trunc : Val → Int)
    (get : Reader) (cv : CharValues) (dep : Str) (rl : RecordLayout) (hdep : cv.deposit = some dep) (hrl : m.recordLayouts dep = some rl)
    (start : Nat) (hstart : convertStringToUint32Address cd cv.address = .ok start ∨
      convertStringToUint32Address cd cv.address = .err ∧ start = 0) (h32 : start < 2 ^ 32)
    (fs : List Field) (rs : List (Option Int)) (hn : fs.Nodup) (hl : rs.length = fs.length)
    (h : ∀ (k : Nat) f r, fs[k]? = some f → rs[k]? = some r →
      Reads cd trunc { rl with relativePositions := (getRelativePositions rl).1 } get (after rl start (fs.take k)) f r) :
    ∃ cv', getValuesFromHex trunc cd cv (fs.map Field.name) get = some cv' ∧
      (∀ (k : Nat) f i, fs[k]? = some f → rs[k]? = some (some i) → cv'.scalar f = some i) ∧
      (∀ f, f ∉ fs → cv'.scalar f = cv.scalar f) ∧ cv'.axis = cv.axis ∧ cv'.deposit = cv.deposit ∧ cv'.address = cv.address ∧
      cv'.recordLayout = cv.recordLayout := by
  obtain ⟨cv', h1, h2⟩ := C79_walk_partial cd trunc { rl with relativePositions := (getRelativePositions rl).1 } get fs rs start cv h32 hn hl h
  refine ⟨cv', ?_, h2⟩
  unfold getValuesFromHex getRecordLayout CalData.module? index?
  rw [hdep, hm]
  simp only [hrl]
  rcases hstart with hs | ⟨hs, rfl⟩ <;> rw [hs] <;> simp only [h1, Option.map_some]

/-- The points of an axis, for any byte reader that finds `n` of them: the k-th one is found `k` times the bits of its data
type after the first. -/
theorem C79_axis_partial {P : Type} (cd : CalData P) (rl : RecordLayout) (get : Reader) (d : DataType) :
    ∀ (vs acc : List Val) (pos : Nat), pos < 2 ^ 32 →
    (∀ k v, vs[k]? = some v → ∃ bs, get ((pos + k * stepOf d) % 2 ^ 32) d rl = .ok bs ∧ convertByteSliceToDatatype cd bs d = .ok v) →
    axisLoop cd rl d vs.length pos acc get = .ok (acc ++ vs, (pos + vs.length * stepOf d) % 2 ^ 32) ∧
      axisEnd cd rl d get vs.length pos = (pos + vs.length * stepOf d) % 2 ^ 32
  | [], acc, pos, hp, _ => by simp [axisLoop, axisEnd, Nat.mod_eq_of_lt hp]
  | v :: vs, acc, pos, hp, h => by
    obtain ⟨bs, h1, h2⟩ := h 0 v rfl
    rw [Nat.zero_mul, Nat.add_zero, Nat.mod_eq_of_lt hp] at h1
    have hpos : ∀ k, ((pos + stepOf d) % 2 ^ 32 + k * stepOf d) % 2 ^ 32 = (pos + (k + 1) * stepOf d) % 2 ^ 32 := by
      intro k
      rw [Nat.mod_add_mod, Nat.succ_mul, Nat.add_assoc, Nat.add_comm (stepOf d)]
    have ih := C79_axis_partial cd rl get d vs (acc ++ [v]) ((pos + stepOf d) % 2 ^ 32) (Nat.mod_lt _ (by decide)) (fun k w hk => by
      rw [hpos]
      exact h (k + 1) w hk)
    rw [hpos] at ih
    rw [List.length_cons]
    constructor
    · rw [axisLoop, h1]
      simp only [Res.bind, h2, length_step]
      rw [ih.1, List.append_assoc]; rfl
    · rw [axisEnd, h1]
      simp only [Res.bind, h2, length_step]
      exact ih.2

/-- No value of data type `d` can be read at position `p`: there are no bytes, or they cannot be decoded. -/
def NoValue {P : Type} (cd : CalData P) (rl : RecordLayout) (get : Reader) (d : DataType) (p : Nat) : Prop :=
  get p d rl = .err ∨ ∃ bs, get p d rl = .ok bs ∧ convertByteSliceToDatatype cd bs d = .err

/-- If the reader fails at the k-th point, the position stays there, and the error is passed on. -/
theorem C79_axis_error {P : Type} (cd : CalData P) (rl : RecordLayout) (get : Reader) (d : DataType) :
    ∀ (vs acc : List Val) (pos n : Nat), pos < 2 ^ 32 → vs.length < n →
    (∀ k v, vs[k]? = some v → ∃ bs, get ((pos + k * stepOf d) % 2 ^ 32) d rl = .ok bs ∧ convertByteSliceToDatatype cd bs d = .ok v) →
    NoValue cd rl get d ((pos + vs.length * stepOf d) % 2 ^ 32) →
    axisLoop cd rl d n pos acc get = .err ∧ axisEnd cd rl d get n pos = (pos + vs.length * stepOf d) % 2 ^ 32
  | [], acc, pos, n + 1, hp, _, _, he => by
    simp only [List.length_nil, Nat.zero_mul, Nat.add_zero, Nat.mod_eq_of_lt hp] at he ⊢
    rcases he with he | ⟨bs, he, hc⟩
    · simp [axisLoop, axisEnd, he, Res.bind]
    · simp [axisLoop, axisEnd, he, hc, Res.bind]
  | v :: vs, acc, pos, n + 1, hp, hl, h, he => by
    obtain ⟨bs, h1, h2⟩ := h 0 v rfl
    rw [Nat.zero_mul, Nat.add_zero, Nat.mod_eq_of_lt hp] at h1
    have hpos : ∀ k, ((pos + stepOf d) % 2 ^ 32 + k * stepOf d) % 2 ^ 32 = (pos + (k + 1) * stepOf d) % 2 ^ 32 := by
      intro k
      rw [Nat.mod_add_mod, Nat.succ_mul, Nat.add_assoc, Nat.add_comm (stepOf d)]
    have ih := C79_axis_error cd rl get d vs (acc ++ [v]) ((pos + stepOf d) % 2 ^ 32) n (Nat.mod_lt _ (by decide)) (by simpa using hl)
      (fun k w hk => by rw [hpos]; exact h (k + 1) w hk) (by rw [hpos]; exact he)
    rw [hpos] at ih
    rw [List.length_cons]
    constructor
    · rw [axisLoop, h1]
      simp only [Res.bind, h2, length_step]
      exact ih.1
    · rw [axisEnd, h1]
      simp only [Res.bind, h2, length_step]
      exact ih.2

/-- The image: 1, 2, …, 9 at the addresses 0, 1, …, 8. -/
def nineBytes : Nat → Option Nat := fun a => if a < 9 then some (a + 1) else none

/-- A byte reader that works. -/
def nineGet : Reader := fun p _ _ => match nineBytes p with
  | some b => .ok [b]
  | none => .err

def intOf : Val → Int
  | .num i => i
  | _ => 0

def emptyData : CalData Unit := { modules := [{}], hex := fun _ => none }

def emptyValues : CharValues := {}

/-- Two points of one byte are found eight addresses apart; the third one is missing. -/
example : axisLoop emptyData {} .ubyte 2 0 [] nineGet = .ok ([.num 1, .num 9], 16) ∧ axisLoop emptyData {} .ubyte 3 0 [] nineGet = .err ∧
    axisEnd emptyData {} .ubyte nineGet 3 0 = 16 := by
  have h : ∀ (k : Nat) v, [Val.num 1, .num 9][k]? = some v → ∃ bs, nineGet ((0 + k * stepOf .ubyte) % 2 ^ 32) .ubyte {} = .ok bs ∧
      convertByteSliceToDatatype emptyData bs .ubyte = .ok v := by
    intro k v hk
    match k with
    | 0 => cases hk; exact ⟨[1], by decide +kernel, by decide +kernel⟩
    | 1 => cases hk; exact ⟨[9], by decide +kernel, by decide +kernel⟩
    | k + 2 => simp at hk
  exact ⟨(C79_axis_partial emptyData {} nineGet .ubyte [.num 1, .num 9] [] 0 (by decide) h).1,
    C79_axis_error emptyData {} nineGet .ubyte [.num 1, .num 9] [] 0 3 (by decide) (by decide) h (.inl (by decide +kernel))⟩

/-- A byte reader that works, for bytes: the byte at the address. -/
def Delivers (hex : Nat → Option Nat) (get : Reader) : Prop := ∀ p b rl, hex p = some b → get p .ubyte rl = .ok [b]

/-- C79 in full, for numbers of one byte, with a byte reader that works: each one is found right after the one before. -/
def C79_full : Prop := ∀ (P : Type) (cd : CalData P) (m : Module P) (trunc : Val → Int) (rl : RecordLayout) (get : Reader) (hex : Nat → Option Nat)
    (fs : List Field) (start : Nat) (cv : CharValues), cd.modules[cd.moduleIndex]? = some m → (∀ i, trunc (.num i) = i) → Delivers hex get → fs.Nodup →
  (∀ f ∈ fs, f ∈ numberFields ∧ (rl.field f).datatype = some .ubyte) → start + fs.length < 2 ^ 32 → (∀ k, k < fs.length → ∃ b, b < 256 ∧ hex (start + k) = some b) →
  ∃ cv' p, fieldLoop trunc cd rl (fs.map Field.name) (cv, start) get = some (cv', p) ∧
    ∀ k f b, fs[k]? = some f → hex (start + k) = some b → cv'.scalar f = some (b : Int)

/-- Two numbers of one byte. -/
def twoFieldsOnly : RecordLayout := { field := fun f => if f = .noAxisPtsX then { position := some 1, datatype := some .ubyte } else
  if f = .noAxisPtsY then { position := some 2, datatype := some .ubyte } else {} }

/-- The same with its positions. -/
def twoBytes : RecordLayout := { twoFieldsOnly with relativePositions := (getRelativePositions twoFieldsOnly).1 }

theorem walk_xy : (fieldLoop intOf emptyData twoBytes ([.noAxisPtsX, .noAxisPtsY].map Field.name) (emptyValues, 0) nineGet).map
    (fun x => (x.1.scalar .noAxisPtsX, x.1.scalar .noAxisPtsY, x.2)) = some (some 1, some 9, 16) := by decide +kernel

theorem walk_yx : (fieldLoop intOf emptyData twoBytes ([.noAxisPtsY, .noAxisPtsX].map Field.name) (emptyValues, 0) nineGet).map
    (fun x => (x.1.scalar .noAxisPtsX, x.1.scalar .noAxisPtsY, x.2)) = some (some 9, some 1, 16) := by decide +kernel

/-- False: the second of two bytes is looked for eight addresses after the first. -/
theorem C79_false : ¬ C79_full := by
  intro h
  obtain ⟨cv', p, h1, h2⟩ := h Unit emptyData {} intOf twoBytes nineGet nineBytes [.noAxisPtsX, .noAxisPtsY] 0 emptyValues rfl (fun _ => rfl)
    (fun p b rl hb => by simp [nineGet, hb]) (by decide) (by
      intro f hf
      simp only [List.mem_cons, List.not_mem_nil, or_false] at hf
      rcases hf with rfl | rfl <;> exact ⟨by decide, by decide +kernel⟩) (by decide) (fun k hk => ⟨k + 1, by simp at hk; omega, by
      simp at hk; simp [nineBytes]; omega⟩)
  have h3 := h2 1 .noAxisPtsY 2 rfl rfl
  have := walk_xy
  rw [h1] at this
  simp only [Option.map_some, Option.some.injEq, Prod.mk.injEq] at this
  rw [this.2.1] at h3
  exact absurd h3 (by decide)

/-- The order of the fields in full: the result does not depend on the order in which Go ranges over the positions. -/
def C79_order_full : Prop := ∀ (P : Type) (cd : CalData P) (trunc : Val → Int) (rl : RecordLayout) (get : Reader) (cv : CharValues) (start : Nat)
    (order order' : List Str), rl.relativePositions = (getRelativePositions rl).1 → IsRange rl.relativePositions order → IsRange rl.relativePositions order' →
  fieldLoop trunc cd rl order (cv, start) get = fieldLoop trunc cd rl order' (cv, start) get

theorem twoBytes_range (l : List Field) (hn : l.Nodup) (hl : ∀ f, f ∈ l ↔ f = .noAxisPtsX ∨ f = .noAxisPtsY) :
    IsRange twoBytes.relativePositions (l.map Field.name) := by
  have hc := ((C46 twoFieldsOnly).2 (by decide +kernel)).1
  have hp : ∀ f, (twoFieldsOnly.field f).position ≠ none ↔ f = .noAxisPtsX ∨ f = .noAxisPtsY := by
    intro f
    cases f <;> decide +kernel
  refine ⟨List.pairwise_map.2 (hn.imp fun hne he => hne (Field.name_injective he)), fun n => ?_⟩
  rw [List.mem_map]
  constructor
  · rintro ⟨f, hf, rfl⟩
    obtain ⟨p, hp'⟩ := Option.ne_none_iff_exists'.1 ((hp f).2 ((hl f).1 hf))
    exact ⟨p, (hc p f.name).2 ⟨f, hp', rfl⟩⟩
  · rintro ⟨p, h⟩
    obtain ⟨f, h1, h2⟩ := (hc p n).1 h
    exact ⟨f, (hl f).2 ((hp f).1 (by rw [h1]; simp)), h2⟩

/-- False: the two numbers are exchanged. The order of the positions is not used, Go ranges over a map in any order. -/
theorem C79_order_false : ¬ C79_order_full := by
  intro h
  have := h Unit emptyData intOf twoBytes nineGet emptyValues 0 ([.noAxisPtsX, .noAxisPtsY].map Field.name)
    ([.noAxisPtsY, .noAxisPtsX].map Field.name) rfl (twoBytes_range _ (by decide) (by simp)) (twoBytes_range _ (by decide) (by
      intro f; simp only [List.mem_cons, List.not_mem_nil, or_false]; exact Or.comm))
  have h1 := walk_xy
  rw [this, walk_yx] at h1
  exact absurd h1 (by decide)

/-- The hypotheses of `C79_walk_partial` are met: of the nine bytes the first and the last are read. -/
example : ∃ cv', fieldLoop intOf emptyData twoBytes ([.noAxisPtsX, .noAxisPtsY].map Field.name) (emptyValues, 0) nineGet = some (cv', 16) ∧
    cv'.scalar .noAxisPtsX = some 1 ∧ cv'.scalar .noAxisPtsY = some 9 := by
  obtain ⟨cv', h1, h2, _⟩ := C79_walk_partial emptyData intOf twoBytes nineGet [.noAxisPtsX, .noAxisPtsY] [some 1, some 9] 0 emptyValues (by decide)
    (by decide) rfl (fun k f r hk hr => by
      match k with
      | 0 => cases hk; cases hr; exact .number (v := .num 1) (bs := [1]) (d := .ubyte) (by decide) rfl (by decide +kernel) (by decide +kernel)
      | 1 => cases hk; cases hr; exact .number (v := .num 9) (bs := [9]) (d := .ubyte) (by decide) rfl (by decide +kernel) (by decide +kernel)
      | k + 2 => simp at hk)
  exact ⟨cv', h1, h2 0 _ _ rfl rfl, h2 1 _ _ rfl rfl⟩

/-- The database of the next examples: every deposit is the layout with two numbers. -/
def twoData : CalData Unit := { modules := [{ recordLayouts := fun _ => some twoFieldsOnly }], hex := fun _ => none }

def twoReads (start : Nat) (hs : start = 0) : ∀ (k : Nat) f r, [Field.noAxisPtsX, .noAxisPtsY][k]? = some f → [some (1 : Int), some 9][k]? = some r →
    Reads twoData intOf twoBytes nineGet (after twoFieldsOnly start ([Field.noAxisPtsX, .noAxisPtsY].take k)) f r := by
  subst hs
  intro k f r hk hr
  match k with
  | 0 => cases hk; cases hr; exact .number (v := .num 1) (bs := [1]) (d := .ubyte) (by decide) rfl (by decide +kernel) (by decide +kernel)
  | 1 => cases hk; cases hr; exact .number (v := .num 9) (bs := [9]) (d := .ubyte) (by decide) rfl (by decide +kernel) (by decide +kernel)
  | k + 2 => simp at hk

/-- A characteristic at address 0, and one whose address is no number. -/
example (address : Str) (ha : address = "0x00000000".toList ∨ address = "0x0000000G".toList) : ∃ cv', getValuesFromHex intOf twoData { deposit := some [], address := address }
      ([.noAxisPtsX, .noAxisPtsY].map Field.name) nineGet = some cv' ∧ cv'.scalar .noAxisPtsY = some 9 := by
  obtain ⟨cv', h1, h2, _⟩ := C79_values_partial twoData _ rfl intOf nineGet { deposit := some [], address := address } [] twoFieldsOnly rfl rfl 0
    (by rcases ha with rfl | rfl <;> decide +kernel) (by decide) [.noAxisPtsX, .noAxisPtsY] [some 1, some 9] (by decide) rfl (twoReads 0 rfl)
  exact ⟨cv', h1, h2 1 _ _ rfl rfl⟩

end Verif.Calib.Props
