import Verif.Calib.Props2
import Verif.Calib.Props4
import Verif.Calib.Props5
import Verif.A2l.OddProps
import Verif.Calib.LinkConv

/-!
C69: byte order, alignment and record layouts, from the text of the file to what the root package works with.
-/

namespace Verif.Link
open Verif.Go Verif.A2l Lang ModSpec FileSpec Analysis Decl Template

/-! ### Specification: the words of the file -/

/-- C47: the name under which a field is entered in the positions and looked up is the name of the field of the parsed struct. -/
theorem C47_names (f : Calib.Field) : f.name = (fieldName f).toList := by cases f <;> rfl

/-- The keyword of a field of a record layout. -/
def fieldKey : Calib.Field → Str
  | .axisPts4 => (str! "AXIS_PTS_4") | .axisPts5 => (str! "AXIS_PTS_5") | .axisPtsX => (str! "AXIS_PTS_X")
  | .axisPtsY => (str! "AXIS_PTS_Y") | .axisPtsZ => (str! "AXIS_PTS_Z") | .axisRescaleX => (str! "AXIS_RESCALE_X")
  | .distOp4 => (str! "DIST_OP_4") | .distOp5 => (str! "DIST_OP_5") | .distOpX => (str! "DIST_OP_X")
  | .distOpY => (str! "DIST_OP_Y") | .distOpZ => (str! "DIST_OP_Z")
  | .fncValues => (str! "FNC_VALUES") | .identification => (str! "IDENTIFICATION")
  | .noAxisPts4 => (str! "NO_AXIS_PTS_4") | .noAxisPts5 => (str! "NO_AXIS_PTS_5") | .noAxisPtsX => (str! "NO_AXIS_PTS_X")
  | .noAxisPtsY => (str! "NO_AXIS_PTS_Y") | .noAxisPtsZ => (str! "NO_AXIS_PTS_Z") | .noRescaleX => (str! "NO_RESCALE_X")
  | .offset4 => (str! "OFFSET_4") | .offset5 => (str! "OFFSET_5") | .offsetX => (str! "OFFSET_X")
  | .offsetY => (str! "OFFSET_Y") | .offsetZ => (str! "OFFSET_Z")
  | .reserved => (str! "RESERVED")
  | .ripAddr4 => (str! "RIP_ADDR_4") | .ripAddr5 => (str! "RIP_ADDR_5") | .ripAddrX => (str! "RIP_ADDR_X")
  | .ripAddrY => (str! "RIP_ADDR_Y") | .ripAddrZ => (str! "RIP_ADDR_Z") | .ripAddrW => (str! "RIP_ADDR_W")
  | .shiftOp4 => (str! "SHIFT_OP_4") | .shiftOp5 => (str! "SHIFT_OP_5") | .shiftOpX => (str! "SHIFT_OP_X")
  | .shiftOpY => (str! "SHIFT_OP_Y") | .shiftOpZ => (str! "SHIFT_OP_Z")
  | .srcAddr4 => (str! "SRC_ADDR_4") | .srcAddr5 => (str! "SRC_ADDR_5") | .srcAddrX => (str! "SRC_ADDR_X")
  | .srcAddrY => (str! "SRC_ADDR_Y") | .srcAddrZ => (str! "SRC_ADDR_Z")

/-- The word for a data type. -/
def typeWord : Calib.DataType → Str
  | .undefined => [] | .ubyte => (str! "UBYTE") | .sbyte => (str! "SBYTE") | .uword => (str! "UWORD") | .sword => (str! "SWORD")
  | .ulong => (str! "ULONG") | .slong => (str! "SLONG") | .aUint64 => (str! "A_UINT64") | .aInt64 => (str! "A_INT64")
  | .float16 => (str! "FLOAT16_IEEE") | .float32 => (str! "FLOAT32_IEEE") | .float64 => (str! "FLOAT64_IEEE")

/-- The word for a data size. -/
def sizeWord : Calib.DataSize → Str
  | .undefined => [] | .byte => (str! "BYTE") | .word => (str! "WORD") | .long => (str! "LONG")

/-- The word for an address type. -/
def addrWord : Calib.AddrType → Str
  | .undefined => [] | .pbyte => (str! "PBYTE") | .pword => (str! "PWORD") | .plong => (str! "PLONG")
  | .plonglong => (str! "PLONGLONG") | .direct => (str! "DIRECT")

/-- The keyword of the alignment of a data type. -/
def alignKey : Calib.DataType → Str
  | .undefined => [] | .ubyte | .sbyte => (str! "ALIGNMENT_BYTE") | .uword | .sword => (str! "ALIGNMENT_WORD")
  | .ulong | .slong => (str! "ALIGNMENT_LONG") | .aUint64 | .aInt64 => (str! "ALIGNMENT_INT64")
  | .float16 => (str! "ALIGNMENT_FLOAT16_IEEE") | .float32 => (str! "ALIGNMENT_FLOAT32_IEEE") | .float64 => (str! "ALIGNMENT_FLOAT64_IEEE")

/-- The keyword of a fixed number of axis points. -/
def fixKey : Calib.Axis → Str
  | .x => (str! "FIX_NO_AXIS_PTS_X") | .y => (str! "FIX_NO_AXIS_PTS_Y") | .z => (str! "FIX_NO_AXIS_PTS_Z")
  | .a4 => (str! "FIX_NO_AXIS_PTS_4") | .a5 => (str! "FIX_NO_AXIS_PTS_5")

/-- The byte order a word stands for; the mixed ones have none. -/
def orderWord (t : Str) : Option Calib.Spec.Endian :=
  if t = (str! "BIG_ENDIAN") ∨ t = (str! "MSB_FIRST") then some .big
  else if t = (str! "LITTLE_ENDIAN") ∨ t = (str! "MSB_LAST") then some .little
  else none

/-- The byte order the parts `gs` of a MOD_COMMON ask for: big endian unless BYTE_ORDER says otherwise. -/
def OrderText (E : Env) (gs : List Part) : Option Calib.Spec.Endian :=
  match lastPart gs (str! "BYTE_ORDER") with
  | none => some .big
  | some a => orderWord ((E.toks[a + 1]?).getD [])

/-- The word at position `k` is the number `n`. -/
def NumAt (E : Env) (k n : Nat) : Prop := ∃ t, E.toks[k]? = some t ∧ IsNat t n

/-- The number `n` after the last keyword `key`, `none` without one. -/
def PartNum (E : Env) (fs : List Part) (key : Str) (k : Nat) (n : Option Nat) : Prop :=
  match lastPart fs key with
  | none => n = none
  | some a => ∃ m, n = some m ∧ m < 65536 ∧ NumAt E (a + k) m

/-- The `k`-th word after the last keyword `key` is the word of `x`, which is `none` without one. -/
def PartWord {α : Type} (E : Env) (fs : List Part) (key : Str) (k : Nat) (word : α → Str) (x : Option α) : Prop :=
  match lastPart fs key with
  | none => x = none
  | some a => ∃ y, x = some y ∧ E.toks[a + k]? = some (word y) ∧ word y ≠ []

/-- The border of data type `d`: from the parts of the record layout, else of MOD_COMMON, else the size of the type. -/
def BorderText (E : Env) (fs gs : List Part) (d : Calib.DataType) (b : Nat) : Prop :=
  match lastPart fs (alignKey d), lastPart gs (alignKey d) with
  | some a, _ => NumAt E (a + 1) b
  | none, some a => NumAt E (a + 1) b
  | none, none => b = Calib.Spec.size d

/-- The parts of a block read by `p` from `i` to `j`. -/
def BlockParts (E : Env) (p : PName) (i j : Nat) (fs : List Part) : Prop :=
  PartsOf E (Succeeds E) (Props.Shape.subs (shape p)) i (j - 1) fs

/-- `gs` are the parts of the last MOD_COMMON, no parts if there is none. -/
def CommonParts (E : Env) (os : List Found) (gs : List Part) : Prop :=
  match (os.filter (fun f => f.kind = 14)).getLast? with
  | none => gs = []
  | some f => BlockParts E .parseModCommon f.pos f.stop gs

/-- The record layout `rl` says what its parts `fs` in the text say. The data type of NO_RESCALE_X is not stated. -/
structure LayoutText (E : Env) (fs : List Part) (rl : Calib.RecordLayout) : Prop where
  position : ∀ f, PartNum E fs (fieldKey f) 1 (rl.field f).position
  datatype : ∀ f, f ≠ .noRescaleX → f ≠ .reserved → PartWord E fs (fieldKey f) 2 typeWord (rl.field f).datatype
  reserved : PartWord E fs (str! "RESERVED") 2 sizeWord rl.reservedSize
  address : PartWord E fs (str! "FNC_VALUES") 4 addrWord rl.addressType
  fixed : ∀ a, PartNum E fs (fixKey a) 1 (rl.fixNoAxisPts a)
  align : ∀ d, d ≠ .undefined → PartNum E fs (alignKey d) 1 (Calib.Spec.alignEntry d rl.align)

/-! ### The parts of a block -/

/-- The parse function of a field. -/
def fieldFn : Calib.Field → PName
  | .axisPts4 => .parseAxisPts4 | .axisPts5 => .parseAxisPts5 | .axisPtsX => .parseAxisPtsX
  | .axisPtsY => .parseAxisPtsY | .axisPtsZ => .parseAxisPtsZ | .axisRescaleX => .parseAxisRescaleX
  | .distOp4 => .parseDistOp4 | .distOp5 => .parseDistOp5 | .distOpX => .parseDistOpX
  | .distOpY => .parseDistOpY | .distOpZ => .parseDistOpZ
  | .fncValues => .parseFncValues | .identification => .parseIdentification
  | .noAxisPts4 => .parseNoAxisPts4 | .noAxisPts5 => .parseNoAxisPts5 | .noAxisPtsX => .parseNoAxisPtsX
  | .noAxisPtsY => .parseNoAxisPtsY | .noAxisPtsZ => .parseNoAxisPtsZ | .noRescaleX => .parseNoRescaleX
  | .offset4 => .parseOffset4 | .offset5 => .parseOffset5 | .offsetX => .parseOffsetX
  | .offsetY => .parseOffsetY | .offsetZ => .parseOffsetZ
  | .reserved => .parseReserved
  | .ripAddr4 => .parseRipAddr4 | .ripAddr5 => .parseRipAddr5 | .ripAddrX => .parseRipAddrX
  | .ripAddrY => .parseRipAddrY | .ripAddrZ => .parseRipAddrZ | .ripAddrW => .parseRipAddrW
  | .shiftOp4 => .parseShiftOp4 | .shiftOp5 => .parseShiftOp5 | .shiftOpX => .parseShiftOpX
  | .shiftOpY => .parseShiftOpY | .shiftOpZ => .parseShiftOpZ
  | .srcAddr4 => .parseSrcAddr4 | .srcAddr5 => .parseSrcAddr5 | .srcAddrX => .parseSrcAddrX
  | .srcAddrY => .parseSrcAddrY | .srcAddrZ => .parseSrcAddrZ

/-- What a block keeps of a part: nothing if there is none, otherwise what was read at its last keyword. -/
theorem part_raw {E : Env} {subs : List (Str × Decl.Sub)} {i j : Nat} {fs : List Part}
    (hfs : PartsOf E (Succeeds E) subs i j fs) {key : Str} {q : PName} {g : String} {r : Obj} (hk : KeptParts fs g r .field)
    (hkf : keyField subs key q g = true) :
    (lastPart fs key = none → inner r g = Obj.empty) ∧
    ∀ a, lastPart fs key = some a → ∃ b v, Returns E q a (.ok b v false) ∧ r g = v := by
  have hkey : ∀ f ∈ fs, (f.key = key ↔ f.field = g) ∧ (f.key = key → f.q = q) := by
    intro f hf
    have h1 := List.all_eq_true.1 hkf _ (hfs.decl f hf)
    simp only at h1
    split at h1
    · rename_i h2
      simp only [Bool.and_eq_true, decide_eq_true_eq] at h1
      exact ⟨⟨fun _ => h1.1.2, fun _ => h2⟩, fun _ => h1.1.1⟩
    · rename_i h2
      simp only [ne_eq, decide_not, Bool.not_eq_true', decide_eq_false_iff_not] at h1
      exact ⟨⟨fun h => absurd h h2, fun h => absurd h h1⟩, fun h => absurd h h2⟩
  have hp : partsFor fs g = fs.filter (fun f => f.key = key) := by
    unfold partsFor
    apply List.filter_congr
    intro f hf
    rw [decide_eq_decide]
    exact (hkey f hf).1.symm
  unfold KeptParts at hk
  rw [hp] at hk
  unfold lastPart inner
  cases hl : (fs.filter (fun f => f.key = key)).getLast? with
  | none =>
    rw [hl] at hk
    refine ⟨fun _ => by rw [hk]; rfl, (fun a h => by cases h)⟩
  | some f =>
    rw [hl] at hk
    refine ⟨(fun h => by cases h), fun a h => ?_⟩
    cases h
    have hm := List.mem_of_getLast? hl
    simp only [List.mem_filter, decide_eq_true_eq] at hm
    have hr := hfs.read f hm.1
    rw [(hkey f hm.1).2 hm.2] at hr
    exact ⟨_, _, hr, hk⟩

theorem optNat_of {E : Env} {f fl : String} {t : Str} {x : Obj} (h : Props.HasParam E ⟨f, fl, .uint 16⟩ t x) :
    ∃ m, optNat x f fl = some m ∧ m < 65536 ∧ IsNat t m := by
  obtain ⟨n, h1, h2, h3⟩ := h.val
  refine ⟨n, ?_, h2, h1⟩
  unfold optNat
  rw [if_pos h.mark]
  unfold Obj.int
  rw [h3]
  rfl

theorem optStr_of {E : Env} {f fl : String} {e : EnumDef} {t : Str} {x : Obj} (h : Props.HasParam E ⟨f, fl, .enum e⟩ t x) :
    optStr x f fl = some t ∧ ∃ c, (t, c) ∈ e.table := by
  refine ⟨?_, h.val.1⟩
  unfold optStr
  rw [if_pos h.mark]
  unfold Obj.str
  rw [h.val.2]

/-- A number that is the `k`-th parameter of a part. -/
theorem num_text {E : Env} (hw : Wf E) {p : PName} {i j : Nat} {fs : List Part} (hfs : BlockParts E p i j fs)
    {r : Obj} (h3 : ∀ k q g md, (k, Decl.Sub.obj q g md) ∈ Props.Shape.subs (shape p) → KeptParts fs g r md) {key : Str} {q : PName} {g : String}
    (hsub : (key, Decl.Sub.obj q g .field) ∈ Props.Shape.subs (shape p)) (hkf : keyField (Props.Shape.subs (shape p)) key q g = true)
    (hq : q ∉ irregular) {ps : List Param} (hsh : shape q = .seq ps ∨ ∃ q', shape q = .one q' ∧ ps = [q']) {k : Nat} {f fl : String}
    (hps : ps[k]? = some ⟨f, fl, .uint 16⟩) :
    PartNum E fs key (k + 1) (optNat (inner r g) f fl) := by
  obtain ⟨h1, h2⟩ := part_flat hw hfs (h3 _ _ _ _ hsub) hkf hq hsh
  unfold PartNum
  cases hl : lastPart fs key with
  | none => simp only; rw [h1 hl]; rfl
  | some a =>
    obtain ⟨t, ht, _, hv⟩ := h2 a hl k _ hps
    obtain ⟨m, e1, e2, e3⟩ := optNat_of hv
    exact ⟨m, e1, e2, t, by rw [← Nat.add_assoc]; exact ht, e3⟩

/-- A constant that is the `k`-th parameter of a part. -/
theorem word_text {α : Type} {E : Env} (hw : Wf E) {p : PName} {i j : Nat} {fs : List Part} (hfs : BlockParts E p i j fs)
    {r : Obj} (h3 : ∀ k q g md, (k, Decl.Sub.obj q g md) ∈ Props.Shape.subs (shape p) → KeptParts fs g r md) {key : Str} {q : PName} {g : String}
    (hsub : (key, Decl.Sub.obj q g .field) ∈ Props.Shape.subs (shape p)) (hkf : keyField (Props.Shape.subs (shape p)) key q g = true)
    (hq : q ∉ irregular) {ps : List Param} (hsh : shape q = .seq ps ∨ ∃ q', shape q = .one q' ∧ ps = [q']) {k : Nat} {f fl : String}
    {e : EnumDef} (hps : ps[k]? = some ⟨f, fl, .enum e⟩) {conv : Str → α} {word : α → Str}
    (hc : ∀ y ∈ e.table, word (conv y.1) = y.1 ∧ y.1 ≠ []) :
    PartWord E fs key (k + 1) word ((optStr (inner r g) f fl).map conv) := by
  obtain ⟨h1, h2⟩ := part_flat hw hfs (h3 _ _ _ _ hsub) hkf hq hsh
  unfold PartWord
  cases hl : lastPart fs key with
  | none => simp only; rw [h1 hl]; rfl
  | some a =>
    obtain ⟨t, ht, _, hv⟩ := h2 a hl k _ hps
    obtain ⟨e1, c, e2⟩ := optStr_of hv
    have := hc _ e2
    simp only at this ⊢
    refine ⟨conv t, by rw [e1]; rfl, ?_, ?_⟩
    · rw [this.1, ← Nat.add_assoc]; exact ht
    · rw [this.1]; exact this.2

/-- The parameters of a field of a record layout other than NO_RESCALE_X and RESERVED. -/
theorem field_shape (f : Calib.Field) (hf : f ≠ .noRescaleX) (hr : f ≠ .reserved) :
    fieldFn f ∉ irregular ∧ ∃ ps, shape (fieldFn f) = .seq ps ∧
      ps[0]? = some (if lower f then ⟨"position", "positionSet", .uint 16⟩ else ⟨"Position", "PositionSet", .uint 16⟩) ∧
      ps[1]? = some (if lower f then ⟨"datatype", "datatypeSet", .enum parseDataTypeEnum⟩ else
        ⟨"Datatype", "DatatypeSet", .enum parseDataTypeEnum⟩) := by
  cases f <;> first | exact absurd rfl hf | exact absurd rfl hr | exact ⟨by decide, _, rfl, rfl, rfl⟩

theorem field_sub (f : Calib.Field) :
    (fieldKey f, Decl.Sub.obj (fieldFn f) (fieldName f) .field) ∈ Props.Shape.subs (shape .parseRecordLayout) ∧
    keyField (Props.Shape.subs (shape .parseRecordLayout)) (fieldKey f) (fieldFn f) (fieldName f) = true := by
  cases f <;> decide +kernel

def fixFn : Calib.Axis → PName
  | .x => .parseFixNoAxisPtsX | .y => .parseFixNoAxisPtsY | .z => .parseFixNoAxisPtsZ
  | .a4 => .parseFixNoAxisPts4 | .a5 => .parseFixNoAxisPts5

def alignFn : Calib.DataType → PName
  | .ubyte | .sbyte | .undefined => .parseAlignmentByte | .uword | .sword => .parseAlignmentWord
  | .ulong | .slong => .parseAlignmentLong | .aUint64 | .aInt64 => .parseAlignmentInt64
  | .float16 => .parseAlignmentFloat16Ieee | .float32 => .parseAlignmentFloat32Ieee | .float64 => .parseAlignmentFloat64Ieee

def alignField : Calib.DataType → String
  | .ubyte | .sbyte | .undefined => "AlignmentByte" | .uword | .sword => "AlignmentWord"
  | .ulong | .slong => "AlignmentLong" | .aUint64 | .aInt64 => "AlignmentInt64"
  | .float16 => "AlignmentFloat16Ieee" | .float32 => "AlignmentFloat32Ieee" | .float64 => "AlignmentFloat64Ieee"

theorem fix_sub (a : Calib.Axis) :
    (fixKey a, Decl.Sub.obj (fixFn a) (fixName a) .field) ∈ Props.Shape.subs (shape .parseRecordLayout) ∧
    keyField (Props.Shape.subs (shape .parseRecordLayout)) (fixKey a) (fixFn a) (fixName a) = true ∧ fixFn a ∉ irregular ∧
    shape (fixFn a) = .one ⟨"NumberOfAxisPoints", "NumberOfAxisPointsSet", .uint 16⟩ := by
  cases a <;> exact ⟨by decide +kernel, by decide +kernel, by decide, rfl⟩

theorem align_sub (d : Calib.DataType) (hd : d ≠ .undefined) :
    alignFn d ∉ irregular ∧ shape (alignFn d) = .one ⟨"AlignmentBorder", "AlignmentBorderSet", .uint 16⟩ ∧
    ∀ p ∈ [PName.parseRecordLayout, .parseModCommon],
      (alignKey d, Decl.Sub.obj (alignFn d) (alignField d) .field) ∈ Props.Shape.subs (shape p) ∧
      keyField (Props.Shape.subs (shape p)) (alignKey d) (alignFn d) (alignField d) = true := by
  cases d <;> first | exact absurd rfl hd | exact ⟨by decide, rfl, by decide +kernel⟩

theorem align_entry (d : Calib.DataType) (hd : d ≠ .undefined) (r : Obj) :
    Calib.Spec.alignEntry d (align r) = optNat (inner r (alignField d)) "AlignmentBorder" "AlignmentBorderSet" := by
  cases d <;> first | exact absurd rfl hd | rfl

theorem align_text {E : Env} (hw : Wf E) {p : PName} (hp : p ∈ [PName.parseRecordLayout, .parseModCommon]) {i j : Nat} {fs : List Part}
    (hfs : BlockParts E p i j fs) {r : Obj}
    (h3 : ∀ k q g md, (k, Decl.Sub.obj q g md) ∈ Props.Shape.subs (shape p) → KeptParts fs g r md) (d : Calib.DataType) (hd : d ≠ .undefined) :
    PartNum E fs (alignKey d) 1 (Calib.Spec.alignEntry d (align r)) := by
  obtain ⟨h1, h2, h4⟩ := align_sub d hd
  rw [align_entry d hd]
  exact num_text hw hfs h3 (h4 p hp).1 (h4 p hp).2 h1 (Or.inr ⟨_, h2, rfl⟩) rfl

/-- C69, record layouts: an accepted RECORD_LAYOUT has the positions, data types, sizes and borders of its text; the data
type of NO_RESCALE_X is never there, and the map of relative positions is empty. -/
theorem C69_layout_partial {E : Env} (hw : Wf E) (hs : E.multi = false) {i j : Nat} {v : Val}
    (h : Returns E .parseRecordLayout i (.ok j v false)) :
    ∃ (r : Obj) (fs : List Part), v = .obj r ∧ BlockParts E .parseRecordLayout i j fs ∧ LayoutText E fs (recordLayout r) ∧
      ((recordLayout r).field .noRescaleX).datatype = none ∧ (recordLayout r).relativePositions = fun _ => none := by
  obtain ⟨r, o, m, rfl, ht, hsv, _⟩ := Props.C64_marks_partial hw (p := .parseRecordLayout) (by decide) h
  obtain ⟨fs, h2, h3⟩ := Props.C65_parts_partial hw (Props.mtGood_seq hs) (by decide) h
  have hnr := part_raw h2 (h3 _ _ _ _ (field_sub .noRescaleX).1) (field_sub .noRescaleX).2
  refine ⟨r, fs, rfl, h2, ⟨?_, ?_, ?_, ?_, ?_, ?_⟩, ?_, ?_⟩
  · intro f
    by_cases hf : f = .noRescaleX
    · subst hf
      show PartNum E fs _ 1 (optNat (inner r "NoRescaleX") "Position" "PositionSet")
      unfold PartNum
      cases hl : lastPart fs (fieldKey .noRescaleX) with
      | none => simp only; rw [show inner r "NoRescaleX" = Obj.empty from hnr.1 hl]; rfl
      | some a =>
        obtain ⟨b, v, g1, g2⟩ := hnr.2 a hl
        obtain ⟨t, m, k1, k2, k3, k4, _, k6⟩ := (Verif.A2l.Props.C32_no_rescale_x_exact hw).1 g1
        refine ⟨m, ?_, k4, t, k1, k3⟩
        unfold inner
        rw [show r "NoRescaleX" = v from g2, k6]
        simp [optNat, Obj.flag, Obj.int, Obj.set]
    · by_cases hr : f = .reserved
      · subst hr
        exact num_text hw h2 h3 (field_sub .reserved).1 (field_sub .reserved).2 (by decide) (Or.inl rfl) (k := 0) rfl
      · obtain ⟨g1, ps, g2, g3, _⟩ := field_shape f hf hr
        show PartNum E fs _ 1 (fieldDecl r f).position
        unfold fieldDecl
        cases hlow : lower f with
        | true =>
          simp only [hlow, if_true] at g3 ⊢
          exact num_text hw h2 h3 (field_sub f).1 (field_sub f).2 g1 (Or.inl g2) g3
        | false =>
          simp only [hlow] at g3 ⊢
          exact num_text hw h2 h3 (field_sub f).1 (field_sub f).2 g1 (Or.inl g2) g3
  · intro f hf hr
    obtain ⟨g1, ps, g2, _, g3⟩ := field_shape f hf hr
    show PartWord E fs _ 2 _ (fieldDecl r f).datatype
    unfold fieldDecl
    cases hlow : lower f with
    | true =>
      simp only [hlow, if_true] at g3 ⊢
      exact word_text hw h2 h3 (field_sub f).1 (field_sub f).2 g1 (Or.inl g2) g3 (by decide +kernel)
    | false =>
      simp only [hlow] at g3 ⊢
      exact word_text hw h2 h3 (field_sub f).1 (field_sub f).2 g1 (Or.inl g2) g3 (by decide +kernel)
  · exact word_text hw h2 h3 (field_sub .reserved).1 (field_sub .reserved).2 (by decide) (Or.inl rfl) (k := 1) rfl (by decide +kernel)
  · exact word_text hw h2 h3 (field_sub .fncValues).1 (field_sub .fncValues).2 (by decide) (Or.inl rfl) (k := 3) rfl (by decide +kernel)
  · intro a
    obtain ⟨g1, g2, g3, g4⟩ := fix_sub a
    exact num_text hw h2 h3 g1 g2 g3 (Or.inr ⟨_, g4, rfl⟩) rfl
  · exact fun d hd => align_text hw (by simp) h2 h3 d hd
  · show (optStr (inner r "NoRescaleX") "Datatype" "DatatypeSet").map dataType = none
    cases hl : lastPart fs (fieldKey .noRescaleX) with
    | none => rw [show inner r "NoRescaleX" = Obj.empty from hnr.1 hl]; rfl
    | some a =>
      obtain ⟨b, v, g1, g2⟩ := hnr.2 a hl
      obtain ⟨t, m, k1, k2, k3, k4, _, k6⟩ := (Verif.A2l.Props.C32_no_rescale_x_exact hw).1 g1
      unfold inner
      rw [show r "NoRescaleX" = v from g2, k6]
      simp [optStr, Obj.flag, Obj.set, Obj.empty]
  · funext k
    have h0 : o "RelativePositions" = .zero := Props.C64_undeclared_zero ht (by decide +kernel)
    have h1 : r "RelativePositions" = .zero := by
      rw [← h0]
      exact hsv _ (by decide +kernel)
    show (match r "RelativePositions" with | .map m => (m (toString k).toList).map text | _ => none) = none
    rw [h1]

/-- C69, MOD_COMMON: an accepted MOD_COMMON has the byte order and the borders of its text. -/
theorem common_text {E : Env} (hw : Wf E) (hs : E.multi = false) {i j : Nat} {v : Val}
    (h : Returns E .parseModCommon i (.ok j v false)) :
    ∃ (r : Obj) (gs : List Part), v = .obj r ∧ BlockParts E .parseModCommon i j gs ∧
      Calib.Props.OrderWf (modCommon r) ∧ Calib.Spec.endianOf (modCommon r) = OrderText E gs ∧
      ∀ d, d ≠ .undefined → PartNum E gs (alignKey d) 1 (Calib.Spec.alignEntry d (modCommon r).align) := by
  obtain ⟨r, o, m, rfl, ht, hsv, _⟩ := Props.C64_marks_partial hw (p := .parseModCommon) (by decide) h
  obtain ⟨gs, h2, h3⟩ := Props.C65_parts_partial hw (Props.mtGood_seq hs) (by decide) h
  have hb := part_flat hw h2 (h3 (str! "BYTE_ORDER") .parseByteOrder "ByteOrder" .field (by decide +kernel)) (key := (str! "BYTE_ORDER"))
    (q := .parseByteOrder) (by decide +kernel) (by decide) (Or.inr ⟨_, rfl, rfl⟩)
  have key : Calib.Props.OrderWf (modCommon r) ∧ Calib.Spec.endianOf (modCommon r) = OrderText E gs := by
    unfold OrderText
    cases hl : lastPart gs (str! "BYTE_ORDER") with
    | none =>
      have e : (modCommon r).byteOrderSet = false := by
        show (inner r "ByteOrder").flag "ByteOrderSet" = false
        rw [hb.1 hl]; rfl
      have e' : (modCommon r).byteOrder = .undefined := by
        show byteOrder ((inner r "ByteOrder").str "ByteOrder") = .undefined
        rw [hb.1 hl]; decide +kernel
      unfold Calib.Props.OrderWf Calib.Spec.endianOf
      rw [e, e']
      simp
    | some a =>
      obtain ⟨t, ht, _, hv⟩ := hb.2 a hl 0 _ rfl
      have e : (modCommon r).byteOrderSet = true := hv.mark
      obtain ⟨⟨c, hc⟩, hv2⟩ := hv.val
      have e' : (modCommon r).byteOrder = byteOrder t := by
        show byteOrder ((inner r "ByteOrder").str "ByteOrder") = byteOrder t
        unfold Obj.str
        simp only at hv2
        rw [hv2]
      have ht' : E.toks[a + 1]? = some t := ht
      simp only [ht', Option.getD_some]
      unfold Calib.Props.OrderWf Calib.Spec.endianOf
      rw [e, e']
      have : ∀ y ∈ parseByteOrderEnum.table, (true = true ↔ byteOrder y.1 ≠ .undefined) ∧
        (match true, byteOrder y.1 with
          | false, _ => some Calib.Spec.Endian.big
          | true, .bigEndian => some .big
          | true, .msbFirst => some .big
          | true, .littleEndian => some .little
          | true, .msbLast => some .little
          | true, _ => none) = orderWord y.1 := by decide +kernel
      exact this _ hc
  exact ⟨r, gs, rfl, h2, key.1, key.2, fun d hd => align_text hw (by simp) h2 h3 d hd⟩

/-- The border in force is the one of the text. -/
theorem border_text {E : Env} {fs gs : List Part} {rl : Calib.RecordLayout} {mc : Calib.ModCommon} {d : Calib.DataType}
    (h1 : PartNum E fs (alignKey d) 1 (Calib.Spec.alignEntry d rl.align)) (h2 : PartNum E gs (alignKey d) 1 (Calib.Spec.alignEntry d mc.align)) :
    BorderText E fs gs d (Calib.Spec.border rl mc d) := by
  unfold BorderText Calib.Spec.border
  unfold PartNum at h1 h2
  cases e1 : lastPart fs (alignKey d) with
  | some a =>
    rw [e1] at h1
    obtain ⟨m, g1, _, g2⟩ := h1
    rw [g1]
    exact g2
  | none =>
    rw [e1] at h1
    rw [show Calib.Spec.alignEntry d rl.align = none from h1]
    cases e2 : lastPart gs (alignKey d) with
    | some a =>
      rw [e2] at h2
      obtain ⟨m, g1, _, g2⟩ := h2
      rw [g1]
      exact g2
    | none =>
      rw [e2] at h2
      rw [show Calib.Spec.alignEntry d mc.align = none from h2]

/-- C69: the module in use has the byte order of the last BYTE_ORDER of the last MOD_COMMON of the text. Under a name
there is a record layout exactly if the text has one; it says what the last one with that name says, except for the
data type of NO_RESCALE_X, and its borders are those of the text. Missing: the data type of NO_RESCALE_X. -/
theorem C69_partial {E : Env} (hw : Wf E) (hs : E.multi = false) {s j : Nat} {os : List ModSpec.Found} (hsc : Scan E s os j)
    {fv : Str → Rat} {cd : Calib.CalData Val} (hu : Uses fv cd os) :
    ∃ (m : Calib.Module Val) (gs : List Part), cd.module? = some m ∧ CommonParts E os gs ∧
      Calib.Props.OrderWf m.modCommon ∧ Calib.Spec.endianOf m.modCommon = OrderText E gs ∧
      ∀ name, match (os.filter (fun f => f.kind = 16 ∧ f.name = name)).getLast? with
        | none => m.recordLayouts name = none
        | some f => ∃ fs rl, BlockParts E .parseRecordLayout f.pos f.stop fs ∧ m.recordLayouts name = some rl ∧ LayoutText E fs rl ∧
            (rl.field .noRescaleX).datatype = none ∧ (rl.relativePositions = fun _ => none) ∧
            ∀ d, d ≠ .undefined → BorderText E fs gs d (Calib.Spec.border rl m.modCommon d) := by
  obtain ⟨mo, u1, u2, u3⟩ := hu
  have hmc : ∃ gs, CommonParts E os gs ∧ Calib.Props.OrderWf (modCommon (inner mo "ModCommon")) ∧
      Calib.Spec.endianOf (modCommon (inner mo "ModCommon")) = OrderText E gs ∧
      ∀ d, d ≠ .undefined → PartNum E gs (alignKey d) 1 (Calib.Spec.alignEntry d (modCommon (inner mo "ModCommon")).align) := by
    have e : mo "ModCommon" = (lastOf os 14).getD .zero := u3 14 _ rfl rfl
    unfold CommonParts
    unfold lastOf at e
    cases hl : (os.filter (fun f => f.kind = 14)).getLast? with
    | none =>
      rw [hl] at e
      have e' : inner mo "ModCommon" = Obj.empty := by unfold inner; rw [e]; rfl
      refine ⟨[], rfl, ?_⟩
      rw [e']
      refine ⟨by decide +kernel, ?_, fun d hd => ?_⟩
      · show Calib.Spec.endianOf (modCommon Obj.empty) = some .big
        decide +kernel
      show Calib.Spec.alignEntry d (align Obj.empty) = none
      rw [align_entry d hd]
      rfl
    | some f =>
      rw [hl] at e
      have hm := List.mem_of_getLast? hl
      simp only [List.mem_filter, decide_eq_true_eq] at hm
      obtain ⟨K, hk, _, hret⟩ := scan_read hsc f hm.1
      rw [hm.2] at hk
      cases hk
      obtain ⟨r, gs, g1, g2, g3⟩ := common_text hw hs hret
      have e' : inner mo "ModCommon" = r := by unfold inner; rw [e]; simp only [Option.map_some, Option.getD_some, g1]
      rw [e']
      exact ⟨gs, g2, g3⟩
  obtain ⟨gs, c1, c2, c3, c4⟩ := hmc
  refine ⟨_, gs, u1, c1, c2, c3, fun name => ?_⟩
  have e : (Obj.map mo "RecordLayouts" name) = lastNamed os 16 name := u2 16 _ _ rfl rfl name
  unfold lastNamed at e
  split
  · rename_i hl
    rw [hl] at e
    show (Obj.map mo "RecordLayouts" name).map _ = none
    rw [e]
    rfl
  · rename_i f hl
    rw [hl] at e
    have hm := List.mem_of_getLast? hl
    simp only [List.mem_filter, decide_eq_true_eq] at hm
    obtain ⟨K, hk, _, hret⟩ := scan_read hsc f hm.1
    rw [hm.2.1] at hk
    cases hk
    obtain ⟨r, fs, g1, g2, g3, g4, g5⟩ := C69_layout_partial hw hs hret
    refine ⟨fs, recordLayout r, g2, ?_, g3, g4, g5, fun d hd => border_text (g3.align d hd) (c4 d hd)⟩
    show (Obj.map mo "RecordLayouts" name).map _ = _
    rw [e]
    simp only [Option.map_some, g1]
    rfl

/-! ### What the root package makes of it -/

theorem module_at {cd : Calib.CalData Val} {m : Calib.Module Val} (h : cd.module? = some m) : cd.modules[cd.moduleIndex]? = some m := h

theorem NumAt.unique {E : Env} {k n n' : Nat} (h : NumAt E k n) (h' : NumAt E k n') : n = n' := by
  obtain ⟨t, h1, h2⟩ := h
  obtain ⟨t', h1', h2'⟩ := h'
  rw [h1] at h1'
  cases h1'
  exact h2.unique h2'

theorem BorderText.unique {E : Env} {fs gs : List Part} {d : Calib.DataType} {b b' : Nat} (h : BorderText E fs gs d b)
    (h' : BorderText E fs gs d b') : b = b' := by
  unfold BorderText at h h'
  split at h <;> simp_all only
  · exact h.unique h'
  · exact h.unique h'

/-- C69 with C41: an address of eight digits is taken in the byte order of the text. -/
theorem C69_address {E : Env} (hw : Wf E) (hs : E.multi = false) {s j : Nat} {os : List ModSpec.Found} (hsc : Scan E s os j)
    {fv : Str → Rat} {cd : Calib.CalData Val} (hu : Uses fv cd os) :
    ∃ gs, CommonParts E os gs ∧ ∀ (t digits : Str) (bytes : List Nat), t = digits ∨ t = '0' :: 'x' :: digits →
      Calib.Spec.eightDigits digits = some bytes →
      Calib.convertStringToUint32Address cd t = match OrderText E gs with
        | some e => .ok (e.number bytes)
        | none => .err := by
  obtain ⟨m, gs, h1, h2, h3, h4, _⟩ := C69_partial hw hs hsc hu
  refine ⟨gs, h2, fun t digits bytes ht hd => ?_⟩
  rw [Calib.Props.C41_partial cd m (module_at h1) h3 t digits bytes ht hd, h4]
  rfl

/-- C69 with C42: the bytes of a value are decoded in the byte order of the text. -/
theorem C69_decode {E : Env} (hw : Wf E) (hs : E.multi = false) {s j : Nat} {os : List ModSpec.Found} (hsc : Scan E s os j)
    {fv : Str → Rat} {cd : Calib.CalData Val} (hu : Uses fv cd os) :
    ∃ gs, CommonParts E os gs ∧ ∀ (d : Calib.DataType) (bs : List Nat), d ∈ [Calib.DataType.ubyte, .sbyte, .aUint64, .aInt64, .float32, .float64] →
      Calib.Spec.IsBytes bs → bs.length = Calib.Spec.size d →
      match OrderText E gs with
      | none => Calib.convertByteSliceToDatatype cd bs d = .err
      | some e => (Calib.Spec.isInteger d = true → (Calib.Spec.intValue e d bs).natAbs ≤ 2 ^ 53 →
            Calib.convertByteSliceToDatatype cd bs d = .ok (.num (Calib.Spec.intValue e d bs))) ∧
          (d = .float32 → Calib.convertByteSliceToDatatype cd bs d = .ok (.f32 (e.number bs))) ∧
          (d = .float64 → Calib.convertByteSliceToDatatype cd bs d = .ok (.f64 (e.number bs))) := by
  obtain ⟨m, gs, h1, h2, h3, h4, _⟩ := C69_partial hw hs hsc hu
  refine ⟨gs, h2, fun d bs hd hb hl => ?_⟩
  obtain ⟨_, g2, g3, g4, _⟩ := Calib.Props.C42_partial cd m d bs (module_at h1) h3 hd hb
  rw [h4] at g2 g3 g4
  cases ho : OrderText E gs with
  | none => exact g2 hl ho
  | some e => exact ⟨fun hi hn => g3 e hl ho hi hn, (g4 e hl ho).1, (g4 e hl ho).2⟩

/-- C69 with C39: when the next aligned address of a data type is right, by the borders of the text. -/
theorem C69_align {E : Env} (hw : Wf E) (hs : E.multi = false) {s j : Nat} {os : List ModSpec.Found} (hsc : Scan E s os j)
    {fv : Str → Rat} {cd : Calib.CalData Val} (hu : Uses fv cd os) {name : Str} {f : ModSpec.Found}
    (hf : (os.filter (fun f => f.kind = 16 ∧ f.name = name)).getLast? = some f) :
    ∃ gs fs rl, CommonParts E os gs ∧ BlockParts E .parseRecordLayout f.pos f.stop fs ∧ Calib.getRecordLayout cd (some name) = .ok rl ∧
      ∀ d a b r, d ≠ .undefined → BorderText E fs gs d b →
        (b = 0 → Calib.getNextAlignedAddress cd a d rl = .panic) ∧
        (0 < b → Calib.Spec.IsNextAligned a b r → r < 2 ^ 32 →
          (Calib.getNextAlignedAddress cd a d rl = .ok r ↔ a % b = 0 ∨ 2 * (a % b) = b)) := by
  obtain ⟨m, gs, h1, h2, h3, h4, h5⟩ := C69_partial hw hs hsc hu
  have h6 := h5 name
  rw [hf] at h6
  obtain ⟨fs, rl, g1, g2, g3, g4, g5, g6⟩ := h6
  refine ⟨gs, fs, rl, h2, g1, ?_, fun d a b r hd hb => ?_⟩
  · unfold Calib.getRecordLayout
    simp only [h1, g2]
  · obtain rfl := (g6 d hd).unique hb
    exact ⟨fun h0 => Calib.Props.C39_zero_border_crash cd m a d rl (module_at h1) hd h0,
      fun h0 hr hr32 => Calib.Props.C39_partial cd m a d rl r (module_at h1) hd h0 hr hr32⟩

/-- The field `f` has the position `p` in the text. -/
def PosText (E : Env) (fs : List Part) (f : Calib.Field) (p : Nat) : Prop :=
  ∃ a, lastPart fs (fieldKey f) = some a ∧ NumAt E (a + 1) p

theorem pos_text {E : Env} {fs : List Part} {rl : Calib.RecordLayout} (h : LayoutText E fs rl) (f : Calib.Field) (p : Nat) :
    (rl.field f).position = some p ↔ PosText E fs f p := by
  have h1 := h.position f
  unfold PartNum at h1
  unfold PosText
  cases hl : lastPart fs (fieldKey f) with
  | none =>
    rw [hl] at h1
    rw [show (rl.field f).position = none from h1]
    simp
  | some a =>
    rw [hl] at h1
    obtain ⟨m, e1, _, e2⟩ := h1
    rw [e1]
    constructor
    · intro h; cases h; exact ⟨a, rfl, e2⟩
    · rintro ⟨_, h, h'⟩; cases h; rw [e2.unique h']

/-- C69 with C46 and C47: the positions of a record layout are rejected exactly if two of its keywords in the text have the
same number; otherwise each position belongs to the field with the keyword before it, and the data type of that field
is the second word after the keyword. -/
theorem C69_positions {E : Env} (hw : Wf E) (hs : E.multi = false) {s j : Nat} {os : List ModSpec.Found} (hsc : Scan E s os j)
    {fv : Str → Rat} {cd : Calib.CalData Val} (hu : Uses fv cd os) {name : Str} {f : ModSpec.Found}
    (hf : (os.filter (fun f => f.kind = 16 ∧ f.name = name)).getLast? = some f) :
    ∃ fs rl, BlockParts E .parseRecordLayout f.pos f.stop fs ∧ Calib.getRecordLayout cd (some name) = .ok rl ∧
      ((Calib.getRelativePositions rl).2 = true ↔ ∃ g h p, g ≠ h ∧ PosText E fs g p ∧ PosText E fs h p) ∧
      ((Calib.getRelativePositions rl).2 = false → ∀ p n, (Calib.getRelativePositions rl).1 p = some n ↔
        ∃ g, PosText E fs g p ∧ g.name = n) ∧
      (∀ g d, g ≠ .noRescaleX → g ≠ .reserved → d ≠ .undefined →
        (Calib.getDatatypeByFieldName rl g.name = .ok d ↔ ∃ a, lastPart fs (fieldKey g) = some a ∧ E.toks[a + 2]? = some (typeWord d))) := by
  obtain ⟨m, gs, h1, h2, h3, h4, h5⟩ := C69_partial hw hs hsc hu
  have h6 := h5 name
  rw [hf] at h6
  obtain ⟨fs, rl, g1, g2, g3, g4, g5, g6⟩ := h6
  obtain ⟨c1, c2⟩ := Calib.Props.C46 rl
  refine ⟨fs, rl, g1, ?_, ?_, fun hno p n => ?_, fun g d hg1 hg2 hd => ?_⟩
  · unfold Calib.getRecordLayout
    simp only [h1, g2]
  · rw [c1]
    unfold Calib.Props.Clash
    simp only [pos_text g3]
  · rw [(c2 hno).1 p n]
    simp only [pos_text g3]
  · obtain ⟨k1, k2, _⟩ := Calib.Props.C47_partial rl
    have hd' := g3.datatype g hg1 hg2
    unfold PartWord at hd'
    cases hl : lastPart fs (fieldKey g) with
    | none =>
      rw [hl] at hd'
      rw [k2 g hd']
      simp
    | some a =>
      rw [hl] at hd'
      obtain ⟨y, e1, e2, e3⟩ := hd'
      rw [k1 g y hg2 e1]
      simp only [Calib.Res.ok.injEq, Option.some.injEq, exists_eq_left', e2]
      constructor
      · rintro rfl; rfl
      · intro h
        have inj : ∀ x y : Calib.DataType, typeWord x = typeWord y → x = y := by intro x y; cases x <;> cases y <;> decide +kernel
        exact inj _ _ h

/-- C69 with C52: whatever a record layout of the file says, reading the values of a characteristic with it reads
nothing. -/
theorem C69_nothing_read {E : Env} (hw : Wf E) (hs : E.multi = false) {s j : Nat} {os : List ModSpec.Found} (hsc : Scan E s os j)
    {fv : Str → Rat} {cd : Calib.CalData Val} (hu : Uses fv cd os) {name : Str} {cv cv' : Calib.CharValues}
    (hr : Calib.getRecordLayout cd (some name) = .ok cv.recordLayout) {trunc : Calib.Val → Int} {order : List Str}
    (ho : Calib.Props.IsRange cv.recordLayout.relativePositions order)
    (h : Calib.getValuesFromHex trunc cd cv order = some cv') : cv' = cv := by
  obtain ⟨m, gs, h1, h2, h3, h4, h5⟩ := C69_partial hw hs hsc hu
  have h6 := h5 name
  unfold Calib.getRecordLayout at hr
  simp only [h1] at hr
  split at h6
  · rw [h6] at hr; cases hr
  · obtain ⟨fs, rl, g1, g2, g3, g4, g5, g6⟩ := h6
    rw [g2] at hr
    cases hr
    exact Calib.Props.C52_nothing_read trunc cd cv order g5 ho cv' h

/-- C69 in full for record layouts: NO_RESCALE_X has its data type like the other fields. -/
def C69_full : Prop := ∀ (E : Env), Wf E → E.multi = false → ∀ (i j : Nat) (r : Obj), Returns E .parseRecordLayout i (.ok j (.obj r) false) →
  ∀ fs, BlockParts E .parseRecordLayout i j fs → LayoutText E fs (recordLayout r) ∧
    ∀ a d, lastPart fs (str! "NO_RESCALE_X") = some a → d ≠ .undefined → E.toks[a + 2]? = some (typeWord d) →
      ((recordLayout r).field .noRescaleX).datatype = some d

/-- `/begin RECORD_LAYOUT NO_RESCALE_X 1 UBYTE /end RECORD_LAYOUT` is accepted; its name is UBYTE. -/
def rescale : Env := Props.mkEnv [(str! "/begin RECORD_LAYOUT"), (str! "NO_RESCALE_X"), (str! "1"), (str! "UBYTE"), (str! "/end RECORD_LAYOUT")]

theorem rescale_wf : Wf rescale := Props.mkEnv_wf (by decide)

def rescaleObj : Obj := match A2l.parse rescale .parseRecordLayout 0 with | .ok _ (.obj o) false => o | _ => Obj.empty

theorem rescale_returns : Returns rescale .parseRecordLayout 0 (.ok 4 (.obj rescaleObj) false) := by
  have h : (match A2l.parse rescale .parseRecordLayout 0 with | .ok j (.obj _) e => some (j, e) | _ => none) = some (4, false) := by
    decide +kernel
  have : A2l.parse rescale .parseRecordLayout 0 = .ok 4 (.obj rescaleObj) false := by
    unfold rescaleObj
    split at h
    · rename_i j o e hh
      simp only [Option.some.injEq, Prod.mk.injEq] at h
      obtain ⟨rfl, rfl⟩ := h
      rw [hh]
    · cases h
  exact returns_of_run this (by simp)

/-- C69 is false for the data type of NO_RESCALE_X: it becomes the name of the record layout. -/
theorem C69_false : ¬ C69_full := by
  intro h
  obtain ⟨r, fs, h1, h2, _, h4, _⟩ := C69_layout_partial rescale_wf rfl rescale_returns
  cases h1
  have hl : lastPart fs (str! "NO_RESCALE_X") = some 1 :=
    lastPart_only h2 (q := .parseNoRescaleX) (g := "NoRescaleX") (md := .field) rfl (by decide) (by decide) (by decide +kernel) (by decide +kernel)
  have := (h rescale rescale_wf rfl 0 4 _ rescale_returns fs h2).2 1 .ubyte hl (by decide) rfl
  rw [h4] at this
  cases this

/-- Whether the part `y` that begins at `z` ends before `a`. -/
def endsBefore (E : Env) (z a : Nat) (y : Str × Decl.Sub) : Bool :=
  match y.2 with
  | .obj q _ _ => (match A2l.parse E q z with | .ok e _ false => decide (e < a) | _ => false)
  | .enum _ _ => true

/-- The last keyword `key` is at `a` if no part covers it and none follows. -/
theorem lastPart_at {E : Env} {subs : List (Str × Decl.Sub)} {i j a : Nat} {fs : List Part} {key : Str}
    {q : PName} {g : String} {md : Decl.Mode} (h : PartsOf E (Succeeds E) subs i j fs) (ht : E.toks[a]? = some key) (h1 : i < a) (h2 : a ≤ j)
    (hs : (key, Decl.Sub.obj q g md) ∈ subs)
    (hb : ∀ z, z < a → i < z → ∀ y ∈ subs, y.1 = (E.toks[z]?).getD [] → endsBefore E z a y = true)
    (ha : ∀ z, z ≤ j → a < z → (E.toks[z]?).getD [] ≠ key) : lastPart fs key = some a := by
  obtain ⟨f, hf, hf1, hf2⟩ := h.all a key q g md h1 h2 ht hs
  have hpos : f.pos = a := by
    rcases Nat.lt_or_ge f.pos a with hlt | hge
    · have hd := h.decl f hf
      have := hb f.pos hlt (h.within f hf).1 _ hd (by rw [h.tok f hf]; rfl)
      unfold endsBefore at this
      simp only at this
      split at this
      · rename_i e v he
        have hr : Returns E f.q f.pos (.ok e v false) := returns_of_run he (by simp)
        have hu := (h.read f hf).unique hr
        simp only [PRes.ok.injEq] at hu
        simp only [decide_eq_true_eq] at this
        omega
      · cases this
    · omega
  have hkey : f.key = key := by
    have := h.tok f hf
    rw [hpos, ht] at this
    exact (Option.some.inj this).symm
  unfold lastPart
  cases hl : (fs.filter (fun f => f.key = key)).getLast? with
  | none =>
    rw [List.getLast?_eq_none_iff, List.filter_eq_nil_iff] at hl
    exact absurd (by simpa using hkey) (hl f hf)
  | some f' =>
    have hm := List.mem_of_getLast? hl
    simp only [List.mem_filter, decide_eq_true_eq] at hm
    rw [Option.map_some]
    congr 1
    have hle : f'.pos ≤ a := by
      apply Nat.le_of_not_lt
      intro hlt
      refine ha f'.pos (by have := h.within f' hm.1; omega) hlt ?_
      rw [h.tok f' hm.1, hm.2]
      rfl
    have hord : (fs.filter (fun f => f.key = key)).Pairwise (fun f g => f.stop < g.pos) := h.order.filter _
    obtain ⟨l, hl'⟩ := List.getLast?_eq_some_iff.1 hl
    rw [hl', List.pairwise_append] at hord
    have hfm : f ∈ fs.filter (fun f => f.key = key) := by simp [hf, hkey]
    rw [hl', List.mem_append, List.mem_singleton] at hfm
    rcases hfm with hfm | rfl
    · have := hord.2.2 f hfm f' (by simp)
      omega
    · exact hpos

theorem lastPart_none {E : Env} {R : PName → Nat → Nat → Val → Prop} {subs : List (Str × Decl.Sub)} {i j : Nat} {fs : List Part} {key : Str}
    (h : PartsOf E R subs i j fs) (ha : ∀ z, z ≤ j → i < z → (E.toks[z]?).getD [] ≠ key) : lastPart fs key = none := by
  unfold lastPart
  rw [Option.map_eq_none_iff, List.getLast?_eq_none_iff, List.filter_eq_nil_iff]
  intro f hf hk
  have hw := h.within f hf
  refine ha f.pos (by omega) hw.1 ?_
  rw [h.tok f hf]
  simpa using hk

theorem demo_layout : (demoOs.filter (fun f => f.kind = 16 ∧ f.name = (str! "gear"))).getLast? = some (found 93 105 16) := by
  have : demoOs = demoOs.take 9 ++ [found 93 105 16] := rfl
  rw [this, List.filter_append, List.filter_cons_of_pos (by decide +kernel)]
  simp

/-- Non-vacuity of C69: in the example file the first field of the record layout `gear` is FNC_VALUES with the type UBYTE,
the second one AXIS_PTS_X with the type ULONG, the positions are accepted and the byte order is big endian. -/
example : (∃ rl, Calib.getRecordLayout demoCd (some (str! "gear")) = .ok rl ∧ (Calib.getRelativePositions rl).2 = false ∧
    (Calib.getRelativePositions rl).1 2 = some "AxisPtsX".toList ∧
    Calib.getDatatypeByFieldName rl "FncValues".toList = .ok .ubyte ∧ Calib.getDatatypeByFieldName rl "AxisPtsX".toList = .ok .ulong) ∧
    Calib.convertStringToUint32Address demoCd (str! "0x00000102") = .ok 258 := by
  constructor
  · obtain ⟨fs, rl, h1, h2, h3, h4, h5⟩ := C69_positions demo_wf demo_seq demo_scan demo_uses demo_layout
    have hparts : lastPart fs (str! "FNC_VALUES") = some 95 ∧ lastPart fs (str! "AXIS_PTS_X") = some 100 :=
      ⟨lastPart_at h1 (q := .parseFncValues) (g := "FncValues") (md := .field) rfl (by decide) (by decide) (by decide +kernel) (by decide +kernel) (by decide +kernel),
        lastPart_at h1 (q := .parseAxisPtsX) (g := "AxisPtsX") (md := .field) rfl (by decide) (by decide) (by decide +kernel) (by decide +kernel) (by decide +kernel)⟩
    have hno : ∀ g : Calib.Field, g ≠ .fncValues → g ≠ .axisPtsX → lastPart fs (fieldKey g) = none := by
      intro g g1 g2
      apply lastPart_none h1
      revert g1 g2
      cases g <;> decide +kernel
    have p1 : NumAt demo 96 1 := ⟨(str! "1"), rfl, Props.isNat_of (by decide) (by decide) (by decide)⟩
    have p2 : NumAt demo 101 2 := ⟨(str! "2"), rfl, Props.isNat_of (by decide) (by decide) (by decide)⟩
    have hclash : (Calib.getRelativePositions rl).2 = false := by
      rw [← Bool.not_eq_true, h3]
      rintro ⟨g, k, p, hne, ⟨a, ha, hap⟩, ⟨b, hb, hbp⟩⟩
      by_cases g1 : g = .fncValues <;> by_cases k1 : k = .fncValues <;> by_cases g2 : g = .axisPtsX <;> by_cases k2 : k = .axisPtsX <;>
        first
        | (rw [hno g g1 g2] at ha; cases ha)
        | (rw [hno k k1 k2] at hb; cases hb)
        | skip
      all_goals first | (subst g1; cases g2; done) | (subst k1; cases k2; done) | (exact absurd (g1.trans k1.symm) hne) | (exact absurd (g2.trans k2.symm) hne) | skip
      · subst g1 k2
        rw [show lastPart fs (fieldKey .fncValues) = some 95 from hparts.1] at ha
        rw [show lastPart fs (fieldKey .axisPtsX) = some 100 from hparts.2] at hb
        cases ha; cases hb
        have := hap.unique p1; have := hbp.unique p2
        omega
      · subst g2 k1
        rw [show lastPart fs (fieldKey .fncValues) = some 95 from hparts.1] at hb
        rw [show lastPart fs (fieldKey .axisPtsX) = some 100 from hparts.2] at ha
        cases ha; cases hb
        have := hbp.unique p1; have := hap.unique p2
        omega
    exact ⟨rl, h2, hclash, (h4 hclash 2 _).2 ⟨.axisPtsX, ⟨100, hparts.2, p2⟩, rfl⟩,
      (h5 .fncValues .ubyte (by decide) (by decide) (by decide)).2 ⟨95, hparts.1, rfl⟩,
      (h5 .axisPtsX .ulong (by decide) (by decide) (by decide)).2 ⟨100, hparts.2, rfl⟩⟩
  · obtain ⟨gs, h1, h2⟩ := C69_address demo_wf demo_seq demo_scan demo_uses
    have hg : lastPart gs (str! "BYTE_ORDER") = some 11 := by
      have e : (demoOs.filter (fun f => f.kind = 14)).getLast? = some (found 9 15 14) := rfl
      unfold CommonParts at h1
      rw [e] at h1
      exact lastPart_at h1 (q := .parseByteOrder) (g := "ByteOrder") (md := .field) rfl (by decide) (by decide) (by decide +kernel) (by decide +kernel) (by decide +kernel)
    rw [h2 _ (str! "00000102") [0, 0, 1, 2] (Or.inr rfl) (by decide +kernel)]
    unfold OrderText
    rw [hg]
    decide +kernel

end Verif.Link
