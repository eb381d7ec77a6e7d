import Verif.A2l.PrintText
import Verif.A2l.LooseProps2
import Verif.A2l.OddProps

/-!
C78: the blocks whose parse function does not follow the common form, written as tokens and read again. The
specification: how each kind of block is written and the struct it is read as.
-/

namespace Verif.A2l.Write
open Verif.Go Verif.A2l Lang Decl Template

/-- A kind of block: its first token, its parse function, its closing token, its parameters, its optional parts, the fields
set by the words after the parameters (first the words of the parameters, then the further words), and which further
words are legal. -/
structure OddKind where
  key : Str
  fn : PName
  fin : Str
  ps : List Param
  subs : List (Str × Sub)
  more : List Str → List Str → List (String × Val)
  fits : Env → List Str → List Str → Prop

/-- The fields of the parameters and their markers. -/
def writtenFields (ps : List Param) (hdr : List Str) : List (String × Val) :=
  (ps.zip hdr).flatMap fun x => [(x.1.field, valueOf x.1.kind x.2), (x.1.flag, .bool true)]

/-- The struct of a block: the fields of its parameters and of the further words, and in the fields of the optional parts
what is kept of them. -/
def OddKind.struct (K : OddKind) (hdr more : List Str) (vs : List (Str × Val)) : Obj := fun g =>
  match (writtenFields K.ps hdr ++ K.more hdr more).lookup g with
  | some v => v
  | none =>
    match K.subs.find? (target ·.2 = g) with
    | some s => combine (modeOf s.2) (belonging K.subs vs g)
    | none => .zero

/-- A block with the parameters `hdr`, the further words `more` and the optional parts `parts`. -/
def OddKind.node (K : OddKind) (hdr more : List Str) (parts : List Node) : Node :=
  .given K.key K.fn (hdr ++ (more ++ (written parts ++ [K.fin]))) (.obj (K.struct hdr more (values parts)))

/-- The blocks that can be written. -/
structure OddKind.Legal (E : Env) (K : OddKind) (hdr more : List Str) (parts : List Node) : Prop where
  params : Fits E K.ps hdr
  fits : K.fits E hdr more
  words : ∀ w ∈ hdr ++ more, w ≠ [] ∧ w ∉ keywords ∧ w ∉ K.subs.map (·.1)
  allowed : ∀ n ∈ parts, Allowed K.subs n
  followed : followed parts K.fin = true
  parts : ∀ n ∈ parts, Write.Legal E n

/-- The optional parts declared for a kind of object. -/
def declaredParts (p : PName) : List (Str × Sub) := match shape p with
  | .block _ _ _ s _ => s
  | _ => []

/-- The last of the further words replaces field `f`. -/
def lastWord (f : String) (_ more : List Str) : List (String × Val) :=
  match more.getLast? with
  | some w => [(f, .str w)]
  | none => []

/-- MEASUREMENT, a2l/measurement.go:51-290: of the words after the data type (conversion, resolution, accuracy, limits) the last one is
kept, as the conversion. -/
def measurement : OddKind where
  key := (str! "/begin MEASUREMENT")
  fn := .parseMeasurement
  fin := (str! "/end MEASUREMENT")
  ps := [⟨"name", "nameSet", .str⟩, ⟨"longIdentifier", "longIdentifierSet", .str⟩, ⟨"datatype", "datatypeSet", .enum parseDataTypeEnum⟩]
  subs := declaredParts .parseMeasurement
  more := lastWord "conversion"
  fits := fun _ _ _ => True

/-- TYPEDEF_MEASUREMENT, a2l/type_def_measurement.go: the same. -/
def typeDefMeasurement : OddKind where
  key := (str! "/begin TYPEDEF_MEASUREMENT")
  fn := .parseTypeDefMeasurement
  fin := (str! "/end TYPEDEF_MEASUREMENT")
  ps := [⟨"name", "nameSet", .str⟩, ⟨"longIdentifier", "longIdentifierSet", .str⟩, ⟨"datatype", "datatypeSet", .enum parseDataTypeEnum⟩]
  subs := declaredParts .parseTypeDefMeasurement
  more := lastWord "conversion"
  fits := fun _ _ _ => True

/-- UNIT, a2l/unit.go:23-85: of the words after the name (long identifier, display, type) the last one is kept, as the long
identifier. -/
def unit : OddKind where
  key := (str! "/begin UNIT")
  fn := .parseUnit
  fin := (str! "/end UNIT")
  ps := [⟨"name", "nameSet", .str⟩]
  subs := declaredParts .parseUnit
  more := lastWord "longIdentifier"
  fits := fun _ _ _ => True

/-- MEMORY_LAYOUT, a2l/memory_layout.go:22-78: five offsets; further words are ignored. -/
def memoryLayout : OddKind where
  key := (str! "/begin MEMORY_LAYOUT")
  fn := .parseMemoryLayout
  fin := (str! "/end MEMORY_LAYOUT")
  ps := [⟨"prgType", "prgTypeSet", .enum parsePrgTypeEnum⟩, ⟨"address", "addressSet", .str⟩, ⟨"size", "sizeSet", .str⟩]
  subs := declaredParts .parseMemoryLayout
  more := fun _ more => if more = [] then [] else
    ("offset", .list ((more.take 5).map (valueOf (.int 32)))) :: if 5 ≤ more.length then [("offsetSet", .bool true)] else []
  fits := fun E _ more => ∀ w ∈ more.take 5, ∃ v, Denotes E (.int 32) w v

/-- MEMORY_SEGMENT, a2l/memory_segment.go:29-102: the word after the parameters is kept five times; the other offsets are ignored. -/
def memorySegment : OddKind where
  key := (str! "/begin MEMORY_SEGMENT")
  fn := .parseMemorySegment
  fin := (str! "/end MEMORY_SEGMENT")
  ps := [⟨"name", "nameSet", .str⟩, ⟨"longIdentifier", "longIdentifierSet", .str⟩, ⟨"prgType", "prgTypeSet", .enum parsePrgTypeEnum⟩,
    ⟨"memoryType", "memoryTypeSet", .enum parseMemoryTypeEnum⟩, ⟨"attribute", "attributeSet", .enum parseAttributeEnum⟩,
    ⟨"address", "addressSet", .str⟩, ⟨"size", "sizeSet", .str⟩]
  subs := [((str! "/begin IF_DATA"), .obj .parseIfData "ifData" .append)]
  more := fun _ more => match more with
    | [] => []
    | w :: _ => [("offset", .list (List.replicate 5 (.str w))), ("offsetSet", .bool true)]
  fits := fun _ _ _ => True

/-- BLOB, a2l/blob.go:33-144: further words are ignored; without ADDRESS_TYPE the address type is DIRECT. ADDRESS_TYPE
is not among the parts, since it is never read without error (C32). -/
def blob : OddKind where
  key := (str! "/begin BLOB")
  fn := .parseBlob
  fin := (str! "/end BLOB")
  ps := [⟨"name", "nameSet", .str⟩, ⟨"longIdentifier", "longIdentifierSet", .str⟩, ⟨"address", "addressSet", .str⟩,
    ⟨"size", "sizeSet", .uint 32⟩]
  subs := [((str! "/begin ANNOTATION"), .obj .parseAnnotation "annotation" .append),
    ((str! "CALIBRATION_ACCESS"), .enum parseCalibrationAccessEnum "calibrationAccess"),
    ((str! "DISPLAY_IDENTIFIER"), .obj .parseDisplayIdentifier "displayIdentifier" .field),
    ((str! "ECU_ADDRESS_EXTENSION"), .obj .parseECUAddressExtension "ecuAddressExtension" .field),
    ((str! "/begin IF_DATA"), .obj .parseIfData "IfData" .append),
    ((str! "MAX_REFRESH"), .obj .parseMaxRefresh "maxRefresh" .field),
    ((str! "MODEL_LINK"), .obj .parseModelLink "modelLink" .field),
    ((str! "SYMBOL_LINK"), .obj .parseSymbolLink "symbolLink" .field)]
  more := fun _ _ => [("addressType", .str (str! "DIRECT"))]
  fits := fun _ _ _ => True

/-- OVERWRITE, a2l/overwrite.go:24-100: further words are ignored. CONVERSION and INPUT_QUANTITY, of which the parser keeps
the keyword only (C32), are not among the parts. -/
def overwrite : OddKind where
  key := (str! "/begin OVERWRITE")
  fn := .parseOverwrite
  fin := (str! "/end OVERWRITE")
  ps := [⟨"name", "nameSet", .str⟩, ⟨"axisNumer", "axisNumberSet", .uint 16⟩]
  subs := [((str! "EXTENDED_LIMITS"), .obj .parseExtendedLimits "extendedLimits" .field),
    ((str! "FORMAT"), .obj .parseFormat "format" .field), ((str! "LIMITS"), .obj .parseLimits "limits" .field),
    ((str! "MONOTONY"), .obj .parseMonotony "monotony" .field), ((str! "PHYS_UNIT"), .obj .parsePhysUnit "physUnit" .field)]
  more := fun _ _ => []
  fits := fun _ _ _ => True

/-- VARIANT_CODING, a2l/variant_coding.go:18-81: any word introduces the separator, which is the next word; further words are
ignored. -/
def variantCoding : OddKind where
  key := (str! "/begin VARIANT_CODING")
  fn := .parseVariantCoding
  fin := (str! "/end VARIANT_CODING")
  ps := []
  subs := [((str! "/begin VAR_CHARACTERISTIC"), .obj .parseVarCharacteristic "varCharacteristic" .append),
    ((str! "/begin VAR_CRITERION"), .obj .parseVarCriterion "varCriterion" .append),
    ((str! "/begin VAR_FORBIDDEN_COMB"), .obj .parseVarForbiddenComb "varForbiddenComb" .append),
    ((str! "VAR_NAMING"), .obj .parseVarNaming "varNaming" .field)]
  more := fun _ more => match more with
    | _ :: s :: _ => [("varSeparator", .obj (Write.struct (shape .parseVarSeparator) [s] [] [])), ("varSeparatorSet", .bool true)]
    | _ => []
  fits := fun _ _ more => more.length ≠ 1

/-- The words at the even and at the odd places. -/
def evens : List Str → List Str
  | a :: _ :: l => a :: evens l
  | l => l

def odds : List Str → List Str
  | _ :: b :: l => b :: odds l
  | _ => []

/-- VAR_FORBIDDEN_COMB, a2l/var_forbidden_comb.go:16-48: names and values in turn. -/
def varForbiddenComb : OddKind where
  key := (str! "/begin VAR_FORBIDDEN_COMB")
  fn := .parseVarForbiddenComb
  fin := (str! "/end VAR_FORBIDDEN_COMB")
  ps := []
  subs := []
  more := fun _ more => (if more = [] then [] else
      [("criterionName", .list ((evens more).map .str)), ("criterionValue", .list ((odds more).map .str))]) ++
    [("criterionNameSet", .bool true), ("criterionValueSet", .bool true)]
  fits := fun _ _ more => more.length % 2 = 0

/-- BIT_OPERATION, a2l/bit_operation.go: words are ignored. -/
def bitOperation : OddKind where
  key := (str! "/begin BIT_OPERATION")
  fn := .parseBitOperation
  fin := (str! "/end BIT_OPERATION")
  ps := []
  subs := declaredParts .parseBitOperation
  more := fun _ _ => []
  fits := fun _ _ _ => True

/-- FRAME, a2l/frame.go: of the words (name, long identifier, scaling unit, rate) the last one is kept, as the name. -/
def frame : OddKind where
  key := (str! "/begin FRAME")
  fn := .parseFrame
  fin := (str! "/end FRAME")
  ps := []
  subs := declaredParts .parseFrame
  more := lastWord "name"
  fits := fun _ _ _ => True

end Verif.A2l.Write

namespace Verif.A2l.Props
open Verif.Go Verif.A2l Lang Decl Analysis Template Write

/-! ### A block of any kind -/

/-- The fields of the optional parts. -/
structure SubsOk (subs : List (Str × Sub)) (own : List String) : Prop where
  keys : (subs.map (·.1)).Nodup
  modes : ∀ s ∈ subs, modeOf s.2 = modeAt subs (target s.2)
  plain : ∀ s ∈ subs, isByName (modeOf s.2) = false
  apart : ∀ s ∈ subs, target s.2 ∉ own

instance (subs : List (Str × Sub)) (own : List String) : Decidable (SubsOk subs own) :=
  decidable_of_iff ((subs.map (·.1)).Nodup ∧ (∀ s ∈ subs, modeOf s.2 = modeAt subs (target s.2)) ∧
    (∀ s ∈ subs, isByName (modeOf s.2) = false) ∧ (∀ s ∈ subs, target s.2 ∉ own))
    ⟨fun ⟨a, b, c, d⟩ => ⟨a, b, c, d⟩, fun ⟨a, b, c, d⟩ => ⟨a, b, c, d⟩⟩

/-- How a parse function goes on in a block with the optional parts `subs`. -/
structure Goes (E : Env) (subs : List (Str × Sub)) (Run : Obj → Nat → Obj → Nat → Prop) : Prop where
  refl : ∀ o i, Run o i o i
  trans : ∀ {o i o' j o'' k}, Run o i o' j → Run o' j o'' k → Run o i o'' k
  obj : ∀ {k q f md o i j v o'}, (k, Sub.obj q f md) ∈ subs → TokAfter E i k → Succeeds E q (i + 1) j v → Keeps o f md v o' → Run o i o' j
  choice : ∀ {k e f o i w c}, (k, Sub.enum e f) ∈ subs → e.usesNext = true → TokAfter E i k → TokAfter E (i + 1) w → (w, c) ∈ e.table →
    Run o i (o.set f (.str w)) (i + 2)

theorem run_nodes {E : Env} {subs : List (Str × Sub)} {own : List String} (hs : SubsOk subs own) {Run : Obj → Nat → Obj → Nat → Prop}
    (hg : Goes E subs Run) {e : Str} : ∀ (ns : List Node) (i : Nat) (o : Obj), (∀ n ∈ ns, Allowed subs n) → (∀ n ∈ ns, ReadBack E n) →
    Words E i (written ns) → followed ns e = true → TokAfter E (i + (written ns).length) e →
    ∃ o', Run o i o' (i + (written ns).length) ∧ ∀ g, o' g = (belonging subs (values ns) g).foldl (keep (modeAt subs g)) (o g)
  | [], i, o, _, _, _, _, _ => ⟨o, hg.refl _ _, fun _ => rfl⟩
  | n :: ns, i, o, ha, hr, hw, hfo, hend => by
    have hnext := followed_next hw hfo hend
    rw [written] at hw hend ⊢
    have ht : TokAfter E i n.key := hw 0 _ rfl
    obtain ⟨hw1, hw2⟩ := Words.append hw.tail
    have step : ∀ (s : Str × Sub) (o1 : Obj), s ∈ subs → s.1 = n.key → Run o i o1 (i + 1 + n.tail.length) →
        o1 (target s.2) = keep (modeOf s.2) (o (target s.2)) n.value → (∀ g, g ≠ target s.2 → o1 g = o g) →
        ∃ o', Run o i o' (i + (n.key :: (n.tail ++ written ns)).length) ∧
          ∀ g, o' g = (belonging subs (values (n :: ns)) g).foldl (keep (modeAt subs g)) (o g) := by
      intro s o1 hs' hsk hit h1 h2
      obtain ⟨o', g1, g2⟩ := run_nodes hs hg ns (i + 1 + n.tail.length) o1 (fun x hx => ha x (List.mem_cons_of_mem _ hx))
        (fun x hx => hr x (List.mem_cons_of_mem _ hx)) hw2 (followed_tail hfo)
        (by rw [show i + 1 + n.tail.length + (written ns).length = i + (n.key :: (n.tail ++ written ns)).length by simp; omega]; exact hend)
      refine ⟨o', ?_, fun g => ?_⟩
      · rw [show i + (n.key :: (n.tail ++ written ns)).length = i + 1 + n.tail.length + (written ns).length by simp; omega]
        exact hg.trans hit g1
      · rw [g2, values, ← hsk, belonging_cons subs hs.keys hs']
        by_cases hg' : target s.2 = g
        · subst hg'
          rw [if_pos rfl, List.foldl_cons, h1, ← hs.modes s hs']
        · rw [if_neg hg', h2 g (Ne.symm hg')]
    have objStep : ∀ fn f md, fnOf n = some fn → (n.key, Sub.obj fn f md) ∈ subs →
        ∃ o', Run o i o' (i + (n.key :: (n.tail ++ written ns)).length) ∧
          ∀ g, o' g = (belonging subs (values (n :: ns)) g).foldl (keep (modeAt subs g)) (o g) := by
      intro fn f md hfn hs'
      have hret := hr n (List.mem_cons_self ..) fn hfn (i + 1) ht hw1 hnext
      obtain ⟨o1, ho1⟩ : ∃ o1, Keeps o f md n.value o1 := by
        cases md with
        | field => exact ⟨_, rfl⟩
        | append => exact ⟨_, rfl⟩
        | byName key => have := hs.plain _ hs'; cases this
      exact step (n.key, Sub.obj fn f md) o1 hs' rfl (hg.obj hs' ht hret ho1) (keeps_keep ho1) (fun g hg' => keeps_other ho1 hg')
    have hall := ha n (List.mem_cons_self ..)
    cases n with
    | obj k fn ws ms parts => obtain ⟨f, md, h⟩ := hall; exact objStep fn f md rfl h
    | given k fn ts v => obtain ⟨f, md, h⟩ := hall; exact objStep fn f md rfl h
    | choice k w =>
      obtain ⟨e, f, c, h1, h2, h3⟩ := hall
      refine step (k, Sub.enum e f) (o.set f (.str w)) h1 rfl ?_ (by rw [Node.value]; exact set_same _ _ _) (fun g hg' => set_other hg')
      have := hg.choice (o := o) h1 h2 ht (hw1 0 w (by rw [Node.tail]; rfl)) h3
      rw [Node.tail]
      exact this

theorem lookup_none_of {l : List (String × Val)} {g : String} (h : g ∉ l.map (·.1)) : l.lookup g = none := by
  induction l with
  | nil => rfl
  | cons x l ih =>
    obtain ⟨a, b⟩ := x
    simp only [List.map_cons, List.mem_cons, not_or] at h
    rw [List.lookup_cons, beq_eq_false_iff_ne.2 h.1]
    exact ih h.2

theorem name_of_lookup {l : List (String × Val)} {g : String} {v : Val} (h : l.lookup g = some v) : g ∈ l.map (·.1) := by
  refine Decidable.byContradiction fun hh => ?_
  rw [lookup_none_of hh] at h
  cases h

/-- A kind of block is read back if the words before the optional parts put `first` into the struct, the optional parts are
kept, and the closing token adds `cl`. -/
theorem odd_legal {E : Env} (hw : Wf E) {K : OddKind} {hdr more : List Str} {parts : List Node} (hl : K.Legal E hdr more parts)
    {N : List String} (hs : SubsOk K.subs N) {first cl : List (String × Val)} (hown : writtenFields K.ps hdr ++ K.more hdr more = first ++ cl)
    (hN : ∀ x ∈ first ++ cl, x.1 ∈ N) (hd : ∀ g ∈ cl.map (·.1), g ∉ first.map (·.1))
    {Start : Nat → Obj → Nat → Prop} {Run : Obj → Nat → Obj → Nat → Prop} (hg : Goes E K.subs Run)
    (hstart : ∀ i, E.toks[i]? = some K.key → Words E i (hdr ++ more) → ∃ o, Start i o (i + (hdr ++ more).length) ∧ ∀ g, o g = (first.lookup g).getD .zero)
    (hend : ∀ {i o1 j1 o j}, Start i o1 j1 → Run o1 j1 o j → TokAfter E j K.fin →
      (∀ g, g ∉ first.map (·.1) → (∀ s ∈ K.subs, target s.2 ≠ g) → o g = .zero) →
      Returns E K.fn i (.ok (j + 1) (.obj fun g => (cl.lookup g).getD (o g)) false)) :
    Write.Legal E (K.node hdr more parts) := by
  refine .given fun i hk hws _ => ?_
  rw [← List.append_assoc] at hws ⊢
  obtain ⟨h1, h2⟩ := Words.append hws
  obtain ⟨h2, h3⟩ := Words.append h2
  have hf := h3 0 _ rfl
  obtain ⟨o1, hst, ho1⟩ := hstart i hk h1
  obtain ⟨o, hrun, ho⟩ := run_nodes hs hg parts _ o1 hl.allowed (fun n hn => legal_read hw (hl.parts n hn)) h2 hl.followed hf
  have hapart : ∀ g ∈ (first ++ cl).map (·.1), ∀ s ∈ K.subs, target s.2 ≠ g := by
    intro g hg' s hs' he
    obtain ⟨x, hx, rfl⟩ := List.mem_map.1 hg'
    exact hs.apart s hs' (he ▸ hN x hx)
  have hno : ∀ g, (∀ s ∈ K.subs, target s.2 ≠ g) → belonging K.subs (values parts) g = [] := by
    intro g hg'
    unfold belonging
    rw [List.map_eq_nil_iff, List.filter_eq_nil_iff]
    intro y _
    simp only [List.any_eq_true, Bool.and_eq_true, decide_eq_true_eq, not_exists, not_and]
    intro s hs' _
    exact hg' s hs'
  have hr := hend hst hrun hf (by
    intro g hg1 hg2
    rw [ho, hno g hg2, List.foldl_nil, ho1, lookup_none_of hg1]
    rfl)
  have hlen : i + (hdr ++ more ++ (written parts ++ [K.fin])).length = i + (hdr ++ more).length + (written parts).length + 1 := by
    simp only [List.length_append, List.length_singleton]
    omega
  rw [hlen]
  have hobj : (fun g => (cl.lookup g).getD (o g)) = K.struct hdr more (values parts) := by
    funext g
    unfold OddKind.struct
    rw [hown, List.lookup_append]
    rw [ho, ho1]
    cases hfi : first.lookup g with
    | some v =>
      have hm := name_of_lookup hfi
      rw [lookup_none_of (fun hh => hd g hh hm), hno g (hapart g (by rw [List.map_append, List.mem_append]; exact Or.inl hm))]
      rfl
    | none =>
      cases hcl : cl.lookup g with
      | some v => rfl
      | none =>
        show List.foldl (keep (modeAt K.subs g)) .zero _ = _
        cases hfind : K.subs.find? (target ·.2 = g) with
        | none =>
          rw [List.find?_eq_none] at hfind
          rw [hno g (fun s hs' he => hfind s hs' (by simpa using he))]
          rfl
        | some s =>
          have hsm := List.mem_of_find?_eq_some hfind
          have hsg : target s.2 = g := by simpa using List.find?_some hfind
          have hmo : modeAt K.subs g = modeOf s.2 := by rw [← hsg, ← hs.modes s hsm]
          have := fold_keep (modeOf s.2) (belonging K.subs (values parts) g)
          rw [hs.plain s hsm] at this
          rw [hmo]
          exact this
  rw [← hobj]
  exact hr

/-! ### The blocks of `Loose.irrs` -/

def toX : Sub → Loose.XSub
  | .obj q f md => .obj q f md
  | .enum e f => .enumNext e f

abbrev IrrRun (E : Env) (B : Loose.Irr) (o : Obj) (i : Nat) (o' : Obj) (j : Nat) : Prop :=
  ∃ k, Loose.Items E (Succeeds E) B.fin (B.spec E) k ⟨B.ps.length, o, i⟩ ⟨B.ps.length, o', j⟩

abbrev IrrStart (E : Env) (B : Loose.Irr) (i : Nat) (o : Obj) (j : Nat) : Prop :=
  ∃ k, Loose.Items E (Succeeds E) B.fin (B.spec E) k ⟨0, Obj.empty, i⟩ ⟨B.ps.length, o, j⟩

theorem goes_irr {E : Env} {B : Loose.Irr} {subs : List (Str × Sub)} (h : ∀ s ∈ subs, (s.1, toX s.2) ∈ B.subs) :
    Goes E subs (IrrRun E B) where
  refl := fun o i => ⟨0, .nil⟩
  trans := fun ⟨_, a⟩ ⟨_, b⟩ => ⟨_, a.append b⟩
  obj := by
    intro k q f md o i j v o' hm ht hr hk
    exact ⟨1, .cons (.sub (List.mem_map.2 ⟨_, h _ hm, rfl⟩) ht ⟨_, h _ hm, v, hr, hk⟩) .nil⟩
  choice := by
    intro k e f o i w c hm _ ht ht' hc
    exact ⟨1, .cons (.sub (List.mem_map.2 ⟨_, h _ hm, rfl⟩) ht ⟨_, h _ hm, w, .str w, ht', ⟨⟨c, hc⟩, rfl⟩, rfl, rfl⟩) .nil⟩

theorem irr_end {E : Env} (hw : Wf E) {B : Loose.Irr} (hB : B ∈ Loose.irrs) {i o1 j1 o j} (h1 : IrrStart E B i o1 j1) (h2 : IrrRun E B o1 j1 o j)
    (ht : TokAfter E j B.fin) : Returns E B.p i (.ok (j + 1) (.obj (B.close o)) false) := by
  obtain ⟨k, h1⟩ := h1
  obtain ⟨l, h2⟩ := h2
  exact Loose.irr_reads hw hB ⟨_, _, _, _, h1.append h2, ht, rfl, rfl⟩

/-- The values of the parameters. -/
abbrev hdrVals (ps : List Param) (hdr : List Str) : List Val := (ps.zip hdr).map fun x => valueOf x.1.kind x.2

theorem fits_written {E : Env} : ∀ {ps : List Param} {hdr : List Str}, Fits E ps hdr → Loose.Written E (ps.map (·.kind)) hdr (hdrVals ps hdr)
  | [], [], _ => .nil
  | [], _ :: _, h => by have := h.1; simp at this
  | _ :: _, [], h => by have := h.1; simp at this
  | p :: ps, w :: ws, h => by
    obtain ⟨v, hv⟩ := h.2 0 p w rfl rfl
    have e := denotes_value hv
    subst e
    exact .cons hv (fits_written ⟨by simpa using h.1, fun k q u h1 h2 => h.2 (k + 1) q u (by simpa using h1) (by simpa using h2)⟩)

theorem writtenFields_names {ps : List Param} {hdr : List Str} {g : String} (h : g ∈ (writtenFields ps hdr).map (·.1)) :
    ∃ p ∈ ps, g = p.field ∨ g = p.flag := by
  obtain ⟨x, hx, rfl⟩ := List.mem_map.1 h
  obtain ⟨y, hy, hx⟩ := List.mem_flatMap.1 hx
  refine ⟨y.1, (List.of_mem_zip hy).1, ?_⟩
  simp only [List.mem_cons, List.not_mem_nil, or_false] at hx
  rcases hx with rfl | rfl
  · exact Or.inl rfl
  · exact Or.inr rfl

theorem fillF_written : ∀ {ps : List Param} {hdr : List Str} (o : Obj) (g : String), Loose.Names ps → hdr.length = ps.length →
    Loose.fillF ps (hdrVals ps hdr) o g = ((writtenFields ps hdr).lookup g).getD (o g)
  | [], _, o, g, _, _ => by simp [Loose.fillF, writtenFields]
  | _ :: _, [], o, g, _, h => by simp at h
  | p :: ps, w :: ws, o, g, hn, hl => by
    show Loose.fillF ps (hdrVals ps ws) _ g = _
    rw [fillF_written _ g hn.tail (by simpa using hl)]
    have e : writtenFields (p :: ps) (w :: ws) = (p.field, valueOf p.kind w) :: (p.flag, .bool true) :: writtenFields ps ws := rfl
    rw [e, List.lookup_cons, List.lookup_cons]
    have hf := (List.nodup_cons.1 hn.fields).1
    have hg := (List.nodup_cons.1 hn.flags).1
    have hd := hn.disj p (by simp)
    simp only [List.map_cons, List.mem_cons, not_or] at hd
    have hno : ∀ x, x ∈ (writtenFields ps ws).map (·.1) → x ≠ p.field ∧ x ≠ p.flag := by
      intro x hx
      obtain ⟨q, hq, h⟩ := writtenFields_names hx
      have h2 := hn.disj q (List.mem_cons_of_mem _ hq)
      simp only [List.map_cons, List.mem_cons, not_or] at h2
      rcases h with rfl | rfl
      · exact ⟨fun hh => hf (List.mem_map.2 ⟨q, hq, hh⟩), h2.1⟩
      · exact ⟨fun hh => hd.2 (List.mem_map.2 ⟨q, hq, hh⟩), fun hh => hg (List.mem_map.2 ⟨q, hq, hh⟩)⟩
    by_cases h1 : g = p.field
    · subst h1
      rw [lookup_none_of (fun hh => (hno _ hh).1 rfl), beq_self_eq_true]
      show Obj.set _ _ _ _ = _
      rw [set_other hd.1, set_same]
      rfl
    · rw [beq_eq_false_iff_ne.2 h1]
      by_cases h2 : g = p.flag
      · subst h2
        rw [lookup_none_of (fun hh => (hno _ hh).2 rfl), beq_self_eq_true]
        show Obj.set _ _ _ _ = _
        rw [set_same]
        rfl
      · rw [beq_eq_false_iff_ne.2 h2]
        simp only
        rw [set_other h2, set_other h1]

/-- The words of a block of `Loose.irrs`: first the parameters, then the further words, which put `M` into the struct. -/
theorem irr_start {E : Env} {B : Loose.Irr} (hB : B ∈ Loose.irrs) {hdr more : List Str} (hf : Fits E B.ps hdr) (hword : ∀ w ∈ hdr, Loose.BWord B w)
    {M : List (String × Val)} (hd : ∀ g ∈ M.map (·.1), ∀ p ∈ B.ps, g ≠ p.field ∧ g ≠ p.flag)
    (hmore : ∀ i o, (∀ g, o g = ((writtenFields B.ps hdr).lookup g).getD .zero) → Words E i more →
      ∃ o', IrrRun E B o i o' (i + more.length) ∧ ∀ g, o' g = (M.lookup g).getD (o g)) (i : Nat) (hws : Words E i (hdr ++ more)) :
    ∃ o, IrrStart E B i o (i + (hdr ++ more).length) ∧ ∀ g, o g = ((writtenFields B.ps hdr ++ M).lookup g).getD .zero := by
  obtain ⟨h1, h2⟩ := Words.append hws
  have hn := Loose.irrs_names B hB
  have hp := Loose.params_items' (R := Succeeds E) (L := B.spec E) hn.1 hdr (hdrVals B.ps hdr) 0 i Obj.empty (by omega)
    (by simpa [Loose.Irr.spec] using fits_written hf) hword h1
  have hg := fun g => fillF_written (ps := B.ps) (hdr := hdr) Obj.empty g hn.2 hf.1
  obtain ⟨o', ⟨k, hit⟩, ho'⟩ := hmore _ _ hg h2
  refine ⟨o', ⟨_, by rw [List.length_append, ← Nat.add_assoc]; exact hp.append hit⟩, fun g => ?_⟩
  rw [ho', hg, List.lookup_append]
  cases hfi : (writtenFields B.ps hdr).lookup g with
  | none => cases M.lookup g <;> rfl
  | some v =>
    obtain ⟨p, hp', hgp⟩ := writtenFields_names (name_of_lookup hfi)
    rw [lookup_none_of (fun hh => hgp.elim (hd g hh p hp').1 (hd g hh p hp').2)]
    rfl

/-- What is to be checked of the names in a kind of block. -/
structure IrrKind (K : OddKind) (B : Loose.Irr) (M : List String) : Prop where
  mem : B ∈ Loose.irrs
  fn : K.fn = B.p
  fin : K.fin = B.fin
  ps : K.ps = B.ps
  sub : ∀ s ∈ K.subs, (s.1, toX s.2) ∈ B.subs
  keys : ∀ x ∈ B.subs, x.1 ∈ keywords ∨ x.1 ∈ K.subs.map (·.1)
  subs : SubsOk K.subs (K.ps.flatMap (fun p => [p.field, p.flag]) ++ M)
  apart : ∀ g ∈ M, ∀ p ∈ K.ps, g ≠ p.field ∧ g ≠ p.flag

theorem irr_legal {E : Env} (hw : Wf E) {K : OddKind} {B : Loose.Irr} {N : List String} (hK : IrrKind K B N) {hdr more : List Str}
    {parts : List Node} (hl : K.Legal E hdr more parts) {M cl : List (String × Val)} (hM : K.more hdr more = M ++ cl)
    (hN : ∀ g ∈ (M ++ cl).map (·.1), g ∈ N) (hd : ∀ g ∈ cl.map (·.1), g ∉ M.map (·.1))
    (hmore : ∀ i o, (∀ g, o g = ((writtenFields K.ps hdr).lookup g).getD .zero) → Words E i more →
      ∃ o', IrrRun E B o i o' (i + more.length) ∧ ∀ g, o' g = (M.lookup g).getD (o g))
    (hclose : ∀ o : Obj, (∀ g, g ∉ (writtenFields K.ps hdr ++ M).map (·.1) → (∀ s ∈ K.subs, target s.2 ≠ g) → o g = .zero) →
      B.close o = fun g => (cl.lookup g).getD (o g)) :
    Write.Legal E (K.node hdr more parts) := by
  have hown : ∀ g ∈ N, g ∉ (writtenFields K.ps hdr).map (·.1) := by
    intro g hg hh
    obtain ⟨p, hp, h⟩ := writtenFields_names hh
    have := hK.apart g hg p hp
    rcases h with h | h
    · exact this.1 h
    · exact this.2 h
  refine odd_legal hw hl hK.subs (first := writtenFields K.ps hdr ++ M) (cl := cl) (by rw [hM, List.append_assoc]) ?_ ?_
    (goes_irr hK.sub) (Start := IrrStart E B) ?_ ?_
  · intro x hx
    rw [List.append_assoc, List.mem_append] at hx
    rw [List.mem_append]
    rcases hx with hx | hx
    · obtain ⟨p, hp, h⟩ := writtenFields_names (List.mem_map.2 ⟨x, hx, rfl⟩)
      exact Or.inl (List.mem_flatMap.2 ⟨p, hp, by rcases h with h | h <;> simp [h]⟩)
    · exact Or.inr (hN _ (List.mem_map.2 ⟨x, hx, rfl⟩))
  · intro g hg hh
    rw [List.map_append, List.mem_append] at hh
    rcases hh with hh | hh
    · exact hown g (hN g (by rw [List.map_append, List.mem_append]; exact Or.inr hg)) hh
    · exact hd g hg hh
  · intro i _ hws
    rw [hK.ps] at hmore ⊢
    refine irr_start hK.mem (by rw [← hK.ps]; exact hl.params) (fun w hwm => ?_) (fun g hg => ?_) hmore i hws
    · obtain ⟨a, b, c⟩ := hl.words w (List.mem_append_left _ hwm)
      refine ⟨⟨a, b⟩, fun hh => ?_⟩
      obtain ⟨x, hx, rfl⟩ := List.mem_map.1 hh
      rcases hK.keys x hx with h | h
      · exact b h
      · exact c h
    · rw [← hK.ps]
      exact hK.apart g (hN g (by rw [List.map_append, List.mem_append]; exact Or.inl hg))
  · intro i o1 j1 o j h1 h2 ht hz
    rw [hK.fin] at ht
    rw [hK.fn, ← hclose o hz]
    exact irr_end hw hK.mem h1 h2 ht

theorem OddKind.Legal.word {E : Env} {K : OddKind} {B : Loose.Irr} {N : List String} (hK : IrrKind K B N) {hdr more : List Str} {parts : List Node}
    (hl : K.Legal E hdr more parts) : ∀ w ∈ more, Loose.Word w ∧ w ∉ (B.spec E).keys := by
  intro w hwm
  obtain ⟨a, b, c⟩ := hl.words w (List.mem_append_right _ hwm)
  refine ⟨⟨a, b⟩, fun hh => ?_⟩
  obtain ⟨x, hx, rfl⟩ := List.mem_map.1 hh
  rcases hK.keys x hx with h | h
  · exact b h
  · exact c h

/-- Each further word changes the struct by `f`. -/
theorem irr_fold {E : Env} {K : OddKind} {B : Loose.Irr} {N : List String} (hK : IrrKind K B N) {hdr more : List Str} {parts : List Node}
    (hl : K.Legal E hdr more parts) {f : Obj → Str → Obj} (hf : ∀ t o i, B.rest E (Succeeds E) t o i (f o t) i) (i : Nat) (o : Obj)
    (hws : Words E i more) : IrrRun E B o i (more.foldl f o) (i + more.length) :=
  ⟨_, Loose.rest_items (L := B.spec E) (Loose.irrs_names B hK.mem).1 hf more i o (OddKind.Legal.word hK hl) hws⟩

theorem declared_sub {p : PName} {q : List (Str × Sub)} (hq : q = declaredParts p) (hb : q.all (fun s => match s.2 with | .obj _ _ _ => true | _ => false) = true) :
    ∀ s ∈ q, (s.1, toX s.2) ∈ Loose.declared p := by
  subst hq
  intro s hs
  have h2 := List.all_eq_true.1 hb s hs
  clear hb
  unfold Loose.declared
  unfold declaredParts at hs
  cases hsh : shape p with
  | block a b c S d =>
    rw [hsh] at hs
    obtain ⟨k, x⟩ := s
    cases x with
    | obj a b c => exact List.mem_filterMap.2 ⟨_, hs, rfl⟩
    | enum a b => cases h2
  | _ => rw [hsh] at hs; cases hs

theorem measurementKind : IrrKind Write.measurement Loose.measurement ["conversion"] where
  mem := by simp [Loose.irrs]
  fn := rfl
  fin := rfl
  ps := rfl
  sub := declared_sub (p := .parseMeasurement) rfl (by decide +kernel)
  keys := by decide +kernel
  subs := by decide +kernel
  apart := by decide +kernel

theorem typeDefMeasurementKind : IrrKind Write.typeDefMeasurement Loose.typeDefMeasurement ["conversion"] where
  mem := by simp [Loose.irrs]
  fn := rfl
  fin := rfl
  ps := rfl
  sub := declared_sub (p := .parseTypeDefMeasurement) rfl (by decide +kernel)
  keys := by decide +kernel
  subs := by decide +kernel
  apart := by decide +kernel

theorem unitKind : IrrKind Write.unit Loose.unit ["longIdentifier"] where
  mem := by simp [Loose.irrs]
  fn := rfl
  fin := rfl
  ps := rfl
  sub := declared_sub (p := .parseUnit) rfl (by decide +kernel)
  keys := by decide +kernel
  subs := by decide +kernel
  apart := by decide +kernel

theorem memoryLayoutKind : IrrKind Write.memoryLayout Loose.memoryLayout ["offset", "offsetSet"] where
  mem := by simp [Loose.irrs]
  fn := rfl
  fin := rfl
  ps := rfl
  sub := declared_sub (p := .parseMemoryLayout) rfl (by decide +kernel)
  keys := by decide +kernel
  subs := by decide +kernel
  apart := by decide +kernel

theorem memorySegmentKind : IrrKind Write.memorySegment Loose.memorySegment ["offset", "offsetSet"] where
  mem := by simp [Loose.irrs]
  fn := rfl
  fin := rfl
  ps := rfl
  sub := by simp [Write.memorySegment, Loose.memorySegment, toX]
  keys := by decide +kernel
  subs := by decide +kernel
  apart := by decide +kernel

theorem blobKind : IrrKind Write.blob Loose.blob ["addressType"] where
  mem := by simp [Loose.irrs]
  fn := rfl
  fin := rfl
  ps := rfl
  sub := by simp [Write.blob, Loose.blob, toX]
  keys := by decide +kernel
  subs := by decide +kernel
  apart := by decide +kernel

theorem overwriteKind : IrrKind Write.overwrite Loose.overwrite [] where
  mem := by simp [Loose.irrs]
  fn := rfl
  fin := rfl
  ps := rfl
  sub := by simp [Write.overwrite, Loose.overwrite, toX]
  keys := by decide +kernel
  subs := by decide +kernel
  apart := by decide +kernel

theorem variantCodingKind : IrrKind Write.variantCoding Loose.variantCoding ["varSeparator", "varSeparatorSet"] where
  mem := by simp [Loose.irrs]
  fn := rfl
  fin := rfl
  ps := rfl
  sub := by simp [Write.variantCoding, Loose.variantCoding, toX]
  keys := by decide +kernel
  subs := by decide +kernel
  apart := by decide +kernel

theorem varForbiddenCombKind : IrrKind Write.varForbiddenComb Loose.varForbiddenComb
    ["criterionName", "criterionValue", "criterionNameSet", "criterionValueSet"] where
  mem := by simp [Loose.irrs]
  fn := rfl
  fin := rfl
  ps := rfl
  sub := by simp [Write.varForbiddenComb]
  keys := by decide +kernel
  subs := by decide +kernel
  apart := by decide +kernel

theorem fold_last (f : String) (hdr : List Str) : ∀ (ws : List Str) (o : Obj) (g : String),
    ws.foldl (fun o t => Obj.set o f (.str t)) o g = ((lastWord f hdr ws).lookup g).getD (o g) := by
  intro ws o g
  cases ws with
  | nil => rfl
  | cons w ws =>
    by_cases h : g = f
    · subst h
      rw [Loose.fold_set_last g (w :: ws) o (by simp)]
      simp [lastWord, List.getLast?_eq_some_getLast (l := w :: ws) (by simp)]
    · rw [Loose.fold_other (fun o t => set_other h)]
      simp [lastWord, List.getLast?_eq_some_getLast (l := w :: ws) (by simp), List.lookup_cons, beq_eq_false_iff_ne.2 h]

theorem lastWord_names {f : String} {hdr ws : List Str} : ∀ g ∈ (lastWord f hdr ws).map (·.1), g = f := by
  intro g hg
  unfold lastWord at hg
  split at hg
  · simpa using hg
  · cases hg

/-- MEASUREMENT. -/
theorem measurement_legal {E : Env} (hw : Wf E) {hdr more : List Str} {parts : List Node} (hl : Write.measurement.Legal E hdr more parts) :
    Write.Legal E (Write.measurement.node hdr more parts) :=
  irr_legal hw measurementKind hl (M := lastWord "conversion" hdr more) (cl := []) (List.append_nil _).symm
    (fun g hg => by rw [List.append_nil] at hg; rw [lastWord_names g hg]; simp)
    (fun _ h => nomatch h)
    (fun i o _ hws => ⟨_, irr_fold measurementKind hl (f := fun o t => o.set "conversion" (.str t)) (fun _ _ _ => ⟨rfl, rfl⟩) i o hws,
      fun g => fold_last "conversion" hdr more o g⟩)
    (fun _ _ => rfl)

/-- TYPEDEF_MEASUREMENT. -/
theorem typeDefMeasurement_legal {E : Env} (hw : Wf E) {hdr more : List Str} {parts : List Node} (hl : Write.typeDefMeasurement.Legal E hdr more parts) :
    Write.Legal E (Write.typeDefMeasurement.node hdr more parts) :=
  irr_legal hw typeDefMeasurementKind hl (M := lastWord "conversion" hdr more) (cl := []) (List.append_nil _).symm
    (fun g hg => by rw [List.append_nil] at hg; rw [lastWord_names g hg]; simp)
    (fun _ h => nomatch h)
    (fun i o _ hws => ⟨_, irr_fold typeDefMeasurementKind hl (f := fun o t => o.set "conversion" (.str t)) (fun _ _ _ => ⟨rfl, rfl⟩) i o hws,
      fun g => fold_last "conversion" hdr more o g⟩)
    (fun _ _ => rfl)

/-- UNIT. -/
theorem unit_legal {E : Env} (hw : Wf E) {hdr more : List Str} {parts : List Node} (hl : Write.unit.Legal E hdr more parts) :
    Write.Legal E (Write.unit.node hdr more parts) := by
  refine irr_legal hw unitKind hl (M := lastWord "longIdentifier" hdr more) (cl := []) (List.append_nil _).symm
    (fun g hg => by rw [List.append_nil] at hg; rw [lastWord_names g hg]; simp)
    (fun _ h => nomatch h)
    (fun i o ho hws => ⟨_, irr_fold unitKind hl (f := fun o t => (o.set "longIdentifier" (.str t)).set "nameSet" (.bool true)) (fun _ _ _ => ⟨rfl, rfl⟩) i o hws,
      fun g => ?_⟩)
    (fun _ _ => rfl)
  rw [← fold_last "longIdentifier" hdr more o g]
  refine congrFun ?_ g
  have hset : o "nameSet" = .bool true := by
    rw [ho]
    have hlen := hl.params.1
    match hdr, hlen with
    | [w], _ => rfl
  clear hws ho hl
  induction more generalizing o with
  | nil => rfl
  | cons t ts ih =>
    have e : (o.set "longIdentifier" (.str t)).set "nameSet" (.bool true) = o.set "longIdentifier" (.str t) := by
      funext x
      by_cases h : x = "nameSet"
      · subst h
        rw [set_same, set_other (by decide), hset]
      · rw [set_other h]
    rw [List.foldl_cons, List.foldl_cons, e]
    exact ih _ (by rw [set_other (by decide), hset])

/-- MEMORY_SEGMENT. -/
theorem memorySegment_legal {E : Env} (hw : Wf E) {hdr more : List Str} {parts : List Node} (hl : Write.memorySegment.Legal E hdr more parts) :
    Write.Legal E (Write.memorySegment.node hdr more parts) := by
  refine irr_legal hw memorySegmentKind hl (cl := []) (List.append_nil _).symm (fun g hg => ?_) (fun _ h => nomatch h)
    (fun i o ho hws => ⟨_, irr_fold memorySegmentKind hl (f := fun o t => if o.flag "offsetSet" = true then o else
      (o.set "offset" (.list (List.replicate 5 (.str t)))).set "offsetSet" (.bool true))
      (fun t o i => ⟨rfl, by show (if _ then _ else _); split <;> simp [*]⟩) i o hws, fun g => ?_⟩)
    (fun _ _ => rfl)
  · cases more with
    | nil => cases hg
    | cons => simpa [Write.memorySegment] using hg
  · have hfl : o.flag "offsetSet" = false := by
      rw [Obj.flag, ho, lookup_none_of]
      · rfl
      · intro hh
        obtain ⟨p, hp, h⟩ := writtenFields_names hh
        have := memorySegmentKind.apart "offsetSet" (by simp) p hp
        exact h.elim this.1 this.2
    cases more with
    | nil => rfl
    | cons w ws =>
      rw [List.foldl_cons, if_neg (by rw [hfl]; simp)]
      suffices h : ∀ (ws : List Str) (o : Obj), o.flag "offsetSet" = true → List.foldl (fun (o : Obj) t => if o.flag "offsetSet" = true then o else
        (o.set "offset" (.list (List.replicate 5 (.str t)))).set "offsetSet" (.bool true)) o ws = o by
        rw [h _ _ (by simp [Obj.flag, Obj.set])]
        show Obj.set _ _ _ _ = (List.lookup g [_, _]).getD _
        by_cases h1 : g = "offsetSet"
        · subst h1; rfl
        · rw [set_other h1]
          by_cases h2 : g = "offset"
          · subst h2; rfl
          · rw [set_other h2, lookup_none_of (by simp [h1, h2])]
            rfl
      intro ws
      induction ws with
      | nil => intro o _; rfl
      | cons t ws ih => intro o h; rw [List.foldl_cons, if_pos h, ih o h]

/-- OVERWRITE. -/
theorem overwrite_legal {E : Env} (hw : Wf E) {hdr more : List Str} {parts : List Node} (hl : Write.overwrite.Legal E hdr more parts) :
    Write.Legal E (Write.overwrite.node hdr more parts) :=
  irr_legal hw overwriteKind hl (M := []) (cl := []) rfl (fun _ h => nomatch h) (fun _ h => nomatch h)
    (fun i o _ hws => ⟨_, irr_fold overwriteKind hl (f := fun o _ => o) (fun _ _ _ => ⟨rfl, rfl⟩) i o hws,
      fun g => Loose.fold_other (fun _ _ => rfl) more o⟩)
    (fun _ _ => rfl)

/-- BLOB. -/
theorem blob_legal {E : Env} (hw : Wf E) {hdr more : List Str} {parts : List Node} (hl : Write.blob.Legal E hdr more parts) :
    Write.Legal E (Write.blob.node hdr more parts) := by
  refine irr_legal hw blobKind hl (M := []) (cl := [("addressType", .str (str! "DIRECT"))]) rfl (fun g hg => by simpa using hg) (fun _ _ h => nomatch h)
    (fun i o _ hws => ⟨_, irr_fold blobKind hl (f := fun o _ => o) (fun _ _ _ => ⟨rfl, rfl⟩) i o hws,
      fun g => Loose.fold_other (fun _ _ => rfl) more o⟩)
    (fun o hz => ?_)
  have h0 : o.flag "addressTypeSet" = false := by
    have : o "addressTypeSet" = .zero := by
      refine hz "addressTypeSet" (fun hh => ?_) (by decide +kernel)
      rw [List.append_nil] at hh
      obtain ⟨p, hp, h⟩ := writtenFields_names hh
      have : ∀ p ∈ Write.blob.ps, "addressTypeSet" ≠ p.field ∧ "addressTypeSet" ≠ p.flag := by decide
      exact h.elim (this p hp).1 (this p hp).2
    rw [Obj.flag, this]
  funext g
  simp only [Loose.blob, h0, Bool.false_eq_true, if_false, Obj.set, List.lookup_cons, List.lookup_nil]
  by_cases h : g = "addressType"
  · simp [h]
  · simp [h, beq_eq_false_iff_ne.2 h]

/-- MEMORY_LAYOUT. -/
theorem layout_words {E : Env} : ∀ (ws : List Str) (i : Nat) (o : Obj) (l : List Val), (∀ w ∈ ws, Loose.Word w ∧ w ∉ (Loose.memoryLayout.spec E).keys) →
    (∀ w ∈ ws.take (5 - l.length), ∃ v, Denotes E (.int 32) w v) → Words E i ws → o.list "offset" = l → o.flag "offsetSet" = decide (5 ≤ l.length) → l.length ≤ 5 →
    ∃ o', IrrRun E Loose.memoryLayout o i o' (i + ws.length) ∧
      o' "offset" = (if ws.take (5 - l.length) = [] then o "offset" else .list (l ++ (ws.take (5 - l.length)).map (valueOf (.int 32)))) ∧
      o' "offsetSet" = (if l.length < 5 ∧ 5 ≤ l.length + ws.length then .bool true else o "offsetSet") ∧
      ∀ g, g ≠ "offset" → g ≠ "offsetSet" → o' g = o g
  | [], i, o, l, _, _, _, _, _, _ => ⟨o, ⟨0, .nil⟩, by simp, by
      rw [if_neg]
      simp only [List.length_nil]
      omega, fun _ _ _ => rfl⟩
  | w :: ws, i, o, l, hwd, hv, hws, hol, hfl, hle => by
    obtain ⟨⟨a, b⟩, c⟩ := hwd w (List.mem_cons_self ..)
    have hfin : w ≠ Loose.memoryLayout.fin := fun hh => b (hh ▸ (Loose.irrs_names _ (by simp [Loose.irrs])).1)
    have ht := hws 0 w rfl
    have hws' := hws.tail
    have step : ∀ o1, Loose.memoryLayout.rest E (Succeeds E) w o (i + 1) o1 (i + 1) →
        IrrRun E Loose.memoryLayout o i o1 (i + 1) := fun o1 h => ⟨1, .cons (.rest (L := Loose.memoryLayout.spec E) rfl ht a hfin c b h) .nil⟩
    have trans : ∀ {o1 o2 j}, IrrRun E Loose.memoryLayout o i o1 (i + 1) → IrrRun E Loose.memoryLayout o1 (i + 1) o2 j → IrrRun E Loose.memoryLayout o i o2 j :=
      fun ⟨_, p⟩ ⟨_, q⟩ => ⟨_, p.append q⟩
    by_cases h5 : 5 ≤ l.length
    · have hl5 : 5 - l.length = 0 := by omega
      obtain ⟨o', h1, h2, h3, h4⟩ := layout_words ws (i + 1) o l (fun x hx => hwd x (List.mem_cons_of_mem _ hx)) (by rw [hl5]; simp) hws' hol hfl hle
      refine ⟨o', ?_, ?_, ?_, h4⟩
      · rw [List.length_cons, show i + (ws.length + 1) = i + 1 + ws.length by omega]
        refine trans (step o ⟨rfl, ?_⟩) h1
        rw [if_pos (by rw [hfl]; simp [h5])]
      · rw [hl5] at h2 ⊢; simpa using h2
      · rw [h3, if_neg (by omega), if_neg (by omega)]
    · obtain ⟨v, hv1⟩ := hv w (by rw [show 5 - l.length = (5 - (l.length + 1)) + 1 by omega, List.take_succ_cons]; exact List.mem_cons_self ..)
      have hvv := denotes_value hv1
      subst hvv
      let o1 : Obj := if l.length + 1 = 5 then (o.set "offset" (.list (l ++ [valueOf (.int 32) w]))).set "offsetSet" (.bool true)
        else o.set "offset" (.list (l ++ [valueOf (.int 32) w]))
      have ho1 : o1 "offset" = .list (l ++ [valueOf (.int 32) w]) := by
        show (if _ then _ else _ : Obj) _ = _
        split
        · rw [set_other (by decide), set_same]
        · rw [set_same]
      have ho2 : o1 "offsetSet" = if l.length + 1 = 5 then .bool true else o "offsetSet" := by
        show (if _ then _ else _ : Obj) _ = _
        split
        · rw [set_same]
        · rw [set_other (by decide)]
      have ho3 : ∀ g, g ≠ "offset" → g ≠ "offsetSet" → o1 g = o g := by
        intro g h1 h2
        show (if _ then _ else _ : Obj) _ = _
        split
        · rw [set_other h2, set_other h1]
        · rw [set_other h1]
      have e5 : 5 - l.length = (5 - (l ++ [valueOf (.int 32) w]).length) + 1 := by simp; omega
      obtain ⟨o', h1, h2, h3, h4⟩ := layout_words ws (i + 1) o1 (l ++ [valueOf (.int 32) w]) (fun x hx => hwd x (List.mem_cons_of_mem _ hx))
        (fun x hx => hv x (by rw [e5, List.take_succ_cons]; exact List.mem_cons_of_mem _ hx)) hws' (by rw [Obj.list, ho1]) (by
          rw [Obj.flag, ho2]
          by_cases h : l.length + 1 = 5
          · simp [h]
          · rw [if_neg h]
            show o.flag _ = _
            rw [hfl]
            simp only [List.length_append, List.length_singleton]
            congr 1
            simp only [eq_iff_iff]
            omega) (by simp; omega)
      refine ⟨o', ?_, ?_, ?_, fun g g1 g2 => by rw [h4 g g1 g2, ho3 g g1 g2]⟩
      · rw [List.length_cons, show i + (ws.length + 1) = i + 1 + ws.length by omega]
        refine trans (step o1 ⟨rfl, ?_⟩) h1
        rw [if_neg (by rw [hfl]; simp; omega)]
        exact ⟨_, hv1, by rw [hol]⟩
      · rw [h2, ho1, e5, List.take_succ_cons]
        simp only [List.cons_ne_nil, if_false, reduceCtorEq]
        split
        · rename_i hh; rw [hh]; rfl
        · simp
      · rw [h3, ho2]
        simp only [List.length_append, List.length_cons, List.length_nil, Nat.zero_add]
        by_cases h : l.length + 1 = 5
        · rw [if_neg (by omega), if_pos h, if_pos (by omega)]
        · rw [if_neg h]
          by_cases h' : l.length + 1 < 5 ∧ 5 ≤ l.length + 1 + ws.length
          · rw [if_pos h', if_pos (by omega)]
          · rw [if_neg h', if_neg (by omega)]

theorem memoryLayout_legal {E : Env} (hw : Wf E) {hdr more : List Str} {parts : List Node} (hl : Write.memoryLayout.Legal E hdr more parts) :
    Write.Legal E (Write.memoryLayout.node hdr more parts) := by
  have hnone : ∀ g, g = "offset" ∨ g = "offsetSet" → (writtenFields Write.memoryLayout.ps hdr).lookup g = none := by
    intro g hg
    refine lookup_none_of fun hh => ?_
    obtain ⟨p, hp, h⟩ := writtenFields_names hh
    have := memoryLayoutKind.apart g (by simpa using hg) p hp
    exact h.elim this.1 this.2
  refine irr_legal hw memoryLayoutKind hl (cl := []) (List.append_nil _).symm (fun g hg => ?_) (fun _ h => nomatch h)
    (fun i o ho hws => ?_) (fun _ _ => rfl)
  · rw [List.append_nil] at hg
    simp only [Write.memoryLayout] at hg
    split at hg
    · cases hg
    · split at hg
      · simpa using hg
      · simp only [List.map_cons, List.map_nil, List.mem_singleton] at hg
        simp [hg]
  · have h1 := ho "offset"
    have h2 := ho "offsetSet"
    rw [hnone _ (Or.inl rfl)] at h1
    rw [hnone _ (Or.inr rfl)] at h2
    obtain ⟨o', g1, g2, g3, g4⟩ := layout_words more i o [] (OddKind.Legal.word memoryLayoutKind hl) hl.fits hws (by rw [Obj.list, h1]; rfl)
      (by rw [Obj.flag, h2]; rfl) (by simp)
    refine ⟨o', g1, fun g => ?_⟩
    simp only [Write.memoryLayout]
    by_cases hg1 : g = "offset"
    · subst hg1
      rw [g2]
      cases more with
      | nil => rfl
      | cons w ws => simp
    · by_cases hg2 : g = "offsetSet"
      · subst hg2
        rw [g3]
        cases more with
        | nil => rfl
        | cons w ws =>
          simp only [reduceCtorEq, if_false, List.lookup_cons, beq_eq_false_iff_ne.2 hg1]
          by_cases h5 : 5 ≤ (w :: ws).length
          · rw [if_pos h5, if_pos ⟨by simp, by simpa using h5⟩]
            rfl
          · rw [if_neg h5, if_neg (by simpa using h5)]
            rfl
      · rw [g4 g hg1 hg2, lookup_none_of]
        · rfl
        · intro hh
          split at hh
          · cases hh
          · split at hh <;> simp [hg1, hg2] at hh

end Verif.A2l.Props
