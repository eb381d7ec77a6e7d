import Verif.A2l.PrintOdd2

/-!
C78: files in which every kind of object may occur, written as tokens and read again.
-/

namespace Verif.A2l.Write
open Verif.Go Verif.A2l Lang Decl Template

/-- The kinds of blocks without parameters of the common form, and the others with a parser of their own, except the tables. -/
def oddKinds : List OddKind := [measurement, typeDefMeasurement, unit, memoryLayout, memorySegment, blob, overwrite, variantCoding,
  varForbiddenComb, bitOperation, frame]

/-- Everything that can be written, whatever parse function reads it: the objects of the common form (as in `Legal`), the
project, the blocks with parsers of their own, the conversion tables and the short objects. Only the words are restricted;
nothing is said about how they are read. -/
inductive Whole (E : Env) : Node → Prop
  | keyword {k fn f fl} (hr : fn ∉ irregular) (hs : shape fn = .keyword f fl) : Whole E (.obj k fn [] [] [])
  | flat {k fn ps ws} (hr : fn ∉ irregular) (hs : shape fn = .seq ps ∨ ∃ q, shape fn = .one q ∧ ps = [q])
      (hf : Fits E ps ws) (hw : ∀ w ∈ ws, w ≠ [] ∧ w ∉ keywords) : Whole E (.obj k fn ws [] [])
  | block {k fn raw ps rest subs maps ws ms parts} (hr : fn ∉ irregular)
      (hs : shape fn = .block raw ps rest subs maps) (hf : Fits E ps ws) (hm : FitsRest E rest ms)
      (hw : ∀ w ∈ ws ++ ms, Plain raw (fin fn) subs w) (ha : ∀ n ∈ parts, Allowed subs n)
      (hn : followed parts (fin fn) = true) (hp : ∀ n ∈ parts, Whole E n) : Whole E (.obj k fn ws ms parts)
  | choice {k w} : Whole E (.choice k w)
  | project {name text parts} (hn : name ≠ [] ∧ name ∉ keywords) (ht : text ≠ [] ∧ text ∉ keywords)
      (ha : ∀ n ∈ parts, Allowed projectParts n) (hp : ∀ n ∈ parts, Whole E n) : Whole E (project name text parts)
  | odd {K hdr more parts} (hK : K ∈ oddKinds) (hf : Fits E K.ps hdr) (hm : K.fits E hdr more)
      (hw : ∀ w ∈ hdr ++ more, w ≠ [] ∧ w ∉ keywords ∧ w ∉ K.subs.map (·.1)) (ha : ∀ n ∈ parts, Allowed K.subs n)
      (hn : followed parts K.fin = true) (hp : ∀ n ∈ parts, Whole E n) : Whole E (K.node hdr more parts)
  | table {key T rows hdr parts} (hT : T ∈ Loose.tableKinds) (hf : Fits E T.ps hdr) (hm : FitsRows E T.cols rows)
      (hw : ∀ w ∈ hdr ++ rows.flatten, w ≠ [] ∧ w ∉ keywords ∧ w ∉ T.subs.map (·.1)) (ha : ∀ n ∈ parts, Allowed T.subs n)
      (hn : followed parts T.fin = true) (hp : ∀ n ∈ parts, Whole E n) : Whole E ((table key T rows).node hdr rows.flatten parts)
  | matrixDim {ws} (h : ∀ w ∈ ws, w ∉ keywords ∧ ∃ v, Denotes E (.uint 16) w v) : Whole E (matrixDim ws)
  | frameMeasurement {ws} (h : ∀ w ∈ ws, w ≠ [] ∧ w ∉ keywords) : Whole E (frameMeasurement ws)
  | guardRails : Whole E guardRails
  | noRescaleX {w} (h : w ∉ keywords) (hv : ∃ v, Denotes E (.uint 16) w v) : Whole E (noRescaleX w)
  | symbolTypeLink {w} (h : w ≠ [] ∧ w ∉ keywords) : Whole E (symbolTypeLink w)

end Verif.A2l.Write

namespace Verif.A2l.Props
open Verif.Go Verif.A2l Lang Decl Analysis Template Write Shared

theorem odd_kind_legal {E : Env} (hw : Wf E) {K : OddKind} (hK : K ∈ oddKinds) {hdr more : List Str} {parts : List Node}
    (hl : K.Legal E hdr more parts) : Write.Legal E (K.node hdr more parts) := by
  have hnil : K.ps = [] → hdr = [] := fun h => List.eq_nil_of_length_eq_zero (by rw [hl.params.1, h]; rfl)
  simp only [oddKinds, List.mem_cons, List.not_mem_nil, or_false] at hK
  rcases hK with rfl | rfl | rfl | rfl | rfl | rfl | rfl | rfl | rfl | rfl | rfl
  · exact measurement_legal hw hl
  · exact typeDefMeasurement_legal hw hl
  · exact unit_legal hw hl
  · exact memoryLayout_legal hw hl
  · exact memorySegment_legal hw hl
  · exact blob_legal hw hl
  · exact overwrite_legal hw hl
  · obtain rfl := hnil rfl; exact variantCoding_legal hw hl
  · obtain rfl := hnil rfl; exact varForbiddenComb_legal hw hl
  · obtain rfl := hnil rfl; exact bitOperation_legal hw hl
  · obtain rfl := hnil rfl; exact frame_legal hw hl

theorem whole_legal {E : Env} (hw : Wf E) (hs : E.multi = false) (hfl : E.floatOk [] = false) {n : Node} (h : Whole E n) : Write.Legal E n := by
  induction h with
  | keyword hr hs => exact .keyword hr hs
  | flat hr hs hf hw => exact .flat hr hs hf hw
  | block hr hs hf hm hw ha hn _ ih => exact .block hr hs hf hm hw ha hn ih
  | choice => exact .choice
  | project hn ht ha _ ih => exact project_legal hw hs hn ht ha ih
  | odd hK hf hm hwd ha hn _ ih => exact odd_kind_legal hw hK ⟨hf, hm, hwd, ha, hn, ih⟩
  | table hT hf hm hwd ha hn _ ih => exact table_legal hw hfl hT ⟨hf, ⟨rfl, hm⟩, hwd, ha, hn, ih⟩
  | matrixDim h => exact matrixDim_legal hw h
  | frameMeasurement h => exact frameMeasurement_legal hw h
  | guardRails => exact guardRails_legal
  | noRescaleX h hv => exact noRescaleX_legal hw h hv
  | symbolTypeLink h => exact symbolTypeLink_legal hw h

/-- C78 for objects: whatever is written is read, wherever its tokens stand, with exactly the value that belongs to it, and
reading stops at its last token (an object without an end of its own has to stand before a token that ends it).
For the blocks with parsers of their own the value is the one given by `OddKind.struct`. -/
theorem C78_object {E : Env} (hw : Wf E) (hs : E.multi = false) (hfl : E.floatOk [] = false) {n : Node} (h : Whole E n) {fn : PName}
    (hf : fnOf n = some fn) {i : Nat} (hk : E.toks[i]? = some n.key) (ht : Words E i n.tail)
    (hn : ∀ l, n.stops = some l → ∃ t ∈ l, TokAfter E (i + n.tail.length) t) :
    Returns E fn i (.ok (i + n.tail.length) n.value false) := legal_read hw (whole_legal hw hs hfl h) fn hf i hk ht hn

/-- C78: a file with at least two modules in which any kind of object may occur, written with one token per line, is
read with exactly the values that belong to it, by any number of workers, whatever other calls happen before and after.
Missing: overlapping calls (C37), and the optional parts that are never read or not kept (C32). -/
theorem C78_file_partial (S : Setup) (hfl : S.floatOk [] = false) (hnp : 0 < S.np) (c : Nat) (before after : List Nat) (hb : c ∉ before)
    (ns : List Node) (ha : ∀ n ∈ ns, Allowed fileParts n) (hp : ∀ n ∈ ns, Whole (writtenEnv S.floatOk ns) n)
    (hwr : ∀ t ∈ written ns, Writable t) (hc : Clean S.graphic (unlines (written ns))) (htext : S.text c = unlines (written ns))
    (h2 : 2 ≤ (written ns).count (str! "/begin MODULE")) (h32 : (written ns).count (str! "/begin MODULE") < 2 ^ 32) :
    (calls S init (before ++ List.replicate (S.np + 3) c ++ after)).result c =
      some (.ok (written ns).length (.obj (fileStruct ns)) false) :=
  C70_partial S hnp c before after hb ns ha (fun n hn => whole_legal (writtenEnv_wf hwr) rfl hfl (hp n hn)) hwr hc htext h2 h32

/-! ### Checkers -/

/-- What `Whole` demands of an object itself, its parts aside. -/
def ownB (floatOk : Str → Bool) (fn : PName) (ws ms : List Str) (parts : List Node) : Bool := !irregular.contains fn && match shape fn with
  | .keyword _ _ => ws.isEmpty && ms.isEmpty && parts.isEmpty
  | .seq ps => fitsB floatOk ps ws && ms.isEmpty && parts.isEmpty && ws.all (fun w => decide (w ≠ [] ∧ w ∉ keywords))
  | .one q => fitsB floatOk [q] ws && ms.isEmpty && parts.isEmpty && ws.all (fun w => decide (w ≠ [] ∧ w ∉ keywords))
  | .block raw ps rest subs _ => fitsB floatOk ps ws && fitsRestB floatOk rest ms && (ws ++ ms).all (plainB raw (fin fn) subs) &&
      parts.all (allowedB subs) && followed parts (fin fn)
  | .other => false

theorem ownB_spec {E : Env} {k : Str} {fn : PName} {ws ms : List Str} {parts : List Node} (h : ownB E.floatOk fn ws ms parts = true)
    (hp : ∀ n ∈ parts, Whole E n) : Whole E (.obj k fn ws ms parts) := by
  rw [ownB] at h
  simp only [Bool.and_eq_true, Bool.not_eq_true', List.contains_eq_mem, decide_eq_false_iff_not] at h
  obtain ⟨hr, h⟩ := h
  cases hs : shape fn with
  | keyword f fl =>
    rw [hs] at h
    simp only [Bool.and_eq_true, List.isEmpty_iff] at h
    obtain ⟨⟨rfl, rfl⟩, rfl⟩ := h
    exact .keyword hr hs
  | seq ps =>
    rw [hs] at h
    simp only [Bool.and_eq_true, List.isEmpty_iff, List.all_eq_true, decide_eq_true_eq] at h
    obtain ⟨⟨⟨h1, rfl⟩, rfl⟩, h2⟩ := h
    exact .flat hr (Or.inl hs) (fitsB_spec h1) h2
  | one q =>
    rw [hs] at h
    simp only [Bool.and_eq_true, List.isEmpty_iff, List.all_eq_true, decide_eq_true_eq] at h
    obtain ⟨⟨⟨h1, rfl⟩, rfl⟩, h2⟩ := h
    exact .flat hr (Or.inr ⟨q, hs, rfl⟩) (fitsB_spec h1) h2
  | block raw ps rest subs maps =>
    rw [hs] at h
    simp only [Bool.and_eq_true] at h
    obtain ⟨⟨⟨⟨h1, h2⟩, h3⟩, h4⟩, h6⟩ := h
    refine .block hr hs (fitsB_spec h1) (fitsRestB_spec h2) (fun w hw => ?_) (fun n hn => ?_) h6 hp
    · have := List.all_eq_true.1 h3 w hw
      simp only [plainB, decide_eq_true_eq] at this
      exact this
    · exact allowedB_spec (List.all_eq_true.1 h4 n hn)
  | other => rw [hs] at h; cases h

/-- What `Whole` demands of a block with a parser of its own, its parts and its further words aside. -/
def oddB (floatOk : Str → Bool) (K : OddKind) (hdr more : List Str) (parts : List Node) : Bool := fitsB floatOk K.ps hdr &&
  (hdr ++ more).all (fun w => decide (w ≠ [] ∧ w ∉ keywords ∧ w ∉ K.subs.map (·.1))) && parts.all (allowedB K.subs) && followed parts K.fin

theorem oddB_spec {E : Env} {K : OddKind} (hK : K ∈ oddKinds) {hdr more : List Str} {parts : List Node} (h : oddB E.floatOk K hdr more parts = true)
    (hm : K.fits E hdr more) (hp : ∀ n ∈ parts, Whole E n) : Whole E (K.node hdr more parts) := by
  simp only [oddB, Bool.and_eq_true, List.all_eq_true, decide_eq_true_eq] at h
  exact .odd hK (fitsB_spec h.1.1.1) hm h.1.1.2 (fun n hn => allowedB_spec (h.1.2 n hn)) h.2 hp

/-- The same for the tables. -/
def rowsB (floatOk : Str → Bool) (cols : List Loose.Col) (rows : List (List Str)) : Bool := rows.all fun r =>
  r.length = cols.length && (cols.zip r).all fun x => fitB floatOk x.1.kind x.2

theorem rowsB_spec {E : Env} {cols : List Loose.Col} {rows : List (List Str)} (h : rowsB E.floatOk cols rows = true) : FitsRows E cols rows := by
  intro r hr
  have := List.all_eq_true.1 h r hr
  simp only [Bool.and_eq_true, decide_eq_true_eq, List.all_eq_true] at this
  refine ⟨this.1, fun k c w h1 h2 => fitB_spec (this.2 (c, w) (List.mem_of_getElem? (i := k) ?_))⟩
  rw [List.getElem?_zip_eq_some]
  exact ⟨h1, h2⟩

theorem tableB_spec {E : Env} {key : Str} {T : Loose.Table} {rows : List (List Str)} (hT : T ∈ Loose.tableKinds) {hdr : List Str} {parts : List Node}
    (h : oddB E.floatOk (table key T rows) hdr rows.flatten parts = true) (hm : rowsB E.floatOk T.cols rows = true)
    (hp : ∀ n ∈ parts, Whole E n) : Whole E ((table key T rows).node hdr rows.flatten parts) := by
  simp only [oddB, Bool.and_eq_true, List.all_eq_true, decide_eq_true_eq] at h
  exact .table hT (fitsB_spec h.1.1.1) (rowsB_spec hm) h.1.1.2 (fun n hn => allowedB_spec (h.1.2 n hn)) h.2 hp

/-! ### Every kind of object occurs -/

/-- A word that is legal for a parameter. -/
def sampleWord : Decl.Kind → Str
  | .str => (str! "x")
  | .enum e => ((e.table.map (·.1)).find? fun w => !keywords.contains w).getD []
  | _ => (str! "0")

def sampleWords (ps : List Param) : List Str := ps.map fun q => sampleWord q.kind

def samplesOk (fn : PName) : Bool := irregular.contains fn || ownB natB fn (sampleWords (shape fn).params) [] []

theorem samples_all (fn : PName) : samplesOk fn = true := by
  cases fn <;> decide +kernel

/-- Every parse function reads some written object, but for the file itself and the module read by several workers. -/
theorem C78_kinds {E : Env} (hE : E.floatOk = natB) (fn : PName) (h1 : fn ≠ .parseA2l) (h2 : fn ≠ .parseModuleMultithreaded) :
    ∃ n, Whole E n ∧ fnOf n = some fn := by
  have hreg : fn ∉ irregular → ∃ n, Whole E n ∧ fnOf n = some fn := fun hr => by
    have := samples_all fn
    rw [samplesOk, Bool.or_eq_true] at this
    rcases this with h | h
    · exact absurd (by simpa using h) hr
    · exact ⟨.obj (str! "X") fn _ [] [], ownB_spec (hE ▸ h) (fun _ h => nomatch h), rfl⟩
  have hodd : ∀ K ∈ oddKinds, ∀ more, K.fits E (sampleWords K.ps) more → oddB natB K (sampleWords K.ps) more [] = true → K.fn = fn →
      ∃ n, Whole E n ∧ fnOf n = some fn := fun K hK more hf hb he =>
    ⟨K.node (sampleWords K.ps) more [], oddB_spec hK (hE ▸ hb) hf (fun _ h => nomatch h), congrArg some he⟩
  have htab : ∀ T ∈ Loose.tableKinds, oddB natB (table [] T []) (sampleWords T.ps) [] [] = true → T.p = fn →
      ∃ n, Whole E n ∧ fnOf n = some fn := fun T hT hb he =>
    ⟨(table [] T []).node (sampleWords T.ps) [] [], tableB_spec (rows := []) hT (hE ▸ hb) rfl (fun _ h => nomatch h), congrArg some he⟩
  cases fn <;> first
    | exact hreg (by decide)
    | exact absurd rfl h1
    | exact absurd rfl h2
    | skip
  · exact hodd bitOperation (by simp [oddKinds]) [] trivial (by decide +kernel) rfl
  · exact hodd blob (by simp [oddKinds]) [] trivial (by decide +kernel) rfl
  · exact htab Loose.compuTab (by simp [Loose.tableKinds]) (by decide +kernel) rfl
  · exact htab Loose.compuVtab (by simp [Loose.tableKinds]) (by decide +kernel) rfl
  · exact htab Loose.compuVtabRange (by simp [Loose.tableKinds]) (by decide +kernel) rfl
  · exact hodd frame (by simp [oddKinds]) [] trivial (by decide +kernel) rfl
  · exact ⟨_, .frameMeasurement (ws := []) (fun _ h => nomatch h), rfl⟩
  · exact ⟨_, .guardRails, rfl⟩
  · exact ⟨_, .matrixDim (ws := []) (fun _ h => nomatch h), rfl⟩
  · exact hodd measurement (by simp [oddKinds]) [] trivial (by decide +kernel) rfl
  · exact hodd memoryLayout (by simp [oddKinds]) [] (fun _ h => nomatch h) (by decide +kernel) rfl
  · exact hodd memorySegment (by simp [oddKinds]) [] trivial (by decide +kernel) rfl
  · exact ⟨_, .noRescaleX (w := (str! "0")) (by decide) (fitB_spec (k := .uint 16) rfl), rfl⟩
  · exact hodd overwrite (by simp [oddKinds]) [] trivial (by decide +kernel) rfl
  · exact ⟨_, .project (name := (str! "P")) (text := (str! "x")) (parts := []) (by decide) (by decide) (fun _ h => nomatch h) (fun _ h => nomatch h), rfl⟩
  · exact ⟨_, .symbolTypeLink (w := (str! "x")) (by decide), rfl⟩
  · exact hodd typeDefMeasurement (by simp [oddKinds]) [] trivial (by decide +kernel) rfl
  · exact hodd unit (by simp [oddKinds]) [] trivial (by decide +kernel) rfl
  · exact hodd varForbiddenComb (by simp [oddKinds]) [] rfl (by decide +kernel) rfl
  · exact hodd variantCoding (by simp [oddKinds]) [] (show ([] : List Str).length ≠ 1 by decide) (by decide +kernel) rfl

/-! ### Non-vacuity -/

/-- A measurement with an address and two dimensions. -/
def mixedMeasurement : Node := measurement.node [(str! "m"), (str! "\"speed\""), (str! "UWORD")] [(str! "CM"), (str! "2"), (str! "1"), (str! "0"), (str! "100")]
  [matrixDim [(str! "3"), (str! "4")], .obj (str! "ECU_ADDRESS") .parseEcuAddress [(str! "0x4000")] [] []]

/-- A verbal conversion table with two rows. -/
def mixedTable : Node := (compuVtab [[(str! "0"), (str! "\"off\"")], [(str! "1"), (str! "\"on\"")]]).node
  [(str! "V"), (str! "\"\""), (str! "TAB_VERB"), (str! "2")] [(str! "0"), (str! "\"off\""), (str! "1"), (str! "\"on\"")]
  [.obj (str! "DEFAULT_VALUE") .parseDefaultValue [(str! "\"?\"")] [] []]

def mixedModule : Node := .obj (str! "/begin MODULE") .parseModule [(str! "M1"), (str! "\"\"")] [] [mixedTable, mixedMeasurement]

def mixedFile : List Node := [project (str! "P") (str! "\"\"") [mixedModule, demoModule2]]

theorem whole_file : ∀ n ∈ mixedFile, Whole (writtenEnv natB mixedFile) n := by
  intro n hn
  obtain rfl := List.mem_singleton.1 hn
  refine .project (by decide) (by decide) (fun n hn => ?_) (fun n hn => ?_)
  · have : [mixedModule, demoModule2].all (allowedB projectParts) = true := by decide +kernel
    exact allowedB_spec (List.all_eq_true.1 this n hn)
  simp only [List.mem_cons, List.not_mem_nil, or_false] at hn
  rcases hn with rfl | rfl
  · refine ownB_spec (by decide +kernel) (fun n hn => ?_)
    simp only [List.mem_cons, List.not_mem_nil, or_false] at hn
    rcases hn with rfl | rfl
    · refine tableB_spec (key := (str! "/begin COMPU_VTAB")) (T := Loose.compuVtab) (rows := [[(str! "0"), (str! "\"off\"")], [(str! "1"), (str! "\"on\"")]])
        (by simp [Loose.tableKinds]) (by decide +kernel) (by decide +kernel) (fun n hn => ?_)
      obtain rfl := List.mem_singleton.1 hn
      exact ownB_spec (by decide +kernel) (fun _ h => nomatch h)
    · refine oddB_spec (by simp [oddKinds]) (by decide +kernel) trivial (fun n hn => ?_)
      simp only [List.mem_cons, List.not_mem_nil, or_false] at hn
      rcases hn with rfl | rfl
      · refine .matrixDim (fun w hw => ?_)
        simp only [List.mem_cons, List.not_mem_nil, or_false] at hw
        rcases hw with rfl | rfl
        · exact ⟨by decide, fitB_spec (k := .uint 16) rfl⟩
        · exact ⟨by decide, fitB_spec (k := .uint 16) rfl⟩
      · exact ownB_spec (by decide +kernel) (fun _ h => nomatch h)
  · exact ownB_spec (by decide +kernel) (fun _ h => nomatch h)

def mixedSetup : Setup := ⟨4, fun _ => true, natB, fun _ => unlines (written mixedFile), fun _ _ => []⟩

/-- The number of an integer value. -/
def numOf : Val → Option Int
  | .int n => some n
  | _ => none

/-- A file with a measurement, a conversion table and two modules, read by four workers. Of the table all rows are kept;
of the measurement the dimensions are kept and the upper limit `100` stands in the field of the conversion. -/
example : (calls mixedSetup init ([1, 0] ++ List.replicate 7 2 ++ [0, 1])).result 2 =
      some (.ok 39 (.obj (fileStruct mixedFile)) false) ∧
    (let M := nth (sub (fileStruct mixedFile "Project") "Modules") 0
    strOf (nth (sub (at' (sub M "CompuVTabs") (str! "V")) "OutVal") 1) = some (str! "\"on\"") ∧
    numOf (sub (sub (at' (sub M "Measurements") (str! "m")) "matrixDim") "DimY") = some 4 ∧
    strOf (sub (at' (sub M "Measurements") (str! "m")) "conversion") = some (str! "100")) := by
  refine ⟨?_, by decide +kernel, by decide +kernel, by decide +kernel⟩
  have ha : ∀ n ∈ mixedFile, Allowed fileParts n := by
    have : mixedFile.all (allowedB fileParts) = true := by decide +kernel
    exact fun n hn => allowedB_spec (List.all_eq_true.1 this n hn)
  have hwr : ∀ t ∈ written mixedFile, Writable t := by
    have : (written mixedFile).all writableB = true := by decide +kernel
    exact fun t ht => writableB_spec (List.all_eq_true.1 this t ht)
  have := C78_file_partial mixedSetup (by decide) (by decide) 2 [1, 0] [0, 1] (by decide) mixedFile ha whole_file hwr
    (clean_of (by decide +kernel)) rfl (by decide +kernel) (by decide +kernel)
  have hl : (written mixedFile).length = 39 := by decide +kernel
  rw [hl] at this
  exact this

end Verif.A2l.Props
