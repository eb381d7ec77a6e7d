import Verif.A2l.PrintOrder
import Verif.A2l.Layout

/-!
C71 for objects of every kind, and for whole files: at every depth the parts of an object may stand in another order.
-/

namespace Verif.A2l.Write
open Verif.Go Verif.A2l Lang Decl Template

/-- Two lists of parts of an object with the declared parts `subs` that only differ in the order in which parts stand, in this object
or in objects inside it, at any depth. -/
inductive Rearranged : List (Str × Sub) → List Node → List Node → Prop
  | refl {subs ps} : Rearranged subs ps ps
  | trans {subs ps qs rs} (h : Rearranged subs ps qs) (h' : Rearranged subs qs rs) : Rearranged subs ps rs
  | here {subs ps qs} (h : Reordered subs ps qs) : Rearranged subs ps qs
  | obj {subs a b k fn ws ms ps qs} (h : Rearranged (Props.Shape.subs (shape fn)) ps qs) :
      Rearranged subs (a ++ .obj k fn ws ms ps :: b) (a ++ .obj k fn ws ms qs :: b)
  | odd {subs a b K hdr more ps qs} (h : Rearranged (OddKind.subs K) ps qs) :
      Rearranged subs (a ++ K.node hdr more ps :: b) (a ++ K.node hdr more qs :: b)
  | project {subs a b name text ps qs} (h : Rearranged projectParts ps qs) :
      Rearranged subs (a ++ project name text ps :: b) (a ++ project name text qs :: b)

end Verif.A2l.Write

namespace Verif.A2l.Props
open Verif.Go Lang Analysis Decl Template Write File FileSpec Shared Verif.Conc ModSpec

/-- What is kept of the parts is the same. -/
def SameKept (subs : List (Str × Sub)) (ps qs : List Node) : Prop := ∀ s ∈ subs,
  combine (modeOf s.2) (belonging subs (values ps) (target s.2)) = combine (modeOf s.2) (belonging subs (values qs) (target s.2))

theorem sameKept_of {subs : List (Str × Sub)} {ps qs : List Node} (h : Reordered subs ps qs) : SameKept subs ps qs := by
  intro s hs
  cases hm : modeOf s.2 with
  | byName key => exact combine_perm (belonging_perm h.perm _) (h.names s hs key hm)
  | field => rw [h.order s hs (by rw [hm]; simp)]
  | append => rw [h.order s hs (by rw [hm]; simp)]

theorem struct_same {sh : Shape} {ws ms : List Str} {ps qs : List Node} (h : SameKept (Shape.subs sh) ps qs) :
    struct sh ws ms (values ps) = struct sh ws ms (values qs) := by
  cases sh with
  | keyword f fl => rfl
  | one q => rfl
  | seq ps => rfl
  | other => rfl
  | block raw prms rest subs maps =>
    funext g
    simp only [struct]
    split
    · rfl
    · split
      · rfl
      · split
        · rfl
        · cases hf : subs.find? (target ·.2 = g) with
          | none => rfl
          | some s =>
            have hg := List.find?_some hf
            simp only [decide_eq_true_eq] at hg
            subst hg
            exact h s (List.mem_of_find?_eq_some hf)

theorem odd_same {K : OddKind} {hdr more : List Str} {ps qs : List Node} (h : SameKept K.subs ps qs) :
    K.struct hdr more (values ps) = K.struct hdr more (values qs) := by
  funext g
  simp only [OddKind.struct]
  split
  · rfl
  · cases hf : K.subs.find? (target ·.2 = g) with
    | none => rfl
    | some s =>
      have hg := List.find?_some hf
      simp only [decide_eq_true_eq] at hg
      subst hg
      exact h s (List.mem_of_find?_eq_some hf)

theorem project_same {name text : Str} {ps qs : List Node} (h : SameKept projectParts ps qs) :
    projectStruct name text ps = projectStruct name text qs := by
  funext g
  simp only [projectStruct]
  split
  · rfl
  split
  · rfl
  split
  · rfl
  split
  · rename_i hg
    subst hg
    exact h _ (List.mem_cons_self ..)
  split
  · rename_i hg
    subst hg
    exact h _ (List.mem_cons_of_mem _ (List.mem_cons_self ..))
  · rfl

theorem values_swap {a b : List Node} {x y : Node} (hk : x.key = y.key) (hv : x.value = y.value) :
    values (a ++ x :: b) = values (a ++ y :: b) := by
  simp only [values_map, List.map_append, List.map_cons, hk, hv]

theorem same_swap {subs : List (Str × Sub)} {a b : List Node} {x y : Node} (hk : x.key = y.key) (hv : x.value = y.value) :
    SameKept subs (a ++ x :: b) (a ++ y :: b) := by
  intro s _
  rw [values_swap hk hv]

theorem rearranged_same {subs : List (Str × Sub)} {ps qs : List Node} (h : Rearranged subs ps qs) : SameKept subs ps qs := by
  induction h with
  | refl => exact fun _ _ => rfl
  | trans _ _ ih ih' => exact fun s hs => (ih s hs).trans (ih' s hs)
  | here h => exact sameKept_of h
  | obj _ ih => exact same_swap rfl (by rw [Node.value, Node.value, struct_same ih])
  | odd _ ih => exact same_swap rfl (by rw [OddKind.node, OddKind.node, Node.value, Node.value, odd_same ih])
  | project _ ih => exact same_swap rfl (by rw [project, project, Node.value, Node.value, project_same ih])

/-- C71 for the blocks with parsers of their own: parts in another order, here or inside the parts, give the same struct. -/
theorem C71_odd_partial {E E' : Env} (hw : Wf E) (hw' : Wf E') (hs : E.multi = false) (hs' : E'.multi = false) (hfl : E.floatOk [] = false)
    (hfl' : E'.floatOk [] = false) {K : OddKind} {hdr more : List Str} {parts parts' : List Node}
    (h : Whole E (K.node hdr more parts)) (h' : Whole E' (K.node hdr more parts')) (hr : Rearranged K.subs parts parts')
    (hstop : stops K.fn = none) {i i' : Nat} (hk : E.toks[i]? = some K.key) (hk' : E'.toks[i']? = some K.key)
    (ht : Words E i (K.node hdr more parts).tail) (ht' : Words E' i' (K.node hdr more parts').tail) :
    ∃ r j j', Returns E K.fn i (.ok j (.obj r) false) ∧ Returns E' K.fn i' (.ok j' (.obj r) false) := by
  have h1 := C78_object hw hs hfl h rfl hk ht (fun l hl => by rw [OddKind.node, Node.stops, hstop] at hl; cases hl)
  have h2 := C78_object hw' hs' hfl' h' rfl hk' ht' (fun l hl => by rw [OddKind.node, Node.stops, hstop] at hl; cases hl)
  rw [OddKind.node, Node.value] at h1 h2
  rw [← odd_same (rearranged_same hr)] at h2
  exact ⟨_, _, _, h1, h2⟩

/-- The blocks of `oddKinds` and the tables do have an end of their own. -/
theorem odd_stops : ∀ K ∈ oddKinds, stops K.fn = none := by
  intro K hK
  simp only [oddKinds, List.mem_cons, List.not_mem_nil, or_false] at hK
  rcases hK with rfl | rfl | rfl | rfl | rfl | rfl | rfl | rfl | rfl | rfl | rfl <;> rfl

theorem file_same {ps qs : List Node} (h : SameKept fileParts ps qs) : fileStruct ps = fileStruct qs := by
  funext g
  unfold fileStruct
  by_cases hg : ∃ s ∈ fileParts, target s.2 = g
  · obtain ⟨s, hs, rfl⟩ := hg
    have := h s hs
    have hm : modeOf s.2 = .field := by
      simp only [fileParts, List.mem_cons, List.not_mem_nil, or_false] at hs
      rcases hs with rfl | rfl | rfl <;> rfl
    rw [hm] at this
    exact this
  · have : ∀ vs, belonging fileParts vs g = [] := by
      intro vs
      unfold belonging
      rw [List.map_eq_nil_iff, List.filter_eq_nil_iff]
      intro y _ hy
      obtain ⟨s, hs, h2⟩ := List.any_eq_true.1 hy
      simp only [Bool.and_eq_true, decide_eq_true_eq] at h2
      exact hg ⟨s, hs, h2.2⟩
    rw [this, this]

/-- C71 for whole files: two files with at least two modules, each laid out in any way and read by any number of workers, whose objects only
differ in the order in which parts stand, at any depth (parts under one name not twice, and those of the same field that are
not kept by name in the same order), are read to the same structure. Missing: what is missing in `C80_file_partial`. -/
theorem C71_file_partial (S S' : Setup) (hfl : S.floatOk [] = false) (hfl' : S'.floatOk [] = false) (hnp : 0 < S.np) (hnp' : 0 < S'.np)
    {c c' : Nat} (before after before' after' : List Nat) (hb : c ∉ before) (hb' : c' ∉ before') {ns ns' : List Node}
    (hr : Rearranged fileParts ns ns')
    (ha : ∀ n ∈ ns, Allowed fileParts n) (ha' : ∀ n ∈ ns', Allowed fileParts n)
    (hp : ∀ n ∈ ns, Whole (writtenEnv S.floatOk ns) n) (hp' : ∀ n ∈ ns', Whole (writtenEnv S'.floatOk ns') n)
    (hne : [] ∉ written ns) (hne' : [] ∉ written ns')
    (htext : Spec.LaidOut S.graphic S.np (S.text c) (written ns)) (htext' : Spec.LaidOut S'.graphic S'.np (S'.text c') (written ns'))
    (h2 : 2 ≤ (written ns).count (str! "/begin MODULE")) (h32 : (written ns).count (str! "/begin MODULE") < 2 ^ 32)
    (h2' : 2 ≤ (written ns').count (str! "/begin MODULE")) (h32' : (written ns').count (str! "/begin MODULE") < 2 ^ 32) :
    ∃ r j j', (calls S init (before ++ List.replicate (S.np + 3) c ++ after)).result c = some (.ok j (.obj r) false) ∧
      (calls S' init (before' ++ List.replicate (S'.np + 3) c' ++ after')).result c' = some (.ok j' (.obj r) false) := by
  have h1 := C80_file_partial S hfl hnp c before after hb ns ha hp hne htext h2 h32
  have h3 := C80_file_partial S' hfl' hnp' c' before' after' hb' ns' ha' hp' hne' htext' h2' h32'
  rw [← file_same (rearranged_same hr)] at h3
  exact ⟨_, _, _, h1, h3⟩

/-- The file `mixedFile` with the table after the measurement, and the dimensions of the measurement after its address. -/
def mixedMeasurement' : Node := measurement.node [(str! "m"), (str! "\"speed\""), (str! "UWORD")] [(str! "CM"), (str! "2"), (str! "1"), (str! "0"), (str! "100")]
  [.obj (str! "ECU_ADDRESS") .parseEcuAddress [(str! "0x4000")] [] [], matrixDim [(str! "3"), (str! "4")]]

def mixedModule' : Node := .obj (str! "/begin MODULE") .parseModule [(str! "M1"), (str! "\"\"")] [] [mixedMeasurement', mixedTable]

def mixedFile' : List Node := [project (str! "P") (str! "\"\"") [mixedModule', demoModule2]]

theorem mixed_rearranged : Rearranged fileParts mixedFile mixedFile' := by
  refine .project (a := []) (b := []) ?_
  refine .obj (a := []) (b := [demoModule2]) ?_
  refine .trans (qs := [mixedTable, mixedMeasurement']) ?_ ?_
  · refine .odd (a := [mixedTable]) (b := []) ?_
    exact .here (reordered_of (List.Perm.swap _ _ _) (by decide +kernel))
  · exact .here (reordered_of (List.Perm.swap _ _ _) (by decide +kernel))

/-- The hypotheses of `C71_odd_partial` are met by the two measurements. -/
example : ∃ r j j', Returns (writtenEnv natB [mixedMeasurement]) .parseMeasurement 0 (.ok j (.obj r) false) ∧
    Returns (writtenEnv natB [mixedMeasurement']) .parseMeasurement 0 (.ok j' (.obj r) false) := by
  have hm : ∀ E : Env, Whole E (matrixDim [(str! "3"), (str! "4")]) := fun E => by
    refine .matrixDim (fun w hw => ?_)
    simp only [List.mem_cons, List.not_mem_nil, or_false] at hw
    rcases hw with rfl | rfl
    · exact ⟨by decide, fitB_spec (k := .uint 16) rfl⟩
    · exact ⟨by decide, fitB_spec (k := .uint 16) rfl⟩
  have hwords : ∀ n : Node, Words (writtenEnv natB [n]) 0 n.tail := by
    intro n j w hj
    show (written [n] ++ [[]])[0 + j + 1]? = _
    rw [written, written, List.append_nil, show 0 + j + 1 = j + 1 by omega, List.cons_append, List.getElem?_cons_succ,
      List.getElem?_append_left (List.getElem?_eq_some_iff.1 hj).1]
    exact hj
  refine C71_odd_partial (K := Write.measurement) (writtenEnv_wf fun t ht => writableB_spec (List.all_eq_true.1 (by decide +kernel) t ht))
    (writtenEnv_wf fun t ht => writableB_spec (List.all_eq_true.1 (by decide +kernel) t ht)) rfl rfl (by decide) (by decide)
    (oddB_spec (by simp [oddKinds]) (by decide +kernel) trivial fun n hn => ?_) (oddB_spec (by simp [oddKinds]) (by decide +kernel) trivial fun n hn => ?_)
    (.here (reordered_of (List.Perm.swap _ _ _) (by decide +kernel))) rfl rfl rfl (hwords mixedMeasurement) (hwords mixedMeasurement')
  · simp only [List.mem_cons, List.not_mem_nil, or_false] at hn
    rcases hn with rfl | rfl
    · exact hm _
    · exact ownB_spec (by decide +kernel) (fun _ h => nomatch h)
  · simp only [List.mem_cons, List.not_mem_nil, or_false] at hn
    rcases hn with rfl | rfl
    · exact ownB_spec (by decide +kernel) (fun _ h => nomatch h)
    · exact hm _

theorem whole_file' : ∀ n ∈ mixedFile', Whole (writtenEnv natB mixedFile') n := by
  intro n hn
  obtain rfl := List.mem_singleton.1 hn
  refine .project (by decide) (by decide) (fun n hn => ?_) (fun n hn => ?_)
  · have : [mixedModule', demoModule2].all (allowedB projectParts) = true := by decide +kernel
    exact allowedB_spec (List.all_eq_true.1 this n hn)
  simp only [List.mem_cons, List.not_mem_nil, or_false] at hn
  rcases hn with rfl | rfl
  · refine ownB_spec (by decide +kernel) (fun n hn => ?_)
    simp only [List.mem_cons, List.not_mem_nil, or_false] at hn
    rcases hn with rfl | rfl
    · refine oddB_spec (by simp [oddKinds]) (by decide +kernel) trivial (fun n hn => ?_)
      simp only [List.mem_cons, List.not_mem_nil, or_false] at hn
      rcases hn with rfl | rfl
      · exact ownB_spec (by decide +kernel) (fun _ h => nomatch h)
      · refine .matrixDim (fun w hw => ?_)
        simp only [List.mem_cons, List.not_mem_nil, or_false] at hw
        rcases hw with rfl | rfl
        · exact ⟨by decide, fitB_spec (k := .uint 16) rfl⟩
        · exact ⟨by decide, fitB_spec (k := .uint 16) rfl⟩
    · refine tableB_spec (key := (str! "/begin COMPU_VTAB")) (T := Loose.compuVtab) (rows := [[(str! "0"), (str! "\"off\"")], [(str! "1"), (str! "\"on\"")]])
        (by simp [Loose.tableKinds]) (by decide +kernel) (by decide +kernel) (fun n hn => ?_)
      obtain rfl := List.mem_singleton.1 hn
      exact ownB_spec (by decide +kernel) (fun _ h => nomatch h)
  · exact ownB_spec (by decide +kernel) (fun _ h => nomatch h)

def mixedSetup' : Setup := ⟨3, fun _ => true, natB, fun _ => unlines (written mixedFile'), fun _ _ => []⟩

/-- The hypotheses are met by the two files, read by four and by three workers. -/
example : ∃ r j j', (calls mixedSetup init ([1] ++ List.replicate 7 2 ++ [0])).result 2 = some (.ok j (.obj r) false) ∧
    (calls mixedSetup' init ([] ++ List.replicate 6 0 ++ [1, 1])).result 0 = some (.ok j' (.obj r) false) := by
  have ha : ∀ n ∈ mixedFile, Allowed fileParts n := by
    have : mixedFile.all (allowedB fileParts) = true := by decide +kernel
    exact fun n hn => allowedB_spec (List.all_eq_true.1 this n hn)
  have ha' : ∀ n ∈ mixedFile', Allowed fileParts n := by
    have : mixedFile'.all (allowedB fileParts) = true := by decide +kernel
    exact fun n hn => allowedB_spec (List.all_eq_true.1 this n hn)
  have hwr : ∀ t ∈ written mixedFile, Writable t := by
    have : (written mixedFile).all writableB = true := by decide +kernel
    exact fun t ht => writableB_spec (List.all_eq_true.1 this t ht)
  have hwr' : ∀ t ∈ written mixedFile', Writable t := by
    have : (written mixedFile').all writableB = true := by decide +kernel
    exact fun t ht => writableB_spec (List.all_eq_true.1 this t ht)
  exact C71_file_partial mixedSetup mixedSetup' (by decide) (by decide) (by decide) (by decide) [1] [0] [] [1, 1] (by decide) (by decide)
    mixed_rearranged ha ha' whole_file whole_file' (by decide +kernel) (by decide +kernel)
    (laidOut_lines (by decide) (by decide +kernel) hwr (clean_of (by decide +kernel)))
    (laidOut_lines (by decide) (by decide +kernel) hwr' (clean_of (by decide +kernel)))
    (by decide +kernel) (by decide +kernel) (by decide +kernel) (by decide +kernel)

end Verif.A2l.Props
