import Verif.A2l.Layout

/-!
C80 for files with one module, which is read by several workers: the conditions of C34 on the tree of objects.
-/

namespace Verif.A2l.Write
open Verif.Go Verif.A2l Lang Decl Template ModSpec

/-- The number of the kind of object that begins with a token. -/
def kindNo (key : Str) : Nat := kinds.findIdx (·.tok = key)

/-- The objects of a module with their places; `i` is the place of the first token. -/
def placed : Nat → List Node → List Found
  | _, [] => []
  | i, n :: ns => ⟨i, i + n.tail.length, kindNo n.key, n.value⟩ :: placed (i + n.tail.length + 1) ns

/-- A module. -/
def aModule (name text : Str) (parts : List Node) : Node := .obj (str! "/begin MODULE") .parseModule [name, text] [] parts

end Verif.A2l.Write

namespace Verif.A2l.Props
open Verif.Go Verif.A2l Lang Decl Analysis Template Write Spec Shared ModSpec

/-- The declared parts of a module. -/
def moduleParts : List (Str × Sub) := match shape .parseModule with
  | .block _ _ _ subs _ => subs
  | _ => []

theorem module_kind {k : Str} {fn : PName} {f : String} {md : Decl.Mode} (h : (k, Sub.obj fn f md) ∈ moduleParts) :
    ∃ key, kinds[kindNo k]? = some ⟨k, fn, f, key⟩ := by
  have hall : moduleParts.all (fun s => match s.2 with
      | .obj q g _ => match kinds[kindNo s.1]? with
        | some K => K.tok = s.1 && K.parser = q && K.field = g
        | none => false
      | _ => false) = true := by decide +kernel
  have := List.all_eq_true.1 hall _ h
  simp only at this
  cases hk : kinds[kindNo k]? with
  | none => rw [hk] at this; cases this
  | some K =>
    rw [hk] at this
    simp only [Bool.and_eq_true, decide_eq_true_eq] at this
    obtain ⟨⟨rfl, rfl⟩, rfl⟩ := this
    exact ⟨K.key, rfl⟩

theorem no_stops_module {n : Node} (ha : Allowed moduleParts n) : n.stops = none := no_stops (by decide +kernel) ha

/-- The objects of a written module are the ones found. -/
theorem scan_parts {E : Env} : ∀ (ns : List Node) (i : Nat), (∀ n ∈ ns, Allowed moduleParts n) → (∀ n ∈ ns, ReadBack E n) →
    Words E i (written ns ++ [(str! "/end MODULE")]) → Scan E i (placed (i + 1) ns) (i + (written ns).length + 1)
  | [], i, _, _, hw => .stop (hw 0 _ rfl)
  | n :: ns, i, ha, hr, hw => by
    rw [written] at hw ⊢
    rw [List.cons_append, List.append_assoc] at hw
    have ht : TokAfter E i n.key := hw 0 _ rfl
    obtain ⟨hw1, hw2⟩ := Words.append hw.tail
    have hn := ha n (List.mem_cons_self ..)
    have ih := scan_parts (E := E) ns (i + 1 + n.tail.length) (fun x hx => ha x (List.mem_cons_of_mem _ hx))
      (fun x hx => hr x (List.mem_cons_of_mem _ hx)) hw2
    have step : ∀ fn f md, fnOf n = some fn → (n.key, Sub.obj fn f md) ∈ moduleParts →
        Scan E i (placed (i + 1) (n :: ns)) (i + (n.key :: (n.tail ++ written ns)).length + 1) := by
      intro fn f md hf hm
      obtain ⟨key, hk⟩ := module_kind hm
      have hret := hr n (List.mem_cons_self ..) fn hf (i + 1) ht hw1 (by rw [no_stops_module hn]; simp)
      have := Scan.obj (K := ⟨n.key, fn, f, key⟩) ht hk hret ih
      rw [show i + (n.key :: (n.tail ++ written ns)).length + 1 = i + 1 + n.tail.length + (written ns).length + 1 by simp; omega]
      exact this
    cases n with
    | obj k fn ws ms parts => obtain ⟨f, md, h⟩ := hn; exact step fn f md rfl h
    | given k fn ts v => obtain ⟨f, md, h⟩ := hn; exact step fn f md rfl h
    | choice k w =>
      obtain ⟨e, f, c, h, _⟩ := hn
      have hall : moduleParts.all (fun s => match s.2 with | .enum _ _ => false | _ => true) = true := by decide +kernel
      exact absurd (List.all_eq_true.1 hall _ h) (by simp)

theorem count_one {α : Type} [BEq α] [LawfulBEq α] {l : List α} {x : α} (h : l.count x ≤ 1) {i j : Nat} (hi : l[i]? = some x) (hj : l[j]? = some x) :
    i = j := by
  have key : ∀ (l : List α) (i j : Nat), i < j → l[i]? = some x → l[j]? = some x → 2 ≤ l.count x := by
    intro l
    induction l with
    | nil => intro i j _ h; cases h
    | cons a l ih =>
      intro i j hij hi hj
      obtain ⟨j, rfl⟩ : ∃ k, j = k + 1 := ⟨j - 1, by omega⟩
      rw [List.getElem?_cons_succ] at hj
      cases i with
      | zero =>
        simp only [List.getElem?_cons_zero, Option.some.injEq] at hi
        subst hi
        have := List.count_pos_iff.2 (List.mem_of_getElem? hj)
        rw [List.count_cons_self]; omega
      | succ i =>
        rw [List.getElem?_cons_succ] at hi
        have := ih i j (by omega) hi hj
        rw [List.count_cons]; omega
  rcases Nat.lt_trichotomy i j with h' | h' | h'
  · have := key l i j h' hi hj; omega
  · exact h'
  · have := key l j i h' hj hi; omega

theorem written_append : ∀ a b : List Node, written (a ++ b) = written a ++ written b
  | [], b => rfl
  | n :: a, b => by rw [List.cons_append, written, written, written_append a b]; simp

/-- C80 for a file with one module, laid out in any way: several workers read it with exactly the values that belong to it,
if no cut between two workers does harm (no cut on the opening token of an object of the module, and no such token after a cut
inside an object) and objects of the same kind and name are equal. Missing: the other modules (C34), and what is missing in
`C80_file_partial`. -/
theorem C80_one_module_partial (S : Setup) (hfl : S.floatOk [] = false) (hnp : 0 < S.np) (c : Nat) (before after : List Nat) (hb : c ∉ before)
    (top heads parts : List Node) (pn pt mn mt : Str) {ns : List Node}
    (hns : ns = top ++ [project pn pt (heads ++ [aModule mn mt parts])]) {i : Nat}
    (hi : i = (written top).length + 3 + (written heads).length)
    (hat : ∀ n ∈ top, Allowed fileParts n) (hpt : ∀ n ∈ top, Whole (writtenEnv S.floatOk ns) n)
    (hpn : pn ≠ [] ∧ pn ∉ keywords) (hptx : pt ≠ [] ∧ pt ∉ keywords)
    (hah : ∀ n ∈ heads, Allowed projectParts n) (hph : ∀ n ∈ heads, Whole (writtenEnv S.floatOk ns) n)
    (hpm : Whole (writtenEnv S.floatOk ns) (aModule mn mt parts))
    (hne : [] ∉ written ns) (htext : LaidOut S.graphic S.np (S.text c) (written ns))
    (h1 : (written ns).count (str! "/begin MODULE") ≤ 1) (h1' : (written ns).count (str! "/end MODULE") ≤ 1)
    (hcuts : SafeCuts (writtenEnv S.floatOk ns) (i + 2) (i + 3 + (written parts).length) S.np (placed (i + 3) parts))
    (hcons : Consistent (placed (i + 3) parts))
    (hsched : ∀ i < (written ns).length + 1, mtModule (writtenEnv S.floatOk ns) S.np (S.sched c i) i ≠ .timeout) :
    (calls S init (before ++ List.replicate (S.np + 3) c ++ after)).result c =
      some (.ok (written ns).length (.obj (fileStruct ns)) false) := by
  have hw : Wf (writtenEnv S.floatOk ns) := ⟨written ns, rfl, hne⟩
  have hlm := whole_legal hw rfl hfl hpm
  have ha : ∀ n ∈ ns, Allowed fileParts n := by
    intro n hn
    rw [hns, List.mem_append, List.mem_singleton] at hn
    rcases hn with hn | rfl
    · exact hat n hn
    · exact ⟨"Project", .field, by simp [fileParts]⟩
  have hl : ∀ n ∈ ns, Write.Legal (writtenEnv S.floatOk ns) n := by
    intro n hn
    rw [hns, List.mem_append, List.mem_singleton] at hn
    rcases hn with hn | rfl
    · exact whole_legal hw rfl hfl (hpt n hn)
    · refine whole_legal hw rfl hfl (.project hpn hptx (fun n hn => ?_) (fun n hn => ?_)) <;> rw [List.mem_append, List.mem_singleton] at hn
      · rcases hn with hn | rfl
        · exact hah n hn
        · exact ⟨"Modules", .append, by simp [projectParts]⟩
      · rcases hn with hn | rfl
        · exact hph n hn
        · exact hpm
  rw [own_result S c before after hb (C80_tokens S.graphic htext) (by rw [count_end]; exact Nat.lt_of_le_of_lt h1 (by decide)), count_end,
    if_neg (by omega)]
  have hfin : fin .parseModule = (str! "/end MODULE") := by decide +kernel
  have htail : (aModule mn mt parts).tail = mn :: mt :: (written parts ++ [(str! "/end MODULE")]) := by
    simp [aModule, Node.tail, closing, shape, hfin]
  have hwr : written ns = (written top ++ [(str! "/begin PROJECT"), pn, pt] ++ written heads) ++
      ((str! "/begin MODULE") :: mn :: mt :: (written parts ++ [(str! "/end MODULE"), (str! "/end PROJECT")])) := by
    rw [hns, written_append, written, written]
    simp [project, Node.key, Node.tail, written_append, written, aModule, closing, shape, hfin]
  have htoks : ∀ (k : Nat) w, (written ns)[k]? = some w → (writtenEnv S.floatOk ns).toks[k]? = some w := fun k w hk => by
    show (written ns ++ [[]])[k]? = some w
    rw [List.getElem?_append_left (List.getElem?_eq_some_iff.1 hk).1]; exact hk
  have hback : ∀ (k : Nat) w, w ≠ [] → (writtenEnv S.floatOk ns).toks[k]? = some w → (written ns)[k]? = some w := fun k w hw' hk => by
    have hk : (written ns ++ [[]])[k]? = some w := hk
    by_cases hlt : k < (written ns).length
    · rwa [List.getElem?_append_left hlt] at hk
    · rw [List.getElem?_append_right (by omega)] at hk
      have := List.mem_of_getElem? hk
      simp at this
      exact absurd this hw'
  have hlen : (written top ++ [(str! "/begin PROJECT"), pn, pt] ++ written heads).length = i := by rw [hi]; simp; omega
  have hat' : ∀ (k : Nat) w, ((str! "/begin MODULE") :: mn :: mt :: (written parts ++ [(str! "/end MODULE"), (str! "/end PROJECT")]))[k]? = some w →
      (written ns)[i + k]? = some w := fun k w hk => by
    rw [hwr, List.getElem?_append_right (by omega), hlen, Nat.add_sub_cancel_left]; exact hk
  have hbeg : (written ns)[i]? = some (str! "/begin MODULE") := hat' 0 _ rfl
  have hwords : Words (writtenEnv S.floatOk ns) i (mn :: mt :: (written parts ++ [(str! "/end MODULE")])) := fun k w hk => by
    refine htoks _ _ ?_
    rw [Nat.add_assoc]
    refine hat' (k + 1) w ?_
    have h0 : (mn :: mt :: (written parts ++ [(str! "/end MODULE"), (str! "/end PROJECT")])) =
        (mn :: mt :: (written parts ++ [(str! "/end MODULE")])) ++ [(str! "/end PROJECT")] := by simp
    rw [List.getElem?_cons_succ, h0, List.getElem?_append_left (List.getElem?_eq_some_iff.1 hk).1]; exact hk
  have hret := legal_read hw hlm .parseModule rfl i (htoks _ _ hbeg) (htail ▸ hwords) (by simp [aModule, Node.stops])
  have hj : i + (aModule mn mt parts).tail.length = i + 3 + (written parts).length := by rw [htail]; simp; omega
  rw [hj] at hret
  refine congrArg some (C34_file_partial hw rfl hnp (fun k hk => hsched k (by simpa [writtenEnv] using hk)) ?_
    (C70_tokens_partial (E := writtenEnv S.floatOk ns) hw rfl ha hl rfl))
  rintro k j hk ⟨v, hv⟩
  obtain rfl : k = i := count_one h1 (hback _ _ (by decide) hk) hbeg
  cases hv.unique hret
  cases hlm with
  | block hr hs hf hm hwd hal hn hpl =>
    rename_i raw ps rest subs maps
    have hsh : shape .parseModule = .block false [⟨"Name", "nameSet", .str⟩, ⟨"longIdentifier", "longIdentifierSet", .str⟩] .none
      moduleParts (match shape .parseModule with | .block _ _ _ _ m => m | _ => []) := rfl
    rw [hsh] at hs
    cases hs
    have hplain : ∀ t, t ∈ [mn, mt] ++ [] → ¬ Opens t ∧ t ≠ (str! "/end MODULE") := fun t ht => by
      have := hwd t ht
      refine ⟨fun ⟨K, hK, he⟩ => ?_, fun he => ?_⟩
      · refine this.2.2.1 ?_
        have hall : ∀ K ∈ kinds, K.tok ∈ moduleParts.map (·.1) := by decide +kernel
        exact he ▸ hall K hK
      · exact this.2.1 (he.trans hfin.symm)
    refine ⟨⟨fun t ht => ?_, fun t ht => ?_, ?_, fun y hy => ?_⟩, fun os hos => ?_⟩
    · have := hwords 0 mn rfl
      cases this.symm.trans ht
      exact hplain _ (by simp)
    · have := hwords 1 mt rfl
      cases this.symm.trans ht
      exact hplain _ (by simp)
    · have := hwords (2 + (written parts).length) (str! "/end MODULE") (by
        rw [show 2 + (written parts).length = (written parts).length + 1 + 1 by omega, List.getElem?_cons_succ, List.getElem?_cons_succ,
          List.getElem?_append_right (by omega), Nat.sub_self]; rfl)
      unfold TokAfter at this
      rw [← this]; congr 1; omega
    · have he := hat' (3 + (written parts).length) (str! "/end MODULE") (by
        rw [show 3 + (written parts).length = (written parts).length + 1 + 1 + 1 by omega, List.getElem?_cons_succ, List.getElem?_cons_succ,
          List.getElem?_cons_succ, List.getElem?_append_right (by omega), Nat.sub_self]; rfl)
      rw [← Nat.add_assoc] at he
      exact count_one h1' (hback _ _ (by decide) hy) he
    · have hsc := scan_parts parts (k + 2) hal (fun n hn' => legal_read hw (hpl n hn')) (Words.append (a := [mn, mt]) hwords).2
      rw [show k + 2 + (written parts).length + 1 = k + 3 + (written parts).length by omega] at hsc
      obtain ⟨rfl, _⟩ := scan_unique hos hsc
      exact ⟨hcuts, hcons⟩
  | flat hr hs => rcases hs with hs | ⟨_, hs, _⟩ <;> cases hs

/-! ### An example -/

def singleFile : List Node := [project (str! "P") (str! "\"\"") [aModule (str! "M1") (str! "\"\"") [mixedTable, mixedMeasurement]]]

theorem single_whole : Whole (writtenEnv natB singleFile) (aModule (str! "M1") (str! "\"\"") [mixedTable, mixedMeasurement]) := by
  refine ownB_spec (by decide +kernel) (fun n hn => ?_)
  simp only [List.mem_cons, List.not_mem_nil, or_false] at hn
  rcases hn with rfl | rfl
  · refine tableB_spec (key := (str! "/begin COMPU_VTAB")) (T := Loose.compuVtab) (rows := [[(str! "0"), (str! "\"off\"")], [(str! "1"), (str! "\"on\"")]])
      (by simp [Loose.tableKinds]) (by decide +kernel) (by decide +kernel) (fun n hn => ?_)
    obtain rfl := List.mem_singleton.1 hn
    exact ownB_spec (by decide +kernel) (fun _ h => nomatch h)
  · refine oddB_spec (by simp [oddKinds]) (by decide +kernel) trivial (fun n hn => ?_)
    simp only [List.mem_cons, List.not_mem_nil, or_false] at hn
    rcases hn with rfl | rfl
    · refine .matrixDim (fun w hw => ?_)
      simp only [List.mem_cons, List.not_mem_nil, or_false] at hw
      rcases hw with rfl | rfl
      · exact ⟨by decide, fitB_spec (k := .uint 16) rfl⟩
      · exact ⟨by decide, fitB_spec (k := .uint 16) rfl⟩
    · exact ownB_spec (by decide +kernel) (fun _ h => nomatch h)

def singleSetup (sched : Nat → List Conc.Collect.Op) : Setup := ⟨2, fun _ => true, natB, fun _ => unlines (written singleFile), fun _ => sched⟩

/-- No object of the file is hit by the cut between the two workers in a harmful way. -/
theorem single_cuts : SafeCuts (writtenEnv natB singleFile) (3 + 2) (3 + 3 + (written [mixedTable, mixedMeasurement]).length) 2
    (placed (3 + 3) [mixedTable, mixedMeasurement]) := by
  intro k k1 k2 f hf
  have k2 : k < 2 := k2
  obtain rfl : k = 1 := by omega
  have hcut : cut (3 + 2) (3 + 3 + (written [mixedTable, mixedMeasurement]).length) 2 1 = 19 := by
    show cut 5 (6 + (written [mixedTable, mixedMeasurement]).length) 2 1 = 19
    decide +kernel
  rw [hcut]
  have hrest : ∀ x < 33, 19 < x → ((written singleFile)[x]?.all fun t => kinds.all fun K => K.tok ≠ t) = true := by decide +kernel
  have hpos : ∀ f ∈ [(6, 17), (18, 32)], (f.1 : Nat) ≠ 19 ∧ f.2 < 33 := by decide
  have hmem : (f.pos, f.stop) ∈ [(6, 17), (18, 32)] := by
    have : (placed 6 [mixedTable, mixedMeasurement]).map (fun f => (f.pos, f.stop)) = [(6, 17), (18, 32)] := by decide +kernel
    rw [← this]
    exact List.mem_map.2 ⟨f, hf, rfl⟩
  refine ⟨(hpos _ hmem).1, fun _ x h1 h2 t ht ⟨K, hK, he⟩ => ?_⟩
  have hx : x < 33 := by have := (hpos _ hmem).2; simp only at this; omega
  have ht : (written singleFile ++ [[]])[x]? = some t := ht
  have hlen : (written singleFile).length = 35 := by decide +kernel
  rw [List.getElem?_append_left (by omega)] at ht
  have := hrest x hx h1
  rw [ht] at this
  simpa [he] using List.all_eq_true.1 this K hK

theorem single_consistent : Consistent (placed (3 + 3) [mixedTable, mixedMeasurement]) := by
  intro f hf g hg hk hn
  have hkinds : ∀ f ∈ placed 6 [mixedTable, mixedMeasurement], ∀ g ∈ placed 6 [mixedTable, mixedMeasurement], f.kind = g.kind → f = g := by
    intro f hf g hg hk
    simp only [placed, List.mem_cons, List.not_mem_nil, or_false] at hf hg
    rcases hf with rfl | rfl <;> rcases hg with rfl | rfl
    · rfl
    · exact absurd hk (by decide +kernel)
    · exact absurd hk (by decide +kernel)
    · rfl
  rw [hkinds f hf g hg hk]

/-- A file with one module, read by two workers: the first gets the table and the first two tokens of the measurement, the second
the rest. There are complete schedules, and each gives the values of the file. -/
example : (∃ sched : Nat → List Conc.Collect.Op, ∀ i < 36, mtModule (writtenEnv natB singleFile) 2 (sched i) i ≠ .timeout) ∧
    ∀ sched : Nat → List Conc.Collect.Op, (∀ i < 36, mtModule (writtenEnv natB singleFile) 2 (sched i) i ≠ .timeout) →
    (calls (singleSetup sched) init ([1, 0] ++ List.replicate 5 2 ++ [0, 1])).result 2 =
      some (.ok 35 (.obj (fileStruct singleFile)) false) := by
  have hlen : (written singleFile).length = 35 := by decide +kernel
  have hwr : ∀ t ∈ written singleFile, Writable t := by
    have : (written singleFile).all writableB = true := by decide +kernel
    exact fun t ht => writableB_spec (List.all_eq_true.1 this t ht)
  have hw : Wf (writtenEnv natB singleFile) := writtenEnv_wf hwr
  constructor
  · have hex : ∀ i, ∃ s, i < 36 → mtModule (writtenEnv natB singleFile) 2 s i ≠ .timeout := fun i => by
      by_cases hi : i < 36
      · obtain ⟨s, hs⟩ := (C35_returns hw rfl (by decide : 0 < 2) (by simp [writtenEnv, hlen]; omega)).1
        exact ⟨s, fun _ => hs⟩
      · exact ⟨[], fun h => absurd h hi⟩
    exact Classical.skolem.1 hex
  · intro sched hs
    have := C80_one_module_partial (singleSetup sched) (by show natB [] = false; decide) (by show 0 < 2; decide) 2 [1, 0] [0, 1] (by decide) [] []
      [mixedTable, mixedMeasurement] (str! "P") (str! "\"\"") (str! "M1") (str! "\"\"") (ns := singleFile) rfl (i := 3) rfl
      (fun _ h => nomatch h) (fun _ h => nomatch h) (by decide) (by decide) (fun _ h => nomatch h) (fun _ h => nomatch h) single_whole
      (by decide +kernel) (laidOut_lines (graphic := fun _ => true) (n := 2) (by decide) (by decide) hwr (clean_of (by decide +kernel))) (by decide +kernel) (by decide +kernel) single_cuts single_consistent (by rw [hlen]; exact hs)
    rw [hlen] at this
    exact this

end Verif.A2l.Props
