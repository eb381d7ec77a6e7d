import Verif.A2l.LooseMore
import Verif.A2l.ParseProps

/-!
C31 and C32 for the irregular blocks, and what becomes of their parameters.
-/

namespace Verif.A2l.Loose
open Verif.Go Verif.A2l Lang Decl Analysis Template

variable {E : Env} {R : Calls} {fin : Str} {L : Spec}

/-- Something every item keeps. -/
theorem items_keep {P : Obj → Prop} (hp : ∀ p ∈ L.ps, ∀ o v, P o → P ((o.set p.field v).set p.flag (.bool true)))
    (hr : ∀ t o i o' j, L.rest R t o i o' j → P o → P o') (hs : ∀ t o i o' j, L.sub R t o i o' j → P o → P o')
    {k : Nat} {x y : Decl.Pos} (h : Items E R fin L k x y) : P x.o → P y.o := by
  induction h with
  | nil => exact id
  | cons hi _ ih =>
    intro hP
    apply ih
    cases hi with
    | param hp' _ _ _ _ _ _ => exact hp _ (List.mem_of_getElem? hp') _ _ hP
    | rest _ _ _ _ _ _ h => exact hr _ _ _ _ _ h hP
    | sub _ _ h => exact hs _ _ _ _ _ h hP

/-- Surplus words, each of which is one item. -/
theorem rest_items (hk : fin ∈ keywords) {g : Obj → Str → Obj} (hg : ∀ t o i, L.rest R t o i (g o t) i) : ∀ (ts : List Str) (i : Nat) (o : Obj),
    (∀ t ∈ ts, Word t ∧ t ∉ L.keys) → Props.Words E i ts →
    Items E R fin L ts.length ⟨L.ps.length, o, i⟩ ⟨L.ps.length, ts.foldl g o, i + ts.length⟩ := by
  intro ts
  induction ts with
  | nil => intro i o _ _; exact .nil
  | cons t ts ih =>
    intro i o hword hws
    obtain ⟨h1, h2⟩ := words_tail hws
    have hw := hword t (by simp)
    have := ih (i + 1) (g o t) (fun t ht => hword t (by simp [ht])) h2
    rw [List.length_cons, show i + (ts.length + 1) = i + 1 + ts.length by omega]
    exact .cons (.rest rfl h1 hw.1.1 (fun hh => hw.1.2 (hh ▸ hk)) hw.2 hw.1.2 (hg t o (i + 1))) this

/-- The closing tokens are keywords; the names of the parameters are different. -/
theorem irrs_names : ∀ B ∈ irrs, B.fin ∈ keywords ∧ Names B.ps := by
  intro B hB
  simp only [irrs, List.mem_cons, List.not_mem_nil, or_false] at hB
  rcases hB with rfl | rfl | rfl | rfl | rfl | rfl | rfl | rfl | rfl | rfl <;> decide +kernel

/-- The closing token does not change the parameters. -/
theorem irrs_close : ∀ B ∈ irrs, ∀ o : Obj, ∀ p ∈ B.ps, B.close o p.field = o p.field := by
  intro B hB o p hp
  simp only [irrs, List.mem_cons, List.not_mem_nil, or_false] at hB
  rcases hB with rfl | rfl | rfl | rfl | rfl | rfl | rfl | rfl | rfl | rfl
  · simp only [blob]
    split
    · rfl
    · refine set_other _ _ ?_
      revert p
      decide
  all_goals first | rfl | cases hp

theorem irrs_not_mt : ∀ B ∈ irrs, B.p ≠ .parseModuleMultithreaded := by
  intro B hB
  simp only [irrs, List.mem_cons, List.not_mem_nil, or_false] at hB
  rcases hB with rfl | rfl | rfl | rfl | rfl | rfl | rfl | rfl | rfl | rfl <;> decide

theorem irr_reads (hw : Wf E) {B : Irr} (hB : B ∈ irrs) {i i' : Nat} {o : Obj} (h : Block E B.fin (B.spec E) i i' o) :
    Returns E B.p i (.ok i' (.obj o) false) :=
  reads_all hw (follows_irrs hw B hB) (irrs_not_mt B hB) (irrs_body E B hB) h

theorem irr_only (hw : Wf E) {B : Irr} (hB : B ∈ irrs) {i i' : Nat} {v : Val} (h : Returns E B.p i (.ok i' v false)) :
    ∃ o, v = .obj o ∧ Block E B.fin (B.spec E) i i' o :=
  reads_only hw (follows_irrs hw B hB) (irrs_not_mt B hB) (irrs_body E B hB) h

/-- Parameters, then surplus words, then the closing token. -/
theorem irr_text (hw : Wf E) {B : Irr} (hB : B ∈ irrs) {hdr : List Str} {vals : List Val} (hh : Written E (B.ps.map (·.kind)) hdr vals)
    (hword : ∀ t ∈ hdr, Word t ∧ t ∉ B.subs.map (·.1)) {i : Nat} (hws : Props.Words E i hdr) {k m j : Nat} {o : Obj}
    (hi : Items E (Succeeds E) B.fin (B.spec E) k ⟨B.ps.length, fillF B.ps vals Obj.empty, i + hdr.length⟩ ⟨m, o, j⟩)
    (hfin : TokAfter E j B.fin) : Returns E B.p i (.ok (j + 1) (.obj (B.close o)) false) := by
  have hp := params_items' (R := Succeeds E) (L := B.spec E) (irrs_names B hB).1 hdr vals 0 i Obj.empty (by omega) (by simpa [Irr.spec] using hh) hword hws
  exact irr_reads hw hB ⟨_, _, _, _, hp.append hi, hfin, rfl, rfl⟩

end Verif.A2l.Loose

namespace Verif.A2l.Props
open Verif.Go Verif.A2l Lang Decl Analysis Template Loose

/-- C31 for the irregular blocks: a keyword that is not allowed, where a parameter or an optional part
can start, is an error. -/
theorem C31_irregular {E : Env} (hw : Wf E) {B : Irr} (hB : B ∈ irrs) {i k : Nat} {x : Decl.Pos}
    (hi : Items E (Succeeds E) B.fin (B.spec E) k ⟨0, Obj.empty, i⟩ x) {t : Str} (ht : TokAfter E x.i t) (h1 : t ∈ keywords)
    (h2 : t ≠ B.fin) (h3 : t ∉ B.subs.map (·.1)) : ∃ i' v, Returns E B.p i (.ok i' v true) :=
  rejects hw (follows_irrs hw B hB) (irrs_not_mt B hB) (irrs_body E B hB) hi ht h1 h2 h3

/-- C32 for the irregular blocks, as far as it holds: the parameters that set their own marker, written in
order between the begin and end tokens, are read back, each in its own field. Missing: the further
parameters (see below). -/
theorem C32_irregular_partial {E : Env} (hw : Wf E) {B : Irr} (hB : B ∈ irrs) {hdr : List Str} {vals : List Val}
    (hh : Written E (B.ps.map (·.kind)) hdr vals) (hword : ∀ t ∈ hdr, Word t ∧ t ∉ B.subs.map (·.1)) {i : Nat} (hws : Words E i (hdr ++ [B.fin])) :
    ∃ o, Returns E B.p i (.ok (i + hdr.length + 1) (.obj o) false) ∧
      ∀ (k : Nat) (p : Param), B.ps[k]? = some p → vals[k]? = some (o p.field) := by
  obtain ⟨h1, h2⟩ := words_append.1 hws
  refine ⟨_, irr_text hw hB hh hword h1 .nil (h2 0 _ rfl), fun k p hp => ?_⟩
  rw [irrs_close B hB _ p (List.mem_of_getElem? hp)]
  exact fillF_get B.ps vals Obj.empty (irrs_names B hB).2 (by simpa using (written_length hh).2) k p hp

/-- C30/C32 for the irregular blocks, converse: the parse function returns without error only if it has read
the items of the block up to its closing token, with exactly the values it returns. -/
theorem C32_irregular_only {E : Env} (hw : Wf E) {B : Irr} (hB : B ∈ irrs) {i i' : Nat} {v : Val}
    (h : Returns E B.p i (.ok i' v false)) : ∃ o, v = .obj o ∧ Block E B.fin (B.spec E) i i' o := irr_only hw hB h

/-- The fields of MEASUREMENT and TYPEDEF_MEASUREMENT that no text can set. -/
def deadFields : Irr → List String := fun B =>
  if B.p = .parseUnit then ["display", "Type"]
  else if B.p = .parseMeasurement ∨ B.p = .parseTypeDefMeasurement then ["resolution", "accuracy", "lowerLimit", "upperLimit"]
  else []

/-- C32 fails for every text: no MEASUREMENT, TYPEDEF_MEASUREMENT or UNIT that is read without error has
the parameters after the conversion (after the long identifier); the fields keep their zero values. -/
theorem C32_dead_fields {E : Env} (hw : Wf E) {B : Irr} (hB : B ∈ [measurement, typeDefMeasurement, Loose.unit]) {f : String}
    (hf : f ∈ deadFields B) {i i' : Nat} {o : Obj} (h : Returns E B.p i (.ok i' (.obj o) false)) : o f = .zero := by
  have hB' : B ∈ irrs := by
    simp only [List.mem_cons, List.not_mem_nil, or_false] at hB
    rcases hB with rfl | rfl | rfl <;> simp [irrs]
  obtain ⟨o', hv, n, m, j, o₁, hi, _, _, rfl⟩ := irr_only hw hB' h
  obtain rfl : o = B.close o₁ := Val.obj.inj hv
  have hcl : B.close o₁ = o₁ := by
    simp only [List.mem_cons, List.not_mem_nil, or_false] at hB
    rcases hB with rfl | rfl | rfl <;> rfl
  rw [hcl]
  have hap : (∀ p ∈ B.ps, f ≠ p.field ∧ f ≠ p.flag) ∧ (∀ x ∈ B.subs, f ∉ x.2.names) ∧
      (∀ t o i o' j, B.rest E (Succeeds E) t o i o' j → o' f = o f) := by
    simp only [List.mem_cons, List.not_mem_nil, or_false] at hB
    rcases hB with rfl | rfl | rfl
    · refine ⟨by revert f; decide +kernel, by revert f; decide +kernel, fun t o i o' j h => ?_⟩
      rw [h.1, set_other _ _ (by revert f; decide)]
    · refine ⟨by revert f; decide +kernel, by revert f; decide +kernel, fun t o i o' j h => ?_⟩
      rw [h.1, set_other _ _ (by revert f; decide)]
    · refine ⟨by revert f; decide +kernel, by revert f; decide +kernel, fun t o i o' j h => ?_⟩
      rw [h.1, set_other _ _ (by revert f; decide), set_other _ _ (by revert f; decide)]
  refine items_keep (P := fun o => o f = .zero) ?_ ?_ ?_ hi rfl
  · intro p hp o v h
    rw [set_other _ _ (hap.1 p hp).2, set_other _ _ (hap.1 p hp).1]; exact h
  · intro t o i o' j h h0
    rw [hap.2.2 t o i o' j h]; exact h0
  · intro t o i o' j ⟨x, hx, h⟩ h0
    rw [xsub_other ((irrs_ok B hB').simple _ hx) h (hap.2.1 _ hx)]; exact h0

end Verif.A2l.Props

namespace Verif.A2l.Loose
open Verif.Go Verif.A2l Lang Decl Analysis Template

variable {E : Env}

/-- A word for the block `B`: no keyword and not the first token of an optional part. -/
abbrev BWord (B : Irr) (t : Str) : Prop := Word t ∧ t ∉ B.subs.map (·.1)

/-- Parameters, then surplus words each of which is one item, then the closing token. -/
theorem irr_surplus (hw : Wf E) {B : Irr} (hB : B ∈ irrs) {g : Obj → Str → Obj}
    (hg : ∀ R t o i, B.rest E R t o i (g o t) i) {hdr ws : List Str} {vals : List Val}
    (hh : Written E (B.ps.map (·.kind)) hdr vals) (hword : ∀ t ∈ hdr ++ ws, BWord B t) {i : Nat}
    (hws : Props.Words E i (hdr ++ ws ++ [B.fin])) :
    Returns E B.p i (.ok (i + hdr.length + ws.length + 1) (.obj (B.close (ws.foldl g (fillF B.ps vals Obj.empty)))) false) := by
  obtain ⟨h1, h2⟩ := words_append.1 hws
  obtain ⟨h1, h3⟩ := words_append.1 h1
  have hr := rest_items (E := E) (R := Succeeds E) (L := B.spec E) (irrs_names B hB).1 (fun t o i => hg _ t o i) ws (i + hdr.length)
    (fillF B.ps vals Obj.empty) (fun t ht => hword t (by simp [ht])) h3
  have hf := h2 0 _ rfl
  rw [List.length_append, ← Nat.add_assoc] at hf
  exact irr_text hw hB hh (fun t ht => hword t (by simp [ht])) h1 hr hf

theorem fold_set_last (f : String) : ∀ (ws : List Str) (o : Obj) (h : ws ≠ []),
    (ws.foldl (fun o t => o.set f (.str t)) o) f = .str (ws.getLast h) := by
  intro ws
  induction ws with
  | nil => intro o h; exact absurd rfl h
  | cons t ws ih =>
    intro o _
    rw [List.foldl_cons]
    cases ws with
    | nil => simp [Obj.set]
    | cons u us => rw [ih _ (by simp)]; simp

theorem fold_other {g : Obj → Str → Obj} {f : String} (hg : ∀ o t, g o t f = o f) : ∀ (ws : List Str) (o : Obj),
    ws.foldl g o f = o f := by
  intro ws
  induction ws with
  | nil => intro o; rfl
  | cons t ws ih => intro o; rw [List.foldl_cons, ih, hg]

end Verif.A2l.Loose

namespace Verif.A2l.Props
open Verif.Go Verif.A2l Lang Decl Analysis Template Loose

/-- C32 is false of every MEASUREMENT and TYPEDEF_MEASUREMENT: name, long identifier and data type are read;
of the words `ws` after them (conversion, resolution, accuracy, limits) the last one is
kept, as the conversion, and the others are lost. -/
theorem C32_measurement_lost {E : Env} (hw : Wf E) {B : Irr} (hB : B ∈ [measurement, typeDefMeasurement]) {hdr ws : List Str}
    {vals : List Val} (hh : Written E (B.ps.map (·.kind)) hdr vals) (hne : ws ≠ [])
    (hword : ∀ t ∈ hdr ++ ws, BWord B t) {i : Nat} (hws : Words E i (hdr ++ ws ++ [B.fin])) :
    ∃ o, Returns E B.p i (.ok (i + hdr.length + ws.length + 1) (.obj o) false) ∧
      vals[0]? = some (o "name") ∧ vals[1]? = some (o "longIdentifier") ∧ vals[2]? = some (o "datatype") ∧
      o "conversion" = .str (ws.getLast hne) ∧
      ∀ f ∈ ["resolution", "accuracy", "lowerLimit", "upperLimit"], o f = .zero := by
  have hB' : B ∈ irrs := by
    simp only [List.mem_cons, List.not_mem_nil, or_false] at hB
    rcases hB with rfl | rfl <;> simp [irrs]
  have hrest : ∀ R t o i, B.rest E R t o i (Obj.set o "conversion" (.str t)) i := by
    simp only [List.mem_cons, List.not_mem_nil, or_false] at hB
    rcases hB with rfl | rfl <;> exact fun _ _ _ _ => ⟨rfl, rfl⟩
  have hclose : ∀ o, B.close o = o := by
    simp only [List.mem_cons, List.not_mem_nil, or_false] at hB
    rcases hB with rfl | rfl <;> exact fun _ => rfl
  have hps : B.ps = measurement.ps := by
    simp only [List.mem_cons, List.not_mem_nil, or_false] at hB
    rcases hB with rfl | rfl <;> rfl
  have hdead : deadFields B = ["resolution", "accuracy", "lowerLimit", "upperLimit"] := by
    simp only [List.mem_cons, List.not_mem_nil, or_false] at hB
    rcases hB with rfl | rfl <;> rfl
  have hr := irr_surplus hw hB' hrest hh hword hws
  rw [hclose] at hr
  have hoth : ∀ f, f ≠ "conversion" →
      ws.foldl (fun o t => Obj.set o "conversion" (.str t)) (fillF B.ps vals Obj.empty) f = fillF B.ps vals Obj.empty f :=
    fun f hf => fold_other (fun o t => set_other _ _ hf) ws _
  have hget := fillF_get B.ps vals Obj.empty (irrs_names B hB').2 (by simpa using (written_length hh).2)
  refine ⟨_, hr, ?_, ?_, ?_, fold_set_last _ _ _ hne, fun f hf => ?_⟩
  · rw [hoth _ (by decide)]; exact hget 0 _ (by rw [hps]; rfl)
  · rw [hoth _ (by decide)]; exact hget 1 _ (by rw [hps]; rfl)
  · rw [hoth _ (by decide)]; exact hget 2 _ (by rw [hps]; rfl)
  · exact C32_dead_fields (B := B) hw (by simp only [List.mem_cons, List.not_mem_nil, or_false] at hB ⊢; rcases hB with h | h <;> simp [h]) (hdead ▸ hf) hr

/-- C32 is false of every UNIT: the last of the words after the name is kept, as the long
identifier, the others are lost. -/
theorem C32_unit_lost {E : Env} (hw : Wf E) {name : Str} {ws : List Str} (hne : ws ≠ [])
    (hword : ∀ t ∈ name :: ws, BWord Loose.unit t) {i : Nat} (hws : Words E i (name :: ws ++ [(str! "/end UNIT")])) :
    ∃ o : Obj, Returns E .parseUnit i (.ok (i + ws.length + 2) (.obj o) false) ∧ o "name" = .str name ∧
      o "longIdentifier" = .str (ws.getLast hne) ∧ o "display" = .zero ∧ o "Type" = .zero := by
  have hB' : Loose.unit ∈ irrs := by simp [irrs]
  have hr := irr_surplus hw hB' (g := fun o t => (o.set "longIdentifier" (.str t)).set "nameSet" (.bool true))
    (fun _ _ _ _ => ⟨rfl, rfl⟩) (hdr := [name]) (vals := [.str name]) (.cons rfl .nil) hword hws
  rw [show i + [name].length + ws.length + 1 = i + ws.length + 2 by simp; omega] at hr
  refine ⟨_, hr, ?_, ?_, C32_dead_fields hw (by simp) (by simp [deadFields, Loose.unit]) hr,
    C32_dead_fields hw (by simp) (by simp [deadFields, Loose.unit]) hr⟩
  · show (List.foldl _ _ ws : Obj) "name" = _
    rw [fold_other (fun o t => by rw [set_other _ _ (by decide), set_other _ _ (by decide)])]
    rfl
  · show (List.foldl _ _ ws : Obj) "longIdentifier" = _
    generalize fillF Loose.unit.ps [Val.str name] Obj.empty = o
    clear hws hr hword
    induction ws generalizing o with
    | nil => exact absurd rfl hne
    | cons t ws ih =>
      rw [List.foldl_cons]
      cases ws with
      | nil => simp [Obj.set]
      | cons u us => rw [ih (by simp)]; simp

/-- C32 is false of every MEMORY_SEGMENT whose offsets differ: the first offset is kept five times. -/
theorem C32_memory_segment_lost {E : Env} (hw : Wf E) {hdr ws : List Str} {vals : List Val} {w : Str}
    (hh : Written E (memorySegment.ps.map (·.kind)) hdr vals) (hword : ∀ t ∈ hdr ++ w :: ws, BWord memorySegment t) {i : Nat}
    (hws : Words E i (hdr ++ w :: ws ++ [(str! "/end MEMORY_SEGMENT")])) :
    ∃ o : Obj, Returns E .parseMemorySegment i (.ok (i + hdr.length + ws.length + 2) (.obj o) false) ∧
      (∀ (k : Nat) (p : Param), memorySegment.ps[k]? = some p → vals[k]? = some (o p.field)) ∧
      o.list "offset" = List.replicate 5 (.str w) := by
  have hB' : memorySegment ∈ irrs := by simp [irrs]
  have hr := irr_surplus hw hB' (g := fun o t => if o.flag "offsetSet" = true then o else
      (o.set "offset" (.list (List.replicate 5 (.str t)))).set "offsetSet" (.bool true))
    (fun R t o i => ⟨rfl, by show (if _ then _ else _); split <;> simp [*]⟩) hh hword hws
  rw [show i + hdr.length + (w :: ws).length + 1 = i + hdr.length + ws.length + 2 by simp; omega] at hr
  have hget := fillF_get memorySegment.ps vals Obj.empty (irrs_names _ hB').2 (by simpa using (written_length hh).2)
  have hfl : (fillF memorySegment.ps vals Obj.empty).flag "offsetSet" = false := by
    rw [Obj.flag, fillF_other _ _ _ (by decide)]; rfl
  refine ⟨_, hr, fun k p hp => ?_, ?_⟩
  · have hne : p.field ≠ "offset" ∧ p.field ≠ "offsetSet" := by
      have : ∀ q ∈ memorySegment.ps, q.field ≠ "offset" ∧ q.field ≠ "offsetSet" := by decide
      exact this p (List.mem_of_getElem? hp)
    show _ = some ((List.foldl _ _ _ : Obj) p.field)
    rw [fold_other (fun o t => by split; · rfl
                                  · rw [set_other _ _ hne.2, set_other _ _ hne.1])]
    exact hget k p hp
  · show Obj.list (List.foldl _ _ _) "offset" = _
    rw [List.foldl_cons, hfl]
    simp only [Bool.false_eq_true, if_false]
    suffices h : ∀ (ws : List Str) (o : Obj), o.flag "offsetSet" = true → List.foldl (fun (o : Obj) t => if o.flag "offsetSet" = true then o else
      (o.set "offset" (.list (List.replicate 5 (.str t)))).set "offsetSet" (.bool true)) o ws = o by
      rw [h _ _ (by simp [Obj.flag, Obj.set])]
      simp [Obj.list, Obj.set]
    intro ws
    induction ws with
    | nil => intro o _; rfl
    | cons t ws ih => intro o ho; rw [List.foldl_cons, if_pos ho]; exact ih o ho

/-- C32 for MEMORY_LAYOUT: program type, address, size and the five offsets are read back. -/
theorem C32_memory_layout {E : Env} (hw : Wf E) {hdr ws : List Str} {vals offs : List Val}
    (hh : Written E (memoryLayout.ps.map (·.kind)) hdr vals) (hof : Written E (List.replicate 5 (.int 32)) ws offs)
    (hword : ∀ t ∈ hdr ++ ws, BWord memoryLayout t) {i : Nat}
    (hws : Words E i (hdr ++ ws ++ [(str! "/end MEMORY_LAYOUT")])) :
    ∃ o : Obj, Returns E .parseMemoryLayout i (.ok (i + hdr.length + 6) (.obj o) false) ∧
      (∀ (k : Nat) (p : Param), memoryLayout.ps[k]? = some p → vals[k]? = some (o p.field)) ∧
      o.list "offset" = offs := by
  have hB' : memoryLayout ∈ irrs := by simp [irrs]
  have hfin := (irrs_names _ hB').1
  have hget := fillF_get memoryLayout.ps vals Obj.empty (irrs_names _ hB').2 (by simpa using (written_length hh).2)
  obtain ⟨h1, h2⟩ := words_append.1 hws
  obtain ⟨h1, h3⟩ := words_append.1 h1
  have hwl := (written_length hof).1
  simp only [List.length_replicate] at hwl
  have hf := h2 0 _ rfl
  rw [List.length_append, hwl, ← Nat.add_assoc] at hf
  have key : ∀ (n : Nat) (ws : List Str) (offs : List Val) (i : Nat) (o : Obj), Written E (List.replicate n (.int 32)) ws offs →
      (∀ t ∈ ws, BWord memoryLayout t) → Words E i ws → (o.list "offset").length + n = 5 → (n ≠ 0 → o.flag "offsetSet" = false) →
      ∃ o' : Obj, Items E (Succeeds E) memoryLayout.fin (memoryLayout.spec E) n ⟨3, o, i⟩ ⟨3, o', i + n⟩ ∧
        o'.list "offset" = o.list "offset" ++ offs ∧ ∀ f, f ≠ "offset" → f ≠ "offsetSet" → o' f = o f := by
    intro n
    induction n with
    | zero =>
      intro ws offs i o h _ _ _ _
      cases h
      exact ⟨o, .nil, by simp, fun _ _ _ => rfl⟩
    | succ n ih =>
      intro ws offs i o h hb hws hl ho
      rw [List.replicate_succ] at h
      cases h with
      | cons hv hs =>
        rename_i t ws v offs
        obtain ⟨g1, g2⟩ := words_tail hws
        have hbt := hb t (by simp)
        let o1 : Obj := if (o.list "offset").length + 1 = 5 then (o.set "offset" (.list (o.list "offset" ++ [v]))).set "offsetSet" (.bool true)
          else o.set "offset" (.list (o.list "offset" ++ [v]))
        have hlist : o1.list "offset" = o.list "offset" ++ [v] := by
          simp only [o1]
          split <;> simp [Obj.list, Obj.set]
        obtain ⟨o', hi, hl', hoth⟩ := ih ws offs (i + 1) o1 hs (fun t ht => hb t (by simp [ht])) g2 (by rw [hlist]; simp; omega)
          (fun hn => by
            have : (o.list "offset").length + 1 ≠ 5 := by omega
            simp only [o1, this, if_false]
            rw [flag_other _ _ (by decide)]
            exact ho (by omega))
        refine ⟨o', ?_, ?_, fun f hf1 hf2 => ?_⟩
        · rw [show i + (n + 1) = i + 1 + n by omega]
          refine .cons (.rest (L := memoryLayout.spec E) rfl g1 hbt.1.1 (fun hh => hbt.1.2 (hh ▸ hfin)) hbt.2 hbt.1.2 ?_) hi
          refine ⟨rfl, ?_⟩
          rw [if_neg (by rw [ho (by omega)]; decide)]
          exact ⟨v, hv, rfl⟩
        · rw [hl', hlist, List.append_assoc]; rfl
        · rw [hoth f hf1 hf2]
          simp only [o1]
          split
          · rw [set_other _ _ hf2, set_other _ _ hf1]
          · rw [set_other _ _ hf1]
  have hlist0 : (fillF memoryLayout.ps vals Obj.empty).list "offset" = [] := by
    rw [Obj.list, fillF_other _ _ _ (by decide)]; rfl
  obtain ⟨o', hi, hl', hoth⟩ := key 5 ws offs (i + hdr.length) (fillF memoryLayout.ps vals Obj.empty) hof
    (fun t ht => hword t (by simp [ht])) h3 (by rw [hlist0]; rfl) (fun _ => by
      rw [Obj.flag, fillF_other _ _ _ (by decide)]; rfl)
  refine ⟨o', irr_text hw hB' hh (fun t ht => hword t (by simp [ht])) h1 hi hf, fun k p hp => ?_, by rw [hl', hlist0]; rfl⟩
  have hne : ∀ q ∈ memoryLayout.ps, q.field ≠ "offset" ∧ q.field ≠ "offsetSet" := by decide
  have hne := hne p (List.mem_of_getElem? hp)
  rw [hoth _ hne.1 hne.2]
  exact hget k p hp

/-- C32 for VAR_FORBIDDEN_COMB: the pairs are read back in order. -/
theorem C32_var_forbidden_comb {E : Env} (hw : Wf E) {ps : List (Str × Str)} (hword : ∀ x ∈ ps, Word x.1 ∧ x.2 ≠ []) {i : Nat}
    (hws : Words E i ((ps.map fun x => [x.1, x.2]).flatten ++ [(str! "/end VAR_FORBIDDEN_COMB")])) :
    ∃ o : Obj, Returns E .parseVarForbiddenComb i (.ok (i + 2 * ps.length + 1) (.obj o) false) ∧
      o.list "criterionName" = ps.map (fun x => .str x.1) ∧ o.list "criterionValue" = ps.map (fun x => .str x.2) := by
  have hB' : varForbiddenComb ∈ irrs := by simp [irrs]
  have hfin := (irrs_names _ hB').1
  obtain ⟨h1, h2⟩ := words_append.1 hws
  have hlen : (ps.map fun x => [x.1, x.2]).flatten.length = 2 * ps.length := by
    clear hws h1 h2 hword
    induction ps with
    | nil => rfl
    | cons x ps ih => simp only [List.map_cons, List.flatten_cons, List.length_append, ih, List.length_cons, List.length_nil]; omega
  have hf := h2 0 _ rfl
  rw [hlen] at hf
  have key : ∀ (ps : List (Str × Str)) (i : Nat) (o : Obj), (∀ x ∈ ps, Word x.1 ∧ x.2 ≠ []) →
      Words E i (ps.map fun x => [x.1, x.2]).flatten →
      ∃ o' : Obj, Items E (Succeeds E) varForbiddenComb.fin (varForbiddenComb.spec E) ps.length ⟨0, o, i⟩ ⟨0, o', i + 2 * ps.length⟩ ∧
        o'.list "criterionName" = o.list "criterionName" ++ ps.map (fun x => .str x.1) ∧
        o'.list "criterionValue" = o.list "criterionValue" ++ ps.map (fun x => .str x.2) := by
    intro ps
    induction ps with
    | nil => intro i o _ _; exact ⟨o, .nil, by simp, by simp⟩
    | cons x ps ih =>
      intro i o hb hws
      obtain ⟨g1, g2⟩ := words_tail hws
      obtain ⟨g2, g3⟩ := words_tail g2
      have hbx := hb x (by simp)
      obtain ⟨o', hi, hl1, hl2⟩ := ih (i + 1 + 1) ((o.set "criterionName" (.list (o.list "criterionName" ++ [.str x.1]))).set "criterionValue"
        (.list (o.list "criterionValue" ++ [.str x.2]))) (fun y hy => hb y (by simp [hy])) g3
      refine ⟨o', ?_, ?_, ?_⟩
      · rw [List.length_cons, show i + 2 * (ps.length + 1) = i + 1 + 1 + 2 * ps.length by omega]
        exact .cons (.rest (L := varForbiddenComb.spec E) rfl g1 hbx.1.1 (fun hh => hbx.1.2 (hh ▸ hfin)) (by simp [Irr.spec, varForbiddenComb])
          hbx.1.2 ⟨x.2, g2, hbx.2, rfl, rfl⟩) hi
      · rw [hl1]; simp [Obj.list, Obj.set]
      · rw [hl2]; simp [Obj.list, Obj.set]
  obtain ⟨o', hi, hl1, hl2⟩ := key ps i Obj.empty hword h1
  refine ⟨_, irr_reads hw hB' ⟨_, _, _, _, hi, hf, rfl, rfl⟩, ?_, ?_⟩
  · simpa [Irr.spec, varForbiddenComb, Obj.list, Obj.set, Obj.empty] using hl1
  · simpa [Irr.spec, varForbiddenComb, Obj.list, Obj.set, Obj.empty] using hl2

end Verif.A2l.Props

namespace Verif.A2l.Loose
open Verif.Go Verif.A2l Lang Decl Analysis Template

variable {E : Env} {fin : Str} {L : Spec} {G : Obj → Prop} {tail : List (Cond × List Stmt)} {onFin : List Stmt} {subs : List (Str × List Stmt)}

/-- If after any number of items neither an item nor the closing token follows, the result is
an error. -/
theorem stuck (hw : Wf E) (hmt : Props.MtGood E) (F : Follows E fin L G tail onFin subs) {p : PName} (hp : p ≠ .parseModuleMultithreaded)
    (hb : A2l.body p = blk [.loop (body fin L tail onFin subs)]) {i k : Nat} (hlt : i < E.toks.length) {x : Decl.Pos}
    (hi : Items E (Succeeds E) fin L k ⟨0, Obj.empty, i⟩ x) (hno : ∀ y, ¬ Item E (Succeeds E) fin L x y)
    (hf : ¬ TokAfter E x.i fin) : ∃ i' v, Returns E p i (.ok i' v true) := by
  obtain ⟨i', v, e, _, hr, _⟩ := Props.parse_ok hw hmt p hp i hlt
  cases e with
  | true => exact ⟨i', v, hr⟩
  | false =>
    exfalso
    obtain ⟨n0, d0, hbd⟩ := items_bounds F hi
    obtain ⟨_, n1, d1, h⟩ := hr
    have h := h (n0 + n1 + 1 + k) (d0 + d1 + 1) (by omega) (by omega)
    obtain ⟨s1, b1, b2⟩ := iter_items (n := n0 + n1 + 1 + k) hw F (hbd (n0 + n1 + 1 + k) (d0 + d1) (by omega) (by omega)) (at_start F i)
    rw [run_loop hp hb, b2 (n0 + n1 + 1)] at h
    cases hs : iter (exec E (run E (n0 + n1 + 1 + k) (d0 + d1)) (n0 + n1 + 1 + k) (body fin L tail onFin subs)) (n0 + n1 + 1) s1 with
    | ok s c =>
      rw [hs] at h
      simp only [finish, PRes.ok.injEq] at h
      obtain ⟨k', y, g1, g2, _⟩ := iter_success hw F b1 hs h.2.2
      have g1 := Items.map F (fun q a b w hh => returns_of_run (r := .ok b w false) hh (by simp)) g1 (R' := Succeeds E)
      cases g1 with
      | nil => exact hf g2
      | cons hit _ => exact hno _ hit
    | panic => rw [hs] at h; simp [finish] at h
    | timeout => rw [hs] at h; simp [finish] at h

theorem irr_stuck (hw : Wf E) (hmt : Props.MtGood E) {B : Irr} (hB : B ∈ irrs) {i k : Nat} (hlt : i < E.toks.length) {x : Decl.Pos}
    (hi : Items E (Succeeds E) B.fin (B.spec E) k ⟨0, Obj.empty, i⟩ x) (hno : ∀ y, ¬ Item E (Succeeds E) B.fin (B.spec E) x y)
    (hf : ¬ TokAfter E x.i B.fin) : ∃ i' v, Returns E B.p i (.ok i' v true) :=
  stuck hw hmt (follows_irrs hw B hB) (irrs_not_mt B hB) (irrs_body E B hB) hlt hi hno hf

theorem tokAfter_unique {i : Nat} {t u : Str} (h : TokAfter E i t) (h' : TokAfter E i u) : t = u := by
  unfold TokAfter at h h'
  rw [h] at h'
  exact Option.some.inj h'

end Verif.A2l.Loose

namespace Verif.A2l.Props
open Verif.Go Verif.A2l Lang Decl Analysis Template Loose

/-- A word that is no legal value of the parameter expected next (no number, out of range, no
constant of the enumeration) is an error. -/
theorem C32_irregular_illegal {E : Env} (hw : Wf E) (hmt : MtGood E) {B : Irr} (hB : B ∈ irrs) {i k : Nat} (hlt : i < E.toks.length) {x : Decl.Pos}
    (hi : Items E (Succeeds E) B.fin (B.spec E) k ⟨0, Obj.empty, i⟩ x) {p : Param} (hp : B.ps[x.m]? = some p) {t : Str}
    (ht : TokAfter E x.i t) (hword : BWord B t) (hv : ∀ v, ¬ Denotes E p.kind t v) : ∃ i' v, Returns E B.p i (.ok i' v true) := by
  refine irr_stuck hw hmt hB hlt hi ?_ ?_
  · intro y hy
    cases hy with
    | param hp' ht' _ _ _ _ hv' =>
      obtain rfl := tokAfter_unique ht ht'
      rw [show (B.spec E).ps = B.ps from rfl, hp] at hp'
      obtain rfl := Option.some.inj hp'
      exact hv _ hv'
    | rest hm _ _ _ _ _ _ =>
      simp only at hp
      rw [hm, show (B.spec E).ps = B.ps from rfl, List.getElem?_eq_none (by omega)] at hp
      cases hp
    | sub hs ht' _ =>
      obtain rfl := tokAfter_unique ht ht'
      exact hword.2 hs
  · intro hf
    obtain rfl := tokAfter_unique ht hf
    exact hword.1.2 (irrs_names B hB).1

/-- `ADDRESS_TYPE` inside a BLOB is always an error: the parser compares the keyword itself with the
address types. -/
theorem C32_blob_address_type {E : Env} (hw : Wf E) (hmt : MtGood E) {i k : Nat} (hlt : i < E.toks.length) {x : Decl.Pos}
    (hi : Items E (Succeeds E) blob.fin (blob.spec E) k ⟨0, Obj.empty, i⟩ x) (ht : TokAfter E x.i (str! "ADDRESS_TYPE")) :
    ∃ i' v, Returns E .parseBlob i (.ok i' v true) := by
  have hB' : blob ∈ irrs := by simp [irrs]
  refine irr_stuck hw hmt hB' hlt hi ?_ ?_
  · intro y hy
    cases hy with
    | param _ ht' _ _ hs _ _ =>
      obtain rfl := tokAfter_unique ht ht'
      exact hs (show _ ∈ blob.subs.map (·.1) by decide +kernel)
    | rest _ ht' _ _ hs _ _ =>
      obtain rfl := tokAfter_unique ht ht'
      exact hs (show _ ∈ blob.subs.map (·.1) by decide +kernel)
    | sub _ ht' h =>
      obtain rfl := tokAfter_unique ht ht'
      obtain ⟨z, hz, hm⟩ := h
      have : z = .enumHere parseAddrTypeEnum "addressType" "addressTypeSet" := by
        simp only [blob, List.mem_cons, Prod.mk.injEq, List.not_mem_nil, or_false] at hz
        rcases hz with h | h | h | h | h | h | h | h | h
        all_goals first | exact h.2 | exact absurd h.1 (by decide +kernel)
      subst this
      obtain ⟨v, ⟨⟨c, hc⟩, _⟩, _⟩ := hm
      have : (str! "ADDRESS_TYPE") ∉ parseAddrTypeEnum.table.map (·.1) := by decide +kernel
      exact this (List.mem_map.2 ⟨_, hc, rfl⟩)
  · intro hf
    exact absurd (tokAfter_unique ht hf) (by decide +kernel)

/-- Every BLOB that is read without error has the address type DIRECT. -/
theorem C32_blob_always_direct {E : Env} (hw : Wf E) {i i' : Nat} {o : Obj} (h : Returns E .parseBlob i (.ok i' (.obj o) false)) :
    o "addressType" = .str (str! "DIRECT") := by
  have hB' : blob ∈ irrs := by simp [irrs]
  obtain ⟨o', hv, n, m, j, o₁, hi, _, _, rfl⟩ := irr_only (B := blob) hw hB' h
  obtain rfl : o = blob.close o₁ := Val.obj.inj hv
  have hfl : o₁.flag "addressTypeSet" = false := by
    refine items_keep (P := fun o => o.flag "addressTypeSet" = false) ?_ ?_ ?_ hi rfl
    · intro p hp o v h0
      have : ∀ p ∈ blob.ps, "addressTypeSet" ≠ p.field ∧ "addressTypeSet" ≠ p.flag := by decide
      rw [flag_other _ _ (this p hp).2, flag_other _ _ (this p hp).1]
      exact h0
    · intro t o i o' j h h0
      rw [h.1]; exact h0
    · intro t o i o' j ⟨x, hx, h⟩ h0
      have hz := hx
      simp only [blob, List.mem_cons, Prod.mk.injEq, List.not_mem_nil, or_false] at hz
      by_cases ht : t = (str! "ADDRESS_TYPE")
      · exfalso
        subst ht
        have : x = .enumHere parseAddrTypeEnum "addressType" "addressTypeSet" := by
          rcases hz with h | h | h | h | h | h | h | h | h
          all_goals first | exact h.2 | exact absurd h.1 (by decide +kernel)
        subst this
        obtain ⟨v, ⟨⟨c, hc⟩, _⟩, _⟩ := h
        have : (str! "ADDRESS_TYPE") ∉ parseAddrTypeEnum.table.map (·.1) := by decide +kernel
        exact this (List.mem_map.2 ⟨_, hc, rfl⟩)
      · have hn : "addressTypeSet" ∉ x.names := by
          rcases hz with h | h | h | h | h | h | h | h | h
          all_goals first | exact absurd h.1 ht | (rw [h.2]; decide)
        rw [Obj.flag, xsub_other ((irrs_ok _ hB').simple _ hx) h hn]
        exact h0
  show (if o₁.flag "addressTypeSet" = true then o₁ else o₁.set "addressType" _) "addressType" = _
  rw [hfl]
  simp [Obj.set]

/-- In every OVERWRITE that is read without error the conversion and the input quantity are the keyword
CONVERSION / INPUT_QUANTITY itself, or missing; never a name. -/
theorem C32_overwrite_lost {E : Env} (hw : Wf E) {i i' : Nat} {o : Obj} (h : Returns E .parseOverwrite i (.ok i' (.obj o) false)) :
    (o "conversion" = .zero ∨ o "conversion" = .str (str! "CONVERSION")) ∧
    (o "inputQuantity" = .zero ∨ o "inputQuantity" = .str (str! "INPUT_QUANTITY")) := by
  have hB' : overwrite ∈ irrs := by simp [irrs]
  obtain ⟨o', hv, n, m, j, o₁, hi, _, _, ho'⟩ := irr_only (B := overwrite) hw hB' h
  have ho : o = o₁ := (Val.obj.inj hv).trans ho'
  rw [ho]
  refine items_keep (P := fun o => (o "conversion" = .zero ∨ o "conversion" = .str (str! "CONVERSION")) ∧
    (o "inputQuantity" = .zero ∨ o "inputQuantity" = .str (str! "INPUT_QUANTITY"))) ?_ ?_ ?_ hi ⟨Or.inl rfl, Or.inl rfl⟩
  · intro p hp o v h0
    have : ∀ p ∈ overwrite.ps, ("conversion" ≠ p.field ∧ "conversion" ≠ p.flag) ∧ "inputQuantity" ≠ p.field ∧ "inputQuantity" ≠ p.flag := by
      decide
    obtain ⟨⟨a, b⟩, c, d⟩ := this p hp
    simp only [set_other _ _ a, set_other _ _ b, set_other _ _ c, set_other _ _ d]
    exact h0
  · intro t o i o' j h h0
    rw [h.1]; exact h0
  · intro t o i o' j ⟨x, hx, h⟩ h0
    have hz := hx
    simp only [overwrite, List.mem_cons, Prod.mk.injEq, List.not_mem_nil, or_false] at hz
    by_cases h1 : x = .word "conversion"
    · subst h1
      have : t = (str! "CONVERSION") := by
        rcases hz with h | h | h | h | h | h | h
        · exact h.1
        all_goals exact absurd h.2 (by simp)
      subst this
      obtain ⟨_, rfl⟩ := h
      refine ⟨Or.inr (by simp [Obj.set]), ?_⟩
      rw [set_other _ _ (by decide)]
      exact h0.2
    · by_cases h2 : x = .word "inputQuantity"
      · subst h2
        have : t = (str! "INPUT_QUANTITY") := by
          rcases hz with h | h | h | h | h | h | h
          case inr.inr.inr.inl => exact h.1
          all_goals exact absurd h.2 (by simp)
        subst this
        obtain ⟨_, rfl⟩ := h
        refine ⟨?_, Or.inr (by simp [Obj.set])⟩
        rw [set_other _ _ (by decide)]
        exact h0.1
      · have hn : "conversion" ∉ x.names ∧ "inputQuantity" ∉ x.names := by
          rcases hz with h | h | h | h | h | h | h
          all_goals first | exact absurd h.2 h1 | exact absurd h.2 h2 | (rw [h.2]; decide)
        rw [xsub_other ((irrs_ok _ hB').simple _ hx) h hn.1, xsub_other ((irrs_ok _ hB').simple _ hx) h hn.2]
        exact h0

/-- C31 is false of VARIANT_CODING in this sense: any word that is no keyword is taken for VAR_SEPARATOR. -/
theorem C31_variant_coding_any_word {E : Env} (hw : Wf E) {w sep : Str} (h1 : BWord variantCoding w) (h2 : Word sep) {i : Nat}
    (hws : Words E i [w, sep, (str! "/end VARIANT_CODING")]) :
    ∃ o v : Obj, Returns E .parseVariantCoding i (.ok (i + 3) (.obj o) false) ∧ o "varSeparator" = .obj v ∧ v "separator" = .str sep := by
  have hB' : variantCoding ∈ irrs := by simp [irrs]
  obtain ⟨g1, g2⟩ := words_tail hws
  obtain ⟨g2, g3⟩ := words_tail g2
  have g3 := g3 0 _ rfl
  obtain ⟨v, hv, hget⟩ := C32_seq_partial (E := E) hw (p := .parseVarSeparator) (by decide) (ps := [⟨"separator", "separatorSet", .str⟩])
    (Or.inr ⟨_, rfl, rfl⟩) (i := i + 1) (ws := [sep]) (vs := [.str sep]) rfl rfl (fun j t hj => by
      match j with
      | 0 => cases hj; exact g2
      | j + 1 => simp at hj) (fun t ht => by rw [List.mem_singleton] at ht; subst ht; exact h2) (fun j q t u a b c => by
      match j with
      | 0 => cases a; cases b; cases c; rfl
      | j + 1 => simp at a)
  refine ⟨_, v, irr_reads hw hB' ⟨1, 0, i + 2, _, .cons (.rest (L := variantCoding.spec E) (o' := (Obj.empty.set "varSeparator" (.obj v)).set
    "varSeparatorSet" (.bool true)) (j := i + 2) rfl g1 h1.1.1 (fun hh => h1.1.2 (hh ▸ (irrs_names _ hB').1)) h1.2 h1.1.2 ?_) .nil, g3, rfl, rfl⟩, ?_,
    hget 0 _ _ rfl rfl⟩
  · simp only [Irr.spec, variantCoding]
    rw [if_neg (by simp [Obj.flag, Obj.empty])]
    exact ⟨_, hv, rfl⟩
  · simp [Irr.spec, variantCoding, Obj.set]

end Verif.A2l.Props

/-! ### Non-vacuity -/

namespace Verif.A2l.Props
open Verif.Go Verif.A2l Lang Decl Analysis Template Loose

def projectToks : List Str := [(str! "/begin PROJECT"), (str! "P"), (str! "\"text\""), (str! "/begin MEASUREMENT")]

theorem projectItems : Loose.Items (tabEnv projectToks) (Succeeds (tabEnv projectToks)) project.fin (project.spec (tabEnv projectToks)) 2
    ⟨0, Obj.empty, 0⟩ ⟨2, fillF project.ps [.str (str! "P"), .str (str! "\"text\"")] Obj.empty, 2⟩ :=
  params_items' (L := project.spec (tabEnv projectToks)) (irrs_names project (by simp [irrs])).1 [(str! "P"), (str! "\"text\"")]
    [.str (str! "P"), .str (str! "\"text\"")] 0 0 Obj.empty
    (by omega) (.cons rfl (.cons rfl .nil)) (by
      have : ∀ t ∈ [(str! "P"), (str! "\"text\"")], Word t ∧ t ∉ project.subs.map (·.1) := by decide +kernel
      exact this) (fun j w hj => by
      match j with
      | 0 | 1 => cases hj; rfl
      | j + 2 => simp at hj)

/-- A MEASUREMENT directly inside a PROJECT. -/
example : ∃ i' v, Returns (tabEnv projectToks) .parseProject 0 (.ok i' v true) :=
  C31_irregular (B := project) (tabEnv_wf (by decide)) (by simp [irrs]) projectItems (t := (str! "/begin MEASUREMENT")) rfl (by decide +kernel) (by decide +kernel)
    (by decide +kernel)

/-- A PROJECT with name and text. -/
example : ∃ o, Returns (tabEnv [(str! "/begin PROJECT"), (str! "P"), (str! "\"text\""), (str! "/end PROJECT")]) .parseProject 0 (.ok 3 (.obj o) false) ∧
    o "Name" = .str (str! "P") ∧ o "longIdentifier" = .str (str! "\"text\"") := by
  obtain ⟨o, h1, h2⟩ := C32_irregular_partial (B := project) (tabEnv_wf (ts := [(str! "/begin PROJECT"), (str! "P"), (str! "\"text\""), (str! "/end PROJECT")])
    (by decide)) (by simp [irrs]) (hdr := [(str! "P"), (str! "\"text\"")]) (vals := [.str (str! "P"), .str (str! "\"text\"")]) (.cons rfl (.cons rfl .nil))
    (by decide +kernel) (words_self _ _)
  exact ⟨o, h1, (Option.some.inj (h2 0 _ rfl)).symm, (Option.some.inj (h2 1 _ rfl)).symm⟩

def measText : List Str := [(str! "N"), (str! "\"speed\""), (str! "UWORD")]
def measMore : List Str := [(str! "CM"), (str! "7"), (str! "0.5"), (str! "0"), (str! "100")]

theorem measReads : ∃ o, Returns (tabEnv ((str! "/begin MEASUREMENT") :: (measText ++ measMore ++ [(str! "/end MEASUREMENT")]))) .parseMeasurement 0 (.ok 9 (.obj o) false) ∧
    o "conversion" = .str (str! "100") := by
  obtain ⟨o, h1, _, _, _, h5, _⟩ := C32_measurement_lost (B := measurement)
    (tabEnv_wf (ts := (str! "/begin MEASUREMENT") :: (measText ++ measMore ++ [(str! "/end MEASUREMENT")])) (by decide)) (by simp) (hdr := measText) (ws := measMore)
    (vals := measText.map .str) (.cons rfl (.cons rfl (.cons ⟨⟨(str! "UWORD"), by decide⟩, rfl⟩ .nil))) (by decide) (by decide +kernel) (words_self _ _)
  exact ⟨o, h1, h5⟩

example : ∃ o, Returns (tabEnv ((str! "/begin MEASUREMENT") :: (measText ++ measMore ++ [(str! "/end MEASUREMENT")]))) .parseMeasurement 0 (.ok 9 (.obj o) false) ∧
    o "upperLimit" = .zero := by
  obtain ⟨o, h, _⟩ := measReads
  exact ⟨o, h, C32_dead_fields (B := measurement) (tabEnv_wf (by decide)) (by simp) (by decide) h⟩

example : ∃ o, Returns (tabEnv ((str! "/begin MEASUREMENT") :: (measText ++ measMore ++ [(str! "/end MEASUREMENT")]))) .parseMeasurement 0 (.ok 9 (.obj o) false) ∧
    Loose.Block (tabEnv ((str! "/begin MEASUREMENT") :: (measText ++ measMore ++ [(str! "/end MEASUREMENT")]))) measurement.fin
      (measurement.spec (tabEnv ((str! "/begin MEASUREMENT") :: (measText ++ measMore ++ [(str! "/end MEASUREMENT")])))) 0 9 o := by
  obtain ⟨o, h, _⟩ := measReads
  obtain ⟨o', h1, h2⟩ := C32_irregular_only (B := measurement) (tabEnv_wf (by decide)) (by simp [irrs]) h
  obtain rfl : o = o' := Val.obj.inj h1
  exact ⟨o, h, h2⟩

example : ∃ o, Returns (tabEnv ((str! "/begin UNIT") :: ((str! "km") :: [(str! "\"kilometre\""), (str! "\"km\""), (str! "DERIVED")] ++ [(str! "/end UNIT")]))) .parseUnit 0
    (.ok 5 (.obj o) false) ∧ o "longIdentifier" = .str (str! "DERIVED") := by
  obtain ⟨o, h1, _, h3, _⟩ := C32_unit_lost (name := (str! "km")) (ws := [(str! "\"kilometre\""), (str! "\"km\""), (str! "DERIVED")]) (i := 0)
    (tabEnv_wf (ts := (str! "/begin UNIT") :: ((str! "km") :: [(str! "\"kilometre\""), (str! "\"km\""), (str! "DERIVED")] ++ [(str! "/end UNIT")])) (by decide))
    (by decide) (by decide +kernel) (words_self _ _)
  exact ⟨o, h1, h3⟩

def segText : List Str := [(str! "S"), (str! "\"text\""), (str! "CODE"), (str! "FLASH"), (str! "INTERN"), (str! "0x8000"), (str! "0x100")]
def segMore : List Str := [(str! "2"), (str! "3"), (str! "4"), (str! "5")]

example : ∃ o : Obj, Returns (tabEnv ((str! "/begin MEMORY_SEGMENT") :: (segText ++ (str! "1") :: segMore ++ [(str! "/end MEMORY_SEGMENT")]))) .parseMemorySegment 0
    (.ok 13 (.obj o) false) ∧ o "size" = .str (str! "0x100") ∧ o.list "offset" = List.replicate 5 (.str (str! "1")) := by
  obtain ⟨o, h1, h2, h3⟩ := C32_memory_segment_lost (hdr := segText) (ws := segMore) (w := (str! "1")) (i := 0) (vals := segText.map .str)
    (tabEnv_wf (ts := (str! "/begin MEMORY_SEGMENT") :: (segText ++ (str! "1") :: segMore ++ [(str! "/end MEMORY_SEGMENT")])) (by decide))
    (.cons rfl (.cons rfl (.cons ⟨⟨(str! "CODE"), by decide⟩, rfl⟩ (.cons ⟨⟨(str! "FLASH"), by decide⟩, rfl⟩ (.cons ⟨⟨(str! "INTERN"), by decide⟩, rfl⟩ (.cons rfl (.cons rfl .nil)))))))
    (by decide +kernel) (words_self _ _)
  exact ⟨o, h1, (Option.some.inj (h2 6 _ rfl)).symm, h3⟩

def layText : List Str := [(str! "PRG_CODE"), (str! "0x8000"), (str! "0x100")]
def layMore : List Str := [(str! "1"), (str! "2"), (str! "3"), (str! "4"), (str! "-1")]

example : ∃ o : Obj, Returns (tabEnv ((str! "/begin MEMORY_LAYOUT") :: (layText ++ layMore ++ [(str! "/end MEMORY_LAYOUT")]))) .parseMemoryLayout 0
    (.ok 9 (.obj o) false) ∧ o "size" = .str (str! "0x100") ∧ o.list "offset" = [.int 1, .int 2, .int 3, .int 4, .int (-1)] := by
  have dig : ∀ c ∈ (str! "12345"), IsDigit c := by simp [IsDigit]
  have pos : ∀ (c : Char) (n : Nat), c ∈ (str! "12345") → decVal [c] = n → n < 10 → Denotes (tabEnv ((str! "/begin MEMORY_LAYOUT") :: (layText ++ layMore ++ [(str! "/end MEMORY_LAYOUT")]))) (.int 32) [c] (.int n) :=
    fun c n hc hn hlt => ⟨n, Or.inl ⟨n, ⟨by simp, fun d hd => by rw [List.mem_singleton] at hd; subst hd; exact dig _ hc, hn⟩, rfl⟩, by omega, by
      have : (n : Int) < 10 := by omega
      exact Int.lt_trans this (by decide), rfl⟩
  obtain ⟨o, h1, h2, h3⟩ := C32_memory_layout (hdr := layText) (ws := layMore) (i := 0) (vals := layText.map .str)
    (offs := [.int 1, .int 2, .int 3, .int 4, .int (-1)])
    (tabEnv_wf (ts := (str! "/begin MEMORY_LAYOUT") :: (layText ++ layMore ++ [(str! "/end MEMORY_LAYOUT")])) (by decide))
    (.cons ⟨⟨(str! "PRG_CODE"), by decide⟩, rfl⟩ (.cons rfl (.cons rfl .nil)))
    (.cons (pos _ 1 (by decide) rfl (by decide)) (.cons (pos _ 2 (by decide) rfl (by decide)) (.cons (pos _ 3 (by decide) rfl (by decide))
      (.cons (pos _ 4 (by decide) rfl (by decide)) (.cons ⟨-1, Or.inr (Or.inr ⟨1, (str! "1"), rfl, ⟨by decide, by simp [IsDigit], rfl⟩, rfl⟩), by decide, by decide, rfl⟩ .nil)))))
    (by decide +kernel) (words_self _ _)
  exact ⟨o, h1, (Option.some.inj (h2 2 _ rfl)).symm, h3⟩

example : ∃ o : Obj, Returns (tabEnv ((str! "/begin VAR_FORBIDDEN_COMB") :: [(str! "Car"), (str! "Limousine"), (str! "Gear"), (str! "Manual"), (str! "/end VAR_FORBIDDEN_COMB")]))
    .parseVarForbiddenComb 0 (.ok 5 (.obj o) false) ∧ o.list "criterionValue" = [.str (str! "Limousine"), .str (str! "Manual")] := by
  obtain ⟨o, h1, _, h3⟩ := C32_var_forbidden_comb (ps := [((str! "Car"), (str! "Limousine")), ((str! "Gear"), (str! "Manual"))]) (i := 0)
    (tabEnv_wf (ts := (str! "/begin VAR_FORBIDDEN_COMB") :: [(str! "Car"), (str! "Limousine"), (str! "Gear"), (str! "Manual"), (str! "/end VAR_FORBIDDEN_COMB")]) (by decide))
    (by decide +kernel) (words_self _ _)
  exact ⟨o, h1, h3⟩

/-- A MEASUREMENT with an unknown data type. -/
example : ∃ i' v, Returns (tabEnv [(str! "/begin MEASUREMENT"), (str! "N"), (str! "\"speed\""), (str! "WORD")]) .parseMeasurement 0 (.ok i' v true) := by
  have hmt : MtGood (tabEnv [(str! "/begin MEASUREMENT"), (str! "N"), (str! "\"speed\""), (str! "WORD")]) := fun h => nomatch h
  refine C32_irregular_illegal (B := measurement) (tabEnv_wf (by decide)) hmt (by simp [irrs]) (by decide) (k := 2)
    (x := ⟨2, ((((Obj.empty.set "name" (.str (str! "N"))).set "nameSet" (.bool true)).set "longIdentifier" (.str (str! "\"speed\""))).set "longIdentifierSet" (.bool true)), 2⟩)
    (.cons (.param (L := measurement.spec _) (p := ⟨"name", "nameSet", .str⟩) rfl rfl (by decide) (by decide) ?_ (by decide +kernel) rfl)
      (.cons (.param (L := measurement.spec _) (p := ⟨"longIdentifier", "longIdentifierSet", .str⟩) rfl rfl (by decide) (by decide) ?_ (by decide +kernel) rfl) .nil))
    (p := ⟨"datatype", "datatypeSet", .enum parseDataTypeEnum⟩) rfl (t := (str! "WORD")) rfl (by decide +kernel) ?_
  · show _ ∉ measurement.subs.map (·.1)
    decide +kernel
  · show _ ∉ measurement.subs.map (·.1)
    decide +kernel
  · rintro v ⟨⟨c, hc⟩, _⟩
    have : (str! "WORD") ∉ parseDataTypeEnum.table.map (·.1) := by decide +kernel
    exact this (List.mem_map.2 ⟨_, hc, rfl⟩)

def blobText : List Str := [(str! "B"), (str! "\"text\""), (str! "0x8000"), (str! "16")]

theorem blobItems (more : List Str) : Loose.Items (tabEnv ((str! "/begin BLOB") :: (blobText ++ more))) (Succeeds (tabEnv ((str! "/begin BLOB") :: (blobText ++ more)))) blob.fin
    (blob.spec (tabEnv ((str! "/begin BLOB") :: (blobText ++ more)))) 4 ⟨0, Obj.empty, 0⟩
    ⟨4, fillF blob.ps [.str (str! "B"), .str (str! "\"text\""), .str (str! "0x8000"), .int 16] Obj.empty, 4⟩ :=
  params_items' (L := blob.spec _) (irrs_names blob (by simp [irrs])).1 blobText _ 0 0 Obj.empty
    (by omega) (.cons rfl (.cons rfl (.cons rfl (.cons ⟨16, ⟨by decide, by simp [IsDigit], rfl⟩, by decide, rfl⟩ .nil)))) (by
      have : ∀ t ∈ blobText, Word t ∧ t ∉ blob.subs.map (·.1) := by decide +kernel
      exact this) (words_append.1 (words_self _ _)).1

example : ∃ i' v, Returns (tabEnv ((str! "/begin BLOB") :: (blobText ++ [(str! "ADDRESS_TYPE"), (str! "PBYTE"), (str! "/end BLOB")]))) .parseBlob 0 (.ok i' v true) :=
  C32_blob_address_type (tabEnv_wf (by decide)) (fun h => nomatch h) (by decide) (blobItems _) rfl

example : ∃ o, Returns (tabEnv ((str! "/begin BLOB") :: (blobText ++ [(str! "/end BLOB")]))) .parseBlob 0 (.ok 5 (.obj o) false) ∧ o "addressType" = .str (str! "DIRECT") := by
  have h := irr_reads (B := blob) (tabEnv_wf (by decide)) (by simp [irrs]) ⟨_, _, _, _, blobItems [(str! "/end BLOB")], rfl, rfl, rfl⟩
  exact ⟨_, h, C32_blob_always_direct (tabEnv_wf (by decide)) h⟩

example : ∃ o, Returns (mkEnv [(str! "/begin OVERWRITE"), (str! "a"), (str! "1"), (str! "CONVERSION"), (str! "CM"), (str! "/end OVERWRITE")])
      .parseOverwrite 0 (.ok 5 (.obj o) false) ∧ (o "inputQuantity" = .zero ∨ o "inputQuantity" = .str (str! "INPUT_QUANTITY")) := by
  obtain ⟨o, h, _⟩ := C32_overwrite_false
  exact ⟨o, h, (C32_overwrite_lost (mkEnv_wf (by decide)) h).2⟩

example : ∃ o v : Obj, Returns (tabEnv [(str! "/begin VARIANT_CODING"), (str! "NONSENSE"), (str! "\".\""), (str! "/end VARIANT_CODING")]) .parseVariantCoding 0
    (.ok 3 (.obj o) false) ∧ o "varSeparator" = .obj v ∧ v "separator" = .str (str! "\".\"") :=
  C31_variant_coding_any_word (tabEnv_wf (by decide)) (by decide +kernel) (by decide +kernel) (words_self _ _)

end Verif.A2l.Props
