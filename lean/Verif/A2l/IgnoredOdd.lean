import Verif.A2l.Ignored
import Verif.A2l.LooseProps2

/-!
C96 for the blocks whose parse function has a body of its own.
-/

namespace Verif.A2l.Props

open Verif.Go Verif.A2l Lang Decl Analysis Template Loose

/-- The blocks that take no further word once they are complete, with the markers that say so. -/
def completeBy : List (Irr × List String) := [(blob, []), (overwrite, []), (project, []), (memoryLayout, ["offsetSet"]),
  (memorySegment, ["offsetSet"]), (variantCoding, ["varSeparatorSet"])]

theorem complete_rest {E : Env} {R : Calls} {B : Irr} {fl : List String} (hB : (B, fl) ∈ completeBy) {o : Obj} (hf : ∀ f ∈ fl, o.flag f = true)
    (t : Str) (i : Nat) : B.rest E R t o i o i := by
  simp only [completeBy, List.mem_cons, Prod.mk.injEq, List.not_mem_nil, or_false] at hB
  rcases hB with ⟨rfl, rfl⟩ | ⟨rfl, rfl⟩ | ⟨rfl, rfl⟩ | ⟨rfl, rfl⟩ | ⟨rfl, rfl⟩ | ⟨rfl, rfl⟩
  · exact ⟨rfl, rfl⟩
  · exact ⟨rfl, rfl⟩
  · exact ⟨rfl, rfl⟩
  · exact ⟨rfl, by rw [if_pos (hf _ (by simp))]⟩
  · exact ⟨rfl, by rw [if_pos (hf _ (by simp))]⟩
  · show if _ then _ else _
    rw [if_pos (hf _ (by simp))]
    exact ⟨rfl, rfl⟩

theorem complete_items {E : Env} {R : Calls} {fin : Str} {L : Spec} (hk : fin ∈ keywords) {o : Obj} (hr : ∀ t i, L.rest R t o i o i) :
    ∀ (ts : List Str) (i : Nat), (∀ t ∈ ts, Word t ∧ t ∉ L.keys) → Words E i ts →
      Loose.Items E R fin L ts.length ⟨L.ps.length, o, i⟩ ⟨L.ps.length, o, i + ts.length⟩ := by
  intro ts
  induction ts with
  | nil => intro i _ _; exact .nil
  | cons t ts ih =>
    intro i hword hws
    obtain ⟨h1, h2⟩ := words_tail hws
    have hw := hword t (by simp)
    have := ih (i + 1) (fun t ht => hword t (by simp [ht])) h2
    rw [List.length_cons, show i + (ts.length + 1) = i + 1 + ts.length by omega]
    exact .cons (.rest rfl h1 hw.1.1 (fun hh => hw.1.2 (hh ▸ hk)) hw.2 hw.1.2 (hr t (i + 1))) this

/-- C96 is false of BLOB, OVERWRITE and PROJECT behind their parameters, of MEMORY_LAYOUT and MEMORY_SEGMENT behind their offsets, and of
VARIANT_CODING behind its separator: whatever words that are no keywords follow, the block is accepted with the values it has without
them. `o`: the values read so far. -/
theorem C96_irregular {E : Env} (hw : Wf E) {B : Irr} {fl : List String} (hB : (B, fl) ∈ completeBy) {i j n : Nat} {o : Obj}
    (h : Loose.Items E (Succeeds E) B.fin (B.spec E) n ⟨0, Obj.empty, i⟩ ⟨B.ps.length, o, j⟩) (hf : ∀ f ∈ fl, o.flag f = true)
    {ws : List Str} (hword : ∀ t ∈ ws, BWord B t) (htx : Words E j (ws ++ [B.fin])) :
    Returns E B.p i (.ok (j + ws.length + 1) (.obj (B.close o)) false) := by
  have hB' : B ∈ irrs := by
    simp only [completeBy, List.mem_cons, Prod.mk.injEq, List.not_mem_nil, or_false] at hB
    rcases hB with ⟨rfl, rfl⟩ | ⟨rfl, rfl⟩ | ⟨rfl, rfl⟩ | ⟨rfl, rfl⟩ | ⟨rfl, rfl⟩ | ⟨rfl, rfl⟩ <;> simp [irrs]
  obtain ⟨h1, h2⟩ := words_append.1 htx
  have hr := complete_items (E := E) (R := Succeeds E) (L := B.spec E) (irrs_names B hB').1 (fun t i => complete_rest hB hf t i) ws j hword h1
  exact irr_reads hw hB' ⟨_, _, _, _, h.append hr, h2 0 _ rfl, rfl, rfl⟩

/-- A BLOB with two words behind its size. -/
example : ∃ o : Obj, Returns (tabEnv ((str! "/begin BLOB") :: (blobText ++ [(str! "x"), (str! "y"), (str! "/end BLOB")]))) .parseBlob 0 (.ok 7 (.obj o) false) ∧
    o "size" = .int 16 := by
  have h := C96_irregular (E := tabEnv ((str! "/begin BLOB") :: (blobText ++ [(str! "x"), (str! "y"), (str! "/end BLOB")]))) (B := blob) (fl := [])
    (tabEnv_wf (by decide)) (by simp [completeBy]) (blobItems [(str! "x"), (str! "y"), (str! "/end BLOB")]) (by simp)
    (ws := [(str! "x"), (str! "y")]) (by decide +kernel) (by
      intro j w hj
      match j with
      | 0 => exact hj
      | 1 => exact hj
      | 2 => exact hj
      | j + 3 => simp at hj)
  exact ⟨_, h, rfl⟩

/-- C96 is false of the three conversion tables: behind the rows that were declared there may be any words that are no keywords (also
further rows), and the table is accepted with the values it has without them. -/
theorem C96_tables {E : Env} (hw : Wf E) (hfl : E.floatOk [] = false) {T : Table} (hT : T ∈ tableKinds) {i j n : Nat} {o : Obj}
    (h : Loose.Items E (Succeeds E) T.fin (T.spec E) n ⟨0, Obj.empty, i⟩ ⟨T.ps.length, o, j⟩) (hf : ∀ c ∈ T.cols, o.flag c.flag = true)
    {ws : List Str} (hword : ∀ t ∈ ws, Word t) (htx : Words E j (ws ++ [T.fin])) :
    Returns E T.p i (.ok (j + ws.length + 1) (.obj o) false) := by
  have ok := tableKinds_ok T hT
  have hk : Keyed T.fin (T.spec E) := ⟨ok.fin, fun k hk => by
    simp only [Table.spec, List.mem_map] at hk
    obtain ⟨x, hx, rfl⟩ := hk
    exact ok.keys x hx⟩
  obtain ⟨h1, h2⟩ := words_append.1 htx
  exact table_reads hT hw hfl ⟨_, _, _, _, h.append (surplus_items hk hf ws j hword h1), h2 0 _ rfl, rfl, rfl⟩

/-- A COMPU_VTAB that declares one row: two further words behind the row are skipped. -/
example : ∃ o : Obj, Returns (tabEnv ((str! "/begin COMPU_VTAB") :: ([(str! "T"), (str! "\"text\""), (str! "TAB_VERB"), (str! "1")] ++
    [(str! "0"), (str! "\"off\"")] ++ [(str! "x"), (str! "y"), (str! "/end COMPU_VTAB")]))) .parseCompuVtab 0 (.ok 9 (.obj o) false) ∧
    o.list "OutVal" = [.str (str! "\"off\"")] := by
  have ok := tableKinds_ok compuVtab (by simp [tableKinds])
  generalize hE : tabEnv ((str! "/begin COMPU_VTAB") :: ([(str! "T"), (str! "\"text\""), (str! "TAB_VERB"), (str! "1")] ++
    [(str! "0"), (str! "\"off\"")] ++ [(str! "x"), (str! "y"), (str! "/end COMPU_VTAB")])) = E
  have hk : Keyed compuVtab.fin (compuVtab.spec E) := ⟨ok.fin, fun k hk => by
    simp only [Table.spec, List.mem_map] at hk
    obtain ⟨x, hx, rfl⟩ := hk
    exact ok.keys x hx⟩
  have hwf : Wf E := hE ▸ tabEnv_wf (by decide)
  have htok : Words E 0 ([(str! "T"), (str! "\"text\""), (str! "TAB_VERB"), (str! "1")] ++
      [(str! "0"), (str! "\"off\"")] ++ [(str! "x"), (str! "y"), (str! "/end COMPU_VTAB")]) := hE ▸ words_self _ _
  obtain ⟨h1, h3⟩ := words_append.1 htok
  obtain ⟨h1, h2⟩ := words_append.1 h1
  have hp := params_items (R := Succeeds E) hk [(str! "T"), (str! "\"text\""), (str! "TAB_VERB"), (str! "1")]
    [.str (str! "T"), .str (str! "\"text\""), .str (str! "TAB_VERB"), .int 1] 0 0 Obj.empty (by omega)
    (.cons rfl (.cons rfl (.cons ⟨⟨(str! "TAB_VERB"), by decide⟩, rfl⟩ (.cons ⟨1, ⟨by decide, by simp [IsDigit], rfl⟩, by decide, rfl⟩ .nil))))
    (by decide +kernel) h1
  obtain ⟨k, hr⟩ := rows_items (E := E) (R := Succeeds E) hk ok.some [([(str! "0"), (str! "\"off\"")], [.flt (str! "0"), .str (str! "\"off\"")])] 4
    (fillF compuVtab.ps [.str (str! "T"), .str (str! "\"text\""), .str (str! "TAB_VERB"), .int 1] Obj.empty)
    (by
      intro r hr
      simp only [List.mem_cons, List.not_mem_nil, or_false] at hr
      subst hr
      exact .cons ⟨hE ▸ rfl, rfl⟩ (.cons rfl .nil)) (by decide +kernel) h2
  exact ⟨_, C96_tables hwf (hE ▸ rfl) (T := compuVtab) (by simp [tableKinds]) (hp.append hr) (by decide) (ws := [(str! "x"), (str! "y")])
    (by decide +kernel) h3, rfl⟩

/-! ### C95: missing parameters -/

theorem prefix_items {E : Env} {R : Calls} {fin : Str} {L : Spec} (hk : fin ∈ keywords) : ∀ (ts : List Str) (vs : List Val) (m i : Nat) (o : Obj),
    Written E (((L.ps.drop m).take ts.length).map (·.kind)) ts vs → (∀ t ∈ ts, Word t ∧ t ∉ L.keys) → Words E i ts →
    Loose.Items E R fin L ts.length ⟨m, o, i⟩ ⟨m + ts.length, fillF ((L.ps.drop m).take ts.length) vs o, i + ts.length⟩ := by
  intro ts
  induction ts with
  | nil => intro vs m i o _ _ _; exact .nil
  | cons t ts ih =>
    intro vs m i o hwr hword hws
    cases hd : L.ps.drop m with
    | nil => rw [hd] at hwr; cases hwr
    | cons p ps =>
      rw [hd, List.length_cons, List.take_succ_cons, List.map_cons] at hwr
      cases hwr with
      | cons hv hs =>
        rename_i v vs
        have hp : L.ps[m]? = some p := by
          have := congrArg List.head? hd
          simpa [List.head?_drop] using this
        have hdr : L.ps.drop (m + 1) = ps := by
          rw [← List.tail_drop, hd]; rfl
        have hw := hword t (by simp)
        obtain ⟨h1, h2⟩ := words_tail hws
        have := ih vs (m + 1) (i + 1) ((o.set p.field v).set p.flag (.bool true)) (by rw [hdr]; exact hs)
          (fun t ht => hword t (by simp [ht])) h2
        rw [hdr] at this
        rw [List.length_cons, show i + (ts.length + 1) = i + 1 + ts.length by omega, show m + (ts.length + 1) = m + 1 + ts.length by omega,
          List.take_succ_cons]
        exact .cons (.param hp h1 hw.1.1 (fun hh => hw.1.2 (hh ▸ hk)) hw.2 hw.1.2 hv) this

/-- C95 is false also of the blocks with functions of their own: each may be closed after any number of its parameters and is accepted; the
parameters that are missing have the zero value. -/
theorem C95_irregular {E : Env} (hw : Wf E) {B : Irr} (hB : B ∈ irrs) {ws : List Str} {vals : List Val} (hl : ws.length ≤ B.ps.length)
    (hh : Written E ((B.ps.take ws.length).map (·.kind)) ws vals) (hword : ∀ t ∈ ws, BWord B t) {i : Nat} (htx : Words E i (ws ++ [B.fin])) :
    ∃ o : Obj, Returns E B.p i (.ok (i + ws.length + 1) (.obj o) false) ∧ ∀ (k : Nat) (q : Param), B.ps[k]? = some q →
      if k < ws.length then vals[k]? = some (o q.field) else o q.field = .zero := by
  obtain ⟨h1, h2⟩ := words_append.1 htx
  have hi := prefix_items (E := E) (R := Succeeds E) (L := B.spec E) (irrs_names B hB).1 ws vals 0 i Obj.empty hh hword h1
  refine ⟨_, irr_reads hw hB ⟨_, _, _, _, hi, h2 0 _ rfl, rfl, rfl⟩, fun k q hq => ?_⟩
  show if _ then _ = some (B.close _ q.field) else B.close _ q.field = _
  rw [irrs_close B hB _ q (List.mem_of_getElem? hq)]
  have hn := (irrs_names B hB).2
  have hps : (B.spec E).ps = B.ps := rfl
  rw [hps, List.drop_zero]
  have hsub : ∀ p ∈ B.ps.take ws.length, p ∈ B.ps := fun p hp => List.mem_of_mem_take hp
  split
  · rename_i hk
    have hn' : Names (B.ps.take ws.length) := by
      refine ⟨?_, ?_, fun p hp hh => hn.disj p (hsub p hp) ?_⟩
      · exact hn.fields.sublist ((List.take_sublist _ _).map _)
      · exact hn.flags.sublist ((List.take_sublist _ _).map _)
      · obtain ⟨r, hr, e⟩ := List.mem_map.1 hh
        exact List.mem_map.2 ⟨r, hsub r hr, e⟩
    exact fillF_get (B.ps.take ws.length) vals Obj.empty hn' (by simpa using (written_length hh).2) k q (by rw [List.getElem?_take, if_pos hk]; exact hq)
  · rename_i hk
    rw [fillF_other _ _ _ fun p hp => ?_]
    · rfl
    refine ⟨fun e => ?_, fun e => hn.disj q (List.mem_of_getElem? hq) (e ▸ List.mem_map.2 ⟨p, hsub p hp, rfl⟩)⟩
    obtain ⟨m, hm, rfl⟩ := List.getElem_of_mem hp
    have hm' : m < ws.length ∧ m < B.ps.length := by rw [List.length_take] at hm; omega
    have hkl := (List.getElem?_eq_some_iff.1 hq)
    have e1 : (B.ps.map (·.field))[k]? = (B.ps.map (·.field))[m]? := by
      simp only [List.getElem?_map, hq, List.getElem?_eq_getElem hm'.2, Option.map_some]
      rw [e, List.getElem_take]
    have := (List.getElem?_inj (by simpa using hkl.1) hn.fields).1 e1
    omega

/-- A MEMORY_SEGMENT closed behind its long identifier. -/
example : ∃ o : Obj, Returns (tabEnv ((str! "/begin MEMORY_SEGMENT") :: ([(str! "S"), (str! "\"text\"")] ++ [(str! "/end MEMORY_SEGMENT")])))
    .parseMemorySegment 0 (.ok 3 (.obj o) false) ∧ o "name" = .str (str! "S") ∧ o "address" = .zero := by
  obtain ⟨o, h1, h2⟩ := C95_irregular (B := memorySegment) (ws := [(str! "S"), (str! "\"text\"")]) (vals := [.str (str! "S"), .str (str! "\"text\"")]) (i := 0)
    (tabEnv_wf (ts := (str! "/begin MEMORY_SEGMENT") :: ([(str! "S"), (str! "\"text\"")] ++ [(str! "/end MEMORY_SEGMENT")])) (by decide))
    (by simp [irrs]) (by decide) (.cons rfl (.cons rfl .nil)) (by decide +kernel) (words_self _ _)
  exact ⟨o, h1, (Option.some.inj (h2 0 _ rfl)).symm, h2 5 _ rfl⟩

end Verif.A2l.Props
