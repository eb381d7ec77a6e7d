import Verif.A2l.LooseTab

/-!
C48 continued: the contents of the conversion tables.
-/

namespace Verif.A2l.Loose
open Verif.Go Verif.A2l Lang Decl Analysis Template

variable {E : Env} {R : Calls} {fin : Str} {L : Spec}

/-- A token that is neither the end of the file nor a keyword. -/
def Word (t : Str) : Prop := t ≠ [] ∧ t ∉ keywords

instance (t : Str) : Decidable (Word t) := inferInstanceAs (Decidable (_ ∧ _))

/-- The closing token and the first tokens of the optional parts are keywords. -/
structure Keyed (fin : Str) (L : Spec) : Prop where
  fin : fin ∈ keywords
  keys : ∀ k ∈ L.keys, k ∈ keywords

/-- The parameters `ps` with values `vs` put into a struct, with their markers. -/
def fillF : List Param → List Val → Obj → Obj
  | p :: ps, v :: vs, o => fillF ps vs ((o.set p.field v).set p.flag (.bool true))
  | _, _, o => o

theorem Items.append {k l : Nat} {x y z : Decl.Pos} (h : Items E R fin L k x y) (h' : Items E R fin L l y z) :
    Items E R fin L (k + l) x z := by
  induction h with
  | nil => simpa using h'
  | cons hi _ ih => rw [Nat.add_right_comm]; exact .cons hi (ih h')

theorem words_tail {i : Nat} {w : Str} {ws : List Str} (h : Props.Words E i (w :: ws)) :
    TokAfter E i w ∧ Props.Words E (i + 1) ws := ⟨h 0 w rfl, h.tail⟩

theorem words_append {i : Nat} : ∀ {ws vs : List Str}, Props.Words E i (ws ++ vs) ↔
    Props.Words E i ws ∧ Props.Words E (i + ws.length) vs := by
  intro ws vs
  constructor
  · intro h
    refine ⟨fun j w hj => ?_, fun j w hj => ?_⟩
    · exact h j w (by rw [List.getElem?_append_left (List.getElem?_eq_some_iff.1 hj).1]; exact hj)
    · have := h (ws.length + j) w (by rw [List.getElem?_append_right (by omega)]; simpa using hj)
      rw [Nat.add_assoc]; exact this
  · rintro ⟨h1, h2⟩ j w hj
    by_cases hl : j < ws.length
    · rw [List.getElem?_append_left hl] at hj; exact h1 j w hj
    · rw [List.getElem?_append_right (by omega)] at hj
      have := h2 (j - ws.length) w hj
      rw [show i + ws.length + (j - ws.length) = i + j by omega] at this
      exact this

/-- The parameters written in order are items of the block. -/
theorem params_items' (hk : fin ∈ keywords) : ∀ (ts : List Str) (vs : List Val) (m i : Nat) (o : Obj), m ≤ L.ps.length →
    Written E ((L.ps.drop m).map (·.kind)) ts vs → (∀ t ∈ ts, Word t ∧ t ∉ L.keys) → Props.Words E i ts →
    Items E R fin L ts.length ⟨m, o, i⟩ ⟨L.ps.length, fillF (L.ps.drop m) vs o, i + ts.length⟩ := by
  intro ts
  induction ts with
  | nil =>
    intro vs m i o hm hwr _ _
    have : L.ps.drop m = [] := by
      cases hd : L.ps.drop m with
      | nil => rfl
      | cons p ps => rw [hd, List.map_cons] at hwr; cases hwr
    have hml : m = L.ps.length := by rw [List.drop_eq_nil_iff] at this; omega
    subst hml
    rw [this]
    exact .nil
  | cons t ts ih =>
    intro vs m i o hm hwr hword hws
    cases hd : L.ps.drop m with
    | nil => rw [hd] at hwr; cases hwr
    | cons p ps =>
      rw [hd, List.map_cons] at hwr
      cases hwr with
      | cons hv hs =>
        rename_i v vs
        have hlt : m < L.ps.length := by
          rcases Nat.lt_or_ge m L.ps.length with h | h
          · exact h
          · rw [List.drop_of_length_le h] at hd; cases hd
        have hp : L.ps[m]? = some p := by
          have := congrArg List.head? hd
          simpa [List.head?_drop] using this
        have hdr : L.ps.drop (m + 1) = ps := by
          rw [← List.tail_drop, hd]; rfl
        have hw := hword t (by simp)
        obtain ⟨h1, h2⟩ := words_tail hws
        have := ih vs (m + 1) (i + 1) ((o.set p.field v).set p.flag (.bool true)) hlt (by rw [hdr]; exact hs)
          (fun t ht => hword t (by simp [ht])) h2
        rw [hdr] at this
        rw [List.length_cons, show i + (ts.length + 1) = i + 1 + ts.length by omega]
        exact .cons (.param hp h1 hw.1.1 (fun hh => hw.1.2 (hh ▸ hk)) hw.2 hw.1.2 hv) this

theorem params_items (hk : Keyed fin L) (ts : List Str) (vs : List Val) (m i : Nat) (o : Obj) (hm : m ≤ L.ps.length)
    (h : Written E ((L.ps.drop m).map (·.kind)) ts vs) (hw : ∀ t ∈ ts, Word t) (hws : Props.Words E i ts) :
    Items E R fin L ts.length ⟨m, o, i⟩ ⟨L.ps.length, fillF (L.ps.drop m) vs o, i + ts.length⟩ :=
  params_items' hk.fin ts vs m i o hm h (fun t ht => ⟨hw t ht, fun hh => (hw t ht).2 (hk.keys _ hh)⟩) hws

/-! ### Rows of a table -/

/-- All columns are complete. -/
abbrev Full (T : Table) (o : Obj) : Prop := ∀ c ∈ T.cols, o.flag c.flag = true

/-- The effect of a row. -/
def readRow (T : Table) (o : Obj) (vs : List Val) : Obj := if Full T o then o else rowObj T.num o T.cols vs

theorem surplus_items {T : Table} (hk : Keyed T.fin (T.spec E)) {o : Obj} (hf : Full T o) : ∀ (ts : List Str) (i : Nat),
    (∀ t ∈ ts, Word t) → Props.Words E i ts →
    Items E R T.fin (T.spec E) ts.length ⟨T.ps.length, o, i⟩ ⟨T.ps.length, o, i + ts.length⟩ := by
  intro ts
  induction ts with
  | nil => intro i _ _; exact .nil
  | cons t ts ih =>
    intro i hword hws
    obtain ⟨h1, h2⟩ := words_tail hws
    have hw := hword t (by simp)
    have := ih (i + 1) (fun t ht => hword t (by simp [ht])) h2
    rw [List.length_cons, show i + (ts.length + 1) = i + 1 + ts.length by omega]
    refine .cons (.rest (L := T.spec E) rfl h1 hw.1 (fun hh => hw.2 (hh ▸ hk.fin)) (fun hh => hw.2 (hk.keys _ hh)) hw.2 ?_) this
    simp only [Table.spec]
    rw [if_pos hf]
    simp

/-- Rows written one after the other are items of the table. -/
theorem rows_items {T : Table} (hk : Keyed T.fin (T.spec E)) (hc : T.cols ≠ []) : ∀ (rows : List (List Str × List Val)) (i : Nat) (o : Obj),
    (∀ r ∈ rows, Written E (T.cols.map (·.kind)) r.1 r.2) → (∀ r ∈ rows, ∀ t ∈ r.1, Word t) →
    Props.Words E i (rows.map (·.1)).flatten →
    ∃ k, Items E R T.fin (T.spec E) k ⟨T.ps.length, o, i⟩
      ⟨T.ps.length, (rows.map (·.2)).foldl (readRow T) o, i + (rows.map (·.1)).flatten.length⟩ := by
  intro rows
  induction rows with
  | nil => intro i o _ _ _; exact ⟨0, .nil⟩
  | cons r rows ih =>
    intro i o hwr hword hws
    obtain ⟨ts, vs⟩ := r
    simp only [List.map_cons, List.flatten_cons] at hws
    obtain ⟨h1, h2⟩ := words_append.1 hws
    have hrw := hwr (ts, vs) (by simp)
    have hrd := hword (ts, vs) (by simp)
    simp only at hrw hrd
    obtain ⟨k, hk'⟩ := ih (i + ts.length) (readRow T o vs) (fun r hr => hwr r (by simp [hr])) (fun r hr => hword r (by simp [hr])) h2
    simp only [List.map_cons, List.foldl_cons, List.flatten_cons, List.length_append, ← Nat.add_assoc]
    by_cases hf : Full T o
    · have e : readRow T o vs = o := by rw [readRow, if_pos hf]
      rw [e] at hk' ⊢
      exact ⟨_, (surplus_items hk hf ts i hrd h1).append hk'⟩
    · have e : readRow T o vs = rowObj T.num o T.cols vs := by rw [readRow, if_neg hf]
      rw [e] at hk' ⊢
      cases hcs : T.cols with
      | nil => exact absurd hcs hc
      | cons c cs =>
        cases ts with
        | nil => rw [hcs, List.map_cons] at hrw; cases hrw
        | cons t us =>
          obtain ⟨g1, g2⟩ := words_tail h1
          have hw := hrd t (by simp)
          refine ⟨k + 1, .cons (.rest (L := T.spec E) rfl g1 hw.1 (fun hh => hw.2 (hh ▸ hk.fin))
            (fun hh => hw.2 (hk.keys _ hh)) hw.2 (o' := rowObj T.num o T.cols vs) (j := i + (t :: us).length) ?_) (by rw [hcs] at hk' ⊢; exact hk')⟩
          simp only [Table.spec]
          rw [if_neg hf]
          exact ⟨us, vs, g2, hrw, by simp only [List.length_cons]; omega, rfl⟩

/-- The number of rows a table with `d` declared rows reads at most. For 0 this is 65536: the
test for completeness is made after a row has been read, and with 16 bits. -/
def limit (d : Nat) : Nat := if d = 0 then 65536 else d

/-- The names of the columns are different from each other. -/
structure ColsOk (T : Table) : Prop where
  fields : (T.cols.map (·.field)).Nodup
  flags : (T.cols.map (·.flag)).Nodup
  disj : ∀ c ∈ T.cols, c.field ∉ T.cols.map (·.flag)
  num : T.num ∉ T.cols.map (·.field) ∧ T.num ∉ T.cols.map (·.flag)

instance (T : Table) : Decidable (ColsOk T) :=
  decidable_of_iff ((T.cols.map (·.field)).Nodup ∧ (T.cols.map (·.flag)).Nodup ∧ (∀ c ∈ T.cols, c.field ∉ T.cols.map (·.flag)) ∧
    (T.num ∉ T.cols.map (·.field) ∧ T.num ∉ T.cols.map (·.flag))) ⟨fun ⟨a, b, c, d⟩ => ⟨a, b, c, d⟩, fun ⟨a, b, c, d⟩ => ⟨a, b, c, d⟩⟩

theorem rowObj_get {num : String} : ∀ (cs : List Col) (vs : List Val) (o : Obj), (cs.map (·.field)).Nodup → (cs.map (·.flag)).Nodup →
    (∀ c ∈ cs, c.field ∉ cs.map (·.flag)) → num ∉ cs.map (·.field) → num ∉ cs.map (·.flag) → vs.length = cs.length →
    ∀ (k : Nat) (c : Col) (v : Val), cs[k]? = some c → vs[k]? = some v →
      (rowObj num o cs vs).list c.field = o.list c.field ++ [v] ∧
      (rowObj num o cs vs).flag c.flag = (decide (((((o.list c.field).length + 1) % 65536 : Nat) : Int) = o.int num) || o.flag c.flag)
  | [], _, o, _, _, _, _, _, _, k, c, v, hc, _ => by simp at hc
  | d :: cs, [], o, _, _, _, _, _, hl, k, c, v, hc, hv => by simp at hv
  | d :: cs, w :: vs, o, hn1, hn2, hd, hf1, hf2, hl, k, c, v, hc, hv => by
    simp only [List.map_cons, List.nodup_cons] at hn1 hn2
    simp only [List.map_cons, List.mem_cons, not_or] at hf1 hf2
    rw [rowObj]
    cases k with
    | zero =>
      simp only [List.getElem?_cons_zero, Option.some.injEq] at hc hv
      subst hc hv
      have h1 : ∀ c' ∈ cs, d.field ≠ c'.field ∧ d.field ≠ c'.flag := fun c' hc' =>
        ⟨fun hh => hn1.1 (List.mem_map.2 ⟨c', hc', hh.symm⟩),
         fun hh => hd d (by simp) (by simp only [List.map_cons, List.mem_cons]; exact Or.inr (List.mem_map.2 ⟨c', hc', hh.symm⟩))⟩
      have h2 : ∀ c' ∈ cs, d.flag ≠ c'.field ∧ d.flag ≠ c'.flag := fun c' hc' =>
        ⟨fun hh => hd c' (by simp [hc']) (by simp [hh]),
         fun hh => hn2.1 (List.mem_map.2 ⟨c', hc', hh.symm⟩)⟩
      have hne : d.field ≠ d.flag := fun hh => hd d (by simp) (by simp [hh])
      constructor
      · rw [Obj.list, rowObj_other cs vs _ h1]
        unfold cell
        by_cases hx : (((o.list d.field).length + 1) % 65536 : Nat) = o.int num
        · rw [if_pos hx]; simp [Obj.set, hne]
        · rw [if_neg hx]; simp [Obj.set]
      · rw [Obj.flag, rowObj_other cs vs _ h2]
        unfold cell
        by_cases hx : (((o.list d.field).length + 1) % 65536 : Nat) = o.int num
        · rw [if_pos hx]; simp [Obj.set, hx]
        · rw [if_neg hx, decide_eq_false hx]; simp [Obj.set, hne.symm, Obj.flag]
    | succ k =>
      simp only [List.getElem?_cons_succ] at hc hv
      have hcm := List.mem_of_getElem? hc
      have ih := rowObj_get cs vs (cell o d.field d.flag num w) hn1.2 hn2.2
        (fun c' hc' hh => hd c' (by simp [hc']) (by simp only [List.map_cons, List.mem_cons]; exact Or.inr hh)) hf1.2 hf2.2
        (by simpa using hl) k c v hc hv
      have e1 : c.field ≠ d.field := fun hh => hn1.1 (List.mem_map.2 ⟨c, hcm, hh⟩)
      have e2 : c.field ≠ d.flag := fun hh => hd c (by simp [hcm]) (by simp [hh])
      have e3 : c.flag ≠ d.field := fun hh => hd d (by simp) (by
        simp only [List.map_cons, List.mem_cons]; exact Or.inr (List.mem_map.2 ⟨c, hcm, hh⟩))
      have e4 : c.flag ≠ d.flag := fun hh => hn2.1 (List.mem_map.2 ⟨c, hcm, hh⟩)
      have g1 : (cell o d.field d.flag num w).list c.field = o.list c.field := by simp [Obj.list, cell_other o w e1 e2]
      have g2 : (cell o d.field d.flag num w).flag c.flag = o.flag c.flag := by simp [Obj.flag, cell_other o w e3 e4]
      have g3 : (cell o d.field d.flag num w).int num = o.int num := by simp [Obj.int, cell_other o w hf1.1 hf2.1]
      rw [g1, g2, g3] at ih
      exact ih

/-- `l` rows of a table with `d` declared rows have been read. -/
structure RowsRead (T : Table) (d l : Nat) (o : Obj) : Prop where
  num : o.int T.num = d
  len : ∀ c ∈ T.cols, (o.list c.field).length = l
  flag : ∀ c ∈ T.cols, o.flag c.flag = decide (l = limit d)
  le : l ≤ limit d

theorem written_length {ks : List Kind} {ts : List Str} {vs : List Val} (h : Written E ks ts vs) :
    ts.length = ks.length ∧ vs.length = ks.length := by
  induction h with
  | nil => exact ⟨rfl, rfl⟩
  | cons _ _ ih => simp [ih.1, ih.2]

theorem RowsRead.row {T : Table} (hT : ColsOk T) (hc : T.cols ≠ []) {d l : Nat} (hd : d < 65536) {o : Obj} (h : RowsRead T d l o)
    {vs : List Val} (hl : vs.length = T.cols.length) :
    RowsRead T d (min (l + 1) (limit d)) (readRow T o vs) ∧
    ∀ (k : Nat) (c : Col) (v : Val), T.cols[k]? = some c → vs[k]? = some v →
      (readRow T o vs).list c.field = o.list c.field ++ (if l < limit d then [v] else []) := by
  by_cases hf : Full T o
  · have e : readRow T o vs = o := by rw [readRow, if_pos hf]
    have hll : l = limit d := by
      cases hcs : T.cols with
      | nil => exact absurd hcs hc
      | cons c cs =>
        have h1 := hf c (by rw [hcs]; simp)
        rw [h.flag c (by rw [hcs]; simp)] at h1
        exact of_decide_eq_true h1
    rw [e, show min (l + 1) (limit d) = l by omega]
    refine ⟨h, fun k c v _ _ => ?_⟩
    rw [if_neg (by omega)]
    simp
  · have e : readRow T o vs = rowObj T.num o T.cols vs := by rw [readRow, if_neg hf]
    have hlt : l < limit d := by
      rcases Nat.lt_or_ge l (limit d) with h1 | h1
      · exact h1
      · exfalso
        apply hf
        intro c hcm
        rw [h.flag c hcm]
        have := h.le
        simp only [decide_eq_true_eq]
        omega
    rw [e, show min (l + 1) (limit d) = l + 1 by omega]
    have key := rowObj_get (num := T.num) T.cols vs o hT.fields hT.flags hT.disj hT.num.1 hT.num.2 hl
    have hv : ∀ c ∈ T.cols, ∃ (k : Nat) (v : Val), T.cols[k]? = some c ∧ vs[k]? = some v := by
      intro c hcm
      obtain ⟨k, hk, rfl⟩ := List.getElem_of_mem hcm
      exact ⟨k, vs[k]'(by omega), by simp [hk], by simp⟩
    refine ⟨⟨?_, ?_, ?_, by omega⟩, ?_⟩
    · have : (rowObj T.num o T.cols vs) T.num = o T.num := rowObj_other _ _ _ fun c hcm =>
        ⟨fun hh => hT.num.1 (List.mem_map.2 ⟨c, hcm, hh.symm⟩), fun hh => hT.num.2 (List.mem_map.2 ⟨c, hcm, hh.symm⟩)⟩
      rw [Obj.int, this]
      exact h.num
    · intro c hcm
      obtain ⟨k, v, h1, h2⟩ := hv c hcm
      rw [(key k c v h1 h2).1]
      simp [h.len c hcm]
    · intro c hcm
      obtain ⟨k, v, h1, h2⟩ := hv c hcm
      rw [(key k c v h1 h2).2, h.len c hcm, h.flag c hcm, h.num]
      have : decide (l = limit d) = false := by simp; omega
      rw [this, Bool.or_false, decide_eq_decide]
      unfold limit at hlt ⊢
      split at hlt <;> split <;> omega
    · intro k c v h1 h2
      rw [(key k c v h1 h2).1, if_pos hlt]

/-- Column `k` of the rows. -/
def column (k : Nat) (rows : List (List Val)) : List Val := rows.filterMap (·[k]?)

theorem readRows_get {T : Table} (hT : ColsOk T) (hc : T.cols ≠ []) {d : Nat} (hd : d < 65536) : ∀ (rows : List (List Val)) (l : Nat) (o : Obj),
    RowsRead T d l o → (∀ vs ∈ rows, vs.length = T.cols.length) →
    RowsRead T d (min (l + rows.length) (limit d)) (rows.foldl (readRow T) o) ∧
    ∀ (k : Nat) (c : Col), T.cols[k]? = some c →
      (rows.foldl (readRow T) o).list c.field = o.list c.field ++ column k (rows.take (limit d - l)) := by
  intro rows
  induction rows with
  | nil =>
    intro l o h _
    have := h.le
    rw [List.length_nil, show min (l + 0) (limit d) = l by omega]
    exact ⟨h, fun k c _ => by simp [column]⟩
  | cons vs rows ih =>
    intro l o h hlen
    obtain ⟨h1, h2⟩ := h.row hT hc hd (hlen vs (by simp))
    obtain ⟨h3, h4⟩ := ih _ _ h1 (fun v hv => hlen v (by simp [hv]))
    rw [List.foldl_cons]
    refine ⟨?_, fun k c hk => ?_⟩
    · have e : min (min (l + 1) (limit d) + rows.length) (limit d) = min (l + (vs :: rows).length) (limit d) := by
        simp only [List.length_cons]; omega
      rw [← e]; exact h3
    · have hkl : k < vs.length := by rw [hlen vs (by simp)]; exact (List.getElem?_eq_some_iff.1 hk).1
      rw [h4 k c hk, h2 k c vs[k] hk (List.getElem?_eq_getElem hkl)]
      by_cases hl : l < limit d
      · rw [if_pos hl, show limit d - l = (limit d - (l + 1)) + 1 by omega, List.take_succ_cons,
          show min (l + 1) (limit d) = l + 1 by omega]
        simp [column, List.getElem?_eq_getElem hkl]
      · have := h.le
        rw [if_neg hl, show limit d - l = 0 by omega, show min (l + 1) (limit d) = limit d by omega]
        simp [column]

theorem fillF_other {f : String} : ∀ (ps : List Param) (vs : List Val) (o : Obj), (∀ p ∈ ps, f ≠ p.field ∧ f ≠ p.flag) →
    fillF ps vs o f = o f
  | [], _, o, _ => by simp [fillF]
  | _ :: _, [], o, _ => by simp [fillF]
  | p :: ps, v :: vs, o, h => by
    rw [fillF, fillF_other ps vs _ (fun q hq => h q (by simp [hq]))]
    have := h p (by simp)
    simp [Obj.set, this.1, this.2]

/-- The fields and markers of the parameters are different names. -/
structure Names (ps : List Param) : Prop where
  fields : (ps.map (·.field)).Nodup
  flags : (ps.map (·.flag)).Nodup
  disj : ∀ p ∈ ps, p.field ∉ ps.map (·.flag)

instance (ps : List Param) : Decidable (Names ps) :=
  decidable_of_iff ((ps.map (·.field)).Nodup ∧ (ps.map (·.flag)).Nodup ∧ (∀ p ∈ ps, p.field ∉ ps.map (·.flag)))
    ⟨fun ⟨a, b, c⟩ => ⟨a, b, c⟩, fun ⟨a, b, c⟩ => ⟨a, b, c⟩⟩

theorem Names.tail {p : Param} {ps : List Param} (h : Names (p :: ps)) : Names ps :=
  ⟨(List.nodup_cons.1 h.fields).2, (List.nodup_cons.1 h.flags).2,
    fun q hq hh => h.disj q (by simp [hq]) (by simp only [List.map_cons, List.mem_cons]; exact Or.inr hh)⟩

/-- After the parameters each field has its value. -/
theorem fillF_get : ∀ (ps : List Param) (vs : List Val) (o : Obj), Names ps → vs.length = ps.length →
    ∀ (k : Nat) (p : Param), ps[k]? = some p → vs[k]? = some (fillF ps vs o p.field)
  | [], _, o, _, _, k, p, hp => by simp at hp
  | _ :: _, [], o, _, hl, k, p, hp => by simp at hl
  | q :: ps, v :: vs, o, hn, hl, k, p, hp => by
    rw [fillF]
    cases k with
    | zero =>
      simp only [List.getElem?_cons_zero, Option.some.injEq] at hp
      subst hp
      have h1 := (List.nodup_cons.1 hn.fields).1
      have h2 := hn.disj q (by simp)
      simp only [List.map_cons, List.mem_cons, not_or] at h2
      rw [fillF_other ps vs _ (fun r hr => ⟨fun hh => h1 (List.mem_map.2 ⟨r, hr, hh.symm⟩),
        fun hh => h2.2 (List.mem_map.2 ⟨r, hr, hh.symm⟩)⟩)]
      simp [Obj.set, h2.1]
    | succ k =>
      simp only [List.getElem?_cons_succ] at hp ⊢
      exact fillF_get ps vs _ hn.tail (by simpa using hl) k p hp

/-- The three kinds of conversion tables. -/
def tableKinds : List Table := [compuTab, compuVtab, compuVtabRange]

/-- What the names in a table have to satisfy. -/
structure Table.NamesOk (T : Table) : Prop where
  cols : ColsOk T
  some : T.cols ≠ []
  ps : Names T.ps
  apart : ∀ c ∈ T.cols, ∀ p ∈ T.ps, c.field ≠ p.field ∧ c.field ≠ p.flag ∧ c.flag ≠ p.field ∧ c.flag ≠ p.flag
  fin : T.fin ∈ keywords
  keys : ∀ x ∈ T.subs, x.1 ∈ keywords
  last : ∃ q ∈ T.ps.getLast?, q.field = T.num ∧ q.kind = .uint 16

theorem tableKinds_ok : ∀ T ∈ tableKinds, T.NamesOk := by
  intro T hT
  simp only [tableKinds, List.mem_cons, List.not_mem_nil, or_false] at hT
  rcases hT with rfl | rfl | rfl
  · exact ⟨by decide +kernel, by decide +kernel, by decide +kernel, by decide +kernel, by decide +kernel, by decide +kernel,
      ⟨⟨"NumberValuePairs", "NumberValuePairsSet", .uint 16⟩, rfl, rfl, rfl⟩⟩
  · exact ⟨by decide +kernel, by decide +kernel, by decide +kernel, by decide +kernel, by decide +kernel, by decide +kernel,
      ⟨⟨"NumberValuePairs", "NumberValuePairsSet", .uint 16⟩, rfl, rfl, rfl⟩⟩
  · exact ⟨by decide +kernel, by decide +kernel, by decide +kernel, by decide +kernel, by decide +kernel, by decide +kernel,
      ⟨⟨"NumberValueTriples", "NumberValueTriplesSet", .uint 16⟩, rfl, rfl, rfl⟩⟩

theorem table_reads {T : Table} (hT : T ∈ tableKinds) (hw : Wf E) (hfl : E.floatOk [] = false) {i i' : Nat} {o : Obj}
    (h : Block E T.fin (T.spec E) i i' o) : Returns E T.p i (.ok i' (.obj o) false) := by
  simp only [tableKinds, List.mem_cons, List.not_mem_nil, or_false] at hT
  rcases hT with rfl | rfl | rfl
  · exact reads_all hw (follows_compuTab hw) (by decide) (compuTab_body E) h
  · exact reads_all hw (follows_compuVtab hw) (by decide) (compuVtab_body E) h
  · exact reads_all hw (follows_compuVtabRange hw hfl) (by decide) (compuVtabRange_body E) h

theorem table_only {T : Table} (hT : T ∈ tableKinds) (hw : Wf E) (hfl : E.floatOk [] = false) {i i' : Nat} {v : Val}
    (h : Returns E T.p i (.ok i' v false)) : ∃ o, v = .obj o ∧ Block E T.fin (T.spec E) i i' o := by
  simp only [tableKinds, List.mem_cons, List.not_mem_nil, or_false] at hT
  rcases hT with rfl | rfl | rfl
  · exact reads_only hw (follows_compuTab hw) (by decide) (compuTab_body E) h
  · exact reads_only hw (follows_compuVtab hw) (by decide) (compuVtab_body E) h
  · exact reads_only hw (follows_compuVtabRange hw hfl) (by decide) (compuVtabRange_body E) h

theorem table_rejects {T : Table} (hT : T ∈ tableKinds) (hw : Wf E) (hfl : E.floatOk [] = false) {i k : Nat} {x : Decl.Pos}
    (hi : Items E (Succeeds E) T.fin (T.spec E) k ⟨0, Obj.empty, i⟩ x) {t : Str} (ht : TokAfter E x.i t) (h1 : t ∈ keywords)
    (h2 : t ≠ T.fin) (h3 : t ∉ T.subs.map (·.1)) : ∃ i' v, Returns E T.p i (.ok i' v true) := by
  simp only [tableKinds, List.mem_cons, List.not_mem_nil, or_false] at hT
  rcases hT with rfl | rfl | rfl
  · exact rejects hw (follows_compuTab hw) (by decide) (compuTab_body E) hi ht h1 h2 h3
  · exact rejects hw (follows_compuVtab hw) (by decide) (compuVtab_body E) hi ht h1 h2 h3
  · exact rejects hw (follows_compuVtabRange hw hfl) (by decide) (compuVtabRange_body E) hi ht h1 h2 h3

end Verif.A2l.Loose

namespace Verif.A2l.Props
open Verif.Go Verif.A2l Lang Decl Analysis Loose

/-- C48, contents: a table written as its parameters `hdr` (values `vals`, the last of which is
the declared number `d` of rows), then rows of words, then the closing token, is read without
error. Each parameter is in its field, and column `k` consists of the `k`-th values of the rows, in
order: of the first `d` rows if `d` is not 0, of the first 65536 otherwise. `E.floatOk []` is
`strconv.ParseFloat("", 64)`, which fails. -/
theorem C48_content {E : Env} (hw : Wf E) (hfl : E.floatOk [] = false) {T : Table} (hT : T ∈ tableKinds)
    {hdr : List Str} {vals : List Val} (hh : Written E (T.ps.map (·.kind)) hdr vals) {d : Nat} (hd : vals.getLast? = some (.int d))
    {rows : List (List Str × List Val)} (hr : ∀ r ∈ rows, Written E (T.cols.map (·.kind)) r.1 r.2)
    (hword : ∀ t ∈ hdr ++ (rows.map (·.1)).flatten, Word t)
    {i : Nat} (hws : Words E i (hdr ++ (rows.map (·.1)).flatten ++ [T.fin])) :
    ∃ o : Obj, Returns E T.p i (.ok (i + hdr.length + (rows.map (·.1)).flatten.length + 1) (.obj o) false) ∧
      (∀ (k : Nat) (p : Param), T.ps[k]? = some p → vals[k]? = some (o p.field)) ∧
      ∀ (k : Nat) (c : Col), T.cols[k]? = some c →
        o.list c.field = column k ((rows.map (·.2)).take (if d = 0 then 65536 else d)) := by
  have ok := tableKinds_ok T hT
  have hk : Keyed T.fin (T.spec E) := ⟨ok.fin, fun k hk => by
    simp only [Table.spec, List.mem_map] at hk
    obtain ⟨x, hx, rfl⟩ := hk
    exact ok.keys x hx⟩
  obtain ⟨hws1, hfin⟩ := words_append.1 hws
  obtain ⟨hws1, hws2⟩ := words_append.1 hws1
  have hfin := hfin 0 _ rfl
  rw [List.length_append, ← Nat.add_assoc] at hfin
  have hlen := written_length hh
  simp only [List.length_map] at hlen
  have hps : (T.spec E).ps = T.ps := rfl
  have hp := params_items (R := Succeeds E) hk hdr vals 0 i Obj.empty (by omega) (by rw [hps]; simpa using hh)
    (fun t ht => hword t (by simp [ht])) hws1
  simp only [hps, List.drop_zero] at hp
  obtain ⟨k, hrows⟩ := rows_items (R := Succeeds E) hk ok.some rows (i + hdr.length) (fillF T.ps vals Obj.empty) hr
    (fun r hr' t ht => hword t (by
      simp only [List.mem_append, List.mem_flatten, List.mem_map]
      exact Or.inr ⟨r.1, ⟨r, hr', rfl⟩, ht⟩)) hws2
  refine ⟨_, table_reads hT hw hfl ⟨_, _, _, _, hp.append hrows, hfin, rfl, rfl⟩, ?_, ?_⟩
  all_goals
    have hget := fillF_get T.ps vals Obj.empty ok.ps hlen.2
    obtain ⟨q, hq, hqf, hqk⟩ := ok.last
    have hqi : T.ps[T.ps.length - 1]? = some q := by rw [← List.getLast?_eq_getElem?]; exact hq
    have hqv : vals[T.ps.length - 1]? = some (.int d) := by rw [← hd, List.getLast?_eq_getElem?, hlen.2]
    have hnum : fillF T.ps vals Obj.empty T.num = .int d := by
      have := hget _ q hqi
      rw [hqv, hqf] at this
      exact (Option.some.inj this).symm
    have hd16 : d < 65536 := by
      have : ∀ (ks : List Kind) (ts : List Str) (vs : List Val), Written E ks ts vs → ∀ (k : Nat), ks[k]? = some (.uint 16) →
          vs[k]? = some (.int d) → d < 65536 := by
        intro ks ts vs h
        induction h with
        | nil => intro k hk; simp at hk
        | cons hv _ ih =>
          intro k hk hkv
          cases k with
          | zero =>
            simp only [List.getElem?_cons_zero, Option.some.injEq] at hk hkv
            subst hk hkv
            obtain ⟨n, _, hn, he⟩ := hv
            have : (d : Int) = n := by injection he
            omega
          | succ k => exact ih k (by simpa using hk) (by simpa using hkv)
      exact this _ _ _ hh (T.ps.length - 1) (by rw [List.getElem?_map, hqi]; simp [hqk]) hqv
    have h0 : RowsRead T d 0 (fillF T.ps vals Obj.empty) := by
      have hoth : ∀ c ∈ T.cols, fillF T.ps vals Obj.empty c.field = Obj.empty c.field ∧
          fillF T.ps vals Obj.empty c.flag = Obj.empty c.flag := fun c hc =>
        ⟨fillF_other _ _ _ fun p hp => ⟨(ok.apart c hc p hp).1, (ok.apart c hc p hp).2.1⟩,
         fillF_other _ _ _ fun p hp => ⟨(ok.apart c hc p hp).2.2.1, (ok.apart c hc p hp).2.2.2⟩⟩
      refine ⟨by rw [Obj.int, hnum], fun c hc => by rw [Obj.list, (hoth c hc).1]; rfl, fun c hc => ?_, by omega⟩
      rw [Obj.flag, (hoth c hc).2]
      have : limit d ≠ 0 := by unfold limit; split <;> omega
      simp [Obj.empty, this.symm]
    have hrl : ∀ vs ∈ rows.map (·.2), vs.length = T.cols.length := by
      intro vs hvs
      obtain ⟨r, hr', rfl⟩ := List.mem_map.1 hvs
      simpa using (written_length (hr r hr')).2
    obtain ⟨_, hcols⟩ := readRows_get ok.cols ok.some hd16 (rows.map (·.2)) 0 _ h0 hrl
  · intro k p hkp
    rw [hget k p hkp]
    have hpm := List.mem_of_getElem? hkp
    have hothr : ∀ (vs : List Val) (o : Obj), readRow T o vs p.field = o p.field := by
      intro vs o
      unfold readRow
      split
      · rfl
      · exact rowObj_other _ _ _ fun c hc => ⟨fun hh => (ok.apart c hc p hpm).1 hh.symm, fun hh => (ok.apart c hc p hpm).2.2.1 hh.symm⟩
    have : ∀ (l : List (List Val)) (o : Obj), l.foldl (readRow T) o p.field = o p.field := by
      intro l
      induction l with
      | nil => intro o; rfl
      | cons a l ih => intro o; rw [List.foldl_cons, ih, hothr]
    show some _ = some ((List.foldl (readRow T) _ _ : Obj) p.field)
    rw [this]
  · intro k c hkc
    show Obj.list (List.foldl _ _ _) c.field = _
    rw [hcols k c hkc]
    have hcm := List.mem_of_getElem? hkc
    have : (fillF T.ps vals Obj.empty).list c.field = [] := List.eq_nil_of_length_eq_zero (h0.len c hcm)
    rw [this, List.nil_append, Nat.sub_zero]
    rfl

/-- C48 is false of every table that declares 0 rows and has some (up to 65536): all of them are kept. -/
theorem C48_zero_false {E : Env} (hw : Wf E) (hfl : E.floatOk [] = false) {T : Table} (hT : T ∈ tableKinds)
    {hdr : List Str} {vals : List Val} (hh : Written E (T.ps.map (·.kind)) hdr vals) (hd : vals.getLast? = some (.int 0))
    {rows : List (List Str × List Val)} (hr : ∀ r ∈ rows, Written E (T.cols.map (·.kind)) r.1 r.2) (hmax : rows.length ≤ 65536)
    (hword : ∀ t ∈ hdr ++ (rows.map (·.1)).flatten, Word t)
    {i : Nat} (hws : Words E i (hdr ++ (rows.map (·.1)).flatten ++ [T.fin])) :
    ∃ o : Obj, Returns E T.p i (.ok (i + hdr.length + (rows.map (·.1)).flatten.length + 1) (.obj o) false) ∧
      o T.num = .int 0 ∧ ∀ c ∈ T.cols, (o.list c.field).length = rows.length := by
  obtain ⟨o, h1, h2, h3⟩ := C48_content hw hfl hT hh (d := 0) hd hr hword hws
  refine ⟨o, h1, ?_, fun c hc => ?_⟩
  · obtain ⟨q, hq, hqf, _⟩ := (tableKinds_ok T hT).last
    have hlen := written_length hh
    simp only [List.length_map] at hlen
    have := h2 (T.ps.length - 1) q (by rw [← List.getLast?_eq_getElem?]; exact hq)
    rw [List.getLast?_eq_getElem?, hlen.2] at hd
    rw [hd, hqf] at this
    exact (Option.some.inj this).symm
  · obtain ⟨k, hk, rfl⟩ := List.getElem_of_mem hc
    rw [h3 k _ (List.getElem?_eq_getElem hk)]
    simp only [if_true]
    rw [List.take_of_length_le (by simpa using hmax)]
    have hrl : ∀ vs ∈ rows.map (·.2), k < vs.length := by
      intro vs hvs
      obtain ⟨r, hr', rfl⟩ := List.mem_map.1 hvs
      have := (written_length (hr r hr')).2
      simp only [List.length_map] at this
      omega
    clear h1 h2 h3 hws hword hr hmax
    have : ∀ l : List (List Val), (∀ vs ∈ l, k < vs.length) → (column k l).length = l.length := by
      intro l
      induction l with
      | nil => intro _; rfl
      | cons a l ih =>
        intro h
        have ha := h a (by simp)
        have := ih (fun vs hv => h vs (by simp [hv]))
        simp only [column, List.filterMap_cons, List.getElem?_eq_getElem ha, List.length_cons] at this ⊢
        omega
    rw [this _ hrl]
    simp

/-- C48, converse: a table function returns without error only if it has read parameters, rows
and optional parts up to its closing token, with exactly the values it returns. -/
theorem C48_only {E : Env} (hw : Wf E) (hfl : E.floatOk [] = false) {T : Table} (hT : T ∈ tableKinds) {i i' : Nat} {v : Val}
    (h : Returns E T.p i (.ok i' v false)) : ∃ o, v = .obj o ∧ Block E T.fin (T.spec E) i i' o := table_only hT hw hfl h

/-- C31 for the conversion tables: a keyword that is not allowed, where a parameter, a row or an
optional part can start, is an error. -/
theorem C31_tables {E : Env} (hw : Wf E) (hfl : E.floatOk [] = false) {T : Table} (hT : T ∈ tableKinds) {i k : Nat} {x : Decl.Pos}
    (hi : Items E (Succeeds E) T.fin (T.spec E) k ⟨0, Obj.empty, i⟩ x) {t : Str} (ht : TokAfter E x.i t) (h1 : t ∈ keywords)
    (h2 : t ≠ T.fin) (h3 : t ∉ T.subs.map (·.1)) : ∃ i' v, Returns E T.p i (.ok i' v true) :=
  table_rejects hT hw hfl hi ht h1 h2 h3

/-! ### Non-vacuity -/

/-- Tokens, with every token but the end of the file a number for `ParseFloat`. -/
def tabEnv (ts : List Str) : Env := { mkEnv ts with floatOk := fun t => decide (t ≠ []) }

theorem tabEnv_wf {ts : List Str} (h : [] ∉ ts) : Wf (tabEnv ts) := ⟨ts, rfl, h⟩

def sampleHdr : List Str := [(str! "T"), (str! "\"text\""), (str! "TAB_VERB"), (str! "2")]
def sampleRows : List (List Str) := [[(str! "0"), (str! "\"off\"")], [(str! "1"), (str! "\"on\"")], [(str! "2"), (str! "\"error\"")]]
def sampleToks : List Str := (str! "/begin COMPU_VTAB") :: (sampleHdr ++ sampleRows.flatten ++ [(str! "/end COMPU_VTAB")])

theorem words_self (t : Str) (ws : List Str) : Words (tabEnv (t :: ws)) 0 ws := by
  intro j w hj
  have hlt := (List.getElem?_eq_some_iff.1 hj).1
  show (t :: ws ++ [[]])[0 + j + 1]? = some w
  rw [Nat.zero_add, List.cons_append, List.getElem?_cons_succ, List.getElem?_append_left hlt, hj]

/-- Two rows are declared, three are there: the first two are kept. -/
example : ∃ o : Obj, Returns (tabEnv sampleToks) .parseCompuVtab 0 (.ok 11 (.obj o) false) ∧ o "Name" = .str (str! "T") ∧
    o.list "InVal" = [.flt (str! "0"), .flt (str! "1")] ∧ o.list "OutVal" = [.str (str! "\"off\""), .str (str! "\"on\"")] := by
  obtain ⟨o, h1, h2, h3⟩ := C48_content (E := tabEnv sampleToks) (T := compuVtab) (i := 0) (hdr := sampleHdr) (d := 2)
    (vals := [.str (str! "T"), .str (str! "\"text\""), .str (str! "TAB_VERB"), .int 2])
    (rows := [([(str! "0"), (str! "\"off\"")], [.flt (str! "0"), .str (str! "\"off\"")]),
      ([(str! "1"), (str! "\"on\"")], [.flt (str! "1"), .str (str! "\"on\"")]),
      ([(str! "2"), (str! "\"error\"")], [.flt (str! "2"), .str (str! "\"error\"")])])
    (tabEnv_wf (by decide)) rfl (by simp [tableKinds])
    (.cons rfl (.cons rfl (.cons ⟨⟨(str! "TAB_VERB"), by decide⟩, rfl⟩ (.cons ⟨2, ⟨by decide, by simp [IsDigit], rfl⟩, by decide, rfl⟩ .nil)))) rfl
    (by
      intro r hr
      simp only [List.mem_cons, List.not_mem_nil, or_false] at hr
      rcases hr with rfl | rfl | rfl <;> exact .cons ⟨rfl, rfl⟩ (.cons rfl .nil))
    (by decide +kernel) (words_self _ _)
  refine ⟨o, h1, ?_, h3 0 _ rfl, h3 1 _ rfl⟩
  have := h2 0 _ rfl
  exact (Option.some.inj this).symm

/-- A table that declares no rows and has one. -/
example : ∃ o : Obj, Returns (tabEnv ((str! "/begin COMPU_VTAB") :: ([(str! "T"), (str! "\"text\""), (str! "TAB_VERB"), (str! "0")] ++ [(str! "0"), (str! "\"off\"")]
    ++ [(str! "/end COMPU_VTAB")]))) .parseCompuVtab 0 (.ok 7 (.obj o) false) ∧ o "NumberValuePairs" = .int 0 ∧ (o.list "InVal").length = 1 := by
  obtain ⟨o, h1, h2, h3⟩ := C48_zero_false (T := compuVtab) (i := 0) (hdr := [(str! "T"), (str! "\"text\""), (str! "TAB_VERB"), (str! "0")])
    (vals := [.str (str! "T"), .str (str! "\"text\""), .str (str! "TAB_VERB"), .int 0])
    (rows := [([(str! "0"), (str! "\"off\"")], [.flt (str! "0"), .str (str! "\"off\"")])])
    (tabEnv_wf (ts := (str! "/begin COMPU_VTAB") :: ([(str! "T"), (str! "\"text\""), (str! "TAB_VERB"), (str! "0")] ++ [(str! "0"), (str! "\"off\"")]
      ++ [(str! "/end COMPU_VTAB")])) (by decide)) rfl (by simp [tableKinds])
    (.cons rfl (.cons rfl (.cons ⟨⟨(str! "TAB_VERB"), by decide⟩, rfl⟩ (.cons ⟨0, ⟨by decide, by simp [IsDigit], rfl⟩, by decide, rfl⟩ .nil)))) rfl
    (by
      intro r hr
      simp only [List.mem_cons, List.not_mem_nil, or_false] at hr
      rcases hr with rfl
      exact .cons ⟨rfl, rfl⟩ (.cons rfl .nil)) (by decide)
    (by decide +kernel) (words_self _ _)
  exact ⟨o, h1, h2, h3 _ (by simp [compuVtab]; left; rfl)⟩

/-- A row cut short by another object: error. -/
example : ∃ i' v, Returns (tabEnv [(str! "/begin COMPU_VTAB"), (str! "T"), (str! "/begin UNIT")]) .parseCompuVtab 0 (.ok i' v true) :=
  C31_tables (T := compuVtab) (k := 1) (x := ⟨1, _, 1⟩) (t := (str! "/begin UNIT")) (tabEnv_wf (by decide)) rfl (by simp [tableKinds])
    (.cons (.param (t := (str! "T")) (p := ⟨"Name", "NameSet", .str⟩) rfl rfl (by decide) (by decide) (by decide) (by decide) rfl) .nil)
    rfl (by decide) (by decide) (by decide)

end Verif.A2l.Props
