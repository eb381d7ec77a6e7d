import Verif.Ihex.SegSpec

/-!
Helper lemmas for C01: the invariant of the offset workers.
-/

namespace Verif.Ihex

open Verif.Go

abbrev IsEla (r : Record) : Prop := r.recordType = extendedLinearAddressRecordToken
abbrev IsData (r : Record) : Prop := r.recordType = dataRecordToken

theorem not_data_of_ela {r : Record} (h : IsEla r) : ¬ IsData r := by
  intro hd
  rw [IsEla] at h; rw [IsData, h] at hd
  exact absurd hd (by decide)

variable (R : List Record)

/-- There is an extended linear address record in positions `[a, i)`. -/
def HasEla (a i : Nat) : Prop := ∃ k r, a ≤ k ∧ k < i ∧ R[k]? = some r ∧ IsEla r

/-- Upper half in force at `i`, "0000" as default. -/
def seg (i : Nat) : Str := (segOf R i).getD zeroOffset

def Data (i : Nat) : Prop := ∃ r, R[i]? = some r ∧ IsData r

variable {R}

theorem hasEla_mono {a i j : Nat} (h : HasEla R a i) (hij : i ≤ j) : HasEla R a j := by
  obtain ⟨k, r, h1, h2, h3, h4⟩ := h
  exact ⟨k, r, h1, by omega, h3, h4⟩

theorem segOf_succ_ela {i : Nat} {r : Record} (h : R[i]? = some r) (he : IsEla r) :
    segOf R (i + 1) = some r.offset := by
  unfold segOf
  rw [List.take_add_one, h]
  simp [List.filter_append, he]

theorem segOf_succ_not {i : Nat} {r : Record} (h : R[i]? = some r) (he : ¬ IsEla r) :
    segOf R (i + 1) = segOf R i := by
  unfold segOf
  rw [List.take_add_one, h]
  simp [List.filter_append, he]

theorem segOf_isSome_of_hasEla {i : Nat} (h : HasEla R 0 i) : (segOf R i).isSome := by
  obtain ⟨k, r, h1, h2, h3, h4⟩ := h
  unfold segOf
  have : r ∈ (R.take i).filter (fun r => r.recordType = extendedLinearAddressRecordToken) := by
    rw [List.mem_filter]
    refine ⟨?_, by simpa using h4⟩
    apply List.mem_of_getElem? (i := k)
    rw [List.getElem?_take, if_pos h2, h3]
  have hne := List.ne_nil_of_mem this
  rw [Option.isSome_map, List.getLast?_eq_some_getLast hne]
  rfl

theorem hasEla_of_seg {i : Nat} (h : seg R i ≠ zeroOffset) : HasEla R 0 i := by
  unfold seg segOf at h
  cases hl : ((R.take i).filter (fun r => r.recordType = extendedLinearAddressRecordToken)).getLast? with
  | none => rw [hl] at h; simp at h
  | some r =>
    have hm := List.mem_of_getLast? hl
    rw [List.mem_filter] at hm
    obtain ⟨k, hk⟩ := List.mem_iff_getElem?.mp hm.1
    rw [List.getElem?_take] at hk
    split at hk
    · next hki => exact ⟨k, r, by omega, hki, hk, by simpa using hm.2⟩
    · simp at hk

/-- State invariant. `f i` is the current upper half stored in record `i`, `st k` the
position worker `k` started at. -/
structure OffInv (R : List Record) (st : Nat → Nat) (f : Nat → Str) (s : OffState) : Prop where
  recs : ∀ i : Nat, s.recs[i]? = (R[i]?).map (fun r => { r with offset := f i })
  data : ∀ i r, R[i]? = some r → IsData r → f i = zeroOffset ∨ f i = seg R i
  other : ∀ i r, R[i]? = some r → ¬ IsData r → f i = r.offset
  start : ∀ k w, s.workers[k]? = some w → st k ≤ w.pos
  seen : ∀ k w, s.workers[k]? = some w → HasEla R (st k) w.pos → w.offs = seg R w.pos
  unseen : ∀ k w, s.workers[k]? = some w → ¬ HasEla R (st k) w.pos →
    w.offs = zeroOffset ∧ w.first = false
  inv1 : ∀ i, Data R i → seg R i ≠ zeroOffset → f i ≠ seg R i →
    ∃ k w, s.workers[k]? = some w ∧ w.done = false ∧ w.pos ≤ i ∧ HasEla R (st k) i
  inv2 : ∀ i j, j < i → Data R i → seg R i ≠ zeroOffset → f i ≠ seg R i →
    Data R j → seg R j ≠ zeroOffset → f j = seg R j →
    ∃ k w, s.workers[k]? = some w ∧ w.done = false ∧ j < w.pos ∧ w.pos ≤ i ∧ HasEla R (st k) w.pos

theorem set_getElem? {α : Type _} {l : List α} {k : Nat} {a : α} (h : l[k]? = some a) (b : α) (m : Nat) :
    (l.set k b)[m]? = if m = k then some b else l[m]? := by
  rw [List.getElem?_set]
  have hk : k < l.length := by
    rcases Nat.lt_or_ge k l.length with hlt | hge
    · exact hlt
    · rw [List.getElem?_eq_none hge] at h; simp at h
  by_cases hm : m = k
  · subst hm; simp [hk]
  · simp [hm, Ne.symm hm]

/-- A step that changes only worker `k`: it stays alive and moves to `pos + 1`, without
writing, at a position that is not an unset record it is responsible for. -/
theorem OffInv.advance {st : Nat → Nat} {f : Nat → Str} {s : OffState} (h : OffInv R st f s)
    {k : Nat} {w w' : Worker} (hw : s.workers[k]? = some w)
    (hpos : w'.pos = w.pos + 1) (hdone : w'.done = false)
    (hseen : HasEla R (st k) w'.pos → w'.offs = seg R w'.pos)
    (hunseen : ¬ HasEla R (st k) w'.pos → w'.offs = zeroOffset ∧ w'.first = false)
    (hresp : Data R w.pos → seg R w.pos ≠ zeroOffset → f w.pos ≠ seg R w.pos → HasEla R (st k) w.pos → False) :
    OffInv R st f { recs := s.recs, workers := s.workers.set k w' } := by
  have hget := set_getElem? hw w'
  have hst := h.start k w hw
  refine ⟨h.recs, h.data, h.other, ?_, ?_, ?_, ?_, ?_⟩
  · intro m v hv
    rw [hget] at hv
    split at hv
    · next e => simp at hv; subst hv e; omega
    · exact h.start m v hv
  · intro m v hv
    rw [hget] at hv
    split at hv
    · next e => simp at hv; subst hv e; exact hseen
    · exact h.seen m v hv
  · intro m v hv
    rw [hget] at hv
    split at hv
    · next e => simp at hv; subst hv e; exact hunseen
    · exact h.unseen m v hv
  · intro i hd hs hf
    obtain ⟨m, v, hv, hl, hp, he⟩ := h.inv1 i hd hs hf
    by_cases hm : m = k
    · subst hm
      rw [hw] at hv; simp at hv; subst hv
      have : w.pos ≠ i := by
        rintro rfl
        exact hresp hd hs hf he
      exact ⟨m, w', by rw [hget]; simp, hdone, by omega, he⟩
    · exact ⟨m, v, by rw [hget]; simp [hm, hv], hl, hp, he⟩
  · intro i j hij hd hs hf hdj hsj hfj
    obtain ⟨m, v, hv, hl, hp1, hp2, he⟩ := h.inv2 i j hij hd hs hf hdj hsj hfj
    by_cases hm : m = k
    · subst hm
      rw [hw] at hv; simp at hv; subst hv
      have : w.pos ≠ i := by
        rintro rfl
        exact hresp hd hs hf he
      exact ⟨m, w', by rw [hget]; simp, hdone, by omega, by omega, hasEla_mono he (by omega)⟩
    · exact ⟨m, v, by rw [hget]; simp [hm, hv], hl, hp1, hp2, he⟩

/-- A worker ends, and every unset record at or after its position has another worker. -/
theorem OffInv.finish {st : Nat → Nat} {f : Nat → Str} {s : OffState} (h : OffInv R st f s)
    {k : Nat} {w : Worker} (hw : s.workers[k]? = some w)
    (hother : ∀ i, w.pos ≤ i → Data R i → seg R i ≠ zeroOffset → f i ≠ seg R i →
      ∃ m v, m ≠ k ∧ s.workers[m]? = some v ∧ v.done = false ∧ w.pos < v.pos ∧ v.pos ≤ i ∧
        HasEla R (st m) v.pos) :
    OffInv R st f { recs := s.recs, workers := s.workers.set k { w with done := true } } := by
  have hget := set_getElem? hw { w with done := true }
  refine ⟨h.recs, h.data, h.other, ?_, ?_, ?_, ?_, ?_⟩
  · intro m v hv
    rw [hget] at hv
    split at hv
    · next e => simp at hv; subst hv e; exact h.start m w hw
    · exact h.start m v hv
  · intro m v hv
    rw [hget] at hv
    split at hv
    · next e => simp at hv; subst hv e; exact h.seen m w hw
    · exact h.seen m v hv
  · intro m v hv
    rw [hget] at hv
    split at hv
    · next e => simp at hv; subst hv e; exact h.unseen m w hw
    · exact h.unseen m v hv
  · intro i hd hs hf
    obtain ⟨m, v, hv, hl, hp, he⟩ := h.inv1 i hd hs hf
    by_cases hm : m = k
    · subst hm
      rw [hw] at hv; simp at hv; subst hv
      obtain ⟨m', v', hne, hv', hl', hp1, hp2, he'⟩ := hother i hp hd hs hf
      exact ⟨m', v', by rw [hget]; simp [hne, hv'], hl', hp2, hasEla_mono he' hp2⟩
    · exact ⟨m, v, by rw [hget]; simp [hm, hv], hl, hp, he⟩
  · intro i j hij hd hs hf hdj hsj hfj
    obtain ⟨m, v, hv, hl, hp1, hp2, he⟩ := h.inv2 i j hij hd hs hf hdj hsj hfj
    by_cases hm : m = k
    · subst hm
      rw [hw] at hv; simp at hv; subst hv
      obtain ⟨m', v', hne, hv', hl', hp1', hp2', he'⟩ := hother i hp2 hd hs hf
      exact ⟨m', v', by rw [hget]; simp [hne, hv'], hl', by omega, hp2', he'⟩
    · exact ⟨m, v, by rw [hget]; simp [hm, hv], hl, hp1, hp2, he⟩

/-- A worker that has seen an extended linear address record writes its value. -/
theorem OffInv.write {st : Nat → Nat} {f : Nat → Str} {s : OffState} (h : OffInv R st f s)
    {k : Nat} {w w' : Worker} {r : Record} (hw : s.workers[k]? = some w) (hr : R[w.pos]? = some r)
    (hd : IsData r) (hpos : w'.pos = w.pos + 1) (hdone : w'.done = false) (hoffs : w'.offs = w.offs)
    (hne : f w.pos ≠ w.offs) (hela : HasEla R (st k) w.pos) :
    OffInv R st (fun i => if i = w.pos then w.offs else f i)
      { recs := s.recs.set w.pos { r with offset := w.offs }, workers := s.workers.set k w' } := by
  have hget := set_getElem? hw w'
  have hst := h.start k w hw
  have hoff : w.offs = seg R w.pos := h.seen k w hw hela
  have hnd : ¬ IsEla r := fun he => not_data_of_ela he hd
  have hsegs : seg R (w.pos + 1) = seg R w.pos := by
    unfold seg; rw [segOf_succ_not hr hnd]
  have hsz : seg R w.pos ≠ zeroOffset := by
    intro hz
    rcases h.data w.pos r hr hd with hf | hf
    · exact hne (by rw [hf, hoff, hz])
    · exact hne (by rw [hf, hoff])
  refine ⟨?_, ?_, ?_, ?_, ?_, ?_, ?_, ?_⟩
  · intro i
    have hsr : s.recs[w.pos]? = some { r with offset := f w.pos } := by rw [h.recs, hr]; rfl
    rw [set_getElem? hsr]
    by_cases hi : i = w.pos
    · subst hi; simp [hr]
    · simp [hi, h.recs]
  · intro i r' hr' hd'
    by_cases hi : i = w.pos
    · subst hi; right; simp [hoff]
    · simp only [hi, if_false]; exact h.data i r' hr' hd'
  · intro i r' hr' hd'
    by_cases hi : i = w.pos
    · subst hi; rw [hr] at hr'; simp at hr'; subst hr'; exact absurd hd hd'
    · simp only [hi, if_false]; exact h.other i r' hr' hd'
  · intro m v hv
    rw [hget] at hv
    split at hv
    · next e => simp at hv; subst hv e; omega
    · exact h.start m v hv
  · intro m v hv he
    rw [hget] at hv
    split at hv
    · next e => simp at hv; subst hv e; rw [hoffs, hpos, hsegs, hoff]
    · exact h.seen m v hv he
  · intro m v hv he
    rw [hget] at hv
    split at hv
    · next e =>
      simp at hv; subst hv e
      exact absurd (hasEla_mono hela (by omega)) he
    · exact h.unseen m v hv he
  · intro i hdi hs hf
    have hi : i ≠ w.pos := by
      rintro rfl; simp [hoff] at hf
    simp only [hi, if_false] at hf
    obtain ⟨m, v, hv, hl, hp, he⟩ := h.inv1 i hdi hs hf
    by_cases hm : m = k
    · subst hm
      rw [hw] at hv; simp at hv; subst hv
      exact ⟨m, w', by rw [hget]; simp, hdone, by omega, he⟩
    · exact ⟨m, v, by rw [hget]; simp [hm, hv], hl, hp, he⟩
  · intro i j hij hdi hs hf hdj hsj hfj
    have hi : i ≠ w.pos := by
      rintro rfl; simp [hoff] at hf
    simp only [hi, if_false] at hf
    by_cases hj : j = w.pos
    · subst hj
      exact ⟨k, w', by rw [hget]; simp, hdone, by omega, by omega, hasEla_mono hela (by omega)⟩
    · simp only [hj, if_false] at hfj
      obtain ⟨m, v, hv, hl, hp1, hp2, he⟩ := h.inv2 i j hij hdi hs hf hdj hsj hfj
      by_cases hm : m = k
      · subst hm
        rw [hw] at hv; simp at hv; subst hv
        exact ⟨m, w', by rw [hget]; simp, hdone, by omega, by omega, hasEla_mono he (by omega)⟩
      · exact ⟨m, v, by rw [hget]; simp [hm, hv], hl, hp1, hp2, he⟩

theorem hasEla_succ_not {a p : Nat} {r : Record} (hr : R[p]? = some r) (hne : ¬ IsEla r)
    (h : HasEla R a (p + 1)) : HasEla R a p := by
  obtain ⟨k, r', h1, h2, h3, h4⟩ := h
  by_cases hk : k = p
  · subst hk; rw [hr] at h3; simp at h3; subst h3; exact absurd h4 hne
  · exact ⟨k, r', h1, by omega, h3, h4⟩

theorem offStep_inv (hz : ZeroSegmentLast R) {st : Nat → Nat} {f : Nat → Str} {s : OffState}
    (h : OffInv R st f s) (k : Nat) : ∃ f', OffInv R st f' (offStep s k) := by
  unfold offStep
  split
  · exact ⟨f, h⟩
  · next w hw =>
    have hself : ∀ s' : List Worker, s' = s.workers.set k w → OffInv R st f { recs := s.recs, workers := s' } := by
      intro s' hs'
      have : s.workers.set k w = s.workers := by
        apply List.ext_getElem?
        intro m
        rw [set_getElem? hw]
        by_cases hm : m = k
        · subst hm; simp [hw]
        · simp [hm]
      rw [hs', this]; exact h
    by_cases hdn : w.done = true
    · simp only [workerStep, hdn, if_true]
      exact ⟨f, hself _ rfl⟩
    · have hdn' : w.done = false := by simpa using hdn
      have hrec := h.recs w.pos
      cases hr : R[w.pos]? with
      | none =>
        rw [hr] at hrec
        simp only [Option.map_none] at hrec
        simp only [workerStep, hdn', hrec, Bool.false_eq_true, if_false]
        refine ⟨f, h.finish hw ?_⟩
        intro i hi hd _ _
        obtain ⟨r, hr', _⟩ := hd
        have h1 : R.length ≤ w.pos := by
          rcases Nat.lt_or_ge w.pos R.length with hlt | hge
          · rw [List.getElem?_eq_getElem hlt] at hr; simp at hr
          · exact hge
        rw [List.getElem?_eq_none (by omega)] at hr'
        simp at hr'
      | some r =>
        rw [hr] at hrec
        simp only [Option.map_some] at hrec
        by_cases he : IsEla r
        · have hnd := not_data_of_ela he
          simp only [workerStep, hdn', hrec, Bool.false_eq_true, if_false]
          rw [if_pos he]
          have hse : HasEla R (st k) (w.pos + 1) :=
            ⟨w.pos, r, h.start k w hw, by omega, hr, he⟩
          refine ⟨f, h.advance (w' := ⟨w.pos + 1, f w.pos, true, false⟩) hw rfl rfl ?_ ?_ ?_⟩
          · intro _
            simp only [h.other w.pos r hr hnd, seg, segOf_succ_ela hr he, Option.getD_some]
          · intro hn; exact absurd hse hn
          · intro hd; obtain ⟨r', hr', hd'⟩ := hd
            rw [hr] at hr'; simp at hr'; subst hr'; exact absurd hd' hnd
        · have hsegs : seg R (w.pos + 1) = seg R w.pos := by
            unfold seg; rw [segOf_succ_not hr he]
          have hmono : HasEla R (st k) (w.pos + 1) → HasEla R (st k) w.pos := hasEla_succ_not hr he
          simp only [workerStep, hdn', hrec, Bool.false_eq_true, if_false]
          rw [if_neg he]
          by_cases hd : IsData r
          · rw [if_pos hd]
            by_cases hb : w.first = true ∧ f w.pos = w.offs
            · -- break
              rw [if_pos hb]
              have hela : HasEla R (st k) w.pos := by
                apply Classical.byContradiction
                intro hn
                have := (h.unseen k w hw hn).2
                rw [hb.1] at this; simp at this
              have hoff := h.seen k w hw hela
              refine ⟨f, h.finish hw ?_⟩
              intro i hi hdi hsi hfi
              have hne : w.pos ≠ i := by
                rintro rfl
                exact hfi (by rw [hb.2, hoff])
              by_cases hsz : seg R w.pos = zeroOffset
              · exfalso
                have h0 : HasEla R 0 w.pos := by
                  obtain ⟨q, r', h1, h2, h3, h4⟩ := hela
                  exact ⟨q, r', by omega, h2, h3, h4⟩
                have hsome := segOf_isSome_of_hasEla h0
                have hsegw : segOf R w.pos = some zeroOffset := by
                  unfold seg at hsz
                  cases hx : segOf R w.pos with
                  | none => rw [hx] at hsome; simp at hsome
                  | some x => rw [hx] at hsz; simpa using hsz
                obtain ⟨ri, hri, hdi'⟩ := hdi
                have := hz w.pos i r ri (by omega) hr hri hd hdi' hsegw
                exact hsi (by unfold seg; rw [this]; rfl)
              · obtain ⟨m, v, hv, hl, hp1, hp2, hev⟩ := h.inv2 i w.pos (by omega) hdi hsi hfi
                  ⟨r, hr, hd⟩ hsz (by rw [hb.2, hoff])
                refine ⟨m, v, ?_, hv, hl, hp1, hp2, hev⟩
                rintro rfl
                rw [hw] at hv; simp at hv; subst hv; omega
            · rw [if_neg hb]
              by_cases hb2 : w.first = true ∧ f w.pos ≠ w.offs
              · rw [if_pos hb2]
                have hela : HasEla R (st k) w.pos := by
                  apply Classical.byContradiction
                  intro hn
                  have := (h.unseen k w hw hn).2
                  rw [hb2.1] at this; simp at this
                exact ⟨_, h.write (w' := ⟨w.pos + 1, w.offs, false, false⟩) hw hr hd rfl rfl rfl hb2.2 hela⟩
              · rw [if_neg hb2]
                by_cases hb3 : f w.pos ≠ w.offs ∧ w.offs ≠ zeroOffset
                · rw [if_pos hb3]
                  have hela : HasEla R (st k) w.pos := by
                    apply Classical.byContradiction
                    intro hn
                    exact hb3.2 (h.unseen k w hw hn).1
                  exact ⟨_, h.write (w' := ⟨w.pos + 1, w.offs, w.first, false⟩) hw hr hd rfl rfl rfl hb3.1 hela⟩
                · rw [if_neg hb3]
                  refine ⟨f, h.advance (w' := ⟨w.pos + 1, w.offs, w.first, false⟩) hw rfl rfl ?_ ?_ ?_⟩
                  · intro hse
                    simp only [hsegs]; exact h.seen k w hw (hmono hse)
                  · intro hn
                    exact h.unseen k w hw (fun hh => hn (hasEla_mono hh (by simp)))
                  · intro _ hsz hf hela
                    have hoff := h.seen k w hw hela
                    apply hb3
                    rw [hoff]
                    exact ⟨hf, hsz⟩
          · rw [if_neg hd]
            refine ⟨f, h.advance (w' := ⟨w.pos + 1, w.offs, w.first, false⟩) hw rfl rfl ?_ ?_ ?_⟩
            · intro hse
              simp only [hsegs]; exact h.seen k w hw (hmono hse)
            · intro hn
              exact h.unseen k w hw (fun hh => hn (hasEla_mono hh (by simp)))
            · intro hdd
              obtain ⟨r', hr', hd'⟩ := hdd
              rw [hr] at hr'; simp at hr'; subst hr'; exact absurd hd' hd

theorem runOffsets_inv (hz : ZeroSegmentLast R) {st : Nat → Nat} (sched : List Nat) :
    ∀ {s : OffState}, (∃ f, OffInv R st f s) → ∃ f, OffInv R st f (runOffsets s sched) := by
  induction sched with
  | nil => intro s h; exact h
  | cons k ks ih => intro s ⟨f, h⟩; exact ih (offStep_inv hz h k)

theorem initAt_workers {starts : List Nat} {recs : List Record} {k : Nat} {w : Worker}
    (h : (initAt starts recs).workers[k]? = some w) :
    ∃ a, starts[k]? = some a ∧ w = initWorker a := by
  simp only [initAt, List.getElem?_map] at h
  cases hk : starts[k]? with
  | none => rw [hk] at h; simp at h
  | some a => rw [hk] at h; simp at h; exact ⟨a, rfl, h.symm⟩

theorem initAt_inv {starts : List Nat} (h0 : 0 ∈ starts) (hf : Fresh R) :
    OffInv R (fun k => (starts[k]?).getD 0) (fun i => ((R[i]?).map (·.offset)).getD zeroOffset)
      (initAt starts R) := by
  have hget : ∀ (k : Nat) w, (initAt starts R).workers[k]? = some w → w = initWorker ((starts[k]?).getD 0) := by
    intro k w h
    obtain ⟨a, ha, rfl⟩ := initAt_workers h
    rw [ha]; rfl
  have hnone : ∀ a, ¬ HasEla R a a := by
    rintro a ⟨k, r, h1, h2, _⟩; omega
  have hnotset : ∀ i, Data R i → ((R[i]?).map (·.offset)).getD zeroOffset = zeroOffset := by
    rintro i ⟨r, hr, hd⟩
    rw [hr]
    exact hf r (List.mem_of_getElem? hr) hd
  refine ⟨?_, ?_, ?_, ?_, ?_, ?_, ?_, ?_⟩
  · intro i
    simp only [initAt]
    cases R[i]? with
    | none => rfl
    | some r => simp
  · intro i r hr hd
    left
    exact hnotset i ⟨r, hr, hd⟩
  · intro i r hr _
    simp [hr]
  · intro k w h
    rw [hget k w h]
    exact Nat.le_refl _
  · intro k w h he
    rw [hget k w h] at he
    exact absurd he (hnone _)
  · intro k w h _
    rw [hget k w h]
    exact ⟨rfl, rfl⟩
  · intro i hd hs _
    obtain ⟨k, hk⟩ := List.mem_iff_getElem?.mp h0
    refine ⟨k, initWorker 0, ?_, rfl, ?_, ?_⟩
    · simp [initAt, hk]
    · simp [initWorker]
    · simpa [hk] using hasEla_of_seg hs
  · intro i j _ _ _ _ hdj hsj hfj
    rw [hnotset j hdj] at hfj
    exact absurd hfj.symm hsj

theorem applySegments_getElem? (s0 : Str) : ∀ (rs : List Record) (i : Nat),
    (applySegments s0 rs)[i]? = (rs[i]?).map (fun r =>
      if IsData r then { r with offset := (segOf rs i).getD s0 } else r) := by
  intro rs
  induction rs generalizing s0 with
  | nil => intro i; simp [applySegments]
  | cons r rs ih =>
    intro i
    have hseg : ∀ i, segOf (r :: rs) (i + 1) =
        if IsEla r then some ((segOf rs i).getD r.offset) else segOf rs i := by
      intro i
      unfold segOf
      simp only [List.take_succ_cons]
      by_cases he : IsEla r
      · rw [List.filter_cons_of_pos (by simpa using he), if_pos he, List.getLast?_cons]
        simp only [Option.map_some]
        cases hgl : (List.filter (fun r => decide (r.recordType = extendedLinearAddressRecordToken))
          (List.take i rs)).getLast? <;> simp
      · rw [List.filter_cons_of_neg (by simpa using he), if_neg he]
    have hz0 : segOf (r :: rs) 0 = none := by simp [segOf]
    unfold applySegments
    by_cases he : IsEla r
    · rw [if_pos he]
      cases i with
      | zero => simp [not_data_of_ela he]
      | succ i => rw [hseg, if_pos he]; simp [ih]
    · rw [if_neg he]
      by_cases hd : IsData r
      · rw [if_pos hd]
        cases i with
        | zero => simp [hd, hz0]
        | succ i => rw [hseg, if_neg he]; simp [ih]
      · rw [if_neg hd]
        cases i with
        | zero => simp [hd]
        | succ i => rw [hseg, if_neg he]; simp [ih]

/-- In a state satisfying the invariant in which every worker is done, all records carry
the right upper half. -/
theorem OffInv.final {st : Nat → Nat} {f : Nat → Str} {s : OffState} (h : OffInv R st f s)
    (hdone : s.allDone = true) : s.recs = applySegments zeroOffset R := by
  apply List.ext_getElem?
  intro i
  rw [h.recs, applySegments_getElem?]
  cases hr : R[i]? with
  | none => rfl
  | some r =>
    simp only [Option.map_some, Option.some.injEq]
    by_cases hd : IsData r
    · rw [if_pos hd]
      have : f i = seg R i := by
        apply Classical.byContradiction
        intro hne
        by_cases hs : seg R i = zeroOffset
        · rcases h.data i r hr hd with h1 | h1
          · exact hne (by rw [h1, hs])
          · exact hne h1
        · obtain ⟨k, w, hw, hl, _⟩ := h.inv1 i ⟨r, hr, hd⟩ hs hne
          have := (List.all_eq_true.mp hdone) w (List.mem_of_getElem? hw)
          rw [hl] at this; simp at this
      rw [this]; rfl
    · rw [if_neg hd, h.other i r hr hd]

theorem runOffsets_final {starts : List Nat} (h0 : 0 ∈ starts) (hf : Fresh R) (hz : ZeroSegmentLast R)
    (sched : List Nat) (hdone : (runOffsets (initAt starts R) sched).allDone = true) :
    (runOffsets (initAt starts R) sched).recs = applySegments zeroOffset R := by
  obtain ⟨f, h⟩ := runOffsets_inv hz sched ⟨_, initAt_inv h0 hf⟩
  exact h.final hdone

theorem zero_mem_starts {n : Nat} (hn : 0 < n) (len : Nat) :
    0 ∈ (List.range n).map fun i => shareStart len n i := by
  simp only [List.mem_map, List.mem_range]
  exact ⟨0, hn, by simp [shareStart]⟩

/-! ### Progress: no schedule can keep a worker from finishing -/

theorem workerStep_progress (recs : List Record) (w : Worker) :
    (workerStep recs w).1.length = recs.length ∧
    (w.done = true → (workerStep recs w).2.done = true) ∧
    ((workerStep recs w).2.done = true ∨ (workerStep recs w).2.pos = w.pos + 1 ∧ w.pos < recs.length) := by
  unfold workerStep
  split
  · next h => simp [h]
  · next h =>
    split
    · simp [h]
    · next r hr =>
      have : w.pos < recs.length := by
        rcases Nat.lt_or_ge w.pos recs.length with hlt | hge
        · exact hlt
        · rw [List.getElem?_eq_none hge] at hr; simp at hr
      repeat' split
      all_goals simp [h, this]

/-- Measure: worker `k` is done or has advanced by at least `c` positions. -/
theorem runOffsets_count (k : Nat) : ∀ (sched : List Nat) (s : OffState) (w : Worker),
    s.workers[k]? = some w →
    ∃ w', (runOffsets s sched).workers[k]? = some w' ∧ (runOffsets s sched).recs.length = s.recs.length ∧
      (runOffsets s sched).workers.length = s.workers.length ∧
      (w'.done = true ∨ w'.pos = w.pos + sched.count k ∧ (0 < sched.count k → w'.pos ≤ s.recs.length)) := by
  intro sched
  induction sched with
  | nil => intro s w hw; exact ⟨w, hw, rfl, rfl, Or.inr (by simp)⟩
  | cons j js ih =>
    intro s w hw
    have hprog : ∀ v, s.workers[j]? = some v → offStep s j =
        { recs := (workerStep s.recs v).1, workers := s.workers.set j (workerStep s.recs v).2 } := by
      intro v hv
      unfold offStep; rw [hv]
    cases hv : s.workers[j]? with
    | none =>
      have hjk : j ≠ k := by rintro rfl; rw [hw] at hv; simp at hv
      have : offStep s j = s := by unfold offStep; rw [hv]
      obtain ⟨w', h1, h2, h3, h4⟩ := ih s w hw
      refine ⟨w', ?_, ?_, ?_, ?_⟩
      · simpa [runOffsets, this] using h1
      · simpa [runOffsets, this] using h2
      · simpa [runOffsets, this] using h3
      · simpa [runOffsets, this, List.count_cons, hjk] using h4
    | some v =>
      have hstep := hprog v hv
      have hp := workerStep_progress s.recs v
      have hrun : runOffsets s (j :: js) = runOffsets (offStep s j) js := rfl
      have hlen : (offStep s j).recs.length = s.recs.length := by rw [hstep]; exact hp.1
      have hwl : (offStep s j).workers.length = s.workers.length := by rw [hstep]; simp
      by_cases hjk : j = k
      · subst hjk
        rw [hw] at hv; simp at hv; subst hv
        have hw1 : (offStep s j).workers[j]? = some (workerStep s.recs w).2 := by
          rw [hstep]; simp only; rw [set_getElem? hw]; simp
        obtain ⟨w', h1, h2, h3, h4⟩ := ih _ _ hw1
        refine ⟨w', by rw [hrun]; exact h1, by rw [hrun, h2, hlen], by rw [hrun, h3, hwl], ?_⟩
        by_cases hdw : (workerStep s.recs w).2.done = true
        · left
          -- done stays done
          have hstay : ∀ (js : List Nat) (s : OffState) (w : Worker), s.workers[j]? = some w → w.done = true →
              ∃ w', (runOffsets s js).workers[j]? = some w' ∧ w'.done = true := by
            intro js
            induction js with
            | nil => intro s w hw hd; exact ⟨w, hw, hd⟩
            | cons m ms ihm =>
              intro s w hw hd
              have : ∃ w1, (offStep s m).workers[j]? = some w1 ∧ w1.done = true := by
                unfold offStep
                cases hm : s.workers[m]? with
                | none => exact ⟨w, hw, hd⟩
                | some v =>
                  simp only
                  rw [set_getElem? hm]
                  by_cases hmj : j = m
                  · subst hmj
                    rw [hw] at hm; simp at hm; subst hm
                    exact ⟨_, by simp, (workerStep_progress s.recs w).2.1 hd⟩
                  · exact ⟨w, by simp [hmj, hw], hd⟩
              obtain ⟨w1, hw1, hd1⟩ := this
              exact ihm _ w1 hw1 hd1
          obtain ⟨w2, hw2, hd2⟩ := hstay js _ _ hw1 hdw
          rw [h1] at hw2; simp at hw2; subst hw2; exact hd2
        · rcases hp.2.2 with hdd | ⟨hpos, hlt⟩
          · exact absurd hdd hdw
          · rcases h4 with h4 | ⟨h4, h5⟩
            · left; exact h4
            · right
              simp only [List.count_cons, beq_self_eq_true, if_true]
              refine ⟨by omega, fun _ => ?_⟩
              by_cases hc : 0 < js.count j
              · have := h5 hc; rw [hlen] at this; exact this
              · omega
      · have hw1 : (offStep s j).workers[k]? = some w := by
          rw [hstep]; simp only; rw [set_getElem? hv]; simp [Ne.symm hjk, hw]
        obtain ⟨w', h1, h2, h3, h4⟩ := ih _ _ hw1
        refine ⟨w', by rw [hrun]; exact h1, by rw [hrun, h2, hlen], by rw [hrun, h3, hwl], ?_⟩
        simpa [List.count_cons, hjk, hlen] using h4

theorem runOffsets_allDone {starts : List Nat} {recs : List Record} {sched : List Nat}
    (h : ∀ k, k < starts.length → recs.length < sched.count k) :
    (runOffsets (initAt starts recs) sched).allDone = true := by
  apply List.all_eq_true.mpr
  intro w hw
  obtain ⟨k, hk⟩ := List.mem_iff_getElem?.mp hw
  have hlen : (runOffsets (initAt starts recs) sched).workers.length ≤ starts.length := by
    have : ∀ (sched : List Nat) (s : OffState), (runOffsets s sched).workers.length = s.workers.length := by
      intro sched
      induction sched with
      | nil => intro s; rfl
      | cons j js ih =>
        intro s
        have : runOffsets s (j :: js) = runOffsets (offStep s j) js := rfl
        rw [this, ih]
        unfold offStep
        split
        · rfl
        · simp
    rw [this]; simp [initAt]
  have hkn : k < starts.length := by
    rcases Nat.lt_or_ge k (runOffsets (initAt starts recs) sched).workers.length with h1 | h1
    · omega
    · rw [List.getElem?_eq_none h1] at hk; simp at hk
  have hinit : (initAt starts recs).workers[k]? = some (initWorker starts[k]) := by
    simp [initAt, hkn]
  obtain ⟨w', h1, _, _, h4⟩ := runOffsets_count k sched _ _ hinit
  rw [hk] at h1; simp at h1; subst h1
  have hc := h k hkn
  rcases h4 with h4 | ⟨h4, h5⟩
  · exact h4
  · have := h5 (by omega)
    simp only [initAt] at this
    omega

end Verif.Ihex
