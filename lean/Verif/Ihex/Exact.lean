import Verif.Ihex.Props3

/-!
C01, exactly: which upper halves the offset workers leave in the records, for every list of records, every set of start
positions and every interleaving.
-/

namespace Verif.Ihex
open Verif.Go

variable {R : List Record}

/-- A worker that starts at `a` ends before it gets to `i`: on the way there is data in a segment that was selected, after
`a`, with the upper half "0000". -/
def Blocked (R : List Record) (a i : Nat) : Prop := ∃ b, b < i ∧ Data R b ∧ HasEla R a b ∧ seg R b = zeroOffset

/-- Some worker gets to `i` knowing its segment. -/
def Reach (R : List Record) (A : Nat → Prop) (i : Nat) : Prop := ∃ a, A a ∧ HasEla R a i ∧ ¬ Blocked R a i

theorem blocked_mono {a i j : Nat} (h : Blocked R a i) (hij : i ≤ j) : Blocked R a j := by
  obtain ⟨b, h1, h2⟩ := h
  exact ⟨b, by omega, h2⟩

/-- State invariant. `f i` is the current upper half stored in record `i`, `st k` the position worker `k` started at,
`A` the set of start positions. -/
structure XInv (R : List Record) (A : Nat → Prop) (st : Nat → Nat) (f : Nat → Str) (s : OffState) : Prop where
  recs : ∀ i : Nat, s.recs[i]? = (R[i]?).map (fun r => { r with offset := f i })
  data : ∀ i r, R[i]? = some r → IsData r → f i = zeroOffset ∨ (f i = seg R i ∧ Reach R A i)
  other : ∀ i r, R[i]? = some r → ¬ IsData r → f i = r.offset
  mem : ∀ k w, s.workers[k]? = some w → A (st k)
  start : ∀ k w, s.workers[k]? = some w → st k ≤ w.pos
  seen : ∀ k w, s.workers[k]? = some w → HasEla R (st k) w.pos → w.offs = seg R w.pos
  unseen : ∀ k w, s.workers[k]? = some w → ¬ HasEla R (st k) w.pos → w.offs = zeroOffset ∧ w.first = false
  live : ∀ k w, s.workers[k]? = some w → w.done = false → ¬ Blocked R (st k) w.pos
  first : ∀ k w, s.workers[k]? = some w → HasEla R (st k) w.pos → w.first = false →
    ∃ b, b < w.pos ∧ Data R b ∧ HasEla R (st k) b ∧ seg R b = seg R w.pos
  inv1 : ∀ i, Data R i → seg R i ≠ zeroOffset → f i ≠ seg R i → Reach R A i →
    ∃ k w, s.workers[k]? = some w ∧ w.done = false ∧ w.pos ≤ i ∧ HasEla R (st k) i ∧ ¬ Blocked R (st k) i
  inv2 : ∀ i j, j < i → Data R i → seg R i ≠ zeroOffset → f i ≠ seg R i →
    Data R j → seg R j ≠ zeroOffset → f j = seg R j → (∀ b, j < b → b < i → Data R b → seg R b ≠ zeroOffset) →
    ∃ k w, s.workers[k]? = some w ∧ w.done = false ∧ j < w.pos ∧ w.pos ≤ i ∧ HasEla R (st k) w.pos

/-- Worker `k` moves on to `pos + 1` without writing. -/
theorem XInv.advance {A : Nat → Prop} {st : Nat → Nat} {f : Nat → Str} {s : OffState} (h : XInv R A st f s)
    {k : Nat} {w w' : Worker} (hw : s.workers[k]? = some w)
    (hpos : w'.pos = w.pos + 1) (hdone : w'.done = false)
    (hseen : HasEla R (st k) w'.pos → w'.offs = seg R w'.pos)
    (hunseen : ¬ HasEla R (st k) w'.pos → w'.offs = zeroOffset ∧ w'.first = false)
    (hlive : ¬ Blocked R (st k) w'.pos)
    (hfirst : HasEla R (st k) w'.pos → w'.first = false →
      ∃ b, b < w'.pos ∧ Data R b ∧ HasEla R (st k) b ∧ seg R b = seg R w'.pos)
    (hresp : Data R w.pos → seg R w.pos ≠ zeroOffset → f w.pos ≠ seg R w.pos → HasEla R (st k) w.pos → False) :
    XInv R A st f { recs := s.recs, workers := s.workers.set k w' } := by
  have hget := set_getElem? hw w'
  have hst := h.start k w hw
  have all : ∀ {Q : Nat → Worker → Prop}, Q k w' → (∀ m v, s.workers[m]? = some v → Q m v) →
      ∀ m v, (s.workers.set k w')[m]? = some v → Q m v := by
    intro Q h1 h2 m v hv
    rw [hget] at hv
    split at hv
    · next e => simp at hv; subst hv e; exact h1
    · exact h2 m v hv
  refine ⟨h.recs, h.data, h.other, all (Q := fun m _ => A (st m)) (h.mem k w hw) h.mem,
    all (Q := fun m v => st m ≤ v.pos) (by omega) h.start,
    all (Q := fun m v => HasEla R (st m) v.pos → v.offs = seg R v.pos) hseen h.seen,
    all (Q := fun m v => ¬ HasEla R (st m) v.pos → v.offs = zeroOffset ∧ v.first = false) hunseen h.unseen,
    all (Q := fun m v => v.done = false → ¬ Blocked R (st m) v.pos) (fun _ => hlive) h.live,
    all (Q := fun m v => HasEla R (st m) v.pos → v.first = false →
      ∃ b, b < v.pos ∧ Data R b ∧ HasEla R (st m) b ∧ seg R b = seg R v.pos) hfirst h.first, ?_, ?_⟩
  · intro i hd hs hf hr
    obtain ⟨m, v, hv, hl, hp, he, hb⟩ := h.inv1 i hd hs hf hr
    by_cases hm : m = k
    · subst hm
      rw [hw] at hv; simp at hv; subst hv
      have : w.pos ≠ i := by
        rintro rfl
        exact hresp hd hs hf he
      exact ⟨m, w', by rw [hget]; simp, hdone, by omega, he, hb⟩
    · exact ⟨m, v, by rw [hget]; simp [hm, hv], hl, hp, he, hb⟩
  · intro i j hij hd hs hf hdj hsj hfj hnb
    obtain ⟨m, v, hv, hl, hp1, hp2, he⟩ := h.inv2 i j hij hd hs hf hdj hsj hfj hnb
    by_cases hm : m = k
    · subst hm
      rw [hw] at hv; simp at hv; subst hv
      have : w.pos ≠ i := by
        rintro rfl
        exact hresp hd hs hf he
      exact ⟨m, w', by rw [hget]; simp, hdone, by omega, by omega, hasEla_mono he (by omega)⟩
    · exact ⟨m, v, by rw [hget]; simp [hm, hv], hl, hp1, hp2, he⟩

/-- A worker ends, and every unset record at or after its position that it could reach has another worker. -/
theorem XInv.finish {A : Nat → Prop} {st : Nat → Nat} {f : Nat → Str} {s : OffState} (h : XInv R A st f s)
    {k : Nat} {w : Worker} (hw : s.workers[k]? = some w) (hdw : w.done = false) (hela : ∀ i, w.pos ≤ i → Data R i → HasEla R (st k) w.pos)
    (hother : ∀ i, w.pos ≤ i → Data R i → seg R i ≠ zeroOffset → f i ≠ seg R i → ¬ Blocked R (st k) i →
      ∃ m v, m ≠ k ∧ s.workers[m]? = some v ∧ v.done = false ∧ w.pos < v.pos ∧ v.pos ≤ i ∧
        HasEla R (st m) v.pos) :
    XInv R A st f { recs := s.recs, workers := s.workers.set k { w with done := true } } := by
  have hget := set_getElem? hw { w with done := true }
  have all : ∀ {Q : Nat → Worker → Prop}, Q k { w with done := true } → (∀ m v, s.workers[m]? = some v → Q m v) →
      ∀ m v, (s.workers.set k { w with done := true })[m]? = some v → Q m v := by
    intro Q h1 h2 m v hv
    rw [hget] at hv
    split at hv
    · next e => simp at hv; subst hv e; exact h1
    · exact h2 m v hv
  have hlv := h.live k w hw hdw
  refine ⟨h.recs, h.data, h.other, all (Q := fun m _ => A (st m)) (h.mem k w hw) h.mem,
    all (Q := fun m v => st m ≤ v.pos) (h.start k w hw) h.start,
    all (Q := fun m v => HasEla R (st m) v.pos → v.offs = seg R v.pos) (h.seen k w hw) h.seen,
    all (Q := fun m v => ¬ HasEla R (st m) v.pos → v.offs = zeroOffset ∧ v.first = false) (h.unseen k w hw) h.unseen,
    all (Q := fun m v => v.done = false → ¬ Blocked R (st m) v.pos) (fun hh => by simp at hh) h.live,
    all (Q := fun m v => HasEla R (st m) v.pos → v.first = false →
      ∃ b, b < v.pos ∧ Data R b ∧ HasEla R (st m) b ∧ seg R b = seg R v.pos) (h.first k w hw) h.first, ?_, ?_⟩
  · intro i hd hs hf hr
    obtain ⟨m, v, hv, hl, hp, he, hb⟩ := h.inv1 i hd hs hf hr
    by_cases hm : m = k
    · subst hm
      rw [hw] at hv; simp at hv; subst hv
      obtain ⟨m', v', hne, hv', hl', hp1, hp2, he'⟩ := hother i hp hd hs hf hb
      refine ⟨m', v', by rw [hget]; simp [hne, hv'], hl', hp2, hasEla_mono he' hp2, ?_⟩
      rintro ⟨b, hb1, hb2, hb3, hb4⟩
      by_cases hbv : b < v'.pos
      · exact h.live m' v' hv' hl' ⟨b, hbv, hb2, hb3, hb4⟩
      · refine hb ⟨b, hb1, hb2, ?_, hb4⟩
        exact hasEla_mono (hela i hp hd) (by omega)
    · exact ⟨m, v, by rw [hget]; simp [hm, hv], hl, hp, he, hb⟩
  · intro i j hij hd hs hf hdj hsj hfj hnb
    obtain ⟨m, v, hv, hl, hp1, hp2, he⟩ := h.inv2 i j hij hd hs hf hdj hsj hfj hnb
    by_cases hm : m = k
    · subst hm
      rw [hw] at hv; simp at hv; subst hv
      have hb : ¬ Blocked R (st m) i := by
        rintro ⟨b, hb1, hb2, hb3, hb4⟩
        by_cases hbw : b < w.pos
        · exact hlv ⟨b, hbw, hb2, hb3, hb4⟩
        · exact hnb b (by omega) hb1 hb2 hb4
      obtain ⟨m', v', hne, hv', hl', hp1', hp2', he'⟩ := hother i hp2 hd hs hf hb
      exact ⟨m', v', by rw [hget]; simp [hne, hv'], hl', by omega, hp2', he'⟩
    · exact ⟨m, v, by rw [hget]; simp [hm, hv], hl, hp1, hp2, he⟩

/-- A worker that has seen an extended linear address record writes its value. -/
theorem XInv.write {A : Nat → Prop} {st : Nat → Nat} {f : Nat → Str} {s : OffState} (h : XInv R A st f s)
    {k : Nat} {w w' : Worker} {r : Record} (hw : s.workers[k]? = some w) (hdw : w.done = false) (hr : R[w.pos]? = some r)
    (hd : IsData r) (hpos : w'.pos = w.pos + 1) (hdone : w'.done = false) (hoffs : w'.offs = w.offs)
    (hne : f w.pos ≠ w.offs) (hela : HasEla R (st k) w.pos) :
    XInv R A st (fun i => if i = w.pos then w.offs else f i)
      { recs := s.recs.set w.pos { r with offset := w.offs }, workers := s.workers.set k w' } := by
  have hget := set_getElem? hw w'
  have hst := h.start k w hw
  have hlv := h.live k w hw hdw
  have hoff : w.offs = seg R w.pos := h.seen k w hw hela
  have hnd : ¬ IsEla r := fun he => not_data_of_ela he hd
  have hsegs : seg R (w.pos + 1) = seg R w.pos := by
    unfold seg; rw [segOf_succ_not hr hnd]
  have hsz : seg R w.pos ≠ zeroOffset := by
    intro hz
    rcases h.data w.pos r hr hd with hf | hf
    · exact hne (by rw [hf, hoff, hz])
    · exact hne (by rw [hf.1, hoff])
  have all : ∀ {Q : Nat → Worker → Prop}, Q k w' → (∀ m v, s.workers[m]? = some v → Q m v) →
      ∀ m v, (s.workers.set k w')[m]? = some v → Q m v := by
    intro Q h1 h2 m v hv
    rw [hget] at hv
    split at hv
    · next e => simp at hv; subst hv e; exact h1
    · exact h2 m v hv
  refine ⟨?_, ?_, ?_, all (Q := fun m _ => A (st m)) (h.mem k w hw) h.mem,
    all (Q := fun m v => st m ≤ v.pos) (by omega) h.start,
    all (Q := fun m v => HasEla R (st m) v.pos → v.offs = seg R v.pos) (fun _ => by rw [hoffs, hpos, hsegs, hoff]) h.seen,
    all (Q := fun m v => ¬ HasEla R (st m) v.pos → v.offs = zeroOffset ∧ v.first = false)
      (fun he => absurd (hasEla_mono hela (by omega)) he) h.unseen,
    all (Q := fun m v => v.done = false → ¬ Blocked R (st m) v.pos) (fun _ => ?_) h.live,
    all (Q := fun m v => HasEla R (st m) v.pos → v.first = false →
      ∃ b, b < v.pos ∧ Data R b ∧ HasEla R (st m) b ∧ seg R b = seg R v.pos)
      (fun _ _ => ⟨w.pos, by omega, ⟨r, hr, hd⟩, hela, by rw [hpos, hsegs]⟩) h.first, ?_, ?_⟩
  · intro i
    have hsr : s.recs[w.pos]? = some { r with offset := f w.pos } := by rw [h.recs, hr]; rfl
    rw [set_getElem? hsr]
    by_cases hi : i = w.pos
    · subst hi; simp [hr]
    · simp [hi, h.recs]
  · intro i r' hr' hd'
    by_cases hi : i = w.pos
    · subst hi; right; simp only [if_true]; exact ⟨hoff, st k, h.mem k w hw, hela, hlv⟩
    · simp only [hi, if_false]; exact h.data i r' hr' hd'
  · intro i r' hr' hd'
    by_cases hi : i = w.pos
    · subst hi; rw [hr] at hr'; simp at hr'; subst hr'; exact absurd hd hd'
    · simp only [hi, if_false]; exact h.other i r' hr' hd'
  · rw [hpos]
    rintro ⟨b, hb1, hb2, hb3, hb4⟩
    by_cases hbw : b = w.pos
    · subst hbw; exact hsz hb4
    · exact hlv ⟨b, by omega, hb2, hb3, hb4⟩
  · intro i hdi hs hf hre
    have hi : i ≠ w.pos := by
      rintro rfl; simp [hoff] at hf
    simp only [hi, if_false] at hf
    obtain ⟨m, v, hv, hl, hp, he, hb⟩ := h.inv1 i hdi hs hf hre
    by_cases hm : m = k
    · subst hm
      rw [hw] at hv; simp at hv; subst hv
      exact ⟨m, w', by rw [hget]; simp, hdone, by omega, he, hb⟩
    · exact ⟨m, v, by rw [hget]; simp [hm, hv], hl, hp, he, hb⟩
  · intro i j hij hdi hs hf hdj hsj hfj hnb
    have hi : i ≠ w.pos := by
      rintro rfl; simp [hoff] at hf
    simp only [hi, if_false] at hf
    by_cases hj : j = w.pos
    · subst hj
      exact ⟨k, w', by rw [hget]; simp, hdone, by omega, by omega, hasEla_mono hela (by omega)⟩
    · simp only [hj, if_false] at hfj
      obtain ⟨m, v, hv, hl, hp1, hp2, he⟩ := h.inv2 i j hij hdi hs hf hdj hsj hfj hnb
      by_cases hm : m = k
      · subst hm
        rw [hw] at hv; simp at hv; subst hv
        exact ⟨m, w', by rw [hget]; simp, hdone, by omega, by omega, hasEla_mono he (by omega)⟩
      · exact ⟨m, v, by rw [hget]; simp [hm, hv], hl, hp1, hp2, he⟩

theorem offStep_xinv {A : Nat → Prop} {st : Nat → Nat} {f : Nat → Str} {s : OffState}
    (h : XInv R A st f s) (k : Nat) : ∃ f', XInv R A st f' (offStep s k) := by
  unfold offStep
  split
  · exact ⟨f, h⟩
  · next w hw =>
    have hself : ∀ s' : List Worker, s' = s.workers.set k w → XInv R A st f { recs := s.recs, workers := s' } := by
      intro s' hs'
      have : s.workers.set k w = s.workers := by
        apply List.ext_getElem?
        intro m
        rw [set_getElem? hw]
        by_cases hm : m = k
        · subst hm; simp [hw]
        · simp [hm]
      rw [hs', this]; exact h
    by_cases hdn : w.done = true
    · simp only [workerStep, hdn, if_true]
      exact ⟨f, hself _ rfl⟩
    · have hdn' : w.done = false := by simpa using hdn
      have hlv := h.live k w hw hdn'
      have hrec := h.recs w.pos
      cases hr : R[w.pos]? with
      | none =>
        rw [hr] at hrec
        simp only [Option.map_none] at hrec
        simp only [workerStep, hdn', hrec, Bool.false_eq_true, if_false]
        have hno : ∀ i, w.pos ≤ i → ¬ Data R i := by
          rintro i hi ⟨r, hr', _⟩
          have h1 : R.length ≤ w.pos := by
            rcases Nat.lt_or_ge w.pos R.length with hlt | hge
            · rw [List.getElem?_eq_getElem hlt] at hr; simp at hr
            · exact hge
          rw [List.getElem?_eq_none (by omega)] at hr'
          simp at hr'
        exact ⟨f, h.finish hw hdn' (fun i hi hd => absurd hd (hno i hi)) (fun i hi hd => absurd hd (hno i hi))⟩
      | some r =>
        rw [hr] at hrec
        simp only [Option.map_some] at hrec
        by_cases he : IsEla r
        · have hnd := not_data_of_ela he
          simp only [workerStep, hdn', hrec, Bool.false_eq_true, if_false]
          rw [if_pos he]
          have hse : HasEla R (st k) (w.pos + 1) :=
            ⟨w.pos, r, h.start k w hw, by omega, hr, he⟩
          have hndw : ¬ Data R w.pos := by
            rintro ⟨r', hr', hd'⟩
            rw [hr] at hr'; simp at hr'; subst hr'; exact hnd hd'
          refine ⟨f, h.advance (w' := ⟨w.pos + 1, f w.pos, true, false⟩) hw rfl rfl ?_ ?_ ?_ ?_ ?_⟩
          · intro _
            simp only [h.other w.pos r hr hnd, seg, segOf_succ_ela hr he, Option.getD_some]
          · intro hn; exact absurd hse hn
          · rintro ⟨b, hb1, hb2, hb3⟩
            simp only at hb1
            by_cases hbw : b = w.pos
            · subst hbw; exact hndw hb2
            · exact hlv ⟨b, by omega, hb2, hb3⟩
          · intro _ hh; simp at hh
          · intro hd; exact absurd hd hndw
        · have hsegs : seg R (w.pos + 1) = seg R w.pos := by
            unfold seg; rw [segOf_succ_not hr he]
          have hmono : HasEla R (st k) (w.pos + 1) → HasEla R (st k) w.pos := hasEla_succ_not hr he
          have hnext : (HasEla R (st k) w.pos → w.first = false →
              ∃ b, b < w.pos ∧ Data R b ∧ HasEla R (st k) b ∧ seg R b = seg R w.pos) →
              HasEla R (st k) (w.pos + 1) → w.first = false →
              ∃ b, b < w.pos + 1 ∧ Data R b ∧ HasEla R (st k) b ∧ seg R b = seg R (w.pos + 1) := by
            intro hh h1 h2
            obtain ⟨b, hb1, hb2, hb3, hb4⟩ := hh (hmono h1) h2
            exact ⟨b, by omega, hb2, hb3, by rw [hb4, hsegs]⟩
          simp only [workerStep, hdn', hrec, Bool.false_eq_true, if_false]
          rw [if_neg he]
          by_cases hd : IsData r
          · rw [if_pos hd]
            by_cases hb : w.first = true ∧ f w.pos = w.offs
            · -- break
              rw [if_pos hb]
              have hela : HasEla R (st k) w.pos := by
                apply Classical.byContradiction
                intro hn
                have := (h.unseen k w hw hn).2
                rw [hb.1] at this; simp at this
              have hoff := h.seen k w hw hela
              refine ⟨f, h.finish hw hdn' (fun _ _ _ => hela) ?_⟩
              intro i hi hdi hsi hfi hbi
              have hne : w.pos ≠ i := by
                rintro rfl
                exact hfi (by rw [hb.2, hoff])
              by_cases hsz : seg R w.pos = zeroOffset
              · exact absurd ⟨w.pos, by omega, ⟨r, hr, hd⟩, hela, hsz⟩ hbi
              · obtain ⟨m, v, hv, hl, hp1, hp2, hev⟩ := h.inv2 i w.pos (by omega) hdi hsi hfi
                  ⟨r, hr, hd⟩ hsz (by rw [hb.2, hoff])
                  (fun b h1 h2 h3 h4 => hbi ⟨b, h2, h3, hasEla_mono hela (by omega), h4⟩)
                refine ⟨m, v, ?_, hv, hl, hp1, hp2, hev⟩
                rintro rfl
                rw [hw] at hv; simp at hv; subst hv; omega
            · rw [if_neg hb]
              by_cases hb2 : w.first = true ∧ f w.pos ≠ w.offs
              · rw [if_pos hb2]
                have hela : HasEla R (st k) w.pos := by
                  apply Classical.byContradiction
                  intro hn
                  have := (h.unseen k w hw hn).2
                  rw [hb2.1] at this; simp at this
                exact ⟨_, h.write (w' := ⟨w.pos + 1, w.offs, false, false⟩) hw hdn' hr hd rfl rfl rfl hb2.2 hela⟩
              · rw [if_neg hb2]
                by_cases hb3 : f w.pos ≠ w.offs ∧ w.offs ≠ zeroOffset
                · rw [if_pos hb3]
                  have hela : HasEla R (st k) w.pos := by
                    apply Classical.byContradiction
                    intro hn
                    exact hb3.2 (h.unseen k w hw hn).1
                  exact ⟨_, h.write (w' := ⟨w.pos + 1, w.offs, w.first, false⟩) hw hdn' hr hd rfl rfl rfl hb3.1 hela⟩
                · rw [if_neg hb3]
                  have hff : w.first = false := by
                    cases hf : w.first with
                    | false => rfl
                    | true =>
                      exfalso
                      by_cases hx : f w.pos = w.offs
                      · exact hb ⟨hf, hx⟩
                      · exact hb2 ⟨hf, hx⟩
                  refine ⟨f, h.advance (w' := ⟨w.pos + 1, w.offs, w.first, false⟩) hw rfl rfl ?_ ?_ ?_ (hnext (h.first k w hw)) ?_⟩
                  · intro hse
                    simp only [hsegs]; exact h.seen k w hw (hmono hse)
                  · intro hn
                    exact h.unseen k w hw (fun hh => hn (hasEla_mono hh (by simp)))
                  · rintro ⟨b, hb1, hb2', hb3', hb4⟩
                    simp only at hb1
                    by_cases hbw : b = w.pos
                    · subst hbw
                      obtain ⟨b', g1, g2, g3, g4⟩ := h.first k w hw hb3' hff
                      exact hlv ⟨b', g1, g2, g3, by rw [g4, hb4]⟩
                    · exact hlv ⟨b, by omega, hb2', hb3', hb4⟩
                  · intro _ hsz hf hela
                    have hoff := h.seen k w hw hela
                    apply hb3
                    rw [hoff]
                    exact ⟨hf, hsz⟩
          · rw [if_neg hd]
            have hndw : ¬ Data R w.pos := by
              rintro ⟨r', hr', hd'⟩
              rw [hr] at hr'; simp at hr'; subst hr'; exact hd hd'
            refine ⟨f, h.advance (w' := ⟨w.pos + 1, w.offs, w.first, false⟩) hw rfl rfl ?_ ?_ ?_ (hnext (h.first k w hw)) ?_⟩
            · intro hse
              simp only [hsegs]; exact h.seen k w hw (hmono hse)
            · intro hn
              exact h.unseen k w hw (fun hh => hn (hasEla_mono hh (by simp)))
            · rintro ⟨b, hb1, hb2, hb3⟩
              simp only at hb1
              by_cases hbw : b = w.pos
              · subst hbw; exact hndw hb2
              · exact hlv ⟨b, by omega, hb2, hb3⟩
            · intro hdd; exact absurd hdd hndw

theorem runOffsets_xinv {A : Nat → Prop} {st : Nat → Nat} (sched : List Nat) :
    ∀ {s : OffState}, (∃ f, XInv R A st f s) → ∃ f, XInv R A st f (runOffsets s sched) := by
  induction sched with
  | nil => intro s h; exact h
  | cons k ks ih => intro s ⟨f, h⟩; exact ih (offStep_xinv h k)

theorem initAt_xinv (starts : List Nat) (hf : Fresh R) :
    XInv R (· ∈ starts) (fun k => (starts[k]?).getD 0) (fun i => ((R[i]?).map (·.offset)).getD zeroOffset)
      (initAt starts R) := by
  have hget : ∀ (k : Nat) w, (initAt starts R).workers[k]? = some w →
      (starts[k]?).getD 0 ∈ starts ∧ w = initWorker ((starts[k]?).getD 0) := by
    intro k w h
    obtain ⟨a, ha, rfl⟩ := initAt_workers h
    rw [ha]; exact ⟨List.mem_of_getElem? ha, rfl⟩
  have hnone : ∀ a, ¬ HasEla R a a := by
    rintro a ⟨k, r, h1, h2, _⟩; omega
  have hnb : ∀ a, ¬ Blocked R a a := by
    rintro a ⟨b, h1, _, ⟨k, r, h2, h3, _⟩, _⟩; omega
  have hnotset : ∀ i, Data R i → ((R[i]?).map (·.offset)).getD zeroOffset = zeroOffset := by
    rintro i ⟨r, hr, hd⟩
    rw [hr]
    exact hf r (List.mem_of_getElem? hr) hd
  refine ⟨?_, ?_, ?_, ?_, ?_, ?_, ?_, ?_, ?_, ?_, ?_⟩
  · intro i
    simp only [initAt]
    cases R[i]? with
    | none => rfl
    | some r => simp
  · intro i r hr hd
    left
    exact hnotset i ⟨r, hr, hd⟩
  · intro i r hr _
    simp [hr]
  · intro k w h; exact (hget k w h).1
  · intro k w h
    rw [(hget k w h).2]
    exact Nat.le_refl _
  · intro k w h he
    rw [(hget k w h).2] at he
    exact absurd he (hnone _)
  · intro k w h _
    rw [(hget k w h).2]
    exact ⟨rfl, rfl⟩
  · intro k w h _
    rw [(hget k w h).2]
    exact hnb _
  · intro k w h he
    rw [(hget k w h).2] at he
    exact absurd he (hnone _)
  · rintro i hd hs _ ⟨a, ha, hea, hba⟩
    obtain ⟨k, hk⟩ := List.mem_iff_getElem?.mp ha
    refine ⟨k, initWorker a, ?_, rfl, ?_, ?_⟩
    · simp [initAt, hk]
    · obtain ⟨q, _, h1, h2, _⟩ := hea
      show a ≤ i
      omega
    · simp only [hk, Option.getD_some]; exact ⟨hea, hba⟩
  · intro i j _ _ _ _ hdj hsj hfj
    rw [hnotset j hdj] at hfj
    exact absurd hfj.symm hsj

/-- When all workers are done, a data record has the upper half of its segment exactly if a worker could reach it. -/
theorem XInv.final {A : Nat → Prop} {st : Nat → Nat} {f : Nat → Str} {s : OffState} (h : XInv R A st f s)
    (hdone : s.allDone = true) (i : Nat) {r : Record} (hr : R[i]? = some r) :
    (¬ IsData r → s.recs[i]? = some r) ∧
    (IsData r → (Reach R A i → s.recs[i]? = some { r with offset := seg R i }) ∧
      (¬ Reach R A i → s.recs[i]? = some { r with offset := zeroOffset })) := by
  have hrec := h.recs i
  rw [hr] at hrec
  simp only [Option.map_some] at hrec
  refine ⟨fun hd => by rw [hrec, h.other i r hr hd], fun hd => ⟨fun hre => ?_, fun hre => ?_⟩⟩
  · have : f i = seg R i := by
      apply Classical.byContradiction
      intro hne
      by_cases hs : seg R i = zeroOffset
      · rcases h.data i r hr hd with h1 | h1
        · exact hne (by rw [h1, hs])
        · exact hne h1.1
      · obtain ⟨k, w, hw, hl, _⟩ := h.inv1 i ⟨r, hr, hd⟩ hs hne hre
        have := (List.all_eq_true.mp hdone) w (List.mem_of_getElem? hw)
        rw [hl] at this; simp at this
    rw [hrec, this]
  · rcases h.data i r hr hd with h1 | h1
    · rw [hrec, h1]
    · exact absurd h1.2 hre

end Verif.Ihex
