import Verif.Ihex.Visits

/-!
C103: bound for the number of records the workers of `addOffsets` lock, when segment records are never far away.
-/

namespace Verif.Ihex

open Verif.Go

/-- The record at `p` selects a segment other than 0000, and the next data record, before any other segment record, is the one at `q`. -/
structure Opens (R : List Record) (p q : Nat) (offs : Str) : Prop where
  lt : p < q
  ela : ∃ r, R[p]? = some r ∧ r.recordType = ['0', '4'] ∧ r.offset = offs
  nz : offs ≠ ['0', '0', '0', '0']
  data : ∃ r, R[q]? = some r ∧ r.recordType = ['0', '0']
  none : ∀ m r, p < m → m < q → R[m]? = some r → ¬ r.recordType = ['0', '4'] ∧ ¬ r.recordType = ['0', '0']

/-- What the workers have in common: record types and segments are those of the file, `offs` and `firstRecordAfterNewOffset` are determined by
the records a worker has passed, and the first data record of a segment is passed by one worker only that knows its segment. -/
structure GInv (R : List Record) (st : Nat → Nat) (s : OffState) : Prop where
  len : s.recs.length = R.length
  recs : ∀ (i : Nat) (r : Record), s.recs[i]? = some r → ∃ r0, R[i]? = some r0 ∧ r0.recordType = r.recordType ∧ (IsEla r0 → r0.offset = r.offset)
  start : ∀ k w, s.workers[k]? = some w → st k ≤ w.pos
  bound : ∀ (k : Nat) (w : Worker), s.workers[k]? = some w → w.pos ≤ R.length
  unseen : ∀ k w, s.workers[k]? = some w → ¬ HasEla R (st k) w.pos → w.offs = zeroOffset ∧ w.first = false
  seen : ∀ k w, s.workers[k]? = some w → ∀ p r, st k ≤ p → p < w.pos → R[p]? = some r → IsEla r →
    (∀ m r', p < m → m < w.pos → R[m]? = some r' → ¬ IsEla r') →
    w.offs = r.offset ∧ ((∀ m r', p < m → m < w.pos → R[m]? = some r' → ¬ IsData r') → w.first = true)
  firstly : ∀ k w, s.workers[k]? = some w → w.first = true → ∃ p r, st k ≤ p ∧ p < w.pos ∧ R[p]? = some r ∧ IsEla r ∧
    ∀ m r', p < m → m < w.pos → R[m]? = some r' → ¬ IsEla r' ∧ ¬ IsData r'
  passed : ∀ k w, s.workers[k]? = some w → ∀ p q offs, Opens R p q offs → st k ≤ p → q < w.pos → ∃ r, s.recs[q]? = some r ∧ r.offset = offs
  unique : ∀ k w, s.workers[k]? = some w → ∀ k' w', s.workers[k']? = some w' → ∀ p q offs, Opens R p q offs → st k ≤ p → st k' ≤ p →
    q < w.pos → q < w'.pos → k = k'

theorem opens_same {R : List Record} {p p' q : Nat} {o o' : Str} (h : Opens R p q o) (h' : Opens R p' q o') : p = p' ∧ o = o' := by
  obtain ⟨r, a1, a2, a3⟩ := h.ela
  obtain ⟨r', b1, b2, b3⟩ := h'.ela
  have : p = p' := by
    rcases Nat.lt_trichotomy p p' with g | g | g
    · exact absurd b2 (h.none p' r' g h'.lt b1).1
    · exact g
    · exact absurd a2 (h'.none p r g h.lt a1).1
  subst this
  rw [a1] at b1; cases b1
  exact ⟨rfl, a3.symm.trans b3⟩

/-- Worker `k` is done; nothing else changes. -/
theorem GInv.finish {R : List Record} {st : Nat → Nat} {s : OffState} (h : GInv R st s) {k : Nat} {w : Worker} (hw : s.workers[k]? = some w)
    (w' : Worker) (h1 : w'.pos = w.pos) (h2 : w'.offs = w.offs) (h3 : w'.first = w.first) :
    GInv R st { recs := s.recs, workers := s.workers.set k w' } := by
  have hget : ∀ (m : Nat) (v : Worker), (s.workers.set k w')[m]? = some v → ∃ u : Worker, s.workers[m]? = some u ∧ v.pos = u.pos ∧ v.offs = u.offs ∧ v.first = u.first := by
    intro m v hv
    rw [set_getElem? hw] at hv
    split at hv
    · next e => cases hv; subst e; exact ⟨w, hw, h1, h2, h3⟩
    · exact ⟨v, hv, rfl, rfl, rfl⟩
  refine ⟨h.len, h.recs, ?_, ?_, ?_, ?_, ?_, ?_, ?_⟩
  · intro m v hv
    obtain ⟨u, g, e, _⟩ := hget m v hv
    rw [e]; exact h.start m u g
  · intro m v hv
    obtain ⟨u, g, e, _⟩ := hget m v hv
    rw [e]; exact h.bound m u g
  · intro m v hv
    obtain ⟨u, g, e, e2, e3⟩ := hget m v hv
    rw [e, e2, e3]; exact h.unseen m u g
  · intro m v hv
    obtain ⟨u, g, e, e2, e3⟩ := hget m v hv
    rw [e, e2, e3]; exact h.seen m u g
  · intro m v hv
    obtain ⟨u, g, e, e2, e3⟩ := hget m v hv
    rw [e, e3]; exact h.firstly m u g
  · intro m v hv
    obtain ⟨u, g, e, _⟩ := hget m v hv
    rw [e]; exact h.passed m u g
  · intro m v hv m' v' hv'
    obtain ⟨u, g, e, _⟩ := hget m v hv
    obtain ⟨u', g', e', _⟩ := hget m' v' hv'
    rw [e, e']; exact h.unique m u g m' u' g'

/-- Worker `k` goes on by one record, which it may have changed. -/
theorem GInv.advance {R : List Record} {st : Nat → Nat} {s : OffState} (h : GInv R st s) {k : Nat} {w w' : Worker} (hw : s.workers[k]? = some w)
    (hpos : w'.pos = w.pos + 1) {r : Record} (hr : s.recs[w.pos]? = some r) {r' : Record} (ht : r'.recordType = r.recordType)
    (he : IsEla r → r'.offset = r.offset)
    (hunseen : ¬ HasEla R (st k) w'.pos → w'.offs = zeroOffset ∧ w'.first = false)
    (hseen : ∀ p r, st k ≤ p → p < w'.pos → R[p]? = some r → IsEla r →
      (∀ m r', p < m → m < w'.pos → R[m]? = some r' → ¬ IsEla r') →
      w'.offs = r.offset ∧ ((∀ m r', p < m → m < w'.pos → R[m]? = some r' → ¬ IsData r') → w'.first = true))
    (hfirstly : w'.first = true → ∃ p r, st k ≤ p ∧ p < w'.pos ∧ R[p]? = some r ∧ IsEla r ∧
      ∀ m r', p < m → m < w'.pos → R[m]? = some r' → ¬ IsEla r' ∧ ¬ IsData r')
    (hnew : ∀ p offs, Opens R p w.pos offs → st k ≤ p → r'.offset = offs ∧ r.offset ≠ offs)
    (hold : ∀ p offs, Opens R p w.pos offs → r.offset = offs → r'.offset = offs) :
    GInv R st { recs := s.recs.set w.pos r', workers := s.workers.set k w' } := by
  have hget := set_getElem? hw w'
  have hrec := set_getElem? hr r'
  have all : ∀ {Q : Nat → Worker → Prop}, Q k w' → (∀ m v, m ≠ k → s.workers[m]? = some v → Q m v) →
      ∀ m v, (s.workers.set k w')[m]? = some v → Q m v := by
    intro Q h1 h2 m v hv
    rw [hget] at hv
    split at hv
    · next e => simp at hv; subst hv e; exact h1
    · next e => exact h2 m v e hv
  have hkeep : ∀ p q offs, Opens R p q offs → (∃ x, s.recs[q]? = some x ∧ x.offset = offs) →
      ∃ x, (s.recs.set w.pos r')[q]? = some x ∧ x.offset = offs := by
    rintro p q offs ho ⟨x, hx, hxo⟩
    rw [hrec]
    split
    · next e => subst e; rw [hr] at hx; cases hx; exact ⟨r', rfl, hold p offs ho hxo⟩
    · exact ⟨x, hx, hxo⟩
  refine ⟨by simpa using h.len, ?_, ?_, ?_, ?_, ?_, ?_, ?_, ?_⟩
  · intro i x hx
    simp only at hx
    rw [hrec] at hx
    split at hx
    · next e =>
      cases hx; subst e
      obtain ⟨r0, g1, g2, g3⟩ := h.recs _ r hr
      refine ⟨r0, g1, g2.trans ht.symm, fun hh => (g3 hh).trans (he ?_).symm⟩
      show r.recordType = _
      rw [← g2]; exact hh
    · exact h.recs i x hx
  · exact all (Q := fun m v => st m ≤ v.pos) (by have := h.start k w hw; omega) (fun m v _ hv => h.start m v hv)
  · refine all (Q := fun _ (v : Worker) => v.pos ≤ R.length) ?_ (fun m v _ hv => h.bound m v hv)
    have := (List.getElem?_eq_some_iff.1 hr).1
    have := h.len
    omega
  · exact all (Q := fun m v => ¬ HasEla R (st m) v.pos → v.offs = zeroOffset ∧ v.first = false) hunseen (fun m v _ hv => h.unseen m v hv)
  · exact all (Q := fun m v => ∀ p r, st m ≤ p → p < v.pos → R[p]? = some r → IsEla r →
      (∀ m r', p < m → m < v.pos → R[m]? = some r' → ¬ IsEla r') →
      v.offs = r.offset ∧ ((∀ m r', p < m → m < v.pos → R[m]? = some r' → ¬ IsData r') → v.first = true)) hseen (fun m v _ hv => h.seen m v hv)
  · exact all (Q := fun m v => v.first = true → ∃ p r, st m ≤ p ∧ p < v.pos ∧ R[p]? = some r ∧ IsEla r ∧
      ∀ m r', p < m → m < v.pos → R[m]? = some r' → ¬ IsEla r' ∧ ¬ IsData r') hfirstly (fun m v _ hv => h.firstly m v hv)
  · refine all (Q := fun m v => ∀ p q offs, Opens R p q offs → st m ≤ p → q < v.pos → ∃ r, (s.recs.set w.pos r')[q]? = some r ∧ r.offset = offs) ?_ ?_
    · intro p q offs ho hp hq
      by_cases e : q = w.pos
      · subst e
        exact ⟨r', by rw [hrec]; simp, (hnew p offs ho hp).1⟩
      · exact hkeep p q offs ho (h.passed k w hw p q offs ho hp (by omega))
    · intro m v _ hv p q offs ho hp hq
      exact hkeep p q offs ho (h.passed m v hv p q offs ho hp hq)
  · have hno : ∀ m v, m ≠ k → s.workers[m]? = some v → ∀ p q offs, Opens R p q offs → st k ≤ p → st m ≤ p → q < w'.pos → q < v.pos → False := by
      intro m v hm hv p q offs ho hpk hpm hq hqv
      by_cases e : q = w.pos
      · subst e
        obtain ⟨x, g1, g2⟩ := h.passed m v hv p _ offs ho hpm hqv
        rw [hr] at g1; cases g1
        exact (hnew p offs ho hpk).2 g2
      · exact hm (h.unique m v hv k w hw p q offs ho hpm hpk hqv (by omega))
    refine all (Q := fun m v => ∀ m' v', (s.workers.set k w')[m']? = some v' → ∀ p q offs, Opens R p q offs → st m ≤ p → st m' ≤ p →
      q < v.pos → q < v'.pos → m = m') ?_ ?_
    · refine all (Q := fun m' v' => ∀ p q offs, Opens R p q offs → st k ≤ p → st m' ≤ p → q < w'.pos → q < v'.pos → k = m') ?_ ?_
      · intros; rfl
      · intro m v hm hv p q offs ho h1 h2 h3 h4
        exact (hno m v hm hv p q offs ho h1 h2 h3 h4).elim
    · intro m v hm hv
      refine all (Q := fun m' v' => ∀ p q offs, Opens R p q offs → st m ≤ p → st m' ≤ p → q < v.pos → q < v'.pos → m = m') ?_ ?_
      · intro p q offs ho h1 h2 h3 h4
        exact (hno m v hm hv p q offs ho h2 h1 h4 h3).elim
      · intro m' v' _ hv' p q offs ho h1 h2 h3 h4
        exact h.unique m v hv m' v' hv' p q offs ho h1 h2 h3 h4

/-- A record that is no segment record: `offs` stays, `firstRecordAfterNewOffset` is false after a data record. -/
theorem GInv.quiet {R : List Record} {st : Nat → Nat} {s : OffState} (h : GInv R st s) {k : Nat} {w w' : Worker} (hw : s.workers[k]? = some w)
    (hpos : w'.pos = w.pos + 1) (hoffs : w'.offs = w.offs) {r : Record} (hr : s.recs[w.pos]? = some r) (hne : ¬ IsEla r)
    (hf1 : IsData r → w'.first = false) (hf2 : ¬ IsData r → w'.first = w.first) {r' : Record} (ht : r'.recordType = r.recordType)
    (hnew : ∀ p offs, Opens R p w.pos offs → st k ≤ p → r'.offset = offs ∧ r.offset ≠ offs)
    (hold : ∀ p offs, Opens R p w.pos offs → r.offset = offs → r'.offset = offs) :
    GInv R st { recs := s.recs.set w.pos r', workers := s.workers.set k w' } := by
  obtain ⟨r0, g1, g2, g3⟩ := h.recs _ r hr
  have hne0 : ¬ IsEla r0 := fun hh => hne (show r.recordType = _ by rw [← g2]; exact hh)
  refine h.advance hw hpos hr ht (fun hh => absurd hh hne) ?_ ?_ ?_ hnew hold
  · intro hn
    have := h.unseen k w hw (fun hh => hn (hasEla_mono hh (by omega)))
    refine ⟨hoffs.trans this.1, ?_⟩
    by_cases hd : IsData r
    · exact hf1 hd
    · rw [hf2 hd]; exact this.2
  · intro p x hp hlt hx hxe hno
    have hpne : p ≠ w.pos := by
      intro e; subst e
      rw [g1] at hx; cases hx
      exact hne0 hxe
    have := h.seen k w hw p x hp (by omega) hx hxe (fun m r' a b c => hno m r' a (by omega) c)
    refine ⟨hoffs.trans this.1, fun hnd => ?_⟩
    have hd : ¬ IsData r := by
      intro hd
      exact hnd w.pos r0 (by omega) (by omega) g1 (show r0.recordType = _ by rw [g2]; exact hd)
    rw [hf2 hd]
    exact this.2 (fun m r' a b c => hnd m r' a (by omega) c)
  · intro hfi
    have hd : ¬ IsData r := fun hd => by rw [hf1 hd] at hfi; cases hfi
    rw [hf2 hd] at hfi
    obtain ⟨p, x, a1, a2, a3, a4, a5⟩ := h.firstly k w hw hfi
    refine ⟨p, x, a1, by omega, a3, a4, fun m y b1 b2 b3 => ?_⟩
    by_cases e : m = w.pos
    · subst e
      rw [g1] at b3; cases b3
      exact ⟨hne0, fun hh => hd (show r.recordType = _ by rw [← g2]; exact hh)⟩
    · exact a5 m y b1 (by omega) b3

theorem set_same {l : List Record} {i : Nat} {r : Record} (h : l[i]? = some r) : l.set i r = l := by
  apply List.ext_getElem?
  intro m
  rw [set_getElem? h]
  split
  · next e => rw [e, h]
  · rfl

theorem GInv.step {R : List Record} {st : Nat → Nat} {s : OffState} (h : GInv R st s) (k : Nat) : GInv R st (offStep s k) := by
  unfold offStep
  cases hw : s.workers[k]? with
  | none => exact h
  | some w =>
    simp only
    unfold workerStep
    split
    · exact h.finish hw _ rfl rfl rfl
    · cases hr : s.recs[w.pos]? with
      | none => exact h.finish hw _ rfl rfl rfl
      | some r =>
        obtain ⟨r0, g1, g2, g3⟩ := h.recs _ r hr
        have hopen : ∀ p offs, Opens R p w.pos offs → st k ≤ p → w.offs = offs ∧ w.first = true := by
          intro p offs ho hp
          obtain ⟨x, a1, a2, a3⟩ := ho.ela
          have := h.seen k w hw p x hp ho.lt a1 a2 (fun m r' b1 b2 b3 => (ho.none m r' b1 b2 b3).1)
          exact ⟨this.1.trans a3, this.2 (fun m r' b1 b2 b3 => (ho.none m r' b1 b2 b3).2)⟩
        have hlast : ∀ p offs, Opens R p w.pos offs → HasEla R (st k) w.pos → st k ≤ p := by
          rintro p offs ho ⟨m, x, b1, b2, b3, b4⟩
          rcases Nat.lt_or_ge p m with hlt | hge
          · exact absurd b4 (ho.none m x hlt b2 b3).1
          · omega
        simp only
        split
        · next hre =>
          have he0 : IsEla r0 := g2.trans hre
          rw [← set_same hr]
          refine h.advance hw rfl hr rfl (fun _ => rfl) ?_ ?_ ?_ ?_ (fun _ _ _ e => e)
          · intro hn
            exact absurd ⟨w.pos, r0, h.start k w hw, by simp, g1, he0⟩ hn
          · intro p x hp hlt hx hxe hno
            by_cases e : p = w.pos
            · subst e
              rw [g1] at hx; cases hx
              exact ⟨(g3 he0).symm, fun _ => rfl⟩
            · simp only at hlt
              exact absurd he0 (hno w.pos r0 (by omega) (by simp) g1)
          · intro _
            refine ⟨w.pos, r0, h.start k w hw, by simp, g1, he0, fun m y b1 b2 _ => ?_⟩
            simp only at b2
            omega
          · intro p offs ho _
            obtain ⟨x, a1, a2⟩ := ho.data
            rw [g1] at a1; cases a1
            exact absurd (he0.symm.trans a2) (by decide)
        · next hre =>
          split
          · next hrd =>
            split
            · exact h.finish hw _ rfl rfl rfl
            · next hb1 =>
              split
              · next hb2 =>
                refine h.quiet (w' := { w with first := false, pos := w.pos + 1 }) hw rfl rfl hr hre (fun _ => rfl) (fun hh => absurd hrd hh) rfl ?_ ?_
                · intro p offs ho hp
                  have := hopen p offs ho hp
                  exact ⟨this.1, by rw [← this.1]; exact hb2.2⟩
                · intro p offs ho _
                  obtain ⟨m, x, b1, b2, b3, b4, _⟩ := h.firstly k w hw hb2.1
                  exact (hopen p offs ho (hlast p offs ho ⟨m, x, b1, b2, b3, b4⟩)).1
              · next hb2 =>
                have hff : w.first = false := by
                  cases hfi : w.first with
                  | false => rfl
                  | true =>
                    by_cases e : r.offset = w.offs
                    · exact absurd ⟨hfi, e⟩ hb1
                    · exact absurd ⟨hfi, e⟩ hb2
                have hnopen : ∀ p offs, Opens R p w.pos offs → st k ≤ p → False := by
                  intro p offs ho hp
                  have := (hopen p offs ho hp).2
                  rw [hff] at this; cases this
                split
                · next hb3 =>
                  refine h.quiet (w' := { w with pos := w.pos + 1 }) hw rfl rfl hr hre (fun _ => hff) (fun hh => absurd hrd hh) rfl (fun p offs ho hp => (hnopen p offs ho hp).elim) ?_
                  intro p offs ho _
                  refine (hnopen p offs ho (hlast p offs ho ?_)).elim
                  refine Classical.byContradiction fun hn => hb3.2 (h.unseen k w hw hn).1
                · rw [← set_same hr]
                  exact h.quiet (w' := { w with pos := w.pos + 1 }) hw rfl rfl hr hre (fun _ => hff) (fun hh => absurd hrd hh) rfl (fun p offs ho hp => (hnopen p offs ho hp).elim)
                    (fun _ _ _ e => e)
          · next hrd =>
            rw [← set_same hr]
            refine h.quiet (w' := { w with pos := w.pos + 1 }) hw rfl rfl hr hre (fun hh => absurd hh hrd) (fun _ => rfl) rfl ?_ (fun _ _ _ e => e)
            intro p offs ho _
            obtain ⟨x, a1, a2⟩ := ho.data
            rw [g1] at a1; cases a1
            exact absurd (g2.symm.trans a2) hrd

theorem GInv.run {R : List Record} {st : Nat → Nat} (sched : List Nat) : ∀ {s : OffState}, GInv R st s → GInv R st (runOffsets s sched) := by
  induction sched with
  | nil => intro s h; exact h
  | cons k ks ih => intro s h; exact ih (h.step k)

theorem share_le (N n k : Nat) (h : k < n) : shareStart N n k ≤ N := by
  show N / n * k ≤ N
  exact Nat.le_trans (Nat.mul_le_mul_left _ (Nat.le_of_lt h)) (Nat.div_mul_le_self _ _)

theorem GInv.init (n : Nat) (R : List Record) : GInv R (shareStart R.length n) (initOffsets n R) := by
  have hget : ∀ (k : Nat) (w : Worker), (initOffsets n R).workers[k]? = some w → k < n ∧ w = initWorker (shareStart R.length n k) := by
    intro k w hk
    simp only [initOffsets, initAt, List.map_map, List.getElem?_map, Option.map_eq_some_iff, Function.comp] at hk
    obtain ⟨a, ha, rfl⟩ := hk
    obtain ⟨hlt, rfl⟩ := List.getElem?_eq_some_iff.1 ha
    simp only [List.length_range] at hlt
    exact ⟨hlt, by simp⟩
  refine ⟨rfl, fun i r hr => ⟨r, hr, rfl, fun _ => rfl⟩, ?_, ?_, ?_, ?_, ?_, ?_, ?_⟩
  · intro k w hk; rw [(hget k w hk).2]; exact Nat.le_refl _
  · intro k w hk; rw [(hget k w hk).2]; exact share_le _ _ _ (hget k w hk).1
  · intro k w hk _; rw [(hget k w hk).2]; exact ⟨rfl, rfl⟩
  · intro k w hk p r hp hlt
    rw [(hget k w hk).2] at hlt
    simp only [initWorker] at hlt
    omega
  · intro k w hk hfi
    rw [(hget k w hk).2] at hfi
    cases hfi
  · intro k w hk p q offs ho hp hq
    rw [(hget k w hk).2] at hq
    have := ho.lt
    simp only [initWorker] at hq
    omega
  · intro k w hk k' w' _ p q offs ho hp _ hq
    rw [(hget k w hk).2] at hq
    have := ho.lt
    simp only [initWorker] at hq
    omega

/-! ### Counting -/

theorem cut_succ (L : List Nat) (hn : L.Nodup) (a b : Nat → Nat) (N : Nat)
    (hd : ∀ k ∈ L, ∀ k' ∈ L, a k ≤ N → N < b k → a k' ≤ N → N < b k' → k = k') :
    (L.map fun k => min (b k) (N + 1) - a k).sum ≤ (L.map fun k => min (b k) N - a k).sum + 1 ∧
      ((∀ k ∈ L, ¬ (a k ≤ N ∧ N < b k)) → (L.map fun k => min (b k) (N + 1) - a k).sum = (L.map fun k => min (b k) N - a k).sum) := by
  induction L with
  | nil => simp
  | cons x L ih =>
    rw [List.nodup_cons] at hn
    obtain ⟨h1, h2⟩ := ih hn.2 (fun k hk k' hk' => hd k (by simp [hk]) k' (by simp [hk']))
    simp only [List.map_cons, List.sum_cons]
    by_cases hx : a x ≤ N ∧ N < b x
    · have := h2 (fun k hk hh => by
        have e := hd x (by simp) k (by simp [hk]) hx.1 hx.2 hh.1 hh.2
        subst e
        exact hn.1 hk)
      exact ⟨by omega, fun hh => absurd hx (hh x (by simp))⟩
    · have e : min (b x) (N + 1) - a x = min (b x) N - a x := by omega
      exact ⟨by omega, fun hh => by rw [e, h2 (fun k hk => hh k (by simp [hk]))]⟩

/-- Ranges without a common element below `N` have together at most `N` elements. -/
theorem disjoint_sum (L : List Nat) (hn : L.Nodup) (a b : Nat → Nat)
    (hd : ∀ i, ∀ k ∈ L, ∀ k' ∈ L, a k ≤ i → i < b k → a k' ≤ i → i < b k' → k = k') (N : Nat) :
    (L.map fun k => min (b k) N - a k).sum ≤ N := by
  induction N with
  | zero =>
    have : ∀ L : List Nat, (L.map fun k => min (b k) 0 - a k).sum = 0 := by
      intro L; induction L with
      | nil => rfl
      | cons x L ih => simp only [List.map_cons, List.sum_cons, ih]; omega
    rw [this]; exact Nat.le_refl _
  | succ N ih => have := (cut_succ L hn a b N (hd N)).1; omega

theorem sum_leW {f g : Nat → Nat} (L : List Nat) (c : Nat) (h : ∀ k ∈ L, f k ≤ g k + c) : (L.map f).sum ≤ (L.map g).sum + L.length * c := by
  induction L with
  | nil => simp
  | cons x L ih =>
    have := ih (fun k hk => h k (by simp [hk]))
    have := h x (by simp)
    simp only [List.map_cons, List.sum_cons, List.length_cons, Nat.succ_mul]
    omega

theorem sum_add_map (f g : Nat → Nat) (L : List Nat) : (L.map f).sum + (L.map g).sum = (L.map fun k => f k + g k).sum := by
  induction L with
  | nil => rfl
  | cons x L ih => simp only [List.map_cons, List.sum_cons]; omega

/-- Every `S` successive records contain a segment record with a segment other than 0000 together with its first data record. -/
def Spaced (R : List Record) (S : Nat) : Prop := ∀ i, i + S ≤ R.length → ∃ p q offs, Opens R p q offs ∧ i ≤ p ∧ q < i + S

theorem workers_sum (m : Worker → Nat) (ws : List Worker) :
    (ws.map m).sum = ((List.range ws.length).map fun k => ((ws[k]?).map m).getD 0).sum := by
  congr 1
  apply List.ext_getElem?
  intro i
  simp only [List.getElem?_map]
  by_cases hi : i < ws.length
  · rw [List.getElem?_range hi]; simp [hi]
  · rw [List.getElem?_eq_none (by omega), List.getElem?_eq_none (by simpa using hi)]; rfl

/-- C103, what holds: when every `S` successive records contain the beginning of a segment, the workers lock at most this many records, under every
schedule; a worker stops at the latest one segment after the start of the next one. -/
theorem C103_partial {n S : Nat} {recs : List Record} (hs : Spaced recs S) (sched : List Nat) :
    visits (initOffsets n recs) sched ≤ recs.length + n * (S + 1) := by
  have hg := (GInv.init n recs).run sched
  have hl := (runOffsets_length sched (initOffsets n recs)).2
  have hn : (initOffsets n recs).workers.length = n := by simp [initOffsets, initAt]
  rw [hn] at hl
  have hv := visits_le sched (initOffsets n recs)
  generalize runOffsets (initOffsets n recs) sched = s at hg hl hv
  have hbeg : total way (initOffsets n recs) = ((List.range n).map fun i => shareStart recs.length n i).sum := by
    simp only [total, initOffsets, initAt, List.map_map]
    rfl
  have hend : total way s = ((List.range n).map fun k => ((s.workers[k]?).map way).getD 0).sum := by
    rw [total, workers_sum, hl]
  let b : Nat → Nat := fun k => ((s.workers[k]?).map (·.pos)).getD 0
  let a : Nat → Nat := fun k => shareStart recs.length n k + S
  have hb : ∀ k, k < n → ∃ w, s.workers[k]? = some w ∧ b k = w.pos := by
    intro k hk
    have : k < s.workers.length := by omega
    exact ⟨s.workers[k], by simp [this], by simp [b, this]⟩
  have key : ∀ i k k', k < n → k' < n → a k ≤ i → i < b k → a k' ≤ i → i < b k' → shareStart recs.length n k ≤ shareStart recs.length n k' → k = k' := by
    intro i k k' hk hk' h1 h2 h3 h4 hle
    obtain ⟨w, hw, e⟩ := hb k hk
    obtain ⟨w', hw', e'⟩ := hb k' hk'
    have hN := hg.bound k' w' hw'
    obtain ⟨p, q, offs, ho, g1, g2⟩ := hs (shareStart recs.length n k') (by simp only [a] at h3; omega)
    simp only [a] at h3
    exact hg.unique k w hw k' w' hw' p q offs ho (by omega) g1 (by omega) (by omega)
  have hdis := disjoint_sum (List.range n) List.nodup_range a b (fun i k hk k' hk' h1 h2 h3 h4 => by
    rw [List.mem_range] at hk hk'
    rcases Nat.le_total (shareStart recs.length n k) (shareStart recs.length n k') with hle | hle
    · exact key i k k' hk hk' h1 h2 h3 h4 hle
    · exact (key i k' k hk' hk h3 h4 h1 h2 hle).symm) recs.length
  have hsum := sum_leW (f := fun k => ((s.workers[k]?).map way).getD 0)
    (g := fun k => (min (b k) recs.length - a k) + shareStart recs.length n k) (List.range n) (S + 1) (fun k hk => by
      rw [List.mem_range] at hk
      obtain ⟨w, hw, e⟩ := hb k hk
      have hN := hg.bound k w hw
      simp only [hw, Option.map_some, Option.getD_some, a, e, way]
      split <;> omega)
  have hadd := sum_add_map (fun k => min (b k) recs.length - a k) (fun k => shareStart recs.length n k) (List.range n)
  rw [List.length_range] at hsum
  rw [hend, hbeg] at hv
  omega

theorem opens_next {R : List Record} {p : Nat} {offs : Str} (h1 : (R[p]?).map (·.recordType) = some extendedLinearAddressRecordToken)
    (h2 : (R[p]?).map (·.offset) = some offs) (h3 : offs ≠ zeroOffset) (h4 : (R[p + 1]?).map (·.recordType) = some dataRecordToken) :
    Opens R p (p + 1) offs := by
  rw [Option.map_eq_some_iff] at h1 h2 h4
  obtain ⟨r, a1, a2⟩ := h1
  obtain ⟨r', b1, b2⟩ := h2
  rw [a1] at b1; cases b1
  exact ⟨by omega, ⟨r, a1, a2, b2⟩, h3, h4, fun m _ c1 c2 => by omega⟩

/-- Data or segment record. -/
def plainRecord (t offs : String) : Record :=
  { byteCount := "01".toList, addressField := "0000".toList, recordType := t.toList, data := ["00".toList], checksum := "00".toList, offset := offs.toList }

/-- Six segments of one data record each. -/
def manySegments : List Record :=
  (List.range 6).flatMap fun i => [plainRecord "04" (if i % 2 = 0 then "0001" else "0002"), plainRecord "00" "0000"]

theorem manySegments_spaced : Spaced manySegments 3 := by
  intro i hi
  have hl : manySegments.length = 12 := by decide
  have h : ∀ i < 10, (manySegments[i + i % 2]?).map (·.recordType) = some extendedLinearAddressRecordToken ∧
      (manySegments[i + i % 2]?).map (·.offset) = some (if (i + i % 2) / 2 % 2 = 0 then "0001".toList else "0002".toList) ∧
      (manySegments[i + i % 2 + 1]?).map (·.recordType) = some dataRecordToken := by decide
  obtain ⟨h1, h2, h3⟩ := h i (by omega)
  exact ⟨_, _, _, opens_next h1 h2 (by split <;> decide) h3, by omega, by omega⟩

/-- Three workers, any schedule. -/
example (sched : List Nat) : visits (initOffsets 3 manySegments) sched ≤ 24 :=
  Nat.le_trans (C103_partial manySegments_spaced sched) (by decide)

theorem sum_starts (c m : Nat) : 2 * ((List.range m).map fun i => c * i).sum + c * m = c * m * m := by
  induction m with
  | zero => simp
  | succ m ih =>
    rw [List.range_succ, List.map_append, List.sum_append, List.map_cons, List.map_nil, List.sum_cons, List.sum_nil]
    simp only [Nat.mul_add, Nat.add_mul, Nat.mul_one, Nat.one_mul] at ih ⊢
    omega

/-- C103, files without segment records: under every schedule that lets all workers finish they lock at least `(n + 1) / 2` times the number of
records. -/
theorem C103_no_segments {n : Nat} (hn : 0 < n) {recs : List Record} (h0 : ∀ r ∈ recs, r.recordType ≠ ['0', '4']) {sched : List Nat}
    (hd : (runOffsets (initOffsets n recs) sched).allDone = true) :
    visits (initOffsets n recs) sched + ((List.range n).map fun i => recs.length / n * i).sum = n * recs.length ∧
      (n + 1) * recs.length ≤ 2 * visits (initOffsets n recs) sched := by
  have h : visits (initOffsets n recs) sched + ((List.range n).map fun i => recs.length / n * i).sum = n * recs.length := visits_plain h0 hd
  refine ⟨h, ?_⟩
  have hs := sum_starts (recs.length / n) n
  obtain ⟨m, rfl⟩ : ∃ m, n = m + 1 := ⟨n - 1, by omega⟩
  have hc : recs.length / (m + 1) * (m + 1) ≤ recs.length := Nat.div_mul_le_self _ _
  generalize recs.length / (m + 1) * (m + 1) = c at hs hc
  have hm : c * m ≤ recs.length * m := Nat.mul_le_mul_right m hc
  have e1 : c * (m + 1) = c * m + c := Nat.mul_succ c m
  have e2 : (m + 1) * recs.length = recs.length * m + recs.length := by rw [Nat.mul_comm, Nat.mul_succ]
  have e3 : (m + 1 + 1) * recs.length = recs.length * m + 2 * recs.length := by rw [Nat.add_mul, e2]; omega
  rw [e1] at hs
  rw [e2] at h
  rw [e3]
  omega

/-- Eight data records below address 10000 (hexadecimal). -/
def onlyData : List Record := List.replicate 8 (plainRecord "00" "0000")

/-- Four workers, one after the other. -/
def inTurn : List Nat := (List.range 4).flatMap fun k => List.replicate 9 k

example : (8 : Nat) + 8 * 4 ≤ 2 * visits (initOffsets 4 onlyData) inTurn := by
  have := (C103_no_segments (n := 4) (by decide) (recs := onlyData) (by decide) (sched := inTurn) (by decide)).2
  have e : onlyData.length = 8 := by decide
  omega

/-- Four workers lock eight records twenty times. -/
theorem C103_false : ¬ C103_full := by
  intro h
  have := h 4 (by decide) onlyData inTurn (by decide)
  have e : visits (initOffsets 4 onlyData) inTurn = 20 := by decide
  have e2 : onlyData.length = 8 := by decide
  omega

end Verif.Ihex
