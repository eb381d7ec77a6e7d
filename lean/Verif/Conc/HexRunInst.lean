import Verif.Conc.HexRun
import Verif.Ihex.TextProps
import Verif.Srec.TextProps

/-!
The two hex parsers as instances of `Prog`, and what is known of their parts.
-/

namespace Verif.Conc.HexRun

open Verif.Go Verif.Hex Verif.Hex.Spec
open Verif.Ihex (Mem Outcome DataByte insertBytes)

/-! ### Intel HEX -/

/-- `addOffsets` on `n` goroutines with the mutexes (ihex32/hex.go:132-138, record.go:56-81). -/
def ihexShared (n : Nat) : Shared Ihex.Record :=
  { S := Ihex.Locks.LState, start := Ihex.Locks.start n, step := Ihex.Locks.step, done := Ihex.Locks.LState.allDone,
    recs := Ihex.Locks.LState.recs }

/-- ihex32/hex.go:101-202. -/
def ihex (n : Nat) : Prog Ihex.Record :=
  { shared := ihexShared n, parse := Ihex.parseRecordRoutine, valid := Ihex.validateChecksum, bytes := Ihex.calcDataRoutine }

theorem ihex_run {n : Nat} {s s' : (ihexShared n).S} {ks : List Nat} (h : (ihexShared n).run s ks = some s') :
    Ihex.Locks.run s ks = some s' := by
  induction ks generalizing s with
  | nil => exact h
  | cons k ks ih =>
    obtain ⟨s1, h1, h2⟩ := Option.bind_eq_some_iff.1 h
    show (Ihex.Locks.step s k).bind _ = _
    rw [show Ihex.Locks.step s k = some s1 from h1]
    exact ih h2

theorem ihex_reach {n : Nat} {recs : List Ihex.Record} {s : Ihex.Locks.LState} {ks : List Nat}
    (h : (ihexShared n).run ((ihexShared n).start recs) ks = some s) :
    Ihex.Locks.LockInv s ∧ ∃ sched, Ihex.Locks.Sim s (Ihex.runOffsets (Ihex.initOffsets n recs) sched) :=
  ⟨Ihex.Locks.run_inv (Ihex.Locks.start_inv n recs) (ihex_run h),
    Ihex.Locks.sim_run (Ihex.Locks.start_inv n recs) (Ihex.Locks.start_sim n recs) (ihex_run h)⟩

theorem ihex_done {n : Nat} {recs : List Ihex.Record} {s : Ihex.Locks.LState} {ks : List Nat}
    (h : (ihexShared n).run ((ihexShared n).start recs) ks = some s) (hd : s.allDone = true) :
    ∃ sched, (Ihex.runOffsets (Ihex.initOffsets n recs) sched).allDone = true ∧
      (Ihex.runOffsets (Ihex.initOffsets n recs) sched).recs = s.recs := by
  obtain ⟨_, sched, hs⟩ := ihex_reach h
  obtain ⟨h1, h2⟩ := Ihex.Locks.sim_done hs hd
  exact ⟨sched, h2, h1⟩

theorem ihex_done_shape {n : Nat} {lines : List Str} {s : Ihex.Locks.LState} {ks : List Nat}
    (h : (ihexShared n).run ((ihexShared n).start (Ihex.recordsOf n lines)) ks = some s) (hd : s.allDone = true) :
    ∀ r ∈ s.recs, Ihex.Shape r := by
  obtain ⟨sched, _, h2⟩ := ihex_done h hd
  rw [← h2]
  exact (Ihex.runOffsets_shape (Ihex.initOffsets_shape (Ihex.recordsOf_shape n lines)) sched).1

theorem mapM_total {α β : Type} {f : α → Option β} : ∀ {l : List α}, (∀ x ∈ l, ∃ y, f x = some y) → ∃ l', l.mapM f = some l'
  | [], _ => ⟨[], rfl⟩
  | a :: l, h => by
    obtain ⟨y, hy⟩ := h a (by simp)
    obtain ⟨ys, hys⟩ := mapM_total (l := l) fun x hx => h x (by simp [hx])
    exact ⟨y :: ys, by rw [List.mapM_cons, hy, hys]; rfl⟩

theorem ihex_total {n : Nat} (hn : 0 < n) (lines : List Str) : Total (ihex n) n lines (Ihex.recordsOf n lines) where
  parse := by
    have h := Ihex.parseRecords_eq n lines
    unfold Ihex.parseRecords at h
    obtain ⟨parts, hp, h⟩ := Option.bind_eq_some_iff.1 h
    obtain ⟨rss, hr, h⟩ := Option.bind_eq_some_iff.1 h
    refine ⟨rss, by rw [hp]; exact hr, ?_⟩
    simpa using h
  valid := by
    rw [shares?_eq]
    have : ∀ p ∈ (List.range n).map (share (Ihex.recordsOf n lines) n), ∃ vs, p.mapM Ihex.validateChecksum = some vs := by
      intro p hp
      refine mapM_total fun r hr => ?_
      obtain ⟨i, _, rfl⟩ := List.mem_map.1 hp
      obtain ⟨v, hv, _⟩ := Ihex.validateChecksum_eq (Ihex.recordsOf_shape n lines r (Ihex.mem_share hr))
      exact ⟨v, hv⟩
    obtain ⟨vss, hv⟩ := mapM_total this
    refine ⟨vss, hv, ?_⟩
    rw [(mapM_some hv).1]
    simp
  bytes := by
    intro ks s hr hd
    have hsh := ihex_done_shape hr hd
    rw [shares?_eq]
    refine mapM_total fun p hp => ?_
    obtain ⟨i, _, rfl⟩ := List.mem_map.1 hp
    obtain ⟨bs, hb, _⟩ := Ihex.calcDataRoutine_flatten (fun r hr => hsh r (Ihex.mem_share hr))
    exact ⟨bs, hb⟩

theorem ihex_bad {n : Nat} (lines : List Str) :
    Bad (ihex n) (Ihex.recordsOf n lines) ↔ (Ihex.recordsOf n lines).any (fun r => !Ihex.checksumOk r) = true := by
  simp only [Bad, List.any_eq_true]
  constructor <;> rintro ⟨r, hr, h⟩ <;> refine ⟨r, hr, ?_⟩ <;>
    obtain ⟨v, hv, hiff⟩ := Ihex.validateChecksum_eq (Ihex.recordsOf_shape n lines r hr)
  · cases hc : Ihex.checksumOk r with
    | false => rfl
    | true => exact absurd (hv.trans (congrArg some (hiff.2 hc))) h
  · intro hv'
    have : v = some true := Option.some.inj (hv.symm.trans hv')
    rw [hiff.1 this] at h
    cases h

theorem ihex_bytes {n : Nat} (hn : 0 < n) {recs : List Ihex.Record} (h : ∀ r ∈ recs, Ihex.Shape r) :
    insertBytes Mem.empty (bytesOf (ihex n) n recs) = insertBytes Mem.empty (Ihex.dataBytes recs) := by
  have hc := Ihex.collectData_eq hn h
  unfold Ihex.collectData at hc
  obtain ⟨parts, hp, hc⟩ := Option.bind_eq_some_iff.1 hc
  obtain ⟨bss, hb, hc⟩ := Option.bind_eq_some_iff.1 hc
  have : bytesOf (ihex n) n recs = bss.flatten.flatten := by
    unfold bytesOf
    rw [hp, Option.bind_some, show parts.mapM (ihex n).bytes = some bss from hb]
  rw [this]
  exact Option.some.inj hc

theorem ihex_result {n : Nat} (hn : 0 < n) {lines : List Str} {o : Outcome} (h : Result (ihex n) n (Ihex.recordsOf n lines) o) :
    ∃ sched, Ihex.parseHex n sched lines = some (some o) := by
  rcases h with ⟨hb, rfl⟩ | ⟨hb, ks, s, hr, hd, rfl⟩
  · refine ⟨[], ?_⟩
    rw [Ihex.parseHex_eq hn, if_pos ((ihex_bad lines).1 hb)]
  · obtain ⟨sched, h1, h2⟩ := ihex_done hr hd
    refine ⟨sched, ?_⟩
    rw [Ihex.parseHex_eq hn, if_neg (fun h => hb ((ihex_bad lines).2 h)), if_pos h1, h2]
    exact congrArg (fun o => some (some o)) (ihex_bytes hn (ihex_done_shape hr hd)).symm

theorem ihex_shared_progress {n : Nat} {recs : List Ihex.Record} : ∀ ks s, (ihex n).shared.run ((ihex n).shared.start recs) ks = some s →
    (ihex n).shared.done s = false → ∃ k s', (ihex n).shared.step s k = some s' :=
  fun _ _ hr hd => Ihex.Locks.progress (ihex_reach hr).1 hd

theorem ihex_shared_work {n : Nat} {recs : List Ihex.Record} : ∀ ks s k s', (ihex n).shared.run ((ihex n).shared.start recs) ks = some s →
    (ihex n).shared.step s k = some s' → Ihex.Locks.LState.work s' < Ihex.Locks.LState.work s :=
  fun _ _ _ _ hr hs => Ihex.Locks.step_work (ihex_reach hr).1 hs

/-- The batches of a worker whose records can all be computed: one. -/
theorem ihex_one_batch {rs : List Ihex.Record} (h : ∀ r ∈ rs, r.recordType = Ihex.dataRecordToken → ∀ e, Ihex.calcDataEntries r = some e → e.failed = false)
    {b : List (List DataByte)} (hb : Ihex.calcDataRoutine rs = some b) : b.length ≤ 1 := by
  unfold Ihex.calcDataRoutine at hb
  obtain ⟨es, hes, hb⟩ := Option.bind_eq_some_iff.1 hb
  cases hb
  have : es.filter (·.failed) = [] := by
    rw [List.filter_eq_nil_iff]
    intro e he
    obtain ⟨r, hr, hre⟩ := ((mapM_some hes).2.1 e).1 he
    rw [List.mem_filter] at hr
    rw [h r hr.1 (by simpa using hr.2) e hre]
    simp
  rw [this]
  simp

theorem half_used {starts : List Nat} {ls : List Str}
    (h : ∀ l ∈ ls, Ihex.Spec.typeText l = ['0', '4'] → Ihex.Spec.half (Ihex.Spec.upperText l) ≠ none) (i : Nat) :
    Ihex.Spec.half (Ihex.Spec.usedText starts ls i) ≠ none := by
  unfold Ihex.Spec.usedText
  split
  · unfold Ihex.Spec.selectedText
    cases hg : ((((ls.take i).drop 0).filter (fun l => Ihex.Spec.typeText l = ['0', '4'])).getLast?) with
    | none => decide
    | some l =>
      have hm := List.mem_of_getLast? hg
      rw [List.mem_filter] at hm
      exact h l (List.mem_of_mem_take (List.mem_of_mem_drop hm.1)) (by simpa using hm.2)
  · decide

theorem entries_ok {l seg : Str} (hs : Ihex.Spec.LineSumOk l) (hl : seg.length = 4) (hh : Ihex.Spec.half seg ≠ none) :
    ∃ bs, Ihex.calcDataEntries { Ihex.recOfLine l with offset := seg } = some ⟨bs, false⟩ := by
  obtain ⟨⟨ds, h1, h2⟩, x, y, h3, h4⟩ := Ihex.lineSumOk_parts hs
  rcases Ihex.decodeString_half hl with ⟨hn, hh'⟩ | ⟨u, v, hd, _⟩
  · exact absurd hh' hh
  · exact ⟨_, Ihex.calcDataLoop_eq (r := { Ihex.recOfLine l with offset := seg }) h3 hd _ ds 0 h1⟩

theorem ihex_sums {n : Nat} {lines : List Str} (hb : ¬ Bad (ihex n) (Ihex.recordsOf n lines)) :
    ∀ l ∈ Ihex.Spec.recognised n lines, Ihex.Spec.LineSumOk l := by
  intro l hl
  rw [ihex_bad, Ihex.recordsOf_eq] at hb
  rw [← Ihex.checksumOk_recOfLine]
  cases hc : Ihex.checksumOk (Ihex.recOfLine l) with
  | true => rfl
  | false =>
    exfalso
    apply hb
    rw [List.any_eq_true]
    exact ⟨_, List.mem_map.2 ⟨l, hl, rfl⟩, by rw [hc]; rfl⟩

theorem ihex_one {n : Nat} {lines : List Str}
    (h : ∀ l ∈ Ihex.Spec.recognised n lines, Ihex.Spec.typeText l = ['0', '4'] → Ihex.Spec.half (Ihex.Spec.upperText l) ≠ none)
    (hb : ¬ Bad (ihex n) (Ihex.recordsOf n lines)) (ks : List Nat) (s : (ihex n).shared.S) (scripts : List (List (List DataByte)))
    (hr : (ihex n).shared.run ((ihex n).shared.start (Ihex.recordsOf n lines)) ks = some s) (hd : (ihex n).shared.done s = true)
    (hsc : ((shares? ((ihex n).shared.recs s) n).bind fun parts => parts.mapM (ihex n).bytes) = some scripts) :
    ∀ b ∈ scripts, b.length ≤ 1 := by
  intro b hbm
  obtain ⟨parts, hp, hsc⟩ := Option.bind_eq_some_iff.1 hsc
  obtain ⟨part, hpart, hb1⟩ := ((mapM_some hsc).2.1 b).1 hbm
  rw [shares?_eq] at hp
  cases hp
  obtain ⟨i, _, rfl⟩ := List.mem_map.1 hpart
  refine ihex_one_batch (fun r hr' ht e he => ?_) hb1
  have hmem := Ihex.mem_share hr'
  obtain ⟨sched, h1, h2⟩ := ihex_done hr hd
  rw [Ihex.recordsOf_eq] at h1 h2
  have hrecs := Ihex.C01_exact ((List.range n).map fun i => shareStart ((Ihex.Spec.recognised n lines).map Ihex.recOfLine).length n i)
    (Ihex.fresh_recOfLine _) sched h1
  have hs : (s : Ihex.Locks.LState).recs = _ := h2.symm.trans hrecs
  have hmem' : r ∈ (s : Ihex.Locks.LState).recs := hmem
  rw [hs] at hmem'
  unfold Ihex.Seg.deliver at hmem'
  obtain ⟨j, hj, hrj⟩ := List.mem_mapIdx.1 hmem'
  rw [List.getElem_map] at hrj
  have hlen : j < (Ihex.Spec.recognised n lines).length := by simpa using hj
  have hl := List.getElem_mem hlen
  rw [Ihex.delivered_text] at hrj
  split at hrj
  · subst hrj
    have h13 : ∀ l ∈ Ihex.Spec.recognised n lines, Ihex.Spec.typeText l = ['0', '4'] → 13 ≤ l.length := by
      intro l hl ht
      obtain ⟨_, h11, hm⟩ := Ihex.mem_recognised hl
      apply Classical.byContradiction
      intro hlt
      exact hm ⟨h11, Or.inr ⟨ht, by omega⟩⟩
    obtain ⟨bs, hbs⟩ := entries_ok (ihex_sums hb _ hl) (Ihex.usedText_length h13 j) (half_used h j)
    rw [hbs] at he
    cases he
    rfl
  · next hne =>
    subst hrj
    exact absurd ht hne

/-! ### S19 -/

/-- srec19/hex.go:101-191: no goroutine changes records. -/
def srec : Prog Srec.Record :=
  { shared := { S := List Srec.Record, start := id, step := fun _ _ => none, done := fun _ => true, recs := id },
    parse := Srec.parseRecordRoutine, valid := Srec.validateChecksum, bytes := Srec.calcDataRoutine }

theorem srec_reach {recs : List Srec.Record} {ks : List Nat} {s : srec.shared.S} (h : srec.shared.run (srec.shared.start recs) ks = some s) :
    s = recs := by
  cases ks with
  | nil => cases h; rfl
  | cons k ks => cases h

theorem srec_total {n : Nat} (hn : 0 < n) (lines : List Str) :
    Total srec n lines ((Srec.Spec.recognised n lines).map Srec.recOfLine) where
  parse := by
    have h := Srec.parseRecords_eq n lines
    unfold Srec.parseRecords at h
    obtain ⟨parts, hp, h⟩ := Option.bind_eq_some_iff.1 h
    obtain ⟨rss, hr, h⟩ := Option.bind_eq_some_iff.1 h
    refine ⟨rss, by rw [hp]; exact hr, ?_⟩
    simpa using h
  valid := by
    rw [shares?_eq]
    have : ∀ p ∈ (List.range n).map (share ((Srec.Spec.recognised n lines).map Srec.recOfLine) n),
        ∃ vs, p.mapM Srec.validateChecksum = some vs := by
      intro p hp
      refine mapM_total fun r hr => ?_
      obtain ⟨i, _, rfl⟩ := List.mem_map.1 hp
      obtain ⟨v, hv, _⟩ := Srec.validateChecksum_eq (Srec.recognised_shape r (Ihex.mem_share hr))
      exact ⟨v, hv⟩
    obtain ⟨vss, hv⟩ := mapM_total this
    refine ⟨vss, hv, ?_⟩
    rw [(mapM_some hv).1]
    simp
  bytes := by
    intro ks s hr hd
    cases srec_reach hr
    rw [shares?_eq]
    refine mapM_total fun p hp => ?_
    obtain ⟨i, _, rfl⟩ := List.mem_map.1 hp
    obtain ⟨bs, hb, _⟩ := Srec.calcDataRoutine_flatten (fun r hr => Srec.recognised_shape r (Ihex.mem_share hr))
    exact ⟨bs, hb⟩

theorem srec_bad {n : Nat} (lines : List Str) : Bad srec ((Srec.Spec.recognised n lines).map Srec.recOfLine) ↔
    ((Srec.Spec.recognised n lines).map Srec.recOfLine).any (fun r => !Srec.checksumOk r) = true := by
  simp only [Bad, List.any_eq_true]
  constructor <;> rintro ⟨r, hr, h⟩ <;> refine ⟨r, hr, ?_⟩ <;>
    obtain ⟨v, hv, hiff⟩ := Srec.validateChecksum_eq (Srec.recognised_shape r hr)
  · cases hc : Srec.checksumOk r with
    | false => rfl
    | true => exact absurd (hv.trans (congrArg some (hiff.2 hc))) h
  · intro hv'
    have : v = some true := Option.some.inj (hv.symm.trans hv')
    rw [hiff.1 this] at h
    cases h

theorem srec_result {n : Nat} (hn : 0 < n) {lines : List Str} {o : Outcome}
    (h : Result srec n ((Srec.Spec.recognised n lines).map Srec.recOfLine) o) : Srec.parseHex n lines = some o := by
  rw [Srec.parseHex_eq hn]
  rcases h with ⟨hb, rfl⟩ | ⟨hb, ks, s, hr, hd, rfl⟩
  · rw [if_pos ((srec_bad lines).1 hb)]
  · cases srec_reach hr
    rw [if_neg (fun h => hb ((srec_bad lines).2 h))]
    have hc := Srec.collectData_eq hn (Srec.recognised_shape (n := n) (lines := lines))
    unfold Srec.collectData at hc
    obtain ⟨parts, hp, hc⟩ := Option.bind_eq_some_iff.1 hc
    obtain ⟨bss, hb, hc⟩ := Option.bind_eq_some_iff.1 hc
    have : bytesOf srec n ((Srec.Spec.recognised n lines).map Srec.recOfLine) = bss.flatten.flatten := by
      unfold bytesOf
      rw [hp, Option.bind_some, show parts.mapM srec.bytes = some bss from hb]
    show _ = some (insertBytes Mem.empty (bytesOf srec n ((Srec.Spec.recognised n lines).map Srec.recOfLine)))
    rw [this]
    exact hc.symm

theorem srec_shared_progress {recs : List Srec.Record} : ∀ ks s, srec.shared.run (srec.shared.start recs) ks = some s →
    srec.shared.done s = false → ∃ k s', srec.shared.step s k = some s' := by
  intro _ _ _ h
  cases h

theorem srec_shared_work {recs : List Srec.Record} : ∀ ks s k s', srec.shared.run (srec.shared.start recs) ks = some s →
    srec.shared.step s k = some s' → (0 : Nat) < 0 := by
  intro _ _ _ _ _ h
  cases h

theorem srec_one {n : Nat} {lines : List Str} (hb : ¬ Bad srec ((Srec.Spec.recognised n lines).map Srec.recOfLine)) (ks : List Nat)
    (s : srec.shared.S) (scripts : List (List (List DataByte)))
    (hr : srec.shared.run (srec.shared.start ((Srec.Spec.recognised n lines).map Srec.recOfLine)) ks = some s)
    (hd : srec.shared.done s = true)
    (hsc : ((shares? (srec.shared.recs s) n).bind fun parts => parts.mapM srec.bytes) = some scripts) : ∀ b ∈ scripts, b.length ≤ 1 := by
  cases srec_reach hr
  intro b hbm
  obtain ⟨parts, hp, hsc⟩ := Option.bind_eq_some_iff.1 hsc
  obtain ⟨part, hpart, hb1⟩ := ((mapM_some hsc).2.1 b).1 hbm
  rw [shares?_eq] at hp
  cases hp
  obtain ⟨i, _, rfl⟩ := List.mem_map.1 hpart
  have hb1' : Srec.calcDataRoutine (share ((Srec.Spec.recognised n lines).map Srec.recOfLine) n i) = some b := hb1
  unfold Srec.calcDataRoutine at hb1'
  obtain ⟨es, hes, hb1'⟩ := Option.bind_eq_some_iff.1 hb1'
  cases hb1'
  have : es.filter (·.failed) = [] := by
    rw [List.filter_eq_nil_iff]
    intro e he
    obtain ⟨r, hr, hre⟩ := ((mapM_some hes).2.1 e).1 he
    rw [List.mem_filter] at hr
    obtain ⟨l, hl, rfl⟩ := List.mem_map.1 (Ihex.mem_share hr.1)
    have hsum : Srec.Spec.LineSumOk l := by
      rw [srec_bad] at hb
      rw [← Srec.checksumOk_recOfLine]
      cases hc : Srec.checksumOk (Srec.recOfLine l) with
      | true => rfl
      | false =>
        exfalso
        apply hb
        rw [List.any_eq_true]
        exact ⟨_, List.mem_map.2 ⟨l, hl, rfl⟩, by rw [hc]; rfl⟩
    obtain ⟨bs, hbs⟩ := Srec.entries_ok hsum
    rw [hbs] at hre
    cases hre
    simp
  rw [this]
  simp

end Verif.Conc.HexRun
