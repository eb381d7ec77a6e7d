import Verif.Ihex.Exact
import Verif.Ihex.ExactSpec

/-!
C01 and C05, exactly: what the reader delivers for every list of records and every well-formed file.
-/

namespace Verif.Ihex
open Verif.Go

variable {R : List Record}

theorem selected_zero (R : List Record) (i : Nat) : Seg.selected R 0 i = segOf R i := rfl

theorem selected_some {a i : Nat} {x : Str} (h : Seg.selected R a i = some x) : segOf R i = some x := by
  unfold segOf
  unfold Seg.selected at h
  rw [← List.take_append_drop a (R.take i), List.filter_append, List.getLast?_append, Option.map_or]
  have h' : Option.map (fun x => x.offset) (List.filter (fun r : Record => decide (r.recordType = extendedLinearAddressRecordToken))
    (List.drop a (List.take i R))).getLast? = some x := h
  rw [h']
  rfl

theorem selected_isSome {a i : Nat} : (Seg.selected R a i).isSome = true ↔ HasEla R a i := by
  unfold Seg.selected
  rw [Option.isSome_map, List.getLast?_isSome]
  constructor
  · intro h
    obtain ⟨r, hr⟩ := List.exists_mem_of_ne_nil _ h
    rw [List.mem_filter] at hr
    obtain ⟨k, hk⟩ := List.mem_iff_getElem?.mp hr.1
    rw [List.getElem?_drop, List.getElem?_take] at hk
    split at hk
    · exact ⟨a + k, r, by omega, by omega, hk, of_decide_eq_true hr.2⟩
    · simp at hk
  · rintro ⟨k, r, h1, h2, h3, h4⟩
    apply List.ne_nil_of_mem (a := r)
    rw [List.mem_filter]
    refine ⟨?_, decide_eq_true h4⟩
    apply List.mem_of_getElem? (i := k - a)
    rw [List.getElem?_drop, List.getElem?_take, if_pos (by omega)]
    rw [show a + (k - a) = k by omega]
    exact h3

theorem dataAt_iff {b : Nat} : Seg.DataAt R b ↔ Data R b := by
  unfold Seg.DataAt Data
  cases R[b]? with
  | none => simp
  | some r =>
    simp only [Option.map_some, Option.some.injEq, exists_eq_left']
    exact Iff.rfl

theorem arrives_iff {a i : Nat} : Seg.Arrives R a i ↔ HasEla R a i ∧ ¬ Blocked R a i := by
  unfold Seg.Arrives
  rw [selected_isSome]
  refine and_congr_right fun _ => ⟨?_, ?_⟩
  · rintro h ⟨b, hb, hd, he, hs⟩
    obtain ⟨x, hx⟩ := Option.isSome_iff_exists.mp (selected_isSome.mpr he)
    have := selected_some hx
    unfold seg at hs
    rw [this] at hs
    simp only [Option.getD_some] at hs
    subst hs
    exact h b hb (dataAt_iff.mpr hd) hx
  · intro h b hb hd hx
    refine h ⟨b, hb, dataAt_iff.mp hd, selected_isSome.mp (by rw [hx]; rfl), ?_⟩
    unfold seg
    rw [selected_some hx]
    rfl

theorem reach_iff {starts : List Nat} {i : Nat} : (∃ a ∈ starts, Seg.Arrives R a i) ↔ Reach R (· ∈ starts) i := by
  unfold Reach
  constructor
  · rintro ⟨a, h1, h2⟩; exact ⟨a, h1, arrives_iff.mp h2⟩
  · rintro ⟨a, h1, h2⟩; exact ⟨a, h1, arrives_iff.mpr h2⟩

/-- C01, exactly: for every list of records as the line parser makes them, every set of start positions and every
interleaving that runs to the end, the records are those of the specification. -/
theorem C01_exact (starts : List Nat) {recs : List Record} (hf : Seg.Fresh recs) (sched : List Nat)
    (hdone : (runOffsets (initAt starts recs) sched).allDone = true) :
    (runOffsets (initAt starts recs) sched).recs = Seg.deliver starts recs := by
  obtain ⟨f, hx⟩ := runOffsets_xinv sched ⟨_, initAt_xinv starts hf⟩
  apply List.ext_getElem?
  intro i
  unfold Seg.deliver
  rw [List.getElem?_mapIdx]
  cases hr : recs[i]? with
  | none => rw [hx.recs i, hr]; rfl
  | some r =>
    obtain ⟨h1, h2⟩ := hx.final hdone i hr
    simp only [Option.map_some]
    by_cases hd : IsData r
    · have hd0 : r.recordType = ['0', '0'] := hd
      rw [if_pos hd0]
      obtain ⟨h3, h4⟩ := h2 hd
      unfold Seg.delivered
      by_cases hre : Reach recs (· ∈ starts) i
      · rw [if_pos (reach_iff.mpr hre), h3 hre]; rfl
      · rw [if_neg (fun h => hre (reach_iff.mp h)), h4 hre]; rfl
    · have hd0 : ¬ r.recordType = ['0', '0'] := hd
      rw [if_neg hd0, h1 hd]

/-- Which records arrive does not depend on the interleaving, whatever the records. -/
theorem C01_schedule (starts : List Nat) {recs : List Record} (hf : Seg.Fresh recs) (sched sched' : List Nat)
    (h : (runOffsets (initAt starts recs) sched).allDone = true)
    (h' : (runOffsets (initAt starts recs) sched').allDone = true) :
    (runOffsets (initAt starts recs) sched).recs = (runOffsets (initAt starts recs) sched').recs := by
  rw [C01_exact starts hf sched h, C01_exact starts hf sched' h']

/-- The records delivered are the right ones exactly if every data record in a segment other than 0 is arrived at from some
start position. -/
theorem deliver_right_iff (starts : List Nat) {recs : List Record} :
    Seg.deliver starts recs = Seg.applySegments ['0', '0', '0', '0'] recs ↔
      ∀ i o, Seg.DataAt recs i → Seg.segOf recs i = some o → o ≠ ['0', '0', '0', '0'] →
        ∃ a ∈ starts, Seg.Arrives recs a i := by
  have hs : Seg.applySegments ['0', '0', '0', '0'] recs = applySegments zeroOffset recs := (applySegments_spec _ _).symm
  rw [hs]
  constructor
  · intro h i o hd ho hne
    have hi := congrArg (·[i]?) h
    simp only [Seg.deliver, List.getElem?_mapIdx, applySegments_getElem?] at hi
    obtain ⟨r, hr, hrd⟩ := dataAt_iff.mp hd
    rw [hr] at hi
    simp only [Option.map_some, Option.some.injEq] at hi
    have hrd0 : r.recordType = ['0', '0'] := hrd
    rw [if_pos hrd, if_pos hrd0] at hi
    have ho' : segOf recs i = some o := ho
    apply Classical.byContradiction
    intro hn
    unfold Seg.delivered at hi
    rw [if_neg hn, ho'] at hi
    exact hne (congrArg Record.offset hi).symm
  · intro h
    apply List.ext_getElem?
    intro i
    simp only [Seg.deliver, List.getElem?_mapIdx, applySegments_getElem?]
    cases hr : recs[i]? with
    | none => rfl
    | some r =>
      simp only [Option.map_some, Option.some.injEq]
      by_cases hd : IsData r
      · have hd0 : r.recordType = ['0', '0'] := hd
        rw [if_pos hd, if_pos hd0]
        congr 1
        unfold Seg.delivered
        rw [selected_zero]
        cases ho : segOf recs i with
        | none => simp; rfl
        | some o =>
          by_cases hz : o = ['0', '0', '0', '0']
          · subst hz; simp
          · rw [if_pos (h i o (dataAt_iff.mpr ⟨r, hr, hd⟩) ho hz)]; rfl
      · have hd0 : ¬ r.recordType = ['0', '0'] := hd
        rw [if_neg hd, if_neg hd0]

/-- C01, exactly when it holds. -/
theorem C01_iff (starts : List Nat) {recs : List Record} (hf : Seg.Fresh recs) (sched : List Nat)
    (hdone : (runOffsets (initAt starts recs) sched).allDone = true) :
    (runOffsets (initAt starts recs) sched).recs = Seg.applySegments ['0', '0', '0', '0'] recs ↔
      ∀ i o, Seg.DataAt recs i → Seg.segOf recs i = some o → o ≠ ['0', '0', '0', '0'] →
        ∃ a ∈ starts, Seg.Arrives recs a i := by
  rw [C01_exact starts hf sched hdone]
  exact deliver_right_iff starts

/-- The hypothesis of `C01_parseHex_partial` cannot be weakened: the records are right for every number of CPUs and every
interleaving exactly if it holds. -/
theorem C01_tight {recs : List Record} (hf : Seg.Fresh recs) :
    (∀ n sched, 0 < n → (runOffsets (initOffsets n recs) sched).allDone = true →
      (runOffsets (initOffsets n recs) sched).recs = Seg.applySegments ['0', '0', '0', '0'] recs) ↔
    Seg.ZeroSegmentLast recs := by
  constructor
  · intro h
    have hdone : (runOffsets (initOffsets 1 recs) (List.replicate (recs.length + 1) 0)).allDone = true := by
      apply C01_terminates
      intro k hk
      have : k = 0 := by simpa using hk
      subst this
      simp
    have h1 := (C01_iff _ hf _ hdone).mp (h 1 _ (by omega) hdone)
    intro b i rb ri hlt hb hi hdb hdi hseg
    have hela : HasEla recs 0 b := selected_isSome.mp (by rw [selected_zero]; exact (congrArg Option.isSome hseg))
    have hsome : (segOf recs i).isSome := segOf_isSome_of_hasEla (hasEla_mono hela (by omega))
    obtain ⟨o, ho⟩ := Option.isSome_iff_exists.mp hsome
    apply Classical.byContradiction
    intro hne
    have hne' : o ≠ ['0', '0', '0', '0'] := by
      intro he; subst he; exact hne ho
    obtain ⟨a, ha, har⟩ := h1 i o (dataAt_iff.mpr ⟨ri, hi, hdi⟩) ho hne'
    have : a = 0 := by simpa [shareStart] using ha
    subst this
    exact har.2 b hlt (dataAt_iff.mpr ⟨rb, hb, hdb⟩) hseg
  · intro hz n sched hn hdone
    exact C01_parseHex_partial hn hf hz sched hdone

-- `badRecs 1` is Fresh; its last data record is lost from position 0 but arrives from position 2
example : Seg.deliver [0] (badRecs 1) ≠ Seg.applySegments ['0', '0', '0', '0'] (badRecs 1) ∧
    Seg.deliver [0, 2] (badRecs 1) = Seg.applySegments ['0', '0', '0', '0'] (badRecs 1) := by decide +kernel
example : (runOffsets (initAt [0, 2] (badRecs 1)) [0, 1, 0, 1, 1, 0, 1, 0, 1, 0]).allDone = true := by decide +kernel

/-! ### C73: the interleaving does not matter for whole files -/

theorem fresh_recOfLine (ls : List Str) : Fresh (ls.map recOfLine) := by
  intro r hr hd
  obtain ⟨l, _, rfl⟩ := List.mem_map.mp hr
  have ht : (l.drop 7).take 2 = dataRecordToken := hd
  show (if (l.drop 7).take 2 = ['0', '4'] then _ else zeroOffset) = zeroOffset
  rw [ht]
  rfl

/-- C73: whatever the text, two runs on the same number of CPUs that both return give the same outcome, including the
error and the partial map that comes with it. -/
theorem C73_schedule {n : Nat} (hn : 0 < n) (lines : List Str) {sched sched' : List Nat} {o o' : Outcome}
    (h : parseHex n sched lines = some (some o)) (h' : parseHex n sched' lines = some (some o')) : o = o' := by
  rw [parseHex_eq hn] at h h'
  simp only [Option.some.injEq] at h h'
  split at h
  · next hb =>
    rw [if_pos hb] at h'
    rw [h] at h'
    exact Option.some.inj h'
  · next hb =>
    rw [if_neg hb] at h'
    split at h
    · next hd =>
      split at h'
      · next hd' =>
        have hf : Seg.Fresh (recordsOf n lines) := by rw [recordsOf_eq]; exact fresh_recOfLine _
        rw [show (runOffsets (initOffsets n (recordsOf n lines)) sched).recs = _ from
          C01_schedule _ hf sched sched' hd hd'] at h
        exact (Option.some.inj h).symm.trans (Option.some.inj h')
      · simp at h'
    · simp at h

/-! ### Whole files, exactly -/

open Spec Verif.Hex Verif.Hex.Spec

theorem AllDecoded.take {rs : List Record} {rcs : List Rec} (h : AllDecoded rs rcs) (i : Nat) :
    AllDecoded (rs.take i) (rcs.take i) := by
  induction h generalizing i with
  | nil => simpa using AllDecoded.nil
  | cons h1 h2 _ ih =>
    cases i with
    | zero => exact .nil
    | succ i => exact .cons h1 h2 (ih i)

theorem AllDecoded.drop {rs : List Record} {rcs : List Rec} (h : AllDecoded rs rcs) (i : Nat) :
    AllDecoded (rs.drop i) (rcs.drop i) := by
  induction h generalizing i with
  | nil => simpa using AllDecoded.nil
  | cons h1 h2 h3 ih =>
    cases i with
    | zero => exact .cons h1 h2 h3
    | succ i => exact ih i

/-- An upper half in letters and as a number. -/
inductive UpRel : Option Str → Option Nat → Prop
  | none : UpRel none none
  | some {o : Str} {x y : Nat} : decodeString o = some [x, y] → (o = zeroOffset ↔ x * 256 + y = 0) →
      UpRel (some o) (some (x * 256 + y))

theorem Decoded.upRel {r : Record} {rc : Rec} (hd : Decoded r rc) (he : IsEla r) (hl : 2 ≤ rc.data.length) :
    UpRel (some r.offset) (some rc.upper) := by
  obtain ⟨s0, s1, hoff, h0, h1⟩ := hd.offset he hl
  have l0 : s0.length = 2 := by rw [← hexToByte_eq] at h0; exact hexToByte_length h0
  refine .some (by rw [hoff]; exact decodeString_two h0 h1) ?_
  rw [hoff]
  constructor
  · intro h
    have e0 : s0 = ['0', '0'] := by
      have := congrArg (List.take 2) h
      rwa [List.take_append_of_le_length (by omega), List.take_of_length_le (by omega)] at this
    have e1 : s1 = ['0', '0'] := by
      have := congrArg (List.drop 2) h
      rwa [List.drop_append_of_le_length (by omega), List.drop_of_length_le (by omega),
        List.nil_append] at this
    rw [specByte_zero.mpr e0] at h0
    rw [specByte_zero.mpr e1] at h1
    have h0' := Option.some.inj h0
    have h1' := Option.some.inj h1
    omega
  · intro h
    have z0 : rc.data.getD 0 0 = 0 := by omega
    have z1 : rc.data.getD 1 0 = 0 := by omega
    rw [z0] at h0
    rw [z1] at h1
    rw [specByte_zero.mp h0, specByte_zero.mp h1]
    rfl

theorem AllDecoded.lastEla {rs : List Record} {rcs : List Rec} (h : AllDecoded rs rcs) :
    UpRel ((rs.filter (fun r => r.recordType = ['0', '4'])).getLast?.map (·.offset))
      ((rcs.filter (fun r => r.typ = 4)).getLast?.map Rec.upper) := by
  induction h with
  | nil => exact .none
  | @cons r rc rs rcs hd hl _ ih =>
    by_cases he : IsEla r
    · have ht := hd.isEla.mp he
      have he' : r.recordType = ['0', '4'] := he
      rw [List.filter_cons_of_pos (by simpa using he'), List.filter_cons_of_pos (by simpa using ht),
        List.getLast?_cons, List.getLast?_cons]
      revert ih
      cases (List.filter (fun r : Record => decide (r.recordType = ['0', '4'])) rs).getLast? with
      | none =>
        cases (List.filter (fun r : Rec => decide (r.typ = 4)) rcs).getLast? with
        | none => intro _; exact hd.upRel he (hl ht)
        | some x => intro h; cases h
      | some y =>
        cases (List.filter (fun r : Rec => decide (r.typ = 4)) rcs).getLast? with
        | none => intro h; cases h
        | some x => intro h; exact h
    · have ht : ¬ rc.typ = 4 := fun h => he (hd.isEla.mpr h)
      have he' : ¬ r.recordType = ['0', '4'] := he
      rw [List.filter_cons_of_neg (by simpa using he'), List.filter_cons_of_neg (by simpa using ht)]
      exact ih

theorem AllDecoded.selected {rs : List Record} {rcs : List Rec} (h : AllDecoded rs rcs) (a i : Nat) :
    UpRel (Seg.selected rs a i) (Spec.selected rcs a i) :=
  ((h.take i).drop a).lastEla

theorem AllDecoded.dataAt {rs : List Record} {rcs : List Rec} (h : AllDecoded rs rcs) (b : Nat) :
    Seg.DataAt rs b ↔ rcs[b]?.map (·.typ) = some 0 := by
  unfold Seg.DataAt
  induction h generalizing b with
  | nil => simp
  | @cons r rc rs rcs hd _ _ ih =>
    cases b with
    | zero =>
      simp only [List.getElem?_cons_zero, Option.map_some, Option.some.injEq]
      exact hd.isData
    | succ b => simpa using ih b

theorem AllDecoded.arrives {rs : List Record} {rcs : List Rec} (h : AllDecoded rs rcs) (a i : Nat) :
    Seg.Arrives rs a i ↔ Spec.Arrives rcs a i := by
  unfold Seg.Arrives Spec.Arrives
  have h1 : ∀ i, (Seg.selected rs a i).isSome = (Spec.selected rcs a i).isSome := by
    intro i
    have := h.selected a i
    revert this
    generalize Seg.selected rs a i = u
    generalize Spec.selected rcs a i = v
    intro this
    cases this <;> rfl
  have h2 : ∀ b, Seg.selected rs a b = some ['0', '0', '0', '0'] ↔ Spec.selected rcs a b = some 0 := by
    intro b
    have := h.selected a b
    revert this
    generalize Seg.selected rs a b = u
    generalize Spec.selected rcs a b = v
    intro this
    cases this with
    | none => simp
    | some _ h3 =>
      simp only [Option.some.injEq]
      exact h3
  rw [h1]
  refine and_congr_right fun _ => ⟨?_, ?_⟩
  · intro hh b hb hd he
    exact hh b hb ((h.dataAt b).mpr hd) ((h2 b).mpr he)
  · intro hh b hb hd he
    exact hh b hb ((h.dataAt b).mp hd) ((h2 b).mp he)

theorem AllDecoded.delivered {rs : List Record} {rcs : List Rec} (h : AllDecoded rs rcs) (starts : List Nat) (i : Nat) :
    ∃ x y, decodeString (Seg.delivered starts rs i) = some [x, y] ∧ x * 256 + y = storedSeg starts rcs i := by
  unfold Seg.delivered storedSeg
  have hiff : (∃ a ∈ starts, Seg.Arrives rs a i) ↔ (∃ a ∈ starts, Spec.Arrives rcs a i) := by
    constructor
    · rintro ⟨a, h1, h2⟩; exact ⟨a, h1, (h.arrives a i).mp h2⟩
    · rintro ⟨a, h1, h2⟩; exact ⟨a, h1, (h.arrives a i).mpr h2⟩
  by_cases hc : ∃ a ∈ starts, Seg.Arrives rs a i
  · rw [if_pos hc, if_pos (hiff.mp hc)]
    have := h.selected 0 i
    revert this
    generalize Seg.selected rs 0 i = u
    generalize Spec.selected rcs 0 i = v
    intro this
    cases this with
    | none => exact ⟨0, 0, by decide, rfl⟩
    | @some o x y h1 _ => exact ⟨x, y, h1, rfl⟩
  · rw [if_neg hc, if_neg (fun h => hc (hiff.mpr h))]
    exact ⟨0, 0, by decide, rfl⟩

theorem AllDecoded.dataBytesIdx {rs : List Record} {rcs : List Rec} (h : AllDecoded rs rcs) :
    ∀ (o : Nat → Str) (g : Nat → Nat), (∀ i, ∃ x y, decodeString (o i) = some [x, y] ∧ x * 256 + y = g i) → ∀ k,
      Verif.Ihex.dataBytes (rs.mapIdx fun i r => if r.recordType = ['0', '0'] then { r with offset := o (i + k) } else r) =
        ((rcs.zipIdx k).flatMap fun (r, i) =>
          if r.typ = 0 then r.data.zipIdx.map fun (b, j) => (g i * 65536 + (r.addr + j) % 65536, b)
          else []).map (fun p => ⟨p.1, p.2⟩) := by
  induction h with
  | nil => intro o g _ k; rfl
  | @cons r rc rs rcs hd hela _ ih =>
    intro o g hog k
    rw [List.mapIdx_cons, List.zipIdx_cons, List.flatMap_cons, List.map_append, ← ih o g hog (k + 1)]
    have hfun : (fun i r => if r.recordType = ['0', '0'] then { r with offset := o (i + 1 + k) } else r : Nat → Record → Record) =
        (fun i r => if r.recordType = ['0', '0'] then { r with offset := o (i + (k + 1)) } else r) := by
      funext i r
      rw [show i + 1 + k = i + (k + 1) by omega]
    rw [hfun]
    by_cases hdt : IsData r
    · have ht0 := hd.isData.mp hdt
      have hdt0 : r.recordType = ['0', '0'] := hdt
      rw [if_pos hdt0]
      simp only [ht0, if_true]
      obtain ⟨ah, al, ha, hadr, _, _⟩ := hd.addr
      obtain ⟨oh, ol, ho, hg⟩ := hog k
      rw [Nat.zero_add]
      have he' : entriesOf { r with offset := o k } = ⟨(rc.data.zipIdx 0).map fun (b, i) =>
          ⟨(oh * 256 + ol) * 65536 + (ah * 256 + al + i) % 65536, b⟩, false⟩ := by
        unfold entriesOf calcDataEntries
        rw [calcDataLoop_eq (r := { r with offset := o k }) ha ho r.data rc.data 0 hd.data]
        rfl
      have hdt' : ({ r with offset := o k } : Record).recordType = dataRecordToken := hdt
      unfold Verif.Ihex.dataBytes
      rw [List.filter_cons_of_pos (by simpa using hdt'), List.map_cons, List.flatten_cons, he']
      simp [hadr, Function.comp_def, hg]
    · have ht0 : ¬ rc.typ = 0 := fun h => hdt (hd.isData.mpr h)
      have hdt0 : ¬ r.recordType = ['0', '0'] := hdt
      rw [if_neg hdt0]
      simp [Verif.Ihex.dataBytes, hdt, ht0]

/-- C05, exactly: on `n` CPUs, whatever the interleaving, reading a well-formed file succeeds iff all sums are right and
no address is stored to twice, and then the map holds exactly the pairs `storedFile n lines`. -/
theorem C05_exact {n : Nat} (hn : 0 < n) {lines : List Str} (hwf : WellFormed lines) {sched : List Nat} {o : Outcome}
    (h : parseHex n sched lines = some (some o)) :
    (o.err = none ↔ (∀ r ∈ Spec.recs lines, r.SumOk) ∧ ((storedFile n lines).map Prod.fst).Nodup) ∧
    (o.err = none → ∀ a v, o.map a = some v ↔ (a, v) ∈ storedFile n lines) := by
  rw [parseHex_eq hn, recordsOf_eq, wellFormed_recognised hn hwf] at h
  have had := allDecoded_of_wf (significant lines) hwf
  have hbad := had.any_bad
  simp only [Option.some.injEq] at h
  split at h
  · next hany =>
    simp only [Option.some.injEq] at h
    subst h
    have := hbad.mp hany
    exact ⟨⟨by simp, fun hc => absurd hc.1 this⟩, by simp⟩
  · next hany =>
    split at h
    · next hdone =>
      simp only [Option.some.injEq] at h
      subst h
      have hrecs := C01_exact _ had.fresh sched hdone
      have hsum : ∀ rc ∈ Spec.recs lines, rc.SumOk := by
        apply Classical.byContradiction
        intro hh
        exact hany (hbad.mpr hh)
      have hst : (List.range n).map (fun i => shareStart ((significant lines).map recOfLine).length n i) =
          startsOf n (Spec.recs lines).length := by
        unfold startsOf shareStart Spec.recs
        rw [had.length]
      have hrecs' : (runOffsets (initOffsets n ((significant lines).map recOfLine)) sched).recs = _ := hrecs
      rw [hst] at hrecs'
      have hdb : Verif.Ihex.dataBytes (runOffsets (initOffsets n ((significant lines).map recOfLine)) sched).recs =
          (storedFile n lines).map (fun p => ⟨p.1, p.2⟩) := by
        rw [hrecs']
        exact had.dataBytesIdx _ _ (fun i => had.delivered (startsOf n (Spec.recs lines).length) i) 0
      rw [hdb]
      obtain ⟨h1, h2⟩ := insertBytes_ok ((storedFile n lines).map (fun p => (⟨p.1, p.2⟩ : DataByte))) Mem.empty
      constructor
      · rw [h1]
        simp only [List.map_map, Function.comp_def, Mem.empty, implies_true, and_true]
        constructor
        · intro h; exact ⟨hsum, h⟩
        · intro h; exact h.2
      · intro herr a v
        rw [h2 herr]
        simp only [Mem.empty, List.mem_map]
        constructor
        · rintro (h | ⟨p, hp, he⟩)
          · simp at h
          · injection he with e1 e2
            subst e1; subst e2
            exact hp
        · intro h
          exact Or.inr ⟨(a, v), h, rfl⟩
    · simp at h

/-- Two CPU counts that store every line of a well-formed file in the same segments give the same result, and on success
they give the same result only then. -/
theorem C08_exact {n m : Nat} (hn : 0 < n) (hm : 0 < m) {lines : List Str} (hwf : WellFormed lines)
    {sched sched' : List Nat} {o o' : Outcome} (h : parseHex n sched lines = some (some o))
    (h' : parseHex m sched' lines = some (some o')) (he : o.err = none) (he' : o'.err = none) :
    o.map = o'.map ↔ ∀ p, p ∈ storedFile n lines ↔ p ∈ storedFile m lines := by
  have h1 := (C05_exact hn hwf h).2 he
  have h2 := (C05_exact hm hwf h').2 he'
  constructor
  · rintro heq ⟨a, v⟩
    rw [← h1, ← h2, heq]
  · intro hall
    funext a
    cases hv : o.map a with
    | some v => exact ((h2 a v).mpr ((hall _).mp ((h1 a v).mp hv))).symm
    | none =>
      cases hv' : o'.map a with
      | none => rfl
      | some v =>
        have := (h1 a v).mpr ((hall _).mpr ((h2 a v).mp hv'))
        rw [hv] at this
        simp at this

/-- A file whose last data line is stored in segment 0 by one CPU and in segment 2 by two. -/
def cpuLines : List Str := [":020000040000FA".toList, ":0100000007F8".toList, ":020000040002F8".toList,
  ":0101000007F7".toList]

/-- C08 is false of well-formed files too: each of the two runs succeeds, with different maps. -/
theorem C08_false_wellFormed : WellFormed cpuLines ∧ ∀ sched sched' o o',
    parseHex 1 sched cpuLines = some (some o) → parseHex 2 sched' cpuLines = some (some o') →
    o.err = none ∧ o'.err = none ∧ o.map 256 = some 7 ∧ o'.map 256 = none ∧ o'.map 131328 = some 7 := by
  have hwf : WellFormed cpuLines := by
    intro l hl
    have hl' : l ∈ cpuLines := (List.mem_filter.mp hl).1
    simp only [cpuLines, List.mem_cons, List.not_mem_nil, or_false] at hl'
    rcases hl' with rfl | rfl | rfl | rfl
    · exact ⟨⟨2, 0, 4, [0, 0], 250⟩, by decide +kernel, by decide⟩
    · exact ⟨⟨1, 0, 0, [7], 248⟩, by decide +kernel, by decide⟩
    · exact ⟨⟨2, 0, 4, [0, 2], 248⟩, by decide +kernel, by decide⟩
    · exact ⟨⟨1, 256, 0, [7], 247⟩, by decide +kernel, by decide⟩
  refine ⟨hwf, ?_⟩
  intro sched sched' o o' h h'
  obtain ⟨a1, a2⟩ := C05_exact (by omega) hwf h
  obtain ⟨b1, b2⟩ := C05_exact (by omega) hwf h'
  have e1 : storedFile 1 cpuLines = [(0, 7), (256, 7)] := by decide +kernel
  have e2 : storedFile 2 cpuLines = [(0, 7), (131328, 7)] := by decide +kernel
  have hs : ∀ r ∈ Spec.recs cpuLines, r.SumOk := by decide +kernel
  have he : o.err = none := a1.mpr ⟨hs, by rw [e1]; decide⟩
  have he' : o'.err = none := b1.mpr ⟨hs, by rw [e2]; decide⟩
  refine ⟨he, he', (a2 he 256 7).mpr (by rw [e1]; decide), ?_, (b2 he' _ 7).mpr (by rw [e2]; decide)⟩
  cases hv : o'.map 256 with
  | none => rfl
  | some v =>
    have := (b2 he' 256 v).mp hv
    rw [e2] at this
    simp at this

-- the runs exist
example : (∃ o, parseHex 1 (List.replicate 5 0) cpuLines = some (some o)) ∧
    ∃ o, parseHex 2 [0, 1, 0, 1, 0, 1, 0, 1, 0, 1] cpuLines = some (some o) :=
  ⟨C02_returns (by omega) _ _ (by decide), C02_returns (by omega) _ _ (by decide)⟩

/-- C05 in full: for every number of CPUs and every order of steps, the call succeeds exactly when all checksums hold and
no address is given twice, and then holds exactly the pairs of the file. -/
def C05_full : Prop := ∀ (n : Nat) (lines : List Str) (sched : List Nat) (o : Outcome), 0 < n → WellFormed lines →
  parseHex n sched lines = some (some o) →
  (o.err = none ↔ (∀ r ∈ Spec.recs lines, r.SumOk) ∧ ((fileBytes lines).map Prod.fst).Nodup) ∧
  (o.err = none → ∀ a v, o.map a = some v ↔ (a, v) ∈ fileBytes lines)

/-- A file that gives address 10001 (hex) twice, with the bytes 9 and 8. -/
def missedLines : List Str := [":020000040001F9".toList, ":0100010009F5".toList, ":020000040000FA".toList,
  ":0100050007F3".toList, ":020000040001F9".toList, ":0100010008F6".toList]

/-- A file that gives the addresses 1 and 10001 (hex), each once. -/
def spuriousLines : List Str := [":020000040000FA".toList, ":0100010007F7".toList, ":020000040001F9".toList,
  ":0100010009F5".toList]

theorem missed_wellFormed : WellFormed missedLines := by
  intro l hl
  have hl' : l ∈ missedLines := (List.mem_filter.mp hl).1
  simp only [missedLines, List.mem_cons, List.not_mem_nil, or_false] at hl'
  rcases hl' with rfl | rfl | rfl | rfl | rfl | rfl
  · exact ⟨⟨2, 0, 4, [0, 1], 249⟩, by decide +kernel, by decide⟩
  · exact ⟨⟨1, 1, 0, [9], 245⟩, by decide +kernel, by decide⟩
  · exact ⟨⟨2, 0, 4, [0, 0], 250⟩, by decide +kernel, by decide⟩
  · exact ⟨⟨1, 5, 0, [7], 243⟩, by decide +kernel, by decide⟩
  · exact ⟨⟨2, 0, 4, [0, 1], 249⟩, by decide +kernel, by decide⟩
  · exact ⟨⟨1, 1, 0, [8], 246⟩, by decide +kernel, by decide⟩

theorem spurious_wellFormed : WellFormed spuriousLines := by
  intro l hl
  have hl' : l ∈ spuriousLines := (List.mem_filter.mp hl).1
  simp only [spuriousLines, List.mem_cons, List.not_mem_nil, or_false] at hl'
  rcases hl' with rfl | rfl | rfl | rfl
  · exact ⟨⟨2, 0, 4, [0, 0], 250⟩, by decide +kernel, by decide⟩
  · exact ⟨⟨1, 1, 0, [7], 247⟩, by decide +kernel, by decide⟩
  · exact ⟨⟨2, 0, 4, [0, 1], 249⟩, by decide +kernel, by decide⟩
  · exact ⟨⟨1, 1, 0, [9], 245⟩, by decide +kernel, by decide⟩

/-- A collision can be missed: the checksums hold, an address is given twice, and every run of one CPU succeeds, with one of
the two bytes at address 1, that the file does not give. -/
theorem C05_missed : (∀ r ∈ Spec.recs missedLines, r.SumOk) ∧ (65537, 9) ∈ fileBytes missedLines ∧
    (65537, 8) ∈ fileBytes missedLines ∧ 1 ∉ (fileBytes missedLines).map Prod.fst ∧
    ∀ sched o, parseHex 1 sched missedLines = some (some o) →
      o.err = none ∧ o.map 65537 = some 9 ∧ o.map 1 = some 8 := by
  have hs : ∀ r ∈ Spec.recs missedLines, r.SumOk := by decide +kernel
  have e : storedFile 1 missedLines = [(65537, 9), (5, 7), (1, 8)] := by decide +kernel
  refine ⟨hs, by decide +kernel, by decide +kernel, by decide +kernel, ?_⟩
  intro sched o h
  obtain ⟨a1, a2⟩ := C05_exact (by omega) missed_wellFormed h
  have he : o.err = none := a1.mpr ⟨hs, by rw [e]; decide⟩
  exact ⟨he, (a2 he _ _).mpr (by rw [e]; decide), (a2 he _ _).mpr (by rw [e]; decide)⟩

/-- A collision can be reported although there is none: the checksums hold, the file gives each address once, and every run
of one CPU fails. -/
theorem C05_spurious : (∀ r ∈ Spec.recs spuriousLines, r.SumOk) ∧
    ((fileBytes spuriousLines).map Prod.fst).Nodup ∧
    ∀ sched o, parseHex 1 sched spuriousLines = some (some o) → o.err ≠ none := by
  refine ⟨by decide +kernel, by decide +kernel, ?_⟩
  intro sched o h he
  have e : storedFile 1 spuriousLines = [(1, 7), (1, 9)] := by decide +kernel
  have := ((C05_exact (by omega) spurious_wellFormed h).1.mp he).2
  rw [e] at this
  simp at this

/-- The full C05 is false, in both directions of its equivalence. -/
theorem C05_false : ¬ C05_full := by
  intro hfull
  obtain ⟨hs, h9, h8, _, hrun⟩ := C05_missed
  obtain ⟨o, ho⟩ := C02_returns (n := 1) (by omega) missedLines (List.replicate 8 0) (by decide)
  have he := (hrun _ o ho).1
  have h := ((hfull 1 _ _ o (by omega) missed_wellFormed ho).2 he 65537)
  have e9 := (h 9).mpr h9
  have e8 := (h 8).mpr h8
  rw [e9] at e8
  simp at e8

-- the runs of the two files exist
example : (∃ o, parseHex 1 (List.replicate 8 0) missedLines = some (some o)) ∧
    ∃ o, parseHex 1 (List.replicate 8 0) spuriousLines = some (some o) :=
  ⟨C02_returns (by omega) _ _ (by decide), C02_returns (by omega) _ _ (by decide)⟩

end Verif.Ihex
