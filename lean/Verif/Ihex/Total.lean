import Verif.Ihex.Model
import Verif.Hex.Lemmas

/-!
Helper lemmas: none of the partial operations of the Intel HEX parser can panic, and the
parser as a composition of total functions.
-/

namespace Verif.Ihex

open Verif.Go Verif.Hex

/-- Field widths every parsed record has. -/
structure Shape (r : Record) : Prop where
  byteCount : r.byteCount.length = 2
  addressField : r.addressField.length = 4
  recordType : r.recordType.length = 2
  data : ∀ d ∈ r.data, d.length = 2
  checksum : r.checksum.length = 2
  offset : r.offset.length = 4

theorem slice?_length {α : Type _} {s t : List α} {i j : Nat} (h : slice? s i j = some t) :
    t.length = j - i := by
  unfold slice? at h
  split at h
  · next hc =>
    simp only [Option.some.injEq] at h
    subst h
    simp only [List.length_take, List.length_drop]
    omega
  · simp at h

/-- The data loop never panics and yields two-character fields. -/
theorem dataLoop_total (line : Str) : ∀ fuel i, ∃ ds, dataLoop line fuel i = some ds ∧
    ∀ d ∈ ds, d.length = 2 := by
  intro fuel
  induction fuel with
  | zero => intro i; exact ⟨[], rfl, by simp⟩
  | succ fuel ih =>
    intro i
    unfold dataLoop
    split
    · next h =>
      obtain ⟨ds, hds, hl⟩ := ih (i + 2)
      rw [slice?_eq_some (by omega) (by omega)]
      refine ⟨_ :: ds, by simp [hds]; rfl, ?_⟩
      intro d hd
      rcases List.mem_cons.mp hd with rfl | hd
      · simp; omega
      · exact hl d hd
    · exact ⟨[], rfl, by simp⟩

/-- Enough fuel: `len(line)` iterations suffice, more change nothing. -/
theorem dataLoop_fuel (line : Str) : ∀ fuel i, line.length ≤ i + 2 * fuel →
    dataLoop line (fuel + 1) i = dataLoop line fuel i := by
  intro fuel
  induction fuel with
  | zero => intro i h; unfold dataLoop; simp; omega
  | succ fuel ih =>
    intro i h
    rw [dataLoop]
    conv => rhs; rw [dataLoop]
    split
    · rw [ih (i + 2) (by omega)]
    · rfl

theorem parseRecord_total {line : Str} (h : 11 ≤ line.length) :
    (∃ e, parseRecord line = some (.error e)) ∨
    (∃ r, parseRecord line = some (.ok r) ∧ Shape r) := by
  unfold parseRecord
  have h0 : index? line 0 = some (line[0]'(by omega)) := by simp [index?]
  rw [h0]
  simp only [Option.bind_eq_bind, Option.bind_some]
  split
  · rw [slice?_eq_some (by omega) (by omega), slice?_eq_some (by omega) (by omega),
      slice?_eq_some (by omega) (by omega)]
    obtain ⟨ds, hds, hl⟩ := dataLoop_total line line.length 9
    rw [hds]
    simp only [Option.bind_some]
    rw [slice?_eq_some (i := line.length - 2) (by omega) (by omega)]
    split
    · split
      · rw [slice?_eq_some (by omega) (by omega)]
        right
        refine ⟨_, rfl, ?_⟩
        constructor <;> simp <;> first | omega | exact hl
      · left; exact ⟨_, rfl⟩
    · right
      refine ⟨_, rfl, ?_⟩
      constructor <;> simp [zeroOffset] <;> first | omega | exact hl
  · left; exact ⟨_, rfl⟩

/-- Total version of `parseRecordRoutine`. -/
def parseShare : List Str → List Record
  | [] => []
  | l :: ls =>
    if 11 ≤ l.length then
      match parseRecord l with
      | some (.ok r) => r :: parseShare ls
      | _ => []
    else parseShare ls

theorem parseRecordRoutine_eq (ls : List Str) : parseRecordRoutine ls = some (parseShare ls) := by
  induction ls with
  | nil => rfl
  | cons l ls ih =>
    unfold parseRecordRoutine parseShare
    split
    · next h =>
      rcases parseRecord_total h with ⟨e, he⟩ | ⟨r, hr, _⟩
      · rw [he]; rfl
      · rw [hr, ih]; rfl
    · exact ih

theorem parseShare_shape (ls : List Str) : ∀ r ∈ parseShare ls, Shape r := by
  induction ls with
  | nil => simp [parseShare]
  | cons l ls ih =>
    unfold parseShare
    split
    · next h =>
      rcases parseRecord_total h with ⟨e, he⟩ | ⟨r, hr, hs⟩
      · rw [he]; simp
      · rw [hr]
        intro r' hr'
        rcases List.mem_cons.mp hr' with rfl | h'
        · exact hs
        · exact ih r' h'
    · exact ih

/-- All records of all workers, in worker order. -/
def recordsOf (n : Nat) (lines : List Str) : List Record :=
  ((List.range n).map fun i => parseShare (share lines n i)).flatten

theorem parseRecords_eq (n : Nat) (lines : List Str) :
    parseRecords n lines = some (recordsOf n lines) := by
  unfold parseRecords
  rw [shares?_eq]
  simp only [Option.bind_eq_bind, Option.bind_some]
  rw [mapM_option_eq_some parseRecordRoutine parseShare _ (fun l _ => parseRecordRoutine_eq l)]
  simp [recordsOf, Function.comp_def]

theorem recordsOf_shape (n : Nat) (lines : List Str) : ∀ r ∈ recordsOf n lines, Shape r := by
  intro r hr
  simp only [recordsOf, List.mem_flatten, List.mem_map] at hr
  obtain ⟨rs, ⟨i, _, rfl⟩, hr⟩ := hr
  exact parseShare_shape _ r hr

/-- Checksum verdict of one record as a Boolean. -/
def checksumOk (r : Record) : Bool :=
  sumFields ([r.byteCount, r.addressField.take 2, (r.addressField.drop 2).take 2, r.recordType]
    ++ r.data ++ [r.checksum]) 0 == some 0

theorem validateChecksum_eq {r : Record} (h : Shape r) :
    ∃ v, validateChecksum r = some v ∧ (v = some true ↔ checksumOk r = true) := by
  unfold validateChecksum checksumOk
  rw [slice?_eq_some (by omega) (by rw [h.addressField]; omega),
    slice?_eq_some (by omega) (by rw [h.addressField]; omega)]
  simp only [Option.bind_eq_bind, Option.bind_some]
  refine ⟨_, rfl, ?_⟩
  simp only [List.drop_zero, Nat.reduceSub]
  generalize sumFields _ 0 = o
  cases o <;> simp

theorem checksumFailure_eq {rs : List Record} (h : ∀ r ∈ rs, Shape r) :
    checksumFailure rs = some (rs.any fun r => !checksumOk r) := by
  induction rs with
  | nil => rfl
  | cons r rs ih =>
    obtain ⟨v, hv, hiff⟩ := validateChecksum_eq (h r (by simp))
    unfold checksumFailure
    rw [hv]
    simp only [Option.bind_eq_bind, Option.bind_some]
    split
    · next hv2 =>
      rw [ih (fun r hr => h r (by simp [hr]))]
      simp [hiff.mp rfl]
    · next hne =>
      have : checksumOk r = false := by
        cases hc : checksumOk r with
        | false => rfl
        | true => exact absurd (hiff.mpr hc) hne
      simp [this]

theorem mem_share {α : Type _} {xs : List α} {n i : Nat} {x : α} (h : x ∈ share xs n i) : x ∈ xs :=
  List.mem_of_mem_drop (List.mem_of_mem_take h)

theorem anyChecksumFailure_eq {n : Nat} (hn : 0 < n) {recs : List Record} (h : ∀ r ∈ recs, Shape r) :
    anyChecksumFailure n recs = some (recs.any fun r => !checksumOk r) := by
  unfold anyChecksumFailure
  rw [shares?_eq]
  simp only [Option.bind_eq_bind, Option.bind_some]
  rw [mapM_option_eq_some checksumFailure (fun rs => rs.any fun r => !checksumOk r)]
  · simp only [Option.bind_some]
    have : ∀ (l : List (List Record)), (l.map (fun rs => rs.any fun r => !checksumOk r)).any id
        = l.flatten.any (fun r => !checksumOk r) := by
      intro l
      simp [List.any_map, List.any_flatten, Function.comp_def]
    rw [this, flatten_shares recs n hn]
    rfl
  · intro rs hrs
    simp only [List.mem_map] at hrs
    obtain ⟨i, _, rfl⟩ := hrs
    exact checksumFailure_eq (fun r hr => h r (mem_share hr))

/-! ### addOffsets keeps the shape -/

def WorkerShape (w : Worker) : Prop := w.offs.length = 4

theorem workerStep_shape {recs : List Record} {w : Worker} (hr : ∀ r ∈ recs, Shape r)
    (hw : WorkerShape w) :
    (∀ r ∈ (workerStep recs w).1, Shape r) ∧ WorkerShape (workerStep recs w).2 := by
  unfold workerStep
  split
  · exact ⟨hr, hw⟩
  · split
    · exact ⟨hr, hw⟩
    · next r hget =>
      have hm : Shape r := hr r (List.mem_of_getElem? hget)
      have hset : ∀ r' ∈ recs.set w.pos { r with offset := w.offs }, Shape r' := by
        intro r' hr'
        rcases List.mem_or_eq_of_mem_set hr' with h | rfl
        · exact hr r' h
        · exact ⟨hm.1, hm.2, hm.3, hm.4, hm.5, hw⟩
      split
      · exact ⟨hr, hm.offset⟩
      · split
        · split
          · exact ⟨hr, hw⟩
          · split
            · exact ⟨hset, hw⟩
            · split
              · exact ⟨hset, hw⟩
              · exact ⟨hr, hw⟩
        · exact ⟨hr, hw⟩

def OffShape (s : OffState) : Prop := (∀ r ∈ s.recs, Shape r) ∧ ∀ w ∈ s.workers, WorkerShape w

theorem offStep_shape {s : OffState} (h : OffShape s) (k : Nat) : OffShape (offStep s k) := by
  unfold offStep
  split
  · exact h
  · next w hw =>
    have := workerStep_shape h.1 (h.2 w (List.mem_of_getElem? hw))
    refine ⟨this.1, ?_⟩
    intro w' hw'
    rcases List.mem_or_eq_of_mem_set hw' with h' | rfl
    · exact h.2 w' h'
    · exact this.2

theorem runOffsets_shape {s : OffState} (h : OffShape s) (sched : List Nat) :
    OffShape (runOffsets s sched) := by
  induction sched generalizing s with
  | nil => exact h
  | cons k ks ih => exact ih (offStep_shape h k)

theorem initOffsets_shape {n : Nat} {recs : List Record} (h : ∀ r ∈ recs, Shape r) :
    OffShape (initOffsets n recs) := by
  refine ⟨h, ?_⟩
  intro w hw
  simp only [initOffsets, initAt, List.mem_map] at hw
  obtain ⟨i, _, rfl⟩ := hw
  rfl

/-! ### Data -/

theorem decodeString_length : ∀ (s : Str) (bs : List Nat), decodeString s = some bs →
    2 * bs.length = s.length
  | [], bs, h => by simp [decodeString] at h; subst h; rfl
  | [_], bs, h => by simp [decodeString] at h
  | a :: b :: rest, bs, h => by
    unfold decodeString at h
    split at h
    · next r _ _ hr =>
      simp only [Option.some.injEq] at h
      subst h
      have := decodeString_length rest r hr
      simp only [List.length_cons]
      omega
    · simp at h

theorem decode4 {s : Str} {bs : List Nat} (h : decodeString s = some bs) (hl : s.length = 4) :
    ∃ a b, bs = [a, b] := by
  have := decodeString_length s bs h
  match bs, this with
  | [a, b], _ => exact ⟨a, b, rfl⟩
  | [], h => simp at h; omega
  | [_], h => simp at h; omega
  | _ :: _ :: _ :: _, h => simp at h; omega

theorem calcDataLoop_total {r : Record} (h : Shape r) :
    ∀ (ss : List Str) (i : Nat), ∃ e, calcDataLoop r i ss = some e := by
  intro ss
  induction ss with
  | nil => intro i; exact ⟨_, rfl⟩
  | cons s ss ih =>
    intro i
    unfold calcDataLoop
    split
    · exact ⟨_, rfl⟩
    · next bs hbs =>
      obtain ⟨a, b, rfl⟩ := decode4 hbs h.addressField
      simp only [uint16BE?, Option.bind_eq_bind, Option.bind_some]
      split
      · exact ⟨_, rfl⟩
      · next bs2 hbs2 =>
        obtain ⟨c, d, rfl⟩ := decode4 hbs2 h.offset
        split
        · exact ⟨_, rfl⟩
        · obtain ⟨e, he⟩ := ih (i + 1)
          rw [he]
          exact ⟨_, rfl⟩

/-- Entries of a record (total version). -/
def entriesOf (r : Record) : Entries := (calcDataEntries r).getD ⟨[], true⟩

theorem calcDataEntries_eq {r : Record} (h : Shape r) : calcDataEntries r = some (entriesOf r) := by
  obtain ⟨e, he⟩ := calcDataLoop_total h r.data 0
  unfold entriesOf calcDataEntries
  rw [he]; rfl

/-- All bytes the data records of a list contribute, in order. -/
def dataBytes (recs : List Record) : List DataByte :=
  ((recs.filter (fun r => r.recordType = dataRecordToken)).map fun r => (entriesOf r).bytes).flatten

theorem calcDataRoutine_flatten {recs : List Record} (h : ∀ r ∈ recs, Shape r) :
    ∃ bs, calcDataRoutine recs = some bs ∧ bs.flatten = dataBytes recs := by
  unfold calcDataRoutine
  rw [mapM_option_eq_some calcDataEntries entriesOf _
    (fun r hr => calcDataEntries_eq (h r (List.mem_filter.mp hr).1))]
  refine ⟨_, rfl, ?_⟩
  have hz : ∀ (l : List Entries), (l.map (fun _ => ([] : List DataByte))).flatten = [] := by
    intro l; induction l with
    | nil => rfl
    | cons a l ih => simp [ih]
  rw [List.flatten_append, hz]
  simp [dataBytes, Function.comp_def]

theorem dataBytes_append (a b : List Record) : dataBytes (a ++ b) = dataBytes a ++ dataBytes b := by
  simp [dataBytes]

theorem dataBytes_flatten (l : List (List Record)) :
    dataBytes l.flatten = (l.map dataBytes).flatten := by
  induction l with
  | nil => rfl
  | cons a l ih => simp [dataBytes_append, ih]

theorem collectData_eq {n : Nat} (hn : 0 < n) {recs : List Record} (h : ∀ r ∈ recs, Shape r) :
    collectData n recs = some (insertBytes Mem.empty (dataBytes recs)) := by
  unfold collectData
  rw [shares?_eq]
  simp only [Option.bind_eq_bind, Option.bind_some]
  have hex : ∀ rs ∈ (List.range n).map (share recs n), ∃ bs, calcDataRoutine rs = some bs ∧
      bs.flatten = dataBytes rs := by
    intro rs hrs
    simp only [List.mem_map] at hrs
    obtain ⟨i, _, rfl⟩ := hrs
    exact calcDataRoutine_flatten (fun r hr => h r (mem_share hr))
  rw [mapM_option_eq_some calcDataRoutine (fun rs => (calcDataRoutine rs).getD [])]
  · simp only [Option.bind_some]
    have : (List.map (fun rs => (calcDataRoutine rs).getD []) ((List.range n).map (share recs n))).flatten.flatten
        = dataBytes recs := by
      conv => rhs; rw [← flatten_shares recs n hn, dataBytes_flatten]
      rw [List.flatten_flatten]
      congr 1
      rw [List.map_map]
      apply List.map_congr_left
      intro rs hrs
      obtain ⟨bs, hb, hf⟩ := hex rs hrs
      simp [hb, hf]
    rw [this]; rfl
  · intro rs hrs
    obtain ⟨bs, hb, _⟩ := hex rs hrs
    simp [hb]

/-- `parseHex` as a composition of total functions. -/
theorem parseHex_eq {n : Nat} (hn : 0 < n) (sched : List Nat) (lines : List Str) :
    parseHex n sched lines = some
      (if (recordsOf n lines).any (fun r => !checksumOk r) then
        some ⟨Mem.empty, some .invalidChecksums⟩
      else if (runOffsets (initOffsets n (recordsOf n lines)) sched).allDone then
        some (insertBytes Mem.empty
          (dataBytes (runOffsets (initOffsets n (recordsOf n lines)) sched).recs))
      else none) := by
  unfold parseHex
  rw [parseRecords_eq]
  simp only [Option.bind_eq_bind, Option.bind_some]
  rw [anyChecksumFailure_eq hn (recordsOf_shape n lines)]
  simp only [Option.bind_some]
  split
  · rfl
  · split
    · rw [collectData_eq hn (runOffsets_shape (initOffsets_shape (recordsOf_shape n lines)) sched).1]
      rfl
    · rfl

end Verif.Ihex
