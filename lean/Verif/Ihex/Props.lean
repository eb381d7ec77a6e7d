import Verif.Ihex.More

/-!
Properties C01-C12 of the Intel HEX parser. `parseHex n sched lines = some (some o)` says:
with `n` CPUs and the offset workers interleaved as `sched`, the parser returns the
outcome `o` (a map and an error).
-/

namespace Verif.Ihex

open Verif.Go Verif.Hex Verif.Hex.Spec Verif.Ihex.Spec

/-! ## C01: segment addresses for every interleaving and CPU count -/

/-- Full statement of C01 (false, see `C01_false`): for every CPU count, record list and
interleaving, when all workers are done, the records are what one sequential pass makes
of them. -/
def C01_full : Prop :=
  ∀ (n : Nat) (recs : List Record) (sched : List Nat), 0 < n → Seg.Fresh recs →
    (runOffsets (initOffsets n recs) sched).allDone = true →
    (runOffsets (initOffsets n recs) sched).recs = Seg.applySegments ['0', '0', '0', '0'] recs

/-- C01, for every set of start positions containing 0 and every interleaving. Missing
from the full statement: record lists in which an explicitly selected segment 0 that is
used by a data record is followed by data in another segment. -/
theorem C01_offsets_partial {starts : List Nat} (h0 : 0 ∈ starts) {recs : List Record}
    (hf : Seg.Fresh recs) (hz : Seg.ZeroSegmentLast recs) (sched : List Nat)
    (hdone : (runOffsets (initAt starts recs) sched).allDone = true) :
    (runOffsets (initAt starts recs) sched).recs = Seg.applySegments ['0', '0', '0', '0'] recs :=
  (runOffsets_final h0 hf hz sched hdone).trans (applySegments_spec _ _)

/-- The same for the start positions `parseHex` uses on `n` CPUs. -/
theorem C01_parseHex_partial {n : Nat} (hn : 0 < n) {recs : List Record}
    (hf : Seg.Fresh recs) (hz : Seg.ZeroSegmentLast recs) (sched : List Nat)
    (hdone : (runOffsets (initOffsets n recs) sched).allDone = true) :
    (runOffsets (initOffsets n recs) sched).recs = Seg.applySegments ['0', '0', '0', '0'] recs :=
  (runOffsets_final (zero_mem_starts hn _) hf hz sched hdone).trans (applySegments_spec _ _)

/-- No interleaving can keep the workers from finishing: after more than `len(recs)` turns
each, all are done. -/
theorem C01_terminates (starts : List Nat) (recs : List Record) (sched : List Nat)
    (h : ∀ k, k < starts.length → recs.length < sched.count k) :
    (runOffsets (initAt starts recs) sched).allDone = true :=
  runOffsets_allDone h

def exEla (o : Str) : Record := ⟨['0','2'], ['0','0','0','0'], ['0','4'], [], ['0','0'], o⟩
def exData (a : Str) : Record := ⟨['0','1'], a, ['0','0'], [['7','7']], ['0','0'], zeroOffset⟩

-- the hypotheses are satisfiable: two segments, a schedule that completes
example : Seg.Fresh [exData ['0','0','0','1'], exEla ['0','0','0','1'], exData ['0','0','0','2'],
    exEla ['0','0','0','2'], exData ['0','0','0','3']] := by
  intro r hr h
  simp only [List.mem_cons, List.not_mem_nil, or_false] at hr
  rcases hr with rfl | rfl | rfl | rfl | rfl <;> first | rfl | (revert h; decide)

example : (runOffsets (initAt [0, 2, 3] [exData ['0','0','0','1'], exEla ['0','0','0','1'],
    exData ['0','0','0','2'], exEla ['0','0','0','2'], exData ['0','0','0','3']])
    [2, 1, 0, 0, 2, 2, 2, 1, 1, 1, 0, 0, 0, 0, 0]).allDone = true := by decide

example : Seg.ZeroSegmentLast [exData ['0','0','0','1'], exEla ['0','0','0','1'],
    exData ['0','0','0','2'], exEla ['0','0','0','2'], exData ['0','0','0','3']] := by
  intro b i rb ri hlt hb hi _ _ hs
  have : ∀ b < 5, Seg.segOf [exData ['0','0','0','1'], exEla ['0','0','0','1'],
    exData ['0','0','0','2'], exEla ['0','0','0','2'], exData ['0','0','0','3']] b ≠ some zeroOffset := by decide
  have hb5 : b < 5 := by
    rcases Nat.lt_or_ge b 5 with h | h
    · exact h
    · rw [List.getElem?_eq_none (by simpa using h)] at hb; simp at hb
  exact absurd hs (this b hb5)

/-- The list that defeats `n` workers. -/
def badRecs (n : Nat) : List Record :=
  [exEla zeroOffset, exData ['0','0','0','0'], exEla ['0','0','0','1'], exData ['0','0','0','1']]
    ++ List.replicate (4 * n - 4) (exData ['0','0','0','2'])

/-- C01 fails on every number of CPUs, for every interleaving: a file that starts by
selecting segment 0 and goes on in segment 1 (a very common layout). The worker that
starts at 0 takes the data record in segment 0 for one that another worker has already
patched, and stops. -/
theorem C01_false_everywhere (n : Nat) (hn : 0 < n) : Seg.Fresh (badRecs n) ∧ ∀ sched,
    (runOffsets (initOffsets n (badRecs n)) sched).recs ≠ Seg.applySegments ['0', '0', '0', '0'] (badRecs n) := by
  have hfresh : Fresh (badRecs n) := by
    intro r hr h
    simp only [badRecs, List.mem_append, List.mem_cons, List.not_mem_nil, or_false,
      List.mem_replicate] at hr
    rcases hr with (rfl | rfl | rfl | rfl) | ⟨_, rfl⟩ <;> first | rfl | (revert h; decide)
  refine ⟨hfresh, ?_⟩
  intro sched
  have hlen : (badRecs n).length = 4 * n := by simp [badRecs]; omega
  have hno : (runOffsets (initOffsets n (badRecs n)) sched).recs = badRecs n := by
    apply runOffsets_noWrite (m := 3) (e := exEla zeroOffset) (d := exData ['0','0','0','0'])
      (by rfl) (by rfl) rfl (by rfl) (by rfl) hfresh
    · intro i r hi hr
      have : r ∈ (badRecs n).drop 3 := by
        apply List.mem_of_getElem? (i := i - 3)
        rw [List.getElem?_drop, ← hr]; congr 1; omega
      simp only [badRecs, List.cons_append, List.nil_append, List.drop_succ_cons, List.drop_zero,
        List.mem_cons, List.mem_replicate] at this
      rcases this with rfl | ⟨_, rfl⟩ <;> decide
    · intro a ha
      simp only [List.mem_map, List.mem_range] at ha
      obtain ⟨i, hi, rfl⟩ := ha
      rw [hlen]
      have : 4 * n / n = 4 := by rw [Nat.mul_comm]; exact Nat.mul_div_cancel_left 4 hn
      unfold shareStart
      rw [this]
      omega
  rw [hno]
  intro heq
  have := congrArg (fun l => l[3]?) heq
  revert this
  simp [badRecs, Seg.applySegments, exEla, exData, zeroOffset, extendedLinearAddressRecordToken, dataRecordToken]

theorem C01_false : ¬ C01_full := by
  intro h
  obtain ⟨h1, h2⟩ := C01_false_everywhere 1 (by omega)
  let sched := List.replicate 5 0
  exact h2 sched (h 1 (badRecs 1) sched (by omega) h1 (by decide))

/-! ## C02: parse inverts encode -/

/-- Full statement of C02 (false, see `C02_false`). -/
def C02_full : Prop :=
  ∀ (n : Nat) (c : Case) (bs : List Block) (sched : List Nat) (o : Outcome), 0 < n →
    (∀ b ∈ bs, b.Fits) → ((imageBytes bs).map Prod.fst).Nodup →
    parseHex n sched (encode c bs) = some (some o) →
    o.err = none ∧ ∀ a v, o.map a = some v ↔ (a, v) ∈ imageBytes bs

/-- C02: for every block list, letter case, CPU count and interleaving the parse of the
encoding returns exactly the image. Missing from the full statement: images in which a
block of an explicitly selected segment 0 is followed by one of another segment. -/
theorem C02_roundtrip_partial {n : Nat} (hn : 0 < n) (c : Case) {bs : List Block}
    (hfit : ∀ b ∈ bs, b.Fits) (hnd : ((imageBytes bs).map Prod.fst).Nodup)
    (hz : ZeroBlocksLast bs) (sched : List Nat) {o : Outcome}
    (h : parseHex n sched (encode c bs) = some (some o)) :
    o.err = none ∧ ∀ a v, o.map a = some v ↔ (a, v) ∈ imageBytes bs := by
  obtain ⟨h1, h2, h3, h4⟩ := encode_meaning c hfit
  obtain ⟨oo, hoo, hres⟩ := parse_wf hn h1 (h4.mpr hz) sched
  rw [hoo] at h
  obtain ⟨r1, r2⟩ := hres o (by simpa using h)
  have hok : o.err = none := r1.mpr ⟨h2, by rw [h3]; exact hnd⟩
  refine ⟨hok, ?_⟩
  rw [← h3]
  exact r2 hok

/-- The parse does return: any interleaving in which every worker gets enough turns. -/
theorem C02_returns {n : Nat} (hn : 0 < n) (lines : List Str) (sched : List Nat)
    (h : ∀ k, k < n → lines.length < sched.count k) :
    ∃ o, parseHex n sched lines = some (some o) := by
  rw [parseHex_eq hn]
  have hlen : (recordsOf n lines).length ≤ lines.length := by
    rw [recordsOf_eq, List.length_map]
    have key : (recognised n lines).length ≤ (((List.range n).map (share lines n)).flatten).length := by
      unfold recognised
      rw [List.flatMap_def]
      have : ∀ is : List Nat, ((is.map fun i => significant
          ((workerLines n lines i).takeWhile fun l => ¬ Malformed l)).flatten).length ≤
          ((is.map (share lines n)).flatten).length := by
        intro is
        induction is with
        | nil => simp
        | cons i is ih =>
          simp only [List.map_cons, List.flatten_cons, List.length_append]
          rw [workerLines_eq]
          have h1 : (significant ((workerLines n lines i).takeWhile fun l => ¬ Malformed l)).length
              ≤ (workerLines n lines i).length :=
            Nat.le_trans (List.length_filter_le _ _) (List.Sublist.length_le (List.takeWhile_sublist _))
          omega
      exact this _
    rwa [flatten_shares lines n hn] at key
  have hdone : (runOffsets (initOffsets n (recordsOf n lines)) sched).allDone = true := by
    apply runOffsets_allDone
    intro k hk
    simp only [List.length_map, List.length_range] at hk
    have := h k hk
    omega
  rw [hdone]
  split
  · exact ⟨_, rfl⟩
  · exact ⟨_, rfl⟩

example : (∀ b ∈ [(⟨false, 0, 65535, [1]⟩ : Block), ⟨false, 1, 0, [2, 3]⟩, ⟨false, 8, 16, [255]⟩], b.Fits) ∧
    ((imageBytes [⟨false, 0, 65535, [1]⟩, ⟨false, 1, 0, [2, 3]⟩, ⟨false, 8, 16, [255]⟩]).map Prod.fst).Nodup ∧
    ZeroBlocksLast [⟨false, 0, 65535, [1]⟩, ⟨false, 1, 0, [2, 3]⟩, ⟨false, 8, 16, [255]⟩] := by
  decide

/-- Bytes of unpatched records. -/
theorem AllDecoded.dataBytes_raw {rs : List Record} {rcs : List Rec} (h : AllDecoded rs rcs) :
    Verif.Ihex.dataBytes rs = (bytesFrom 0 (rcs.filter (fun rc => rc.typ ≠ 4))).map (fun p => ⟨p.1, p.2⟩) := by
  induction h with
  | nil => rfl
  | @cons r rc rs rcs hd hela _ ih =>
    by_cases he : IsEla r
    · have ht := hd.isEla.mp he
      rw [List.filter_cons_of_neg (by simpa using ht), ← ih]
      simp [Verif.Ihex.dataBytes, not_data_of_ela he]
    · have ht : ¬ rc.typ = 4 := fun h => he (hd.isEla.mpr h)
      rw [List.filter_cons_of_pos (by simpa using ht), bytesFrom, if_neg ht]
      by_cases hdt : IsData r
      · have ht0 := hd.isData.mp hdt
        rw [if_pos ht0, List.map_append, ← ih]
        obtain ⟨ah, al, ha, hadr, _, _⟩ := hd.addr
        have ho : decodeString r.offset = some [0, 0] := by rw [hd.fresh he]; decide
        have he' : entriesOf r = ⟨(rc.data.zipIdx 0).map fun (b, i) =>
            ⟨(0 * 256 + 0) * 65536 + (ah * 256 + al + i) % 65536, b⟩, false⟩ := by
          unfold entriesOf calcDataEntries
          rw [calcDataLoop_eq ha ho r.data rc.data 0 hd.data]
          rfl
        unfold Verif.Ihex.dataBytes
        rw [List.filter_cons_of_pos (by simpa using hdt), List.map_cons, List.flatten_cons, he']
        simp [hadr, Function.comp_def]
      · have ht0 : ¬ rc.typ = 0 := fun h => hdt (hd.isData.mpr h)
        rw [if_neg ht0, ← ih]
        simp [Verif.Ihex.dataBytes, hdt]

theorem AllDecoded.get {rs : List Record} {rcs : List Rec} (h : AllDecoded rs rcs) :
    ∀ (i : Nat) r, rs[i]? = some r → ∃ rc, rcs[i]? = some rc ∧ Decoded r rc ∧ (rc.typ = 4 → 2 ≤ rc.data.length) := by
  induction h with
  | nil => intro i r h; simp at h
  | @cons r rc rs rcs hd he _ ih =>
    intro i r' h
    cases i with
    | zero => simp at h; subst h; exact ⟨rc, by simp, hd, he⟩
    | succ i => simpa using ih i r' (by simpa using h)

theorem AllDecoded.length {rs : List Record} {rcs : List Rec} (h : AllDecoded rs rcs) :
    rs.length = rcs.length := by
  induction h with
  | nil => rfl
  | cons _ _ _ ih => simp [ih]

/-- The image that defeats `n` CPUs: one byte in segment 0, one in segment 1, padding. -/
def badBlocks (n : Nat) : List Block :=
  [⟨true, 0, 0, [7]⟩, ⟨false, 1, 1, [9]⟩] ++ List.replicate (4 * n - 4) ⟨false, 1, 0, []⟩

theorem badBlocks_recs (k : Nat) :
    blockRecs 1 (List.replicate k ⟨false, 1, 0, []⟩) = List.replicate k ⟨0, 0, 0, [], 0⟩ := by
  induction k with
  | zero => rfl
  | succ k ih =>
    rw [List.replicate_succ, blockRecs, List.replicate_succ, ih]
    rfl

theorem bytesFrom_replicate (seg k : Nat) (tail : List Rec) :
    bytesFrom seg (List.replicate k ⟨0, 0, 0, [], 0⟩ ++ tail) = bytesFrom seg tail := by
  induction k with
  | zero => rfl
  | succ k ih => rw [List.replicate_succ, List.cons_append, bytesFrom]; simpa using ih

/-- C02 fails on every number of CPUs and for every interleaving, and silently: the parse
of the encoded image succeeds, but the byte of segment 1 is not where it belongs. -/
theorem C02_false_everywhere (n : Nat) (hn : 0 < n) (c : Case) :
    (∀ b ∈ badBlocks n, b.Fits) ∧ ((imageBytes (badBlocks n)).map Prod.fst).Nodup ∧
    ∀ sched o, parseHex n sched (encode c (badBlocks n)) = some (some o) →
      o.err = none ∧ (65537, 9) ∈ imageBytes (badBlocks n) ∧ o.map 65537 = none := by
  have hfit : ∀ b ∈ badBlocks n, b.Fits := by
    intro b hb
    simp only [badBlocks, List.mem_append, List.mem_cons, List.not_mem_nil, or_false,
      List.mem_replicate] at hb
    rcases hb with (rfl | rfl) | ⟨_, rfl⟩ <;> decide
  have himg : imageBytes (badBlocks n) = [(0, 7), (65537, 9)] := by
    unfold imageBytes badBlocks
    rw [List.map_append, List.map_replicate, List.flatten_append]
    have : ∀ k : Nat, (List.replicate k ([] : List (Nat × Nat))).flatten = [] := by
      intro k; induction k with
      | zero => rfl
      | succ k ih => simp [List.replicate_succ]
    simp [this]
  refine ⟨hfit, by rw [himg]; decide, ?_⟩
  intro sched o h
  obtain ⟨hwf, hrecs⟩ := encode_wf c hfit
  obtain ⟨_, hsum, _, _⟩ := encode_meaning c hfit
  have had := allDecoded_of_wf (significant (encode c (badBlocks n))) hwf
  change AllDecoded _ (Spec.recs (encode c (badBlocks n))) at had
  have hrc : Spec.recs (encode c (badBlocks n)) =
      ⟨2, 0, 4, [0, 0], 250⟩ :: ⟨1, 0, 0, [7], 248⟩ :: ⟨2, 0, 4, [0, 1], 249⟩ :: ⟨1, 1, 0, [9], 245⟩ ::
        (List.replicate (4 * n - 4) ⟨0, 0, 0, [], 0⟩ ++ [⟨0, 0, 1, [], 255⟩]) := by
    rw [hrecs]
    unfold badBlocks
    simp only [List.cons_append, List.nil_append, blockRecs, badBlocks_recs]
    rfl
  rw [parseHex_eq hn, recordsOf_eq, wellFormed_recognised hn hwf] at h
  have hbad : ¬ (List.map recOfLine (significant (encode c (badBlocks n)))).any (fun r => !checksumOk r) = true := by
    intro hh; exact (had.any_bad.mp hh) hsum
  rw [if_neg hbad] at h
  split at h
  · simp only [Option.some.injEq] at h
    generalize hR : List.map recOfLine (significant (encode c (badBlocks n))) = R at *
    rw [hrc] at had
    have hlen : R.length = 4 * n + 1 := by
      rw [had.length]; simp; omega
    have hno : (runOffsets (initOffsets n R) sched).recs = R := by
      have hpos0 : 0 < R.length := by omega
      have hpos1 : 1 < R.length := by omega
      obtain ⟨rc0, hrc0, hd0, he0⟩ := had.get 0 R[0] (by simp)
      obtain ⟨rc1, hrc1, hd1, _⟩ := had.get 1 R[1] (by simp [hpos1])
      simp only [List.getElem?_cons_zero, List.getElem?_cons_succ, Option.some.injEq] at hrc0 hrc1
      subst hrc0; subst hrc1
      have hela : IsEla R[0] := hd0.isEla.mpr rfl
      apply runOffsets_noWrite (m := 3) (e := R[0]) (d := R[1]) (by simp) hela ?_ (by simp)
        (hd1.isData.mpr rfl) had.fresh
      · intro i r hi hr
        obtain ⟨rc, hrc, hd, _⟩ := had.get i r hr
        intro he
        have ht := hd.isEla.mp he
        obtain ⟨j, rfl⟩ : ∃ j, i = j + 3 := ⟨i - 3, by omega⟩
        have hmem := List.mem_of_getElem? (i := j) (l := (⟨1, 1, 0, [9], 245⟩ : Rec) ::
          (List.replicate (4 * n - 4) ⟨0, 0, 0, [], 0⟩ ++ [⟨0, 0, 1, [], 255⟩])) (a := rc) (by
            simpa using hrc)
        simp only [List.mem_cons, List.mem_append, List.mem_replicate, List.not_mem_nil, or_false] at hmem
        rcases hmem with rfl | ⟨_, rfl⟩ | rfl <;> simp at ht
      · intro a ha
        simp only [List.mem_map, List.mem_range] at ha
        obtain ⟨i, hi, rfl⟩ := ha
        unfold shareStart
        by_cases hi0 : i = 0
        · left; simp [hi0]
        · right
          have h4 : 4 ≤ R.length / n := by
            rw [Nat.le_div_iff_mul_le hn]; omega
          have : R.length / n * 1 ≤ R.length / n * i := Nat.mul_le_mul_left _ (by omega)
          omega
      · obtain ⟨s0, s1, ho, h0, h1⟩ := hd0.offset hela (by simp)
        rw [ho, specByte_zero.mp h0, specByte_zero.mp h1]
        rfl
    rw [hno, had.dataBytes_raw] at h
    have hfilter : List.filter (fun rc : Rec => decide (rc.typ ≠ 4)) (⟨2, 0, 4, [0, 0], 250⟩ :: ⟨1, 0, 0, [7], 248⟩ ::
        ⟨2, 0, 4, [0, 1], 249⟩ :: ⟨1, 1, 0, [9], 245⟩ ::
        (List.replicate (4 * n - 4) ⟨0, 0, 0, [], 0⟩ ++ [⟨0, 0, 1, [], 255⟩])) =
        ⟨1, 0, 0, [7], 248⟩ :: ⟨1, 1, 0, [9], 245⟩ ::
        (List.replicate (4 * n - 4) ⟨0, 0, 0, [], 0⟩ ++ [⟨0, 0, 1, [], 255⟩]) := by
      simp
    rw [hfilter] at h
    have hbytes : bytesFrom 0 (⟨1, 0, 0, [7], 248⟩ :: ⟨1, 1, 0, [9], 245⟩ ::
        (List.replicate (4 * n - 4) ⟨0, 0, 0, [], 0⟩ ++ [⟨0, 0, 1, [], 255⟩])) = [(0, 7), (1, 9)] := by
      rw [bytesFrom, if_neg (show ¬ (0 : Nat) = 4 by decide), if_pos rfl,
        bytesFrom, if_neg (show ¬ (0 : Nat) = 4 by decide), if_pos rfl, bytesFrom_replicate]
      rfl
    rw [hbytes] at h
    subst h
    refine ⟨rfl, by rw [himg]; simp, ?_⟩
    simp [insertBytes, Mem.empty, Mem.insert]
  · simp at h

theorem C02_false : ¬ C02_full := by
  intro h
  obtain ⟨h1, h2, h3⟩ := C02_false_everywhere 1 (by omega) .upper
  obtain ⟨o, ho⟩ := C02_returns (n := 1) (by omega) (encode .upper (badBlocks 1)) (List.replicate 100 0)
    (by intro k hk; have : k = 0 := by omega
        subst this; decide +kernel)
  obtain ⟨_, hmem, hnone⟩ := h3 _ o ho
  have := (h 1 .upper _ _ o (by omega) h1 h2 ho).2 65537 9
  rw [hnone] at this
  simp at this
  exact this hmem

/-! ## C03: a bad checksum is never accepted -/

/-- C03: for every file, CPU count and interleaving, the checksum error is returned iff
some recognised line has a wrong sum or a non-hex pair among the checked fields. -/
theorem C03_checksum {n : Nat} (hn : 0 < n) (sched : List Nat) (lines : List Str) {o : Outcome}
    (h : parseHex n sched lines = some (some o)) :
    o.err = some .invalidChecksums ↔ ∃ l ∈ recognised n lines, ¬ LineSumOk l := by
  rw [parseHex_eq hn, recordsOf_eq] at h
  have hany : (List.map recOfLine (recognised n lines)).any (fun r => !checksumOk r) = true ↔
      ∃ l ∈ recognised n lines, ¬ LineSumOk l := by
    simp only [List.any_map, List.any_eq_true, Function.comp_apply]
    constructor
    · rintro ⟨l, hl, hc⟩
      exact ⟨l, hl, fun hh => by rw [(checksumOk_recOfLine l).mpr hh] at hc; simp at hc⟩
    · rintro ⟨l, hl, hc⟩
      refine ⟨l, hl, ?_⟩
      cases hk : checksumOk (recOfLine l) with
      | false => rfl
      | true => exact absurd ((checksumOk_recOfLine l).mp hk) hc
  rw [← hany]
  simp only [Option.some.injEq] at h
  split at h
  · next hb => simp only [Option.some.injEq] at h; subst h; simp [hb]
  · next hb =>
    split at h
    · simp only [Option.some.injEq] at h
      constructor
      · intro he
        subst h
        obtain ⟨_, _, _, hh⟩ := insertBytes_err _ _ _ he
        simp at hh
      · intro hh; exact absurd hh hb
    · simp at h

/-- After success every recognised line sums to zero. -/
theorem C03_success {n : Nat} (hn : 0 < n) (sched : List Nat) (lines : List Str) {o : Outcome}
    (h : parseHex n sched lines = some (some o)) (hok : o.err = none) :
    ∀ l ∈ recognised n lines, LineSumOk l := by
  intro l hl
  apply Classical.byContradiction
  intro hc
  have := (C03_checksum hn sched lines h).mpr ⟨l, hl, hc⟩
  rw [hok] at this
  simp at this

/-- A bad line makes every run return the error, whatever the offset workers do. -/
theorem C03_reported {n : Nat} (hn : 0 < n) (lines : List Str) {l : Str}
    (hl : l ∈ recognised n lines) (hc : ¬ LineSumOk l) (sched : List Nat) :
    ∃ o, parseHex n sched lines = some (some o) ∧ o.err = some .invalidChecksums := by
  rw [parseHex_eq hn, recordsOf_eq]
  have hany : (List.map recOfLine (recognised n lines)).any (fun r => !checksumOk r) = true := by
    simp only [List.any_map, List.any_eq_true, Function.comp_apply]
    refine ⟨l, hl, ?_⟩
    cases hk : checksumOk (recOfLine l) with
    | false => rfl
    | true => exact absurd ((checksumOk_recOfLine l).mp hk) hc
  rw [if_pos hany]
  exact ⟨_, rfl, rfl⟩

/-- Without malformed lines, "recognised" is every line of at least 11 characters. -/
theorem C03_recognised {n : Nat} (hn : 0 < n) {lines : List Str} (h : ∀ l ∈ lines, ¬ Malformed l) :
    recognised n lines = significant lines := recognised_eq hn h

-- a recognised line with a wrong sum, and one with a right sum
example : recognised 2 [":00000001FF".toList, ":0100000007F9".toList] =
    [":00000001FF".toList, ":0100000007F9".toList] := by decide +kernel
example : LineSumOk ":00000001FF".toList ∧ ¬ LineSumOk ":0100000007F9".toList := by
  constructor
  · exact ⟨[0, 0, 0, 1, 255], by decide +kernel, by decide⟩
  · rintro ⟨bs, h, hs⟩
    have : (fields ":0100000007F9".toList).mapM specByte = some [1, 0, 0, 0, 7, 249] := by decide +kernel
    rw [this] at h
    simp at h; subst h; revert hs; decide

/-! ## C04: every single-byte corruption is detected -/

/-- Full statement of C04 (false, see `C04_false`): a line that is a colon followed by byte
pairs is changed in one pair to another byte value; then the parse reports an error. -/
def C04_full : Prop :=
  ∀ (n : Nat) (lines : List Str) (j : Nat) (ps : List Str) (k : Nat) (p : Str)
    (sched sched' : List Nat) (o o' : Outcome), 0 < n →
    parseHex n sched lines = some (some o) → o.err = none →
    lines[j]? = some (':' :: ps.flatten) → (∀ q ∈ ps, q.length = 2) → 5 ≤ ps.length → k < ps.length →
    p.length = 2 → specByte p ≠ specByte (ps.getD k []) → Reached n lines j →
    parseHex n sched' (lines.set j (':' :: (ps.set k p).flatten)) = some (some o') → o'.err ≠ none

/-- C04: the corruption is detected, for every CPU count and interleaving. Missing from the
full statement: corruptions that turn a line of 11 characters into a segment line (type
04), which is then malformed; lines behind a malformed line (not reached). -/
theorem C04_corruption_partial {n : Nat} (hn : 0 < n) {lines : List Str} {j : Nat} {ps : List Str}
    {k : Nat} {p : Str} {sched sched' : List Nat} {o o' : Outcome}
    (h : parseHex n sched lines = some (some o)) (hok : o.err = none)
    (hj : lines[j]? = some (':' :: ps.flatten)) (hps : ∀ q ∈ ps, q.length = 2) (h5 : 5 ≤ ps.length)
    (hk : k < ps.length) (hp : p.length = 2) (hne : specByte p ≠ specByte (ps.getD k []))
    (hr : Reached n lines j) (hnm : ¬ Malformed (':' :: (ps.set k p).flatten))
    (h' : parseHex n sched' (lines.set j (':' :: (ps.set k p).flatten)) = some (some o')) :
    o'.err = some .invalidChecksums := by
  have hlen : (':' :: ps.flatten).length = 2 * ps.length + 1 := by
    rw [List.length_cons, flatten_pairs_length ps hps]
  have hps' : ∀ q ∈ ps.set k p, q.length = 2 := by
    intro q hq
    rcases List.mem_or_eq_of_mem_set hq with hq | rfl
    · exact hps q hq
    · exact hp
  have hlen' : (':' :: (ps.set k p).flatten).length = 2 * ps.length + 1 := by
    rw [List.length_cons, flatten_pairs_length _ hps', List.length_set]
  -- the original line is right
  have hsum := C03_success hn sched lines h hok _ (reached_recognised hn hr hj (by omega))
  obtain ⟨bs, hbs, hz⟩ := hsum
  rw [fields_pairs ps hps h5] at hbs
  -- the changed line is reached and wrong
  have hget : (lines.set j (':' :: (ps.set k p).flatten))[j]? = some (':' :: (ps.set k p).flatten) := by
    rw [set_getElem? hj]; simp
  have hr' : Reached n (lines.set j (':' :: (ps.set k p).flatten)) j := by
    intro i m l hi h1 h2 h3 hl
    rw [List.length_set] at h1 h3
    rw [set_getElem? hj] at hl
    split at hl
    · simp at hl; subst hl; exact hnm
    · exact hr i m l hi h1 h2 h3 hl
  have hmem := reached_recognised hn hr' hget (by omega)
  rw [C03_checksum hn sched' _ h']
  refine ⟨_, hmem, ?_⟩
  rintro ⟨bs', hbs', hz'⟩
  rw [fields_pairs _ hps' (by simpa using h5)] at hbs'
  cases hv : specByte p with
  | none =>
    have : ∀ (ps : List Str) (k : Nat), k < ps.length → (ps.set k p).mapM specByte = none := by
      intro ps
      induction ps with
      | nil => intro k hk; simp at hk
      | cons q ps ih =>
        intro k hk
        cases k with
        | zero => simp [List.mapM_cons, hv]
        | succ k =>
          rw [List.set_cons_succ, List.mapM_cons, ih k (by simpa using hk)]
          cases specByte q <;> rfl
    rw [this ps k hk] at hbs'
    simp at hbs'
  | some v =>
    obtain ⟨h1, _, w, h3, h4⟩ := mapM_set hbs hk hv
    rw [hbs'] at h1
    simp only [Option.some.injEq] at h1
    subst h1
    have hsum := sum_set (v := v) h4
    have hvlt := specByte_lt hv
    have hwlt := specByte_lt h3
    apply hne
    have hgetD : ps.getD k [] = ps[k] := by simp [List.getD, List.getElem?_eq_getElem hk]
    rw [hv, hgetD, h3]
    congr 1
    omega

-- a file and a corruption meeting the hypotheses
example : Reached 2 [":0100000007F8".toList, ":00000001FF".toList] 0 := by
  intro i k l _ _ hk _ hl
  have : k = 0 := by omega
  subst this
  simp at hl; subst hl
  decide
example : ∃ o, parseHex 2 [0, 1, 1, 0, 0, 0] [":0100000007F8".toList, ":00000001FF".toList] = some (some o) ∧
    o.err = none := by
  obtain ⟨o, ho⟩ := C02_returns (n := 2) (by omega) [":0100000007F8".toList, ":00000001FF".toList]
    [0, 1, 1, 0, 0, 1] (by decide)
  refine ⟨_, rfl, ?_⟩
  decide +kernel
example : ¬ Malformed (':' :: ([['0','1'],['0','0'],['0','0'],['0','0'],['0','7'],['F','8']].set 4 ['0','8']).flatten) := by
  decide

/-- The type byte of a short data line changed to 04: the worker drops the line and the
rest of its share, no error. -/
theorem C04_false : ¬ C04_full := by
  intro h
  have hps : ":0000000000".toList = ':' :: [['0','0'],['0','0'],['0','0'],['0','0'],['0','0']].flatten := by decide
  have := h 1 [":0000000000".toList] 0 [['0','0'],['0','0'],['0','0'],['0','0'],['0','0']] 3 ['0','4']
    [0, 0] [0] ⟨Mem.empty, none⟩ ⟨Mem.empty, none⟩ (by omega) (by
      rw [parseHex_eq (by omega)]
      rw [if_neg (by decide +kernel), if_pos (by decide +kernel)]
      congr 2) rfl (by rw [← hps]; rfl) (by decide) (by decide) (by decide) rfl (by decide)
    (by
      intro i k l hi _ hk _ hl
      have : k = 0 := by omega
      subst this
      simp at hl; subst hl; decide)
    (by
      rw [parseHex_eq (by omega)]
      rw [if_neg (by decide +kernel), if_pos (by decide +kernel)]
      congr 2)
  exact this rfl

end Verif.Ihex
