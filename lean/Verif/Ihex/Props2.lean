import Verif.Ihex.Props

/-!
Properties C05-C12 of the Intel HEX parser.
-/

namespace Verif.Ihex

open Verif.Go Verif.Hex Verif.Hex.Spec Verif.Ihex.Spec

/-! ## C05: collisions -/

/-- Specification: the bytes a data record with segment in its offset field defines.
`none` if one of its fields is not made of byte pairs. -/
def recBytes (r : Record) : Option (List (Nat × Nat)) :=
  match pairBytes r.addressField, pairBytes r.offset, r.data.mapM specByte with
  | some [ah, al], some [oh, ol], some bs =>
    some (bs.zipIdx.map fun (b, i) => ((oh * 256 + ol) * 65536 + (ah * 256 + al + i) % 65536, b))
  | _, _, _ => none

theorem decodeString_pairBytes : ∀ (bs : List Nat) (s : Str), pairBytes s = some bs →
    decodeString s = some bs := by
  intro bs
  induction bs with
  | nil =>
    intro s h
    have := pairBytes_length _ _ h
    have hs : s = [] := List.length_eq_zero_iff.mp (by simpa using this)
    subst hs; rfl
  | cons x xs ih =>
    intro s h
    obtain ⟨a, b, rest, rfl, h1, h2⟩ := pairBytes_nonempty h
    rw [← hexToByte_eq] at h1
    have := decodeString_append_pair (t := rest) h1
    rw [ih rest h2] at this
    simpa using this

theorem entriesOf_recBytes {r : Record} {bs : List (Nat × Nat)} (h : recBytes r = some bs) :
    (entriesOf r).bytes = bs.map (fun p => ⟨p.1, p.2⟩) := by
  unfold recBytes at h
  split at h
  · next ah al oh ol ds h1 h2 h3 =>
    simp only [Option.some.injEq] at h
    subst h
    unfold entriesOf calcDataEntries
    rw [calcDataLoop_eq (decodeString_pairBytes _ _ h1) (decodeString_pairBytes _ _ h2) _ _ 0 h3]
    simp [Function.comp_def]
  · simp at h

theorem insertBytes_pairs (ps : List (Nat × Nat)) :
    ((insertBytes Mem.empty (ps.map fun p => ⟨p.1, p.2⟩)).err = none ↔ (ps.map Prod.fst).Nodup) ∧
    ((insertBytes Mem.empty (ps.map fun p => ⟨p.1, p.2⟩)).err = none →
      ∀ a v, (insertBytes Mem.empty (ps.map fun p => ⟨p.1, p.2⟩)).map a = some v ↔ (a, v) ∈ ps) := by
  obtain ⟨h1, h2⟩ := insertBytes_ok (ps.map fun p => (⟨p.1, p.2⟩ : DataByte)) Mem.empty
  constructor
  · rw [h1]
    simp [Mem.empty, Function.comp_def]
  · intro he a v
    rw [h2 he]
    simp only [Mem.empty, List.mem_map]
    constructor
    · rintro (h | ⟨⟨x, y⟩, hp, h⟩)
      · simp at h
      · simp at h; obtain ⟨rfl, rfl⟩ := h; exact hp
    · intro h; exact Or.inr ⟨(a, v), h, rfl⟩

/-- C05: for every record list and CPU count. `bss` are the bytes of the data records, in
order. The parse fails iff two of them have the same address, and on success the map is
exactly these bytes. -/
theorem C05_collision {n : Nat} (hn : 0 < n) {recs : List Record} (hs : ∀ r ∈ recs, Shape r)
    {bss : List (List (Nat × Nat))}
    (hb : (recs.filter fun r => r.recordType = ['0', '0']).mapM recBytes = some bss) :
    ∃ o, collectData n recs = some o ∧
      (o.err = none ↔ (bss.flatten.map Prod.fst).Nodup) ∧
      (o.err = none → ∀ a v, o.map a = some v ↔ (a, v) ∈ bss.flatten) := by
  rw [collectData_eq hn hs]
  have hdata : dataBytes recs = bss.flatten.map (fun p => ⟨p.1, p.2⟩) := by
    unfold dataBytes
    change ((recs.filter fun r => r.recordType = ['0', '0']).map fun r => (entriesOf r).bytes).flatten = _
    generalize recs.filter (fun r => r.recordType = ['0', '0']) = l at hb
    induction l generalizing bss with
    | nil => simp at hb; subst hb; rfl
    | cons r rs ih =>
      rw [List.mapM_cons] at hb
      cases h1 : recBytes r with
      | none => rw [h1] at hb; simp at hb
      | some b =>
        cases h2 : rs.mapM recBytes with
        | none => rw [h1, h2] at hb; simp at hb
        | some bs =>
          rw [h1, h2] at hb
          simp at hb; subst hb
          rw [List.map_cons, List.flatten_cons, List.flatten_cons, List.map_append, ih h2,
            entriesOf_recBytes h1]
  rw [hdata]
  exact ⟨_, rfl, insertBytes_pairs _⟩

/-- C05 for whole files: success iff every sum is right and no address is defined twice,
and then exactly the file's bytes. Missing: files in which a used explicit segment 0 is
followed by data elsewhere (C01). -/
theorem C05_file_partial {n : Nat} (hn : 0 < n) {lines : List Str} (hwf : WellFormed lines)
    (hz : Spec.ZeroSegmentLast (Spec.recs lines)) {sched : List Nat} {o : Outcome}
    (h : parseHex n sched lines = some (some o)) :
    (o.err = none ↔ (∀ r ∈ Spec.recs lines, r.SumOk) ∧ ((fileBytes lines).map Prod.fst).Nodup) ∧
    (o.err = none → ∀ a v, o.map a = some v ↔ (a, v) ∈ fileBytes lines) := by
  obtain ⟨oo, hoo, hres⟩ := parse_wf hn hwf hz sched
  rw [hoo] at h
  exact hres o (by simpa using h)

-- two records on the same address with the same value, and a file meeting the hypotheses
example : ((List.filter (fun r : Record => r.recordType = ['0', '0'])
    [exData ['0','0','0','1'], exEla ['0','0','0','0'], exData ['0','0','0','1']]).mapM recBytes) =
    some [[(1, 119)], [(1, 119)]] := by decide +kernel
example : ∀ r ∈ [exData ['0','0','0','1'], exEla ['0','0','0','0'], exData ['0','0','0','1']], Shape r := by
  intro r hr
  simp only [List.mem_cons, List.not_mem_nil, or_false] at hr
  rcases hr with rfl | rfl | rfl <;> exact ⟨rfl, rfl, rfl, by decide, rfl, rfl⟩
example : WellFormed (encode .lower [⟨false, 0, 65535, [1]⟩, ⟨false, 1, 0, [2, 3]⟩]) ∧
    Spec.ZeroSegmentLast (Spec.recs (encode .lower [⟨false, 0, 65535, [1]⟩, ⟨false, 1, 0, [2, 3]⟩])) := by
  obtain ⟨h1, _, _, h4⟩ := encode_meaning .lower (bs := [⟨false, 0, 65535, [1]⟩, ⟨false, 1, 0, [2, 3]⟩])
    (by decide)
  exact ⟨h1, h4.mpr (by decide)⟩

/-! ## C06: no crash -/

/-- C06: whatever the text, the CPU count and the interleaving: no panic, and the parser
returns as soon as every offset worker has had enough turns. -/
theorem C06_no_panic {n : Nat} (hn : 0 < n) (text : Str) (sched : List Nat) :
    parseFromText n sched text ≠ none ∧
    ((∀ k, k < n → (splitLines text).length < sched.count k) →
      ∃ o, parseFromText n sched text = some (some o)) := by
  constructor
  · unfold parseFromText
    rw [parseHex_eq hn]
    simp
  · intro h
    exact C02_returns hn _ _ h

/-- Every single function on the way is total on what it can be given: a line of any
content, any list of lines, any record a line can give (`parseRecord_total`,
`parseRecordRoutine_eq`, `calcDataLoop_total` are the lemmas). -/
theorem C06_parseRecord {line : Str} (h : 11 ≤ line.length) : parseRecord line ≠ none := by
  rcases parseRecord_total h with ⟨r, hr⟩ | ⟨r, hr, _⟩ <;> rw [hr] <;> simp

example : (∀ k, k < 2 → (splitLines "x\n:0".toList).length < [0, 1, 1, 0, 0, 1].count k) := by decide

/-! ## C07: no data line is lost silently -/

/-- Full statement of C07 (false, see `C07_false`). -/
def C07_full : Prop :=
  ∀ (n : Nat) (lines : List Str) (sched : List Nat) (o : Outcome) (l : Str) (rc : Rec), 0 < n →
    parseHex n sched lines = some (some o) → o.err = none → l ∈ lines →
    decodeLine l = some rc → rc.typ = 0 → rc.SumOk →
    ∀ (i b : Nat), rc.data[i]? = some b → ∃ seg, o.map (seg * 65536 + (rc.addr + i) % 65536) = some b

/-- C07 for lines the parser recognises (those before the first malformed line of their
share), in files whose segment lines are well formed: each byte of each data line is in
the result, in some segment. (Which segment: C01/C02.) Missing from the full statement:
the lines behind a malformed line. -/
theorem C07_no_loss_partial {n : Nat} (hn : 0 < n) {lines : List Str} {sched : List Nat} {o : Outcome}
    (h : parseHex n sched lines = some (some o)) (hok : o.err = none)
    (hseg : ∀ l ∈ recognised n lines, (l.drop 7).take 2 = ['0', '4'] → WellFormedLine l)
    {l : Str} (hl : l ∈ recognised n lines) {rc : Rec} (hd : decodeLine l = some rc) (ht : rc.typ = 0)
    {i b : Nat} (hi : rc.data[i]? = some b) :
    ∃ seg, seg < 65536 ∧ o.map (seg * 65536 + (rc.addr + i) % 65536) = some b := by
  rw [parseHex_eq hn, recordsOf_eq] at h
  simp only [Option.some.injEq] at h
  split at h
  · simp at h; subst h; simp at hok
  · split at h
    · simp only [Option.some.injEq] at h
      generalize hR : List.map recOfLine (recognised n lines) = R at h
      obtain ⟨_, _, _, hdec, _⟩ := decodeLine_some hd
      have hrR : recOfLine l ∈ R := by rw [← hR]; exact List.mem_map_of_mem hl
      -- every offset in play decodes
      have hP : ∀ r ∈ R, ∃ oh ol, decodeString r.offset = some [oh, ol] ∧ oh < 256 ∧ ol < 256 := by
        intro r hr
        rw [← hR, List.mem_map] at hr
        obtain ⟨l', hl', rfl⟩ := hr
        by_cases he : (l'.drop 7).take 2 = ['0', '4']
        · obtain ⟨rc', hd', h2⟩ := hseg l' hl' he
          obtain ⟨_, _, _, hdec', _⟩ := decodeLine_some hd'
          have hela : IsEla (recOfLine l') := he
          obtain ⟨s0, s1, hoff, h0, h1⟩ := hdec'.offset hela (h2 (hdec'.isEla.mp hela))
          exact ⟨_, _, by rw [hoff]; exact decodeString_two h0 h1, specByte_lt h0, specByte_lt h1⟩
        · refine ⟨0, 0, ?_, by omega, by omega⟩
          have : (recOfLine l').offset = zeroOffset := by
            simp only [recOfLine, he, if_false]
          rw [this]; decide
      obtain ⟨f1, f2⟩ := runOffsets_frame (P := fun s => ∃ oh ol, decodeString s = some [oh, ol] ∧ oh < 256 ∧ ol < 256)
        sched (s := initOffsets n R) hP (by
          intro w hw
          simp only [initOffsets, initAt, List.mem_map] at hw
          obtain ⟨_, _, rfl⟩ := hw
          exact ⟨0, 0, (by decide : decodeString zeroOffset = some [0, 0]), by omega, by omega⟩)
      -- the final record of this line
      have hcore : core (recOfLine l) ∈ (runOffsets (initOffsets n R) sched).recs.map core := by
        rw [f1]; exact List.mem_map_of_mem (f := core) hrR
      obtain ⟨r, hr, hreq⟩ := List.mem_map.mp hcore
      obtain ⟨oh, ol, ho, hoh, hol⟩ := f2 r hr
      have hfa : r.addressField = (recOfLine l).addressField := by
        have := congrArg Record.addressField hreq
        exact this
      have hfd : r.data = (recOfLine l).data := by
        have := congrArg Record.data hreq
        exact this
      have hft : r.recordType = (recOfLine l).recordType := by
        have := congrArg Record.recordType hreq
        exact this
      obtain ⟨ah, al, ha, hadr, _, _⟩ := hdec.addr
      have hent := calcDataLoop_eq (r := r) (by rw [hfa]; exact ha) ho r.data rc.data 0
        (by rw [hfd]; exact hdec.data)
      have hmem : (⟨(oh * 256 + ol) * 65536 + (rc.addr + i) % 65536, b⟩ : DataByte) ∈
          dataBytes (runOffsets (initOffsets n R) sched).recs := by
        unfold dataBytes
        rw [List.mem_flatten]
        refine ⟨(entriesOf r).bytes, ?_, ?_⟩
        · apply List.mem_map_of_mem (f := fun r => (entriesOf r).bytes)
          rw [List.mem_filter]
          refine ⟨hr, ?_⟩
          have : IsData r := by
            have := hdec.isData.mpr ht
            unfold IsData at this ⊢
            rw [hft]; exact this
          simpa using this
        · unfold entriesOf calcDataEntries
          rw [hent]
          simp only [Option.getD_some, List.mem_map, Prod.exists]
          refine ⟨b, i, ?_, by rw [hadr]⟩
          rw [List.mem_zipIdx_iff_getElem?]
          exact hi
      obtain ⟨_, k2⟩ := insertBytes_ok (dataBytes (runOffsets (initOffsets n R) sched).recs) Mem.empty
      subst h
      exact ⟨oh * 256 + ol, by omega, (k2 hok _ _).mpr (Or.inr hmem)⟩
    · simp at h

/-- The file that loses its only data line on `n` CPUs: a line without colon in front. -/
def commentLine : Str := "; a comment line".toList
def lossyLines (n : Nat) : List Str :=
  [commentLine, ":0100000007F8".toList] ++ List.replicate (2 * n - 2) []

theorem lossy_recognised (n : Nat) (hn : 0 < n) : recognised n (lossyLines n) = [] := by
  have hlen : (lossyLines n).length = 2 * n := by simp [lossyLines]; omega
  have hq : 2 * n / n = 2 := by rw [Nat.mul_comm]; exact Nat.mul_div_cancel_left 2 hn
  unfold recognised
  rw [List.flatMap_eq_nil_iff]
  intro i hi
  unfold workerLines
  rw [hlen, hq]
  by_cases h0 : i = 0
  · subst h0
    have hm : Malformed commentLine := by decide +kernel
    split
    · simp [lossyLines, hm, significant]
    · simp [lossyLines, hm, significant]
  · have hdrop : ∀ l ∈ (lossyLines n).drop (2 * i), l = [] := by
      intro l hl
      have : 2 * i = 2 + (2 * i - 2) := by omega
      rw [this, ← List.drop_drop] at hl
      have := List.mem_of_mem_drop hl
      simp only [lossyLines, List.cons_append, List.nil_append, List.drop_succ_cons, List.drop_zero,
        List.mem_replicate] at this
      exact this.2
    rw [show significant _ = _ from rfl]
    unfold significant
    rw [List.filter_eq_nil_iff]
    intro l hl
    have hl := (List.takeWhile_sublist _).subset hl
    have : l = [] := by
      split at hl
      · exact hdrop l hl
      · exact hdrop l (List.mem_of_mem_take hl)
    simp [this]

/-- C07 fails on every number of CPUs: a stray line makes the worker drop the rest of its
share, and the parse still succeeds, with an empty map. -/
theorem C07_false_everywhere (n : Nat) (hn : 0 < n) :
    ":0100000007F8".toList ∈ lossyLines n ∧
    decodeLine ":0100000007F8".toList = some ⟨1, 0, 0, [7], 248⟩ ∧ (⟨1, 0, 0, [7], 248⟩ : Rec).SumOk ∧
    ∀ sched o, parseHex n sched (lossyLines n) = some (some o) → o.err = none ∧ ∀ a, o.map a = none := by
  refine ⟨by simp [lossyLines], by decide +kernel, by decide, ?_⟩
  intro sched o h
  rw [parseHex_eq hn, recordsOf_eq, lossy_recognised n hn] at h
  simp only [Option.some.injEq] at h
  rw [if_neg (by simp)] at h
  split at h
  · simp only [Option.some.injEq] at h
    subst h
    obtain ⟨f1, _⟩ := runOffsets_frame (P := fun _ => True) sched (s := initOffsets n [])
      (fun _ _ => trivial) (fun _ _ => trivial)
    have : (runOffsets (initOffsets n []) sched).recs = [] := by
      have : (runOffsets (initOffsets n []) sched).recs.map core = [] := f1
      simpa using this
    simp [this, dataBytes, insertBytes, Mem.empty]
  · simp at h

theorem C07_false : ¬ C07_full := by
  intro h
  obtain ⟨h1, h2, h3, h4⟩ := C07_false_everywhere 1 (by omega)
  obtain ⟨o, ho⟩ := C02_returns (n := 1) (by omega) (lossyLines 1) (List.replicate 9 0) (by decide)
  obtain ⟨h5, h6⟩ := h4 _ o ho
  obtain ⟨seg, hseg⟩ := h 1 _ _ o _ _ (by omega) ho h5 h1 h2 rfl h3 0 7 rfl
  rw [h6] at hseg
  simp at hseg

example : ∀ l ∈ recognised 1 (encode .upper [⟨false, 3, 5, [1, 2]⟩]),
    (l.drop 7).take 2 = ['0', '4'] → WellFormedLine l := by
  obtain ⟨h1, _⟩ := encode_meaning .upper (bs := [⟨false, 3, 5, [1, 2]⟩]) (by decide)
  rw [wellFormed_recognised (by omega) h1]
  intro l hl _
  exact h1 l hl

/-! ## C08: the number of CPUs does not matter -/

/-- Full statement of C08 (false, see `C08_false`). -/
def C08_full : Prop :=
  ∀ (n m : Nat) (sched sched' : List Nat) (lines : List Str) (o o' : Outcome), 0 < n → 0 < m →
    parseHex n sched lines = some (some o) → parseHex m sched' lines = some (some o') →
    (o.err = none ↔ o'.err = none) ∧ (o.err = none → o.map = o'.map)

/-- C08 for well-formed files (checksums and addresses may be wrong or collide), every two
CPU counts and every two interleavings. Missing: files with lines the parser cannot read,
and the segment-0 files of C01. -/
theorem C08_cpu_count_partial {n m : Nat} (hn : 0 < n) (hm : 0 < m) {sched sched' : List Nat}
    {lines : List Str} (hwf : WellFormed lines) (hz : Spec.ZeroSegmentLast (Spec.recs lines))
    {o o' : Outcome} (h : parseHex n sched lines = some (some o))
    (h' : parseHex m sched' lines = some (some o')) :
    (o.err = none ↔ o'.err = none) ∧ (o.err = none → o.map = o'.map) := by
  obtain ⟨a1, a2⟩ := C05_file_partial hn hwf hz h
  obtain ⟨b1, b2⟩ := C05_file_partial hm hwf hz h'
  refine ⟨a1.trans b1.symm, ?_⟩
  intro he
  have he' : o'.err = none := b1.mpr (a1.mp he)
  funext a
  apply Option.ext
  intro v
  rw [a2 he, b2 he']

/-- The same lines lose their data on one CPU and keep it on two. -/
theorem C08_false : ¬ C08_full := by
  intro h
  let lines := [commentLine, ":0100000007F8".toList]
  obtain ⟨o, ho⟩ := C02_returns (n := 1) (by omega) lines (List.replicate 9 0) (by decide)
  obtain ⟨o', ho'⟩ := C02_returns (n := 2) (by omega) lines [0, 1, 0, 1, 0, 1] (by decide)
  have h1 := (C07_false_everywhere 1 (by omega)).2.2.2 _ o ho
  have h2 := (h 1 2 _ _ lines o o' (by omega) (by omega) ho ho').2 h1.1
  obtain ⟨seg, hlt, hseg⟩ := C07_no_loss_partial (n := 2) (by omega) ho'
    (((h 1 2 _ _ lines o o' (by omega) (by omega) ho ho').1).mp h1.1)
    (l := ":0100000007F8".toList) (rc := ⟨1, 0, 0, [7], 248⟩) (i := 0) (b := 7)
    (by
      have hrec : recognised 2 lines = [":0100000007F8".toList] := by decide +kernel
      rw [hrec]
      intro l hl h4
      simp only [List.mem_cons, List.not_mem_nil, or_false] at hl
      subst hl
      exact absurd h4 (by decide +kernel))
    (by decide +kernel) (by decide +kernel) rfl rfl
  rw [← h2, h1.2] at hseg
  simp at hseg

/-! ## C09: line terminators -/

/-- C09 (Intel HEX): the same lines with CRLF or with LF give the same result, on every
CPU count and for every interleaving. -/
theorem C09_ihex (n : Nat) (sched : List Nat) (ls : List Str)
    (h : ∀ l ∈ ls, '\r' ∉ l ∧ '\n' ∉ l) :
    parseFromText n sched (joinLines ['\r', '\n'] ls) = parseFromText n sched (joinLines ['\n'] ls) := by
  unfold parseFromText
  by_cases hne : ls = []
  · subst hne; rfl
  · rw [splitLines_crlf hne h, splitLines_lf hne h]

/-- ... namely what the lines themselves give. -/
theorem C09_ihex_lines (n : Nat) (sched : List Nat) (ls : List Str) (hne : ls ≠ [])
    (h : ∀ l ∈ ls, '\r' ∉ l ∧ '\n' ∉ l) :
    parseFromText n sched (joinLines ['\r', '\n'] ls) = parseHex n sched ls := by
  unfold parseFromText
  rw [splitLines_crlf hne h]

example : ∀ l ∈ [":0100000007F8".toList, ":00000001FF".toList, []], '\r' ∉ l ∧ '\n' ∉ l := by decide +kernel

/-! ## C10: wrap inside the segment -/

/-- C10: byte `i` of a data record at offset `a` in segment `s` goes to
`s * 65536 + (a + i) % 65536`, for every segment, offset, payload and letter case. -/
theorem C10_wrap {s a : Nat} (hs : s < 65536) (ha : a < 65536) (c c' : Case) (r : Record)
    (hoff : r.offset = print16 c s) (haddr : r.addressField = print16 c' a)
    {ds : List Nat} (hd : r.data.mapM specByte = some ds) :
    ∃ es, calcDataEntries r = some ⟨es, false⟩ ∧ es.length = ds.length ∧
      ∀ (i : Nat) (b : Nat), ds[i]? = some b → es[i]? = some ⟨s * 65536 + (a + i) % 65536, b⟩ ∧
        (s * 65536 + (a + i) % 65536) / 65536 = s := by
  have hdec : ∀ (c : Case) (x : Nat), x < 65536 → decodeString (print16 c x) = some [x / 256, x % 256] := by
    intro c x hx
    unfold print16
    apply decodeString_two
    · rw [← hexToByte_eq]; exact hexToByte_printByte _ _ (by omega)
    · rw [← hexToByte_eq]; exact hexToByte_printByte _ _ (by omega)
  have hloop := calcDataLoop_eq (r := r) (by rw [haddr]; exact hdec c' a ha) (by rw [hoff]; exact hdec c s hs)
    r.data ds 0 hd
  refine ⟨_, hloop, by simp, ?_⟩
  intro i b hi
  refine ⟨?_, by omega⟩
  rw [List.getElem?_map, List.getElem?_zipIdx, hi]
  simp only [Option.map_some, Nat.zero_add]
  have h1 : s / 256 * 256 + s % 256 = s := Nat.div_add_mod' s 256
  have h2 : a / 256 * 256 + a % 256 = a := Nat.div_add_mod' a 256
  rw [h1, h2]

-- crossing the end of the segment
example : (List.mapM specByte [['0','1'], ['0','2'], ['f','f']]) = some [1, 2, 255] ∧
    print16 .upper 65535 = ['F','F','F','F'] ∧ (2 : Nat) * 65536 + (65535 + 1) % 65536 = 131072 := by
  refine ⟨by decide +kernel, by decide +kernel, by omega⟩

/-! ## C11: letter case -/

theorem rowByte : ∀ row ∈ [upperDigits, lowerDigits], ∀ hi ∈ List.range 16, ∀ lo ∈ List.range 16,
    specByte [row.getD hi '?', row.getD lo '?'] = some (16 * hi + lo) := by decide +kernel

/-- C11, the digit table: for every string, a field is accepted iff it is two hex digits
from one row (upper or lower), and the value is `16 * hi + lo`. -/
theorem C11_table (s : Str) (v : Nat) :
    hexToByte s = some v ↔ ∃ (row : List Char) (hi lo : Nat), (row = upperDigits ∨ row = lowerDigits) ∧
      hi < 16 ∧ lo < 16 ∧ s = [row.getD hi '?', row.getD lo '?'] ∧ v = 16 * hi + lo := by
  constructor
  · intro h
    rw [hexToByte_eq] at h
    have h' := h
    obtain ⟨a, ha, b, hb, rfl⟩ := specByte_mem h
    unfold specByte at h'
    simp only at h'
    split at h'
    · next hsc =>
      have hrow : ∃ row, (row = upperDigits ∨ row = lowerDigits) ∧ a ∈ row ∧ b ∈ row := by
        rcases hsc with ⟨h1, h2⟩ | ⟨h1, h2⟩
        · exact ⟨_, Or.inl rfl, h1, h2⟩
        · exact ⟨_, Or.inr rfl, h1, h2⟩
      obtain ⟨row, hr, h1, h2⟩ := hrow
      have hlen : row.length = 16 := by rcases hr with rfl | rfl <;> rfl
      obtain ⟨hi, hhi, rfl⟩ := List.getElem_of_mem h1
      obtain ⟨lo, hlo, rfl⟩ := List.getElem_of_mem h2
      refine ⟨row, hi, lo, hr, by omega, by omega, by simp [hhi, hlo], ?_⟩
      have := rowByte row (by simpa using hr) hi (by simp; omega) lo (by simp; omega)
      simp only [List.getD_eq_getElem?_getD, List.getElem?_eq_getElem hhi,
        List.getElem?_eq_getElem hlo, Option.getD_some] at this
      rw [h] at this
      simpa using this
    · simp at h'
  · rintro ⟨row, hi, lo, hrow, hhi, hlo, rfl, rfl⟩
    rw [hexToByte_eq]
    exact rowByte row (by simpa using hrow) hi (by simpa using hhi) lo (by simpa using hlo)

/-- Full statement of C11 for whole files (false: `C11_file_false`). -/
def C11_file_full : Prop :=
  ∀ (n : Nat) (lines : List Str) (sched sched' : List Nat) (o o' : Outcome), 0 < n →
    parseHex n sched lines = some (some o) →
    parseHex n sched' (lines.map (·.map Char.toLower)) = some (some o') →
    (o.err = none ↔ o'.err = none) ∧ (o.err = none → o.map = o'.map)

/-- C11 for well-formed files: converting the whole file to lower case or to upper case
(any letter map that keeps colons and byte values) does not change the result. Missing:
files with lines that are not well formed, for which the full statement is false. -/
theorem C11_file_partial {n : Nat} (hn : 0 < n) {lines : List Str} (hwf : WellFormed lines)
    (hz : Spec.ZeroSegmentLast (Spec.recs lines)) {f : Char → Char} (hf : f = Char.toLower ∨ f = Char.toUpper)
    {sched sched' : List Nat} {o o' : Outcome} (h : parseHex n sched lines = some (some o))
    (h' : parseHex n sched' (lines.map (·.map f)) = some (some o')) :
    (o.err = none ↔ o'.err = none) ∧ (o.err = none → o.map = o'.map) := by
  have hcm : CaseMap f := by
    rcases hf with rfl | rfl
    · exact caseMap_toLower
    · exact caseMap_toUpper
  obtain ⟨w1, w2⟩ := hcm.file hwf
  obtain ⟨a1, a2⟩ := C05_file_partial hn hwf hz h
  obtain ⟨b1, b2⟩ := C05_file_partial hn w1 (by rw [w2]; exact hz) h'
  have hfb : fileBytes (lines.map (·.map f)) = fileBytes lines := by unfold fileBytes; rw [w2]
  rw [w2, hfb] at b1
  rw [hfb] at b2
  refine ⟨a1.trans b1.symm, ?_⟩
  intro he
  have he' : o'.err = none := b1.mpr (a1.mp he)
  funext a
  apply Option.ext
  intro v
  rw [a2 he, b2 he']

/-- A byte in mixed case is an error, its lower-case version is not. -/
theorem C11_file_false : ¬ C11_file_full := by
  intro h
  obtain ⟨o, ho⟩ := C02_returns (n := 1) (by omega) [":00000001Ff".toList] (List.replicate 9 0) (by decide)
  obtain ⟨o', ho'⟩ := C02_returns (n := 1) (by omega) [":00000001ff".toList] (List.replicate 9 0) (by decide)
  have hb : ∃ l ∈ recognised 1 [":00000001Ff".toList], ¬ LineSumOk l := by
    refine ⟨":00000001Ff".toList, by decide +kernel, ?_⟩
    rintro ⟨bs, hbs, _⟩
    have : (fields ":00000001Ff".toList).mapM specByte = none := by decide +kernel
    rw [this] at hbs
    simp at hbs
  have he := (C03_checksum (by omega) _ _ ho).mpr hb
  have hg : o'.err = none := by
    have hdl : decodeLine ":00000001ff".toList = some ⟨0, 0, 1, [], 255⟩ := by decide +kernel
    have hwf : WellFormed [":00000001ff".toList] := by
      intro l hl
      have := (mem_significant hl).1
      simp only [List.mem_cons, List.not_mem_nil, or_false] at this
      subst this
      exact ⟨_, hdl, by intro h; simp at h⟩
    have hrec : Spec.recs [":00000001ff".toList] = [⟨0, 0, 1, [], 255⟩] := by decide +kernel
    refine (C05_file_partial (by omega) hwf (by rw [hrec]; decide) ho').1.mpr ?_
    unfold fileBytes
    rw [hrec]
    decide
  have := (h 1 [":00000001Ff".toList] _ _ o o' (by omega) ho ho').1.mpr hg
  rw [he] at this
  simp at this

/-! ## C12: the declared byte count -/

/-- Full statement of C12 for Intel HEX (false: `C12_ihex_false`). -/
def C12_ihex_full : Prop :=
  ∀ (n : Nat) (lines : List Str) (sched : List Nat) (o : Outcome) (l : Str) (rc : Rec), 0 < n →
    parseHex n sched lines = some (some o) → o.err = none → l ∈ recognised n lines →
    decodeLine l = some rc → rc.count = rc.data.length

/-- What the checksum gives: a wrong count alone is always detected. If a file is accepted
and one reached line gets another count byte, the changed file is rejected. Missing: lines
whose payload (or checksum) is wrong in a way that compensates. -/
theorem C12_ihex_partial {n : Nat} (hn : 0 < n) {lines : List Str} {j : Nat} {ps : List Str}
    {p : Str} {sched sched' : List Nat} {o o' : Outcome}
    (h : parseHex n sched lines = some (some o)) (hok : o.err = none)
    (hj : lines[j]? = some (':' :: ps.flatten)) (hps : ∀ q ∈ ps, q.length = 2) (h5 : 5 ≤ ps.length)
    (hp : p.length = 2) (hne : specByte p ≠ specByte (ps.getD 0 [])) (hr : Reached n lines j)
    (h' : parseHex n sched' (lines.set j (':' :: (ps.set 0 p).flatten)) = some (some o')) :
    o'.err = some .invalidChecksums := by
  apply C04_corruption_partial hn h hok hj hps h5 (by omega) hp hne hr ?_ h'
  match ps, h5 with
  | q :: qs, h5 =>
    have hq : q.length = 2 := hps q (by simp)
    -- the original line is not malformed
    obtain ⟨i, hi, hlo, hup⟩ := exists_worker (len := lines.length) (j := j) hn
    have hnot : ¬ Malformed (':' :: (q :: qs).flatten) := by
      have hmem := reached_recognised hn hr hj (by
        rw [List.length_cons, flatten_pairs_length _ hps]; omega)
      exact (mem_recognised hmem).2.2
    rw [List.set_cons_zero]
    rintro ⟨h1, h2⟩
    apply hnot
    match q, hq, p, hp with
    | [q0, q1], _, [p0, p1], _ =>
      refine ⟨by simpa using h1, ?_⟩
      rcases h2 with h2 | ⟨h2, h3⟩
      · exact absurd rfl h2
      · right
        refine ⟨?_, by simpa using h3⟩
        simpa using h2

/-- Count 5, one data byte, accepted. -/
theorem C12_ihex_false : ¬ C12_ihex_full := by
  intro h
  obtain ⟨o, ho⟩ := C02_returns (n := 1) (by omega) [":0500000007F4".toList] (List.replicate 9 0) (by decide)
  have hdl : decodeLine ":0500000007F4".toList = some ⟨5, 0, 0, [7], 244⟩ := by decide +kernel
  have hwf : WellFormed [":0500000007F4".toList] := by
    intro l hl
    have := (mem_significant hl).1
    simp only [List.mem_cons, List.not_mem_nil, or_false] at this
    subst this
    exact ⟨_, hdl, by intro h; simp at h⟩
  have hrec : Spec.recs [":0500000007F4".toList] = [⟨5, 0, 0, [7], 244⟩] := by decide +kernel
  have hok : o.err = none := by
    refine (C05_file_partial (by omega) hwf (by rw [hrec]; decide) ho).1.mpr ?_
    unfold fileBytes
    rw [hrec]
    decide
  have := h 1 _ _ o _ _ (by omega) ho hok (by
    rw [wellFormed_recognised (by omega) hwf]; decide +kernel) hdl
  simp at this

end Verif.Ihex
