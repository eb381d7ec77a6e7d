import Verif.Ihex.ExactProps
import Verif.Ihex.TextSpec

/-!
C77: the exact result of the Intel HEX reader for every text, every number of CPUs and every interleaving.
-/

namespace Verif.Ihex
open Verif.Go Verif.Hex Verif.Hex.Spec Spec

/-! ### Storing a list of pairs -/

/-- Every list of pairs either has distinct addresses or a first clash, which is unique. -/
theorem clash_or (ps : List (Nat × Nat)) :
    (ps.map Prod.fst).Nodup ∨ ∃ pre a v w, Clash ps pre a v w := by
  have key : ∀ (ps pre : List (Nat × Nat)), (pre.map Prod.fst).Nodup →
      ((pre ++ ps).map Prod.fst).Nodup ∨ ∃ pre' a v w, Clash (pre ++ ps) pre' a v w := by
    intro ps
    induction ps with
    | nil => intro pre h; left; simpa using h
    | cons p ps ih =>
      intro pre h
      by_cases hm : p.1 ∈ pre.map Prod.fst
      · obtain ⟨q, hq, he⟩ := List.mem_map.mp hm
        right
        refine ⟨pre, p.1, q.2, p.2, h, ?_, ps, rfl⟩
        rw [← he]; exact hq
      · have := ih (pre ++ [p]) (by
          rw [List.map_append, List.nodup_append]
          refine ⟨h, by simp, ?_⟩
          intro x hx y hy hxy
          simp only [List.map_cons, List.map_nil, List.mem_singleton] at hy
          rw [hxy, hy] at hx
          exact hm hx)
        simpa using this
  simpa using key ps [] (by simp)

theorem clash_not_nodup {ps pre : List (Nat × Nat)} {a v w : Nat} (h : Clash ps pre a v w) :
    ¬ (ps.map Prod.fst).Nodup := by
  obtain ⟨_, hm, post, rfl⟩ := h
  intro hn
  rw [List.map_append, List.nodup_append] at hn
  exact hn.2.2 a (List.mem_map.mpr ⟨_, hm, rfl⟩) a (by simp) rfl

theorem insertBytes_append : ∀ (ds es : List DataByte) (m : Mem), (insertBytes m ds).err = none →
    insertBytes m (ds ++ es) = insertBytes (insertBytes m ds).map es := by
  intro ds
  induction ds with
  | nil => intro es m _; rfl
  | cons d ds ih =>
    intro es m h
    unfold insertBytes at h
    rw [List.cons_append]
    conv => lhs; unfold insertBytes
    conv => rhs; arg 1; unfold insertBytes
    cases hm : m d.address with
    | some v => rw [hm] at h; simp at h
    | none =>
      rw [hm] at h
      exact ih es _ h

/-- What the insertion loop does with any list of pairs. -/
theorem insert_result (ps : List (Nat × Nat)) :
    ((ps.map Prod.fst).Nodup →
      (insertBytes Mem.empty (ps.map fun p => ⟨p.1, p.2⟩)).err = none ∧
      ∀ a v, (insertBytes Mem.empty (ps.map fun p => ⟨p.1, p.2⟩)).map a = some v ↔ (a, v) ∈ ps) ∧
    (∀ pre a v w, Clash ps pre a v w →
      (insertBytes Mem.empty (ps.map fun p => ⟨p.1, p.2⟩)).err = some (.collision a v w) ∧
      ∀ x y, (insertBytes Mem.empty (ps.map fun p => ⟨p.1, p.2⟩)).map x = some y ↔ (x, y) ∈ pre) := by
  have hok : ∀ ps : List (Nat × Nat), (ps.map Prod.fst).Nodup →
      (insertBytes Mem.empty (ps.map fun p => ⟨p.1, p.2⟩)).err = none ∧
      ∀ a v, (insertBytes Mem.empty (ps.map fun p => ⟨p.1, p.2⟩)).map a = some v ↔ (a, v) ∈ ps := by
    intro ps hn
    obtain ⟨h1, h2⟩ := insertBytes_ok (ps.map fun p => (⟨p.1, p.2⟩ : DataByte)) Mem.empty
    have he := h1.mpr ⟨by simpa [Function.comp_def] using hn, by simp [Mem.empty]⟩
    refine ⟨he, fun a v => ?_⟩
    rw [h2 he]
    simp only [Mem.empty, List.mem_map]
    constructor
    · rintro (h | ⟨p, hp, he⟩)
      · simp at h
      · injection he with e1 e2
        subst e1; subst e2
        exact hp
    · intro h
      exact Or.inr ⟨(a, v), h, rfl⟩
  refine ⟨hok ps, ?_⟩
  rintro pre a v w ⟨hn, hm, post, rfl⟩
  obtain ⟨h1, h2⟩ := hok pre hn
  rw [List.map_append, insertBytes_append _ _ _ h1, List.map_cons]
  have hv := (h2 a v).mpr hm
  unfold insertBytes
  simp only [hv, true_and]
  exact h2

/-! ### Any recognised line -/

theorem digitVal_eq (c : Char) : fromHexChar c = digitVal c := by
  by_cases hc : c ∈ digitChars
  · exact fromHexChar_digits c hc
  · have h1 : digitVal c = none := by
      cases h : digitVal c with
      | none => rfl
      | some v => exact absurd (digitVal_some_mem h) hc
    rw [h1]
    unfold fromHexChar
    have key : ∀ k : Nat, (48 ≤ k ∧ k ≤ 57) ∨ (97 ≤ k ∧ k ≤ 102) ∨ (65 ≤ k ∧ k ≤ 70) → c.toNat ≠ k := by
      intro k hk he
      apply hc
      have hall : ∀ k ∈ (List.range 103), ((48 ≤ k ∧ k ≤ 57) ∨ (97 ≤ k ∧ k ≤ 102) ∨ (65 ≤ k ∧ k ≤ 70)) →
          Char.ofNat k ∈ digitChars := by decide +kernel
      have := hall k (List.mem_range.mpr (by omega)) hk
      rw [← he, Char.ofNat_toNat] at this
      exact this
    simp only
    rw [if_neg (fun h => key _ (Or.inl h) rfl), if_neg (fun h => key _ (Or.inr (Or.inl h)) rfl),
      if_neg (fun h => key _ (Or.inr (Or.inr h)) rfl)]

theorem decodeString_half {s : Str} (h : s.length = 4) :
    (decodeString s = none ∧ half s = none) ∨
      ∃ x y, decodeString s = some [x, y] ∧ half s = some (x * 256 + y) := by
  match s, h with
  | [a, b, c, d], _ =>
    simp only [decodeString, half, List.take_succ_cons, List.take_zero, List.drop_succ_cons, List.drop_zero, byteVal,
      digitVal_eq]
    cases digitVal a <;> cases digitVal b <;> cases digitVal c <;> cases digitVal d <;> simp <;>
      exact ⟨_, _, ⟨rfl, rfl⟩, rfl⟩

theorem mapM_filterMap : ∀ (ss : List Str) ds, ss.mapM specByte = some ds → ss.filterMap specByte = ds := by
  intro ss
  induction ss with
  | nil => intro ds h; simp at h; subst h; rfl
  | cons s ss ih =>
    intro ds h
    rw [List.mapM_cons] at h
    cases hs : specByte s with
    | none => rw [hs] at h; simp at h
    | some b =>
      cases hss : ss.mapM specByte with
      | none => rw [hs, hss] at h; simp at h
      | some bs =>
        rw [hs, hss] at h
        simp only [Option.bind_eq_bind, Option.bind_some, Option.pure_def, Option.some.injEq] at h
        subst h
        rw [List.filterMap_cons_some hs, ih _ hss]

theorem mapM_mem : ∀ (ss : List Str) ds, ss.mapM specByte = some ds → ∀ f ∈ ss, ∃ b, specByte f = some b := by
  intro ss
  induction ss with
  | nil => intro ds _ f hf; simp at hf
  | cons s ss ih =>
    intro ds h f hf
    rw [List.mapM_cons] at h
    cases hs : specByte s with
    | none => rw [hs] at h; simp at h
    | some b =>
      cases hss : ss.mapM specByte with
      | none => rw [hs, hss] at h; simp at h
      | some bs =>
        rcases List.mem_cons.mp hf with rfl | hf
        · exact ⟨b, hs⟩
        · exact ih _ hss f hf

/-- The text of a line whose sum is right: its address and its data are numbers. -/
theorem lineSumOk_parts {l : Str} (hs : LineSumOk l) :
    (∃ ds, (payloadPairs (l.drop 9)).mapM specByte = some ds ∧
      (payloadPairs (l.drop 9)).filterMap specByte = ds) ∧
    ∃ x y, decodeString ((l.drop 3).take 4) = some [x, y] ∧ half ((l.drop 3).take 4) = some (x * 256 + y) := by
  obtain ⟨bs, h, _⟩ := hs
  obtain ⟨x, h2⟩ := mapM_mem _ _ h ((l.drop 3).take 2) (by simp [fields])
  obtain ⟨y, h3⟩ := mapM_mem _ _ h ((l.drop 5).take 2) (by simp [fields])
  obtain ⟨ds, h5⟩ : ∃ ds, (payloadPairs (l.drop 9)).mapM specByte = some ds := by
    cases h5 : (payloadPairs (l.drop 9)).mapM specByte with
    | some ds => exact ⟨ds, rfl⟩
    | none =>
      unfold fields at h
      rw [List.mapM_append, List.mapM_append, h5] at h
      simp only [Option.bind_eq_bind, Option.bind_none, Option.bind_fun_none, reduceCtorEq] at h
  refine ⟨⟨ds, h5, mapM_filterMap _ _ h5⟩, x, y, ?_⟩
  have hsplit : (l.drop 3).take 4 = (l.drop 3).take 2 ++ (l.drop 5).take 2 := by
    rw [show (4 : Nat) = 2 + 2 from rfl, List.take_add, List.drop_drop]
  have hd := decodeString_two h2 h3
  rw [← hsplit] at hd
  refine ⟨hd, ?_⟩
  have hlen : ((l.drop 3).take 4).length = 4 := by
    rw [hsplit, List.length_append]
    rw [← hexToByte_eq] at h2 h3
    rw [hexToByte_length h2, hexToByte_length h3]
  rcases decodeString_half hlen with ⟨h, _⟩ | ⟨x', y', h, hh⟩
  · rw [hd] at h; simp at h
  · rw [hd] at h
    simp only [Option.some.injEq, List.cons.injEq, and_true] at h
    rw [hh, h.1, h.2]

/-- The data of a line with right sum in a segment written as any four characters. -/
theorem entriesOf_line {l seg : Str} (hs : LineSumOk l) (hl : seg.length = 4) :
    (entriesOf { recOfLine l with offset := seg }).bytes = (lineBytes seg l).map fun p => ⟨p.1, p.2⟩ := by
  obtain ⟨⟨ds, h1, h2⟩, x, y, h3, h4⟩ := lineSumOk_parts hs
  unfold lineBytes
  rw [h4, h2]
  unfold entriesOf calcDataEntries
  rcases decodeString_half hl with ⟨hn, hh⟩ | ⟨u, v, hd, hh⟩
  · rw [hh]
    simp only [List.map_nil]
    cases hdat : ({ recOfLine l with offset := seg } : Record).data with
    | nil => rfl
    | cons s ss =>
      unfold calcDataLoop
      rw [show ({ recOfLine l with offset := seg } : Record).addressField = (l.drop 3).take 4 from rfl, h3]
      simp only [uint16BE?, Option.bind_eq_bind, Option.bind_some]
      rw [hn]
      rfl
  · have h1' : ({ recOfLine l with offset := seg } : Record).data.mapM specByte = some ds := h1
    rw [hh, calcDataLoop_eq (r := { recOfLine l with offset := seg }) h3 hd _ ds 0 h1']
    simp [Function.comp_def]

/-! ### The upper half, line by line -/

theorem selected_text (ls : List Str) (a i : Nat) :
    Seg.selected (ls.map recOfLine) a i = selectedText ls a i := by
  unfold Seg.selected selectedText
  rw [← List.map_take, ← List.map_drop, List.filter_map, List.getLast?_map, Option.map_map]
  have : (fun r : Record => decide (r.recordType = ['0', '4'])) ∘ recOfLine = fun l => decide (typeText l = ['0', '4']) := rfl
  rw [this]
  cases h : (((ls.take i).drop a).filter (fun l => typeText l = ['0', '4'])).getLast? with
  | none => rfl
  | some l =>
    have hm := List.mem_of_getLast? h
    rw [List.mem_filter] at hm
    have ht : (l.drop 7).take 2 = ['0', '4'] := of_decide_eq_true hm.2
    simp only [Option.map_some, Function.comp_apply, Option.some.injEq]
    unfold recOfLine upperText
    simp only [ht, if_true]

theorem arrives_text (ls : List Str) (a i : Nat) :
    Seg.Arrives (ls.map recOfLine) a i ↔ ArrivesText ls a i := by
  unfold Seg.Arrives ArrivesText Seg.DataAt
  simp only [selected_text, List.getElem?_map, Option.map_map]
  rfl

theorem delivered_text (starts : List Nat) (ls : List Str) (i : Nat) :
    Seg.delivered starts (ls.map recOfLine) i = usedText starts ls i := by
  unfold Seg.delivered usedText
  simp only [arrives_text, selected_text]

theorem usedText_length {starts : List Nat} {ls : List Str} (h : ∀ l ∈ ls, typeText l = ['0', '4'] → 13 ≤ l.length)
    (i : Nat) : (usedText starts ls i).length = 4 := by
  unfold usedText
  split
  · unfold selectedText
    cases hg : ((((ls.take i).drop 0).filter (fun l => typeText l = ['0', '4'])).getLast?) with
    | none => rfl
    | some l =>
      have hm := List.mem_of_getLast? hg
      rw [List.mem_filter] at hm
      have := h l (List.mem_of_mem_take (List.mem_of_mem_drop hm.1)) (by simpa using hm.2)
      simp [upperText]; omega
  · rfl

theorem dataBytes_lines (o : Nat → Str) (ho : ∀ i, (o i).length = 4) : ∀ (ls : List Str) (k : Nat), (∀ l ∈ ls, LineSumOk l) →
    dataBytes ((ls.map recOfLine).mapIdx fun i r => if r.recordType = ['0', '0'] then { r with offset := o (i + k) } else r) =
      ((ls.zipIdx k).flatMap fun (l, i) => if typeText l = ['0', '0'] then lineBytes (o i) l else []).map
        (fun p => ⟨p.1, p.2⟩) := by
  intro ls
  induction ls with
  | nil => intro k _; rfl
  | cons l ls ih =>
    intro k h
    rw [List.map_cons, List.mapIdx_cons, List.zipIdx_cons, List.flatMap_cons, List.map_append,
      ← ih (k + 1) (fun l hl => h l (by simp [hl]))]
    have hfun : (fun i r => if r.recordType = ['0', '0'] then { r with offset := o (i + 1 + k) } else r : Nat → Record → Record) =
        (fun i r => if r.recordType = ['0', '0'] then { r with offset := o (i + (k + 1)) } else r) := by
      funext i r
      rw [show i + 1 + k = i + (k + 1) by omega]
    rw [hfun]
    have hs := h l (by simp)
    by_cases ht : typeText l = ['0', '0']
    · have ht0 : (recOfLine l).recordType = ['0', '0'] := ht
      rw [if_pos ht0]
      simp only [ht, if_true]
      rw [← entriesOf_line hs (ho k)]
      unfold dataBytes
      have ht' : ({ recOfLine l with offset := o (0 + k) } : Record).recordType = dataRecordToken := ht
      rw [List.filter_cons_of_pos (by simpa using ht'), List.map_cons, List.flatten_cons, Nat.zero_add]
    · have ht0 : ¬ (recOfLine l).recordType = ['0', '0'] := ht
      rw [if_neg ht0]
      simp only [ht, if_false, List.map_nil, List.nil_append]
      unfold dataBytes
      rw [List.filter_cons_of_neg (p := fun r : Record => decide (r.recordType = dataRecordToken)) (fun hd => ht0 (of_decide_eq_true hd))]

/-! ### The whole text -/

/-- C77: whatever the text, the number of CPUs and the interleaving. If a recognised line has a wrong sum, the result is
the empty map with the checksum error. Otherwise the pairs `textBytes n lines` are stored in order: if no address occurs
twice there is no error and the map holds exactly these pairs; if one does, the error names the first such address with
the two values and the map holds the pairs before it. -/
theorem C77_ihex {n : Nat} (hn : 0 < n) (lines : List Str) {sched : List Nat} {o : Outcome}
    (h : parseHex n sched lines = some (some o)) :
    ((∃ l ∈ recognised n lines, ¬ LineSumOk l) → o.err = some .invalidChecksums ∧ ∀ a, o.map a = none) ∧
    ((∀ l ∈ recognised n lines, LineSumOk l) →
      (((textBytes n lines).map Prod.fst).Nodup →
        o.err = none ∧ ∀ a v, o.map a = some v ↔ (a, v) ∈ textBytes n lines) ∧
      (∀ pre a v w, Clash (textBytes n lines) pre a v w →
        o.err = some (.collision a v w) ∧ ∀ x y, o.map x = some y ↔ (x, y) ∈ pre)) := by
  rw [parseHex_eq hn, recordsOf_eq] at h
  have hbad : ((recognised n lines).map recOfLine).any (fun r => !checksumOk r) = true ↔
      ∃ l ∈ recognised n lines, ¬ LineSumOk l := by
    simp only [List.any_map, List.any_eq_true, Function.comp_apply, Bool.not_eq_true', ← Bool.not_eq_true,
      checksumOk_recOfLine]
  simp only [Option.some.injEq] at h
  split at h
  · next hany =>
    simp only [Option.some.injEq] at h
    subst h
    obtain ⟨l, hl, hc⟩ := hbad.mp hany
    exact ⟨fun _ => ⟨rfl, fun _ => rfl⟩, fun hall => absurd (hall l hl) hc⟩
  · next hany =>
    split at h
    · next hdone =>
      simp only [Option.some.injEq] at h
      subst h
      refine ⟨fun hex => absurd (hbad.mpr hex) hany, fun hall => ?_⟩
      have hst : (List.range n).map (fun i => shareStart ((recognised n lines).map recOfLine).length n i) =
          startsOf n (recognised n lines).length := by
        unfold startsOf shareStart
        rw [List.length_map]
      have hrecs : (runOffsets (initOffsets n ((recognised n lines).map recOfLine)) sched).recs = _ :=
        C01_exact _ (fresh_recOfLine _) sched hdone
      rw [hst] at hrecs
      have h13 : ∀ l ∈ recognised n lines, typeText l = ['0', '4'] → 13 ≤ l.length := by
        intro l hl ht
        obtain ⟨_, h11, hm⟩ := mem_recognised hl
        apply Classical.byContradiction
        intro hlt
        exact hm ⟨h11, Or.inr ⟨ht, by omega⟩⟩
      have hdb : dataBytes (runOffsets (initOffsets n ((recognised n lines).map recOfLine)) sched).recs =
          (textBytes n lines).map (fun p => ⟨p.1, p.2⟩) := by
        rw [hrecs]
        unfold Seg.deliver
        simp only [delivered_text]
        exact dataBytes_lines _ (usedText_length h13) _ 0 hall
      rw [hdb]
      exact insert_result _
    · simp at h

/-- C77 for the text of a file. -/
theorem C77_text {n : Nat} (hn : 0 < n) (text : Str) {sched : List Nat} {o : Outcome}
    (h : parseFromText n sched text = some (some o)) :
    ((∃ l ∈ recognised n (splitLines text), ¬ LineSumOk l) → o.err = some .invalidChecksums ∧ ∀ a, o.map a = none) ∧
    ((∀ l ∈ recognised n (splitLines text), LineSumOk l) →
      (((textBytes n (splitLines text)).map Prod.fst).Nodup →
        o.err = none ∧ ∀ a v, o.map a = some v ↔ (a, v) ∈ textBytes n (splitLines text)) ∧
      (∀ pre a v w, Clash (textBytes n (splitLines text)) pre a v w →
        o.err = some (.collision a v w) ∧ ∀ x y, o.map x = some y ↔ (x, y) ∈ pre)) :=
  C77_ihex hn (splitLines text) h

theorem outcome_eq {o o' : Outcome} (he : o.err = o'.err) {ps : List (Nat × Nat)}
    (h : ∀ a v, o.map a = some v ↔ (a, v) ∈ ps) (h' : ∀ a v, o'.map a = some v ↔ (a, v) ∈ ps) : o = o' := by
  cases o with
  | mk m e =>
  cases o' with
  | mk m' e' =>
  simp only at he h h'
  subst he
  congr
  funext a
  cases hv : m a with
  | some v => exact ((h' a v).mpr ((h a v).mp hv)).symm
  | none =>
    cases hv' : m' a with
    | none => rfl
    | some v =>
      have := (h a v).mpr ((h' a v).mp hv')
      rw [hv] at this
      simp at this

/-- Nothing else in a text matters: two texts, also read on different numbers of CPUs, give the same outcome (map and
error) if both have a wrong sum or if both have none and the same pairs. -/
theorem C77_same {n m : Nat} (hn : 0 < n) (hm : 0 < m) {lines lines' : List Str} {sched sched' : List Nat} {o o' : Outcome}
    (h : parseHex n sched lines = some (some o)) (h' : parseHex m sched' lines' = some (some o'))
    (hs : (∀ l ∈ recognised n lines, LineSumOk l) ↔ ∀ l ∈ recognised m lines', LineSumOk l)
    (hb : textBytes n lines = textBytes m lines') : o = o' := by
  obtain ⟨a1, a2⟩ := C77_ihex hn lines h
  obtain ⟨b1, b2⟩ := C77_ihex hm lines' h'
  by_cases hall : ∀ l ∈ recognised n lines, LineSumOk l
  · obtain ⟨a3, a4⟩ := a2 hall
    obtain ⟨b3, b4⟩ := b2 (hs.mp hall)
    rw [← hb] at b3 b4
    rcases clash_or (textBytes n lines) with hnd | ⟨pre, a, v, w, hc⟩
    · exact outcome_eq ((a3 hnd).1.trans (b3 hnd).1.symm) (a3 hnd).2 (b3 hnd).2
    · exact outcome_eq ((a4 _ _ _ _ hc).1.trans (b4 _ _ _ _ hc).1.symm) (a4 _ _ _ _ hc).2 (b4 _ _ _ _ hc).2
  · have hall' : ¬ ∀ l ∈ recognised m lines', LineSumOk l := fun hh => hall (hs.mpr hh)
    have ex : ∀ ls : List Str, (¬ ∀ l ∈ ls, LineSumOk l) → ∃ l ∈ ls, ¬ LineSumOk l := by
      intro ls hh
      apply Classical.byContradiction
      intro hc
      exact hh fun l hl => Classical.byContradiction fun hx => hc ⟨l, hl, hx⟩
    obtain ⟨a3, a4⟩ := a1 (ex _ hall)
    obtain ⟨b3, b4⟩ := b1 (ex _ hall')
    exact outcome_eq (ps := []) (a3.trans b3.symm) (by simp [a4]) (by simp [b4])

/-- A segment line of 14 characters: the sum does not cover the character before the last two (here `G`), which the reader
takes as the third digit of the upper half. -/
def oddSegment : List Str := [":0200000400GFA".toList, ":0100000007F8".toList]

/-- Such a file is accepted, and the data line after the segment line, which is a valid record, is dropped. -/
theorem C77_dropped (n : Nat) (hn : n = 1 ∨ n = 2) :
    recognised n oddSegment = oddSegment ∧ (∀ l ∈ oddSegment, LineSumOk l) ∧
    (∃ r, decodeLine ":0100000007F8".toList = some r ∧ r.typ = 0 ∧ r.data = [7] ∧ r.SumOk) ∧
    ∀ sched o, parseHex n sched oddSegment = some (some o) → o.err = none ∧ ∀ a, o.map a = none := by
  have hs : ∀ l ∈ oddSegment, LineSumOk l := by
    intro l hl
    simp only [oddSegment, List.mem_cons, List.not_mem_nil, or_false] at hl
    rcases hl with rfl | rfl
    · exact ⟨[2, 0, 0, 4, 0, 250], by decide +kernel, by decide⟩
    · exact ⟨[1, 0, 0, 0, 7, 248], by decide +kernel, by decide⟩
  have hr : recognised n oddSegment = oddSegment := by rcases hn with rfl | rfl <;> decide +kernel
  have ht : textBytes n oddSegment = [] := by rcases hn with rfl | rfl <;> decide +kernel
  refine ⟨hr, hs, ⟨⟨1, 0, 0, [7], 248⟩, by decide +kernel, rfl, rfl, by decide⟩, ?_⟩
  intro sched o ho
  obtain ⟨_, h2⟩ := C77_ihex (by rcases hn with rfl | rfl <;> omega) oddSegment ho
  rw [hr, ht] at h2
  obtain ⟨h3, _⟩ := h2 hs
  obtain ⟨h4, h5⟩ := h3 (by simp)
  refine ⟨h4, fun a => ?_⟩
  cases hv : o.map a with
  | none => rfl
  | some v => exact absurd ((h5 a v).mp hv) (by simp)

-- both CPU counts return on it
example : (∃ o, parseHex 1 (List.replicate 3 0) oddSegment = some (some o)) ∧
    ∃ o, parseHex 2 [0, 1, 0, 1, 0, 1] oddSegment = some (some o) :=
  ⟨C02_returns (by omega) _ _ (by decide), C02_returns (by omega) _ _ (by decide)⟩

/-- A text with a line too short, a data line of even length (the character `x` is ignored), an ill-formed line that ends
the share it is in, and a segment line whose second digit pair is also its checksum. -/
def wildText : List Str := [":0100000007F8".toList, "x".toList, ":0100010008xF6".toList, "no record at all".toList,
  ":0100020009F4".toList, ":0200000400FA".toList, ":0100000001FE".toList, ":0100020009F4".toList]

-- one CPU stops at the ill-formed line, two read the second half as well
example : textBytes 1 wildText = [(0, 7), (1, 8)] ∧
    textBytes 2 wildText = [(0, 7), (1, 8), (2, 9), (0xFA0000, 1), (0xFA0002, 9)] := by decide +kernel
example : ∀ l ∈ recognised 2 wildText, LineSumOk l := by
  have hd : ∀ l ∈ recognised 2 wildText, ∃ bs ∈ [[1, 0, 0, 0, 7, 248], [1, 0, 1, 0, 8, 246], [1, 0, 2, 0, 9, 244],
      [2, 0, 0, 4, 0, 250], [1, 0, 0, 0, 1, 254]], (fields l).mapM specByte = some bs ∧ bs.sum % 256 = 0 := by
    decide +kernel
  intro l hl
  obtain ⟨bs, _, h⟩ := hd l hl
  exact ⟨bs, h⟩
-- a text with a clash: the error names address 2, the values 9 and 5, and the map holds the two pairs before
example : Clash (textBytes 1 [":0100000007F8".toList, ":0100020009F4".toList, ":0100020005F8".toList])
    [(0, 7), (2, 9)] 2 9 5 := by
  refine ⟨by decide, by decide, [], by decide +kernel⟩

end Verif.Ihex
