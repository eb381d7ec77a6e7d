import Verif.Srec.Model
import Verif.Srec.Spec
import Verif.Ihex.Encode
import Verif.Ihex.More

/-!
Helper lemmas about the S19 parser: no panic, composition of total functions, lines.
-/

namespace Verif.Srec

open Verif.Go Verif.Hex Verif.Hex.Spec Verif.Srec.Spec
open Verif.Ihex (DataByte Mem Outcome ParseError Entries uint32BE? splitLines insertBytes sumFields
  mem_share workerLines_eq payloadPairs_short payloadPairs_long dataLoop_eq sumFields_eq mem_significant
  pairBytes_nonempty pairBytes_length pairBytes_payload specByte_lt insertBytes_ok
  payloadPairs_flatten flatten_pairs_length)
open Verif.Ihex.Spec (pairBytes payloadPairs significant workerLines)

/-- Field widths. -/
structure Shape (r : Record) : Prop where
  byteCount : r.byteCount.length = 2
  addressField : r.addressField.length = 8
  recordType : r.recordType = ['3']
  checksum : r.checksum.length = 2

/-- The record made from a line. -/
def recOfLine (l : Str) : Record where
  byteCount := (l.drop 2).take 2
  addressField := (l.drop 4).take 8
  recordType := ['3']
  data := payloadPairs (l.drop 12)
  checksum := l.drop (l.length - 2)

theorem recOfLine_shape {l : Str} (h : 12 ≤ l.length) : Shape (recOfLine l) := by
  constructor <;> simp [recOfLine] <;> omega

theorem parseRecord_eq {l : Str} (h : 11 ≤ l.length) :
    (Malformed l ∧ parseRecord l = some none) ∨
    (¬ Malformed l ∧ 12 ≤ l.length ∧ parseRecord l = some (some (recOfLine l))) := by
  match l, h with
  | a :: b :: rest, h =>
    unfold parseRecord
    rw [slice?_eq_some (by omega) (by omega)]
    have h0 : index? (a :: b :: rest) 0 = some a := rfl
    rw [h0]
    simp only [Option.bind_eq_bind, Option.bind_some, List.drop_succ_cons, List.drop_zero,
      Nat.reduceSub, List.take_succ_cons, List.take_zero]
    by_cases hc : a = beginLineToken ∧ [b] = ['3'] ∧ 12 ≤ (a :: b :: rest).length
    · right
      obtain ⟨h1, h2, h3⟩ := hc
      rw [if_pos ⟨h1, h2, h3⟩, slice?_eq_some (by omega) (by omega), slice?_eq_some (by omega) (by omega),
        dataLoop_eq _ _ 12 (by omega), slice?_eq_some (i := (a :: b :: rest).length - 2) (by omega) (by omega)]
      have hck : List.take ((a :: b :: rest).length - ((a :: b :: rest).length - 2))
          (List.drop ((a :: b :: rest).length - 2) (a :: b :: rest)) =
          (a :: b :: rest).drop ((a :: b :: rest).length - 2) := by
        rw [List.take_of_length_le]; simp
      simp only [List.cons.injEq, and_true] at h2
      refine ⟨?_, h3, ?_⟩
      · rintro ⟨_, hm⟩
        apply hm
        refine ⟨?_, h3⟩
        simp [h1, h2, beginLineToken]
      · rw [hck]
        simp only [Option.bind_some, Option.pure_def, recOfLine, Nat.reduceSub, List.drop_succ_cons, h2]
    · left
      rw [if_neg hc]
      refine ⟨⟨h, ?_⟩, rfl⟩
      rintro ⟨h1, h2⟩
      apply hc
      simp only [List.take_succ_cons, List.take_zero, List.cons.injEq, and_true] at h1
      refine ⟨h1.1, by simp [h1.2], h2⟩
  | [], h => simp at h
  | [_], h => simp at h

theorem parseRecordRoutine_eq (ls : List Str) : parseRecordRoutine ls =
    some ((significant (ls.takeWhile fun l => ¬ Malformed l)).map recOfLine) := by
  induction ls with
  | nil => rfl
  | cons l ls ih =>
    unfold parseRecordRoutine
    by_cases h : 11 ≤ l.length
    · rw [if_pos h]
      rcases parseRecord_eq h with ⟨hm, he⟩ | ⟨hm, _, he⟩
      · rw [he]
        simp [hm, significant]
      · rw [he, ih]
        simp only [Option.bind_eq_bind, Option.bind_some, Option.pure_def, List.takeWhile_cons, hm,
          not_false_eq_true, decide_true, if_true, significant, List.filter_cons, h, List.map_cons]
    · rw [if_neg h, ih]
      have hm : ¬ Malformed l := fun hh => h hh.1
      simp only [List.takeWhile_cons, hm, not_false_eq_true, decide_true, if_true, significant,
        List.filter_cons, h, decide_false, Bool.false_eq_true, if_false]

theorem parseRecords_eq (n : Nat) (lines : List Str) :
    parseRecords n lines = some ((recognised n lines).map recOfLine) := by
  unfold parseRecords
  rw [shares?_eq]
  simp only [Option.bind_eq_bind, Option.bind_some]
  rw [mapM_option_eq_some parseRecordRoutine
    (fun ls => (significant (ls.takeWhile fun l => ¬ Malformed l)).map recOfLine) _
    (fun l _ => parseRecordRoutine_eq l)]
  simp only [Option.bind_some, Option.pure_def, recognised, List.flatMap_def, List.map_flatten,
    List.map_map, Function.comp_def, workerLines_eq]

theorem mem_takeWhile {p : Str → Bool} {l : Str} : ∀ {ls : List Str}, l ∈ ls.takeWhile p → l ∈ ls ∧ p l = true := by
  intro ls
  induction ls with
  | nil => simp
  | cons a ls ih =>
    intro hl
    rw [List.takeWhile_cons] at hl
    split at hl
    · next ha =>
      rcases List.mem_cons.mp hl with rfl | hl
      · exact ⟨by simp, ha⟩
      · exact ⟨by simp [(ih hl).1], (ih hl).2⟩
    · simp at hl

theorem mem_recognised {n : Nat} {lines : List Str} {l : Str} (h : l ∈ recognised n lines) :
    l ∈ lines ∧ 12 ≤ l.length ∧ l.take 2 = ['S', '3'] := by
  simp only [recognised, List.mem_flatMap] at h
  obtain ⟨i, _, hl⟩ := h
  obtain ⟨h1, h2⟩ := mem_significant hl
  obtain ⟨h4, h5⟩ := mem_takeWhile h1
  rw [← workerLines_eq] at h4
  have hm : ¬ Malformed l := by simpa using h5
  have : l.take 2 = ['S', '3'] ∧ 12 ≤ l.length := by
    apply Classical.byContradiction
    intro hh; exact hm ⟨h2, hh⟩
  exact ⟨mem_share h4, this.2, this.1⟩

theorem recognised_shape {n : Nat} {lines : List Str} : ∀ r ∈ (recognised n lines).map recOfLine, Shape r := by
  intro r hr
  obtain ⟨l, hl, rfl⟩ := List.mem_map.mp hr
  exact recOfLine_shape (mem_recognised hl).2.1

theorem recognised_eq {n : Nat} (hn : 0 < n) {lines : List Str} (h : ∀ l ∈ lines, ¬ Malformed l) :
    recognised n lines = significant lines := by
  unfold recognised
  have : ∀ i, (workerLines n lines i).takeWhile (fun l => ¬ Malformed l) = workerLines n lines i := by
    intro i
    have hm : ∀ l ∈ workerLines n lines i, ¬ Malformed l := by
      intro l hl
      rw [← workerLines_eq] at hl
      exact h l (mem_share hl)
    generalize workerLines n lines i = ls at hm
    induction ls with
    | nil => rfl
    | cons a ls ih =>
      rw [List.takeWhile_cons, if_pos (by simpa using hm a (by simp)),
        ih (fun l hl => hm l (by simp [hl]))]
  simp only [this]
  have hw : ∀ i, workerLines n lines i = share lines n i := fun i => (workerLines_eq n lines i).symm
  simp only [hw]
  conv => rhs; rw [← flatten_shares lines n hn]
  simp [significant, List.flatMap_def, List.filter_flatten, Function.comp_def]

/-! ### Checksums -/

def checksumOk (r : Record) : Bool :=
  sumFields ([r.byteCount, r.addressField.take 2, (r.addressField.drop 2).take 2,
    (r.addressField.drop 4).take 2, (r.addressField.drop 6).take 2] ++ r.data ++ [r.checksum]) 0 == some 255

theorem validateChecksum_eq {r : Record} (h : Shape r) :
    ∃ v, validateChecksum r = some v ∧ (v = some true ↔ checksumOk r = true) := by
  unfold validateChecksum checksumOk
  rw [slice?_eq_some (by omega) (by rw [h.addressField]; omega),
    slice?_eq_some (by omega) (by rw [h.addressField]; omega),
    slice?_eq_some (by omega) (by rw [h.addressField]; omega),
    slice?_eq_some (by omega) (by rw [h.addressField]; omega)]
  simp only [Option.bind_eq_bind, Option.bind_some]
  refine ⟨_, rfl, ?_⟩
  simp only [List.drop_zero, Nat.reduceSub]
  generalize sumFields _ 0 = o
  cases o <;> simp

theorem checksumFailure_eq {rs : List Record} (h : ∀ r ∈ rs, Shape r) :
    checksumFailure rs = some (rs.any fun r => !checksumOk r) := by
  induction rs with
  | nil => rfl
  | cons r rs ih =>
    obtain ⟨v, hv, hiff⟩ := validateChecksum_eq (h r (by simp))
    unfold checksumFailure
    rw [hv]
    simp only [Option.bind_eq_bind, Option.bind_some]
    split
    · next hv2 =>
      rw [ih (fun r hr => h r (by simp [hr]))]
      simp [hiff.mp rfl]
    · next hne =>
      have : checksumOk r = false := by
        cases hc : checksumOk r with
        | false => rfl
        | true => exact absurd (hiff.mpr hc) hne
      simp [this]

theorem anyChecksumFailure_eq {n : Nat} (hn : 0 < n) {recs : List Record} (h : ∀ r ∈ recs, Shape r) :
    anyChecksumFailure n recs = some (recs.any fun r => !checksumOk r) := by
  unfold anyChecksumFailure
  rw [shares?_eq]
  simp only [Option.bind_eq_bind, Option.bind_some]
  rw [mapM_option_eq_some checksumFailure (fun rs => rs.any fun r => !checksumOk r)]
  · simp only [Option.bind_some]
    have : ∀ (l : List (List Record)), (l.map (fun rs => rs.any fun r => !checksumOk r)).any id
        = l.flatten.any (fun r => !checksumOk r) := by
      intro l
      simp [List.any_map, List.any_flatten, Function.comp_def]
    rw [this, flatten_shares recs n hn]
    rfl
  · intro rs hrs
    simp only [List.mem_map] at hrs
    obtain ⟨i, _, rfl⟩ := hrs
    exact checksumFailure_eq (fun r hr => h r (mem_share hr))

theorem checksumOk_recOfLine (l : Str) : checksumOk (recOfLine l) = true ↔ LineSumOk l := by
  unfold checksumOk
  have : ([(recOfLine l).byteCount, (recOfLine l).addressField.take 2,
      ((recOfLine l).addressField.drop 2).take 2, ((recOfLine l).addressField.drop 4).take 2,
      ((recOfLine l).addressField.drop 6).take 2]
      ++ (recOfLine l).data ++ [(recOfLine l).checksum]) = fields l := by
    simp [recOfLine, fields, List.take_take, List.drop_take]
  rw [this, sumFields_eq _ _ (by omega)]
  unfold LineSumOk
  cases (fields l).mapM specByte with
  | none => simp
  | some bs => simp

/-! ### Data -/

theorem decode8 {s : Str} {bs : List Nat} (h : decodeString s = some bs) (hl : s.length = 8) :
    ∃ a b c d, bs = [a, b, c, d] := by
  have := Ihex.decodeString_length s bs h
  match bs, this with
  | [a, b, c, d], _ => exact ⟨a, b, c, d, rfl⟩
  | [], h => simp at h; omega
  | [_], h => simp at h; omega
  | [_, _], h => simp at h; omega
  | [_, _, _], h => simp at h; omega
  | _ :: _ :: _ :: _ :: _ :: _, h => simp at h; omega

theorem calcDataLoop_total {r : Record} (h : Shape r) :
    ∀ (ss : List Str) (i : Nat), ∃ e, calcDataLoop r i ss = some e := by
  intro ss
  induction ss with
  | nil => intro i; exact ⟨_, rfl⟩
  | cons s ss ih =>
    intro i
    unfold calcDataLoop
    split
    · exact ⟨_, rfl⟩
    · split
      · exact ⟨_, rfl⟩
      · next bs hbs =>
        obtain ⟨a, b, c, d, rfl⟩ := decode8 hbs h.addressField
        simp only [uint32BE?, Option.bind_eq_bind, Option.bind_some]
        obtain ⟨e, he⟩ := ih (i + 1)
        rw [he]
        exact ⟨_, rfl⟩

def entriesOf (r : Record) : Entries := (calcDataEntries r).getD ⟨[], true⟩

theorem calcDataEntries_eq {r : Record} (h : Shape r) : calcDataEntries r = some (entriesOf r) := by
  obtain ⟨e, he⟩ := calcDataLoop_total h r.data 0
  unfold entriesOf calcDataEntries
  rw [he]; rfl

def dataBytes (recs : List Record) : List DataByte := (recs.map fun r => (entriesOf r).bytes).flatten

theorem calcDataRoutine_flatten {recs : List Record} (h : ∀ r ∈ recs, Shape r) :
    ∃ bs, calcDataRoutine recs = some bs ∧ bs.flatten = dataBytes recs := by
  unfold calcDataRoutine
  have hf : recs.filter (fun r => r.recordType = dataRecordToken) = recs := by
    rw [List.filter_eq_self]
    intro r hr
    simp [(h r hr).recordType, dataRecordToken]
  rw [hf, mapM_option_eq_some calcDataEntries entriesOf _ (fun r hr => calcDataEntries_eq (h r hr))]
  refine ⟨_, rfl, ?_⟩
  have hz : ∀ (l : List Entries), (l.map (fun _ => ([] : List DataByte))).flatten = [] := by
    intro l; induction l with
    | nil => rfl
    | cons a l ih => simp [ih]
  rw [List.flatten_append, hz]
  simp [dataBytes, Function.comp_def]

theorem dataBytes_flatten (l : List (List Record)) :
    dataBytes l.flatten = (l.map dataBytes).flatten := by
  induction l with
  | nil => rfl
  | cons a l ih =>
    rw [List.flatten_cons, List.map_cons, List.flatten_cons, ← ih]
    simp [dataBytes]

theorem collectData_eq {n : Nat} (hn : 0 < n) {recs : List Record} (h : ∀ r ∈ recs, Shape r) :
    collectData n recs = some (insertBytes Mem.empty (dataBytes recs)) := by
  unfold collectData
  rw [shares?_eq]
  simp only [Option.bind_eq_bind, Option.bind_some]
  have hex : ∀ rs ∈ (List.range n).map (share recs n), ∃ bs, calcDataRoutine rs = some bs ∧
      bs.flatten = dataBytes rs := by
    intro rs hrs
    simp only [List.mem_map] at hrs
    obtain ⟨i, _, rfl⟩ := hrs
    exact calcDataRoutine_flatten (fun r hr => h r (mem_share hr))
  rw [mapM_option_eq_some calcDataRoutine (fun rs => (calcDataRoutine rs).getD [])]
  · simp only [Option.bind_some]
    have : (List.map (fun rs => (calcDataRoutine rs).getD []) ((List.range n).map (share recs n))).flatten.flatten
        = dataBytes recs := by
      conv => rhs; rw [← flatten_shares recs n hn, dataBytes_flatten]
      rw [List.flatten_flatten]
      congr 1
      rw [List.map_map]
      apply List.map_congr_left
      intro rs hrs
      obtain ⟨bs, hb, hf⟩ := hex rs hrs
      simp [hb, hf]
    rw [this]; rfl
  · intro rs hrs
    obtain ⟨bs, hb, _⟩ := hex rs hrs
    simp [hb]

theorem parseHex_eq {n : Nat} (hn : 0 < n) (lines : List Str) :
    parseHex n lines = some
      (if ((recognised n lines).map recOfLine).any (fun r => !checksumOk r) then
        ⟨Mem.empty, some .invalidChecksums⟩
      else insertBytes Mem.empty (dataBytes ((recognised n lines).map recOfLine))) := by
  unfold parseHex
  rw [parseRecords_eq]
  simp only [Option.bind_eq_bind, Option.bind_some]
  rw [anyChecksumFailure_eq hn recognised_shape]
  simp only [Option.bind_some]
  split
  · rfl
  · exact collectData_eq hn recognised_shape

theorem any_bad (n : Nat) (lines : List Str) :
    ((recognised n lines).map recOfLine).any (fun r => !checksumOk r) = true ↔
      ∃ l ∈ recognised n lines, ¬ LineSumOk l := by
  simp only [List.any_map, List.any_eq_true, Function.comp_apply]
  constructor
  · rintro ⟨l, hl, hc⟩
    exact ⟨l, hl, fun hh => by rw [(checksumOk_recOfLine l).mpr hh] at hc; simp at hc⟩
  · rintro ⟨l, hl, hc⟩
    refine ⟨l, hl, ?_⟩
    cases hk : checksumOk (recOfLine l) with
    | false => rfl
    | true => exact absurd ((checksumOk_recOfLine l).mp hk) hc

/-! ### Well-formed lines -/

theorem calcDataLoop_eq {r : Record} {a b c d : Nat}
    (ha : decodeString r.addressField = some [a, b, c, d]) :
    ∀ (ss : List Str) (ds : List Nat) (k : Nat), ss.mapM specByte = some ds →
      calcDataLoop r k ss = some ⟨(ds.zipIdx k).map fun (v, i) =>
        ⟨((((a * 256 + b) * 256 + c) * 256 + d) + i) % 4294967296, v⟩, false⟩ := by
  intro ss
  induction ss with
  | nil => intro ds k h; simp at h; subst h; rfl
  | cons s ss ih =>
    intro ds k h
    rw [List.mapM_cons] at h
    cases hs : specByte s with
    | none => rw [hs] at h; simp at h
    | some v =>
      cases hss : ss.mapM specByte with
      | none => rw [hs, hss] at h; simp at h
      | some bs =>
        rw [hs, hss] at h
        simp only [Option.bind_eq_bind, Option.bind_some, Option.pure_def, Option.some.injEq] at h
        subst h
        unfold calcDataLoop
        rw [ha, hexToByte_eq, hs]
        simp only [uint32BE?, Option.bind_eq_bind, Option.bind_some]
        rw [ih bs (k + 1) hss]
        simp only [Option.bind_some, Option.pure_def, List.zipIdx_cons, List.map_cons, Nat.add_mod_mod]

theorem decodeLine_some {l : Str} {rc : Rec} (h : decodeLine l = some rc) :
    14 ≤ l.length ∧ ¬ Malformed l ∧
      (∃ c a0 a1 a2 a3, (fields l).mapM specByte = some ([c, a0, a1, a2, a3] ++ rc.data ++ [rc.ck])) ∧
      (LineSumOk l ↔ rc.SumOk) ∧
      (entriesOf (recOfLine l)).bytes = rc.bytes.map (fun p => ⟨p.1, p.2⟩) := by
  unfold decodeLine at h
  split at h
  · next body =>
    split at h
    · next cnt a b c d e rest hp =>
      simp only [Option.some.injEq] at h
      subst h
      obtain ⟨c0, c1, s1, rfl, hc, hp⟩ := pairBytes_nonempty hp
      obtain ⟨x0, x1, s2, rfl, hx, hp⟩ := pairBytes_nonempty hp
      obtain ⟨y0, y1, s3, rfl, hy, hp⟩ := pairBytes_nonempty hp
      obtain ⟨z0, z1, s4, rfl, hz, hp⟩ := pairBytes_nonempty hp
      obtain ⟨w0, w1, s5, rfl, hw, hp⟩ := pairBytes_nonempty hp
      have hl := pairBytes_length _ _ hp
      obtain ⟨hpay, hck⟩ := pairBytes_payload _ _ _ hp
      have hlen : ('S' :: '3' :: c0 :: c1 :: x0 :: x1 :: y0 :: y1 :: z0 :: z1 :: w0 :: w1 :: s5).length
          = s5.length + 12 := by simp
      simp only [List.length_cons] at hl
      have hcklast : List.drop (s5.length + 12 - 2)
          ('S' :: '3' :: c0 :: c1 :: x0 :: x1 :: y0 :: y1 :: z0 :: z1 :: w0 :: w1 :: s5)
          = s5.drop (s5.length - 2) := by
        rw [show s5.length + 12 - 2 = (s5.length - 2) + 12 by omega]
        rfl
      have hfields : (fields ('S' :: '3' :: c0 :: c1 :: x0 :: x1 :: y0 :: y1 :: z0 :: z1 :: w0 :: w1 :: s5)).mapM specByte
          = some ([cnt, a, b, c, d] ++ (e :: rest).dropLast ++ [(e :: rest).getLast (by simp)]) := by
        unfold fields
        rw [hlen, hcklast]
        simp only [List.drop_succ_cons, List.drop_zero, List.take_succ_cons, List.take_zero,
          List.mapM_append, List.mapM_cons, List.mapM_nil, hc, hx, hy, hz, hw, hpay, hck,
          Option.bind_eq_bind, Option.bind_some, Option.pure_def]
      have ha' := specByte_lt hx
      have hb' := specByte_lt hy
      have hc' := specByte_lt hz
      have hd' := specByte_lt hw
      refine ⟨by rw [hlen]; omega, ?_, ⟨_, _, _, _, _, hfields⟩, ?_, ?_⟩
      · rintro ⟨_, hm⟩
        apply hm
        exact ⟨rfl, by rw [hlen]; omega⟩
      · unfold LineSumOk
        rw [hfields]
        simp only [Option.some.injEq, exists_eq_left', Rec.SumOk]
        simp only [List.sum_append, List.sum_cons, List.sum_nil]
        have h1 : (((a * 256 + b) * 256 + c) * 256 + d) / 16777216 = a := by omega
        have h2 : (((a * 256 + b) * 256 + c) * 256 + d) / 65536 % 256 = b := by omega
        have h3 : (((a * 256 + b) * 256 + c) * 256 + d) / 256 % 256 = c := by omega
        have h4 : (((a * 256 + b) * 256 + c) * 256 + d) % 256 = d := by omega
        rw [h1, h2, h3, h4]
        constructor <;> intro h <;> omega
      · unfold entriesOf calcDataEntries
        have hdec : decodeString (recOfLine ('S' :: '3' :: c0 :: c1 :: x0 :: x1 :: y0 :: y1 :: z0 :: z1 :: w0 :: w1 :: s5)).addressField
            = some [a, b, c, d] := by
          change decodeString ([x0, x1] ++ ([y0, y1] ++ ([z0, z1] ++ [w0, w1]))) = some [a, b, c, d]
          rw [← hexToByte_eq] at hx hy
          rw [decodeString_append_pair hx, decodeString_append_pair hy, Ihex.decodeString_two hz hw]
          rfl
        have hdata : (recOfLine ('S' :: '3' :: c0 :: c1 :: x0 :: x1 :: y0 :: y1 :: z0 :: z1 :: w0 :: w1 :: s5)).data.mapM specByte
            = some (e :: rest).dropLast := hpay
        rw [calcDataLoop_eq hdec _ _ 0 hdata]
        simp [Rec.bytes, Function.comp_def]
    · simp at h
  · simp at h

/-- What the parser computes when the recognised lines decode. -/
theorem parse_recognised {n : Nat} (hn : 0 < n) {lines : List Str} {rcs : List Rec}
    (h : (recognised n lines).mapM decodeLine = some rcs) :
    ∃ o, parseHex n lines = some o ∧
      (o.err = none ↔ (∀ rc ∈ rcs, rc.SumOk) ∧ ((bytesOf rcs).map Prod.fst).Nodup) ∧
      (o.err = none → ∀ a v, o.map a = some v ↔ (a, v) ∈ bytesOf rcs) := by
  rw [parseHex_eq hn]
  have hbad := any_bad n lines
  have key : ∀ (ls : List Str) (rcs : List Rec), ls.mapM decodeLine = some rcs →
      ((∃ l ∈ ls, ¬ LineSumOk l) ↔ ¬ ∀ rc ∈ rcs, rc.SumOk) ∧
      dataBytes (ls.map recOfLine) = (bytesOf rcs).map (fun p => ⟨p.1, p.2⟩) := by
    intro ls
    induction ls with
    | nil => intro rcs h; simp at h; subst h; simp [dataBytes, bytesOf]
    | cons l ls ih =>
      intro rcs h
      rw [List.mapM_cons] at h
      cases hl : decodeLine l with
      | none => rw [hl] at h; simp at h
      | some rc =>
        cases hls : ls.mapM decodeLine with
        | none => rw [hl, hls] at h; simp at h
        | some rs =>
          rw [hl, hls] at h
          simp at h; subst h
          obtain ⟨_, _, _, hsum, hent⟩ := decodeLine_some hl
          obtain ⟨i1, i2⟩ := ih rs hls
          constructor
          · simp only [List.mem_cons, exists_eq_or_imp, i1, hsum, forall_eq_or_imp,
              Classical.not_and_iff_not_or_not]
          · unfold dataBytes at i2 ⊢
            simp only [List.map_cons, List.flatten_cons, hent, i2]
            simp [bytesOf]
  obtain ⟨k1, k2⟩ := key _ _ h
  refine ⟨_, rfl, ?_⟩
  by_cases hb : ((recognised n lines).map recOfLine).any (fun r => !checksumOk r) = true
  · rw [if_pos hb]
    refine ⟨⟨by simp, ?_⟩, by simp⟩
    rintro ⟨hh, _⟩
    exact absurd hh (k1.mp (hbad.mp hb))
  · rw [if_neg hb, k2]
    have hsum : ∀ rc ∈ rcs, rc.SumOk := by
      apply Classical.byContradiction
      intro hh; exact hb (hbad.mpr (k1.mpr hh))
    obtain ⟨h1, h2⟩ := insertBytes_ok ((bytesOf rcs).map (fun p => (⟨p.1, p.2⟩ : DataByte))) Mem.empty
    constructor
    · rw [h1]
      simp only [List.map_map, Function.comp_def, Mem.empty, implies_true, and_true]
      exact ⟨fun h => ⟨hsum, h⟩, fun h => h.2⟩
    · intro he a v
      rw [h2 he]
      simp only [Mem.empty, List.mem_map]
      constructor
      · rintro (h | ⟨⟨x, y⟩, hp, h⟩)
        · simp at h
        · simp at h; obtain ⟨rfl, rfl⟩ := h; exact hp
      · intro h; exact Or.inr ⟨(a, v), h, rfl⟩

/-! ### Encoder -/

theorem decode_dataLine (c : Case) {b : Block} (h : b.Fits) : ∃ rc,
    decodeLine (dataLine c b) = some rc ∧ rc.SumOk ∧ rc.count = rc.data.length + 5 ∧
      rc.bytes = b.bytes.zipIdx.map fun (x, i) => (b.addr + i, x) := by
  obtain ⟨h1, h2, h3, h4⟩ := h
  unfold dataLine printLine decodeLine
  have hp := Ihex.pairBytes_print c ((b.bytes.length + 5) :: addrBytes b.addr ++ b.bytes ++
      [255 - ((b.bytes.length + 5) :: addrBytes b.addr ++ b.bytes).sum % 256]) (by
    intro x hx
    simp only [List.mem_append, List.mem_cons, addrBytes, List.not_mem_nil, or_false] at hx
    rcases hx with ((rfl | rfl | rfl | rfl | rfl) | hx) | rfl
    · omega
    · omega
    · omega
    · omega
    · omega
    · exact h2 x hx
    · omega)
  simp only
  rw [hp]
  simp only [addrBytes, List.cons_append, List.nil_append]
  have hne : b.bytes ++ [255 - ((b.bytes.length + 5) :: (b.addr / 16777216) :: (b.addr / 65536 % 256) ::
      (b.addr / 256 % 256) :: (b.addr % 256) :: b.bytes).sum % 256] ≠ [] := by simp
  obtain ⟨e, rest, he⟩ := List.exists_cons_of_ne_nil hne
  simp only [he]
  refine ⟨_, rfl, ?_, ?_, ?_⟩
  · simp only [← he, List.dropLast_concat, List.getLast_concat, Rec.SumOk, List.sum_cons]
    have e1 : ((b.addr / 16777216 * 256 + b.addr / 65536 % 256) * 256 + b.addr / 256 % 256) * 256 + b.addr % 256 = b.addr := by omega
    rw [e1]
    omega
  · simp only [← he, List.dropLast_concat]
  · simp only [← he, List.dropLast_concat, Rec.bytes]
    apply List.map_congr_left
    rintro ⟨x, i⟩ hx
    have hi := List.mem_zipIdx hx
    have e1 : ((b.addr / 16777216 * 256 + b.addr / 65536 % 256) * 256 + b.addr / 256 % 256) * 256 + b.addr % 256 = b.addr := by omega
    simp only
    rw [e1, Nat.mod_eq_of_lt (by omega)]

theorem encode_decode (c : Case) : ∀ {bs : List Block}, (∀ b ∈ bs, b.Fits) →
    ∃ rcs, (encode c bs).mapM decodeLine = some rcs ∧ (∀ rc ∈ rcs, rc.SumOk) ∧ bytesOf rcs = imageBytes bs := by
  intro bs
  induction bs with
  | nil => intro _; exact ⟨[], rfl, by simp, rfl⟩
  | cons b bs ih =>
    intro h
    obtain ⟨rc, h1, h2, _, h3⟩ := decode_dataLine c (h b (by simp))
    obtain ⟨rcs, i1, i2, i3⟩ := ih (fun b' hb' => h b' (by simp [hb']))
    refine ⟨rc :: rcs, ?_, ?_, ?_⟩
    · unfold encode at i1 ⊢
      rw [List.map_cons, List.mapM_cons, h1, i1]; rfl
    · intro r hr
      rcases List.mem_cons.mp hr with rfl | hr
      · exact h2
      · exact i2 r hr
    · unfold bytesOf at i3 ⊢
      unfold imageBytes at i3 ⊢
      rw [List.map_cons, List.flatten_cons, h3, i3, List.map_cons, List.flatten_cons]

theorem encode_not_malformed (c : Case) {bs : List Block} (h : ∀ b ∈ bs, b.Fits) :
    ∀ l ∈ encode c bs, ¬ Malformed l ∧ 11 ≤ l.length := by
  intro l hl
  obtain ⟨b, hb, rfl⟩ := List.mem_map.mp hl
  obtain ⟨rc, h1, _⟩ := decode_dataLine c (h b hb)
  obtain ⟨h2, h3, _⟩ := decodeLine_some h1
  exact ⟨h3, by omega⟩

theorem significant_self {ls : List Str} (h : ∀ l ∈ ls, 11 ≤ l.length) : significant ls = ls := by
  unfold significant
  rw [List.filter_eq_self]
  intro l hl
  simpa using h l hl

/-! ### Which lines are reached -/

/-- Line `j` is reached by its worker. -/
def Reached (n : Nat) (lines : List Str) (j : Nat) : Prop :=
  ∀ i k l, i < n → lines.length / n * i ≤ k → k ≤ j →
    (j < lines.length / n * i + lines.length / n ∨ i + 1 = n) → lines[k]? = some l → ¬ Malformed l

theorem reached_recognised {n : Nat} (hn : 0 < n) {lines : List Str} {j : Nat} {l : Str}
    (hr : Reached n lines j) (hj : lines[j]? = some l) (hlen : 11 ≤ l.length) :
    l ∈ recognised n lines := by
  obtain ⟨i, hi, h1, h2⟩ := Ihex.exists_worker (len := lines.length) (j := j) hn
  unfold recognised
  rw [List.mem_flatMap]
  refine ⟨i, List.mem_range.mpr hi, ?_⟩
  unfold significant
  rw [List.mem_filter]
  refine ⟨?_, by simpa using hlen⟩
  apply Ihex.mem_takeWhile_of_prefix (m := j - lines.length / n * i)
  · unfold workerLines
    split
    · rw [List.getElem?_drop, ← hj]; congr 1; omega
    · rw [List.getElem?_take, if_pos (by omega), List.getElem?_drop, ← hj]; congr 1; omega
  · intro k l' hk hl'
    have : lines[lines.length / n * i + k]? = some l' := by
      unfold workerLines at hl'
      split at hl'
      · rw [List.getElem?_drop] at hl'; exact hl'
      · rw [List.getElem?_take, if_pos (by omega), List.getElem?_drop] at hl'; exact hl'
    simpa using hr i _ l' hi (by omega) (by omega) (by omega) this

theorem fields_pairs (ps : List Str) (h : ∀ p ∈ ps, p.length = 2) (h6 : 6 ≤ ps.length) :
    fields ('S' :: '3' :: ps.flatten) = ps := by
  match ps, h6 with
  | p1 :: p2 :: p3 :: p4 :: p5 :: p6 :: rest, _ =>
    have e := fun p hp => h p hp
    match p1, e p1 (by simp), p2, e p2 (by simp), p3, e p3 (by simp), p4, e p4 (by simp), p5, e p5 (by simp) with
    | [a1, b1], _, [a2, b2], _, [a3, b3], _, [a4, b4], _, [a5, b5], _ =>
      have hne : p6 :: rest ≠ [] := by simp
      obtain ⟨init, q, hq⟩ : ∃ init q, p6 :: rest = init ++ [q] :=
        ⟨(p6 :: rest).dropLast, (p6 :: rest).getLast hne, (List.dropLast_concat_getLast hne).symm⟩
      rw [hq]
      have hinit : ∀ p ∈ init, p.length = 2 := fun p hp => h p (by
        have : p ∈ p6 :: rest := by rw [hq]; simp [hp]
        simp only [List.mem_cons] at this ⊢
        grind)
      have hq2 : q.length = 2 := h q (by
        have : q ∈ p6 :: rest := by rw [hq]; simp
        simp only [List.mem_cons] at this ⊢
        grind)
      have hfl : (init ++ [q]).flatten = init.flatten ++ q := by simp
      have hlen : (init.flatten ++ q).length = 2 * init.length + 2 := by
        rw [List.length_append, flatten_pairs_length init hinit, hq2]
      simp only [List.flatten_cons, List.cons_append, List.nil_append]
      rw [hfl]
      unfold fields
      have hpp := payloadPairs_flatten init q hinit hq2
      simp only [List.drop_succ_cons, List.drop_zero, List.take_succ_cons, List.take_zero,
        List.length_cons, hlen]
      rw [hpp]
      rw [show 2 * init.length + 2 + 1 + 1 + 1 + 1 + 1 + 1 + 1 + 1 + 1 + 1 + 1 + 1 - 2
        = (2 * init.length) + 12 by omega]
      simp only [List.drop_succ_cons]
      rw [← flatten_pairs_length init hinit, List.drop_left]
      simp

end Verif.Srec
