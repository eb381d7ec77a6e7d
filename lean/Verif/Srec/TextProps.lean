import Verif.Srec.Props2
import Verif.Ihex.TextProps

/-!
C77 for S19: the exact result of the S19 reader for every text and every number of CPUs.
-/

namespace Verif.Srec

open Verif.Go Verif.Hex Verif.Hex.Spec Verif.Srec.Spec
open Verif.Ihex (DataByte Mem Outcome ParseError insertBytes splitLines)
open Verif.Ihex.Spec (payloadPairs half Clash)

namespace Spec

/-- The pairs of a line: nothing if the address is not a number. -/
def lineBytes (l : Str) : List (Nat × Nat) :=
  match half ((l.drop 4).take 4), half ((l.drop 8).take 4) with
  | some h, some k =>
    ((payloadPairs (l.drop 12)).filterMap specByte).zipIdx.map fun (b, j) => ((h * 65536 + k + j) % 4294967296, b)
  | _, _ => []

/-- The pairs of a text on `n` CPUs. -/
def textBytes (n : Nat) (lines : List Str) : List (Nat × Nat) := (recognised n lines).flatMap lineBytes

end Spec

theorem half_two {l : Str} {i : Nat} {x y : Nat} (h1 : specByte ((l.drop i).take 2) = some x)
    (h2 : specByte ((l.drop (i + 2)).take 2) = some y) : half ((l.drop i).take 4) = some (x * 256 + y) := by
  have hsplit : (l.drop i).take 4 = (l.drop i).take 2 ++ (l.drop (i + 2)).take 2 := by
    rw [show (4 : Nat) = 2 + 2 from rfl, List.take_add, List.drop_drop]
  have hd := Ihex.decodeString_two h1 h2
  rw [← hsplit] at hd
  have hlen : ((l.drop i).take 4).length = 4 := by
    rw [hsplit, List.length_append]
    rw [← hexToByte_eq] at h1 h2
    rw [hexToByte_length h1, hexToByte_length h2]
  rcases Ihex.decodeString_half hlen with ⟨h, _⟩ | ⟨x', y', h, hh⟩
  · rw [hd] at h; simp at h
  · rw [hd] at h
    simp only [Option.some.injEq, List.cons.injEq, and_true] at h
    rw [hh, h.1, h.2]

/-- The address and the data of a line with right sum. -/
theorem lineSumOk_parts {l : Str} (hs : LineSumOk l) : ∃ x y z w ds, decodeString (recOfLine l).addressField = some [x, y, z, w] ∧
    half ((l.drop 4).take 4) = some (x * 256 + y) ∧ half ((l.drop 8).take 4) = some (z * 256 + w) ∧
    (payloadPairs (l.drop 12)).mapM specByte = some ds := by
  obtain ⟨bs, h, _⟩ := hs
  obtain ⟨x, h1⟩ := Ihex.mapM_mem _ _ h ((l.drop 4).take 2) (by simp [fields])
  obtain ⟨y, h2⟩ := Ihex.mapM_mem _ _ h ((l.drop 6).take 2) (by simp [fields])
  obtain ⟨z, h3⟩ := Ihex.mapM_mem _ _ h ((l.drop 8).take 2) (by simp [fields])
  obtain ⟨w, h4⟩ := Ihex.mapM_mem _ _ h ((l.drop 10).take 2) (by simp [fields])
  obtain ⟨ds, h5⟩ : ∃ ds, (payloadPairs (l.drop 12)).mapM specByte = some ds := by
    cases h5 : (payloadPairs (l.drop 12)).mapM specByte with
    | some ds => exact ⟨ds, rfl⟩
    | none =>
      unfold fields at h
      rw [List.mapM_append, List.mapM_append, h5] at h
      simp only [Option.bind_eq_bind, Option.bind_none, Option.bind_fun_none, reduceCtorEq] at h
  have hdec : decodeString (recOfLine l).addressField = some [x, y, z, w] := by
    have hsplit : (l.drop 4).take 8 = (l.drop 4).take 2 ++ ((l.drop 6).take 2 ++ ((l.drop 8).take 2 ++ (l.drop 10).take 2)) := by
      rw [show (8 : Nat) = 2 + (2 + (2 + 2)) from rfl, List.take_add, List.drop_drop, List.take_add, List.drop_drop,
        List.take_add, List.drop_drop]
    change decodeString ((l.drop 4).take 8) = _
    have h1' := h1
    have h2' := h2
    rw [← hexToByte_eq] at h1' h2'
    rw [hsplit, decodeString_append_pair h1', decodeString_append_pair h2', Ihex.decodeString_two h3 h4]
    rfl
  exact ⟨x, y, z, w, ds, hdec, half_two h1 h2, half_two h3 h4, h5⟩

/-- Such a line gives bytes without an error. -/
theorem entries_ok {l : Str} (hs : LineSumOk l) : ∃ bs, calcDataEntries (recOfLine l) = some ⟨bs, false⟩ := by
  obtain ⟨x, y, z, w, ds, hdec, _, _, h5⟩ := lineSumOk_parts hs
  exact ⟨_, calcDataLoop_eq hdec (recOfLine l).data _ 0 h5⟩

theorem entriesOf_line {l : Str} (hs : LineSumOk l) :
    (entriesOf (recOfLine l)).bytes = (Spec.lineBytes l).map fun p => ⟨p.1, p.2⟩ := by
  obtain ⟨x, y, z, w, ds, hdec, hh1, hh2, h5⟩ := lineSumOk_parts hs
  unfold entriesOf calcDataEntries Spec.lineBytes
  rw [hh1, hh2, Ihex.mapM_filterMap _ _ h5, calcDataLoop_eq hdec (recOfLine l).data _ 0 h5]
  rw [show ((x * 256 + y) * 256 + z) * 256 + w = (x * 256 + y) * 65536 + (z * 256 + w) by omega]
  simp only [Option.getD_some, List.map_map, Function.comp_def]

/-- C77 for S19. If a recognised line has a wrong sum, the result is the empty map with the checksum error. Otherwise the
pairs `textBytes n lines` are stored in order: if no address occurs twice there is no error and the map holds exactly
these pairs; if one does, the error names the first such address with the two values and the map holds the pairs before. -/
theorem C77_srec {n : Nat} (hn : 0 < n) (lines : List Str) :
    ∃ o, parseHex n lines = some o ∧
    ((∃ l ∈ recognised n lines, ¬ LineSumOk l) → o.err = some .invalidChecksums ∧ ∀ a, o.map a = none) ∧
    ((∀ l ∈ recognised n lines, LineSumOk l) →
      (((Spec.textBytes n lines).map Prod.fst).Nodup →
        o.err = none ∧ ∀ a v, o.map a = some v ↔ (a, v) ∈ Spec.textBytes n lines) ∧
      (∀ pre a v w, Clash (Spec.textBytes n lines) pre a v w →
        o.err = some (.collision a v w) ∧ ∀ x y, o.map x = some y ↔ (x, y) ∈ pre)) := by
  rw [parseHex_eq hn]
  refine ⟨_, rfl, ?_⟩
  have hbad := any_bad n lines
  split
  · next hany =>
    obtain ⟨l, hl, hc⟩ := hbad.mp hany
    exact ⟨fun _ => ⟨rfl, fun _ => rfl⟩, fun hall => absurd (hall l hl) hc⟩
  · next hany =>
    refine ⟨fun hex => absurd (hbad.mpr hex) hany, fun hall => ?_⟩
    have hdb : dataBytes ((recognised n lines).map recOfLine) =
        (Spec.textBytes n lines).map (fun p => ⟨p.1, p.2⟩) := by
      unfold dataBytes Spec.textBytes
      rw [List.map_map, List.map_flatMap, List.flatMap_def]
      congr 1
      apply List.map_congr_left
      intro l hl
      exact entriesOf_line (hall l hl)
    rw [hdb]
    exact Ihex.insert_result _

/-- C77 for the text of an S19 file. -/
theorem C77_srec_text {n : Nat} (hn : 0 < n) (text : Str) :
    ∃ o, parseFromText n text = some o ∧
    ((∃ l ∈ recognised n (splitLines text), ¬ LineSumOk l) → o.err = some .invalidChecksums ∧ ∀ a, o.map a = none) ∧
    ((∀ l ∈ recognised n (splitLines text), LineSumOk l) →
      (((Spec.textBytes n (splitLines text)).map Prod.fst).Nodup →
        o.err = none ∧ ∀ a v, o.map a = some v ↔ (a, v) ∈ Spec.textBytes n (splitLines text)) ∧
      (∀ pre a v w, Clash (Spec.textBytes n (splitLines text)) pre a v w →
        o.err = some (.collision a v w) ∧ ∀ x y, o.map x = some y ↔ (x, y) ∈ pre)) :=
  C77_srec hn (splitLines text)

-- a text with an S0 line, a short line and two S3 lines at the end of the address space, one of them of even length with
-- an ignored character; two CPUs see it, one CPU stops at the S0 line
example : Spec.textBytes 1 ["S00600004844521B".toList, "x".toList, "S307FFFFFFFF0102F9".toList,
      "S3060000000107xF1".toList] = [] ∧
    Spec.textBytes 2 ["S00600004844521B".toList, "x".toList, "S307FFFFFFFF0102F9".toList,
      "S3060000000107xF1".toList] = [(4294967295, 1), (0, 2), (1, 7)] := by decide +kernel
example : LineSumOk "S307FFFFFFFF0102F9".toList ∧ LineSumOk "S3060000000107xF1".toList :=
  ⟨⟨[7, 255, 255, 255, 255, 1, 2, 249], by decide +kernel, by decide⟩,
    ⟨[6, 0, 0, 0, 1, 7, 241], by decide +kernel, by decide⟩⟩
-- a clash
example : Clash (Spec.textBytes 1 ["S3060000000107F1".toList, "S3060000000109EF".toList]) [(1, 7)] 1 7 9 :=
  ⟨by decide, by decide, [], by decide +kernel⟩

end Verif.Srec
