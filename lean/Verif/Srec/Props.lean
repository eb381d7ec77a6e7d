import Verif.Srec.Lemmas
import Verif.Ihex.Props2

/-!
Properties C13-C18 (and the S19 part of C09, C11, C12) of the S19 parser.
`parseHex n lines = some o` says: on `n` CPUs the parser returns `o`; `none` is a panic.
-/

namespace Verif.Srec

open Verif.Go Verif.Hex Verif.Hex.Spec Verif.Srec.Spec
open Verif.Ihex (DataByte Mem Outcome ParseError splitLines joinLines)
open Verif.Ihex.Spec (significant workerLines pairBytes)

/-! ## C13: parse inverts encode -/

/-- C13: every image, letter case and CPU count. -/
theorem C13_roundtrip {n : Nat} (hn : 0 < n) (c : Case) {bs : List Block} (hfit : ∀ b ∈ bs, b.Fits)
    (hnd : ((imageBytes bs).map Prod.fst).Nodup) :
    ∃ o, parseHex n (encode c bs) = some o ∧ o.err = none ∧
      ∀ a v, o.map a = some v ↔ (a, v) ∈ imageBytes bs := by
  have hnm := encode_not_malformed c hfit
  have hrec : recognised n (encode c bs) = encode c bs := by
    rw [recognised_eq hn (fun l hl => (hnm l hl).1), significant_self (fun l hl => (hnm l hl).2)]
  obtain ⟨rcs, h1, h2, h3⟩ := encode_decode c hfit
  obtain ⟨o, ho, r1, r2⟩ := parse_recognised (n := n) hn (lines := encode c bs) (rcs := rcs) (by rw [hrec]; exact h1)
  rw [h3] at r1 r2
  have hok := r1.mpr ⟨h2, hnd⟩
  exact ⟨o, ho, hok, r2 hok⟩

/-- The same for the text of the file, with either line terminator and a final one. -/
theorem C13_text {n : Nat} (hn : 0 < n) (c : Case) {bs : List Block} (hfit : ∀ b ∈ bs, b.Fits)
    (hnd : ((imageBytes bs).map Prod.fst).Nodup) (hne : bs ≠ []) (sep : Str)
    (hsep : sep = ['\r', '\n'] ∨ sep = ['\n']) (hcl : ∀ l ∈ encode c bs, '\r' ∉ l ∧ '\n' ∉ l) :
    ∃ o, parseFromText n (joinLines sep (encode c bs)) = some o ∧ o.err = none ∧
      ∀ a v, o.map a = some v ↔ (a, v) ∈ imageBytes bs := by
  have hne' : encode c bs ≠ [] := by simpa [encode] using hne
  unfold parseFromText
  rcases hsep with rfl | rfl
  · rw [Ihex.splitLines_crlf hne' hcl]; exact C13_roundtrip hn c hfit hnd
  · rw [Ihex.splitLines_lf hne' hcl]; exact C13_roundtrip hn c hfit hnd

theorem encode_no_newline (c : Case) {bs : List Block} (h : ∀ b ∈ bs, b.Fits) :
    ∀ l ∈ encode c bs, '\r' ∉ l ∧ '\n' ∉ l := by
  intro l hl
  obtain ⟨b, hb, rfl⟩ := List.mem_map.mp hl
  obtain ⟨h1, h2, h3, _⟩ := h b hb
  have hdig : ∀ (c : Case) (x : Nat), x < 256 → '\r' ∉ printByte c x ∧ '\n' ∉ printByte c x := by
    intro c x hx
    have : ∀ c ∈ [Case.upper, Case.lower], ∀ x ∈ List.range 256,
        '\r' ∉ printByte c x ∧ '\n' ∉ printByte c x := by decide +kernel
    exact this c (by cases c <;> simp) x (List.mem_range.mpr hx)
  have key : ∀ ch : Char, (∀ (c : Case) (x : Nat), x < 256 → ch ∉ printByte c x) → ch ≠ 'S' → ch ≠ '3' →
      ch ∉ dataLine c b := by
    intro ch hch hS h3' hmem
    unfold dataLine printLine at hmem
    simp only [List.mem_cons, hS, h3', false_or, List.mem_flatten, List.mem_map] at hmem
    obtain ⟨s, ⟨x, hx, rfl⟩, hs⟩ := hmem
    refine hch c x ?_ hs
    simp only [List.mem_append, List.mem_cons, addrBytes, List.not_mem_nil, or_false] at hx
    rcases hx with ((rfl | rfl | rfl | rfl | rfl) | hx) | rfl
    · omega
    · omega
    · omega
    · omega
    · omega
    · exact h2 x hx
    · omega
  exact ⟨key '\r' (fun c x hx => (hdig c x hx).1) (by decide) (by decide),
    key '\n' (fun c x hx => (hdig c x hx).2) (by decide) (by decide)⟩

example : (∀ b ∈ [(⟨4294967295, [1]⟩ : Block), ⟨0, [2, 255]⟩, ⟨65536, []⟩], b.Fits) ∧
    ((imageBytes [⟨4294967295, [1]⟩, ⟨0, [2, 255]⟩, ⟨65536, []⟩]).map Prod.fst).Nodup := by decide

/-! ## C14: checksums -/

/-- C14: for every file and CPU count, the checksum error is returned iff some recognised
line's bytes do not sum to 255 (or are not bytes). -/
theorem C14_checksum {n : Nat} (hn : 0 < n) (lines : List Str) :
    ∃ o, parseHex n lines = some o ∧
      (o.err = some .invalidChecksums ↔ ∃ l ∈ recognised n lines, ¬ LineSumOk l) := by
  rw [parseHex_eq hn]
  refine ⟨_, rfl, ?_⟩
  rw [← any_bad]
  split
  · next hb => simp [hb]
  · next hb =>
    constructor
    · intro he
      obtain ⟨_, _, _, hh⟩ := Ihex.insertBytes_err _ _ _ he
      simp at hh
    · intro hh; exact absurd hh hb

theorem C14_success {n : Nat} (hn : 0 < n) {lines : List Str} {o : Outcome}
    (h : parseHex n lines = some o) (hok : o.err = none) : ∀ l ∈ recognised n lines, LineSumOk l := by
  intro l hl
  apply Classical.byContradiction
  intro hc
  obtain ⟨o', ho', hiff⟩ := C14_checksum hn lines
  rw [h] at ho'
  simp at ho'
  subst ho'
  have := hiff.mpr ⟨l, hl, hc⟩
  rw [hok] at this
  simp at this

/-- C14, corruption: one byte (pair) of a reached S3 record of an accepted file is
replaced by a pair with another value (or no value): the parse reports the error. -/
theorem C14_corruption {n : Nat} (hn : 0 < n) {lines : List Str} {j : Nat} {ps : List Str}
    {k : Nat} {p : Str} {o : Outcome} (h : parseHex n lines = some o) (hok : o.err = none)
    (hj : lines[j]? = some ('S' :: '3' :: ps.flatten)) (hps : ∀ q ∈ ps, q.length = 2)
    (h6 : 6 ≤ ps.length) (hk : k < ps.length) (hp : p.length = 2)
    (hne : specByte p ≠ specByte (ps.getD k [])) (hr : Reached n lines j) :
    ∃ o', parseHex n (lines.set j ('S' :: '3' :: (ps.set k p).flatten)) = some o' ∧
      o'.err = some .invalidChecksums := by
  have hlen : ('S' :: '3' :: ps.flatten).length = 2 * ps.length + 2 := by
    rw [List.length_cons, List.length_cons, Ihex.flatten_pairs_length ps hps]
  have hps' : ∀ q ∈ ps.set k p, q.length = 2 := by
    intro q hq
    rcases List.mem_or_eq_of_mem_set hq with hq | rfl
    · exact hps q hq
    · exact hp
  have hlen' : ('S' :: '3' :: (ps.set k p).flatten).length = 2 * ps.length + 2 := by
    rw [List.length_cons, List.length_cons, Ihex.flatten_pairs_length _ hps', List.length_set]
  obtain ⟨bs, hbs, hz⟩ := C14_success hn h hok _ (reached_recognised hn hr hj (by omega))
  rw [fields_pairs ps hps h6] at hbs
  have hget : (lines.set j ('S' :: '3' :: (ps.set k p).flatten))[j]? =
      some ('S' :: '3' :: (ps.set k p).flatten) := by
    rw [Ihex.set_getElem? hj]; simp
  have hnm : ¬ Malformed ('S' :: '3' :: (ps.set k p).flatten) := by
    rintro ⟨_, hm⟩
    exact hm ⟨rfl, by omega⟩
  have hr' : Reached n (lines.set j ('S' :: '3' :: (ps.set k p).flatten)) j := by
    intro i m l hi h1 h2 h3 hl
    rw [List.length_set] at h1 h3
    rw [Ihex.set_getElem? hj] at hl
    split at hl
    · simp at hl; subst hl; exact hnm
    · exact hr i m l hi h1 h2 h3 hl
  have hmem := reached_recognised hn hr' hget (by omega)
  obtain ⟨o', ho', hiff⟩ := C14_checksum hn (lines.set j ('S' :: '3' :: (ps.set k p).flatten))
  refine ⟨o', ho', hiff.mpr ⟨_, hmem, ?_⟩⟩
  rintro ⟨bs', hbs', hz'⟩
  rw [fields_pairs _ hps' (by simpa using h6)] at hbs'
  cases hv : specByte p with
  | none =>
    have : ∀ (ps : List Str) (k : Nat), k < ps.length → (ps.set k p).mapM specByte = none := by
      intro ps
      induction ps with
      | nil => intro k hk; simp at hk
      | cons q ps ih =>
        intro k hk
        cases k with
        | zero => simp [List.mapM_cons, hv]
        | succ k =>
          rw [List.set_cons_succ, List.mapM_cons, ih k (by simpa using hk)]
          cases specByte q <;> rfl
    rw [this ps k hk] at hbs'
    simp at hbs'
  | some v =>
    obtain ⟨h1, _, w, h3, h4⟩ := Ihex.mapM_set hbs hk hv
    rw [hbs'] at h1
    simp only [Option.some.injEq] at h1
    subst h1
    have hsum := Ihex.sum_set (v := v) h4
    have hvlt := Ihex.specByte_lt hv
    have hwlt := Ihex.specByte_lt h3
    apply hne
    have hgetD : ps.getD k [] = ps[k] := by simp [List.getD, List.getElem?_eq_getElem hk]
    rw [hv, hgetD, h3]
    congr 1
    omega

example : Reached 2 (encode .upper [⟨0, [7]⟩, ⟨16, [8]⟩]) 1 := by
  intro i k l _ _ _ _ hl
  exact (encode_not_malformed .upper (by decide) l (List.mem_of_getElem? hl)).1

/-- The exception is a truncated line of 12 characters: the last address byte is counted a
second time as checksum, so changing it by 128 is not noticed. (No such line is an S3
record with all its fields.) -/
theorem C14_short_line_undetected :
    LineSumOk "S37F00000040".toList ∧ LineSumOk "S37F000000C0".toList ∧
      ¬ Malformed "S37F00000040".toList ∧ ¬ Malformed "S37F000000C0".toList := by
  refine ⟨⟨[127, 0, 0, 0, 64, 64], by decide +kernel, by decide⟩,
    ⟨[127, 0, 0, 0, 192, 192], by decide +kernel, by decide⟩, by decide +kernel, by decide +kernel⟩

/-! ## C15: collisions -/

/-- Specification: the bytes of a record. -/
def recBytes (r : Record) : Option (List (Nat × Nat)) :=
  match pairBytes r.addressField, r.data.mapM specByte with
  | some [a, b, c, d], some bs =>
    some (bs.zipIdx.map fun (v, i) => ((((a * 256 + b) * 256 + c) * 256 + d + i) % 4294967296, v))
  | _, _ => none

/-- C15: for every list of S3 records and CPU count: an error iff two bytes have the same
32-bit address; on success exactly the bytes of the records. -/
theorem C15_collision {n : Nat} (hn : 0 < n) {recs : List Record} (hs : ∀ r ∈ recs, Shape r)
    {bss : List (List (Nat × Nat))} (hb : recs.mapM recBytes = some bss) :
    ∃ o, collectData n recs = some o ∧
      (o.err = none ↔ (bss.flatten.map Prod.fst).Nodup) ∧
      (o.err = none → ∀ a v, o.map a = some v ↔ (a, v) ∈ bss.flatten) := by
  rw [collectData_eq hn hs]
  have hdata : dataBytes recs = bss.flatten.map (fun p => ⟨p.1, p.2⟩) := by
    unfold dataBytes
    clear hs
    induction recs generalizing bss with
    | nil => simp at hb; subst hb; rfl
    | cons r rs ih =>
      rw [List.mapM_cons] at hb
      cases h1 : recBytes r with
      | none => rw [h1] at hb; simp at hb
      | some b =>
        cases h2 : rs.mapM recBytes with
        | none => rw [h1, h2] at hb; simp at hb
        | some bs =>
          rw [h1, h2] at hb
          simp at hb; subst hb
          rw [List.map_cons, List.flatten_cons, List.flatten_cons, List.map_append, ih h2]
          congr 1
          unfold recBytes at h1
          split at h1
          · next a b' c d ds hp hd =>
            simp only [Option.some.injEq] at h1
            subst h1
            unfold entriesOf calcDataEntries
            rw [calcDataLoop_eq (Ihex.decodeString_pairBytes _ _ hp) _ _ 0 hd]
            simp [Function.comp_def]
          · simp at h1
  rw [hdata]
  exact ⟨_, rfl, Ihex.insertBytes_pairs _⟩

/-- C15 for files: success iff the sums are right and no address is defined twice, and the
result is exactly the data of the recognised lines. -/
theorem C15_file {n : Nat} (hn : 0 < n) {lines : List Str} {rcs : List Rec}
    (h : (recognised n lines).mapM decodeLine = some rcs) :
    ∃ o, parseHex n lines = some o ∧
      (o.err = none ↔ (∀ rc ∈ rcs, rc.SumOk) ∧ ((bytesOf rcs).map Prod.fst).Nodup) ∧
      (o.err = none → ∀ a v, o.map a = some v ↔ (a, v) ∈ bytesOf rcs) := parse_recognised hn h

example : ([⟨['0','6'], "FFFFFFFF".toList, ['3'], [['0','1'], ['0','2']], ['0','0']⟩,
    ⟨['0','6'], "00000000".toList, ['3'], [['0','9']], ['0','0']⟩] : List Record).mapM recBytes =
    some [[(4294967295, 1), (0, 2)], [(0, 9)]] := by decide +kernel

/-! ## C16: no crash -/

/-- C16: for every text and CPU count the parser returns. -/
theorem C16_no_panic {n : Nat} (hn : 0 < n) (text : Str) : ∃ o, parseFromText n text = some o := by
  unfold parseFromText
  rw [parseHex_eq hn]
  exact ⟨_, rfl⟩

theorem C16_parseRecord {line : Str} (h : 11 ≤ line.length) : parseRecord line ≠ none := by
  rcases parseRecord_eq h with ⟨_, h⟩ | ⟨_, _, h⟩ <;> rw [h] <;> simp

/-! ## C17: header and terminator -/

/-- Full statement of C17 (false: `C17_false`). -/
def C17_full : Prop :=
  ∀ (n : Nat) (c : Case) (text : List Nat) (bs : List Block) (start : Nat) (o : Outcome), 0 < n →
    (∀ x ∈ text, x < 256) → text.length + 3 < 256 → start < 4294967296 →
    (∀ b ∈ bs, b.Fits) → ((imageBytes bs).map Prod.fst).Nodup →
    parseHex n (standardFile c text bs start) = some o →
    o.err = none ∧ ∀ a v, o.map a = some v ↔ (a, v) ∈ imageBytes bs

/-- If all lines of `B` are unreadable or short, and `A` has no unreadable line, exactly the
significant lines of `A` are recognised. -/
theorem recognised_tail {n : Nat} (hn : 0 < n) {A B : List Str} (hA : ∀ l ∈ A, ¬ Malformed l)
    (hB : ∀ l ∈ B, Malformed l ∨ l.length < 11) : recognised n (A ++ B) = significant A := by
  let P : Str → Bool := fun l => decide (11 ≤ l.length) && decide (¬ Malformed l)
  have hB' : ∀ l ∈ B, P l = false := by
    intro l hl
    rcases hB l hl with h | h
    · simp [P, h]
    · simp [P]; omega
  have hA' : ∀ l ∈ A, P l = decide (11 ≤ l.length) := by
    intro l hl; simp [P, hA l hl]
  have seg : ∀ (A' B' : List Str), (∀ l ∈ A', l ∈ A) → (∀ l ∈ B', l ∈ B) →
      significant ((A' ++ B').takeWhile fun l => ¬ Malformed l) = (A' ++ B').filter P := by
    intro A' B' hA2 hB2
    induction A' with
    | nil =>
      have h1 : B'.filter P = [] := by
        rw [List.filter_eq_nil_iff]; intro l hl; rw [hB' l (hB2 l hl)]; simp
      have h2 : significant (B'.takeWhile fun l => ¬ Malformed l) = [] := by
        unfold significant
        rw [List.filter_eq_nil_iff]
        intro l hl
        obtain ⟨h3, h4⟩ := mem_takeWhile hl
        have h4' : ¬ Malformed l := by simpa using h4
        rcases hB l (hB2 l h3) with h | h
        · exact absurd h h4'
        · simp; omega
      simp only [List.nil_append, h1, h2]
    | cons a A' ih =>
      have hm := hA a (hA2 a (by simp))
      have ih' := ih (fun l hl => hA2 l (by simp [hl]))
      have hP : P a = decide (11 ≤ a.length) := hA' a (hA2 a (by simp))
      rw [List.cons_append, List.takeWhile_cons, if_pos (by simpa using hm), List.filter_cons, hP, ← ih']
      simp only [significant, List.filter_cons]
  have hshare : ∀ i, significant ((workerLines n (A ++ B) i).takeWhile fun l => ¬ Malformed l) =
      (share (A ++ B) n i).filter P := by
    intro i
    rw [← Ihex.workerLines_eq]
    unfold share
    generalize shareStart (A ++ B).length n i = s
    generalize shareEnd (A ++ B).length n i - s = m
    rw [List.drop_append, List.take_append]
    apply seg
    · intro l hl; exact List.mem_of_mem_drop (List.mem_of_mem_take hl)
    · intro l hl; exact List.mem_of_mem_drop (List.mem_of_mem_take hl)
  unfold recognised
  simp only [hshare]
  have : (List.range n).flatMap (fun i => (share (A ++ B) n i).filter P) = (A ++ B).filter P := by
    conv => rhs; rw [← flatten_shares (A ++ B) n hn]
    simp [List.flatMap_def, List.filter_flatten, Function.comp_def]
  rw [this, List.filter_append]
  have h1 : B.filter P = [] := by
    rw [List.filter_eq_nil_iff]; intro l hl; rw [hB' l hl]; simp
  rw [h1, List.append_nil]
  unfold significant
  apply List.filter_congr
  intro l hl
  exact hA' l hl

theorem length_printLine (ty : Char) (c : Case) (bs : List Nat) :
    (printLine ty c bs).length = 2 * bs.length + 4 := by
  unfold printLine
  rw [List.length_cons, List.length_cons, Ihex.length_print]
  simp; omega

theorem headerLine_malformed (c : Case) {text : List Nat} (h : text ≠ []) : Malformed (headerLine c text) := by
  have hlen : (headerLine c text).length = 2 * text.length + 10 := by
    unfold headerLine; rw [length_printLine]; simp; omega
  have : text.length ≠ 0 := by simpa using h
  refine ⟨by omega, ?_⟩
  rintro ⟨h1, _⟩
  simp [headerLine, printLine] at h1

theorem endLine_malformed (c : Case) (start : Nat) : Malformed (endLine c start) := by
  have hlen : (endLine c start).length = 14 := by
    unfold endLine; rw [length_printLine]; simp [addrBytes]
  refine ⟨by omega, ?_⟩
  rintro ⟨h1, _⟩
  simp [endLine, printLine] at h1

/-- C17 for files whose header line is shorter than 11 characters (the empty header
`S0030000FC`), or that have no header: all data is there, on every CPU count, and the
terminator line and short lines after it do no harm. Missing: any header with a text. -/
theorem C17_partial {n : Nat} (hn : 0 < n) (c : Case) (pre : List Str) (hpre : ∀ l ∈ pre, l.length < 11)
    (bs : List Block) (start : Nat) (post : List Str) (hpost : ∀ l ∈ post, l.length < 11)
    (hfit : ∀ b ∈ bs, b.Fits) (hnd : ((imageBytes bs).map Prod.fst).Nodup) :
    ∃ o, parseHex n (pre ++ encode c bs ++ endLine c start :: post) = some o ∧ o.err = none ∧
      ∀ a v, o.map a = some v ↔ (a, v) ∈ imageBytes bs := by
  have hnm := encode_not_malformed c hfit
  have hrec : recognised n (pre ++ encode c bs ++ endLine c start :: post) = encode c bs := by
    rw [recognised_tail hn]
    · unfold significant
      rw [List.filter_append]
      have h1 : pre.filter (fun l => decide (11 ≤ l.length)) = [] := by
        rw [List.filter_eq_nil_iff]; intro l hl; have := hpre l hl; simp; omega
      rw [h1, List.nil_append]
      exact significant_self (fun l hl => (hnm l hl).2)
    · intro l hl
      rcases List.mem_append.mp hl with hl | hl
      · rintro ⟨h, _⟩; have := hpre l hl; omega
      · exact (hnm l hl).1
    · intro l hl
      rcases List.mem_cons.mp hl with rfl | hl
      · exact Or.inl (endLine_malformed c start)
      · exact Or.inr (hpost l hl)
  obtain ⟨rcs, h1, h2, h3⟩ := encode_decode c hfit
  obtain ⟨o, ho, r1, r2⟩ := parse_recognised (n := n) hn (rcs := rcs)
    (lines := pre ++ encode c bs ++ endLine c start :: post) (by rw [hrec]; exact h1)
  rw [h3] at r1 r2
  have hok := r1.mpr ⟨h2, hnd⟩
  exact ⟨o, ho, hok, r2 hok⟩

/-- Corollary: a standard file with an empty header text. -/
theorem C17_empty_header_partial {n : Nat} (hn : 0 < n) (c : Case) (bs : List Block) (start : Nat)
    (hfit : ∀ b ∈ bs, b.Fits) (hnd : ((imageBytes bs).map Prod.fst).Nodup) :
    ∃ o, parseHex n (standardFile c [] bs start) = some o ∧ o.err = none ∧
      ∀ a v, o.map a = some v ↔ (a, v) ∈ imageBytes bs := by
  have := C17_partial hn c [headerLine c []] (by
    intro l hl
    simp only [List.mem_cons, List.not_mem_nil, or_false] at hl
    subst hl
    unfold headerLine; rw [length_printLine]; simp) bs start [] (by simp) hfit hnd
  simpa [standardFile] using this

example : (headerLine .upper []) = "S0030000FC".toList := by decide +kernel
example : (headerLine .upper [72, 68, 82]) = "S00600004844521B".toList := by decide +kernel

/-- The blocks whose first byte is lost on `n` CPUs. -/
def lostBlocks (n : Nat) : List Block := ⟨0, [7]⟩ :: List.replicate (3 * n - 3) ⟨0, []⟩

/-- C17 fails on every number of CPUs and for every non-empty header text: the first
worker stops at the S0 line, its share of the data is missing, no error is reported. -/
theorem C17_false_everywhere (n : Nat) (hn : 0 < n) (c : Case) (text : List Nat) (ht : text ≠ [])
    (start : Nat) :
    (∀ b ∈ lostBlocks n, b.Fits) ∧ ((imageBytes (lostBlocks n)).map Prod.fst).Nodup ∧
    ∃ o, parseHex n (standardFile c text (lostBlocks n) start) = some o ∧ o.err = none ∧
      (0, 7) ∈ imageBytes (lostBlocks n) ∧ ∀ a, o.map a = none := by
  have hfit : ∀ b ∈ lostBlocks n, b.Fits := by
    intro b hb
    simp only [lostBlocks, List.mem_cons, List.mem_replicate] at hb
    rcases hb with rfl | ⟨_, rfl⟩ <;> decide
  have himg : imageBytes (lostBlocks n) = [(0, 7)] := by
    unfold imageBytes lostBlocks
    rw [List.map_cons, List.map_replicate, List.flatten_cons]
    have : ∀ k : Nat, (List.replicate k ([] : List (Nat × Nat))).flatten = [] := by
      intro k; induction k with
      | zero => rfl
      | succ k ih => simp [List.replicate_succ]
    simp [this]
  refine ⟨hfit, by rw [himg]; simp, ?_⟩
  have hlen : (standardFile c text (lostBlocks n) start).length = 3 * n := by
    simp [standardFile, encode, lostBlocks]; omega
  have hq : 3 * n / n = 3 := by rw [Nat.mul_comm]; exact Nat.mul_div_cancel_left 3 hn
  have hall : ∀ l ∈ recognised n (standardFile c text (lostBlocks n) start), l = dataLine c ⟨0, []⟩ := by
    intro l hl
    obtain ⟨_, hl12, hS3⟩ := mem_recognised hl
    simp only [recognised, List.mem_flatMap] at hl
    obtain ⟨i, hi, hl⟩ := hl
    obtain ⟨hl, _⟩ := Ihex.mem_significant hl
    by_cases h0 : i = 0
    · exfalso
      subst h0
      have hm := headerLine_malformed c ht
      unfold workerLines at hl
      rw [hlen, hq] at hl
      split at hl
      · simp [standardFile, hm] at hl
      · simp [standardFile, hm] at hl
    · obtain ⟨hl, _⟩ := mem_takeWhile hl
      have hd : l ∈ (standardFile c text (lostBlocks n) start).drop 3 := by
        unfold workerLines at hl
        rw [hlen, hq] at hl
        have : 3 * i = 3 + (3 * i - 3) := by omega
        split at hl
        · rw [this, ← List.drop_drop] at hl; exact List.mem_of_mem_drop hl
        · have hl := List.mem_of_mem_take hl
          rw [this, ← List.drop_drop] at hl; exact List.mem_of_mem_drop hl
      have hd2 : l ∈ List.replicate (3 * n - 3) (dataLine c ⟨0, []⟩) ++ [endLine c start] := by
        have : (standardFile c text (lostBlocks n) start).drop 2 =
            List.replicate (3 * n - 3) (dataLine c ⟨0, []⟩) ++ [endLine c start] := by
          simp [standardFile, encode, lostBlocks]
        rw [← this]
        have h3 : (3 : Nat) = 2 + 1 := rfl
        rw [h3, ← List.drop_drop] at hd
        exact List.mem_of_mem_drop hd
      rcases List.mem_append.mp hd2 with h | h
      · exact (List.mem_replicate.mp h).2
      · exfalso
        simp only [List.mem_cons, List.not_mem_nil, or_false] at h
        rw [h] at hS3
        simp [endLine, printLine] at hS3
  obtain ⟨rc, h1, h2, _, h3⟩ := decode_dataLine c (b := ⟨0, []⟩) (by decide)
  have hdec : ∀ ls : List Str, (∀ l ∈ ls, l = dataLine c ⟨0, []⟩) → ∃ rcs, ls.mapM decodeLine = some rcs ∧
      (∀ rc ∈ rcs, rc.SumOk) ∧ bytesOf rcs = [] := by
    intro ls
    induction ls with
    | nil => intro _; exact ⟨[], rfl, by simp, rfl⟩
    | cons l ls ih =>
      intro h
      obtain ⟨rcs, i1, i2, i3⟩ := ih (fun l hl => h l (by simp [hl]))
      refine ⟨rc :: rcs, ?_, ?_, ?_⟩
      · rw [List.mapM_cons, h l (by simp), h1, i1]; rfl
      · intro r hr
        rcases List.mem_cons.mp hr with rfl | hr
        · exact h2
        · exact i2 r hr
      · unfold bytesOf at i3 ⊢
        rw [List.map_cons, List.flatten_cons, h3, i3]; rfl
  obtain ⟨rcs, d1, d2, d3⟩ := hdec _ hall
  obtain ⟨o, ho, r1, r2⟩ := parse_recognised hn d1
  rw [d3] at r1 r2
  have hok := r1.mpr ⟨d2, by simp⟩
  refine ⟨o, ho, hok, by rw [himg]; simp, ?_⟩
  intro a
  cases hm : o.map a with
  | none => rfl
  | some v => exact absurd ((r2 hok a v).mp hm) (by simp)

theorem C17_false : ¬ C17_full := by
  intro h
  obtain ⟨h1, h2, o, ho, _, hmem, hnone⟩ := C17_false_everywhere 1 (by omega) .upper [72, 68, 82] (by simp) 0
  have := (h 1 .upper [72, 68, 82] _ 0 o (by omega) (by decide) (by decide) (by omega) h1 h2 ho).2 0 7
  rw [hnone] at this
  simp at this
  exact this hmem

/-! ## C18: the two formats agree -/

/-- Full statement of C18 (false because C02 is: `C18_false`). -/
def C18_full : Prop :=
  ∀ (n m : Nat) (c c' : Case) (bs : List Ihex.Spec.Block) (cs : List Block) (sched : List Nat)
    (o o' : Outcome), 0 < n → 0 < m → (∀ b ∈ bs, b.Fits) → (∀ b ∈ cs, b.Fits) →
    ((Ihex.Spec.imageBytes bs).map Prod.fst).Nodup → ((imageBytes cs).map Prod.fst).Nodup →
    (∀ p, p ∈ Ihex.Spec.imageBytes bs ↔ p ∈ imageBytes cs) →
    Ihex.parseHex n sched (Ihex.Spec.encode c bs) = some (some o) →
    parseHex m (encode c' cs) = some o' → o.err = none ∧ o'.err = none ∧ o.map = o'.map

/-- C18: the same image as Intel HEX (blocks `bs`) and as S19 (blocks `cs`, cut
differently), any letter cases, CPU counts and interleaving. Missing: images whose Intel
HEX encoding selects segment 0 explicitly, uses it, and goes on elsewhere. -/
theorem C18_formats_agree_partial {n m : Nat} (hn : 0 < n) (hm : 0 < m) (c c' : Case)
    {bs : List Ihex.Spec.Block} {cs : List Block} (hb : ∀ b ∈ bs, b.Fits) (hc : ∀ b ∈ cs, b.Fits)
    (hbn : ((Ihex.Spec.imageBytes bs).map Prod.fst).Nodup) (hcn : ((imageBytes cs).map Prod.fst).Nodup)
    (hz : Ihex.Spec.ZeroBlocksLast bs) (hsame : ∀ p, p ∈ Ihex.Spec.imageBytes bs ↔ p ∈ imageBytes cs)
    {sched : List Nat} {o o' : Outcome}
    (h : Ihex.parseHex n sched (Ihex.Spec.encode c bs) = some (some o))
    (h' : parseHex m (encode c' cs) = some o') :
    o.err = none ∧ o'.err = none ∧ o.map = o'.map := by
  obtain ⟨a1, a2⟩ := Ihex.C02_roundtrip_partial hn c hb hbn hz sched h
  obtain ⟨o2, ho2, b1, b2⟩ := C13_roundtrip hm c' hc hcn
  rw [h'] at ho2
  simp at ho2
  subst ho2
  refine ⟨a1, b1, ?_⟩
  funext a
  apply Option.ext
  intro v
  rw [a2, b2, hsame]

example : ∀ p, p ∈ Ihex.Spec.imageBytes [⟨false, 0, 65535, [1]⟩, ⟨false, 1, 0, [2]⟩] ↔
    p ∈ imageBytes [⟨65535, [1, 2]⟩] := by
  intro p
  have h1 : Ihex.Spec.imageBytes [⟨false, 0, 65535, [1]⟩, ⟨false, 1, 0, [2]⟩] = [(65535, 1), (65536, 2)] := by decide
  have h2 : imageBytes [⟨65535, [1, 2]⟩] = [(65535, 1), (65536, 2)] := by decide
  rw [h1, h2]

theorem C18_false : ¬ C18_full := by
  intro h
  obtain ⟨h1, h2, h3⟩ := Ihex.C02_false_everywhere 1 (by omega) .upper
  obtain ⟨o, ho⟩ := Ihex.C02_returns (n := 1) (by omega) (Ihex.Spec.encode .upper (Ihex.badBlocks 1))
    (List.replicate 100 0) (by intro k hk; have : k = 0 := by omega
                               subst this; decide +kernel)
  obtain ⟨hok, hmem, hnone⟩ := h3 _ o ho
  have hbytes : Ihex.Spec.imageBytes (Ihex.badBlocks 1) = [(0, 7), (65537, 9)] := by decide
  have hbytes' : imageBytes [⟨0, [7]⟩, ⟨65537, [9]⟩] = [(0, 7), (65537, 9)] := by decide
  obtain ⟨o', ho', hok', hmap⟩ := C13_roundtrip (n := 1) (by omega) .upper (bs := [⟨0, [7]⟩, ⟨65537, [9]⟩])
    (by decide) (by decide)
  have := (h 1 1 .upper .upper _ _ _ o o' (by omega) (by omega) h1 (by decide) h2 (by decide)
    (by intro p; rw [hbytes, hbytes']) ho ho').2.2
  have h9 : o'.map 65537 = some 9 := (hmap 65537 9).mpr (by rw [hbytes']; simp)
  rw [← this, hnone] at h9
  simp at h9

/-! ## C09: line terminators -/

/-- C09 (S19). -/
theorem C09_srec (n : Nat) (ls : List Str) (h : ∀ l ∈ ls, '\r' ∉ l ∧ '\n' ∉ l) :
    parseFromText n (joinLines ['\r', '\n'] ls) = parseFromText n (joinLines ['\n'] ls) := by
  unfold parseFromText
  by_cases hne : ls = []
  · subst hne; rfl
  · rw [Ihex.splitLines_crlf hne h, Ihex.splitLines_lf hne h]

/-! ## C11: letter case of whole files -/

/-- Full statement for lower case (false: the `s` is not recognised as start of a record). -/
def C11_srec_full : Prop :=
  ∀ (n : Nat) (lines : List Str) (o o' : Outcome), 0 < n → parseHex n lines = some o →
    parseHex n (lines.map (·.map Char.toLower)) = some o' →
    (o.err = none ↔ o'.err = none) ∧ (o.err = none → o.map = o'.map)

/-- A lower-case file is accepted as an empty file. -/
theorem C11_srec_lower_loses (n : Nat) (hn : 0 < n) (lines : List Str) :
    ∃ o, parseHex n (lines.map (·.map Char.toLower)) = some o ∧ o.err = none ∧ ∀ a, o.map a = none := by
  have hrec : recognised n (lines.map (·.map Char.toLower)) = [] := by
    apply List.eq_nil_iff_forall_not_mem.mpr
    intro l hl
    obtain ⟨h1, _, h3⟩ := mem_recognised hl
    obtain ⟨l', _, rfl⟩ := List.mem_map.mp h1
    match l', h3 with
    | [], h3 => simp at h3
    | a :: rest, h3 =>
      have : a.toLower = 'S' := by
        have := congrArg List.head? h3
        simpa using this
      have hne : ∀ a : Char, a.toLower ≠ 'S' := by
        intro a h
        unfold Char.toLower at h
        split at h
        · next hup =>
          have hv := congrArg Char.val h
          have hlo := hup.1
          have hhi := hup.2
          have : a.val + 32 = 'S'.val := hv
          have e : (a.val + 32).toNat = 83 := by rw [this]; rfl
          have hlo' : 65 ≤ a.val.toNat := hlo
          have hhi' : a.val.toNat ≤ 90 := hhi
          rw [UInt32.toNat_add] at e
          have : (32 : UInt32).toNat = 32 := rfl
          rw [this] at e
          omega
        · next hup =>
          subst h
          exact hup (by decide)
      exact hne a this
  obtain ⟨o, ho, r1, r2⟩ := parse_recognised hn (lines := lines.map (·.map Char.toLower)) (rcs := [])
    (by rw [hrec]; rfl)
  have hok := r1.mpr (by simp [bytesOf])
  refine ⟨o, ho, hok, ?_⟩
  intro a
  cases hm : o.map a with
  | none => rfl
  | some v => exact absurd ((r2 hok a v).mp hm) (by simp [bytesOf])

theorem C11_srec_false : ¬ C11_srec_full := by
  intro h
  obtain ⟨o, ho, hok, hmap⟩ := C13_roundtrip (n := 1) (by omega) .upper (bs := [⟨0, [7]⟩]) (by decide) (by decide)
  obtain ⟨o', ho', hok', hnone⟩ := C11_srec_lower_loses 1 (by omega) (encode .upper [⟨0, [7]⟩])
  have := (h 1 _ o o' (by omega) ho ho').2 hok
  have h7 := (hmap 0 7).mpr (by decide)
  rw [this, hnone] at h7
  simp at h7

/-- C11 for S19 files whose significant lines are all S3 records: conversion to upper case
does not change the result. Missing: conversion to lower case (false), other files. -/
theorem C11_srec_upper_partial {n : Nat} (hn : 0 < n) {lines : List Str}
    (hwf : ∀ l ∈ significant lines, ∃ rc, decodeLine l = some rc) {o o' : Outcome}
    (h : parseHex n lines = some o) (h' : parseHex n (lines.map (·.map Char.toUpper)) = some o') :
    (o.err = none ↔ o'.err = none) ∧ (o.err = none → o.map = o'.map) := by
  have hdl : ∀ l rc, decodeLine l = some rc → decodeLine (l.map Char.toUpper) = some rc := by
    intro l rc hd
    unfold decodeLine at hd
    split at hd
    · next body =>
      split at hd
      · next cnt a b c d e rest hp =>
        have hp' := Ihex.caseMap_toUpper.pairBytes _ _ hp
        have hS : ('S' :: '3' :: body).map Char.toUpper = 'S' :: '3' :: body.map Char.toUpper := by
          simp only [List.map_cons]; rfl
        rw [hS]
        unfold decodeLine
        simp only
        rw [hp']
        exact hd
      · simp at hd
    · simp at hd
  have hsig : significant (lines.map (·.map Char.toUpper)) = (significant lines).map (·.map Char.toUpper) := by
    unfold significant
    rw [List.filter_map]
    congr 1
    apply List.filter_congr
    intro l _
    simp
  have hex : ∀ ls : List Str, (∀ l ∈ ls, ∃ rc, decodeLine l = some rc) →
      ∃ rcs, ls.mapM decodeLine = some rcs ∧ (ls.map (·.map Char.toUpper)).mapM decodeLine = some rcs := by
    intro ls
    induction ls with
    | nil => intro _; exact ⟨[], rfl, rfl⟩
    | cons l ls ih =>
      intro hh
      obtain ⟨rc, hrc⟩ := hh l (by simp)
      obtain ⟨rcs, i1, i2⟩ := ih (fun l hl => hh l (by simp [hl]))
      refine ⟨rc :: rcs, ?_, ?_⟩
      · rw [List.mapM_cons, hrc, i1]; rfl
      · rw [List.map_cons, List.mapM_cons, hdl l rc hrc, i2]; rfl
  obtain ⟨rcs, e1, e2⟩ := hex _ hwf
  have hr1 : recognised n lines = significant lines := by
    apply recognised_eq hn
    intro l hl hm
    obtain ⟨rc, hrc⟩ := hwf l (by simp [significant, hl, hm.1])
    exact (decodeLine_some hrc).2.1 hm
  have hr2 : recognised n (lines.map (·.map Char.toUpper)) = significant (lines.map (·.map Char.toUpper)) := by
    apply recognised_eq hn
    intro l hl hm
    obtain ⟨l', hl', rfl⟩ := List.mem_map.mp hl
    obtain ⟨rc, hrc⟩ := hwf l' (by
      have : 11 ≤ (l'.map Char.toUpper).length := hm.1
      simp only [List.length_map] at this
      simp [significant, hl', this])
    exact (decodeLine_some (hdl _ _ hrc)).2.1 hm
  obtain ⟨o1, ho1, a1, a2⟩ := parse_recognised hn (lines := lines) (by rw [hr1]; exact e1)
  obtain ⟨o2, ho2, b1, b2⟩ := parse_recognised hn (lines := lines.map (·.map Char.toUpper))
    (by rw [hr2, hsig]; exact e2)
  rw [h] at ho1; rw [h'] at ho2
  simp at ho1 ho2
  subst ho1; subst ho2
  refine ⟨a1.trans b1.symm, ?_⟩
  intro he
  funext a
  apply Option.ext
  intro v
  rw [a2 he, b2 (b1.mpr (a1.mp he))]

/-! ## C12: the declared byte count -/

/-- Full statement of C12 for S19 (false: `C12_srec_false`). The count of an S3 record
covers four address bytes, the data and the checksum. -/
def C12_srec_full : Prop :=
  ∀ (n : Nat) (lines : List Str) (o : Outcome) (l : Str) (rc : Rec), 0 < n →
    parseHex n lines = some o → o.err = none → l ∈ recognised n lines →
    decodeLine l = some rc → rc.count = rc.data.length + 5

/-- A wrong count alone is always detected. -/
theorem C12_srec_partial {n : Nat} (hn : 0 < n) {lines : List Str} {j : Nat} {ps : List Str}
    {p : Str} {o : Outcome} (h : parseHex n lines = some o) (hok : o.err = none)
    (hj : lines[j]? = some ('S' :: '3' :: ps.flatten)) (hps : ∀ q ∈ ps, q.length = 2)
    (h6 : 6 ≤ ps.length) (hp : p.length = 2) (hne : specByte p ≠ specByte (ps.getD 0 []))
    (hr : Reached n lines j) :
    ∃ o', parseHex n (lines.set j ('S' :: '3' :: (ps.set 0 p).flatten)) = some o' ∧
      o'.err = some .invalidChecksums :=
  C14_corruption hn h hok hj hps h6 (by omega) hp hne hr

/-- Count 9, one data byte, accepted. -/
theorem C12_srec_false : ¬ C12_srec_full := by
  intro h
  have hrec : recognised 1 ["S3090000000007EF".toList] = ["S3090000000007EF".toList] := by decide +kernel
  obtain ⟨o, ho, r1, _⟩ := parse_recognised (n := 1) (by omega) (lines := ["S3090000000007EF".toList])
    (rcs := [⟨9, 0, [7], 239⟩]) (by rw [hrec]; decide +kernel)
  have := h 1 _ o "S3090000000007EF".toList ⟨9, 0, [7], 239⟩ (by omega) ho (r1.mpr (by decide))
    (by rw [hrec]; exact List.mem_singleton.mpr rfl) (by decide +kernel)
  exact absurd this (by decide)

/-! ## C51: the number of CPUs does not matter (S19) -/

/-- Full statement of C51 (false: `C51_false`). -/
def C51_full : Prop :=
  ∀ (n m : Nat) (lines : List Str) (o o' : Outcome), 0 < n → 0 < m → parseHex n lines = some o →
    parseHex m lines = some o' → (o.err = none ↔ o'.err = none) ∧ (o.err = none → o.map = o'.map)

/-- C51 for files without unreadable lines (every line of 11 or more characters starts with
`S3` and has at least 12 characters), whatever these lines contain. -/
theorem C51_partial {n m : Nat} (hn : 0 < n) (hm : 0 < m) {lines : List Str}
    (h : ∀ l ∈ lines, ¬ Malformed l) : parseHex n lines = parseHex m lines := by
  rw [parseHex_eq hn, parseHex_eq hm, recognised_eq hn h, recognised_eq hm h]

/-- The same standard file with header: empty on one CPU, complete on two or more. -/
theorem C51_false : ¬ C51_full := by
  intro h
  let lines := [headerLine .upper [65], dataLine .upper ⟨0, [7]⟩]
  have hr1 : recognised 1 lines = [] := by decide +kernel
  have hr2 : recognised 2 lines = [dataLine .upper ⟨0, [7]⟩] := by decide +kernel
  obtain ⟨rc, h1, h2, _, h3⟩ := decode_dataLine .upper (b := ⟨0, [7]⟩) (by decide)
  have h3' : rc.bytes = [(0, 7)] := by rw [h3]; rfl
  obtain ⟨o, ho, a1, a2⟩ := parse_recognised (n := 1) (by omega) (lines := lines) (rcs := []) (by rw [hr1]; rfl)
  obtain ⟨o', ho', b1, b2⟩ := parse_recognised (n := 2) (by omega) (lines := lines) (rcs := [rc])
    (by rw [hr2, List.mapM_cons, h1]; rfl)
  have hok := a1.mpr (by simp [bytesOf])
  have hok' := b1.mpr (by simp [bytesOf, h2, h3'])
  have := (h 1 2 lines o o' (by omega) (by omega) ho ho').2 hok
  have h7 := (b2 hok' 0 7).mpr (by simp [bytesOf, h3'])
  rw [← this] at h7
  have := (a2 hok 0 7).mp h7
  simp [bytesOf] at this

example : ∀ l ∈ encode .upper [⟨0, [7]⟩, ⟨16, [8]⟩], ¬ Malformed l :=
  fun l hl => (encode_not_malformed .upper (by decide) l hl).1

end Verif.Srec
