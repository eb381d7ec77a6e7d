import Verif.Ihex.Props2

/-!
Properties C60 (truncated files), C61 (the end-of-file record), C62 (record types) and C63
(order of records) of the Intel HEX parser.
-/

namespace Verif.Ihex

open Verif.Go Verif.Hex Verif.Hex.Spec Verif.Ihex.Spec

/-! ## Parts of files -/

theorem recs_append (A B : List Str) : Spec.recs (A ++ B) = Spec.recs A ++ Spec.recs B := by
  simp [Spec.recs, significant]

theorem wf_append {A B : List Str} : WellFormed (A ++ B) ↔ WellFormed A ∧ WellFormed B := by
  simp only [WellFormed, significant, List.filter_append, List.mem_append]
  constructor
  · intro h; exact ⟨fun l hl => h l (.inl hl), fun l hl => h l (.inr hl)⟩
  · rintro ⟨h1, h2⟩ l (hl | hl)
    · exact h1 l hl
    · exact h2 l hl

/-- The segment in force after some lines. -/
def segAfter : Nat → List Rec → Nat
  | seg, [] => seg
  | seg, r :: rs => segAfter (if r.typ = 4 then r.data.getD 0 0 * 256 + r.data.getD 1 0 else seg) rs

theorem bytesFrom_append (seg : Nat) (A B : List Rec) :
    bytesFrom seg (A ++ B) = bytesFrom seg A ++ bytesFrom (segAfter seg A) B := by
  induction A generalizing seg with
  | nil => rfl
  | cons r rs ih =>
    by_cases h4 : r.typ = 4
    · simp [bytesFrom, segAfter, h4, ih]
    · by_cases h0 : r.typ = 0
      · simp [bytesFrom, segAfter, h0, ih]
      · simp [bytesFrom, segAfter, h4, h0, ih]

def segAfter' : Option Nat → List Rec → Option Nat
  | seg, [] => seg
  | seg, r :: rs => segAfter' (if r.typ = 4 then some (r.data.getD 0 0 * 256 + r.data.getD 1 0) else seg) rs

theorem dataSegs_append (seg : Option Nat) (A B : List Rec) :
    dataSegs seg (A ++ B) = dataSegs seg A ++ dataSegs (segAfter' seg A) B := by
  induction A generalizing seg with
  | nil => rfl
  | cons r rs ih =>
    by_cases h4 : r.typ = 4
    · simp [dataSegs, segAfter', h4, ih]
    · by_cases h0 : r.typ = 0
      · simp [dataSegs, segAfter', h0, ih]
      · simp [dataSegs, segAfter', h4, h0, ih]

/-! ## C60: truncated files -/

/-- The full property: if lines are missing at the end of a file, an error is reported. -/
def C60_ihex_full : Prop :=
  ∀ (n : Nat) (c : Case) (bs : List Block) (k : Nat) (sched : List Nat) (o : Outcome), 0 < n →
    (∀ b ∈ bs, b.Fits) → ((imageBytes bs).map Prod.fst).Nodup → k < (encode c bs).length →
    parseHex n sched ((encode c bs).take k) = some (some o) → o.err ≠ none

/-- What does hold: cutting off lines never produces a wrong byte. If a well-formed file is
accepted, the file cut after any line is accepted (on any number of CPUs, in any
schedule), and every byte of the cut file is the byte of the whole file.
Missing: that the missing lines are reported (they never are), and files selecting
segment 0 explicitly before another segment (C02). -/
theorem C60_ihex_partial {n m : Nat} (hn : 0 < n) (hm : 0 < m) {lines : List Str}
    (hwf : WellFormed lines) (hz : Spec.ZeroSegmentLast (Spec.recs lines)) (k : Nat)
    {sched sched' : List Nat} {o o' : Outcome} (h : parseHex n sched lines = some (some o))
    (hok : o.err = none) (h' : parseHex m sched' (lines.take k) = some (some o')) :
    o'.err = none ∧ (∀ a v, o'.map a = some v → o.map a = some v) ∧
      ∀ a v, o'.map a = some v ↔ (a, v) ∈ fileBytes (lines.take k) := by
  have hsplit : lines = lines.take k ++ lines.drop k := (List.take_append_drop k lines).symm
  obtain ⟨x1, x2⟩ := C05_file_partial hn hwf hz h
  have hwf' : WellFormed (lines.take k) := (wf_append.mp (hsplit ▸ hwf)).1
  have hr : Spec.recs lines = Spec.recs (lines.take k) ++ Spec.recs (lines.drop k) := by
    rw [← recs_append, ← hsplit]
  have hz' : Spec.ZeroSegmentLast (Spec.recs (lines.take k)) := by
    unfold Spec.ZeroSegmentLast at hz ⊢
    rw [hr, dataSegs_append] at hz
    exact (List.pairwise_append.mp hz).1
  obtain ⟨y1, y2⟩ := C05_file_partial hm hwf' hz' h'
  obtain ⟨s1, s2⟩ := x1.mp hok
  have hb : fileBytes lines = fileBytes (lines.take k) ++
      bytesFrom (segAfter 0 (Spec.recs (lines.take k))) (Spec.recs (lines.drop k)) := by
    unfold fileBytes
    rw [hr, bytesFrom_append]
  have hok' : o'.err = none := by
    rw [y1]
    refine ⟨fun r hr' => s1 r (by rw [hr]; exact List.mem_append_left _ hr'), ?_⟩
    rw [hb, List.map_append] at s2
    exact (List.sublist_append_left _ _).nodup s2
  refine ⟨hok', ?_, y2 hok'⟩
  intro a v hv
  rw [y2 hok'] at hv
  rw [x2 hok, hb]
  exact List.mem_append_left _ hv

/-- The lines of an image cut anywhere are accepted. -/
theorem C60_ihex_accepted {n : Nat} (hn : 0 < n) (c : Case) {bs : List Block}
    (hfit : ∀ b ∈ bs, b.Fits) (hnd : ((imageBytes bs).map Prod.fst).Nodup)
    (hz : ZeroBlocksLast bs) (k : Nat) (sched : List Nat) {o : Outcome}
    (h : parseHex n sched ((encode c bs).take k) = some (some o)) :
    o.err = none ∧ ∀ a v, o.map a = some v → (a, v) ∈ imageBytes bs := by
  obtain ⟨h1, h2, h3, h4⟩ := encode_meaning c hfit
  obtain ⟨w, hw⟩ : ∃ w, parseHex n (List.replicate ((encode c bs).length + 1)
      (List.range n)).flatten (encode c bs) = some (some w) := by
    apply C02_returns hn
    intro i hi
    have : ∀ k, ((List.replicate k (List.range n)).flatten).count i = k := by
      intro k
      induction k with
      | zero => simp
      | succ k ih =>
        rw [List.replicate_succ, List.flatten_cons, List.count_append, ih]
        have : (List.range n).count i = 1 := by
          rw [List.nodup_range.count]; simp [hi]
        omega
    rw [this]; omega
  obtain ⟨e1, e2⟩ := C02_roundtrip_partial hn c hfit hnd hz _ hw
  obtain ⟨r1, r2, _⟩ := C60_ihex_partial hn hn h1 (h4.mpr hz) k hw e1 h
  exact ⟨r1, fun a v hv => (e2 a v).mp (r2 a v hv)⟩

theorem C60_ihex_false : ¬ C60_ihex_full := by
  intro h
  obtain ⟨o, ho⟩ := C02_returns (n := 1) (by omega)
    ((encode .upper [⟨false, 0, 0, [7]⟩, ⟨false, 0, 16, [9]⟩]).take 1) (List.replicate 10 0)
    (by intro k hk; have : k = 0 := by omega
        subst this; decide +kernel)
  have := C60_ihex_accepted (n := 1) (by omega) .upper (bs := [⟨false, 0, 0, [7]⟩, ⟨false, 0, 16, [9]⟩])
    (by decide) (by decide) (by decide) 1 _ ho
  exact h 1 .upper _ 1 _ o (by omega) (by decide) (by decide) (by decide +kernel) ho this.1

example : (encode .upper [⟨false, 0, 0, [7]⟩, ⟨false, 0, 16, [9]⟩]).take 1 = [":0100000007F8".toList] := by
  decide +kernel

/-! ## C61: the end-of-file record -/

/-- The full property: nothing after the end-of-file record is read. -/
def C61_full : Prop :=
  ∀ (n : Nat) (sched sched' : List Nat) (c : Case) (A B : List Str) (o o' : Outcome), 0 < n →
    WellFormed A → WellFormed B →
    parseHex n sched (A ++ [eofLine c]) = some (some o) → o.err = none →
    parseHex n sched' (A ++ eofLine c :: B) = some (some o') → o'.err = none ∧ o'.map = o.map

theorem decode_eof (c : Case) : decodeLine (eofLine c) = some ⟨0, 0, 1, [], 255⟩ := by
  cases c <;> decide +kernel

theorem recs_eof (c : Case) : Spec.recs [eofLine c] = [⟨0, 0, 1, [], 255⟩] := by
  cases c <;> decide +kernel

theorem wf_eof (c : Case) : WellFormed [eofLine c] := by
  intro l hl
  have : l = eofLine c := by
    simp only [significant, List.mem_filter, List.mem_singleton] at hl
    exact hl.1
  subst this
  exact ⟨_, decode_eof c, by simp⟩

/-- The end-of-file record has no effect wherever it stands: with and without it a
well-formed file gets the same verdict and the same memory. So everything after it is
read. -/
theorem C61_ignored {n m : Nat} (hn : 0 < n) (hm : 0 < m) (c : Case) {A B : List Str}
    (hA : WellFormed A) (hB : WellFormed B) (hz : Spec.ZeroSegmentLast (Spec.recs (A ++ B)))
    {sched sched' : List Nat} {o o' : Outcome}
    (h : parseHex n sched (A ++ eofLine c :: B) = some (some o))
    (h' : parseHex m sched' (A ++ B) = some (some o')) :
    (o.err = none ↔ o'.err = none) ∧ (o.err = none → o.map = o'.map) := by
  have e : A ++ eofLine c :: B = A ++ ([eofLine c] ++ B) := rfl
  have hr : Spec.recs (A ++ eofLine c :: B) = Spec.recs A ++ (⟨0, 0, 1, [], 255⟩ :: Spec.recs B) := by
    rw [e, recs_append, recs_append, recs_eof]; rfl
  have hbytes : fileBytes (A ++ eofLine c :: B) = fileBytes (A ++ B) := by
    unfold fileBytes
    rw [hr, recs_append, bytesFrom_append, bytesFrom_append]
    simp [bytesFrom]
  have hz1 : Spec.ZeroSegmentLast (Spec.recs (A ++ eofLine c :: B)) := by
    unfold Spec.ZeroSegmentLast at hz ⊢
    rw [recs_append, dataSegs_append] at hz
    rw [hr, dataSegs_append]
    simpa [dataSegs] using hz
  have hwf : WellFormed (A ++ eofLine c :: B) := by
    rw [e, wf_append, wf_append]; exact ⟨hA, wf_eof c, hB⟩
  obtain ⟨x1, x2⟩ := C05_file_partial hn hwf hz1 h
  obtain ⟨y1, y2⟩ := C05_file_partial hm (wf_append.mpr ⟨hA, hB⟩) hz h'
  have hiff : o.err = none ↔ o'.err = none := by
    rw [x1, y1, hbytes, hr, recs_append]
    constructor
    · rintro ⟨s, d⟩
      refine ⟨fun r hr' => s r ?_, d⟩
      rcases List.mem_append.mp hr' with hr' | hr'
      · exact List.mem_append_left _ hr'
      · exact List.mem_append_right _ (List.mem_cons_of_mem _ hr')
    · rintro ⟨s, d⟩
      refine ⟨fun r hr' => ?_, d⟩
      rcases List.mem_append.mp hr' with hr' | hr'
      · exact s r (List.mem_append_left _ hr')
      · rcases List.mem_cons.mp hr' with rfl | hr'
        · decide
        · exact s r (List.mem_append_right _ hr')
  refine ⟨hiff, ?_⟩
  intro hok
  funext a
  apply Option.ext
  intro v
  rw [x2 hok, y2 (hiff.mp hok), hbytes]

theorem C61_false : ¬ C61_full := by
  intro h
  let A : List Str := [":0100000007F8".toList]
  let B : List Str := [":0100100009E6".toList]
  have hA : WellFormed A := by
    intro l hl
    have : l = ":0100000007F8".toList := by
      simp only [A, significant, List.mem_filter, List.mem_singleton] at hl; exact hl.1
    subst this
    exact ⟨⟨1, 0, 0, [7], 248⟩, by decide +kernel, by simp⟩
  have hB : WellFormed B := by
    intro l hl
    have : l = ":0100100009E6".toList := by
      simp only [B, significant, List.mem_filter, List.mem_singleton] at hl; exact hl.1
    subst this
    exact ⟨⟨1, 16, 0, [9], 230⟩, by decide +kernel, by simp⟩
  have hs : ∀ lines : List Str, lines.length ≤ 8 → ∀ k, k < 1 →
      lines.length < (List.replicate 9 0).count k := by
    intro lines hl k hk
    have : k = 0 := by omega
    subst this
    simp; omega
  obtain ⟨o, ho⟩ := C02_returns (n := 1) (by omega) (A ++ [eofLine .upper]) (List.replicate 9 0)
    (hs _ (by simp [A]))
  obtain ⟨o', ho'⟩ := C02_returns (n := 1) (by omega) (A ++ eofLine .upper :: B) (List.replicate 9 0)
    (hs _ (by simp [A, B]))
  obtain ⟨x1, x2⟩ := C05_file_partial (n := 1) (by omega) (wf_append.mpr ⟨hA, wf_eof .upper⟩)
    (by decide +kernel) ho
  obtain ⟨y1, y2⟩ := C05_file_partial (n := 1) (lines := A ++ eofLine .upper :: B) (by omega)
    (wf_append.mpr ⟨hA, (wf_append (A := [eofLine .upper])).mpr ⟨wf_eof .upper, hB⟩⟩)
    (by decide +kernel) ho'
  have e : o.err = none := x1.mpr (by decide +kernel)
  have e' : o'.err = none := y1.mpr (by decide +kernel)
  obtain ⟨_, hmap⟩ := h 1 _ _ .upper A B o o' (by omega) hA hB ho e ho'
  have hy : o'.map 16 = some 9 := (y2 e' 16 9).mpr (by decide +kernel)
  rw [hmap] at hy
  have := (x2 e 16 9).mp hy
  exact absurd this (by decide +kernel)

/-- What does hold: if no data record follows the end-of-file record, and the records that
follow have right sums, what follows does not matter.
Missing: data records after the end-of-file record; they are read. -/
theorem C61_partial {n m : Nat} (hn : 0 < n) (hm : 0 < m) (c : Case) {A B : List Str}
    (hA : WellFormed A) (hB : WellFormed B) (hz : Spec.ZeroSegmentLast (Spec.recs A))
    (hnod : ∀ r ∈ Spec.recs B, r.typ ≠ 0 ∧ r.SumOk)
    {sched sched' : List Nat} {o o' : Outcome}
    (h : parseHex n sched (A ++ eofLine c :: B) = some (some o))
    (h' : parseHex m sched' (A ++ [eofLine c]) = some (some o')) :
    (o.err = none ↔ o'.err = none) ∧ (o.err = none → o.map = o'.map) := by
  have e : A ++ eofLine c :: B = A ++ ([eofLine c] ++ B) := rfl
  have hnb : ∀ seg rs, (∀ r ∈ rs, r.typ ≠ 0) → bytesFrom seg rs = [] := by
    intro seg rs
    induction rs generalizing seg with
    | nil => intro _; rfl
    | cons r rs ih =>
      intro hh
      have h0 := hh r (by simp)
      have := fun s => ih s (fun x hx => hh x (by simp [hx]))
      by_cases h4 : r.typ = 4
      · simp [bytesFrom, h4, this]
      · simp [bytesFrom, h4, h0, this]
  have hns : ∀ seg rs, (∀ r ∈ rs, r.typ ≠ 0) → dataSegs seg rs = [] := by
    intro seg rs
    induction rs generalizing seg with
    | nil => intro _; rfl
    | cons r rs ih =>
      intro hh
      have h0 := hh r (by simp)
      have := fun s => ih s (fun x hx => hh x (by simp [hx]))
      by_cases h4 : r.typ = 4
      · simp [dataSegs, h4, this]
      · simp [dataSegs, h4, h0, this]
  have hB0 : ∀ r ∈ Spec.recs B, r.typ ≠ 0 := fun r hr => (hnod r hr).1
  have hr : Spec.recs (A ++ eofLine c :: B) = Spec.recs (A ++ [eofLine c]) ++ Spec.recs B := by
    rw [← recs_append]; simp
  have hbytes : fileBytes (A ++ eofLine c :: B) = fileBytes (A ++ [eofLine c]) := by
    unfold fileBytes
    rw [hr, bytesFrom_append, hnb _ _ hB0, List.append_nil]
  have hz0 : Spec.ZeroSegmentLast (Spec.recs (A ++ [eofLine c])) := by
    unfold Spec.ZeroSegmentLast at hz ⊢
    rw [recs_append, dataSegs_append, recs_eof]
    simpa [dataSegs] using hz
  have hz1 : Spec.ZeroSegmentLast (Spec.recs (A ++ eofLine c :: B)) := by
    unfold Spec.ZeroSegmentLast at hz0 ⊢
    rw [hr, dataSegs_append, hns _ _ hB0, List.append_nil]
    exact hz0
  have hwf0 : WellFormed (A ++ [eofLine c]) := wf_append.mpr ⟨hA, wf_eof c⟩
  have hwf : WellFormed (A ++ eofLine c :: B) := by
    rw [e, wf_append, wf_append]; exact ⟨hA, wf_eof c, hB⟩
  obtain ⟨x1, x2⟩ := C05_file_partial hn hwf hz1 h
  obtain ⟨y1, y2⟩ := C05_file_partial hm hwf0 hz0 h'
  have hiff : o.err = none ↔ o'.err = none := by
    rw [x1, y1, hbytes, hr]
    constructor
    · rintro ⟨s, d⟩
      exact ⟨fun r hr' => s r (List.mem_append_left _ hr'), d⟩
    · rintro ⟨s, d⟩
      refine ⟨fun r hr' => ?_, d⟩
      rcases List.mem_append.mp hr' with hr' | hr'
      · exact s r hr'
      · exact (hnod r hr').2
  refine ⟨hiff, ?_⟩
  intro hok
  funext a
  apply Option.ext
  intro v
  rw [x2 hok, y2 (hiff.mp hok), hbytes]

example : ∀ r ∈ Spec.recs [":00000001FF".toList], r.typ ≠ 0 ∧ r.SumOk := by decide +kernel
example : Spec.ZeroSegmentLast (Spec.recs ([":0100000007F8".toList] ++ [":0100100009E6".toList])) := by
  decide +kernel

/-! ## C62: record types -/

/-- The bytes a file defines according to the format: record type 02 selects a base of 16
times its value, type 04 one of 65536 times its value; types 03 and 05 (start addresses)
and 01 define no bytes. (Reading on after type 01 is C61.) -/
def stdBytes : (base : Nat) → List Rec → List (Nat × Nat)
  | _, [] => []
  | base, r :: rs =>
    if r.typ = 4 then stdBytes ((r.data.getD 0 0 * 256 + r.data.getD 1 0) * 65536) rs
    else if r.typ = 2 then stdBytes ((r.data.getD 0 0 * 256 + r.data.getD 1 0) * 16) rs
    else if r.typ = 0 then
      (r.data.zipIdx.map fun (b, i) => (base + (r.addr + i) % 65536, b)) ++ stdBytes base rs
    else stdBytes base rs

/-- The full property: an accepted file only has records of the six types, and its memory is
what they define. -/
def C62_ihex_full : Prop :=
  ∀ (n : Nat) (sched : List Nat) (lines : List Str) (o : Outcome), 0 < n → WellFormed lines →
    parseHex n sched lines = some (some o) → o.err = none →
    (∀ r ∈ Spec.recs lines, r.typ ≤ 5) ∧
      ∀ a v, o.map a = some v ↔ (a, v) ∈ stdBytes 0 (Spec.recs lines)

/-- What does hold: without type 02 records, an accepted file has the memory its records
define.
Missing: type 02 records are ignored, and so are the types that do not exist; C02 for
files selecting segment 0 explicitly before another segment. -/
theorem C62_ihex_partial {n : Nat} (hn : 0 < n) {lines : List Str} (hwf : WellFormed lines)
    (hz : Spec.ZeroSegmentLast (Spec.recs lines)) (h2 : ∀ r ∈ Spec.recs lines, r.typ ≠ 2)
    {sched : List Nat} {o : Outcome} (h : parseHex n sched lines = some (some o))
    (hok : o.err = none) :
    ∀ a v, o.map a = some v ↔ (a, v) ∈ stdBytes 0 (Spec.recs lines) := by
  have key : ∀ seg rs, (∀ r ∈ rs, r.typ ≠ 2) → stdBytes (seg * 65536) rs = bytesFrom seg rs := by
    intro seg rs
    induction rs generalizing seg with
    | nil => intro _; rfl
    | cons r rs ih =>
      intro hh
      have hr := hh r (by simp)
      have := fun s => ih s (fun x hx => hh x (by simp [hx]))
      by_cases h4 : r.typ = 4
      · simp only [stdBytes, bytesFrom, h4, if_true]; exact this _
      · by_cases h0 : r.typ = 0
        · simp [stdBytes, bytesFrom, h0, this]
        · simp only [stdBytes, bytesFrom, h4, hr, h0, if_false]; exact this _
  have := key 0 _ h2
  rw [Nat.zero_mul] at this
  rw [this]
  exact (C05_file_partial hn hwf hz h).2 hok

/-- Records of all types but 00 and 04 are without effect: two well-formed files that differ
only in such records (with right sums) have the same verdict and the same memory. -/
theorem C62_ihex_ignored {n m : Nat} (hn : 0 < n) (hm : 0 < m) {A B : List Str}
    (hA : WellFormed A) (hB : WellFormed B) (hz : Spec.ZeroSegmentLast (Spec.recs A))
    (hsame : (Spec.recs A).filter (fun r => r.typ = 0 ∨ r.typ = 4) =
      (Spec.recs B).filter (fun r => r.typ = 0 ∨ r.typ = 4))
    (hsA : ∀ r ∈ Spec.recs A, r.typ ≠ 0 → r.typ ≠ 4 → r.SumOk)
    (hsB : ∀ r ∈ Spec.recs B, r.typ ≠ 0 → r.typ ≠ 4 → r.SumOk)
    {sched sched' : List Nat} {o o' : Outcome}
    (h : parseHex n sched A = some (some o)) (h' : parseHex m sched' B = some (some o')) :
    (o.err = none ↔ o'.err = none) ∧ (o.err = none → o.map = o'.map) := by
  have hb : ∀ seg rs, bytesFrom seg (rs.filter (fun r => r.typ = 0 ∨ r.typ = 4)) = bytesFrom seg rs := by
    intro seg rs
    induction rs generalizing seg with
    | nil => rfl
    | cons r rs ih =>
      by_cases h4 : r.typ = 4
      · simp [bytesFrom, h4]; simpa using ih _
      · by_cases h0 : r.typ = 0
        · simp [bytesFrom, h0]; simpa using ih _
        · simp [bytesFrom, h4, h0]; simpa using ih _
  have hd : ∀ seg rs, dataSegs seg (rs.filter (fun r => r.typ = 0 ∨ r.typ = 4)) = dataSegs seg rs := by
    intro seg rs
    induction rs generalizing seg with
    | nil => rfl
    | cons r rs ih =>
      by_cases h4 : r.typ = 4
      · simp [dataSegs, h4]; simpa using ih _
      · by_cases h0 : r.typ = 0
        · simp [dataSegs, h0]; simpa using ih _
        · simp [dataSegs, h4, h0]; simpa using ih _
  have hbytes : fileBytes A = fileBytes B := by
    unfold fileBytes
    rw [← hb 0 (Spec.recs A), ← hb 0 (Spec.recs B), hsame]
  have hz' : Spec.ZeroSegmentLast (Spec.recs B) := by
    unfold Spec.ZeroSegmentLast at hz ⊢
    rw [← hd] at hz ⊢
    rw [← hsame]; exact hz
  obtain ⟨x1, x2⟩ := C05_file_partial hn hA hz h
  obtain ⟨y1, y2⟩ := C05_file_partial hm hB hz' h'
  have sums : ∀ P Q : List Rec, P.filter (fun r => r.typ = 0 ∨ r.typ = 4) =
      Q.filter (fun r => r.typ = 0 ∨ r.typ = 4) → (∀ r ∈ Q, r.typ ≠ 0 → r.typ ≠ 4 → r.SumOk) →
      (∀ r ∈ P, r.SumOk) → ∀ r ∈ Q, r.SumOk := by
    intro P Q hPQ hQ hP r hr
    by_cases h0 : r.typ = 0 ∨ r.typ = 4
    · have : r ∈ Q.filter (fun r => r.typ = 0 ∨ r.typ = 4) := by
        simp only [List.mem_filter, decide_eq_true_eq]; exact ⟨hr, h0⟩
      rw [← hPQ] at this
      exact hP r (List.mem_filter.mp this).1
    · exact hQ r hr (fun x => h0 (.inl x)) (fun x => h0 (.inr x))
  have hiff : o.err = none ↔ o'.err = none := by
    rw [x1, y1, hbytes]
    constructor
    · rintro ⟨s, d⟩; exact ⟨sums _ _ hsame hsB s, d⟩
    · rintro ⟨s, d⟩; exact ⟨sums _ _ hsame.symm hsA s, d⟩
  refine ⟨hiff, ?_⟩
  intro hok
  funext a
  apply Option.ext
  intro v
  rw [x2 hok, y2 (hiff.mp hok), hbytes]

/-- `:020000021000EC` selects base 0x10000; the byte goes to address 0 all the same. -/
def segmentFile : List Str := [":020000021000EC".toList, ":0100000007F8".toList]

theorem segmentFile_wf : WellFormed segmentFile := by
  intro l hl
  have : l = ":020000021000EC".toList ∨ l = ":0100000007F8".toList := by
    simp only [segmentFile, significant, List.mem_filter, List.mem_cons, List.not_mem_nil, or_false] at hl
    exact hl.1
  rcases this with rfl | rfl
  · exact ⟨⟨2, 0, 2, [16, 0], 236⟩, by decide +kernel, by simp⟩
  · exact ⟨⟨1, 0, 0, [7], 248⟩, by decide +kernel, by simp⟩

theorem C62_ihex_false : ¬ C62_ihex_full := by
  intro h
  obtain ⟨o, ho⟩ := C02_returns (n := 1) (by omega) segmentFile (List.replicate 9 0)
    (by intro k hk
        have : k = 0 := by omega
        subst this; decide)
  obtain ⟨x1, x2⟩ := C05_file_partial (n := 1) (by omega) segmentFile_wf (by decide +kernel) ho
  have hok : o.err = none := x1.mpr (by decide +kernel)
  have h1 := (h 1 _ _ o (by omega) segmentFile_wf ho hok).2 0 7
  have h2 : o.map 0 = some 7 := (x2 hok 0 7).mpr (by decide +kernel)
  exact absurd (h1.mp h2) (by decide +kernel)

example : stdBytes 0 (Spec.recs segmentFile) = [(65536, 7)] ∧ fileBytes segmentFile = [(0, 7)] := by
  decide +kernel
example : (Spec.recs segmentFile).filter (fun r => r.typ = 0 ∨ r.typ = 4) =
    (Spec.recs [":0100000007F8".toList]).filter (fun r => r.typ = 0 ∨ r.typ = 4) := by decide +kernel

/-! ## C63: the order of data records within a segment -/

/-- Permuting consecutive data records changes neither the verdict nor the memory, on any
number of CPUs and in any schedule. -/
theorem C63_ihex_order_partial {n m : Nat} (hn : 0 < n) (hm : 0 < m) {A P Q B : List Str}
    (hwf : WellFormed (A ++ P ++ B)) (hz : Spec.ZeroSegmentLast (Spec.recs (A ++ P ++ B)))
    (hdata : ∀ r ∈ Spec.recs P, r.typ = 0) (hp : P.Perm Q)
    {sched sched' : List Nat} {o o' : Outcome}
    (h : parseHex n sched (A ++ P ++ B) = some (some o))
    (h' : parseHex m sched' (A ++ Q ++ B) = some (some o')) :
    (o.err = none ↔ o'.err = none) ∧ (o.err = none → o.map = o'.map) := by
  have hrp : (Spec.recs P).Perm (Spec.recs Q) := (hp.filter _).filterMap _
  have hdQ : ∀ r ∈ Spec.recs Q, r.typ = 0 := fun r hr => hdata r (hrp.mem_iff.mpr hr)
  have hseg : ∀ seg rs, (∀ r ∈ rs, r.typ = 0) → segAfter seg rs = seg := by
    intro seg rs
    induction rs with
    | nil => intro _; rfl
    | cons r rs ih =>
      intro hh
      simp only [segAfter, hh r (by simp)]
      exact ih (fun x hx => hh x (by simp [hx]))
  have hseg' : ∀ seg rs, (∀ r ∈ rs, r.typ = 0) → segAfter' seg rs = seg := by
    intro seg rs
    induction rs with
    | nil => intro _; rfl
    | cons r rs ih =>
      intro hh
      simp only [segAfter', hh r (by simp)]
      exact ih (fun x hx => hh x (by simp [hx]))
  have hbp : ∀ seg rs, (∀ r ∈ rs, r.typ = 0) → bytesFrom seg rs =
      (rs.map fun r => r.data.zipIdx.map fun (b, i) => (seg * 65536 + (r.addr + i) % 65536, b)).flatten := by
    intro seg rs
    induction rs with
    | nil => intro _; rfl
    | cons r rs ih =>
      intro hh
      simp only [bytesFrom, hh r (by simp), List.map_cons, List.flatten_cons]
      rw [ih (fun x hx => hh x (by simp [hx]))]
      simp
  have hdp : ∀ seg rs, (∀ r ∈ rs, r.typ = 0) → dataSegs seg rs = rs.map fun _ => seg := by
    intro seg rs
    induction rs with
    | nil => intro _; rfl
    | cons r rs ih =>
      intro hh
      simp only [dataSegs, hh r (by simp), List.map_cons]
      rw [ih (fun x hx => hh x (by simp [hx]))]
      simp
  have hbytes : (fileBytes (A ++ P ++ B)).Perm (fileBytes (A ++ Q ++ B)) := by
    unfold fileBytes
    simp only [recs_append, List.append_assoc, bytesFrom_append, hseg _ _ hdata, hseg _ _ hdQ]
    refine List.Perm.append_left _ (List.Perm.append_right _ ?_)
    rw [hbp _ _ hdata, hbp _ _ hdQ]
    exact (hrp.map _).flatten
  have hz' : Spec.ZeroSegmentLast (Spec.recs (A ++ Q ++ B)) := by
    unfold Spec.ZeroSegmentLast at hz ⊢
    simp only [recs_append, List.append_assoc, dataSegs_append, hseg' _ _ hdata, hseg' _ _ hdQ,
      hdp _ _ hdata, hdp _ _ hdQ] at hz ⊢
    have : (Spec.recs Q).map (fun _ => segAfter' none (Spec.recs A)) =
        (Spec.recs P).map (fun _ => segAfter' none (Spec.recs A)) := by
      rw [List.map_const', List.map_const', hrp.length_eq]
    rw [this]; exact hz
  have hwf' : WellFormed (A ++ Q ++ B) := by
    rw [wf_append, wf_append] at hwf ⊢
    refine ⟨⟨hwf.1.1, ?_⟩, hwf.2⟩
    intro l hl
    refine hwf.1.2 l ?_
    simp only [significant, List.mem_filter] at hl ⊢
    exact ⟨hp.mem_iff.mpr hl.1, hl.2⟩
  obtain ⟨x1, x2⟩ := C05_file_partial hn hwf hz h
  obtain ⟨y1, y2⟩ := C05_file_partial hm hwf' hz' h'
  have hmem : ∀ r, r ∈ Spec.recs (A ++ P ++ B) ↔ r ∈ Spec.recs (A ++ Q ++ B) := by
    intro r
    simp only [recs_append, List.mem_append, hrp.mem_iff]
  have hiff : o.err = none ↔ o'.err = none := by
    rw [x1, y1, (hbytes.map Prod.fst).nodup_iff]
    simp only [hmem]
  refine ⟨hiff, ?_⟩
  intro hok
  funext a
  apply Option.ext
  intro v
  rw [x2 hok, y2 (hiff.mp hok), hbytes.mem_iff]

example : (∀ r ∈ Spec.recs [":0100000007F8".toList, ":0100100009E6".toList], r.typ = 0) ∧
    [":0100000007F8".toList, ":0100100009E6".toList].Perm [":0100100009E6".toList, ":0100000007F8".toList] :=
  ⟨by decide +kernel, List.Perm.swap _ _ _⟩

/-- The full property for joined files: written one after the other, two files define the
union of what they define. -/
def C63_ihex_join_full : Prop :=
  ∀ (n : Nat) (s1 s2 s3 : List Nat) (A B : List Str) (o oA oB : Outcome), 0 < n →
    WellFormed A → WellFormed B →
    parseHex n s1 (A ++ B) = some (some o) → parseHex n s2 A = some (some oA) →
    parseHex n s3 B = some (some oB) → oA.err = none → oB.err = none → o.err = none →
    ∀ a v, o.map a = some v ↔ oA.map a = some v ∨ oB.map a = some v

/-- What does hold: two files can be joined if the first does not select a segment or the
second begins with selecting one. The result is accepted exactly if both are and they
define no common address; the memory is then the union.
Missing: a second file that relies on starting in segment 0. -/
theorem C63_ihex_join_partial {n m k : Nat} (hn : 0 < n) (hm : 0 < m) (hk : 0 < k) {A B : List Str}
    (hA : WellFormed A) (hB : WellFormed B)
    (hseg : (∀ r ∈ Spec.recs A, r.typ ≠ 4) ∨ ∃ r, (Spec.recs B).head? = some r ∧ r.typ = 4)
    (hz : Spec.ZeroSegmentLast (Spec.recs (A ++ B)))
    {s1 s2 s3 : List Nat} {o oA oB : Outcome}
    (h : parseHex n s1 (A ++ B) = some (some o)) (h1 : parseHex m s2 A = some (some oA))
    (h2 : parseHex k s3 B = some (some oB)) :
    (o.err = none ↔ oA.err = none ∧ oB.err = none ∧ ∀ a, oA.map a = none ∨ oB.map a = none) ∧
      (o.err = none → ∀ a v, o.map a = some v ↔ oA.map a = some v ∨ oB.map a = some v) := by
  have seg0 : ∀ (seg : Nat) (rs : List Rec), (∀ r ∈ rs, r.typ ≠ 4) → segAfter seg rs = seg := by
    intro seg rs
    induction rs with
    | nil => intro _; rfl
    | cons r rs ih =>
      intro hh
      simp only [segAfter, hh r (by simp), if_false]
      exact ih (fun x hx => hh x (by simp [hx]))
  have seg0' : ∀ (seg : Option Nat) (rs : List Rec), (∀ r ∈ rs, r.typ ≠ 4) → segAfter' seg rs = seg := by
    intro seg rs
    induction rs with
    | nil => intro _; rfl
    | cons r rs ih =>
      intro hh
      simp only [segAfter', hh r (by simp), if_false]
      exact ih (fun x hx => hh x (by simp [hx]))
  have hbytes : fileBytes (A ++ B) = fileBytes A ++ fileBytes B := by
    unfold fileBytes
    rw [recs_append, bytesFrom_append]
    congr 1
    rcases hseg with hs | ⟨r, hr, h4⟩
    · rw [seg0 _ _ hs]
    · cases hB' : Spec.recs B with
      | nil => rfl
      | cons x xs =>
        rw [hB'] at hr
        obtain rfl : x = r := by simpa using hr
        simp [bytesFrom, h4]
  have hsegs : dataSegs none (Spec.recs (A ++ B)) =
      dataSegs none (Spec.recs A) ++ dataSegs none (Spec.recs B) := by
    rw [recs_append, dataSegs_append]
    congr 1
    rcases hseg with hs | ⟨r, hr, h4⟩
    · rw [seg0' _ _ hs]
    · cases hB' : Spec.recs B with
      | nil => rfl
      | cons x xs =>
        rw [hB'] at hr
        obtain rfl : x = r := by simpa using hr
        simp [dataSegs, h4]
  have hz2 := hz
  unfold Spec.ZeroSegmentLast at hz2
  rw [hsegs, List.pairwise_append] at hz2
  obtain ⟨a1, a2⟩ := C05_file_partial hm hA hz2.1 h1
  obtain ⟨b1, b2⟩ := C05_file_partial hk hB hz2.2.1 h2
  obtain ⟨x1, x2⟩ := C05_file_partial hn (wf_append.mpr ⟨hA, hB⟩) hz h
  have dom : ∀ {w : Outcome} {F : List Str}, (∀ a v, w.map a = some v ↔ (a, v) ∈ fileBytes F) →
      ∀ a, a ∈ (fileBytes F).map Prod.fst ↔ w.map a ≠ none := by
    intro w F hw a
    constructor
    · intro hx
      obtain ⟨⟨x, v⟩, hd, rfl⟩ := List.mem_map.mp hx
      rw [(hw x v).mpr hd]; simp
    · intro hx
      cases hv : w.map a with
      | none => exact absurd hv hx
      | some v => exact List.mem_map.mpr ⟨(a, v), (hw a v).mp hv, rfl⟩
  have hiff : o.err = none ↔ oA.err = none ∧ oB.err = none ∧
      ∀ a, oA.map a = none ∨ oB.map a = none := by
    rw [x1, hbytes, List.map_append, List.nodup_append, recs_append]
    constructor
    · rintro ⟨s, nA, nB, d⟩
      have eA : oA.err = none := a1.mpr ⟨fun l hl => s l (List.mem_append_left _ hl), nA⟩
      have eB : oB.err = none := b1.mpr ⟨fun l hl => s l (List.mem_append_right _ hl), nB⟩
      refine ⟨eA, eB, ?_⟩
      intro a
      by_cases ha : oA.map a = none
      · exact .inl ha
      · right
        apply Classical.byContradiction
        intro hb
        exact d a ((dom (a2 eA) a).mpr ha) a ((dom (b2 eB) a).mpr hb) rfl
    · rintro ⟨eA, eB, d⟩
      obtain ⟨sA, nA⟩ := a1.mp eA
      obtain ⟨sB, nB⟩ := b1.mp eB
      refine ⟨?_, nA, nB, ?_⟩
      · intro l hl
        rcases List.mem_append.mp hl with hl | hl
        · exact sA l hl
        · exact sB l hl
      · rintro a ha b hb rfl
        rcases d a with h | h
        · exact (dom (a2 eA) a).mp ha h
        · exact (dom (b2 eB) a).mp hb h
  refine ⟨hiff, ?_⟩
  intro hok a v
  obtain ⟨eA, eB, _⟩ := hiff.mp hok
  rw [x2 hok, a2 eA, b2 eB, hbytes, List.mem_append]

/-- First file: one byte in segment 1. Second file: one byte in segment 0. -/
def joinA : List Str := [":020000040001F9".toList, ":0100000007F8".toList]
def joinB : List Str := [":0100100009E6".toList]

theorem joinA_wf : WellFormed joinA := by
  intro l hl
  have : l = ":020000040001F9".toList ∨ l = ":0100000007F8".toList := by
    simp only [joinA, significant, List.mem_filter, List.mem_cons, List.not_mem_nil, or_false] at hl
    exact hl.1
  rcases this with rfl | rfl
  · exact ⟨⟨2, 0, 4, [0, 1], 249⟩, by decide +kernel, by simp⟩
  · exact ⟨⟨1, 0, 0, [7], 248⟩, by decide +kernel, by simp⟩

theorem joinB_wf : WellFormed joinB := by
  intro l hl
  have : l = ":0100100009E6".toList := by
    simp only [joinB, significant, List.mem_filter, List.mem_singleton] at hl; exact hl.1
  subst this
  exact ⟨⟨1, 16, 0, [9], 230⟩, by decide +kernel, by simp⟩

theorem C63_ihex_join_false : ¬ C63_ihex_join_full := by
  intro h
  have hs : ∀ lines : List Str, lines.length ≤ 8 → ∀ k, k < 1 →
      lines.length < (List.replicate 9 0).count k := by
    intro lines hl k hk
    have : k = 0 := by omega
    subst this
    simp; omega
  obtain ⟨o, ho⟩ := C02_returns (n := 1) (by omega) (joinA ++ joinB) _ (hs _ (by decide))
  obtain ⟨oA, hoA⟩ := C02_returns (n := 1) (by omega) joinA _ (hs _ (by decide))
  obtain ⟨oB, hoB⟩ := C02_returns (n := 1) (by omega) joinB _ (hs _ (by decide))
  obtain ⟨x1, x2⟩ := C05_file_partial (n := 1) (by omega) (wf_append.mpr ⟨joinA_wf, joinB_wf⟩)
    (by decide +kernel) ho
  obtain ⟨a1, a2⟩ := C05_file_partial (n := 1) (by omega) joinA_wf (by decide +kernel) hoA
  obtain ⟨b1, b2⟩ := C05_file_partial (n := 1) (by omega) joinB_wf (by decide +kernel) hoB
  have e : o.err = none := x1.mpr (by decide +kernel)
  have eA : oA.err = none := a1.mpr (by decide +kernel)
  have eB : oB.err = none := b1.mpr (by decide +kernel)
  have hx := (h 1 _ _ _ _ _ o oA oB (by omega) joinA_wf joinB_wf ho hoA hoB eA eB e 16 9).mpr
    (.inr ((b2 eB 16 9).mpr (by decide +kernel)))
  exact absurd ((x2 e 16 9).mp hx) (by decide +kernel)

example : fileBytes (joinA ++ joinB) = [(65536, 7), (65552, 9)] ∧ fileBytes joinB = [(16, 9)] := by
  decide +kernel
example : (∀ r ∈ Spec.recs joinB, r.typ ≠ 4) ∧ (Spec.recs joinA).head?.map (·.typ) = some 4 ∧
    Spec.ZeroSegmentLast (Spec.recs (joinB ++ joinA)) := by decide +kernel

end Verif.Ihex
