import Verif.Ihex.ExactProps

/-!
Properties C02 and C05: exactly which files are read rightly. `storedFile` (C05) says what is stored for every well-formed file; here
it is compared with what the file means.
-/

namespace Verif.Ihex
open Verif.Go Spec
open Verif.Hex.Spec (Case)

namespace Iff

/-- The bytes of a line in a segment. -/
def lineBytes (seg : Nat) (r : Rec) : List (Nat × Nat) :=
  if r.typ = 0 then r.data.zipIdx.map fun (b, j) => (seg * 65536 + (r.addr + j) % 65536, b) else []

theorem selected_snoc (pre : List Rec) (r : Rec) (suf : List Rec) :
    selected (pre ++ r :: suf) 0 (pre ++ [r]).length =
      if r.typ = 4 then some r.upper else selected (pre ++ r :: suf) 0 pre.length := by
  have h1 : (pre ++ r :: suf).take (pre ++ [r]).length = pre ++ [r] := by
    rw [show pre ++ r :: suf = (pre ++ [r]) ++ suf by simp, List.take_left]
  have h2 : (pre ++ r :: suf).take pre.length = pre := List.take_left
  unfold selected
  rw [h1, h2]
  simp only [List.drop_zero, List.filter_append]
  by_cases h : r.typ = 4
  · simp [h]
  · simp [h]

theorem bytesFrom_idx (pre suf : List Rec) :
    bytesFrom ((selected (pre ++ suf) 0 pre.length).getD 0) suf =
      (suf.zipIdx pre.length).flatMap fun p => lineBytes ((selected (pre ++ suf) 0 p.2).getD 0) p.1 := by
  induction suf generalizing pre with
  | nil => rfl
  | cons r suf ih =>
    have h := ih (pre ++ [r])
    rw [show (pre ++ [r]) ++ suf = pre ++ r :: suf by simp, selected_snoc] at h
    have hl : (pre ++ [r]).length = pre.length + 1 := by simp
    rw [hl] at h
    rw [List.zipIdx_cons, List.flatMap_cons, ← h]
    simp only [bytesFrom, lineBytes]
    by_cases h4 : r.typ = 4
    · simp [h4, Rec.upper]
    · rw [if_neg h4, if_neg h4]
      by_cases h0 : r.typ = 0
      · rw [if_pos h0, if_pos h0]
      · rw [if_neg h0, if_neg h0, List.nil_append]

theorem file_idx (lines : List Str) :
    fileBytes lines = (recs lines).zipIdx.flatMap fun p => lineBytes ((selected (recs lines) 0 p.2).getD 0) p.1 :=
  bytesFrom_idx [] (recs lines)

theorem stored_idx (starts : List Nat) (rs : List Rec) :
    storedBytes starts rs = rs.zipIdx.flatMap fun p => lineBytes (storedSeg starts rs p.2) p.1 := rfl

theorem mem_idx {rs : List Rec} {seg : Nat → Nat} {p : Nat × Nat} :
    p ∈ (rs.zipIdx.flatMap fun q => lineBytes (seg q.2) q.1) ↔ ∃ i r, rs[i]? = some r ∧ p ∈ lineBytes (seg i) r := by
  rw [List.mem_flatMap]
  constructor
  · rintro ⟨⟨r, i⟩, h1, h2⟩
    exact ⟨i, r, List.mem_zipIdx_iff_getElem?.1 h1, h2⟩
  · rintro ⟨i, r, h1, h2⟩
    exact ⟨(r, i), List.mem_zipIdx_iff_getElem?.2 h1, h2⟩

theorem line_seg {seg : Nat} {r : Rec} {p : Nat × Nat} (h : p ∈ lineBytes seg r) : p.1 / 65536 = seg := by
  unfold lineBytes at h
  split at h
  · obtain ⟨⟨b, j⟩, _, rfl⟩ := List.mem_map.1 h
    show (seg * 65536 + (r.addr + j) % 65536) / 65536 = seg
    omega
  · cases h

/-- Different lines of a file without an address given twice have no address in common. -/
theorem apart {rs : List Rec} {seg : Nat → Nat} (h : ((rs.zipIdx.flatMap fun q => lineBytes (seg q.2) q.1).map Prod.fst).Nodup) {i j : Nat} {r r' : Rec}
    (hi : rs[i]? = some r) (hj : rs[j]? = some r') {p p' : Nat × Nat} (hp : p ∈ lineBytes (seg i) r) (hp' : p' ∈ lineBytes (seg j) r') (ha : p.1 = p'.1) :
    i = j := by
  have key : ∀ {i j : Nat} {r r' : Rec}, rs[i]? = some r → rs[j]? = some r' → ∀ {p p' : Nat × Nat}, p ∈ lineBytes (seg i) r → p' ∈ lineBytes (seg j) r' →
      p.1 = p'.1 → ¬ i < j := by
    intro i j r r' hi hj p p' hp hp' ha hij
    unfold List.Nodup at h
    rw [List.pairwise_map, List.pairwise_flatMap] at h
    obtain ⟨li, gi⟩ := List.getElem?_eq_some_iff.1 hi
    obtain ⟨lj, gj⟩ := List.getElem?_eq_some_iff.1 hj
    have := List.pairwise_iff_getElem.1 h.2 i j (by simpa using li) (by simpa using lj) hij p (by simpa [gi] using hp) p' (by simpa [gj] using hp')
    exact this ha
  rcases Nat.lt_trichotomy i j with h1 | h1 | h1
  · exact absurd h1 (key hi hj hp hp' ha)
  · exact h1
  · exact absurd h1 (key hj hi hp' hp ha.symm)

end Iff
open Iff

/-- Line `i` is stored where it belongs: it belongs in segment 0, or a worker arrives at it with its segment. -/
def StoredRight (starts : List Nat) (rs : List Rec) (i : Nat) : Prop :=
  (selected rs 0 i).getD 0 = 0 ∨ ∃ a ∈ starts, Arrives rs a i

instance (starts : List Nat) (rs : List Rec) (i : Nat) : Decidable (StoredRight starts rs i) := by unfold StoredRight; infer_instance

/-- **C05 and C02, the exact criterion.** A well-formed file with right sums and every address once is read rightly, on `n` CPUs and in
whatever order its workers run, just if every line with data is stored where it belongs. -/
theorem C05_iff {n : Nat} (hn : 0 < n) {lines : List Str} (hwf : WellFormed lines) (hs : ∀ r ∈ recs lines, r.SumOk)
    (hnd : ((fileBytes lines).map Prod.fst).Nodup) {sched : List Nat} {o : Outcome} (h : parseHex n sched lines = some (some o)) :
    (o.err = none ∧ ∀ a v, o.map a = some v ↔ (a, v) ∈ fileBytes lines) ↔
      ∀ i r, (recs lines)[i]? = some r → r.typ = 0 → r.data ≠ [] → StoredRight (startsOf n (recs lines).length) (recs lines) i := by
  obtain ⟨h1, h2⟩ := C05_exact hn hwf h
  generalize hrs : recs lines = rs at *
  generalize hst : startsOf n rs.length = starts at *
  have hfile : fileBytes lines = rs.zipIdx.flatMap fun p => lineBytes ((selected rs 0 p.2).getD 0) p.1 := hrs ▸ file_idx lines
  have hstored : storedFile n lines = rs.zipIdx.flatMap fun p => lineBytes (storedSeg starts rs p.2) p.1 := by
    unfold storedFile
    rw [hrs, hst]
    rfl
  have hseg : ∀ i, storedSeg starts rs i ≠ 0 → storedSeg starts rs i = (selected rs 0 i).getD 0 := by
    intro i hi
    unfold storedSeg at hi ⊢
    split
    · rfl
    · next hc => rw [if_neg hc] at hi; exact absurd rfl hi
  constructor
  · rintro ⟨he, hmap⟩ i r hi h0 hd
    by_cases hz : (selected rs 0 i).getD 0 = 0
    · exact Or.inl hz
    by_cases ha : ∃ a ∈ starts, Arrives rs a i
    · exact Or.inr ha
    exfalso
    have hsi : storedSeg starts rs i = 0 := by unfold storedSeg; rw [if_neg ha]
    obtain ⟨b, hb⟩ := List.exists_mem_of_ne_nil _ hd
    obtain ⟨k, hk⟩ := List.getElem?_of_mem hb
    have hp : ((selected rs 0 i).getD 0 * 65536 + (r.addr + k) % 65536, b) ∈ lineBytes ((selected rs 0 i).getD 0) r := by
      unfold lineBytes
      rw [if_pos h0]
      exact List.mem_map.2 ⟨(b, k), List.mem_zipIdx_iff_getElem?.2 hk, rfl⟩
    have hf : ((selected rs 0 i).getD 0 * 65536 + (r.addr + k) % 65536, b) ∈ fileBytes lines := by
      rw [hfile]
      exact (mem_idx (seg := fun i => (selected rs 0 i).getD 0)).2 ⟨i, r, hi, hp⟩
    have hin := (h2 he _ _).1 ((hmap _ _).2 hf)
    rw [hstored] at hin
    obtain ⟨j, r', hj, hp'⟩ := (mem_idx (seg := storedSeg starts rs)).1 hin
    have hjs : storedSeg starts rs j = (selected rs 0 i).getD 0 := (line_seg hp').symm.trans (line_seg hp)
    rw [hseg j (fun hc => hz (hjs.symm.trans hc))] at hp'
    rw [hfile] at hnd
    have : i = j := apart (seg := fun i => (selected rs 0 i).getD 0) hnd hi hj hp hp' rfl
    subst this
    exact hz (hjs.symm.trans hsi)
  · intro hall
    have heq : storedFile n lines = fileBytes lines := by
      rw [hfile, hstored, List.flatMap_def, List.flatMap_def]
      refine congrArg List.flatten (List.map_congr_left ?_)
      rintro ⟨r, i⟩ hri
      have hi := List.mem_zipIdx_iff_getElem?.1 hri
      show lineBytes (storedSeg starts rs i) r = lineBytes ((selected rs 0 i).getD 0) r
      by_cases h0 : r.typ = 0
      · by_cases hd : r.data = []
        · simp [lineBytes, hd]
        · rcases hall i r hi h0 hd with hz | ha
          · have : storedSeg starts rs i = 0 := by
              unfold storedSeg
              split
              · exact hz
              · rfl
            rw [this, hz]
          · unfold storedSeg; rw [if_pos ha]
      · simp [lineBytes, h0]
    rw [heq] at h1 h2
    have he := h1.2 ⟨hs, hnd⟩
    exact ⟨he, h2 he⟩

/-- **C02 exactly:** which encoded images are read back. -/
theorem C02_iff {n : Nat} (hn : 0 < n) (c : Case) {bs : List Block} (hfit : ∀ b ∈ bs, b.Fits) (hnd : ((imageBytes bs).map Prod.fst).Nodup)
    {sched : List Nat} {o : Outcome} (h : parseHex n sched (encode c bs) = some (some o)) :
    (o.err = none ∧ ∀ a v, o.map a = some v ↔ (a, v) ∈ imageBytes bs) ↔
      ∀ i r, (recs (encode c bs))[i]? = some r → r.typ = 0 → r.data ≠ [] →
        StoredRight (startsOf n (recs (encode c bs)).length) (recs (encode c bs)) i := by
  obtain ⟨h1, h2, h3, _⟩ := encode_meaning c hfit
  have := C05_iff hn h1 h2 (by rw [h3]; exact hnd) h
  rwa [h3] at this

theorem zero_starts {n : Nat} (hn : 0 < n) (len : Nat) : 0 ∈ startsOf n len :=
  List.mem_map.2 ⟨0, List.mem_range.2 hn, Nat.mul_zero _⟩

/-- One CPU is the worst: a file that one CPU reads rightly is read rightly by any number of CPUs. -/
theorem C05_one_cpu {n : Nat} (hn : 0 < n) {lines : List Str} (hwf : WellFormed lines) (hs : ∀ r ∈ recs lines, r.SumOk)
    (hnd : ((fileBytes lines).map Prod.fst).Nodup) {sched sched' : List Nat} {o o' : Outcome} (h : parseHex 1 sched lines = some (some o))
    (h' : parseHex n sched' lines = some (some o')) (hr : o.err = none ∧ ∀ a v, o.map a = some v ↔ (a, v) ∈ fileBytes lines) :
    o'.err = none ∧ ∀ a v, o'.map a = some v ↔ (a, v) ∈ fileBytes lines := by
  have h1 := (C05_iff Nat.one_pos hwf hs hnd h).1 hr
  refine (C05_iff hn hwf hs hnd h').2 fun i r hi h0 hd => ?_
  rcases h1 i r hi h0 hd with hz | ⟨a, ha, hA⟩
  · exact Or.inl hz
  · have : a = 0 := by
      obtain ⟨k, hk, rfl⟩ := List.mem_map.1 ha
      have : k = 0 := by have := List.mem_range.1 hk; omega
      rw [this, Nat.mul_zero]
    exact Or.inr ⟨a, this ▸ zero_starts hn _, hA⟩

/-- **C05 and C02, for all numbers of CPUs:** every run on every number of CPUs reads the file rightly just if no data in segment 0, when
segment 0 was selected by a line of the file, stands before data in another segment. -/
theorem C05_every_cpu {lines : List Str} (hwf : WellFormed lines) (hs : ∀ r ∈ recs lines, r.SumOk)
    (hnd : ((fileBytes lines).map Prod.fst).Nodup) :
    (∀ n sched o, 0 < n → parseHex n sched lines = some (some o) → o.err = none ∧ ∀ a v, o.map a = some v ↔ (a, v) ∈ fileBytes lines) ↔
      ∀ b i rb ri, b < i → (recs lines)[b]? = some rb → (recs lines)[i]? = some ri → rb.typ = 0 → ri.typ = 0 → ri.data ≠ [] →
        selected (recs lines) 0 b = some 0 → selected (recs lines) 0 i = some 0 := by
  have mono : ∀ {rs : List Rec} {b i : Nat} {x : Nat}, b ≤ i → selected rs 0 b = some x → ∃ y, selected rs 0 i = some y := by
    intro rs b i x hbi hx
    unfold selected at hx ⊢
    have : rs.take i = rs.take b ++ (rs.drop b).take (i - b) := by
      have := (List.take_append_drop b (rs.take i)).symm
      rwa [List.take_take, Nat.min_eq_left hbi, List.drop_take] at this
    rw [List.drop_zero] at hx ⊢
    rw [this, List.filter_append, List.getLast?_append]
    obtain ⟨y, hy, _⟩ := Option.map_eq_some_iff.1 hx
    rw [hy]
    cases (List.filter (fun r : Rec => decide (r.typ = 4)) ((rs.drop b).take (i - b))).getLast? with
    | none => exact ⟨_, rfl⟩
    | some z => exact ⟨_, rfl⟩
  constructor
  · intro hall b i rb ri hbi hb hi htb hti hd hsel
    obtain ⟨o, ho⟩ := C02_returns (n := 1) Nat.one_pos lines (List.replicate (lines.length + 1) 0) (by
      intro k hk
      have : k = 0 := by omega
      subst this
      rw [List.count_replicate_self]
      omega)
    obtain ⟨y, hy⟩ := mono (Nat.le_of_lt hbi) hsel
    rcases (C05_iff Nat.one_pos hwf hs hnd ho).1 (hall 1 _ o Nat.one_pos ho) i ri hi hti hd with hz | ⟨a, ha, hA⟩
    · rw [hy] at hz ⊢
      exact congrArg some hz
    · have : a = 0 := by
        obtain ⟨k, hk, rfl⟩ := List.mem_map.1 ha
        have : k = 0 := by have := List.mem_range.1 hk; omega
        rw [this, Nat.mul_zero]
      subst this
      exact absurd hsel (hA.2 b hbi (by rw [hb]; exact congrArg some htb))
  · intro hall n sched o hn ho
    refine (C05_iff hn hwf hs hnd ho).2 fun i r hi h0 hd => ?_
    cases hsel : selected (recs lines) 0 i with
    | none => exact Or.inl (by rw [hsel]; rfl)
    | some s =>
      by_cases hz : s = 0
      · exact Or.inl (by rw [hsel]; exact hz)
      · refine Or.inr ⟨0, zero_starts hn _, by rw [hsel]; rfl, fun b hb hdb hc => ?_⟩
        cases hrb : (recs lines)[b]? with
        | none => rw [hrb] at hdb; cases hdb
        | some rb =>
          rw [hrb] at hdb
          have := hall b i rb r hb hrb hi (Option.some.inj hdb) h0 hd hc
          rw [hsel] at this
          exact hz (Option.some.inj this)

-- the image of `C02_false` on one CPU: line 3 is not stored where it belongs; with the blocks in the other order all is right
example : ¬ StoredRight (startsOf 1 5) (recs (encode .upper [⟨true, 0, 0, [7]⟩, ⟨false, 1, 1, [9]⟩])) 3 := by decide +kernel
example : ∀ i, i < 5 → StoredRight (startsOf 1 5) (recs (encode .upper [⟨true, 1, 1, [9]⟩, ⟨false, 0, 0, [7]⟩])) i := by decide +kernel
-- two CPUs read the first image rightly: the second starts after the data of segment 0
example : ∀ i, i < 5 → StoredRight (startsOf 2 5) (recs (encode .upper [⟨true, 0, 0, [7]⟩, ⟨false, 1, 1, [9]⟩])) i := by decide +kernel

/-! ## C04 -/

/-- A list in which an element is replaced by one that does not pass the test: what passes is a part of what passed before. -/
theorem takeWhile_set {α : Type} {p : α → Bool} {x : α} (hx : p x = false) (l : List α) (k : Nat) (hk : k < l.length) :
    (l.set k x).takeWhile p <+: l.takeWhile p := by
  induction l generalizing k with
  | nil => exact absurd hk (by simp)
  | cons y l ih =>
    cases k with
    | zero => simp [hx]
    | succ k =>
      rw [List.set_cons_succ, List.takeWhile_cons, List.takeWhile_cons]
      cases p y with
      | false => exact List.prefix_rfl
      | true => exact (List.prefix_cons_inj y).2 (ih k (by simpa using hk))

theorem workerLines_set (n : Nat) (lines : List Str) (j : Nat) (x : Str) (i : Nat) :
    workerLines n (lines.set j x) i = workerLines n lines i ∨
      ∃ k, k < (workerLines n lines i).length ∧ workerLines n (lines.set j x) i = (workerLines n lines i).set k x := by
  have gen : ∀ (l : List Str) (k : Nat), l.set k x = l ∨ ∃ k', k' < l.length ∧ l.set k x = l.set k' x := by
    intro l k
    by_cases h : k < l.length
    · exact Or.inr ⟨k, h, rfl⟩
    · exact Or.inl (List.set_eq_of_length_le (by omega))
  unfold workerLines
  rw [List.length_set, List.drop_set]
  split
  · split
    · exact Or.inl rfl
    · exact gen _ _
  · split
    · exact Or.inl rfl
    · rw [List.take_set]
      exact gen _ _

/-- An unreadable line in place of another takes lines away and adds none. -/
theorem recognised_set {n : Nat} {lines : List Str} {j : Nat} {x : Str} (hx : Malformed x) {l : Str} (h : l ∈ recognised n (lines.set j x)) :
    l ∈ recognised n lines := by
  unfold recognised at h ⊢
  obtain ⟨i, hi, h⟩ := List.mem_flatMap.1 h
  refine List.mem_flatMap.2 ⟨i, hi, ?_⟩
  rcases workerLines_set n lines j x i with he | ⟨k, hk, he⟩
  · rwa [he] at h
  · rw [he] at h
    unfold significant at h ⊢
    rw [List.mem_filter] at h ⊢
    exact ⟨(takeWhile_set (by simpa using hx) _ k hk).subset h.1, h.2⟩

/-- **C04 exactly:** a byte pair of a line that is reached is changed to another value in a file that was read without an error. The
change is reported as a wrong checksum just if the changed line can still be read. -/
theorem C04_iff {n : Nat} (hn : 0 < n) {lines : List Str} {j : Nat} {ps : List Str} {k : Nat} {p : Str} {sched sched' : List Nat} {o o' : Outcome}
    (h : parseHex n sched lines = some (some o)) (hok : o.err = none)
    (hj : lines[j]? = some (':' :: ps.flatten)) (hps : ∀ q ∈ ps, q.length = 2) (h5 : 5 ≤ ps.length)
    (hk : k < ps.length) (hp : p.length = 2) (hne : Hex.Spec.specByte p ≠ Hex.Spec.specByte (ps.getD k [])) (hr : Reached n lines j)
    (h' : parseHex n sched' (lines.set j (':' :: (ps.set k p).flatten)) = some (some o')) :
    o'.err = some .invalidChecksums ↔ ¬ Malformed (':' :: (ps.set k p).flatten) := by
  refine ⟨fun he hm => ?_, fun hnm => C04_corruption_partial hn h hok hj hps h5 hk hp hne hr hnm h'⟩
  obtain ⟨l, hl, hc⟩ := (C03_checksum hn _ _ h').1 he
  exact hc (C03_success hn _ _ h hok l (recognised_set hm hl))

-- the end-of-file line with its type changed to 04 is unreadable, and so goes unnoticed; with its type changed to 02 it is noticed
example : Malformed ":00000004FF".toList ∧ ¬ Malformed ":00000002FF".toList := by decide +kernel

end Verif.Ihex
