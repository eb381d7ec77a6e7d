import Verif.Srec.Props

/-!
Properties C60 (truncated files), C62 (record types) and C63 (order of records, joining
files) of the S19 parser.
-/

namespace Verif.Srec

open Verif.Go Verif.Hex Verif.Hex.Spec Verif.Srec.Spec
open Verif.Ihex (DataByte Mem Outcome ParseError insertBytes insertBytes_ok)
open Verif.Ihex.Spec (significant workerLines pairBytes)

/-! ## Files without unreadable lines -/

/-- The bytes of a file, as the model computes them. Only used in proofs. -/
def bytesOfLines (lines : List Str) : List DataByte :=
  dataBytes ((significant lines).map recOfLine)

theorem bytesOfLines_append (A B : List Str) :
    bytesOfLines (A ++ B) = bytesOfLines A ++ bytesOfLines B := by
  simp [bytesOfLines, dataBytes, significant]

theorem parse_clean {n : Nat} (hn : 0 < n) {lines : List Str} (h : ∀ l ∈ lines, ¬ Malformed l) :
    ∃ o, parseHex n lines = some o ∧
      (o.err = none ↔ (∀ l ∈ significant lines, LineSumOk l) ∧
        ((bytesOfLines lines).map (·.address)).Nodup) ∧
      (o.err = none → ∀ a v, o.map a = some v ↔ (⟨a, v⟩ : DataByte) ∈ bytesOfLines lines) := by
  rw [parseHex_eq hn]
  have hbad := any_bad n lines
  rw [recognised_eq hn h] at hbad ⊢
  refine ⟨_, rfl, ?_⟩
  by_cases hb : ((significant lines).map recOfLine).any (fun r => !checksumOk r) = true
  · rw [if_pos hb]
    obtain ⟨l, hl, hc⟩ := hbad.mp hb
    constructor
    · constructor
      · intro hh; simp at hh
      · intro hh; exact absurd (hh.1 l hl) hc
    · intro hh; simp at hh
  · rw [if_neg hb]
    obtain ⟨h1, h2⟩ := insertBytes_ok (bytesOfLines lines) Mem.empty
    have hs : ∀ l ∈ significant lines, LineSumOk l := by
      intro l hl
      apply Classical.byContradiction
      intro hc
      exact hb (hbad.mpr ⟨l, hl, hc⟩)
    constructor
    · rw [show dataBytes ((significant lines).map recOfLine) = bytesOfLines lines from rfl, h1]
      simp only [Mem.empty, implies_true, and_true]
      exact ⟨fun x => ⟨hs, x⟩, fun x => x.2⟩
    · intro he a v
      rw [show dataBytes ((significant lines).map recOfLine) = bytesOfLines lines from rfl] at he ⊢
      rw [h2 he]
      simp [Mem.empty]

/-! ## C60: truncated files -/

/-- The full property: if lines are missing at the end of a file, an error is reported. -/
def C60_srec_full : Prop :=
  ∀ (n : Nat) (c : Case) (bs : List Block) (start k : Nat), 0 < n → (∀ b ∈ bs, b.Fits) →
    ((imageBytes bs).map Prod.fst).Nodup → start < 4294967296 → k ≤ bs.length →
    ∃ o, parseHex n ((encode c bs ++ [endLine c start]).take k) = some o ∧ o.err ≠ none

theorem imageBytes_take (bs : List Block) (k : Nat) :
    List.Sublist (imageBytes (bs.take k)) (imageBytes bs) := by
  have h : imageBytes bs = imageBytes (bs.take k) ++ imageBytes (bs.drop k) := by
    have app : ∀ a b : List Block, imageBytes (a ++ b) = imageBytes a ++ imageBytes b := by
      intro a b; simp [imageBytes]
    rw [← app, List.take_append_drop]
  rw [h]
  exact List.sublist_append_left _ _

/-- A file cut after any of its data lines is always accepted, as the smaller image. -/
theorem C60_srec_accepted {n : Nat} (hn : 0 < n) (c : Case) {bs : List Block}
    (hfit : ∀ b ∈ bs, b.Fits) (hnd : ((imageBytes bs).map Prod.fst).Nodup) (start k : Nat)
    (hk : k ≤ bs.length) :
    ∃ o, parseHex n ((encode c bs ++ [endLine c start]).take k) = some o ∧ o.err = none ∧
      ∀ a v, o.map a = some v ↔ (a, v) ∈ imageBytes (bs.take k) := by
  have hlen : (encode c bs).length = bs.length := by simp [encode]
  rw [List.take_append_of_le_length (by omega)]
  rw [show (encode c bs).take k = encode c (bs.take k) by simp [encode, List.map_take]]
  exact C13_roundtrip hn c (fun b hb => hfit b (List.mem_of_mem_take hb))
    (((imageBytes_take bs k).map Prod.fst).nodup hnd)

theorem C60_srec_false : ¬ C60_srec_full := by
  intro h
  obtain ⟨o, ho, he⟩ := h 1 .upper [⟨0, [7]⟩, ⟨16, [9]⟩] 0 1 (by omega) (by decide) (by decide) (by omega)
    (by decide)
  obtain ⟨o', ho', he', _⟩ := C60_srec_accepted (n := 1) (by omega) .upper
    (bs := [⟨0, [7]⟩, ⟨16, [9]⟩]) (by decide) (by decide) 0 1 (by decide)
  rw [ho] at ho'
  obtain rfl : o = o' := by simpa using ho'
  exact he he'

/-- What does hold: cutting off lines never produces a wrong byte. If a file without
unreadable lines is accepted, the file cut after any line is accepted (on any number of
CPUs), and every byte of the cut file is the byte of the whole file.
Missing: that the missing bytes are reported. -/
theorem C60_srec_partial {n m : Nat} (hn : 0 < n) (hm : 0 < m) {lines : List Str}
    (h : ∀ l ∈ lines, ¬ Malformed l) (k : Nat) {o : Outcome} (ho : parseHex n lines = some o)
    (hok : o.err = none) :
    ∃ o', parseHex m (lines.take k) = some o' ∧ o'.err = none ∧
      ∀ a v, o'.map a = some v → o.map a = some v := by
  obtain ⟨x, hx, x1, x2⟩ := parse_clean hn h
  rw [ho] at hx
  obtain rfl : o = x := by simpa using hx
  obtain ⟨y, hy, y1, y2⟩ := parse_clean (n := m) hm (lines := lines.take k)
    (fun l hl => h l (List.mem_of_mem_take hl))
  obtain ⟨s1, s2⟩ := x1.mp hok
  have hsplit : lines = lines.take k ++ lines.drop k := (List.take_append_drop k lines).symm
  have hb : bytesOfLines lines = bytesOfLines (lines.take k) ++ bytesOfLines (lines.drop k) := by
    rw [← bytesOfLines_append, ← hsplit]
  have hy' : y.err = none := by
    rw [y1]
    constructor
    · intro l hl
      refine s1 l ?_
      simp only [significant, List.mem_filter] at hl ⊢
      exact ⟨List.mem_of_mem_take hl.1, hl.2⟩
    · rw [hb, List.map_append] at s2
      exact (List.sublist_append_left _ _).nodup s2
  refine ⟨y, hy, hy', ?_⟩
  intro a v hv
  rw [y2 hy'] at hv
  rw [x2 hok, hb]
  exact List.mem_append_left _ hv

example : ∀ l ∈ encode .upper [⟨0, [7]⟩, ⟨16, [9]⟩], ¬ Malformed l :=
  fun l hl => (encode_not_malformed .upper (by decide) l hl).1
example : imageBytes [⟨0, [7]⟩, ⟨16, [9]⟩] = [(0, 7), (16, 9)] ∧
    imageBytes (([⟨0, [7]⟩, ⟨16, [9]⟩] : List Block).take 1) = [(0, 7)] := by decide

/-! ## C62: record types -/

/-- A data line with a 16-bit (`S1`) or 24-bit (`S2`) address. -/
def shortDataLine (c : Case) (ty : Char) (addr bytes : List Nat) : Str :=
  printLine ty c ((addr.length + bytes.length + 1) :: addr ++ bytes)

/-- The full property: data of a record type the parser does not know is not dropped
silently. -/
def C62_srec_full : Prop :=
  ∀ (n : Nat) (c : Case) (a : Nat) (bytes : List Nat), 0 < n → a < 65536 → bytes ≠ [] →
    (∀ x ∈ bytes, x < 256) → bytes.length < 252 →
    ∃ o, parseHex n [shortDataLine c '1' [a / 256, a % 256] bytes] = some o ∧
      (o.err ≠ none ∨ ∀ i, i < bytes.length → o.map ((a + i) % 65536) = bytes[i]?)

/-- A line that is not an `S3` line is never recognised; if it is long enough to be looked
at it ends the work of the worker that meets it. -/
theorem C62_srec_malformed {l : Str} (h : l.take 2 ≠ ['S', '3']) (hl : 11 ≤ l.length) : Malformed l :=
  ⟨hl, fun hh => h hh.1⟩

/-- Whatever a file contains besides: if no line is an `S3` line (all data in `S1` or `S2`
records, say), the file is accepted and the memory is empty. -/
theorem C62_srec_dropped {n : Nat} (hn : 0 < n) {lines : List Str}
    (h : ∀ l ∈ lines, l.take 2 ≠ ['S', '3']) :
    ∃ o, parseHex n lines = some o ∧ o.err = none ∧ ∀ a, o.map a = none := by
  have hr : recognised n lines = [] := by
    have := recognised_tail hn (A := []) (B := lines) (by simp) (fun l hl => by
      by_cases hlen : 11 ≤ l.length
      · exact .inl (C62_srec_malformed (h l hl) hlen)
      · exact .inr (by omega))
    simpa [significant] using this
  obtain ⟨o, ho, h1, h2⟩ := parse_recognised (n := n) hn (lines := lines) (rcs := []) (by rw [hr]; rfl)
  have hok : o.err = none := h1.mpr ⟨by simp, by simp [bytesOf]⟩
  refine ⟨o, ho, hok, ?_⟩
  intro a
  cases hm : o.map a with
  | none => rfl
  | some v =>
    have := (h2 hok a v).mp hm
    simp [bytesOf] at this

theorem C62_srec_false : ¬ C62_srec_full := by
  intro h
  obtain ⟨o, ho, hh⟩ := h 1 .upper 0x1000 [7] (by omega) (by omega) (by simp) (by simp) (by simp)
  obtain ⟨o', ho', he', hm'⟩ := C62_srec_dropped (n := 1) (by omega)
    (lines := [shortDataLine .upper '1' [0x1000 / 256, 0x1000 % 256] [7]]) (by decide +kernel)
  rw [ho] at ho'
  obtain rfl : o = o' := by simpa using ho'
  rcases hh with hh | hh
  · exact hh he'
  · have := hh 0 (by simp)
    rw [hm'] at this
    simp at this

/-- What does hold: whatever the other lines are, an accepted file only yields bytes of its
`S3` lines. Missing: that lines of other types are reported. -/
theorem C62_srec_partial {n : Nat} (hn : 0 < n) {lines : List Str} {o : Outcome}
    (ho : parseHex n lines = some o)
    (hdec : ∀ l ∈ lines, l.take 2 = ['S', '3'] → ∃ rc, decodeLine l = some rc)
    (hok : o.err = none) {a v : Nat} (hv : o.map a = some v) :
    ∃ l ∈ lines, ∃ rc, decodeLine l = some rc ∧ rc.SumOk ∧ (a, v) ∈ rc.bytes := by
  have hex : ∃ rcs, (recognised n lines).mapM decodeLine = some rcs ∧
      ∀ rc ∈ rcs, ∃ l ∈ recognised n lines, decodeLine l = some rc := by
    have key : ∀ ls : List Str, (∀ l ∈ ls, ∃ rc, decodeLine l = some rc) →
        ∃ rcs, ls.mapM decodeLine = some rcs ∧ ∀ rc ∈ rcs, ∃ l ∈ ls, decodeLine l = some rc := by
      intro ls
      induction ls with
      | nil => intro _; exact ⟨[], rfl, by simp⟩
      | cons l ls ih =>
        intro h
        obtain ⟨rc, hrc⟩ := h l (by simp)
        obtain ⟨rcs, h1, h2⟩ := ih (fun x hx => h x (by simp [hx]))
        refine ⟨rc :: rcs, by simp [List.mapM_cons, hrc, h1], ?_⟩
        intro x hx
        rcases List.mem_cons.mp hx with rfl | hx
        · exact ⟨l, by simp, hrc⟩
        · obtain ⟨y, hy, hd⟩ := h2 x hx
          exact ⟨y, by simp [hy], hd⟩
    refine key _ ?_
    intro l hl
    obtain ⟨hm, h12, hs⟩ := mem_recognised hl
    exact hdec l hm hs
  obtain ⟨rcs, h1, h2⟩ := hex
  obtain ⟨o', ho', r1, r2⟩ := parse_recognised hn h1
  rw [ho] at ho'
  obtain rfl : o = o' := by simpa using ho'
  have hmem := (r2 hok a v).mp hv
  simp only [bytesOf, List.mem_flatten, List.mem_map] at hmem
  obtain ⟨_, ⟨rc, hrc, rfl⟩, hin⟩ := hmem
  obtain ⟨l, hl, hd⟩ := h2 rc hrc
  exact ⟨l, (mem_recognised hl).1, rc, hd, (r1.mp hok).1 rc hrc, hin⟩

example : shortDataLine .upper '1' [16, 0] [7] = "S104100007E4".toList := by decide +kernel
example : ∀ l ∈ ["S104100007E4".toList, "S9030000FC".toList], l.take 2 ≠ ['S', '3'] := by decide +kernel

/-! ## C63: the order of the records does not matter, and files can be joined -/

/-- Permuting the lines of a file without unreadable lines changes neither the verdict nor
the memory, on any number of CPUs. -/
theorem C63_srec_order {n m : Nat} (hn : 0 < n) (hm : 0 < m) {A B : List Str}
    (h : ∀ l ∈ A, ¬ Malformed l) (hp : A.Perm B) :
    ∃ o o', parseHex n A = some o ∧ parseHex m B = some o' ∧ (o.err = none ↔ o'.err = none) ∧
      (o.err = none → o.map = o'.map) := by
  obtain ⟨o, ho, h1, h2⟩ := parse_clean hn h
  obtain ⟨o', ho', h1', h2'⟩ := parse_clean (n := m) hm (lines := B)
    (fun l hl => h l (hp.mem_iff.mpr hl))
  have hsig : (significant A).Perm (significant B) := hp.filter _
  have hbytes : (bytesOfLines A).Perm (bytesOfLines B) := by
    unfold bytesOfLines dataBytes
    exact ((hsig.map _).map _).flatten
  have hiff : o.err = none ↔ o'.err = none := by
    rw [h1, h1', (hbytes.map (·.address)).nodup_iff]
    constructor
    · rintro ⟨x, y⟩; exact ⟨fun l hl => x l (hsig.mem_iff.mpr hl), y⟩
    · rintro ⟨x, y⟩; exact ⟨fun l hl => x l (hsig.mem_iff.mp hl), y⟩
  refine ⟨o, o', ho, ho', hiff, ?_⟩
  intro hok
  funext a
  apply Option.ext
  intro v
  rw [h2 hok, h2' (hiff.mp hok), hbytes.mem_iff]

/-- Two files written one after the other are accepted exactly if both are and they define
no common address; the memory is then the union. -/
theorem C63_srec_join {n m k : Nat} (hn : 0 < n) (hm : 0 < m) (hk : 0 < k) {A B : List Str}
    (hA : ∀ l ∈ A, ¬ Malformed l) (hB : ∀ l ∈ B, ¬ Malformed l) :
    ∃ o oA oB, parseHex n (A ++ B) = some o ∧ parseHex m A = some oA ∧ parseHex k B = some oB ∧
      (o.err = none ↔ oA.err = none ∧ oB.err = none ∧ ∀ a, oA.map a = none ∨ oB.map a = none) ∧
      (o.err = none → ∀ a v, o.map a = some v ↔ oA.map a = some v ∨ oB.map a = some v) := by
  obtain ⟨oA, hoA, a1, a2⟩ := parse_clean hm hA
  obtain ⟨oB, hoB, b1, b2⟩ := parse_clean hk hB
  obtain ⟨o, ho, h1, h2⟩ := parse_clean (n := n) hn (lines := A ++ B) (by
    intro l hl
    rcases List.mem_append.mp hl with hl | hl
    · exact hA l hl
    · exact hB l hl)
  have hsig : ∀ l, l ∈ significant (A ++ B) ↔ l ∈ significant A ∨ l ∈ significant B := by
    intro l; simp [significant, or_and_right]
  have mapA : oA.err = none → ∀ a, a ∈ (bytesOfLines A).map (·.address) ↔ oA.map a ≠ none := by
    intro e a
    constructor
    · intro hx
      obtain ⟨⟨x, v⟩, hd, rfl⟩ := List.mem_map.mp hx
      rw [(a2 e x v).mpr hd]; simp
    · intro hx
      cases hv : oA.map a with
      | none => exact absurd hv hx
      | some v => exact List.mem_map.mpr ⟨⟨a, v⟩, (a2 e a v).mp hv, rfl⟩
  have mapB : oB.err = none → ∀ a, a ∈ (bytesOfLines B).map (·.address) ↔ oB.map a ≠ none := by
    intro e a
    constructor
    · intro hx
      obtain ⟨⟨x, v⟩, hd, rfl⟩ := List.mem_map.mp hx
      rw [(b2 e x v).mpr hd]; simp
    · intro hx
      cases hv : oB.map a with
      | none => exact absurd hv hx
      | some v => exact List.mem_map.mpr ⟨⟨a, v⟩, (b2 e a v).mp hv, rfl⟩
  have hiff : o.err = none ↔ oA.err = none ∧ oB.err = none ∧
      ∀ a, oA.map a = none ∨ oB.map a = none := by
    rw [h1, bytesOfLines_append, List.map_append, List.nodup_append]
    constructor
    · rintro ⟨s, nA, nB, d⟩
      have eA : oA.err = none := a1.mpr ⟨fun l hl => s l ((hsig l).mpr (.inl hl)), nA⟩
      have eB : oB.err = none := b1.mpr ⟨fun l hl => s l ((hsig l).mpr (.inr hl)), nB⟩
      refine ⟨eA, eB, ?_⟩
      intro a
      by_cases ha : oA.map a = none
      · exact .inl ha
      · right
        apply Classical.byContradiction
        intro hb
        exact d a ((mapA eA a).mpr ha) a ((mapB eB a).mpr hb) rfl
    · rintro ⟨eA, eB, d⟩
      obtain ⟨sA, nA⟩ := a1.mp eA
      obtain ⟨sB, nB⟩ := b1.mp eB
      refine ⟨?_, nA, nB, ?_⟩
      · intro l hl
        rcases (hsig l).mp hl with hl | hl
        · exact sA l hl
        · exact sB l hl
      · rintro a ha b hb rfl
        rcases d a with h | h
        · exact (mapA eA a).mp ha h
        · exact (mapB eB a).mp hb h
  refine ⟨o, oA, oB, ho, hoA, hoB, hiff, ?_⟩
  intro hok a v
  obtain ⟨eA, eB, _⟩ := hiff.mp hok
  rw [h2 hok, a2 eA, b2 eB, bytesOfLines_append, List.mem_append]

example : ([⟨16, [9]⟩, ⟨0, [7]⟩].map (dataLine .upper)).Perm ([⟨0, [7]⟩, ⟨16, [9]⟩].map (dataLine .upper)) :=
  (List.Perm.swap _ _ _)

end Verif.Srec
