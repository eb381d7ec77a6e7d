import Verif.Ihex.ExactProps
import Verif.Srec.Props

/-!
C106: the values of the bytes mean nothing to the hex readers.
-/

namespace Verif.Hex.Spec

/-- Two lists of the same length whose elements at the same place are related. -/
def All2 {α β : Type} (R : α → β → Prop) : List α → List β → Prop
  | [], [] => True
  | a :: as, b :: bs => R a b ∧ All2 R as bs
  | _, _ => False

instance {α β : Type} (R : α → β → Prop) [∀ a b, Decidable (R a b)] : ∀ (as : List α) (bs : List β), Decidable (All2 R as bs)
  | [], [] => .isTrue trivial
  | a :: as, b :: bs => by
    have := (inferInstance : ∀ a b, Decidable (R a b)) a b
    have := instDecidableAll2 R as bs
    unfold All2
    infer_instance
  | [], _ :: _ => .isFalse id
  | _ :: _, [] => .isFalse id

/-- What two images have to do with each other: bytes at the same addresses, and their values related. -/
def Alike (R : Nat → Nat → Prop) (m m' : Nat → Option Nat) : Prop :=
  ∀ a, match m a, m' a with
    | none, none => True
    | some v, some v' => R v v'
    | _, _ => False

end Verif.Hex.Spec

namespace Verif.Hex.Values
open Verif.Hex.Spec

variable {α β γ δ : Type}

theorem all2_append {R : α → β → Prop} : ∀ {as : List α} {bs : List β} {cs : List α} {ds : List β}, All2 R as bs → All2 R cs ds → All2 R (as ++ cs) (bs ++ ds)
  | [], [], _, _, _, h => h
  | _ :: _, _ :: _, _, _, h, h' => ⟨h.1, all2_append h.2 h'⟩
  | [], _ :: _, _, _, h, _ => h.elim
  | _ :: _, [], _, _, h, _ => h.elim

theorem all2_zipIdx {R : α → β → Prop} {f : α → Nat → γ} {g : β → Nat → δ} {Q : γ → δ → Prop} (h : ∀ i a b, R a b → Q (f a i) (g b i)) :
    ∀ {as : List α} {bs : List β} (k : Nat), All2 R as bs → All2 Q ((as.zipIdx k).map fun p => f p.1 p.2) ((bs.zipIdx k).map fun p => g p.1 p.2)
  | [], [], _, _ => trivial
  | _ :: _, _ :: _, k, hh => ⟨h k _ _ hh.1, all2_zipIdx h (k + 1) hh.2⟩
  | [], _ :: _, _, h => h.elim
  | _ :: _, [], _, h => h.elim

theorem all2_flatMap {R : α → β → Prop} {f : α → Nat → List γ} {g : β → Nat → List δ} {Q : γ → δ → Prop} (h : ∀ i a b, R a b → All2 Q (f a i) (g b i)) :
    ∀ {as : List α} {bs : List β} (k : Nat), All2 R as bs → All2 Q ((as.zipIdx k).flatMap fun p => f p.1 p.2) ((bs.zipIdx k).flatMap fun p => g p.1 p.2)
  | [], [], _, _ => trivial
  | _ :: _, _ :: _, k, hh => by
    rw [List.zipIdx_cons, List.zipIdx_cons, List.flatMap_cons, List.flatMap_cons]
    exact all2_append (h k _ _ hh.1) (all2_flatMap h (k + 1) hh.2)
  | [], _ :: _, _, h => h.elim
  | _ :: _, [], _, h => h.elim

/-- Address and value pairs at the same addresses with related values. -/
def Pair (R : Nat → Nat → Prop) (p q : Nat × Nat) : Prop := p.1 = q.1 ∧ R p.2 q.2

theorem pair_fst {R : Nat → Nat → Prop} : ∀ {ps qs : List (Nat × Nat)}, All2 (Pair R) ps qs → ps.map Prod.fst = qs.map Prod.fst
  | [], [], _ => rfl
  | _ :: _, _ :: _, h => by rw [List.map_cons, List.map_cons, h.1.1, pair_fst h.2]
  | [], _ :: _, h => h.elim
  | _ :: _, [], h => h.elim

theorem pair_mem {R : Nat → Nat → Prop} {a v : Nat} : ∀ {ps qs : List (Nat × Nat)}, All2 (Pair R) ps qs → (a, v) ∈ ps → ∃ w, (a, w) ∈ qs ∧ R v w
  | [], [], _, h => by cases h
  | p :: ps, q :: qs, h, hm => by
    rcases List.mem_cons.1 hm with rfl | hm
    · obtain ⟨⟨e, hr⟩, _⟩ := h
      exact ⟨q.2, List.mem_cons.2 (.inl (by cases q; simp only at e; rw [e])), hr⟩
    · obtain ⟨w, h1, h2⟩ := pair_mem h.2 hm
      exact ⟨w, List.mem_cons_of_mem _ h1, h2⟩
  | [], _ :: _, h, _ => h.elim
  | _ :: _, [], h, _ => h.elim

theorem pair_mem' {R : Nat → Nat → Prop} {a w : Nat} : ∀ {ps qs : List (Nat × Nat)}, All2 (Pair R) ps qs → (a, w) ∈ qs → ∃ v, (a, v) ∈ ps ∧ R v w
  | [], [], _, h => by cases h
  | p :: ps, q :: qs, h, hm => by
    rcases List.mem_cons.1 hm with rfl | hm
    · obtain ⟨⟨e, hr⟩, _⟩ := h
      exact ⟨p.2, List.mem_cons.2 (.inl (by cases p; simp only at e; rw [e])), hr⟩
    · obtain ⟨w, h1, h2⟩ := pair_mem' h.2 hm
      exact ⟨w, List.mem_cons_of_mem _ h1, h2⟩
  | [], _ :: _, h, _ => h.elim
  | _ :: _, [], h, _ => h.elim

theorem alike_of_pairs {R : Nat → Nat → Prop} {ps qs : List (Nat × Nat)} (h : All2 (Pair R) ps qs) {m m' : Nat → Option Nat}
    (hm : ∀ a v, m a = some v ↔ (a, v) ∈ ps) (hm' : ∀ a v, m' a = some v ↔ (a, v) ∈ qs) : Alike R m m' := by
  intro a
  cases hv : m a with
  | none =>
    cases hw : m' a with
    | none => trivial
    | some w =>
      obtain ⟨v, h1, _⟩ := pair_mem' h ((hm' a w).1 hw)
      rw [(hm a v).2 h1] at hv
      cases hv
  | some v =>
    obtain ⟨w, h1, h2⟩ := pair_mem h ((hm a v).1 hv)
    rw [(hm' a w).2 h1]
    exact h2

end Verif.Hex.Values

namespace Verif.Ihex.Values
open Verif.Go Verif.Hex.Spec Spec Verif.Hex.Values

/-- Two lines that differ in the values of their data only: of the same type; data lines with the same address and related data, segment lines with
the same segment, other lines with any content; the checksum of the one is as right or as wrong as that of the other. -/
def SameLine (R : Nat → Nat → Prop) (r r' : Rec) : Prop :=
  r'.typ = r.typ ∧ (r.typ = 0 → r'.addr = r.addr ∧ All2 R r.data r'.data) ∧ (r.typ = 4 → r'.data.take 2 = r.data.take 2) ∧ (r'.SumOk ↔ r.SumOk)

/-- What a line says about segments. -/
def key (r : Rec) : Nat × Nat := (r.typ, if r.typ = 4 then r.upper else 0)

theorem take_getD {l l' : List Nat} (h : l'.take 2 = l.take 2) {i : Nat} (hi : i < 2) : l'.getD i 0 = l.getD i 0 := by
  have := congrArg (fun x => x[i]?) h
  simp only [List.getElem?_take, hi, if_true] at this
  simp only [List.getD_eq_getElem?_getD, this]

theorem same_key {R : Nat → Nat → Prop} : ∀ {rs rs' : List Rec}, All2 (SameLine R) rs rs' → rs.map key = rs'.map key
  | [], [], _ => rfl
  | r :: rs, r' :: rs', h => by
    rw [List.map_cons, List.map_cons, same_key h.2]
    obtain ⟨⟨h1, _, h3, _⟩, _⟩ := h
    congr 1
    unfold key
    rw [h1]
    split
    · next ht => rw [show r.upper = r'.upper by unfold Rec.upper; rw [take_getD (h3 ht) (by decide), take_getD (h3 ht) (by decide)]]
    · rfl
  | [], _ :: _, h => h.elim
  | _ :: _, [], h => h.elim

theorem selected_key (l : List Rec) : (l.filter (fun r => r.typ = 4)).map Rec.upper = ((l.map key).filter (fun k => k.1 = 4)).map Prod.snd := by
  induction l with
  | nil => rfl
  | cons r l ih =>
    by_cases ht : r.typ = 4
    · simp [ht, key, ih]
    · simp [ht, key, ih]

theorem selected_same {rs rs' : List Rec} (h : rs.map key = rs'.map key) (a i : Nat) : selected rs a i = selected rs' a i := by
  unfold selected
  rw [← List.getLast?_map, ← List.getLast?_map, selected_key, selected_key, List.map_drop, List.map_take, List.map_drop, List.map_take, h]

theorem typ_same {rs rs' : List Rec} (h : rs.map key = rs'.map key) (b : Nat) : rs[b]?.map (·.typ) = rs'[b]?.map (·.typ) := by
  have := congrArg (fun x => (x[b]?).map Prod.fst) h
  simp only [List.getElem?_map, Option.map_map] at this
  exact this

theorem stored_same {rs rs' : List Rec} (h : rs.map key = rs'.map key) (starts : List Nat) (i : Nat) : storedSeg starts rs i = storedSeg starts rs' i := by
  have ha : ∀ a, Arrives rs a i ↔ Arrives rs' a i := by
    intro a
    unfold Arrives
    simp only [selected_same h, typ_same h]
  unfold storedSeg
  simp only [ha, selected_same h]

theorem same_length {R : Nat → Nat → Prop} {rs rs' : List Rec} (h : All2 (SameLine R) rs rs') : rs.length = rs'.length := by
  have := congrArg List.length (same_key h)
  simpa using this

theorem same_sums {R : Nat → Nat → Prop} : ∀ {rs rs' : List Rec}, All2 (SameLine R) rs rs' → ((∀ r ∈ rs', r.SumOk) ↔ ∀ r ∈ rs, r.SumOk)
  | [], [], _ => by simp
  | r :: rs, r' :: rs', h => by simp only [List.forall_mem_cons, h.1.2.2.2, same_sums h.2]
  | [], _ :: _, h => h.elim
  | _ :: _, [], h => h.elim

theorem same_stored {R : Nat → Nat → Prop} {rs rs' : List Rec} (h : All2 (SameLine R) rs rs') (starts : List Nat) :
    All2 (Pair R) (storedBytes starts rs) (storedBytes starts rs') := by
  unfold storedBytes
  refine all2_flatMap (R := SameLine R)
    (f := fun r i => if r.typ = 0 then r.data.zipIdx.map fun (b, j) => (storedSeg starts rs i * 65536 + (r.addr + j) % 65536, b) else [])
    (g := fun r i => if r.typ = 0 then r.data.zipIdx.map fun (b, j) => (storedSeg starts rs' i * 65536 + (r.addr + j) % 65536, b) else [])
    (fun i r r' hr => ?_) 0 h
  obtain ⟨h1, h2, _, _⟩ := hr
  simp only [h1]
  by_cases ht : r.typ = 0
  · rw [if_pos ht, if_pos ht]
    obtain ⟨e, hd⟩ := h2 ht
    rw [e, stored_same (same_key h)]
    exact all2_zipIdx (f := fun b j => (storedSeg starts rs' i * 65536 + (r.addr + j) % 65536, b))
      (g := fun b j => (storedSeg starts rs' i * 65536 + (r.addr + j) % 65536, b)) (fun _ _ _ hr => ⟨rfl, hr⟩) 0 hd
  · rw [if_neg ht, if_neg ht]
    trivial

/-- C106 for Intel HEX: two well-formed files that differ in the values of their data only are both accepted or both rejected, and the bytes are at the
same addresses with values related as they are in the files, for every relation. -/
theorem C106_ihex {R : Nat → Nat → Prop} {n : Nat} (hn : 0 < n) {A B : List Str} (hA : WellFormed A) (hB : WellFormed B)
    (hs : All2 (SameLine R) (recs A) (recs B)) {s s' : List Nat} {o o' : Outcome}
    (h : parseHex n s A = some (some o)) (h' : parseHex n s' B = some (some o')) :
    (o.err = none ↔ o'.err = none) ∧ (o.err = none → Alike R o.map o'.map) := by
  obtain ⟨h1, h2⟩ := C05_exact hn hA h
  obtain ⟨g1, g2⟩ := C05_exact hn hB h'
  have hp : All2 (Pair R) (storedFile n A) (storedFile n B) := by
    unfold storedFile
    rw [same_length hs]
    exact same_stored hs _
  have hiff : o.err = none ↔ o'.err = none := by rw [h1, g1, same_sums hs, pair_fst hp]
  exact ⟨hiff, fun he => alike_of_pairs hp (h2 he) (g2 (hiff.1 he))⟩

/-- Two blocks in the segments 0 and 1; one CPU stores both in segment 0. -/
def image (v w x : Nat) : List Str := encode .upper [⟨true, 0, 0, [v, w]⟩, ⟨true, 1, 16, [x]⟩]

theorem image_wf : WellFormed (image 1 2 3) ∧ WellFormed (image 254 253 252) := by
  have wf : ∀ L : List Str, (∀ r ∈ recs L, r.typ = 4 → 2 ≤ r.data.length) → (∀ l ∈ significant L, (decodeLine l).isSome = true) → WellFormed L := by
    intro L h2 h3 l hl
    obtain ⟨r, hr⟩ := Option.isSome_iff_exists.1 (h3 l hl)
    exact ⟨r, hr, h2 r (List.mem_filterMap.2 ⟨l, hl, hr⟩)⟩
  exact ⟨wf _ (by decide +kernel) (by decide +kernel), wf _ (by decide +kernel) (by decide +kernel)⟩

-- every byte complemented
theorem image_same : All2 (SameLine fun v w => w = 255 - v) (recs (image 1 2 3)) (recs (image 254 253 252)) := by
  have e1 : recs (image 1 2 3) = [⟨2, 0, 4, [0, 0], 250⟩, ⟨2, 0, 0, [1, 2], 251⟩, ⟨2, 0, 4, [0, 1], 249⟩, ⟨1, 16, 0, [3], 236⟩, ⟨0, 0, 1, [], 255⟩] := by decide +kernel
  have e2 : recs (image 254 253 252) = [⟨2, 0, 4, [0, 0], 250⟩, ⟨2, 0, 0, [254, 253], 3⟩, ⟨2, 0, 4, [0, 1], 249⟩, ⟨1, 16, 0, [252], 243⟩, ⟨0, 0, 1, [], 255⟩] := by
    decide +kernel
  rw [e1, e2]
  simp [All2, SameLine, Rec.SumOk]

/-- Whether there was an error, and the bytes at two addresses. -/
def look (r : Option (Option Outcome)) (a b : Nat) : Option (Bool × Option Nat × Option Nat) :=
  match r with
  | some (some o) => some (o.err.isNone, o.map a, o.map b)
  | _ => none

-- also where the reader stores a block in the wrong segment, the values are those of the file
example : look (parseHex 1 (List.replicate 9 0) (image 1 2 3)) 1 16 = some (true, some 2, some 3) ∧
    look (parseHex 1 (List.replicate 9 0) (image 254 253 252)) 1 16 = some (true, some 253, some 252) := by decide +kernel

end Verif.Ihex.Values

namespace Verif.Srec.Values
open Verif.Go Verif.Hex.Spec Spec Verif.Hex.Values
open Verif.Ihex.Spec (significant)

/-- Two lines with the same address and related data; the checksum of the one is as right or as wrong as that of the other. -/
def SameLine (R : Nat → Nat → Prop) (r r' : Rec) : Prop := r'.addr = r.addr ∧ All2 R r.data r'.data ∧ (r'.SumOk ↔ r.SumOk)

theorem same_sums {R : Nat → Nat → Prop} : ∀ {rs rs' : List Rec}, All2 (SameLine R) rs rs' → ((∀ r ∈ rs', r.SumOk) ↔ ∀ r ∈ rs, r.SumOk)
  | [], [], _ => by simp
  | r :: rs, r' :: rs', h => by simp only [List.forall_mem_cons, h.1.2.2, same_sums h.2]
  | [], _ :: _, h => h.elim
  | _ :: _, [], h => h.elim

theorem same_bytes {R : Nat → Nat → Prop} : ∀ {rs rs' : List Rec}, All2 (SameLine R) rs rs' → All2 (Pair R) (bytesOf rs) (bytesOf rs')
  | [], [], _ => trivial
  | r :: rs, r' :: rs', h => by
    have := same_bytes h.2
    unfold bytesOf at this ⊢
    rw [List.map_cons, List.map_cons, List.flatten_cons, List.flatten_cons]
    refine all2_append ?_ this
    obtain ⟨h1, h2, _⟩ := h.1
    unfold Rec.bytes
    rw [h1]
    exact all2_zipIdx (f := fun b j => ((r.addr + j) % 4294967296, b)) (g := fun b j => ((r.addr + j) % 4294967296, b)) (fun _ _ _ hr => ⟨rfl, hr⟩) 0 h2
  | [], _ :: _, h => h.elim
  | _ :: _, [], h => h.elim

/-- C106 for S19: for what the workers read of two files, whatever the number of CPUs of either. -/
theorem C106_srec {R : Nat → Nat → Prop} {n m : Nat} (hn : 0 < n) (hm : 0 < m) {A B : List Str} {rs rs' : List Rec}
    (hr : (recognised n A).mapM decodeLine = some rs) (hr' : (recognised m B).mapM decodeLine = some rs') (hs : All2 (SameLine R) rs rs') :
    ∃ o o', parseHex n A = some o ∧ parseHex m B = some o' ∧ (o.err = none ↔ o'.err = none) ∧ (o.err = none → Alike R o.map o'.map) := by
  obtain ⟨o, ho, h1, h2⟩ := parse_recognised (n := n) hn (lines := A) (rcs := rs) hr
  obtain ⟨o', ho', g1, g2⟩ := parse_recognised (n := m) hm (lines := B) (rcs := rs') hr'
  have hp := same_bytes hs
  have hiff : o.err = none ↔ o'.err = none := by rw [h1, g1, same_sums hs, pair_fst hp]
  exact ⟨o, o', ho, ho', hiff, fun he => alike_of_pairs hp (h2 he) (g2 (hiff.1 he))⟩

-- two blocks, read by one worker and by two
example : (recognised 1 (encode .upper [⟨4294967295, [1, 2]⟩, ⟨16, [3]⟩])).mapM decodeLine = some [⟨7, 4294967295, [1, 2], 249⟩, ⟨6, 16, [3], 230⟩] ∧
    (recognised 2 (encode .lower [⟨4294967295, [254, 253]⟩, ⟨16, [252]⟩])).mapM decodeLine =
      some [⟨7, 4294967295, [254, 253], 1⟩, ⟨6, 16, [252], 237⟩] := by decide +kernel
example : All2 (SameLine fun v w => w = 255 - v) [⟨7, 4294967295, [1, 2], 249⟩, ⟨6, 16, [3], 230⟩]
    [⟨7, 4294967295, [254, 253], 1⟩, ⟨6, 16, [252], 237⟩] := by simp [All2, SameLine, Rec.SumOk]

end Verif.Srec.Values
