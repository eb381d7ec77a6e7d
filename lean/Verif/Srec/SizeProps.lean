import Verif.Srec.TextProps

/-!
C102: the hex readers invent nothing. Every byte of the image is written in a data line of the file, at the address that this line gives
it, and an image has no more bytes than the text has room for.
-/

namespace Verif.Ihex.Spec

open Verif.Go Verif.Hex.Spec

/-- The text has a line that selects the upper half `u`. -/
def Selects (text : Str) (u : Nat) : Prop :=
  ∃ l, l <:+: text ∧ l.head? = some ':' ∧ (l.drop 7).take 2 = ['0', '4'] ∧ half ((l.drop 9).take 4) = some u

/-- The text has a data line with a right sum whose `j`-th data byte is `v`, at the address `a` in its segment; the segment is one that
the text selects, or the first one. -/
def Written (text : Str) (a v : Nat) : Prop :=
  ∃ l x j, l <:+: text ∧ l.head? = some ':' ∧ (l.drop 7).take 2 = ['0', '0'] ∧ LineSumOk l ∧ 2 * j + 13 ≤ l.length ∧
    half ((l.drop 3).take 4) = some x ∧ specByte ((l.drop (9 + 2 * j)).take 2) = some v ∧ a % 65536 = (x + j) % 65536 ∧
    (a / 65536 = 0 ∨ Selects text (a / 65536))

end Verif.Ihex.Spec

namespace Verif.Srec.Spec

open Verif.Go Verif.Hex.Spec
open Verif.Ihex.Spec (half)

/-- The text has an S3 line with a right sum whose `j`-th data byte is `v`, at the address `a`. -/
def Written (text : Str) (a v : Nat) : Prop :=
  ∃ l h k j, l <:+: text ∧ l.take 2 = ['S', '3'] ∧ LineSumOk l ∧ 2 * j + 16 ≤ l.length ∧
    half ((l.drop 4).take 4) = some h ∧ half ((l.drop 8).take 4) = some k ∧ specByte ((l.drop (12 + 2 * j)).take 2) = some v ∧
    a = (h * 65536 + k + j) % 4294967296

end Verif.Srec.Spec

namespace Verif.Ihex

open Verif.Go Verif.Hex Verif.Hex.Spec Verif.Ihex.Spec

/-! ### Pairs of digits -/

theorem payload_at : ∀ (s : Str) (j : Nat) (p : Str), (payloadPairs s)[j]? = some p → p = (s.drop (2 * j)).take 2 ∧ 2 * j + 4 ≤ s.length
  | [], j, p, h => by simp [payloadPairs] at h
  | [_], j, p, h => by simp [payloadPairs] at h
  | [_, _], j, p, h => by simp [payloadPairs] at h
  | [_, _, _], j, p, h => by simp [payloadPairs] at h
  | a :: b :: c :: d :: s, j, p, h => by
    unfold payloadPairs at h
    cases j with
    | zero =>
      simp only [List.getElem?_cons_zero, Option.some.injEq] at h
      subst h
      exact ⟨rfl, by simp⟩
    | succ j =>
      rw [List.getElem?_cons_succ] at h
      obtain ⟨h1, h2⟩ := payload_at (c :: d :: s) j p h
      refine ⟨?_, by simp only [List.length_cons] at h2 ⊢; omega⟩
      rw [h1, show 2 * (j + 1) = 2 * j + 2 by omega]
      rfl

theorem payload_length (s : Str) (h : payloadPairs s ≠ []) : 2 * (payloadPairs s).length + 2 ≤ s.length := by
  obtain ⟨k, hk⟩ : ∃ k, (payloadPairs s).length = k + 1 := ⟨(payloadPairs s).length - 1, by
    have := List.length_pos_iff.mpr h
    omega⟩
  have := (payload_at s k _ (List.getElem?_eq_getElem (by omega))).2
  omega

theorem mapM_at {α β : Type _} {f : α → Option β} : ∀ {xs : List α} {ys : List β}, xs.mapM f = some ys → ∀ (j : Nat) (y : β),
    ys[j]? = some y → ∃ x, xs[j]? = some x ∧ f x = some y
  | [], ys, h, j, y, hy => by simp at h; subst h; simp at hy
  | x :: xs, ys, h, j, y, hy => by
    rw [List.mapM_cons] at h
    cases hx : f x with
    | none => rw [hx] at h; simp at h
    | some z =>
      rw [hx] at h
      cases hxs : xs.mapM f with
      | none => rw [hxs] at h; simp at h
      | some zs =>
        rw [hxs] at h
        simp only [Option.bind_eq_bind, Option.bind_some, Option.pure_def, Option.some.injEq] at h
        subst h
        cases j with
        | zero =>
          simp only [List.getElem?_cons_zero, Option.some.injEq] at hy
          exact ⟨x, rfl, by rw [hx, hy]⟩
        | succ j =>
          rw [List.getElem?_cons_succ] at hy ⊢
          exact mapM_at hxs j y hy

/-! ### Lines and text -/

theorem splitOn1_chars (c : Char) : ∀ s : Str, ((splitOn1 c s).map List.length).sum ≤ s.length ∧ ∀ l ∈ splitOn1 c s, l <:+: s
  | [] => by simp [splitOn1]
  | x :: xs => by
    have ih := splitOn1_chars c xs
    have hpre : ∀ l ls, splitOn1 c xs = l :: ls → l <+: xs := by
      intro l ls h
      exact splitOn1_head c xs l ls h
    unfold splitOn1
    split
    · refine ⟨by simpa using Nat.le_succ_of_le ih.1, fun l hl => ?_⟩
      rcases List.mem_cons.mp hl with rfl | hl
      · exact List.nil_infix
      · exact (ih.2 l hl).trans (List.suffix_cons x xs).isInfix
    · cases h : splitOn1 c xs with
      | nil => exact absurd h (splitOn1_ne_nil c xs)
      | cons l ls =>
        rw [h] at ih
        refine ⟨by simpa using (by simpa using ih.1 : l.length + (ls.map List.length).sum ≤ xs.length) |> fun h => (by omega : l.length + 1 + (ls.map List.length).sum ≤ xs.length + 1), fun l' hl => ?_⟩
        rcases List.mem_cons.mp hl with rfl | hl
        · exact (List.cons_prefix_cons.mpr ⟨rfl, hpre l ls h⟩).isInfix
        · exact (ih.2 l' (List.mem_cons_of_mem _ hl)).trans (List.suffix_cons x xs).isInfix
where
  splitOn1_head (c : Char) : ∀ (s : Str) (l : Str) (ls : List Str), splitOn1 c s = l :: ls → l <+: s
    | [], l, ls, h => by simp [splitOn1] at h; rw [h.1]; exact List.prefix_rfl
    | x :: xs, l, ls, h => by
      unfold splitOn1 at h
      split at h
      · simp only [List.cons.injEq] at h; rw [← h.1]; exact List.nil_prefix
      · cases h' : splitOn1 c xs with
        | nil => exact absurd h' (splitOn1_ne_nil c xs)
        | cons l' ls' =>
          rw [h'] at h
          simp only [List.cons.injEq] at h
          rw [← h.1]
          exact List.cons_prefix_cons.mpr ⟨rfl, splitOn1_head c xs l' ls' h'⟩

theorem splitOn2_ne (c d : Char) : ∀ s : Str, splitOn2 c d s ≠ []
  | [] => by simp [splitOn2]
  | [_] => by simp [splitOn2]
  | x :: y :: xs => by
    unfold splitOn2
    split
    · simp
    · split <;> simp

theorem splitOn2_head (c d : Char) : ∀ (s : Str) (l : Str) (ls : List Str), splitOn2 c d s = l :: ls → l <+: s
  | [], l, ls, h => by simp [splitOn2] at h; rw [h.1]; exact List.prefix_rfl
  | [x], l, ls, h => by simp [splitOn2] at h; rw [h.1]; exact List.prefix_rfl
  | x :: y :: xs, l, ls, h => by
    unfold splitOn2 at h
    split at h
    · simp only [List.cons.injEq] at h; rw [← h.1]; exact List.nil_prefix
    · cases h' : splitOn2 c d (y :: xs) with
      | nil => exact absurd h' (splitOn2_ne c d _)
      | cons l' ls' =>
        rw [h'] at h
        simp only [List.cons.injEq] at h
        rw [← h.1]
        exact List.cons_prefix_cons.mpr ⟨rfl, splitOn2_head c d (y :: xs) l' ls' h'⟩

theorem splitOn2_chars (c d : Char) : ∀ s : Str, ((splitOn2 c d s).map List.length).sum ≤ s.length ∧ ∀ l ∈ splitOn2 c d s, l <:+: s
  | [] => by simp [splitOn2]
  | [x] => by simp [splitOn2]
  | x :: y :: xs => by
    unfold splitOn2
    split
    · have ih := splitOn2_chars c d xs
      refine ⟨?_, fun l hl => ?_⟩
      · simp only [List.map_cons, List.sum_cons, List.length_nil, List.length_cons]; omega
      · rcases List.mem_cons.mp hl with rfl | hl
        · exact List.nil_infix
        · exact (ih.2 l hl).trans ((List.suffix_cons y xs).trans (List.suffix_cons x (y :: xs))).isInfix
    · have ih := splitOn2_chars c d (y :: xs)
      cases h : splitOn2 c d (y :: xs) with
      | nil => exact absurd h (splitOn2_ne c d _)
      | cons l ls =>
        rw [h] at ih
        refine ⟨?_, fun l' hl => ?_⟩
        · have := ih.1
          simp only [List.map_cons, List.sum_cons, List.length_cons] at this ⊢; omega
        · rcases List.mem_cons.mp hl with rfl | hl
          · exact (List.cons_prefix_cons.mpr ⟨rfl, splitOn2_head c d _ l ls h⟩).isInfix
          · exact (ih.2 l' (List.mem_cons_of_mem _ hl)).trans (List.suffix_cons x (y :: xs)).isInfix

theorem splitLines_chars (s : Str) : ((splitLines s).map List.length).sum ≤ s.length ∧ ∀ l ∈ splitLines s, l <:+: s := by
  unfold splitLines
  simp only
  split
  · exact splitOn1_chars _ _
  · exact splitOn2_chars _ _ _

theorem sum_sublist {xs ys : List Str} (h : xs.Sublist ys) : (xs.map List.length).sum ≤ (ys.map List.length).sum := by
  induction h with
  | slnil => exact Nat.le_refl _
  | cons _ _ ih => simp only [List.map_cons, List.sum_cons]; omega
  | cons_cons _ _ ih => simp only [List.map_cons, List.sum_cons]; omega

theorem flatMap_sublist {α β : Type _} {f g : α → List β} (h : ∀ a, (f a).Sublist (g a)) : ∀ xs : List α, (xs.flatMap f).Sublist (xs.flatMap g)
  | [] => List.Sublist.refl _
  | x :: xs => by
    rw [List.flatMap_cons, List.flatMap_cons]
    exact (h x).append (flatMap_sublist h xs)

theorem recognised_sublist {n : Nat} (hn : 0 < n) (lines : List Str) : (recognised n lines).Sublist lines := by
  have h1 : (recognised n lines).Sublist ((List.range n).flatMap (workerLines n lines)) :=
    flatMap_sublist (fun i => (List.filter_sublist (l := _)).trans (List.takeWhile_sublist _)) _
  have h2 : (List.range n).flatMap (workerLines n lines) = lines := by
    rw [List.flatMap_def]
    have : (List.range n).map (workerLines n lines) = (List.range n).map (share lines n) :=
      List.map_congr_left fun i hi => (workerLines_eq n lines i).symm
    rw [this, flatten_shares lines n hn]
  rwa [h2] at h1

/-! ### What is stored -/

/-- Whatever the outcome, the map has only pairs of the lines. -/
theorem stored_mem {ps : List (Nat × Nat)} {o : Outcome} (h : ((ps.map Prod.fst).Nodup → o.err = none ∧ ∀ a v, o.map a = some v ↔ (a, v) ∈ ps) ∧
    (∀ pre a v w, Clash ps pre a v w → o.err = some (.collision a v w) ∧ ∀ x y, o.map x = some y ↔ (x, y) ∈ pre)) {a v : Nat}
    (hv : o.map a = some v) : (a, v) ∈ ps := by
  rcases clash_or ps with hn | ⟨pre, a', v', w, hc⟩
  · exact ((h.1 hn).2 a v).mp hv
  · have := ((h.2 pre a' v' w hc).2 a v).mp hv
    obtain ⟨_, _, post, rfl⟩ := hc
    exact List.mem_append_left _ this

theorem nodup_subset_length {α : Type _} [DecidableEq α] : ∀ {xs ys : List α}, xs.Nodup → (∀ x ∈ xs, x ∈ ys) → xs.length ≤ ys.length
  | [], ys, _, _ => Nat.zero_le _
  | x :: xs, ys, hn, h => by
    have hx := h x (by simp)
    have hn' := List.nodup_cons.mp hn
    have := nodup_subset_length (xs := xs) (ys := ys.erase x) hn'.2 fun y hy =>
      (List.mem_erase_of_ne (fun he : y = x => hn'.1 (he ▸ hy))).mpr (h y (by simp [hy]))
    rw [List.length_erase_of_mem hx] at this
    have hp := List.length_pos_of_mem hx
    rw [List.length_cons]
    omega

theorem size_le {ps : List (Nat × Nat)} {m : Mem} (h : ∀ a v, m a = some v → (a, v) ∈ ps) {as : List Nat} (hn : as.Nodup)
    (has : ∀ a ∈ as, m a ≠ none) : as.length ≤ ps.length := by
  have := nodup_subset_length (ys := ps.map Prod.fst) hn fun a ha => by
    cases hv : m a with
    | none => exact absurd hv (has a ha)
    | some v => exact List.mem_map.mpr ⟨(a, v), h a v hv, rfl⟩
  rwa [List.length_map] at this

theorem lineBytes_length (seg l : Str) (h : lineBytes seg l ≠ []) : 2 * (lineBytes seg l).length + 11 ≤ l.length := by
  unfold lineBytes at h ⊢
  split at h
  · next s a hs ha =>
    rw [List.length_map, List.length_zipIdx]
    have h1 : ((payloadPairs (l.drop 9)).filterMap specByte).length ≤ (payloadPairs (l.drop 9)).length := List.length_filterMap_le _ _
    have h2 : payloadPairs (l.drop 9) ≠ [] := fun he => by rw [he] at h; simp at h
    have h3 := payload_length _ h2
    have h4 : 0 < (payloadPairs (l.drop 9)).length := List.length_pos_iff.mpr h2
    rw [List.length_drop] at h3
    omega
  · simp at h

theorem lineBytes_mem {seg l : Str} {a v : Nat} (hs : LineSumOk l) (h : (a, v) ∈ lineBytes seg l) :
    ∃ s x j, half seg = some s ∧ half ((l.drop 3).take 4) = some x ∧ a = s * 65536 + (x + j) % 65536 ∧
      specByte ((l.drop (9 + 2 * j)).take 2) = some v ∧ 2 * j + 13 ≤ l.length := by
  obtain ⟨bs, hb, _⟩ := hs
  obtain ⟨ds, hd⟩ : ∃ ds, (payloadPairs (l.drop 9)).mapM specByte = some ds := by
    cases h5 : (payloadPairs (l.drop 9)).mapM specByte with
    | some ds => exact ⟨ds, rfl⟩
    | none =>
      unfold fields at hb
      rw [List.mapM_append, List.mapM_append, h5] at hb
      simp only [Option.bind_eq_bind, Option.bind_none, Option.bind_fun_none, reduceCtorEq] at hb
  unfold lineBytes at h
  rw [mapM_filterMap _ _ hd] at h
  split at h
  · next s x hs hx =>
    obtain ⟨⟨b, j⟩, hm, he⟩ := List.mem_map.mp h
    simp only [Prod.mk.injEq] at he
    obtain ⟨rfl, rfl⟩ := he
    have hj := List.mem_zipIdx_iff_getElem?.mp hm
    obtain ⟨p, hp, hv⟩ := mapM_at hd j b hj
    obtain ⟨hpe, hl⟩ := payload_at _ j p hp
    rw [List.length_drop] at hl
    rw [List.drop_drop] at hpe
    exact ⟨s, x, j, hs, hx, rfl, by rw [← hpe]; exact hv, by omega⟩
  · simp at h

theorem selectedText_mem {ls : List Str} {a i : Nat} {u : Str} (h : selectedText ls a i = some u) :
    ∃ l ∈ ls, typeText l = ['0', '4'] ∧ u = upperText l := by
  unfold selectedText at h
  obtain ⟨l, hl, rfl⟩ := Option.map_eq_some_iff.mp h
  have hm := List.mem_of_getLast? hl
  obtain ⟨h1, h2⟩ := List.mem_filter.mp hm
  exact ⟨l, List.mem_of_mem_take (List.mem_of_mem_drop h1), by simpa using h2, rfl⟩

/-- The upper half is that of a line of type 04, or zero. -/
theorem usedText_mem {starts : List Nat} {ls : List Str} {i s : Nat} (h : half (usedText starts ls i) = some s) :
    s = 0 ∨ ∃ l ∈ ls, typeText l = ['0', '4'] ∧ half (upperText l) = some s := by
  have hz : half ['0', '0', '0', '0'] = some 0 := by decide
  unfold usedText at h
  split at h
  · cases hs : selectedText ls 0 i with
    | none => rw [hs] at h; rw [Option.getD_none, hz] at h; left; simpa using h.symm
    | some u =>
      rw [hs, Option.getD_some] at h
      obtain ⟨l, hl, ht, rfl⟩ := selectedText_mem hs
      exact .inr ⟨l, hl, ht, h⟩
  · rw [hz] at h; left; simpa using h.symm

theorem linesBytes_length (starts : List Nat) (all : List Str) : ∀ (ls : List Str) (k : Nat),
    ((ls.zipIdx k).flatMap fun (l, i) => if typeText l = ['0', '0'] then lineBytes (usedText starts all i) l else []) ≠ [] →
    2 * ((ls.zipIdx k).flatMap fun (l, i) => if typeText l = ['0', '0'] then lineBytes (usedText starts all i) l else []).length + 11 ≤
      (ls.map List.length).sum := by
  intro ls
  induction ls with
  | nil => intro k h; simp at h
  | cons l ls ih =>
    intro k h
    rw [List.zipIdx_cons, List.flatMap_cons] at h ⊢
    rw [List.length_append, List.map_cons, List.sum_cons]
    have ih' := ih (k + 1)
    generalize ((ls.zipIdx (k + 1)).flatMap fun (l, i) => if typeText l = ['0', '0'] then lineBytes (usedText starts all i) l else []) = r at h ih' ⊢
    simp only at h ⊢
    have h1 : ∀ q, q = (if typeText l = ['0', '0'] then lineBytes (usedText starts all k) l else []) → q ≠ [] → 2 * q.length + 11 ≤ l.length := by
      intro q hq hne
      split at hq
      · subst hq; exact lineBytes_length _ _ hne
      · exact absurd hq hne
    generalize hq : (if typeText l = ['0', '0'] then lineBytes (usedText starts all k) l else []) = q at h ⊢
    have h1 := h1 q hq.symm
    by_cases hr : r = []
    · by_cases hq' : q = []
      · rw [hr, hq'] at h; simp at h
      · have := h1 hq'; rw [hr, List.length_nil]; omega
    · by_cases hq' : q = []
      · have := ih' hr; rw [hq', List.length_nil]; omega
      · have := h1 hq'; have := ih' hr; omega

/-- C102 for Intel HEX: whatever the text, the number of CPUs and the interleaving, also if there is an error. -/
theorem C102_ihex {n : Nat} (hn : 0 < n) (text : Str) {sched : List Nat} {o : Outcome} (h : parseFromText n sched text = some (some o)) :
    (∀ a v, o.map a = some v → Written text a v) ∧
    ∀ as : List Nat, as.Nodup → as ≠ [] → (∀ a ∈ as, o.map a ≠ none) → 2 * as.length + 11 ≤ text.length := by
  obtain ⟨hbad, hgood⟩ := C77_text hn text h
  by_cases hall : ∀ l ∈ recognised n (splitLines text), LineSumOk l
  · have hst := fun a v hv => stored_mem (hgood hall) (a := a) (v := v) hv
    obtain ⟨c1, c2⟩ := splitLines_chars text
    constructor
    · intro a v hv
      have hm := hst a v hv
      unfold textBytes linesBytes at hm
      obtain ⟨⟨l, i⟩, hl, hin⟩ := List.mem_flatMap.mp hm
      simp only at hin
      split at hin
      · next ht =>
        have hlm : l ∈ recognised n (splitLines text) := List.fst_mem_of_mem_zipIdx hl
        obtain ⟨m1, m2, m3⟩ := mem_recognised hlm
        obtain ⟨s, x, j, hs, hx, ha, hb, hj⟩ := lineBytes_mem (hall l hlm) hin
        refine ⟨l, x, j, c2 l m1, ?_, ht, hall l hlm, hj, hx, hb, by rw [ha]; omega, ?_⟩
        · exact Classical.byContradiction fun hne => m3 ⟨m2, .inl hne⟩
        · have hdiv : a / 65536 = s := by rw [ha]; omega
          rw [hdiv]
          rcases usedText_mem hs with h0 | ⟨l', hl', ht', hh⟩
          · exact .inl h0
          · obtain ⟨m1', m2', m3'⟩ := mem_recognised hl'
            exact .inr ⟨l', c2 l' m1', Classical.byContradiction fun hne => m3' ⟨m2', .inl hne⟩, ht', hh⟩
      · simp at hin
    · intro as hnd hne has
      have h1 := size_le hst hnd has
      have h2 := List.length_pos_iff.mpr hne
      have h3 := linesBytes_length (startsOf n (recognised n (splitLines text)).length) (recognised n (splitLines text))
        (recognised n (splitLines text)) 0 (fun he => by
          have : (textBytes n (splitLines text)).length = 0 := by unfold textBytes linesBytes; rw [he]; rfl
          omega)
      have h4 := sum_sublist (recognised_sublist hn (splitLines text))
      have h5 : 2 * (textBytes n (splitLines text)).length + 11 ≤ ((recognised n (splitLines text)).map List.length).sum := h3
      omega
  · have : ∃ l ∈ recognised n (splitLines text), ¬ LineSumOk l := by
      apply Classical.byContradiction
      intro hne
      exact hall fun l hl => Classical.byContradiction fun hb => hne ⟨l, hl, hb⟩
    have h0 := (hbad this).2
    refine ⟨fun a v hv => by rw [h0] at hv; simp at hv, fun as _ hne has => ?_⟩
    cases as with
    | nil => exact absurd rfl hne
    | cons a as => exact absurd (h0 a) (has a (by simp))

/-- A segment line and two data lines. -/
def sizeText : Str := ":020000040001F9\n:020000001234B8\n:01000300AA52".toList

-- the byte 170 at 65539 comes from the last line
example : ∃ o, parseFromText 1 (List.replicate 9 0) sizeText = some (some o) ∧ o.err = none ∧ Written sizeText 65539 170 := by
  have hv : (parseFromText 1 (List.replicate 9 0) sizeText).map (·.map fun o => (decide (o.err = none), o.map 65539)) =
    some (some (true, some 170)) := by decide +kernel
  rcases h : parseFromText 1 (List.replicate 9 0) sizeText with _ | _ | o
  · rw [h] at hv; cases hv
  · rw [h] at hv; cases hv
  · rw [h] at hv
    simp only [Option.map_some, Option.some.injEq, Prod.mk.injEq, decide_eq_true_eq] at hv
    exact ⟨o, rfl, hv.1, (C102_ihex (by decide) _ h).1 _ _ hv.2⟩

-- the bound cannot be improved: one byte in a text of 13 characters
example : (parseFromText 1 (List.replicate 9 0) ":01000000AA55".toList).map (·.map fun o => o.map 0) = some (some (some 170)) ∧
    2 * [0].length + 11 = ":01000000AA55".toList.length := by decide +kernel

end Verif.Ihex

namespace Verif.Srec

open Verif.Go Verif.Hex Verif.Hex.Spec Verif.Srec.Spec
open Verif.Ihex (Outcome splitLines splitLines_chars stored_mem size_le payload_at payload_length mapM_at sum_sublist flatMap_sublist)
open Verif.Ihex.Spec (payloadPairs half Clash)

theorem recognised_sublist {n : Nat} (hn : 0 < n) (lines : List Str) : (recognised n lines).Sublist lines := by
  have h1 : (recognised n lines).Sublist ((List.range n).flatMap (Ihex.Spec.workerLines n lines)) :=
    flatMap_sublist (fun i => (List.filter_sublist (l := _)).trans (List.takeWhile_sublist _)) _
  have h2 : (List.range n).flatMap (Ihex.Spec.workerLines n lines) = lines := by
    rw [List.flatMap_def]
    have : (List.range n).map (Ihex.Spec.workerLines n lines) = (List.range n).map (share lines n) :=
      List.map_congr_left fun i hi => (Ihex.workerLines_eq n lines i).symm
    rw [this, flatten_shares lines n hn]
  rwa [h2] at h1

theorem lineBytes_length (l : Str) (h : Spec.lineBytes l ≠ []) : 2 * (Spec.lineBytes l).length + 14 ≤ l.length := by
  unfold Spec.lineBytes at h ⊢
  split at h
  · rw [List.length_map, List.length_zipIdx]
    have h1 : ((payloadPairs (l.drop 12)).filterMap specByte).length ≤ (payloadPairs (l.drop 12)).length := List.length_filterMap_le _ _
    have h2 : payloadPairs (l.drop 12) ≠ [] := fun he => by rw [he] at h; simp at h
    have h3 := payload_length _ h2
    have h4 : 0 < (payloadPairs (l.drop 12)).length := List.length_pos_iff.mpr h2
    rw [List.length_drop] at h3
    omega
  · simp at h

theorem lineBytes_mem {l : Str} {a v : Nat} (hs : LineSumOk l) (h : (a, v) ∈ Spec.lineBytes l) :
    ∃ x y j, half ((l.drop 4).take 4) = some x ∧ half ((l.drop 8).take 4) = some y ∧ a = (x * 65536 + y + j) % 4294967296 ∧
      specByte ((l.drop (12 + 2 * j)).take 2) = some v ∧ 2 * j + 16 ≤ l.length := by
  obtain ⟨_, _, _, _, ds, _, _, _, hd⟩ := lineSumOk_parts hs
  unfold Spec.lineBytes at h
  rw [Ihex.mapM_filterMap _ _ hd] at h
  split at h
  · next x y hx hy =>
    obtain ⟨⟨b, j⟩, hm, he⟩ := List.mem_map.mp h
    simp only [Prod.mk.injEq] at he
    obtain ⟨rfl, rfl⟩ := he
    have hj := List.mem_zipIdx_iff_getElem?.mp hm
    obtain ⟨p, hp, hv⟩ := mapM_at hd j b hj
    obtain ⟨hpe, hl⟩ := payload_at _ j p hp
    rw [List.length_drop] at hl
    rw [List.drop_drop] at hpe
    exact ⟨x, y, j, hx, hy, rfl, by rw [← hpe]; exact hv, by omega⟩
  · simp at h

theorem linesBytes_length : ∀ ls : List Str, ls.flatMap Spec.lineBytes ≠ [] →
    2 * (ls.flatMap Spec.lineBytes).length + 14 ≤ (ls.map List.length).sum := by
  intro ls
  induction ls with
  | nil => intro h; simp at h
  | cons l ls ih =>
    intro h
    rw [List.flatMap_cons] at h ⊢
    rw [List.length_append, List.map_cons, List.sum_cons]
    by_cases hr : ls.flatMap Spec.lineBytes = []
    · have hq : Spec.lineBytes l ≠ [] := fun hq => h (by rw [hr, hq]; rfl)
      have := lineBytes_length l hq
      rw [hr, List.length_nil]; omega
    · have := ih hr
      by_cases hq : Spec.lineBytes l = []
      · rw [hq, List.length_nil]; omega
      · have := lineBytes_length l hq; omega

/-- C102 for S19: whatever the text and the number of CPUs, also if there is an error. -/
theorem C102_srec {n : Nat} (hn : 0 < n) (text : Str) {o : Outcome} (h : parseFromText n text = some o) :
    (∀ a v, o.map a = some v → Written text a v) ∧
    ∀ as : List Nat, as.Nodup → as ≠ [] → (∀ a ∈ as, o.map a ≠ none) → 2 * as.length + 14 ≤ text.length := by
  obtain ⟨o', h', hbad, hgood⟩ := C77_srec_text hn text
  rw [h] at h'
  cases h'
  by_cases hall : ∀ l ∈ recognised n (splitLines text), LineSumOk l
  · have hst := fun a v hv => stored_mem (hgood hall) (a := a) (v := v) hv
    obtain ⟨c1, c2⟩ := splitLines_chars text
    constructor
    · intro a v hv
      have hm := hst a v hv
      unfold Spec.textBytes at hm
      obtain ⟨l, hl, hin⟩ := List.mem_flatMap.mp hm
      obtain ⟨m1, m2, m3⟩ := mem_recognised hl
      obtain ⟨x, y, j, hx, hy, ha, hb, hj⟩ := lineBytes_mem (hall l hl) hin
      exact ⟨l, x, y, j, c2 l m1, m3, hall l hl, hj, hx, hy, hb, ha⟩
    · intro as hnd hne has
      have h1 := size_le hst hnd has
      have h2 := List.length_pos_iff.mpr hne
      have h3 := linesBytes_length (recognised n (splitLines text)) (fun he => by
        have : (Spec.textBytes n (splitLines text)).length = 0 := by unfold Spec.textBytes; rw [he]; rfl
        omega)
      have h4 := sum_sublist (recognised_sublist hn (splitLines text))
      have h5 : 2 * (Spec.textBytes n (splitLines text)).length + 14 ≤ ((recognised n (splitLines text)).map List.length).sum := h3
      omega
  · have : ∃ l ∈ recognised n (splitLines text), ¬ LineSumOk l := by
      apply Classical.byContradiction
      intro hne
      exact hall fun l hl => Classical.byContradiction fun hb => hne ⟨l, hl, hb⟩
    have h0 := (hbad this).2
    refine ⟨fun a v hv => by rw [h0] at hv; simp at hv, fun as _ hne has => ?_⟩
    cases as with
    | nil => exact absurd rfl hne
    | cons a as => exact absurd (h0 a) (has a (by simp))

-- one byte in a text of 16 characters
example : ∃ o, parseFromText 2 "S306000000010AEE".toList = some o ∧ o.err = none ∧ Written "S306000000010AEE".toList 1 10 ∧
    2 * [1].length + 14 = "S306000000010AEE".toList.length := by
  have hv : (parseFromText 2 "S306000000010AEE".toList).map (fun o => (decide (o.err = none), o.map 1)) = some (true, some 10) := by decide +kernel
  rcases h : parseFromText 2 "S306000000010AEE".toList with _ | o
  · rw [h] at hv; cases hv
  · rw [h] at hv
    simp only [Option.map_some, Option.some.injEq, Prod.mk.injEq, decide_eq_true_eq] at hv
    exact ⟨o, rfl, hv.1, (C102_srec (by decide) _ h).1 _ _ hv.2, by decide⟩

end Verif.Srec
