import Verif.Ihex.Encode

/-!
Further helper lemmas for the Intel HEX properties: lines as byte pairs, which lines are
reached, what the offset workers leave alone, line splitting, letter case.
-/

namespace Verif.Ihex

open Verif.Go Verif.Hex Verif.Hex.Spec Verif.Ihex.Spec

/-! ### Lines of odd length -/

theorem payloadPairs_flatten : ∀ (ps : List Str) (q : Str), (∀ p ∈ ps, p.length = 2) → q.length = 2 →
    payloadPairs (ps.flatten ++ q) = ps := by
  intro ps
  induction ps with
  | nil => intro q _ hq; exact payloadPairs_short (by simp; omega)
  | cons p ps ih =>
    intro q h hq
    have hp := h p (by simp)
    match p, hp with
    | [a, b], _ =>
      rw [payloadPairs_long (by simp; omega)]
      simp only [List.flatten_cons, List.cons_append, List.nil_append, List.take_succ_cons,
        List.take_zero, List.drop_succ_cons, List.drop_zero]
      rw [ih q (fun p' hp' => h p' (by simp [hp'])) hq]

theorem flatten_pairs_length : ∀ (ps : List Str), (∀ p ∈ ps, p.length = 2) →
    ps.flatten.length = 2 * ps.length := by
  intro ps
  induction ps with
  | nil => intro _; rfl
  | cons p ps ih =>
    intro h
    simp only [List.flatten_cons, List.length_append, List.length_cons, h p (by simp),
      ih (fun p' hp' => h p' (by simp [hp']))]
    omega

/-- A line consisting of a colon and at least five pairs: the checked fields are exactly
the pairs. -/
theorem fields_pairs (ps : List Str) (h : ∀ p ∈ ps, p.length = 2) (h5 : 5 ≤ ps.length) :
    fields (':' :: ps.flatten) = ps := by
  match ps, h5 with
  | c :: a :: b :: t :: rest, h5 =>
    have hrest : rest ≠ [] := by
      intro hh; subst hh; simp at h5
    obtain ⟨init, last, rfl⟩ : ∃ init last, rest = init ++ [last] :=
      ⟨rest.dropLast, rest.getLast hrest, (List.dropLast_concat_getLast hrest).symm⟩
    have hc := h c (by simp)
    have ha := h a (by simp)
    have hb := h b (by simp)
    have ht := h t (by simp)
    have hl := h last (by simp)
    have hi : ∀ p ∈ init, p.length = 2 := fun p hp => h p (by simp [hp])
    match c, a, b, t, hc, ha, hb, ht with
    | [c0, c1], [a0, a1], [b0, b1], [t0, t1], _, _, _, _ =>
      have hfl : ([c0, c1] :: [a0, a1] :: [b0, b1] :: [t0, t1] :: (init ++ [last])).flatten
          = c0 :: c1 :: a0 :: a1 :: b0 :: b1 :: t0 :: t1 :: (init.flatten ++ last) := by simp
      rw [hfl]
      unfold fields
      have hlen : (':' :: c0 :: c1 :: a0 :: a1 :: b0 :: b1 :: t0 :: t1 :: (init.flatten ++ last)).length - 2
          = init.flatten.length + 9 := by simp; omega
      rw [hlen]
      simp only [List.drop_succ_cons, List.drop_zero, List.take_succ_cons, List.take_zero,
        payloadPairs_flatten init last hi hl]
      simp

theorem fields_of_odd {l : Str} (h : l.length % 2 = 1) (h11 : 11 ≤ l.length) (hc : l.head? = some ':') :
    ∃ ps : List Str, l = ':' :: ps.flatten ∧ fields l = ps ∧ ∀ p ∈ ps, p.length = 2 := by
  have key : ∀ k (s : Str), s.length = 2 * k → ∃ ps : List Str, s = ps.flatten ∧ ps.length = k ∧
      ∀ p ∈ ps, p.length = 2 := by
    intro k
    induction k with
    | zero => intro s hs; exact ⟨[], List.length_eq_zero_iff.mp (by omega), rfl, by simp⟩
    | succ k ih =>
      intro s hs
      match s, hs with
      | a :: b :: s, hs =>
        obtain ⟨ps, rfl, hl, hp⟩ := ih s (by simp at hs; omega)
        refine ⟨[a, b] :: ps, rfl, by simp [hl], ?_⟩
        intro p hp'
        rcases List.mem_cons.mp hp' with rfl | hp'
        · rfl
        · exact hp p hp'
      | [_], hs => simp at hs; omega
      | [], hs => simp at hs
  match l, hc with
  | ch :: s, hc =>
    simp at hc
    subst hc
    obtain ⟨ps, rfl, hl, hp⟩ := key (s.length / 2) s (by simp at h; omega)
    have : 5 ≤ ps.length := by
      have := flatten_pairs_length ps hp
      rw [List.length_cons] at h11; omega
    exact ⟨ps, rfl, fields_pairs ps hp this, hp⟩

/-- Replacing one byte by another value changes the sum, so at most one of two lines that
differ in one byte has a correct sum. -/
theorem mapM_set {ps : List Str} {bs : List Nat} {k : Nat} {p : Str} {v : Nat}
    (h : ps.mapM specByte = some bs) (hk : k < ps.length) (hp : specByte p = some v) :
    (ps.set k p).mapM specByte = some (bs.set k v) ∧ bs.length = ps.length ∧
      ∃ w, specByte (ps[k]) = some w ∧ bs[k]? = some w := by
  induction ps generalizing bs k with
  | nil => simp at hk
  | cons q ps ih =>
    rw [List.mapM_cons] at h
    cases hq : specByte q with
    | none => rw [hq] at h; simp at h
    | some x =>
      cases hps : ps.mapM specByte with
      | none => rw [hq, hps] at h; simp at h
      | some xs =>
        rw [hq, hps] at h
        simp only [Option.bind_eq_bind, Option.bind_some, Option.pure_def, Option.some.injEq] at h
        subst h
        cases k with
        | zero =>
          have hlen : xs.length = ps.length := by
            have : ∀ (ps : List Str) (xs : List Nat), ps.mapM specByte = some xs → xs.length = ps.length := by
              intro ps
              induction ps with
              | nil => intro xs h; simp at h; subst h; rfl
              | cons q ps ih2 =>
                intro xs h
                rw [List.mapM_cons] at h
                cases hq : specByte q with
                | none => rw [hq] at h; simp at h
                | some x =>
                  cases hps : ps.mapM specByte with
                  | none => rw [hq, hps] at h; simp at h
                  | some ys =>
                    rw [hq, hps] at h
                    simp only [Option.bind_eq_bind, Option.bind_some, Option.pure_def, Option.some.injEq] at h
                    subst h
                    simp [ih2 ys hps]
            exact this ps xs hps
          refine ⟨?_, by simp [hlen], x, by simpa using hq, by simp⟩
          simp [List.mapM_cons, hp, hps]
        | succ k =>
          obtain ⟨h1, h2, w, h3, h4⟩ := ih hps (by simpa using hk)
          refine ⟨?_, by simp [h2], w, by simpa using h3, by simpa using h4⟩
          simp [List.mapM_cons, hq, h1]

theorem sum_set {bs : List Nat} {k v w : Nat} (h : bs[k]? = some w) :
    (bs.set k v).sum + w = bs.sum + v := by
  induction bs generalizing k with
  | nil => simp at h
  | cons b bs ih =>
    cases k with
    | zero => simp at h; subst h; simp; omega
    | succ k =>
      have := ih (k := k) (by simpa using h)
      simp only [List.set_cons_succ, List.sum_cons]; omega

/-! ### Which lines are reached -/

/-- Line `j` is reached by its worker: no malformed line stands between the beginning of
the worker's share and line `j` (inclusive). -/
def Reached (n : Nat) (lines : List Str) (j : Nat) : Prop :=
  ∀ i k l, i < n → lines.length / n * i ≤ k → k ≤ j →
    (j < lines.length / n * i + lines.length / n ∨ i + 1 = n) → lines[k]? = some l → ¬ Malformed l

/-- Every position belongs to some worker. -/
theorem exists_worker {n len j : Nat} (hn : 0 < n) :
    ∃ i, i < n ∧ len / n * i ≤ j ∧ (i + 1 = n ∨ j < len / n * i + len / n) := by
  by_cases hz : len / n = 0
  · exact ⟨n - 1, by omega, by simp [hz], by omega⟩
  · by_cases hlt : j / (len / n) < n
    · refine ⟨j / (len / n), hlt, Nat.mul_div_le _ _, Or.inr ?_⟩
      have := Nat.lt_mul_div_succ j (Nat.pos_of_ne_zero hz)
      rw [Nat.mul_add] at this; omega
    · refine ⟨n - 1, by omega, ?_, Or.inl (by omega)⟩
      have h1 : len / n * (n - 1) ≤ len / n * (j / (len / n)) := Nat.mul_le_mul_left _ (by omega)
      exact Nat.le_trans h1 (Nat.mul_div_le _ _)

theorem mem_takeWhile_of_prefix {p : Str → Bool} {ls : List Str} {m : Nat} {l : Str}
    (h : ls[m]? = some l) (hall : ∀ k x, k ≤ m → ls[k]? = some x → p x = true) :
    l ∈ ls.takeWhile p := by
  induction ls generalizing m with
  | nil => simp at h
  | cons a ls ih =>
    rw [List.takeWhile_cons, if_pos (hall 0 a (by omega) (by simp))]
    cases m with
    | zero => simp at h; simp [h]
    | succ m =>
      exact List.mem_cons_of_mem _ (ih (m := m) (by simpa using h)
        (fun k x hk hx => hall (k + 1) x (by omega) (by simpa using hx)))

theorem reached_recognised {n : Nat} (hn : 0 < n) {lines : List Str} {j : Nat} {l : Str}
    (hr : Reached n lines j) (hj : lines[j]? = some l) (h11 : 11 ≤ l.length) :
    l ∈ recognised n lines := by
  obtain ⟨i, hi, hle, hor⟩ := exists_worker (len := lines.length) (j := j) hn
  simp only [recognised, List.mem_flatMap, List.mem_range]
  refine ⟨i, hi, ?_⟩
  unfold significant
  rw [List.mem_filter]
  refine ⟨?_, by simpa using h11⟩
  have hget : ∀ m, lines.length / n * i + m ≤ j → (workerLines n lines i)[m]? = lines[lines.length / n * i + m]? := by
    intro m hm
    unfold workerLines
    split
    · rw [List.getElem?_drop]
    · next hne =>
      rw [List.getElem?_take, if_pos (by omega), List.getElem?_drop]
  apply mem_takeWhile_of_prefix (m := j - lines.length / n * i)
  · rw [hget _ (by omega), show lines.length / n * i + (j - lines.length / n * i) = j by omega, hj]
  · intro k x hk hx
    rw [hget k (by omega)] at hx
    simpa using hr i (lines.length / n * i + k) x hi (by omega) (by omega) (by omega) hx

/-! ### What the offset workers leave alone -/

/-- A record without its upper address half. -/
def core (r : Record) : Record := { r with offset := zeroOffset }

theorem workerStep_frame {P : Str → Prop} {recs : List Record} {w : Worker}
    (hr : ∀ r ∈ recs, P r.offset) (hw : P w.offs) :
    (workerStep recs w).1.map core = recs.map core ∧
    (∀ r ∈ (workerStep recs w).1, P r.offset) ∧ P (workerStep recs w).2.offs := by
  have hset : ∀ r, recs[w.pos]? = some r →
      (recs.set w.pos { r with offset := w.offs }).map core = recs.map core ∧
      ∀ r' ∈ recs.set w.pos { r with offset := w.offs }, P r'.offset := by
    intro r hget
    constructor
    · apply List.ext_getElem?
      intro i
      rw [List.getElem?_map, List.getElem?_map, set_getElem? hget]
      by_cases hi : i = w.pos
      · subst hi; rw [hget]; simp [core]
      · simp [hi]
    · intro r' hr'
      rcases List.mem_or_eq_of_mem_set hr' with h | rfl
      · exact hr r' h
      · exact hw
  unfold workerStep
  split
  · exact ⟨rfl, hr, hw⟩
  · split
    · exact ⟨rfl, hr, hw⟩
    · next r hget =>
      have hm := hr r (List.mem_of_getElem? hget)
      obtain ⟨hs1, hs2⟩ := hset r hget
      split
      · exact ⟨rfl, hr, hm⟩
      · split
        · split
          · exact ⟨rfl, hr, hw⟩
          · split
            · exact ⟨hs1, hs2, hw⟩
            · split
              · exact ⟨hs1, hs2, hw⟩
              · exact ⟨rfl, hr, hw⟩
        · exact ⟨rfl, hr, hw⟩

theorem runOffsets_frame {P : Str → Prop} (sched : List Nat) : ∀ {s : OffState},
    (∀ r ∈ s.recs, P r.offset) → (∀ w ∈ s.workers, P w.offs) →
    (runOffsets s sched).recs.map core = s.recs.map core ∧
    (∀ r ∈ (runOffsets s sched).recs, P r.offset) := by
  induction sched with
  | nil => intro s h _; exact ⟨rfl, h⟩
  | cons k ks ih =>
    intro s h1 h2
    have hrun : runOffsets s (k :: ks) = runOffsets (offStep s k) ks := rfl
    rw [hrun]
    unfold offStep
    split
    · exact ih h1 h2
    · next w hw =>
      obtain ⟨f1, f2, f3⟩ := workerStep_frame h1 (h2 w (List.mem_of_getElem? hw))
      have := ih (s := { recs := (workerStep s.recs w).1, workers := s.workers.set k (workerStep s.recs w).2 })
        f2 (by
          intro w' hw'
          rcases List.mem_or_eq_of_mem_set hw' with h' | rfl
          · exact h2 w' h'
          · exact f3)
      rw [← f1]
      exact this

/-! ### The early stop in segment 0 -/

/-- If the records begin with a selection of segment 0 and a data record, and every other
worker starts behind the last segment selection, no worker ever writes anything. -/
theorem runOffsets_noWrite {R : List Record} {m : Nat} {e d : Record}
    (h0 : R[0]? = some e) (he : IsEla e) (hez : e.offset = zeroOffset)
    (h1 : R[1]? = some d) (hd : IsData d) (hf : Fresh R)
    (hm : ∀ i r, m ≤ i → R[i]? = some r → ¬ IsEla r)
    {starts : List Nat} (hs : ∀ a ∈ starts, a = 0 ∨ m ≤ a) (sched : List Nat) :
    (runOffsets (initAt starts R) sched).recs = R := by
  let Good (w : Worker) : Prop := w.offs = zeroOffset ∧
    (w.pos = 0 ∨ (w.pos = 1 ∧ w.first = true) ∨ (m ≤ w.pos ∧ w.first = false))
  have key : ∀ (sched : List Nat) (s : OffState), s.recs = R → (∀ w ∈ s.workers, Good w) →
      (runOffsets s sched).recs = R := by
    intro sched
    induction sched with
    | nil => intro s hr _; exact hr
    | cons k ks ih =>
      intro s hr hw
      have hrun : runOffsets s (k :: ks) = runOffsets (offStep s k) ks := rfl
      rw [hrun]
      have hstep : ∀ w ∈ s.workers, (workerStep s.recs w).1 = R ∧ Good (workerStep s.recs w).2 := by
        intro w hwm
        obtain ⟨ho, hp⟩ := hw w hwm
        rw [hr]
        unfold workerStep
        split
        · exact ⟨rfl, ho, hp⟩
        · split
          · exact ⟨rfl, ho, hp⟩
          · next r hget =>
            rcases hp with hp | ⟨hp, hfi⟩ | ⟨hp, hfi⟩
            · rw [hp, h0] at hget
              simp at hget; subst hget
              rw [if_pos he]
              refine ⟨rfl, hez, Or.inr (Or.inl ⟨?_, rfl⟩)⟩
              simp [hp]
            · rw [hp, h1] at hget
              simp at hget; subst hget
              have hdo : d.offset = w.offs := by
                rw [ho]; exact hf d (List.mem_of_getElem? h1) hd
              rw [if_neg (fun he' => not_data_of_ela he' hd), if_pos hd, if_pos ⟨hfi, hdo⟩]
              exact ⟨rfl, ho, Or.inr (Or.inl ⟨hp, hfi⟩)⟩
            · have hne := hm w.pos r hp hget
              rw [if_neg hne]
              split
              · next hdr =>
                have hdo : r.offset = w.offs := by
                  rw [ho]; exact hf r (List.mem_of_getElem? hget) hdr
                rw [if_neg (by simp [hfi]), if_neg (by simp [hfi]), if_neg (by simp [hdo])]
                refine ⟨rfl, ho, Or.inr (Or.inr ⟨?_, hfi⟩)⟩
                simp; omega
              · refine ⟨rfl, ho, Or.inr (Or.inr ⟨?_, hfi⟩)⟩
                simp; omega
      unfold offStep
      split
      · exact ih s hr hw
      · next w hwk =>
        obtain ⟨g1, g2⟩ := hstep w (List.mem_of_getElem? hwk)
        apply ih
        · exact g1
        · intro w' hw'
          rcases List.mem_or_eq_of_mem_set hw' with h' | rfl
          · exact hw w' h'
          · exact g2
  apply key
  · rfl
  · intro w hw
    simp only [initAt, List.mem_map] at hw
    obtain ⟨a, ha, rfl⟩ := hw
    refine ⟨rfl, ?_⟩
    rcases hs a ha with rfl | h
    · exact Or.inl rfl
    · exact Or.inr (Or.inr ⟨h, rfl⟩)

/-! ### Splitting into lines -/

/-- Lines joined by a separator, as a text file has them. -/
def joinLines (sep : Str) : List Str → Str
  | [] => []
  | [l] => l
  | l :: ls => l ++ sep ++ joinLines sep ls

theorem splitOn1_append {c : Char} : ∀ (l : Str) (rest : Str), c ∉ l →
    splitOn1 c (l ++ c :: rest) = l :: splitOn1 c rest := by
  intro l
  induction l with
  | nil => intro rest _; simp [splitOn1]
  | cons x l ih =>
    intro rest h
    simp only [List.mem_cons, not_or] at h
    rw [List.cons_append, splitOn1, if_neg (fun hh => h.1 hh.symm), ih rest h.2]

theorem splitOn1_none {c : Char} : ∀ (l : Str), c ∉ l → splitOn1 c l = [l] := by
  intro l
  induction l with
  | nil => intro _; rfl
  | cons x l ih =>
    intro h
    simp only [List.mem_cons, not_or] at h
    rw [splitOn1, if_neg (fun hh => h.1 hh.symm), ih h.2]

theorem splitOn2_append {c d : Char} : ∀ (l : Str) (rest : Str), c ∉ l →
    splitOn2 c d (l ++ c :: d :: rest) = l :: splitOn2 c d rest := by
  intro l
  induction l with
  | nil => intro rest _; simp [splitOn2]
  | cons x l ih =>
    intro rest h
    simp only [List.mem_cons, not_or] at h
    have hih := ih rest h.2
    cases l with
    | nil =>
      simp only [List.cons_append, List.nil_append] at hih ⊢
      rw [splitOn2, if_neg (fun hh => h.1 hh.1.symm), hih]
    | cons y l =>
      simp only [List.cons_append] at hih ⊢
      rw [splitOn2, if_neg (fun hh => h.1 hh.1.symm), hih]

theorem splitOn2_none {c d : Char} : ∀ (l : Str), c ∉ l → splitOn2 c d l = [l] := by
  intro l
  induction l with
  | nil => intro _; rfl
  | cons x l ih =>
    intro h
    simp only [List.mem_cons, not_or] at h
    have hih := ih h.2
    cases l with
    | nil => rfl
    | cons y l => rw [splitOn2, if_neg (fun hh => h.1 hh.1.symm), hih]

theorem splitOn1_ne_nil (c : Char) (t : Str) : splitOn1 c t ≠ [] := by
  cases t with
  | nil => simp [splitOn1]
  | cons x t =>
    unfold splitOn1
    split
    · simp
    · split <;> simp

theorem joinLines_cons {sep l : Str} {ls : List Str} (h : ls ≠ []) :
    joinLines sep (l :: ls) = l ++ sep ++ joinLines sep ls := by
  cases ls with
  | nil => exact absurd rfl h
  | cons _ _ => rfl

theorem splitOn1_join {c : Char} : ∀ (ls : List Str), ls ≠ [] → (∀ l ∈ ls, c ∉ l) →
    splitOn1 c (joinLines [c] ls) = ls := by
  intro ls
  induction ls with
  | nil => intro h; exact absurd rfl h
  | cons l ls ih =>
    intro _ h
    by_cases hls : ls = []
    · subst hls; exact splitOn1_none l (h l (by simp))
    · rw [joinLines_cons hls, List.append_assoc]
      rw [List.singleton_append, splitOn1_append l _ (h l (by simp)),
        ih hls (fun l' hl' => h l' (by simp [hl']))]

theorem splitOn2_join {c d : Char} : ∀ (ls : List Str), ls ≠ [] → (∀ l ∈ ls, c ∉ l) →
    splitOn2 c d (joinLines [c, d] ls) = ls := by
  intro ls
  induction ls with
  | nil => intro h; exact absurd rfl h
  | cons l ls ih =>
    intro _ h
    by_cases hls : ls = []
    · subst hls; exact splitOn2_none l (h l (by simp))
    · rw [joinLines_cons hls, List.append_assoc]
      rw [List.cons_append, List.singleton_append, splitOn2_append l _ (h l (by simp)),
        ih hls (fun l' hl' => h l' (by simp [hl']))]

theorem joinLines_not_mem {c : Char} {sep : Str} (hs : c ∉ sep) : ∀ (ls : List Str), (∀ l ∈ ls, c ∉ l) →
    c ∉ joinLines sep ls := by
  intro ls
  induction ls with
  | nil => intro _; simp [joinLines]
  | cons l ls ih =>
    intro h
    by_cases hls : ls = []
    · subst hls; exact h l (by simp)
    · rw [joinLines_cons hls]
      simp [hs, h l (by simp), ih (fun l' hl' => h l' (by simp [hl']))]

theorem splitLines_crlf {ls : List Str} (hne : ls ≠ []) (h : ∀ l ∈ ls, '\r' ∉ l ∧ '\n' ∉ l) :
    splitLines (joinLines ['\r', '\n'] ls) = ls := by
  unfold splitLines
  rw [splitOn2_join ls hne (fun l hl => (h l hl).1)]
  simp only
  split
  · next h1 =>
    match ls, h1 with
    | [l], _ => exact splitOn1_none l (h l (by simp)).2
  · rfl

theorem splitLines_lf {ls : List Str} (hne : ls ≠ []) (h : ∀ l ∈ ls, '\r' ∉ l ∧ '\n' ∉ l) :
    splitLines (joinLines ['\n'] ls) = ls := by
  unfold splitLines
  rw [splitOn2_none _ (joinLines_not_mem (by decide) ls (fun l hl => (h l hl).1))]
  simp only [List.length_singleton, if_true]
  exact splitOn1_join ls hne (fun l hl => (h l hl).2)

/-! ### Letter case -/

theorem specByte_toLower {a b : Char} {v : Nat} (h : specByte [a, b] = some v) :
    specByte [a.toLower, b.toLower] = some v := by
  obtain ⟨a', ha, b', hb, heq⟩ := specByte_mem h
  simp at heq
  obtain ⟨rfl, rfl⟩ := heq
  have : ∀ a ∈ digitChars, ∀ b ∈ digitChars,
      (match specByte [a, b] with
        | some v => decide (specByte [a.toLower, b.toLower] = some v)
        | none => true) = true := by decide +kernel
  have := this a ha b hb
  rw [h] at this
  simpa using this

theorem specByte_toUpper {a b : Char} {v : Nat} (h : specByte [a, b] = some v) :
    specByte [a.toUpper, b.toUpper] = some v := by
  obtain ⟨a', ha, b', hb, heq⟩ := specByte_mem h
  simp at heq
  obtain ⟨rfl, rfl⟩ := heq
  have : ∀ a ∈ digitChars, ∀ b ∈ digitChars,
      (match specByte [a, b] with
        | some v => decide (specByte [a.toUpper, b.toUpper] = some v)
        | none => true) = true := by decide +kernel
  have := this a ha b hb
  rw [h] at this
  simpa using this

/-- A change of letters that keeps colons and the value of every byte. -/
structure CaseMap (f : Char → Char) : Prop where
  colon : f ':' = ':'
  byte : ∀ a b v, specByte [a, b] = some v → specByte [f a, f b] = some v

theorem caseMap_toLower : CaseMap Char.toLower := ⟨by decide, fun _ _ _ h => specByte_toLower h⟩
theorem caseMap_toUpper : CaseMap Char.toUpper := ⟨by decide, fun _ _ _ h => specByte_toUpper h⟩

theorem CaseMap.pairBytes {f : Char → Char} (hf : CaseMap f) : ∀ (bs : List Nat) (s : Str),
    Spec.pairBytes s = some bs → Spec.pairBytes (s.map f) = some bs := by
  intro bs
  induction bs with
  | nil =>
    intro s h
    have := pairBytes_length _ _ h
    have hs : s = [] := List.length_eq_zero_iff.mp (by simpa using this)
    subst hs; rfl
  | cons x xs ih =>
    intro s h
    obtain ⟨a, b, rest, rfl, h1, h2⟩ := pairBytes_nonempty h
    simp only [List.map_cons]
    unfold Spec.pairBytes
    rw [hf.byte a b x h1, ih rest h2]

theorem CaseMap.decodeLine {f : Char → Char} (hf : CaseMap f) {l : Str} {rc : Rec}
    (h : Spec.decodeLine l = some rc) : Spec.decodeLine (l.map f) = some rc := by
  unfold Spec.decodeLine at h
  split at h
  · next body =>
    split at h
    · next cnt ah al ty d rest hp =>
      have hp' := hf.pairBytes _ _ hp
      rw [List.map_cons, hf.colon]
      unfold Spec.decodeLine
      simp only
      rw [hp']
      exact h
    · simp at h
  · simp at h

theorem CaseMap.file {f : Char → Char} (hf : CaseMap f) {lines : List Str} (h : WellFormed lines) :
    WellFormed (lines.map (·.map f)) ∧ Spec.recs (lines.map (·.map f)) = Spec.recs lines := by
  have hsig : significant (lines.map (·.map f)) = (significant lines).map (·.map f) := by
    unfold significant
    rw [List.filter_map]
    congr 1
    apply List.filter_congr
    intro l _
    simp
  constructor
  · intro l hl
    rw [hsig, List.mem_map] at hl
    obtain ⟨l', hl', rfl⟩ := hl
    obtain ⟨rc, hd, he⟩ := h l' hl'
    exact ⟨rc, hf.decodeLine hd, he⟩
  · unfold Spec.recs
    rw [hsig]
    have : ∀ ls : List Str, (∀ l ∈ ls, WellFormedLine l) →
        (ls.map (·.map f)).filterMap Spec.decodeLine = ls.filterMap Spec.decodeLine := by
      intro ls
      induction ls with
      | nil => intro _; rfl
      | cons l ls ih =>
        intro h
        obtain ⟨rc, hd, _⟩ := h l (by simp)
        rw [List.map_cons, List.filterMap_cons_some (hf.decodeLine hd), List.filterMap_cons_some hd,
          ih (fun l' hl' => h l' (by simp [hl']))]
    exact this _ h

end Verif.Ihex
