import Verif.A2l.Module
import Verif.A2l.ParseProps

/-!
Lemmas about the parallel module parser: the workers return, and what arrives at the
collectors.
-/

namespace Verif.A2l
open Verif.Go Lang Verif.Conc Analysis

/-! ### The table of kinds -/

theorem findCase_some {t : Str} {cs : List ModCase} {k0 k : Nat} {c : ModCase}
    (h : findCase t k0 cs = some (k, c)) : c ∈ cs ∧ c.tok = t ∧ k0 ≤ k ∧ cs[k - k0]? = some c := by
  induction cs generalizing k0 with
  | nil => cases h
  | cons d cs ih =>
    simp only [findCase] at h
    split at h
    · rename_i hd
      simp only [Option.some.injEq, Prod.mk.injEq] at h
      obtain ⟨rfl, rfl⟩ := h
      exact ⟨by simp, hd, Nat.le_refl _, by simp⟩
    · obtain ⟨h1, h2, h3, h4⟩ := ih h
      refine ⟨by simp [h1], h2, by omega, ?_⟩
      have : k - k0 = (k - (k0 + 1)) + 1 := by omega
      rw [this]
      simpa using h4

theorem findCase_none {t : Str} {cs : List ModCase} {k0 : Nat} :
    findCase t k0 cs = none ↔ ∀ c ∈ cs, c.tok ≠ t := by
  induction cs generalizing k0 with
  | nil => simp [findCase]
  | cons d cs ih =>
    simp only [findCase]
    split
    · rename_i hd; simp [hd]
    · rename_i hd; simp [hd, ih]

/-- No object parser is the parallel module parser. -/
theorem case_not_mt {c : ModCase} (h : c ∈ channels) : c.parser ≠ .parseModuleMultithreaded := by
  have : channels.all (fun c => decide (c.parser ≠ .parseModuleMultithreaded)) = true := by decide +kernel
  simpa using List.all_eq_true.1 this c h

/-- The opening tokens are none of the tokens treated otherwise. -/
theorem case_tok {c : ModCase} (h : c ∈ channels) :
    c.tok ≠ emptyToken ∧ c.tok ≠ endModuleToken ∧ isKeyword c.tok = true := by
  have : channels.all (fun c => decide (c.tok ≠ emptyToken ∧ c.tok ≠ endModuleToken ∧
    isKeyword c.tok = true)) = true := by decide +kernel
  simpa using List.all_eq_true.1 this c h

theorem channels_length : channels.length = 26 := by decide

theorem capacities_length (np : Nat) : (capacities np).length = 27 := by
  simp [capacities, channels_length]

theorem capacities_pos {np : Nat} (hn : 0 < np) : ∀ c ∈ capacities np, 0 < c := by
  intro c hc
  simp only [capacities, List.mem_cons] at hc
  rcases hc with rfl | hc
  · exact hn
  · have : (channels.map (·.cap)).all (fun c => decide (0 < c)) = true := by decide +kernel
    simpa using List.all_eq_true.1 this c hc

/-- The collectors write different fields, and none of them is written otherwise. -/
theorem channels_fields : (channels.map (·.field) ++
    ["errors", "Name", "nameSet", "longIdentifier", "longIdentifierSet"]).Nodup := by decide +kernel

/-- Exactly the fields with a key are the maps made at the start. -/
theorem mapFields_eq : (channels.filter (·.key.isSome)).map (·.field) = mapFields := by decide +kernel

/-! ### The workers return -/

theorem worker_mono {E : Env} {max : Int} : ∀ (f f' i : Nat) l, worker E max f i = some l → f ≤ f' →
    worker E max f' i = some l := by
  intro f
  induction f with
  | zero => intro f' i l h; cases h
  | succ f ih =>
    intro f' i l h hle
    obtain ⟨g, rfl⟩ : ∃ g, f' = g + 1 := ⟨f' - 1, by omega⟩
    simp only [worker] at h ⊢
    by_cases hm : max ≤ (i : Int)
    · rw [if_pos hm] at h ⊢
      exact h
    · rw [if_neg hm] at h ⊢
      cases hf : findCase (nextTok E i) 1 channels with
      | some kc =>
        obtain ⟨k, c⟩ := kc
        rw [hf] at h
        simp only at h ⊢
        split at h
        · rename_i j v e hp
          split at h
          · rename_i he; simp only [he, if_true]; exact h
          · rename_i he
            simp only [he, Bool.false_eq_true, if_false]
            simp only [Option.map_eq_some_iff] at h ⊢
            obtain ⟨a, h1, h2⟩ := h
            exact ⟨a, ih g j a h1 (by omega), h2⟩
        · cases h
      | none =>
        rw [hf] at h
        simp only at h ⊢
        split at h
        · rename_i h1; rw [if_pos h1]; exact h
        · rename_i h1
          rw [if_neg h1]
          split at h
          · rename_i h2; rw [if_pos h2]; exact h
          · rename_i h2
            rw [if_neg h2]
            split at h
            · rename_i h3; rw [if_pos h3]; exact h
            · rename_i h3
              rw [if_neg h3]
              exact ih g _ l h (by omega)

/-- Every message goes to an existing channel. -/
theorem worker_chans {E : Env} {max : Int} : ∀ (f i : Nat) l, worker E max f i = some l →
    ∀ m ∈ l, m.1 < 27 := by
  intro f
  induction f with
  | zero => intro i l h; cases h
  | succ f ih =>
    intro i l h m hm
    simp only [worker] at h
    split at h
    · cases h; simp at hm
    · split at h
      · rename_i k c hf
        split at h
        · rename_i j v e hp
          split at h
          · cases h
            simp only [List.mem_singleton] at hm
            subst hm
            decide
          · simp only [Option.map_eq_some_iff] at h
            obtain ⟨a, h1, rfl⟩ := h
            simp only [List.mem_cons] at hm
            rcases hm with rfl | hm
            · obtain ⟨_, _, h3, h4⟩ := findCase_some hf
              rcases Nat.lt_or_ge (k - 1) channels.length with h5 | h5
              · rw [channels_length] at h5
                show k < 27
                omega
              · rw [List.getElem?_eq_none h5] at h4; cases h4
            · exact ih j a h1 m hm
        · cases h
      · split at h
        · cases h
          simp only [List.mem_singleton] at hm
          subst hm
          decide
        · split at h
          · cases h; simp at hm
          · split at h
            · cases h; simp at hm
            · exact ih _ l h m hm

theorem hasNext_iff {E : Env} {i : Nat} : E.hasNext i = true ↔ i + 1 < E.toks.length := by
  simp [Env.hasNext]

theorem worker_total {E : Env} (hw : Wf E) (hmt : Props.MtGood E) {max : Int} : ∀ (f i : Nat),
    i < E.toks.length → E.toks.length - i < f → ∃ l, worker E max f i = some l := by
  intro f
  induction f with
  | zero => intro i _ h; omega
  | succ f ih =>
    intro i hi hf
    simp only [worker]
    split
    · exact ⟨_, rfl⟩
    · unfold nextIdx nextTok
      cases hn : E.hasNext i with
      | false =>
        simp only [Bool.false_eq_true, if_false]
        have hlast : i + 1 = E.toks.length := by
          have := (not_congr (hasNext_iff (E := E) (i := i))).1 (by simp [hn])
          omega
        have hnone : findCase emptyToken 1 channels = none := by
          rw [findCase_none]
          intro c hc
          exact (case_tok hc).1
        have hcur : E.current i = emptyToken := (hw.end_iff hi).2 hlast
        simp only [hnone, hcur, if_true]
        exact ⟨_, rfl⟩
      | true =>
        simp only [if_true]
        have hlt := hasNext_iff.1 hn
        cases hc : findCase (E.current (i + 1)) 1 channels with
        | some kc =>
          obtain ⟨k, c⟩ := kc
          have hmem := (findCase_some hc).1
          obtain ⟨j, v, e, hp, _, hle, hjl, _⟩ := Props.parse_ok hw hmt c.parser (case_not_mt hmem) (i + 1) hlt
          simp only [hp]
          cases e with
          | true => exact ⟨_, rfl⟩
          | false =>
            obtain ⟨l, hl⟩ := ih j hjl (by omega)
            exact ⟨_, by simp only [Bool.false_eq_true, if_false, hl]; rfl⟩
        | none =>
          simp only []
          split
          · exact ⟨_, rfl⟩
          · split
            · exact ⟨_, rfl⟩
            · split
              · exact ⟨_, rfl⟩
              · exact ih (i + 1) hlt (by omega)

/-! ### Start and end -/

theorem nextIdx_lt {E : Env} {i : Nat} (h : i < E.toks.length) : nextIdx E i < E.toks.length := by
  unfold nextIdx
  split
  · rename_i hh; exact hasNext_iff.1 hh
  · exact h

theorem nextIdx_le (E : Env) (i : Nat) : i ≤ nextIdx E i := by
  unfold nextIdx; split <;> omega

theorem header_idx {E : Env} {i : Nat} (h : i < E.toks.length) :
    i ≤ (header E i).1 ∧ (header E i).1 < E.toks.length := by
  have h1 := nextIdx_lt h
  have h2 := nextIdx_lt h1
  have h3 := nextIdx_le E i
  have h4 := nextIdx_le E (nextIdx E i)
  unfold header
  simp only
  split
  · exact ⟨h3, h1⟩
  · split
    · exact ⟨by simp only; omega, h2⟩
    · exact ⟨by simp only; omega, h2⟩

theorem endIndex_lt {E : Env} (h : 0 < E.toks.length) : endIndex E < E.toks.length := by
  unfold endIndex
  cases hf : E.toks.findIdx? (· = endModuleToken) with
  | none => simpa using h
  | some k =>
    simp only [Option.getD_some]
    exact List.findIdx?_eq_some_iff_getElem.1 hf |>.1

theorem minIndex_le {start stop np k : Nat} (h : start ≤ stop) (hk : k < np) :
    start ≤ minIndex start stop np k ∧ minIndex start stop np k ≤ stop := by
  unfold minIndex
  have h1 : (stop - start) / np * k ≤ (stop - start) / np * np := Nat.mul_le_mul_left _ (by omega)
  have h2 : (stop - start) / np * np ≤ stop - start := Nat.div_mul_le_self _ _
  omega

theorem mapM_range {α : Type} (f : Nat → Option α) : ∀ n, (∀ k < n, ∃ a, f k = some a) →
    ∃ l, (List.range n).mapM f = some l ∧ l.length = n ∧ ∀ k < n, l[k]? = f k := by
  intro n
  induction n with
  | zero => intro _; exact ⟨[], rfl, rfl, fun k hk => by omega⟩
  | succ n ih =>
    intro h
    obtain ⟨l, h1, h2, h3⟩ := ih (fun k hk => h k (by omega))
    obtain ⟨a, ha⟩ := h n (by omega)
    refine ⟨l ++ [a], ?_, by simp [h2], ?_⟩
    · rw [List.range_succ, List.mapM_append, h1]
      simp [ha]
    · intro k hk
      rcases Nat.lt_or_ge k n with hlt | hge
      · rw [List.getElem?_append_left (by omega), h3 k hlt]
      · have : k = n := by omega
        subst this
        rw [List.getElem?_append_right (by omega), h2, ha]
        simp

/-- All workers return. -/
theorem scripts_total {E : Env} (hw : Wf E) (hmt : Props.MtGood E) {np start stop : Nat}
    (hs : start ≤ stop) (he : stop < E.toks.length) :
    ∃ ss, scripts E np start stop = some ss ∧ ss.length = np ∧
      (∀ k < np, ss[k]? = worker E (maxIndex start stop np k) (E.toks.length + 1) (minIndex start stop np k)) ∧
      (∀ sc ∈ ss, ∀ m ∈ sc, m.1 < (capacities np).length) := by
  obtain ⟨ss, h1, h2, h3⟩ := mapM_range (fun k => worker E (maxIndex start stop np k)
    (E.toks.length + 1) (minIndex start stop np k)) np (fun k hk => by
      have := minIndex_le hs hk
      exact worker_total hw hmt _ _ (by omega) (by omega))
  refine ⟨ss, h1, h2, h3, fun sc hsc m hm => ?_⟩
  obtain ⟨k, hk, rfl⟩ := List.getElem_of_mem hsc
  have h4 := h3 k (by omega)
  rw [List.getElem?_eq_getElem hk] at h4
  rw [capacities_length]
  exact worker_chans _ _ _ h4.symm m hm

/-! ### What a complete run gives -/

/-- A complete run of `parseModuleMultithreaded` past the check for the end token. -/
theorem mtModule_cases {E : Env} (hw : Wf E) (hmt : Props.MtGood E) {np : Nat}
    {sched : List Collect.Op} {i : Nat} (hi : i < E.toks.length)
    (hc : mtModule E np sched i ≠ .timeout) :
    (endIndex E ≤ (header E i).1 ∧ mtModule E np sched i = .ok (header E i).1 (.obj (header E i).2.1) true) ∨
    ((header E i).1 < endIndex E ∧ ∃ ss s,
      scripts E np (header E i).1 (endIndex E) = some ss ∧
      Collect.run (Collect.init (capacities np) ss) sched = some s ∧ s.finished = true ∧
      Collect.Inv (capacities np) ss s ∧
      mtModule E np sched i = .ok (endIndex E)
        (.obj (if received s errChan = [] then collectAll (received s) 1 channels (header E i).2.1
          else (collectAll (received s) 1 channels (header E i).2.1).set "errors" (.list (received s errChan))))
        ((header E i).2.2 || !(received s errChan).isEmpty)) := by
  unfold mtModule at hc ⊢
  simp only at hc ⊢
  split
  · rename_i h; exact Or.inl ⟨h, rfl⟩
  · rename_i h
    right
    refine ⟨by omega, ?_⟩
    rw [if_neg h] at hc
    obtain ⟨ss, h1, _, _, _⟩ := scripts_total (np := np) hw hmt (start := (header E i).1) (stop := endIndex E)
      (by omega) (endIndex_lt (by omega))
    rw [h1] at hc ⊢
    simp only at hc ⊢
    cases hr : Collect.run (Collect.init (capacities np) ss) sched with
    | none => rw [hr] at hc; exact absurd rfl hc
    | some s =>
      have hinv := Collect.run_inv _ _ _ (Collect.inv_init (capacities np) ss) hr
      rw [hr] at hc
      simp only [hinv.crash, Bool.false_eq_true, if_false] at hc ⊢
      cases hf : s.finished with
      | false => rw [hf] at hc; exact absurd rfl hc
      | true =>
        simp only [if_true]
        exact ⟨ss, s, rfl, hr, hf, hinv, rfl⟩

/-- What a collector has received was sent by a worker on its channel, and the other way
round. -/
theorem received_iff {np : Nat} {ss : List (List (Nat × Val))} {s : Collect.State Val}
    (hinv : Collect.Inv (capacities np) ss s) (hf : s.finished = true) {k : Nat} (hk : k < 27) (v : Val) :
    v ∈ received s k ↔ ∃ sc ∈ ss, (k, v) ∈ sc := by
  have hlt : k < s.chans.length := by rw [hinv.clen, capacities_length]; exact hk
  have hc : s.chans[k]? = some s.chans[k] := List.getElem?_eq_getElem hlt
  obtain ⟨h1, h2⟩ := Collect.delivered hinv hf k _ hc
  simp only [received, hc]
  constructor
  · intro hv
    simp only [List.mem_map] at hv
    obtain ⟨⟨i, v'⟩, hv, rfl⟩ := hv
    have hil := h2 _ hv
    have h3 := h1 i _ (List.getElem?_eq_getElem hil)
    have h4 : v' ∈ Collect.fromWorker i s.chans[k].acc := by
      simp only [Collect.fromWorker, List.mem_map, List.mem_filter]
      exact ⟨(i, v'), ⟨hv, by simp⟩, rfl⟩
    rw [h3] at h4
    simp only [Collect.onChan, List.mem_map, List.mem_filter, decide_eq_true_eq] at h4
    obtain ⟨⟨k', v''⟩, ⟨h5, rfl⟩, rfl⟩ := h4
    exact ⟨_, List.getElem_mem hil, h5⟩
  · rintro ⟨sc, hsc, hm⟩
    obtain ⟨i, hil, rfl⟩ := List.getElem_of_mem hsc
    have h3 := h1 i _ (List.getElem?_eq_getElem hil)
    have h4 : v ∈ Collect.onChan k ss[i] := by
      simp only [Collect.onChan, List.mem_map, List.mem_filter, decide_eq_true_eq]
      exact ⟨(k, v), ⟨hm, rfl⟩, rfl⟩
    rw [← h3] at h4
    simp only [Collect.fromWorker, List.mem_map, List.mem_filter] at h4
    obtain ⟨x, ⟨h5, _⟩, rfl⟩ := h4
    exact List.mem_map.2 ⟨x, h5, rfl⟩

/-! ### The fields of the collected module -/

theorem set_same (o : Obj) (f : String) (v : Val) : (o.set f v) f = v := by simp [Obj.set]

theorem set_other {o : Obj} {f g : String} {v : Val} (h : g ≠ f) : (o.set f v) g = o g := by
  simp [Obj.set, h]

theorem collectOne_other {c : ModCase} {o : Obj} {v : Val} {g : String} (h : g ≠ c.field) :
    (collectOne c o v) g = o g := by
  unfold collectOne
  cases c.key with
  | some key => exact set_other h
  | none => exact set_other h

theorem foldl_other {c : ModCase} {g : String} (h : g ≠ c.field) : ∀ (l : List Val) (o : Obj),
    (l.foldl (collectOne c) o) g = o g := by
  intro l
  induction l with
  | nil => intro o; rfl
  | cons v l ih => intro o; rw [List.foldl_cons, ih, collectOne_other h]

theorem collectAll_other {acc : Nat → List Val} {g : String} : ∀ (cs : List ModCase) (k : Nat) (o : Obj),
    g ∉ cs.map (·.field) → (collectAll acc k cs o) g = o g := by
  intro cs
  induction cs with
  | nil => intro k o _; rfl
  | cons c cs ih =>
    intro k o h
    simp only [List.map_cons, List.mem_cons, not_or] at h
    rw [collectAll, ih _ _ h.2, foldl_other h.1]

/-- A field written by a collector holds what that collector alone makes of it. -/
theorem collectAll_field {acc : Nat → List Val} : ∀ (cs : List ModCase) (k : Nat) (o : Obj) (j : Nat) (c : ModCase),
    (cs.map (·.field)).Nodup → cs[j]? = some c →
    (collectAll acc k cs o) c.field = ((acc (k + j)).foldl (collectOne c) o) c.field := by
  intro cs
  induction cs with
  | nil => intro k o j c _ h; simp at h
  | cons d cs ih =>
    intro k o j c hnd hj
    simp only [List.map_cons, List.nodup_cons] at hnd
    cases j with
    | zero =>
      simp only [List.getElem?_cons_zero, Option.some.injEq] at hj
      subst hj
      rw [collectAll, collectAll_other _ _ _ hnd.1, Nat.add_zero]
    | succ j =>
      simp only [List.getElem?_cons_succ] at hj
      rw [collectAll, ih (k + 1) _ j c hnd.2 hj]
      have hne : c.field ≠ d.field := by
        intro h
        exact hnd.1 (by rw [← h]; exact List.mem_map.2 ⟨c, List.mem_of_getElem? hj, rfl⟩)
      have : k + 1 + j = k + (j + 1) := by omega
      rw [this]
      -- the value of the field depends only on the old value of the field
      suffices h : ∀ (l : List Val) (o o' : Obj), o c.field = o' c.field →
          (l.foldl (collectOne c) o) c.field = (l.foldl (collectOne c) o') c.field from
        h _ _ _ (foldl_other hne _ _)
      intro l
      induction l with
      | nil => intro o o' h; exact h
      | cons v l ihl =>
        intro o o' h
        rw [List.foldl_cons, List.foldl_cons]
        apply ihl
        unfold collectOne
        cases c.key with
        | some key =>
          simp only [set_same]
          unfold Obj.map
          rw [h]
        | none => simp only [set_same]

/-- The map a collector makes: the last object under a name. -/
theorem foldl_map {c : ModCase} {key : String} (hk : c.key = some key) : ∀ (l : List Val) (o : Obj),
    (∃ m, o c.field = .map m) → ∃ m, (l.foldl (collectOne c) o) c.field = .map m ∧
      ∀ name, m name = ((l.filter (fun v => v.strField key = name)).getLast?).or (o.map c.field name) := by
  intro l
  induction l with
  | nil =>
    rintro o ⟨m, hm⟩
    exact ⟨m, hm, fun name => by simp [Obj.map, hm]⟩
  | cons v l ih =>
    rintro o ⟨m, hm⟩
    have hone : (collectOne c o v) c.field = .map (mapSet (o.map c.field) (v.strField key) v) := by
      unfold collectOne
      rw [hk]
      exact set_same _ _ _
    obtain ⟨m', h1, h2⟩ := ih (collectOne c o v) ⟨_, hone⟩
    refine ⟨m', by rw [List.foldl_cons]; exact h1, fun name => ?_⟩
    rw [h2 name]
    have hmap : (collectOne c o v).map c.field = mapSet (o.map c.field) (v.strField key) v := by
      unfold Obj.map
      rw [hone]
      rfl
    rw [hmap]
    by_cases hv : v.strField key = name
    · rw [List.filter_cons_of_pos (by simpa using hv)]
      cases hl : l.filter (fun v => v.strField key = name) with
      | nil => simp [mapSet, hv]
      | cons w r =>
        simp [List.getLast?_cons]
    · rw [List.filter_cons_of_neg (by simpa using hv)]
      congr 1
      unfold mapSet
      rw [if_neg (fun h => hv h.symm)]

theorem foldl_single {c : ModCase} (hk : c.key = none) (l : List Val) (o : Obj) :
    (l.foldl (collectOne c) o) c.field = (l.getLast?).getD (o c.field) := by
  induction l generalizing o with
  | nil => rfl
  | cons v l ih =>
    rw [List.foldl_cons, ih]
    have : (collectOne c o v) c.field = v := by
      unfold collectOne; rw [hk]; exact set_same _ _ _
    rw [this, List.getLast?_cons]
    rfl

/-! ### The new module -/

theorem newModule_fields : (∀ f ∈ mapFields, newModule f = .map fun _ => none) ∧
    ∀ f ∉ mapFields, newModule f = .zero := by
  have gen : ∀ (fs : List String) (o : Obj), (∀ f, f ∈ fs → (fs.foldl (fun o f => o.set f (.map fun _ => none)) o) f = .map fun _ => none) ∧
      ∀ f, f ∉ fs → (fs.foldl (fun o f => o.set f (.map fun _ => none)) o) f = o f := by
    intro fs
    induction fs with
    | nil => intro o; exact ⟨fun f h => by simp at h, fun f _ => rfl⟩
    | cons g fs ih =>
      intro o
      rw [List.foldl_cons]
      obtain ⟨h1, h2⟩ := ih (o.set g (.map fun _ => none))
      constructor
      · intro f hf
        by_cases hin : f ∈ fs
        · exact h1 f hin
        · rw [h2 f hin]
          have : f = g := by
            rcases List.mem_cons.1 hf with h | h
            · exact h
            · exact absurd h hin
          subst this
          exact set_same _ _ _
      · intro f hf
        simp only [List.mem_cons, not_or] at hf
        rw [h2 f hf.2, set_other hf.1]
  exact ⟨(gen mapFields Obj.empty).1, fun f hf => (gen mapFields Obj.empty).2 f hf⟩

theorem key_field {n : Nat} {c : ModCase} {key : String} (hn : channels[n]? = some c) (hk : c.key = some key) :
    c.field ∈ mapFields := by
  rw [← mapFields_eq]
  exact List.mem_map.2 ⟨c, List.mem_filter.2 ⟨List.mem_of_getElem? hn, by simp [hk]⟩, rfl⟩

theorem single_field {n : Nat} {c : ModCase} (hn : channels[n]? = some c) (hk : c.key = none) :
    c.field ∉ mapFields := by
  have h : channels.all (fun c => c.key.isSome || decide (c.field ∉ mapFields)) = true := by decide +kernel
  have := List.all_eq_true.1 h c (List.mem_of_getElem? hn)
  simpa [hk] using this

theorem newModule_map {n : Nat} {c : ModCase} {key : String} {o : Obj} (hn : channels[n]? = some c)
    (hk : c.key = some key) (ho : o c.field = newModule c.field) : ∃ m, o c.field = .map m :=
  ⟨_, by rw [ho, newModule_fields.1 _ (key_field hn hk)]⟩

theorem newModule_single {n : Nat} {c : ModCase} (hn : channels[n]? = some c) (hk : c.key = none) :
    newModule c.field = .zero := newModule_fields.2 _ (single_field hn hk)

end Verif.A2l
