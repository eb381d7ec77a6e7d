import Verif.A2l.Origin
import Verif.A2l.FileProps

/-!
C75: nothing is invented.
-/

namespace Verif.A2l.Origin
open Verif.Go Verif.A2l Lang Spec Verif.Conc

theorem base_numbers {E : Env} (hf : E.floatOk [] = false) : Base E E.toks (Written E.toks) false where
  sub := fun _ h => h
  flt := hf
  num := by
    intro t ht c z h
    refine ⟨t, ht, ?_⟩
    cases c with
    | uint b => obtain ⟨n, h1, _, h2⟩ := h; exact Or.inl ⟨n, h1, h2⟩
    | int b => exact h.1
    | float => exact h.elim
  all := fun h => (by cases h)

theorem base_words {E : Env} (hf : E.floatOk [] = false) : Base E E.toks (fun _ => True) true where
  sub := fun _ h => h
  flt := hf
  num := fun _ _ _ _ _ => trivial
  all := fun _ _ => trivial

section
variable {E : Env} {T : List Str} {I : Int → Prop}

theorem worker_from (hB : Base E T I false) (hs : E.multi = false) {max : Int} : ∀ fuel i l, worker E max fuel i = some l →
    ∀ q ∈ l, From T I q.2 := by
  intro fuel
  induction fuel with
  | zero => intro i l h; simp [worker] at h
  | succ fuel ih =>
    intro i l h q hq
    simp only [worker] at h
    split at h
    · injection h with h; subst h; simp at hq
    · split at h
      · rename_i k c hc
        split at h
        · rename_i j v e hp
          split at h
          · injection h with h; subst h
            rw [List.mem_singleton.1 hq]; exact .zero
          · rename_i he
            rw [Option.map_eq_some_iff] at h
            obtain ⟨l', h1, h2⟩ := h
            subst h2
            rcases List.mem_cons.1 hq with rfl | hq
            · refine run_from hB (fun hm => (by rw [hs] at hm; cases hm)) _ _ c.parser ?_ _ _ _ _ hp (Or.inr (by simpa using he))
              have := case_not_mt (findCase_some hc).1
              simp [callable, this]
            · exact ih _ _ h1 q hq
        · simp at h
      · split at h
        · injection h with h; subst h
          rw [List.mem_singleton.1 hq]; exact .zero
        · split at h
          · injection h with h; subst h; simp at hq
          · split at h
            · injection h with h; subst h; simp at hq
            · exact ih _ _ h q hq

theorem mapM_mem {α β : Type} {f : α → Option β} : ∀ {l : List α} {r : List β}, l.mapM f = some r → ∀ b ∈ r, ∃ a ∈ l, f a = some b := by
  intro l
  induction l with
  | nil => intro r h b hb; simp only [List.mapM_nil] at h; injection h with h; subst h; simp at hb
  | cons a l ih =>
    intro r h b hb
    rw [List.mapM_cons] at h
    cases h1 : f a with
    | none => rw [h1] at h; cases h
    | some x =>
      cases h2 : l.mapM f with
      | none => rw [h1, h2] at h; cases h
      | some y =>
        rw [h1, h2] at h
        injection h with h
        subst h
        rcases List.mem_cons.1 hb with rfl | hb
        · exact ⟨a, List.mem_cons_self, h1⟩
        · obtain ⟨a', h3, h4⟩ := ih h2 b hb
          exact ⟨a', List.mem_cons_of_mem _ h3, h4⟩

theorem newModule_from : ∀ f, From T I (newModule f) := by
  have : ∀ (fs : List String) (o : Obj), (∀ f, From T I (o f)) → ∀ f, From T I (fs.foldl (fun o f => o.set f (.map fun _ => none)) o f) := by
    intro fs
    induction fs with
    | nil => intro o h; exact h
    | cons g fs ih => intro o h; exact ih _ (set_from h (.map fun k v hv => (by cases hv)))
  exact this _ _ fun _ => .zero

theorem header_from (hB : Base E T I false) (i : Nat) : ∀ f, From T I ((header E i).2.1 f) := by
  unfold header
  simp only
  split
  · exact newModule_from
  · have h1 := set_from (f := "nameSet") (set_from (f := "Name") newModule_from (word hB (current_mem hB (nextIdx E i)))) (.bool true)
    split
    · exact h1
    · exact set_from (set_from h1 (word hB (current_mem hB _))) (.bool true)

theorem collectOne_from {c : ModCase} {o : Obj} {v : Val} (ho : ∀ f, From T I (o f)) (hv : From T I v) : ∀ f, From T I (collectOne c o v f) := by
  unfold collectOne
  cases c.key with
  | some key =>
    refine set_from ho (.map fun k w hw => ?_)
    unfold mapSet at hw
    split at hw
    · injection hw with hw; rw [← hw]; exact hv
    · have hm := ho c.field
      unfold Obj.map at hw
      revert hm hw
      cases o c.field with
      | map m =>
        intro hw hm
        cases hm with
        | map h => exact h k w hw
      | _ => intro hw _; cases hw
  | none => exact set_from ho hv

theorem collectAll_from {acc : Nat → List Val} : ∀ (cs : List ModCase) (k : Nat) (o : Obj),
    (∀ n, k ≤ n → n < k + cs.length → ∀ v ∈ acc n, From T I v) → (∀ f, From T I (o f)) → ∀ f, From T I (collectAll acc k cs o f) := by
  intro cs
  induction cs with
  | nil => intro k o _ h; exact h
  | cons c cs ih =>
    intro k o ha ho
    simp only [collectAll]
    refine ih _ _ (fun n h1 h2 => ha n (by omega) (by simp only [List.length_cons]; omega)) ?_
    have : ∀ (l : List Val) (o : Obj), (∀ v ∈ l, From T I v) → (∀ f, From T I (o f)) → ∀ f, From T I (l.foldl (collectOne c) o f) := by
      intro l
      induction l with
      | nil => intro o _ h; exact h
      | cons v l ih => intro o hl h; exact ih _ (fun w hw => hl w (List.mem_cons_of_mem _ hw)) (collectOne_from h (hl v List.mem_cons_self))
    exact this _ _ (ha k (Nat.le_refl _) (by simp only [List.length_cons]; omega)) ho

theorem mt_from (hB : Base E T I false) (hs : E.multi = false) {np : Nat} {sched : List Collect.Op} {i j : Nat} {v : Val} {e : Bool}
    (h : mtModule E np sched i = .ok j v e) : From T I v := by
  unfold mtModule at h
  simp only at h
  split at h
  · injection h with _ h _
    rw [← h]; exact .obj (header_from hB i)
  · split at h
    · cases h
    · rename_i ss hss
      split at h
      · cases h
      · rename_i s hrun
        split at h
        · cases h
        · split at h
          · rename_i hfin
            injection h with _ h _
            have hinv := Collect.run_inv _ _ _ (Collect.inv_init (capacities np) ss) hrun
            have hrec : ∀ n < 27, ∀ v ∈ received s n, From T I v := by
              intro n hn v hv
              obtain ⟨sc, hsc, hm⟩ := (received_iff hinv hfin hn v).1 hv
              obtain ⟨k, _, hk⟩ := mapM_mem hss sc hsc
              exact worker_from hB hs _ _ _ hk _ hm
            have hall := collectAll_from (acc := received s) channels 1 (header E i).2.1
              (fun n _ h2 => hrec n (by rw [channels_length] at h2; omega)) (header_from hB i)
            rw [← h]
            refine .obj ?_
            split
            · exact hall
            · exact set_from hall (.list (hrec _ (by decide)))
          · cases h

end

end Verif.A2l.Origin

namespace Verif.A2l.Props
open Verif.Go Verif.A2l Lang Spec Origin Verif.Conc

/-- C75: whatever a parse function returns without error, all of it stands in the text: every text is made of words of the text,
every number is the decimal notation of one of its words, every floating point number is one of its words. -/
theorem C75_nothing_invented {E : Env} (hf : E.floatOk [] = false) (hs : E.multi = false) {p : PName} (hp : p ≠ .parseModuleMultithreaded)
    {i j : Nat} {v : Val} (h : Returns E p i (.ok j v false)) : From E.toks (Written E.toks) v := by
  obtain ⟨_, n, d, hr⟩ := h
  have hrun := hr n d (Nat.le_refl _) (Nat.le_refl _)
  exact run_from (base_numbers hf) (fun hm => (by rw [hs] at hm; cases hm)) n d p (by simp [callable, hp]) _ _ _ _ hrun (Or.inr rfl)

/-- C75 with modules read in parallel, whatever the number of workers and the schedule. -/
theorem C75_parallel {E : Env} (hf : E.floatOk [] = false) (hs : E.multi = false) {np : Nat} {sched : Nat → List Collect.Op} {p : PName}
    {i j : Nat} {v : Val} (h : Returns (mtEnv E np sched) p i (.ok j v false)) : From E.toks (Written E.toks) v := by
  obtain ⟨_, n, d, hr⟩ := h
  have hrun := hr n d (Nat.le_refl _) (Nat.le_refl _)
  exact run_from (E := mtEnv E np sched) (base_numbers (E := mtEnv E np sched) hf)
    (fun _ i j v e hmt _ => mt_from (base_numbers hf) hs hmt) n d p (by simp [callable, mtEnv]) _ _ _ _ hrun (Or.inr rfl)

/-- C75 for results with an error: the words are still those of the text; numbers may be any, see `C75_false_error`. -/
theorem C75_words {E : Env} (hf : E.floatOk [] = false) (hs : E.multi = false) {p : PName} (hp : p ≠ .parseModuleMultithreaded)
    {i j : Nat} {v : Val} {e : Bool} (h : Returns E p i (.ok j v e)) : From E.toks (fun _ => True) v := by
  obtain ⟨_, n, d, hr⟩ := h
  have hrun := hr n d (Nat.le_refl _) (Nat.le_refl _)
  exact run_from (base_words hf) (fun hm => (by rw [hs] at hm; cases hm)) n d p (by simp [callable, hp]) _ _ _ _ hrun (Or.inl rfl)

/-- C74 and C75: an object takes nothing from outside its own text. -/
theorem C75_own {E : Env} {pre own post : List Str} (hE : E.toks = pre ++ own ++ post) (hpost : post ≠ [])
    (hf : E.floatOk [] = false) (hs : E.multi = false)
    {p : PName} (hp : p ≠ .parseModuleMultithreaded) (hp' : p ≠ .parseA2l) (h1 : p ≠ .parseMatrixDim)
    (h2 : p ≠ .parseFrameMeasurement) {last : Nat} (hl : last + 1 = own.length) {v : Val}
    (h : Returns E p pre.length (.ok (pre.length + last) v false)) : From own (Written own) v := by
  have := C74_own_text (E' := { E with toks := own }) (pre' := []) (post' := []) hE hpost (by simp) rfl rfl hp hp'
    (fun hm => by rw [hs] at hm; cases hm) h1 h2 hl h
  exact C75_nothing_invented (E := { E with toks := own }) hf hs hp this

/-! ### The hypotheses can be met -/

/-- A file with a block and, at its end, a number that is too large. -/
def originEnv : Env := ⟨[(str! "x"), (str! "/begin MOD_COMMON"), (str! "\"c\""), (str! "ALIGNMENT_WORD"), (str! "002"),
  (str! "/end MOD_COMMON"), (str! "y"), (str! "LEFT_SHIFT"), (str! "99999999999"), []], fun _ => false, false, fun _ => .panic⟩

/-- What the struct of a result has in a field. -/
def fieldOf (f : String) : PRes → Val
  | .ok _ (.obj o) _ => o f
  | _ => .zero

theorem accepted_of {E : Env} {p : PName} {i j : Nat} (h : accepted (parse E p i) j = true) :
    ∃ o, parse E p i = .ok j (.obj o) false ∧ Returns E p i (.ok j (.obj o) false) := by
  obtain ⟨o, ho⟩ := accepted_ok h
  exact ⟨o, ho, returns_of_run ho (by simp)⟩

/-- C75 on the example: the block is accepted, its number is 2, and 2 is written in the file and in the text of the block. -/
example : ∃ o : Obj, Returns originEnv .parseModCommon 1 (.ok 5 (.obj o) false) ∧
    From originEnv.toks (Written originEnv.toks) (.obj o) ∧
    From [(str! "/begin MOD_COMMON"), (str! "\"c\""), (str! "ALIGNMENT_WORD"), (str! "002"), (str! "/end MOD_COMMON")]
      (Written [(str! "/begin MOD_COMMON"), (str! "\"c\""), (str! "ALIGNMENT_WORD"), (str! "002"), (str! "/end MOD_COMMON")]) (.obj o) ∧
    (match o "AlignmentWord" with | .obj a => Obj.int a "AlignmentBorder" | _ => 0) = 2 := by
  obtain ⟨o, ho, hr⟩ := accepted_of (E := originEnv) (p := .parseModCommon) (i := 1) (j := 5) (by decide +kernel)
  have h2 : (match fieldOf "AlignmentWord" (parse originEnv .parseModCommon 1) with | .obj a => Obj.int a "AlignmentBorder" | _ => 0) = 2 := by
    decide +kernel
  rw [ho] at h2
  exact ⟨o, hr, C75_nothing_invented rfl rfl (by decide) hr,
    C75_own (pre := [(str! "x")]) (post := [(str! "y"), (str! "LEFT_SHIFT"), (str! "99999999999"), []]) (last := 4) rfl (by decide) rfl rfl
      (by decide) (by decide) (by decide) (by decide) rfl hr, h2⟩

/-- C75 says nothing about numbers in results with an error: for the number 99999999999 the struct has 4294967295, which is not
in the file. -/
theorem C75_false_error : ∃ o : Obj, Returns originEnv .parseLeftShift 7 (.ok 8 (.obj o) true) ∧
    o.int "bitcount" = 4294967295 ∧ ¬ Written originEnv.toks 4294967295 := by
  have h1 : (match parse originEnv .parseLeftShift 7 with | .ok 8 (.obj o) true => Obj.int o "bitcount" | _ => 0) = 4294967295 := by decide +kernel
  split at h1
  · rename_i o hp
    refine ⟨o, returns_of_run hp (by simp), h1, ?_⟩
    rintro ⟨t, ht, hi⟩
    have h3 := (Decl.parseInt_ok t 64 4294967295).2 ⟨hi, by decide, by decide⟩
    have h4 : originEnv.toks.all (fun t => decide (parseInt t 64 ≠ (4294967295, true))) = true := by decide +kernel
    have := List.all_eq_true.1 h4 t ht
    rw [h3] at this
    simp at this
  · simp at h1

/-- The example file of C34, with two workers and one schedule. -/
def originFile : Env := ⟨wholeFile.toks, fun _ => false, false, fun _ => .panic⟩

/-- C75 in parallel on the example file of C34. -/
example : ∃ o : Obj, Returns (mtEnv originFile 2 fun _ => simpleSched 2 [0, 1] [24, 24]) .parseA2l 0 (.ok 16 (.obj o) false) ∧
    From originFile.toks (Written originFile.toks) (.obj o) := by
  obtain ⟨o, _, hr⟩ := accepted_of (E := mtEnv originFile 2 fun _ => simpleSched 2 [0, 1] [24, 24]) (p := .parseA2l) (i := 0) (j := 16)
    (by decide +kernel)
  exact ⟨o, hr, C75_parallel rfl rfl hr⟩

/-- C74 on the example: the block is read from another place with the same result. -/
example : ∃ o : Obj, Returns originEnv .parseModCommon 1 (.ok 5 (.obj o) false) ∧
    Returns ⟨[(str! "/begin MOD_COMMON"), (str! "\"c\""), (str! "ALIGNMENT_WORD"), (str! "002"), (str! "/end MOD_COMMON")],
      fun _ => false, false, fun _ => .panic⟩ .parseModCommon 0 (.ok 4 (.obj o) false) := by
  obtain ⟨o, _, hr⟩ := accepted_of (E := originEnv) (p := .parseModCommon) (i := 1) (j := 5) (by decide +kernel)
  refine ⟨o, hr, ?_⟩
  exact C74_own_text (E := originEnv) (E' := ⟨_, fun _ => false, false, fun _ => .panic⟩) (pre := [(str! "x")]) (own := [(str! "/begin MOD_COMMON"), (str! "\"c\""), (str! "ALIGNMENT_WORD"),
      (str! "002"), (str! "/end MOD_COMMON")]) (post := [(str! "y"), (str! "LEFT_SHIFT"), (str! "99999999999"), []]) (pre' := []) (post' := [])
    (last := 4) rfl (by decide) rfl rfl rfl (by decide) (by decide) (by decide) (by decide) (by decide) rfl hr

/-- The two functions that look one token ahead: the text `MATRIX_DIM 3` is accepted before a keyword and rejected at the end of the
file; before another number the result is another one. -/
theorem C74_exception :
    (∃ o : Obj, Returns (fileEnv [(str! "MATRIX_DIM"), (str! "3"), (str! "/end MEASUREMENT")]) .parseMatrixDim 0 (.ok 1 (.obj o) false)) ∧
    (∃ o : Obj, Returns (fileEnv [(str! "MATRIX_DIM"), (str! "3")]) .parseMatrixDim 0 (.ok 2 (.obj o) true)) ∧
    (∃ o : Obj, Returns (fileEnv [(str! "FRAME_MEASUREMENT"), (str! "a"), (str! "/end FRAME")]) .parseFrameMeasurement 0 (.ok 1 (.obj o) false)) ∧
    (∃ o : Obj, Returns (fileEnv [(str! "FRAME_MEASUREMENT"), (str! "a")]) .parseFrameMeasurement 0 (.ok 2 (.obj o) true)) := by
  have hbad : ∀ {E : Env} {p : PName} {i j : Nat}, (match parse E p i with | .ok k (.obj _) e => decide (k = j) && e | _ => false) = true →
      ∃ o : Obj, Returns E p i (.ok j (.obj o) true) := by
    intro E p i j h
    split at h
    · rename_i k o e hp
      simp only [Bool.and_eq_true, decide_eq_true_eq] at h
      obtain ⟨rfl, rfl⟩ := h
      exact ⟨o, returns_of_run hp (by simp)⟩
    · cases h
  refine ⟨?_, hbad (by decide +kernel), ?_, hbad (by decide +kernel)⟩
  · obtain ⟨o, _, hr⟩ := accepted_of (E := fileEnv [(str! "MATRIX_DIM"), (str! "3"), (str! "/end MEASUREMENT")]) (p := .parseMatrixDim)
      (i := 0) (j := 1) (by decide +kernel)
    exact ⟨o, hr⟩
  · obtain ⟨o, _, hr⟩ := accepted_of (E := fileEnv [(str! "FRAME_MEASUREMENT"), (str! "a"), (str! "/end FRAME")]) (p := .parseFrameMeasurement)
      (i := 0) (j := 1) (by decide +kernel)
    exact ⟨o, hr⟩

/-- `C74_ahead` on the example: MATRIX_DIM with the token after it. -/
example : ∃ o : Obj, Returns ⟨[(str! "a"), (str! "MATRIX_DIM"), (str! "3"), (str! "/end MEASUREMENT")], fun _ => true, false, fun _ => .panic⟩
    .parseMatrixDim 1 (.ok 2 (.obj o) false) := by
  obtain ⟨o, _, hr⟩ := accepted_of (E := fileEnv [(str! "MATRIX_DIM"), (str! "3"), (str! "/end MEASUREMENT")]) (p := .parseMatrixDim)
    (i := 0) (j := 1) (by decide +kernel)
  refine ⟨o, ?_⟩
  exact C74_ahead (E' := ⟨_, fun _ => true, false, fun _ => .panic⟩) (E := fileEnv [(str! "MATRIX_DIM"), (str! "3"), (str! "/end MEASUREMENT")]) (pre := []) (own := [(str! "MATRIX_DIM"), (str! "3")])
    (next := (str! "/end MEASUREMENT")) (post := [[]]) (pre' := [(str! "a")]) (post' := []) (last := 1) rfl (by decide) rfl rfl rfl
    (by decide) (by decide) (by decide) rfl hr

end Verif.A2l.Props
