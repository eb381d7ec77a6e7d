import Verif.Conc.A2lRunProps
import Verif.Conc.HexBound
import Verif.A2l.Cost

/-!
C100: the number of steps the A2L parser makes, whatever the scheduler does.
-/

namespace Verif.Conc.A2lRun
open Verif.Go Verif.A2l Lang Oracle Analysis

/-! ### Where the module parser is called -/

/-- The answers `f` and `f'` agree at the words `/begin MODULE`. -/
def AtModules (E : Env) (f f' : Nat → PRes) : Prop := ∀ i, E.current i = beginModuleToken → f i = f' i

/-- The parse functions that are called. -/
def calls : Stmt → List PName
  | .callBuf p => [p]
  | .callField _ p => [p]
  | .seq a b => calls a ++ calls b
  | .ite _ a b => calls a ++ calls b
  | .loop b => calls b
  | _ => []

theorem exec_calls {E : Env} {f f' : Nat → PRes} {K K' : PName → Nat → PRes} (n : Nat) :
    ∀ (b : Stmt), (∀ p ∈ calls b, ∀ i, K p i = K' p i) → ∀ s, exec (withMt E f) K n b s = exec (withMt E f') K' n b s := by
  intro b
  induction b with
  | seq a b iha ihb =>
    intro h s
    simp only [calls, List.mem_append] at h
    rw [exec, exec, iha (fun p hp => h p (.inl hp)) s]
    split
    · exact ihb (fun p hp => h p (.inr hp)) _
    · rfl
  | callBuf p => intro h s; rw [exec, exec, h p (by simp [calls])]
  | callField g p => intro h s; rw [exec, exec, h p (by simp [calls])]
  | ite c a b iha ihb =>
    intro h s
    simp only [calls, List.mem_append] at h
    have hh : ∀ g, holds (withMt E g) s c = holds E s c := by
      intro g
      induction c with
      | or a b iha ihb => simp only [holds, iha, ihb]
      | _ => rfl
    rw [exec, exec, hh, hh, iha (fun p hp => h p (.inl hp)) s, ihb (fun p hp => h p (.inr hp)) s]
  | loop b ih =>
    intro h s
    rw [exec, exec, funext (ih h)]
  | conv c => intro _ s; cases c <;> rfl
  | convRet c => intro _ s; cases c <;> rfl
  | _ => intro _ s; rfl

/-- Only `parseProject` calls `parseModuleMultithreaded`. -/
theorem calls_mt : ∀ p : PName, p ≠ .parseProject → .parseModuleMultithreaded ∉ calls (body p) := by
  intro p hp
  cases p <;> first | exact absurd rfl hp | decide

theorem seq_calls {E E' : Env} {K K' : PName → Nat → PRes} {n : Nat} {a b : Stmt} {s : St} (ha : exec E K n a s = exec E' K' n a s)
    (hb : ∀ s', exec E K n b s' = exec E' K' n b s') : exec E K n (.seq a b) s = exec E' K' n (.seq a b) s := by
  rw [exec, exec, ha]
  split
  · exact hb _
  · rfl

theorem ite_calls {E : Env} {f f' : Nat → PRes} {K K' : PName → Nat → PRes} {n : Nat} {c : Cond} {a b : Stmt} {s : St}
    (ha : holds E s c = true → exec (withMt E f) K n a s = exec (withMt E f') K' n a s)
    (hb : holds E s c = false → exec (withMt E f) K n b s = exec (withMt E f') K' n b s) :
    exec (withMt E f) K n (.ite c a b) s = exec (withMt E f') K' n (.ite c a b) s := by
  have hh : ∀ g, holds (withMt E g) s c = holds E s c := by
    intro g
    clear ha hb
    induction c with
    | or a b iha ihb => simp only [holds, iha, ihb]
    | _ => rfl
  rw [exec, exec, hh, hh]
  cases hc : holds E s c with
  | true => exact ha hc
  | false => exact hb hc

theorem next_word {E : Env} {s : St} {t : Str} (ht : t ≠ emptyToken) (h : (doNext E s).ret = t) : E.current (doNext E s).idx = t := by
  unfold doNext at h ⊢
  split
  · next hn => rw [if_pos hn] at h; exact h
  · next hn => rw [if_neg hn] at h; exact absurd h.symm ht

/-- `parseProject` calls it at the word `/begin MODULE`. -/
theorem project_calls {E : Env} {f f' : Nat → PRes} {K K' : PName → Nat → PRes} (n : Nat)
    (h : ∀ p, p ≠ .parseModuleMultithreaded → ∀ i, K p i = K' p i)
    (hm : ∀ i, E.current i = beginModuleToken → K .parseModuleMultithreaded i = K' .parseModuleMultithreaded i) (s : St) :
    exec (withMt E f) K n (body .parseProject) s = exec (withMt E f') K' n (body .parseProject) s := by
  have hq : ∀ (b : Stmt), .parseModuleMultithreaded ∉ calls b → ∀ s, exec (withMt E f) K n b s = exec (withMt E f') K' n b s := fun b hb =>
    exec_calls n b fun p hp i => h p (fun e => hb (e ▸ hp)) i
  show exec (withMt E f) K n Verif.A2l.parseProject s = exec (withMt E f') K' n Verif.A2l.parseProject s
  unfold Verif.A2l.parseProject
  refine seq_calls ?_ (fun s' => rfl)
  rw [exec, exec]
  congr 1
  funext s
  simp only [blk, switchRet]
  show exec (withMt E f) K n (.seq _ .skip) (doNext E s) = exec (withMt E f') K' n (.seq _ .skip) (doNext E s)
  refine seq_calls ?_ (fun s' => rfl)
  refine ite_calls (fun _ => hq _ ?_ _) (fun _ => ite_calls (fun h2 => ?_) (fun _ => hq _ ?_ _))
  · decide
  · refine seq_calls (ite_calls (fun _ => seq_calls ?_ (fun s' => rfl)) (fun _ => hq _ ?_ _)) (hq _ ?_)
    · have h2 : (doNext E s).ret = beginModuleToken := of_decide_eq_true h2
      rw [exec, exec, hm _ (next_word (by decide) h2)]
    · decide
    · decide
  · decide

theorem run_modules {E : Env} {f f' : Nat → PRes} (h : AtModules E f f') (n : Nat) : ∀ d p i, p ≠ .parseModuleMultithreaded →
    A2l.run (withMt E f) n d p i = A2l.run (withMt E f') n d p i := by
  intro d
  induction d with
  | zero => intro p i _; rfl
  | succ d ih =>
    intro p i hp
    rw [A2l.run, A2l.run, if_neg hp, if_neg hp]
    congr 1
    by_cases hpr : p = .parseProject
    · subst hpr
      refine project_calls n (fun q hq j => ih q j hq) (fun j hj => ?_) _
      cases d with
      | zero => rfl
      | succ d => rw [A2l.run, A2l.run, if_pos rfl, if_pos rfl]; exact h j hj
    · exact exec_calls n _ (fun q hq j => ih q j fun e => calls_mt p hpr (e ▸ hq)) _

/-- The parse of a file uses the answers at the words `/begin MODULE` only. -/
theorem parse_modules {E : Env} {f f' : Nat → PRes} (h : AtModules E f f') :
    parse (withMt E f) .parseA2l 0 = parse (withMt E f') .parseA2l 0 := run_modules h _ _ _ _ (by decide)

/-- `parseModuleMultithreaded` is called at the word `/begin MODULE`. -/
theorem asks_module {I : Input} (hn : 0 < I.np) {ts : List Str} (ht : Tokens I ts) {ans : List (Nat × PRes)} (hf : Fair I ts ans) {j : Nat}
    (h : asks I ts ans j = true) : ts[j]? = some beginModuleToken := by
  apply Classical.byContradiction
  intro hne
  have hx : AtModules (mainEnv I ts fun _ => .panic) (trap ans j) (answers ans) := by
    intro i hi
    unfold trap
    rw [if_neg]
    rintro ⟨rfl, _⟩
    apply hne
    unfold mainEnv Env.current at hi
    dsimp only at hi
    cases hc : ts[i]? with
    | none => rw [hc] at hi; exact absurd hi (by decide)
    | some t => rw [hc] at hi; exact congrArg some hi
  have h1 : parse (mainEnv I ts (trap ans j)) .parseA2l 0 = parse (mainEnv I ts (answers ans)) .parseA2l 0 := parse_modules hx
  unfold asks at h
  rw [h1] at h
  rcases decide_next hn ht hf with ⟨i, v, e, h2, _⟩ | ⟨_, _, _, _, _, h2⟩
  · rw [h2 _ (Extends.refl _)] at h; cases h
  · rw [h2] at h; cases h

/-! ### How much the workers of the module parser send -/

theorem worker_length {E : Env} (hw : Wf E) (hmt : Props.MtGood E) {max : Int} : ∀ (f i : Nat) (l : List (Nat × Val)), i < E.toks.length →
    worker E max f i = some l → (l.length : Int) ≤ (if max ≤ (i : Int) then 0 else max - i) := by
  intro f
  induction f with
  | zero => intro i l _ h; cases h
  | succ f ih =>
    intro i l hi h
    simp only [worker] at h
    split at h
    · cases h; simp; split <;> omega
    · next hm =>
      rw [if_neg hm]
      unfold nextIdx nextTok at h
      cases hn : E.hasNext i with
      | false =>
        simp only [hn, Bool.false_eq_true, if_false] at h
        have hlast : i + 1 = E.toks.length := by
          have := (not_congr (hasNext_iff (E := E) (i := i))).1 (by simp [hn])
          omega
        have hnone : findCase emptyToken 1 channels = none := by
          rw [findCase_none]
          intro c hc
          exact (case_tok hc).1
        have hcur : E.current i = emptyToken := (hw.end_iff hi).2 hlast
        simp only [hnone, hcur, if_true] at h
        cases h
        simp
        omega
      | true =>
        simp only [hn, if_true] at h
        have hlt := hasNext_iff.1 hn
        cases hc : findCase (E.current (i + 1)) 1 channels with
        | some kc =>
          obtain ⟨k, c⟩ := kc
          have hmem := (findCase_some hc).1
          obtain ⟨j, v, e, hp, _, hle, hjl, _⟩ := Props.parse_ok hw hmt c.parser (case_not_mt hmem) (i + 1) hlt
          simp only [hc, hp] at h
          cases e with
          | true => simp only [if_true] at h; cases h; simp; omega
          | false =>
            simp only [Bool.false_eq_true, if_false, Option.map_eq_some_iff] at h
            obtain ⟨l', hl, rfl⟩ := h
            have := ih j l' hjl hl
            simp only [List.length_cons]
            split at this <;> omega
        | none =>
          simp only [hc] at h
          split at h
          · cases h; simp; omega
          · split at h
            · cases h; simp; omega
            · split at h
              · cases h; simp; omega
              · have := ih (i + 1) l hlt h
                split at this <;> omega

theorem sum_le {α : Type} (f : α → Nat) (b : Nat → Nat) : ∀ (l : List α), (∀ k a, l[k]? = some a → f a ≤ b k) →
    (l.map f).sum ≤ ((List.range l.length).map b).sum
  | [], _ => by simp
  | a :: l, h => by
    have h1 := h 0 a rfl
    have h2 := sum_le f (fun k => b (k + 1)) l fun k a hk => h (k + 1) a (by simpa using hk)
    rw [List.length_cons, List.range_succ_eq_map]
    simp only [List.map_cons, List.sum_cons, List.map_map]
    have : (List.map (b ∘ Nat.succ) (List.range l.length)) = List.map (fun k => b (k + 1)) (List.range l.length) := rfl
    rw [this]
    omega

/-- Together the workers send at most as many messages as there are words in the module. -/
theorem scripts_length {E : Env} (hw : Wf E) (hmt : Props.MtGood E) {np start stop : Nat} (hs : start ≤ stop) (he : stop < E.toks.length)
    {ss : List (List (Nat × Val))} (h : scripts E np start stop = some ss) : ss.length = np ∧ (ss.map List.length).sum ≤ stop - start := by
  obtain ⟨ss', h1, h2, h3, _⟩ := scripts_total hw hmt (np := np) hs he
  rw [h] at h1
  cases h1
  refine ⟨h2, ?_⟩
  have hk : ∀ k sc, ss[k]? = some sc → sc.length ≤ if k + 1 = np then stop - minIndex start stop np k else (stop - start) / np := by
    intro k sc hsc
    have hlt : k < np := h2 ▸ (List.getElem?_eq_some_iff.1 hsc).1
    have hmin := minIndex_le hs hlt
    rw [h3 k hlt] at hsc
    have := worker_length hw hmt _ _ _ (by omega) hsc
    unfold maxIndex at this
    generalize (stop - start) / np = q at this ⊢
    split
    · next hl => rw [if_pos hl] at this; split at this <;> omega
    · next hl => rw [if_neg hl] at this; split at this <;> omega
  have hsum := sum_le List.length (fun k => if k + 1 = np then stop - minIndex start stop np k else (stop - start) / np) ss hk
  refine Nat.le_trans hsum ?_
  rw [h2]
  cases np with
  | zero => simp
  | succ n =>
    have h4 : ∀ m, m ≤ n → ((List.range m).map fun k => if k + 1 = n + 1 then stop - minIndex start stop (n + 1) k else (stop - start) / (n + 1)).sum
        = (stop - start) / (n + 1) * m := by
      intro m
      induction m with
      | zero => simp
      | succ m ih =>
        intro hm
        rw [List.range_succ, List.map_append, List.sum_append, ih (by omega)]
        simp only [List.map_cons, List.map_nil, List.sum_cons, List.sum_nil]
        rw [if_neg (by omega), Nat.mul_succ]
        omega
    rw [List.range_succ, List.map_append, List.sum_append, h4 n (Nat.le_refl _)]
    simp only [List.map_cons, List.map_nil, List.sum_cons, List.sum_nil, if_true]
    have := minIndex_le hs (show n < n + 1 by omega)
    unfold minIndex at this ⊢
    omega

theorem collect_left (np : Nat) (ss : List (List (Nat × Val))) :
    (Collect.init (capacities np) ss).left = 3 * (ss.map List.length).sum + ss.length + 54 := by
  unfold Collect.State.left Collect.init
  simp only [List.map_map, List.length_map]
  have h1 : ∀ l : List (List (Nat × Val)), (l.map (Collect.Worker.left ∘ fun s => { todo := s, done := false })).sum
      = 3 * (l.map List.length).sum + l.length := by
    intro l
    induction l with
    | nil => rfl
    | cons a l ih =>
      simp only [List.map_cons, List.sum_cons, List.length_cons, ih, Function.comp, Collect.Worker.left, Bool.false_eq_true, if_false]
      omega
  rw [h1]
  have h2 : ((capacities np).map (Collect.Chan.left ∘ fun c => ({ buf := [], cap := c, closed := false, acc := [], fin := false } : Collect.Chan Val))).sum
      = (capacities np).length := by
    generalize capacities np = l
    induction l with
    | nil => rfl
    | cons a l ih =>
      simp only [List.map_cons, List.sum_cons, List.length_cons, ih, Function.comp, Collect.Chan.left, List.length_nil, Bool.false_eq_true, if_false]
      omega
  rw [h2]
  have h3 : (capacities np).length = 27 := by
    unfold capacities
    rw [List.length_cons, List.length_map]
    rfl
  rw [h3]

/-! ### Steps still to come -/

/-- The words `/begin MODULE` at which the module parser has not been called. -/
def openModules (ts : List Str) (ans : List (Nat × PRes)) : Nat :=
  (List.range ts.length).countP fun j => (ans.lookup j).isNone && decide (ts[j]? = some beginModuleToken)

theorem openModules_cons {ts : List Str} {ans : List (Nat × PRes)} {i : Nat} (hi : ts[i]? = some beginModuleToken) (hn : ans.lookup i = none)
    (r : PRes) : openModules ts ((i, r) :: ans) + 1 ≤ openModules ts ans := by
  unfold openModules
  have key : ∀ l : List Nat,
      (l.countP fun j => (List.lookup j ((i, r) :: ans)).isNone && decide (ts[j]? = some beginModuleToken)) ≤
        l.countP (fun j => (ans.lookup j).isNone && decide (ts[j]? = some beginModuleToken)) ∧
      (i ∈ l → (l.countP fun j => (List.lookup j ((i, r) :: ans)).isNone && decide (ts[j]? = some beginModuleToken)) + 1 ≤
        l.countP (fun j => (ans.lookup j).isNone && decide (ts[j]? = some beginModuleToken))) := by
    intro l
    induction l with
    | nil => simp
    | cons a l ih =>
      obtain ⟨h1, h2⟩ := ih
      simp only [List.countP_cons]
      by_cases ha : a = i
      · subst ha
        simp only [List.lookup_cons, beq_self_eq_true, hn, hi, Option.isNone_some, Option.isNone_none, Bool.false_eq_true, if_false, if_true,
          Bool.false_and, Bool.true_and, decide_true]
        simp only [List.lookup_cons] at h1
        constructor
        · omega
        · intro _; omega
      · have hb : (a == i) = false := by simpa using ha
        have he : List.lookup a ((i, r) :: ans) = ans.lookup a := by rw [List.lookup_cons, hb]
        rw [he]
        refine ⟨by omega, fun hm => ?_⟩
        have := h2 (by simpa [Ne.symm ha] using hm)
        omega
  exact (key _).2 (List.mem_range.2 (List.getElem?_eq_some_iff.1 hi).1)

theorem openModules_congr (ts : List Str) (ans : List (Nat × PRes)) (i : Nat) (r r' : PRes) :
    openModules ts ((i, r) :: ans) = openModules ts ((i, r') :: ans) := by
  unfold openModules
  congr 1
  funext j
  simp only [List.lookup_cons]
  split <;> rfl

theorem openModules_nil (ts : List Str) : openModules ts [] = ts.count beginModuleToken := by
  unfold openModules
  simp only [List.lookup_nil, Option.isNone_none, Bool.true_and]
  rw [List.count_eq_countP]
  have : ts = (List.range ts.length).map fun j => (ts[j]?).getD [] := by
    apply List.ext_getElem?
    intro j
    rw [List.getElem?_map]
    by_cases hj : j < ts.length
    · rw [List.getElem?_range hj, List.getElem?_eq_getElem hj]; simp [hj]
    · rw [List.getElem?_eq_none (by omega), List.getElem?_eq_none (by simpa using hj)]; rfl
  conv => rhs; rw [this]
  rw [List.countP_map]
  apply List.countP_congr
  intro j hj
  rw [List.mem_range] at hj
  simp only [Function.comp, List.getElem?_eq_getElem hj, Option.getD_some, Option.some.injEq, decide_eq_true_eq, beq_iff_eq]

/-- A bound for a call of the module parser. -/
def perCall (np T : Nat) : Nat := 3 * T + np + 56

/-- Steps still to come. -/
def State.left (np : Nat) (ts : List Str) : State → Nat
  | .tokenizing p => p.work + 2 + (if multi ts then ts.count beginModuleToken * perCall np ts.length else 0)
  | .parsing _ ans => 1 + if multi ts then openModules ts ans * perCall np ts.length else 0
  | .inModule _ ans i c => c.left + 2 + if multi ts then openModules ts ((i, .panic) :: ans) * perCall np ts.length else 0
  | .returned _ => 0
  | .crashed => 0

theorem step_left {I : Input} (hn : 0 < I.np) {ts : List Str} (ht : Tokens I ts) {s s' : State} {o : Op} (hi : Inv I ts s)
    (hs : step I s o = some s') : s'.left I.np ts < s.left I.np ts := by
  cases hi with
  | @tokenizing p tss hts h =>
    cases o with
    | chan o =>
      obtain ⟨p', h1, rfl⟩ := Option.map_eq_some_iff.1 hs
      have := Pipeline.step_work h1
      simp only [State.left]; omega
    | main =>
      simp only [step] at hs
      split at hs
      · cases hs
        simp only [State.left, openModules_nil]; omega
      · cases hs
    | call i => cases hs
    | coll o => cases hs
  | @parsing ans hf =>
    cases o with
    | chan o => cases hs
    | coll o => cases hs
    | call i =>
      simp only [step] at hs
      split at hs
      · next ha =>
        cases hs
        have hmod := asks_module hn ht hf ha
        rcases decide_next hn ht hf with ⟨_, _, _, _, h⟩ | ⟨j, hj, hmu, hnone, hiff, _⟩
        · rw [h i] at ha; cases ha
        · obtain rfl := (hiff i).1 ha
          have hone : ∀ r, openModules ts ((i, r) :: ans) * perCall I.np ts.length + perCall I.np ts.length
              ≤ openModules ts ans * perCall I.np ts.length := fun r => by
            have := Nat.mul_le_mul_right (perCall I.np ts.length) (openModules_cons hmod hnone r)
            rwa [Nat.add_mul, Nat.one_mul] at this
          have hp : 0 < perCall I.np ts.length := by unfold perCall; omega
          unfold startModule
          dsimp only
          split
          · next hle =>
            have := hone (.ok (header (workerEnv I ts) i).1 (.obj (header (workerEnv I ts) i).2.1) true)
            simp only [State.left, hmu, if_true]; omega
          · next hle =>
            split
            · simp only [State.left]; omega
            · next ss hss =>
              have hh := header_idx (E := workerEnv I ts) hj
              have hend := endIndex_lt (E := workerEnv I ts) (tokens_pos ht)
              obtain ⟨h1, h2⟩ := scripts_length (tokens_wf ht _ _ _) (Props.mtGood_seq rfl) (by omega) hend hss
              have hcl := collect_left I.np ss
              have := hone .panic
              have hT : endIndex (workerEnv I ts) < ts.length := hend
              simp only [State.left, hmu, if_true]
              unfold perCall at this ⊢
              omega
      · cases hs
    | main =>
      simp only [step] at hs
      split at hs
      · cases hs
      · cases hs; simp only [State.left]; omega
      · cases hs; simp only [State.left]; omega
  | @inModule ans i c hf hi hnew hlt ss hss hch ops hr =>
    have hinv := Collect.run_inv _ _ _ (Collect.inv_init (capacities I.np) ss) hr
    cases o with
    | chan o => cases hs
    | call i => cases hs
    | coll o =>
      obtain ⟨c', h1, rfl⟩ := Option.map_eq_some_iff.1 hs
      have := Collect.step_left hinv h1
      simp only [State.left]; omega
    | main =>
      simp only [step] at hs
      split at hs
      · cases hs; simp only [State.left]; omega
      · split at hs
        · cases hs
          have := openModules_congr ts ans i (endModule I ts i c) .panic
          simp only [State.left, this]; omega
        · cases hs
  | returned h => cases o <;> cases hs

theorem run_left {I : Input} (hn : 0 < I.np) {ts : List Str} (ht : Tokens I ts) {s s' : State} {os : List Op} (hi : Inv I ts s)
    (h : run I s os = some s') : os.length + s'.left I.np ts ≤ s.left I.np ts := by
  induction os generalizing s with
  | nil => cases h; simp
  | cons o os ih =>
    obtain ⟨s1, h1, h2⟩ := Option.bind_eq_some_iff.1 h
    have := ih (step_inv hn ht hi h1) h2
    have := step_left hn ht hi h1
    simp only [List.length_cons]; omega

theorem init_left {I : Input} {ts : List Str} (ht : Tokens I ts) :
    (init I).left I.np ts = 4 * I.np + 2 + (if multi ts then ts.count beginModuleToken * perCall I.np ts.length else 0) := by
  obtain ⟨tss, h1, h2⟩ := tokens_pieces ht
  have hl : tss.length = I.np := by
    unfold Input.pieces at h1
    obtain ⟨parts, hp, hv⟩ := Option.bind_eq_some_iff.1 h1
    rw [shares?_eq] at hp
    cases hp
    have := (HexRun.mapM_some hv).1
    simpa using this
  unfold init
  rw [h1]
  simp only [State.left, Pipeline.init_work, List.map_map, List.length_map]
  have : ∀ l : List (List Str), (l.map (List.length ∘ fun r => [r])).sum = l.length := by
    intro l
    induction l with
    | nil => rfl
    | cons a l ih => simp only [List.map_cons, List.sum_cons, ih, List.length_cons, Function.comp, List.length_nil]; omega
  rw [this]
  omega

/-! ### C100 -/

/-- C100, A2L: every run of the parser on a file with `T` tokens with `n` workers has at most `4 n + 2` steps and `3 T + n + 56` further steps
for each word `/begin MODULE`; the steps of all goroutines included, whatever the scheduler does. -/
theorem C100_a2l {I : Input} (hn : 0 < I.np) {ts : List Str} (ht : tokensOfFile I.graphic I.np I.text = some ts) {os : List Op} {s : State}
    (h : run I (init I) os = some s) : os.length ≤ 4 * I.np + 2 + ts.count (str! "/begin MODULE") * (3 * ts.length + I.np + 56) := by
  have h1 := run_left hn ht (init_inv ht) h
  rw [init_left ht] at h1
  have h2 : (if multi ts then ts.count beginModuleToken * perCall I.np ts.length else 0) ≤
      ts.count (str! "/begin MODULE") * (3 * ts.length + I.np + 56) := by
    split
    · exact Nat.le_refl _
    · exact Nat.zero_le _
  omega

/-- C100, A2L: for a text of `C` characters, fewer than `2 ^ 32 - 1`, there are at most `3 C + 5 n + 61` steps: with several modules the parser
does not start goroutines for them. -/
theorem C100_a2l_text {I : Input} (hn : 0 < I.np) (hc : I.text.length + 1 < 2 ^ 32) {os : List Op} {s : State}
    (h : run I (init I) os = some s) : os.length ≤ 3 * I.text.length + 5 * I.np + 61 := by
  obtain ⟨ts, ht⟩ := tokens_exist I
  have hT := Props.tokens_length _ _ _ _ ht
  have h1 := run_left hn ht (init_inv ht) h
  rw [init_left ht] at h1
  have h2 : (if multi ts then ts.count beginModuleToken * perCall I.np ts.length else 0) ≤ 3 * ts.length + I.np + 56 := by
    split
    · next hm =>
      have hcnt : ts.count beginModuleToken ≤ ts.length := List.count_le_length
      have hmod : ts.count beginModuleToken % 2 ^ 32 = ts.count beginModuleToken := Nat.mod_eq_of_lt (by omega)
      have hm : ¬ 1 < ts.count beginModuleToken := by
        unfold multi at hm
        rw [show beginModule = beginModuleToken from rfl, hmod] at hm
        simpa using hm
      have := Nat.mul_le_mul_right (perCall I.np ts.length) (Nat.not_lt.1 hm)
      rw [Nat.one_mul] at this
      exact this
    · exact Nat.zero_le _
  omega

-- C100 on the run of C84 with two workers and one module: it has 70 steps
example : smallRun.length = 70 ∧ (run small (init small) smallRun).isSome = true := by decide +kernel
example (os : List Op) (s : State) (h : run small (init small) os = some s) : os.length ≤ 360 :=
  Nat.le_trans (C100_a2l_text (by decide) (by decide +kernel) h) (by decide +kernel)

end Verif.Conc.A2lRun
