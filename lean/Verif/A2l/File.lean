import Verif.A2l.Shared
import Verif.A2l.ModProps2
import Verif.A2l.LooseProps2

/-!
Whole A2L files: what `parseA2l` and `parseProject` read, and what does not depend on the choice of
the module parser.
-/

namespace Verif.A2l.FileSpec
open Verif.Go Lang

/-- What a file consists of outside its blocks (a2l/a2l.go:30-34): opening token, parse function,
field of the Go struct `A2L`. -/
def heads : List (Str × PName × String) := [
  ((str! "ASAP2_VERSION"), .parseASAP2Version, "Asap2Version"),
  ((str! "A2ML_VERSION"), .parseA2MLVersion, "A2mlVersion"),
  ((str! "/begin PROJECT"), .parseProject, "Project")]

/-- `Top E i o j o'`: the tokens from position `i` to the end of the file, at `j`, are version numbers,
projects and words that are no keywords; they turn the values `o` into `o'`. -/
inductive Top (E : Env) : Nat → Obj → Nat → Obj → Prop
  | stop {i o} : E.toks[i]? = some [] → Top E i o i o
  | word {i o j o' t} : E.toks[i]? = some t → t ≠ [] → t ∉ keywords → t ∉ heads.map (·.1) → Top E (i + 1) o j o' →
      Top E i o j o'
  | part {i o j o' e t p f v} : E.toks[i]? = some t → (t, p, f) ∈ heads → Returns E p i (.ok e v false) →
      Top E (e + 1) (o.set f v) j o' → Top E i o j o'

/-- A module found in a project: positions of `/begin MODULE` and of the token on which its parser stops,
and its value. -/
structure Mod where
  pos : Nat
  stop : Nat
  val : Val

/-- The modules follow each other between the positions `a` and `b`. -/
def InOrder : Nat → Nat → List Mod → Prop
  | a, b, [] => a ≤ b
  | a, b, m :: ms => a < m.pos ∧ m.pos ≤ m.stop ∧ InOrder m.stop b ms

end Verif.A2l.FileSpec

namespace Verif.A2l.File
open Verif.Go Lang FileSpec Template Props Analysis Decl

variable {E : Env} {K : PName → Nat → PRes} {n : Nat}

/-- A version number or a project in `parseA2l`. -/
def part (E : Env) (K : PName → Nat → PRes) (s : St) (p : PName) (f : String) : Out :=
  match K p s.idx with
  | .ok i v e =>
    if e then .ok { s with idx := i, obj := s.obj.set f v, err := e } .brk
    else .ok (doNext E { s with idx := i, obj := s.obj.set f v, err := e }) .cont
  | .panic => .panic
  | .timeout => .timeout

/-- The loop body of `parseA2l`. -/
def round (E : Env) (K : PName → Nat → PRes) (s : St) : Out :=
  if E.current s.idx = asap2VersionToken then part E K s .parseASAP2Version "Asap2Version"
  else if E.current s.idx = a2mlVersionToken then part E K s .parseA2MLVersion "A2mlVersion"
  else if E.current s.idx = beginProjectToken then part E K s .parseProject "Project"
  else if E.current s.idx = [] then .ok s .brk
  else if isKeyword (E.current s.idx) then .ok { s with err := true } .brk
  else .ok (doNext E s) .cont

theorem exec_part (s : St) (p : PName) (f : String) :
    (match exec E K n (blk [.callField f p, .ite .errNe (blk [.brk]) (blk [])]) s with
      | .ok s' .cont => exec E K n (blk [.next]) s'
      | r => r) = part E K s p f := by
  simp only [exec_blk_cons, exec_blk_nil, exec, holds, part]
  cases K p s.idx with
  | ok i v e => cases e <;> rfl
  | panic => rfl
  | timeout => rfl

/-- The loop body as it stands in `A2l.parseA2l`. -/
def loopBody : Stmt := match A2l.parseA2l with
  | .seq (.loop b) _ => b
  | _ => .skip

theorem exec_loopBody (s : St) : exec E K n loopBody s = round E K s := by
  show (match exec E K n (switchCur _ _) s with
      | .ok s' .cont => exec E K n (blk [.next]) s'
      | r => r) = _
  simp only [switchCur]
  unfold round
  by_cases h1 : E.current s.idx = asap2VersionToken
  · rw [if_pos h1, exec, if_pos (by simpa [holds] using h1), exec_part]
  rw [if_neg h1, exec, if_neg (by simpa [holds] using h1)]
  by_cases h2 : E.current s.idx = a2mlVersionToken
  · rw [if_pos h2, exec, if_pos (by simpa [holds] using h2), exec_part]
  rw [if_neg h2, exec, if_neg (by simpa [holds] using h2)]
  by_cases h3 : E.current s.idx = beginProjectToken
  · rw [if_pos h3, exec, if_pos (by simpa [holds] using h3), exec_part]
  rw [if_neg h3, exec, if_neg (by simpa [holds] using h3)]
  simp only [exec_blk_cons, exec_blk_nil, exec, holds, decide_eq_true_eq, emptyToken]
  by_cases h4 : E.current s.idx = []
  · rw [if_pos h4, if_pos h4]
  rw [if_neg h4, if_neg h4]
  by_cases h5 : isKeyword (E.current s.idx) = true
  · simp only [h5, if_true]
  · simp only [h5, Bool.false_eq_true, if_false]

theorem run_a2l (E : Env) (n d i : Nat) :
    run E n (d + 1) .parseA2l i = finish (iter (round E (run E n d)) n (St.init i)) := by
  rw [Loose.run_loop (B := loopBody) (by decide) rfl]
  congr 2
  funext s
  exact exec_loopBody s

/-- Where the parse functions called by `parseA2l` stop: not at the end of the file. -/
theorem head_stop (hw : Wf E) (hmt : MtGood E) {t : Str} {p : PName} {f : String} (hp : (t, p, f) ∈ heads) {i e : Nat}
    {v : Val} (hi : i < E.toks.length) (h : Returns E p i (.ok e v false)) : e + 1 < E.toks.length := by
  have key : ∀ u, E.toks[e]? = some u → u ≠ [] → e + 1 < E.toks.length := by
    intro u h1 h2
    have hl := (List.getElem?_eq_some_iff.1 h1).1
    have h3 : E.current e ≠ emptyToken := by unfold Env.current; rw [h1]; exact h2
    have := mt (hw.end_iff hl).2 h3
    omega
  have hseq : ∀ q a b, q ∉ irregular → shape q = .seq [a, b] → Returns E q i (.ok e v false) → e + 1 < E.toks.length := by
    intro q a b hq hsh hr
    obtain ⟨o, o', _, ht, _⟩ := accepts_only_text hw hq hr
    rw [hsh] at ht
    obtain ⟨hps, he⟩ := ht
    cases hps with
    | cons h1 h2 h3 h4 h5 =>
      cases h5 with
      | cons g1 g2 g3 g4 g5 =>
        subst he
        exact key _ g1 g2
  simp only [heads, List.mem_cons, Prod.mk.injEq, List.not_mem_nil, or_false] at hp
  rcases hp with ⟨_, rfl, _⟩ | ⟨_, rfl, _⟩ | ⟨_, rfl, _⟩
  · exact hseq _ _ _ (by decide) rfl h
  · exact hseq _ _ _ (by decide) rfl h
  · have h2 := C30_partial hw hmt .parseProject (str! "/end PROJECT") (by decide) (by decide) (by decide) i hi e v h
    exact key _ h2.2 (by decide)

theorem next_idx {s : St} (h : s.idx + 1 < E.toks.length) : (doNext E s).idx = s.idx + 1 ∧ (doNext E s).obj = s.obj ∧
    (doNext E s).err = s.err := by
  unfold doNext
  rw [if_pos (hasNext_iff.2 h)]
  exact ⟨rfl, rfl, rfl⟩

/-- The loop of `parseA2l` reads exactly the files described by `Top`. -/
theorem top_of_iter (hw : Wf E) (hmt : MtGood E) {N d : Nat} : ∀ (m : Nat) (s s' : St) (c : Ctl), s.idx < E.toks.length → s.err = false →
    iter (round E (run E N d)) m s = .ok s' c → s'.err = false → Top E s.idx s.obj s'.idx s'.obj := by
  intro m
  induction m with
  | zero => intro s s' c _ _ h; cases h
  | succ m ih =>
    intro s s' c hi he h hf
    have hcur := current_eq hi
    have hpart : ∀ p f, (E.current s.idx, p, f) ∈ heads → round E (run E N d) s = part E (run E N d) s p f →
        Top E s.idx s.obj s'.idx s'.obj := by
      intro p f hp hr
      rw [iter, hr] at h
      unfold part at h
      cases hK : run E N d p s.idx with
      | panic => rw [hK] at h; cases h
      | timeout => rw [hK] at h; cases h
      | ok i v e =>
        rw [hK] at h
        cases e with
        | true =>
          simp only [if_true, Out.ok.injEq] at h
          rw [← h.1] at hf
          cases hf
        | false =>
          simp only [Bool.false_eq_true, if_false] at h
          have hret := returns_of_run hK (by simp)
          have hst := head_stop hw hmt hp hi hret
          obtain ⟨n1, n2, n3⟩ := next_idx (E := E) (s := { s with idx := i, obj := s.obj.set f v, err := false }) hst
          have := ih _ _ _ (by rw [n1]; exact hst) n3 h hf
          rw [n1, n2] at this
          exact .part hcur hp hret this
    by_cases h1 : E.current s.idx = asap2VersionToken
    · exact hpart .parseASAP2Version "Asap2Version" (by rw [h1]; decide) (by unfold round; rw [if_pos h1])
    by_cases h2 : E.current s.idx = a2mlVersionToken
    · exact hpart .parseA2MLVersion "A2mlVersion" (by rw [h2]; decide) (by unfold round; rw [if_neg h1, if_pos h2])
    by_cases h3 : E.current s.idx = beginProjectToken
    · exact hpart .parseProject "Project" (by rw [h3]; decide) (by unfold round; rw [if_neg h1, if_neg h2, if_pos h3])
    rw [iter] at h
    unfold round at h
    rw [if_neg h1, if_neg h2, if_neg h3] at h
    by_cases h4 : E.current s.idx = []
    · rw [if_pos h4] at h
      simp only [Out.ok.injEq] at h
      rw [← h.1]
      exact .stop (by rw [hcur, h4])
    rw [if_neg h4] at h
    by_cases h5 : isKeyword (E.current s.idx) = true
    · rw [if_pos h5] at h
      simp only [Out.ok.injEq] at h
      rw [← h.1] at hf
      cases hf
    rw [if_neg h5] at h
    have hst : s.idx + 1 < E.toks.length := by
      have := mt (hw.end_iff hi).2 h4
      omega
    obtain ⟨n1, n2, n3⟩ := next_idx (E := E) (s := s) hst
    have := ih _ _ _ (by rw [n1]; exact hst) (n3.trans he) h hf
    rw [n1, n2] at this
    refine .word hcur h4 ?_ ?_ this
    · simpa [isKeyword] using h5
    · simp only [heads, List.map_cons, List.map_nil, List.mem_cons, List.not_mem_nil, or_false, not_or]
      exact ⟨h1, h2, h3⟩

theorem iter_of_top (hw : Wf E) (hmt : MtGood E) {N d : Nat} {i j : Nat} {o o' : Obj} (h : Top E i o j o') :
    ∀ (m : Nat) (s s' : St) (c : Ctl), s.idx = i → s.obj = o → s.err = false →
    iter (round E (run E N d)) m s = .ok s' c → s'.err = false ∧ s'.idx = j ∧ s'.obj = o' := by
  induction h with
  | stop ht =>
    intro m s s' c hi ho he h
    subst hi
    cases m with
    | zero => cases h
    | succ m =>
      have hcur : E.current s.idx = [] := by unfold Env.current; rw [ht]; rfl
      rw [iter] at h
      unfold round at h
      rw [hcur] at h
      rw [if_neg (by decide), if_neg (by decide), if_neg (by decide), if_pos rfl] at h
      simp only [Out.ok.injEq] at h
      rw [← h.1]
      exact ⟨he, rfl, ho⟩
  | @word i o j o' t ht hne hkw hh htop ih =>
    intro m s s' c hi ho he h
    subst hi
    cases m with
    | zero => cases h
    | succ m =>
      have hcur : E.current s.idx = t := by unfold Env.current; rw [ht]; rfl
      simp only [heads, List.map_cons, List.map_nil, List.mem_cons, List.not_mem_nil, or_false, not_or] at hh
      have hi : s.idx < E.toks.length := (List.getElem?_eq_some_iff.1 ht).1
      have hst : s.idx + 1 < E.toks.length := by
        have := mt (hw.end_iff hi).2 (by rw [hcur]; exact hne)
        omega
      obtain ⟨n1, n2, n3⟩ := next_idx (E := E) (s := s) hst
      have hround : round E (run E N d) s = .ok (doNext E s) .cont := by
        unfold round
        rw [hcur, if_neg (show t ≠ asap2VersionToken from hh.1), if_neg (show t ≠ a2mlVersionToken from hh.2.1),
          if_neg (show t ≠ beginProjectToken from hh.2.2), if_neg hne, if_neg (by simpa [isKeyword] using hkw)]
      rw [iter, hround] at h
      exact ih m _ s' c n1 (n2.trans ho) (n3.trans he) h
  | @part i o j o' e t p f v ht hp hr htop ih =>
    intro m s s' c hi ho he h
    subst hi
    cases m with
    | zero => cases h
    | succ m =>
      have hcur : E.current s.idx = t := by unfold Env.current; rw [ht]; rfl
      have hi : s.idx < E.toks.length := (List.getElem?_eq_some_iff.1 ht).1
      have hst := head_stop hw hmt hp hi hr
      have hround : round E (run E N d) s = part E (run E N d) s p f := by
        unfold round
        rw [hcur]
        simp only [heads, List.mem_cons, Prod.mk.injEq, List.not_mem_nil, or_false] at hp
        rcases hp with ⟨rfl, rfl, rfl⟩ | ⟨rfl, rfl, rfl⟩ | ⟨rfl, rfl, rfl⟩
        · rw [if_pos (by decide)]
        · rw [if_neg (by decide), if_pos (by decide)]
        · rw [if_neg (by decide), if_neg (by decide), if_pos (by decide)]
      rw [iter, hround] at h
      unfold part at h
      cases hK : run E N d p s.idx with
      | panic => rw [hK] at h; cases h
      | timeout => rw [hK] at h; cases h
      | ok i' v' e' =>
        rw [hK] at h
        have := (returns_of_run hK (by simp)).unique hr
        simp only [PRes.ok.injEq] at this
        obtain ⟨rfl, rfl, rfl⟩ := this
        simp only [Bool.false_eq_true, if_false] at h
        obtain ⟨n1, n2, n3⟩ := next_idx (E := E) (s := { s with idx := i', obj := s.obj.set f v', err := false }) hst
        exact ih m _ s' c n1 (n2.trans (by simp [ho])) n3 h

/-- `parseA2l` succeeds exactly on the files described by `Top`, with the values described there. -/
theorem a2l_iff (hw : Wf E) (hmt : MtGood E) {i : Nat} (hi : i < E.toks.length) {j : Nat} {v : Val} :
    Returns E .parseA2l i (.ok j v false) ↔ ∃ o, v = .obj o ∧ Top E i Obj.empty j o := by
  obtain ⟨j', v', e', hp, hr, _⟩ := parse_ok hw hmt .parseA2l (by decide) i hi
  have h1 : parse E .parseA2l i = finish (iter (round E (run E (E.toks.length + 1) 7)) (E.toks.length + 1) (St.init i)) :=
    run_a2l E _ _ _
  rw [hp] at h1
  cases hit : iter (round E (run E (E.toks.length + 1) 7)) (E.toks.length + 1) (St.init i) with
  | panic => rw [hit] at h1; cases h1
  | timeout => rw [hit] at h1; cases h1
  | ok s c =>
    rw [hit] at h1
    simp only [finish, PRes.ok.injEq] at h1
    obtain ⟨rfl, rfl, rfl⟩ := h1
    constructor
    · intro h
      have := h.unique hr
      simp only [PRes.ok.injEq] at this
      obtain ⟨rfl, rfl, h3⟩ := this
      exact ⟨_, rfl, top_of_iter hw hmt _ _ _ _ hi rfl hit h3.symm⟩
    · rintro ⟨o, rfl, ht⟩
      obtain ⟨h1, h2, h3⟩ := iter_of_top hw hmt ht _ _ _ _ rfl rfl rfl hit
      rw [h1, h2, h3] at hr
      exact hr

/-! ### What does not depend on the module parser -/

/-- The functions that do not reach the choice of the module parser. -/
def quiet (q : PName) : Bool := q ≠ .parseA2l && q ≠ .parseProject && q ≠ .parseModuleMultithreaded

def calmCond : Cond → Bool
  | .multi => false
  | .or a b => calmCond a && calmCond b
  | _ => true

def calm : Stmt → Bool
  | .seq a b => calm a && calm b
  | .ite c a b => calmCond c && calm a && calm b
  | .loop b => calm b
  | .callBuf q => quiet q
  | .callField _ q => quiet q
  | _ => true

theorem calm_all (p : PName) (hp : quiet p = true) : calm (A2l.body p) = true := by
  cases p <;> first | exact absurd hp (by decide) | decide +kernel

/-- The same tokens and numbers. -/
structure Alike (E E' : Env) : Prop where
  toks : E.toks = E'.toks
  floatOk : E.floatOk = E'.floatOk

theorem Alike.current {E E' : Env} (h : Alike E E') (i : Nat) : E.current i = E'.current i := by
  unfold Env.current; rw [h.toks]

theorem Alike.doNext {E E' : Env} (h : Alike E E') (s : St) : Lang.doNext E s = Lang.doNext E' s := by
  unfold Lang.doNext Env.hasNext; rw [h.toks, h.current]

theorem Alike.convert {E E' : Env} (h : Alike E E') (c : Conv) (t : Str) : Lang.convert E c t = Lang.convert E' c t := by
  unfold Lang.convert; rw [h.floatOk]

theorem Alike.holds {E E' : Env} (h : Alike E E') (s : St) : ∀ c, calmCond c = true → Lang.holds E s c = Lang.holds E' s c := by
  intro c
  induction c with
  | multi => intro hc; cases hc
  | or a b iha ihb =>
    intro hc
    simp only [calmCond, Bool.and_eq_true] at hc
    simp only [Lang.holds, iha hc.1, ihb hc.2]
  | curIs t => intro _; simp only [Lang.holds, h.current]
  | curKw => intro _; simp only [Lang.holds, h.current]
  | _ => intro _; rfl

theorem exec_alike {E E' : Env} (h : Alike E E') {K K' : PName → Nat → PRes} (hK : ∀ q, quiet q = true → ∀ i, K q i = K' q i)
    {n : Nat} : ∀ (c : Stmt), calm c = true → ∀ s, exec E K n c s = exec E' K' n c s := by
  intro c
  induction c with
  | seq a b iha ihb =>
    intro hc s
    simp only [calm, Bool.and_eq_true] at hc
    simp only [exec, iha hc.1]
    cases exec E' K' n a s with
    | ok s' c => cases c <;> simp only [ihb hc.2]
    | panic => rfl
    | timeout => rfl
  | ite c a b iha ihb =>
    intro hc s
    simp only [calm, Bool.and_eq_true] at hc
    simp only [exec, h.holds s c hc.1.1, iha hc.1.2, ihb hc.2]
  | loop b ih =>
    intro hc s
    simp only [exec]
    rw [show exec E K n b = exec E' K' n b from funext (ih hc)]
  | callBuf q => intro hc s; simp only [exec, hK q hc]
  | callField f q => intro hc s; simp only [exec, hK q hc]
  | next => intro _ s; simp only [exec, h.doNext]
  | storeCur f => intro _ s; simp only [exec, h.current]
  | appendCur f => intro _ s; simp only [exec, h.current]
  | concatCur f => intro _ s; simp only [exec, h.current]
  | storeArr f k => intro _ s; simp only [exec, h.current]
  | conv c => intro _ s; simp only [exec, h.current, h.convert]
  | convRet c => intro _ s; simp only [exec, h.convert]
  | enumField f e => intro _ s; simp only [exec, h.current, h.doNext]
  | _ => intro _ s; rfl

/-- The objects below a project do not depend on the choice of the module parser. -/
theorem run_alike {E E' : Env} (h : Alike E E') (n : Nat) : ∀ d q, quiet q = true → ∀ i, run E n d q i = run E' n d q i := by
  intro d
  induction d with
  | zero => intro q _ i; rfl
  | succ d ih =>
    intro q hq i
    have hne : q ≠ .parseModuleMultithreaded := by
      rintro rfl; cases hq
    rw [run, run, if_neg hne, if_neg hne, exec_alike h ih _ (calm_all q hq)]

theorem returns_alike {E E' : Env} (h : Alike E E') {q : PName} (hq : quiet q = true) {i : Nat} {r : PRes}
    (hr : Returns E q i r) : Returns E' q i r := by
  obtain ⟨h1, n, d, h2⟩ := hr
  refine ⟨h1, n, d, fun n' d' hn hd => ?_⟩
  rw [← run_alike h n' d' q hq i]
  exact h2 n' d' hn hd

/-! ### Projects -/

theorem project_mem : Loose.project ∈ Loose.irrs := by
  simp [Loose.irrs]

/-- The name of the module parser that is used. -/
def modParser (E : Env) : PName := if E.multi then .parseModuleMultithreaded else .parseModule

theorem inOrder_append : ∀ (ms ms' : List Mod) (a b c : Nat), InOrder a b ms → InOrder b c ms' → InOrder a c (ms ++ ms') := by
  intro ms
  induction ms with
  | nil =>
    intro ms' a b c h h'
    cases ms' with
    | nil => exact Nat.le_trans h h'
    | cons m ms' => exact ⟨Nat.lt_of_le_of_lt h h'.1, h'.2⟩
  | cons m ms ih => intro ms' a b c h h'; exact ⟨h.1, h.2.1, ih _ _ _ _ h.2.2 h'⟩

theorem returns_mt {i : Nat} {r : PRes} (h : Returns E .parseModuleMultithreaded i r) : E.mtModule i = r := by
  obtain ⟨_, n, d, h⟩ := h
  have := h n (d + 1) (Nat.le_refl _) (by omega)
  rwa [run, if_pos rfl] at this

theorem mod_bounds (hw : Wf E) (hmt : MtGood E) {i j : Nat} {v : Val} (hi : i < E.toks.length)
    (h : Returns E (modParser E) i (.ok j v false)) : i ≤ j ∧ j < E.toks.length := by
  unfold modParser at h
  cases hm : E.multi with
  | true =>
    rw [hm, if_pos rfl] at h
    obtain ⟨j', v', e', h1, h2, h3, _⟩ := hmt hm i hi
    rw [returns_mt h] at h1
    cases h1
    exact ⟨h2, h3⟩
  | false =>
    rw [hm, if_neg (by decide)] at h
    obtain ⟨j', v', e', _, h1, h2, h3, _⟩ := parse_ok hw hmt .parseModule (by decide) i hi
    cases h.unique h1
    exact ⟨h2, h3⟩

theorem list_set_other {o : Obj} {f g : String} {v : Val} (h : f ≠ g) : (o.set f v).list g = o.list g := by
  unfold Obj.list
  rw [Obj.set, if_neg (Ne.symm h)]

theorem project_fields : ∀ p ∈ Loose.project.ps, p.field ≠ "Modules" ∧ p.flag ≠ "Modules" := by decide

/-- What the items of a project add to the list of modules. -/
theorem project_items (hw : Wf E) (hmt : MtGood E) {fin : Str} {k : Nat} {x y : Decl.Pos}
    (h : Loose.Items E (Succeeds E) fin (Loose.project.spec E) k x y) (hx : x.i < E.toks.length) :
    x.i ≤ y.i ∧ y.i < E.toks.length ∧ ∃ (ms : List Mod) (hs : List (Nat × Nat)),
      y.o.list "Modules" = x.o.list "Modules" ++ ms.map (·.val) ∧ InOrder x.i y.i ms ∧
      (∀ m ∈ ms, E.toks[m.pos]? = some (str! "/begin MODULE") ∧ Returns E (modParser E) m.pos (.ok m.stop m.val false)) ∧
      (∀ a ∈ hs, E.toks[a.1]? = some (str! "/begin HEADER") ∧ ∃ v, Returns E .parseHeader a.1 (.ok a.2 v false)) ∧
      ∀ z, x.i < z → z ≤ y.i → E.toks[z]? = some (str! "/begin MODULE") →
        (∃ m ∈ ms, m.pos ≤ z ∧ z ≤ m.stop) ∨ ∃ a ∈ hs, a.1 ≤ z ∧ z ≤ a.2 := by
  induction h with
  | nil => exact ⟨Nat.le_refl _, hx, [], [], by simp, Nat.le_refl _, by simp, by simp, fun z h1 h2 => by omega⟩
  | @cons k x y z h hs ih =>
    have plain : y.i = x.i + 1 → (∀ t, E.toks[x.i + 1]? = some t → t ∉ keywords) → y.i < E.toks.length →
        y.o.list "Modules" = x.o.list "Modules" →
        x.i ≤ y.i ∧ y.i < E.toks.length ∧ ∃ (ms : List Mod) (hs : List (Nat × Nat)),
          y.o.list "Modules" = x.o.list "Modules" ++ ms.map (·.val) ∧ InOrder x.i y.i ms ∧
          (∀ m ∈ ms, E.toks[m.pos]? = some (str! "/begin MODULE") ∧ Returns E (modParser E) m.pos (.ok m.stop m.val false)) ∧
          (∀ a ∈ hs, E.toks[a.1]? = some (str! "/begin HEADER") ∧ ∃ v, Returns E .parseHeader a.1 (.ok a.2 v false)) ∧
          ∀ z, x.i < z → z ≤ y.i → E.toks[z]? = some (str! "/begin MODULE") →
            (∃ m ∈ ms, m.pos ≤ z ∧ z ≤ m.stop) ∨ ∃ a ∈ hs, a.1 ≤ z ∧ z ≤ a.2 := by
      intro h1 h2 h3 h4
      refine ⟨by omega, h3, [], [], by simp [h4], show x.i ≤ y.i by omega, by simp, by simp, fun z hz1 hz2 ht => ?_⟩
      obtain rfl : z = x.i + 1 := by omega
      exact absurd (by decide) (h2 _ ht)
    have first : x.i ≤ y.i ∧ y.i < E.toks.length ∧ ∃ (ms : List Mod) (hs : List (Nat × Nat)),
        y.o.list "Modules" = x.o.list "Modules" ++ ms.map (·.val) ∧ InOrder x.i y.i ms ∧
        (∀ m ∈ ms, E.toks[m.pos]? = some (str! "/begin MODULE") ∧ Returns E (modParser E) m.pos (.ok m.stop m.val false)) ∧
        (∀ a ∈ hs, E.toks[a.1]? = some (str! "/begin HEADER") ∧ ∃ v, Returns E .parseHeader a.1 (.ok a.2 v false)) ∧
        ∀ z, x.i < z → z ≤ y.i → E.toks[z]? = some (str! "/begin MODULE") →
          (∃ m ∈ ms, m.pos ≤ z ∧ z ≤ m.stop) ∨ ∃ a ∈ hs, a.1 ≤ z ∧ z ≤ a.2 := by
      cases h with
      | @param m o i t v p hp ht hne hfin hsub hkw hv =>
        have hp' : p ∈ Loose.project.ps := List.mem_of_getElem? hp
        have hf := project_fields p hp'
        refine plain rfl (fun u hu => ?_) (List.getElem?_eq_some_iff.1 ht).1 ?_
        · have : E.toks[i + 1]? = some t := ht
          rw [this] at hu
          cases hu
          exact hkw
        · show (Obj.set _ _ _).list _ = _
          rw [list_set_other hf.2, list_set_other hf.1]
      | @rest m o o' i j t hm ht hne hfin hsub hkw hr =>
        obtain ⟨rfl, rfl⟩ := hr
        refine plain rfl (fun u hu => ?_) (List.getElem?_eq_some_iff.1 ht).1 rfl
        have : E.toks[i + 1]? = some t := ht
        rw [this] at hu
        cases hu
        exact hkw
      | @sub m o o' i j t hk ht hr =>
        obtain ⟨x, hx', hr⟩ := hr
        have hlt := (List.getElem?_eq_some_iff.1 ht).1
        simp only [Loose.project, List.mem_cons, Prod.mk.injEq, List.not_mem_nil, or_false] at hx'
        rcases hx' with ⟨rfl, rfl⟩ | ⟨rfl, rfl⟩
        · obtain ⟨v, hv, rfl⟩ := hr
          obtain ⟨j', v', e', _, h1, h2, h3, _⟩ := parse_ok hw hmt .parseHeader (by decide) (i + 1) hlt
          cases hv.unique h1
          refine ⟨show i ≤ j by omega, h3, [], [(i + 1, j)], ?_, show i ≤ j by omega, by simp, ?_, ?_⟩
          · show (Obj.set _ _ _).list _ = _
            rw [list_set_other (by decide)]
            simp
          · intro a ha
            simp only [List.mem_cons, List.not_mem_nil, or_false] at ha
            subst ha
            exact ⟨ht, v, hv⟩
          · intro z hz1 hz2 _
            exact Or.inr ⟨_, List.mem_cons_self, hz1, hz2⟩
        · obtain ⟨v, hv, rfl⟩ := hr
          have hb := mod_bounds hw hmt hlt hv
          refine ⟨show i ≤ j by omega, hb.2, [⟨i + 1, j, v⟩], [], ?_, ⟨Nat.lt_succ_self i, hb.1, Nat.le_refl j⟩, ?_, by simp, ?_⟩
          · show (Obj.set _ _ _).list _ = _
            unfold Obj.list
            rw [set_same]
            rfl
          · intro a ha
            simp only [List.mem_cons, List.not_mem_nil, or_false] at ha
            subst ha
            exact ⟨ht, hv⟩
          · intro z hz1 hz2 _
            exact Or.inl ⟨_, List.mem_cons_self, hz1, hz2⟩
    obtain ⟨a0, a1, ms, ls, a2, a3, a4, a5, a6⟩ := first
    obtain ⟨b0, b1, ms', ls', b2, b3, b4, b5, b6⟩ := ih a1
    refine ⟨by omega, b1, ms ++ ms', ls ++ ls', by rw [b2, a2]; simp, inOrder_append _ _ _ _ _ a3 b3, ?_, ?_, ?_⟩
    · intro m hm
      rcases List.mem_append.1 hm with hm | hm
      · exact a4 m hm
      · exact b4 m hm
    · intro m hm
      rcases List.mem_append.1 hm with hm | hm
      · exact a5 m hm
      · exact b5 m hm
    · intro w h1 h2 h3
      rcases Nat.lt_or_ge y.i w with hw' | hw'
      · rcases b6 w hw' h2 h3 with ⟨m, hm, h⟩ | ⟨m, hm, h⟩
        · exact Or.inl ⟨m, List.mem_append_right _ hm, h⟩
        · exact Or.inr ⟨m, List.mem_append_right _ hm, h⟩
      · rcases a6 w h1 hw' h3 with ⟨m, hm, h⟩ | ⟨m, hm, h⟩
        · exact Or.inl ⟨m, List.mem_append_left _ hm, h⟩
        · exact Or.inr ⟨m, List.mem_append_left _ hm, h⟩

/-- The modules of a project that was read without error. -/
theorem project_modules (hw : Wf E) (hmt : MtGood E) {i j : Nat} (hi : i < E.toks.length) {v : Val}
    (h : Returns E .parseProject i (.ok j v false)) :
    ∃ (o : Obj) (ms : List Mod) (hs : List (Nat × Nat)), v = .obj o ∧ o.list "Modules" = ms.map (·.val) ∧ InOrder i j ms ∧
      (∀ m ∈ ms, E.toks[m.pos]? = some (str! "/begin MODULE") ∧ Returns E (modParser E) m.pos (.ok m.stop m.val false)) ∧
      (∀ a ∈ hs, E.toks[a.1]? = some (str! "/begin HEADER") ∧ ∃ v, Returns E .parseHeader a.1 (.ok a.2 v false)) ∧
      ∀ z, i < z → z ≤ j → E.toks[z]? = some (str! "/begin MODULE") →
        (∃ m ∈ ms, m.pos ≤ z ∧ z ≤ m.stop) ∨ ∃ a ∈ hs, a.1 ≤ z ∧ z ≤ a.2 := by
  obtain ⟨o, rfl, k, m, j', o₁, h1, h2, rfl, h3⟩ := Loose.irr_only hw project_mem h
  obtain ⟨a0, a1, ms, ls, a2, a3, a4, a5, a6⟩ := project_items hw hmt h1 hi
  have ho : o = o₁ := h3
  subst ho
  refine ⟨o, ms, ls, rfl, ?_, ?_, a4, a5, ?_⟩
  · rw [a2]; rfl
  · have := inOrder_append ms [] i j' (j' + 1) a3 (Nat.le_succ _)
    rwa [List.append_nil] at this
  · intro z hz1 hz2 hz
    rcases Nat.lt_or_ge j' z with h4 | h4
    · obtain rfl : z = j' + 1 := by omega
      have : E.toks[j' + 1]? = some (str! "/end PROJECT") := h2
      rw [this] at hz
      exact absurd (Option.some.inj hz) (by decide)
    · exact a6 z hz1 h4 hz

end Verif.A2l.File
