import Verif.A2l.Template
import Verif.A2l.Numbers
import Verif.A2l.Analysis

/-!
The statement list of a declared shape reads exactly the texts of that shape.
-/

namespace Verif.A2l.Template
open Verif.Go Verif.A2l Lang Decl Analysis

variable {E : Env} {K : PName → Nat → PRes} {n : Nat}

/-! ### Executing statement lists -/

theorem exec_blk_nil (s : St) : exec E K n (blk []) s = .ok s .cont := rfl

theorem exec_blk_cons (a : Stmt) (l : List Stmt) (s : St) : exec E K n (blk (a :: l)) s =
    match exec E K n a s with
    | .ok s' .cont => exec E K n (blk l) s'
    | r => r := rfl

theorem exec_blk_one (a : Stmt) (s : St) : exec E K n (blk [a]) s = exec E K n a s := by
  rw [exec_blk_cons]
  cases exec E K n a s with
  | ok s' c => cases c <;> rfl
  | panic => rfl
  | timeout => rfl

theorem exec_chain (l : List (Cond × List Stmt)) (s : St) :
    exec E K n (blk (chain l)) s =
      match l.find? (fun x => holds E s x.1) with
      | some x => exec E K n (blk x.2) s
      | none => .ok s .cont := by
  induction l with
  | nil => rfl
  | cons x l ih =>
    obtain ⟨c, b⟩ := x
    simp only [chain, exec_blk_one, exec, List.find?_cons]
    cases holds E s c
    · simpa using ih
    · rfl

theorem exec_switch (cs : List (Str × Stmt)) (d : Stmt) (s : St) :
    exec E K n (switchRet cs d) s =
      match cs.lookup s.ret with
      | some st => exec E K n st s
      | none => exec E K n d s := by
  induction cs with
  | nil => rfl
  | cons x cs ih =>
    obtain ⟨k, st⟩ := x
    simp only [switchRet, exec, holds, List.lookup_cons]
    by_cases h : s.ret = k
    · simp [h]
    · have : (s.ret == k) = false := by simpa using h
      simp [h, this, ih]

/-- `tok.next()` as seen from position `i`. -/
def tokAt (E : Env) (i : Nat) : Str := if E.hasNext i then E.current (i + 1) else []

theorem tokAt_ne {i : Nat} {t : Str} (h : tokAt E i = t) (ht : t ≠ []) : E.hasNext i = true ∧ TokAfter E i t := by
  unfold tokAt at h
  split at h
  · rename_i hh
    refine ⟨hh, ?_⟩
    simp only [Env.hasNext, decide_eq_true_eq] at hh
    unfold TokAfter
    rw [← h, Env.current, List.getElem?_eq_getElem hh]
    rfl
  · exact absurd h.symm ht

theorem tokAt_of {i : Nat} {t : Str} (h : TokAfter E i t) : E.hasNext i = true ∧ tokAt E i = t := by
  unfold TokAfter at h
  have hl := (List.getElem?_eq_some_iff.1 h).1
  have : E.hasNext i = true := by simp [Env.hasNext, hl]
  exact ⟨this, by simp [tokAt, this, Env.current, h]⟩

theorem doNext_spec (hw : Wf E) (s : St) : (doNext E s).ret = tokAt E s.idx ∧
    E.current (doNext E s).idx = tokAt E s.idx ∧ (doNext E s).obj = s.obj ∧
    (doNext E s).err = s.err ∧ (E.hasNext s.idx = true → (doNext E s).idx = s.idx + 1) := by
  unfold doNext tokAt
  cases h : E.hasNext s.idx with
  | true => simp
  | false =>
    simp only [Bool.false_eq_true, if_false, false_implies, and_true, true_and]
    refine ⟨rfl, ?_⟩
    simp only [Env.hasNext, decide_eq_false_iff_not, Nat.not_lt] at h
    unfold Env.current
    by_cases hl : s.idx < E.toks.length
    · have := (hw.end_iff hl).2 (by omega)
      unfold Env.current at this
      exact this
    · rw [List.getElem?_eq_none (by omega)]
      rfl

/-! ### Parameters -/

/-- What can go wrong in enumerations: `tok.next()` inside an enumeration used as parameter,
two entries for a token, a constant that differs from its token. -/
def enumOk (e : EnumDef) : Bool := e.table.all fun x => decide (x.1 = x.2)

def kindOk : Kind → Bool
  | .enum e => enumOk e && !e.usesNext
  | .int b => decide (0 < b)
  | _ => true

theorem lookup_some {e : EnumDef} (he : enumOk e = true) {t c : Str} (h : e.table.lookup t = some c) :
    (t, c) ∈ e.table ∧ c = t := by
  have hm : (t, c) ∈ e.table := by
    generalize e.table = l at h
    induction l with
    | nil => simp at h
    | cons x l ih =>
      obtain ⟨k, v⟩ := x
      rw [List.lookup_cons] at h
      by_cases hk : t = k
      · subst hk; simp at h; simp [h]
      · have : (t == k) = false := by simpa using hk
        rw [this] at h
        exact List.mem_cons_of_mem _ (ih h)
  refine ⟨hm, ?_⟩
  have := List.all_eq_true.1 he _ hm
  simpa using (of_decide_eq_true this).symm

theorem lookup_none {l : List (Str × Str)} {t : Str} (h : l.lookup t = none) (c : Str) : (t, c) ∉ l := by
  induction l with
  | nil => simp
  | cons x l ih =>
    obtain ⟨k, v⟩ := x
    rw [List.lookup_cons] at h
    by_cases hk : t = k
    · subst hk; simp at h
    · have : (t == k) = false := by simpa using hk
      rw [this] at h
      simp [hk, ih h]

theorem lookup_mem {e : EnumDef} {t c : Str} (h : (t, c) ∈ e.table) : ∃ c', e.table.lookup t = some c' := by
  cases hl : e.table.lookup t with
  | none => exact absurd h (lookup_none hl c)
  | some c' => exact ⟨c', rfl⟩

/-- Loading a legal parameter. -/
theorem load_ok {b : Bool} {f : String} {k : Kind} (hk : kindOk k = true) {s : St} (he : s.err = false)
    {v : Val} (hv : Denotes E k (E.current s.idx) v) (tail : List Stmt) :
    ∃ s', exec E K n (blk (load b f k ++ tail)) s = exec E K n (blk tail) s' ∧
      s'.obj = s.obj.set f v ∧ s'.idx = s.idx ∧ s'.err = false := by
  cases k with
  | str =>
    cases hv
    exact ⟨{ s with obj := s.obj.set f (.str (E.current s.idx)) }, rfl, rfl, rfl, he⟩
  | uint w =>
    obtain ⟨m, h1, h2, rfl⟩ := hv
    have hc := (parseUint_ok (E.current s.idx) w m).2 ⟨h1, h2⟩
    refine ⟨{ s with obj := s.obj.set f (.int m), buf := .int m, err := false }, ?_, rfl, rfl, rfl⟩
    simp only [load, List.cons_append, List.nil_append, exec_blk_cons, exec, convert, hc, ifErr, holds,
      Bool.not_true, Bool.false_eq_true, if_false, exec_blk_nil, castVal, castInt_uint h2]
  | int w =>
    obtain ⟨z, h1, h2, h3, rfl⟩ := hv
    have hc := (parseInt_ok (E.current s.idx) w z).2 ⟨h1, h2, h3⟩
    simp only [kindOk, decide_eq_true_eq] at hk
    refine ⟨{ s with obj := s.obj.set f (.int z), buf := .int z, err := false }, ?_, rfl, rfl, rfl⟩
    simp only [load, List.cons_append, List.nil_append, exec_blk_cons, exec, convert, hc, ifErr, holds,
      Bool.not_true, Bool.false_eq_true, if_false, exec_blk_nil, castVal, castInt_int hk h2 h3]
  | float =>
    obtain ⟨h1, rfl⟩ := hv
    refine ⟨{ s with obj := s.obj.set f (.flt (E.current s.idx)), buf := .flt (E.current s.idx),
                     err := false }, ?_, rfl, rfl, rfl⟩
    simp only [load, List.cons_append, List.nil_append, exec_blk_cons, exec, convert, h1, if_true, ifErr,
      holds, Bool.not_true, Bool.false_eq_true, if_false, exec_blk_nil, castVal]
  | enum e =>
    obtain ⟨⟨c, hc⟩, rfl⟩ := hv
    simp only [kindOk, Bool.and_eq_true, Bool.not_eq_true'] at hk
    obtain ⟨c', hc'⟩ := lookup_mem hc
    obtain ⟨_, rfl⟩ := lookup_some hk.1 hc'
    refine ⟨{ s with obj := s.obj.set f (.str (E.current s.idx)), err := false }, ?_, rfl, rfl, rfl⟩
    simp only [load, List.cons_append, List.nil_append, exec_blk_cons, exec, hk.2, Bool.false_eq_true,
      if_false, hc', ifErr, holds, exec_blk_nil]

/-- Loading anything else: the loop is left with an error. -/
theorem load_err {f : String} {k : Kind} (hk : kindOk k = true) {s : St}
    (hv : ∀ v, ¬ Denotes E k (E.current s.idx) v) (tail : List Stmt) :
    ∃ s', exec E K n (blk (load true f k ++ tail)) s = .ok s' .brk ∧ s'.err = true := by
  cases k with
  | str => exact absurd rfl (hv _)
  | uint w =>
    cases hc : (parseUint (E.current s.idx) w).2 with
    | true =>
      exfalso
      have := (parseUint_ok (E.current s.idx) w (parseUint (E.current s.idx) w).1).1 (by rw [← hc])
      exact hv _ ⟨_, this.1, this.2, rfl⟩
    | false =>
      refine ⟨_, by
        simp only [load, List.cons_append, List.nil_append, exec_blk_cons, exec, convert, hc, ifErr, holds,
          Bool.not_false, if_true, exec_blk_nil]; rfl, rfl⟩
  | int w =>
    cases hc : (parseInt (E.current s.idx) w).2 with
    | true =>
      exfalso
      have := (parseInt_ok (E.current s.idx) w (parseInt (E.current s.idx) w).1).1 (by rw [← hc])
      exact hv _ ⟨_, this.1, this.2.1, this.2.2, rfl⟩
    | false =>
      refine ⟨_, by
        simp only [load, List.cons_append, List.nil_append, exec_blk_cons, exec, convert, hc, ifErr, holds,
          Bool.not_false, if_true, exec_blk_nil]; rfl, rfl⟩
  | float =>
    have h1 : E.floatOk (E.current s.idx) = false := by
      cases h : E.floatOk (E.current s.idx) with
      | true => exact absurd ⟨h, rfl⟩ (hv (.flt (E.current s.idx)))
      | false => rfl
    refine ⟨_, by
      simp only [load, List.cons_append, List.nil_append, exec_blk_cons, exec, convert, h1, ifErr, holds,
        Bool.not_false, if_true, if_false, Bool.false_eq_true, exec_blk_nil]; rfl, rfl⟩
  | enum e =>
    simp only [kindOk, Bool.and_eq_true, Bool.not_eq_true'] at hk
    cases hl : e.table.lookup (E.current s.idx) with
    | some c => exact absurd ⟨⟨c, (lookup_some hk.1 hl).1⟩, rfl⟩ (hv _)
    | none =>
      refine ⟨_, by
        simp only [load, List.cons_append, List.nil_append, exec_blk_cons, exec, hk.2, hl, ifErr, holds,
          if_true, if_false, Bool.false_eq_true, exec_blk_nil]; rfl, rfl⟩

def restOk : Rest → Bool
  | .list _ _ (.enum _) => false
  | .list _ _ k => kindOk k
  | _ => true

theorem add_ok {f fl : String} {k : Kind} (hk : restOk (.list f fl k) = true) {s : St} (he : s.err = false)
    {v : Val} (hv : Denotes E k (E.current s.idx) v) :
    ∃ s', exec E K n (blk (add f k)) s = .ok s' .cont ∧
      s'.obj = s.obj.set f (.list (s.obj.list f ++ [v])) ∧ s'.idx = s.idx ∧ s'.err = false := by
  cases k with
  | str =>
    cases hv
    exact ⟨_, rfl, rfl, rfl, he⟩
  | uint w =>
    obtain ⟨m, h1, h2, rfl⟩ := hv
    have hc := (parseUint_ok (E.current s.idx) w m).2 ⟨h1, h2⟩
    refine ⟨{ s with obj := s.obj.set f (.list (s.obj.list f ++ [.int m])), buf := .int m, err := false },
      ?_, rfl, rfl, rfl⟩
    simp only [add, exec_blk_cons, exec, convert, hc, ifErr, holds,
      Bool.not_true, Bool.false_eq_true, if_false, exec_blk_nil, castVal, castInt_uint h2]
  | int w =>
    obtain ⟨z, h1, h2, h3, rfl⟩ := hv
    have hc := (parseInt_ok (E.current s.idx) w z).2 ⟨h1, h2, h3⟩
    simp only [restOk, kindOk, decide_eq_true_eq] at hk
    refine ⟨{ s with obj := s.obj.set f (.list (s.obj.list f ++ [.int z])), buf := .int z, err := false },
      ?_, rfl, rfl, rfl⟩
    simp only [add, exec_blk_cons, exec, convert, hc, ifErr, holds,
      Bool.not_true, Bool.false_eq_true, if_false, exec_blk_nil, castVal, castInt_int hk h2 h3]
  | float =>
    obtain ⟨h1, rfl⟩ := hv
    refine ⟨{ s with obj := s.obj.set f (.list (s.obj.list f ++ [.flt (E.current s.idx)])),
                     buf := .flt (E.current s.idx), err := false }, ?_, rfl, rfl, rfl⟩
    simp only [add, exec_blk_cons, exec, convert, h1, if_true, ifErr,
      holds, Bool.not_true, Bool.false_eq_true, if_false, exec_blk_nil, castVal]
  | enum e => simp [restOk] at hk

theorem add_err {f fl : String} {k : Kind} (hk : restOk (.list f fl k) = true) {s : St}
    (hv : ∀ v, ¬ Denotes E k (E.current s.idx) v) :
    ∃ s', exec E K n (blk (add f k)) s = .ok s' .brk ∧ s'.err = true := by
  cases k with
  | str => exact absurd rfl (hv _)
  | uint w =>
    cases hc : (parseUint (E.current s.idx) w).2 with
    | true =>
      exfalso
      have := (parseUint_ok (E.current s.idx) w (parseUint (E.current s.idx) w).1).1 (by rw [← hc])
      exact hv _ ⟨_, this.1, this.2, rfl⟩
    | false =>
      refine ⟨_, by
        simp only [add, exec_blk_cons, exec, convert, hc, ifErr, holds,
          Bool.not_false, if_true, exec_blk_nil]; rfl, rfl⟩
  | int w =>
    cases hc : (parseInt (E.current s.idx) w).2 with
    | true =>
      exfalso
      have := (parseInt_ok (E.current s.idx) w (parseInt (E.current s.idx) w).1).1 (by rw [← hc])
      exact hv _ ⟨_, this.1, this.2.1, this.2.2, rfl⟩
    | false =>
      refine ⟨_, by
        simp only [add, exec_blk_cons, exec, convert, hc, ifErr, holds,
          Bool.not_false, if_true, exec_blk_nil]; rfl, rfl⟩
  | float =>
    have h1 : E.floatOk (E.current s.idx) = false := by
      cases h : E.floatOk (E.current s.idx) with
      | true => exact absurd ⟨h, rfl⟩ (hv (.flt (E.current s.idx)))
      | false => rfl
    refine ⟨_, by
      simp only [add, exec_blk_cons, exec, convert, h1, ifErr, holds,
        Bool.not_false, if_true, if_false, Bool.false_eq_true, exec_blk_nil]; rfl, rfl⟩
  | enum e => simp [restOk] at hk

end Verif.A2l.Template
