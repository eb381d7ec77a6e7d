import Verif.A2l.Module

/-!
C104: the parse functions treat names as opaque. A function `f` on texts that is its own inverse and leaves alone the words of the language and the
numbers can be applied to the tokens or to the result.
-/

namespace Verif.A2l.Rename
open Verif.Go Verif.A2l Lang Verif.Conc

section
variable (f : Str → Str)

mutual
/-- `f` applied to all texts in a value, also to the keys of the maps (`f` is its own inverse). -/
def ren : Val → Val
  | .zero => .zero
  | .bool b => .bool b
  | .str s => .str (f s)
  | .int z => .int z
  | .flt t => .flt t
  | .list l => .list (renL l)
  | .obj o => .obj fun g => ren (o g)
  | .map m => .map fun k => renO (m (f k))
def renL : List Val → List Val
  | [] => []
  | v :: l => ren v :: renL l
def renO : Option Val → Option Val
  | none => none
  | some v => some (ren v)
end

/-- The same for the result of a parse function. -/
def renP : PRes → PRes
  | .ok i v e => .ok i (ren f v) e
  | .panic => .panic
  | .timeout => .timeout

def renObj (o : Obj) : Obj := fun g => ren f (o g)

def renS (s : St) : St := { idx := s.idx, ret := f s.ret, obj := renObj f s.obj, buf := ren f s.buf, err := s.err }

def renOut : Out → Out
  | .ok s c => .ok (renS f s) c
  | .panic => .panic
  | .timeout => .timeout

/-- The same surroundings with other tokens. -/
def renE (E : Env) : Env := { toks := E.toks.map f, floatOk := E.floatOk, multi := E.multi, mtModule := fun i => renP f (E.mtModule i) }
end

/-- The words a condition compares with. -/
def condWords : Cond → List Str
  | .curIs t => [t]
  | .retIs t => [t]
  | .or a b => condWords a ++ condWords b
  | _ => []

/-- The words a statement compares with or stores. -/
def stmtWords : Stmt → List Str
  | .seq a b => stmtWords a ++ stmtWords b
  | .storeConst _ c => [c]
  | .enumField _ e => e.table.flatMap fun x => [x.1, x.2]
  | .ite c a b => condWords c ++ stmtWords a ++ stmtWords b
  | .loop b => stmtWords b
  | _ => []

/-- What is asked of `f`. -/
structure Renames (f : Str → Str) (floatOk : Str → Bool) : Prop where
  inv : ∀ t, f (f t) = t
  nil : f [] = []
  space : ∀ a t, f (a ++ [' '] ++ t) = f a ++ [' '] ++ f t
  kw : ∀ t ∈ keywords, f t = t
  word : ∀ p, ∀ t ∈ stmtWords (body p), f t = t
  float : ∀ t, floatOk t = true → f t = t
  uint : ∀ t b, parseUint (f t) b = parseUint t b
  int : ∀ t b, parseInt (f t) b = parseInt t b

variable {f : Str → Str} {floatOk : Str → Bool}

theorem renL_map (l : List Val) : renL f l = l.map (ren f) := by
  induction l with
  | nil => rfl
  | cons v l ih => simp [renL, ih]

theorem renO_map (o : Option Val) : renO f o = o.map (ren f) := by cases o <;> rfl

theorem ren_set (o : Obj) (g : String) (v : Val) : renObj f (o.set g v) = (renObj f o).set g (ren f v) := by
  funext h
  simp only [renObj, Obj.set]
  split <;> rfl

theorem ren_list (o : Obj) (g : String) : (renObj f o).list g = (o.list g).map (ren f) := by
  simp only [renObj, Obj.list]
  cases o g <;> simp [ren, renL_map]

theorem ren_int (o : Obj) (g : String) : (renObj f o).int g = o.int g := by
  simp only [renObj, Obj.int]
  cases o g <;> simp [ren]

theorem ren_flag (o : Obj) (g : String) : (renObj f o).flag g = o.flag g := by
  simp only [renObj, Obj.flag]
  cases o g <;> simp [ren]

theorem ren_str (h0 : f [] = []) (o : Obj) (g : String) : (renObj f o).str g = f (o.str g) := by
  simp only [renObj, Obj.str]
  cases o g <;> simp [ren, h0]

theorem ren_strField (h0 : f [] = []) (v : Val) (g : String) : (ren f v).strField g = f (v.strField g) := by
  cases v with
  | obj o => exact ren_str h0 o g
  | _ => simp [ren, Val.strField, h0]

theorem ren_cast (c : Cast) (v : Val) : castVal c (ren f v) = ren f (castVal c v) := by
  cases v <;> simp [ren, castVal]

theorem ren_mapSet (hi : ∀ t, f (f t) = t) (m : Str → Option Val) (k : Str) (v : Val) :
    ren f (.map (mapSet m k v)) = .map (mapSet (fun k => renO f (m (f k))) (f k) (ren f v)) := by
  simp only [ren]
  congr 1
  funext k'
  simp only [mapSet]
  by_cases e : f k' = k
  · rw [if_pos e, if_pos (by rw [← e, hi])]; rfl
  · rw [if_neg e, if_neg (fun h => e (by rw [h, hi]))]

theorem eq_iff (hi : ∀ t, f (f t) = t) {t : Str} (ht : f t = t) (s : Str) : f s = t ↔ s = t :=
  ⟨fun h => by rw [← hi s, h, ht], fun h => by rw [h, ht]⟩

variable {E : Env}

theorem current_ren (h0 : f [] = []) (i : Nat) : (renE f E).current i = f (E.current i) := by
  simp only [Env.current, renE, List.getElem?_map]
  cases E.toks[i]? with
  | none => exact h0.symm
  | some t => rfl

theorem hasNext_ren (i : Nat) : (renE f E).hasNext i = E.hasNext i := by simp [Env.hasNext, renE]

theorem doNext_ren (h0 : f [] = []) (s : St) : doNext (renE f E) (renS f s) = renS f (doNext E s) := by
  unfold doNext
  have e : (renE f E).hasNext (renS f s).idx = E.hasNext s.idx := hasNext_ren _
  rw [e]
  split
  · simp only [renS, current_ren h0]
  · simp only [renS]
    congr 1
    exact h0.symm

theorem keyword_ren (h : Renames f floatOk) (t : Str) : isKeyword (f t) = isKeyword t := by
  rw [Bool.eq_iff_iff]
  simp only [isKeyword, List.contains_iff_mem]
  constructor
  · intro hm
    have e := h.kw _ hm
    rw [h.inv] at e
    rw [e]; exact hm
  · intro hm; rw [h.kw _ hm]; exact hm

theorem holds_ren (h : Renames f E.floatOk) (s : St) (c : Cond) (hc : ∀ t ∈ condWords c, f t = t) :
    holds (renE f E) (renS f s) c = holds E s c := by
  induction c with
  | curIs t =>
    simp only [holds, renS, current_ren h.nil]
    rw [decide_eq_decide]
    exact eq_iff h.inv (hc t (by simp [condWords])) _
  | retIs t =>
    show decide (f s.ret = t) = decide (s.ret = t)
    exact decide_eq_decide.2 (eq_iff h.inv (hc t (by simp [condWords])) _)
  | curKw => simp only [holds, renS, current_ren h.nil, keyword_ren h]
  | errNe => rfl
  | unset g => simp only [holds, renS, ren_flag]
  | len16Is g k => simp only [holds, renS, ren_list, ren_int, List.length_map]
  | lenIs g k => simp only [holds, renS, ren_list, List.length_map]
  | multi => rfl
  | or a b iha ihb =>
    simp only [condWords, List.mem_append] at hc
    simp only [holds, iha (fun t ht => hc t (.inl ht)), ihb (fun t ht => hc t (.inr ht))]

theorem convert_ren (h : Renames f E.floatOk) (c : Conv) (t : Str) :
    convert (renE f E) c (f t) = (ren f (convert E c t).1, (convert E c t).2) := by
  cases c with
  | uint b => simp [convert, h.uint, ren]
  | int b => simp [convert, h.int, ren]
  | float =>
    have e : (renE f E).floatOk = E.floatOk := rfl
    simp only [convert, e]
    by_cases ht : E.floatOk t = true
    · rw [h.float t ht]; simp [ht, ren]
    · have hf : ¬ E.floatOk (f t) = true := fun hh => by
        have := h.float _ hh
        rw [h.inv] at this
        exact ht (by rw [this]; exact hh)
      simp [ht, hf, ren]

theorem lookup_ren (hi : ∀ t, f (f t) = t) (tab : List (Str × Str)) (ht : ∀ x ∈ tab, f x.1 = x.1) (t : Str) : tab.lookup (f t) = tab.lookup t := by
  induction tab with
  | nil => rfl
  | cons x tab ih =>
    obtain ⟨a, b⟩ := x
    have e := eq_iff hi (ht (a, b) (by simp)) t
    simp only at e
    have ih := ih (fun x hx => ht x (by simp [hx]))
    by_cases hta : t = a
    · have := e.2 hta
      subst hta
      rw [this]
    · have hn : ¬ f t = a := fun hh => hta (e.1 hh)
      have b1 : (t == a) = false := by simpa using hta
      have b2 : (f t == a) = false := by simpa using hn
      rw [List.lookup_cons, List.lookup_cons, b1, b2]
      exact ih

theorem iter_ren {g g' : St → Out} (hg : ∀ s, g' (renS f s) = renOut f (g s)) (n : Nat) : ∀ s, iter g' n (renS f s) = renOut f (iter g n s) := by
  induction n with
  | zero => intro s; rfl
  | succ n ih =>
    intro s
    simp only [iter, hg]
    cases g s with
    | ok s' c => cases c <;> simp [renOut, ih]
    | panic => rfl
    | timeout => rfl

theorem lookup_mem {tab : List (Str × Str)} {t v : Str} (h : tab.lookup t = some v) : ∃ x ∈ tab, x.2 = v := by
  induction tab with
  | nil => simp at h
  | cons x tab ih =>
    obtain ⟨a, b⟩ := x
    rw [List.lookup_cons] at h
    split at h
    · exact ⟨(a, b), by simp, by simpa using h⟩
    · obtain ⟨x, hx, e⟩ := ih h; exact ⟨x, by simp [hx], e⟩

theorem exec_ren (h : Renames f E.floatOk) {K K' : PName → Nat → PRes} (hK : ∀ p i, K' p i = renP f (K p i)) (n : Nat) (st : Stmt)
    (hst : ∀ t ∈ stmtWords st, f t = t) : ∀ s, exec (renE f E) K' n st (renS f s) = renOut f (exec E K n st s) := by
  induction st with
  | skip => intro s; rfl
  | seq a b iha ihb =>
    intro s
    simp only [stmtWords, List.mem_append] at hst
    simp only [exec, iha (fun t ht => hst t (.inl ht))]
    cases exec E K n a s with
    | ok s' c => cases c <;> simp [renOut, ihb (fun t ht => hst t (.inr ht))]
    | panic => rfl
    | timeout => rfl
  | next => intro s; simp [exec, renOut, doNext_ren h.nil]
  | prev =>
    intro s
    simp only [exec]
    have e : (renS f s).idx = s.idx := rfl
    rw [e]
    split <;> rfl
  | brk => intro s; rfl
  | setErr => intro s; rfl
  | setTrue g => intro s; simp [exec, renOut, renS, ren_set, ren]
  | storeCur g => intro s; simp [exec, renOut, renS, ren_set, ren, current_ren h.nil]
  | appendCur g => intro s; simp [exec, renOut, renS, ren_set, ren, current_ren h.nil, ren_list, renL_map]
  | concatCur g =>
    intro s
    have hsp : ∀ a t, f (a ++ spaceToken ++ t) = f a ++ spaceToken ++ f t := h.space
    simp only [exec, renOut, renS, ren_set, ren, current_ren h.nil, ren_str h.nil, hsp]
  | storeArr g k => intro s; simp [exec, renOut, renS, ren_set, ren, current_ren h.nil, renL_map]
  | storeConst g c => intro s; simp [exec, renOut, renS, ren_set, ren, hst c (by simp [stmtWords])]
  | conv c => intro s; simp [exec, renOut, renS, current_ren h.nil, convert_ren h]
  | convRet c => intro s; simp [exec, renOut, renS, convert_ren h]
  | store g c => intro s; simp [exec, renOut, renS, ren_set, ren_cast]
  | append g c => intro s; simp [exec, renOut, renS, ren_set, ren, ren_list, renL_map, ren_cast]
  | mapInit g => intro s; simp [exec, renOut, renS, ren_set, ren, renO]
  | mapInsert g key =>
    intro s
    simp only [exec]
    have e : (renS f s).obj g = ren f (s.obj g) := rfl
    rw [e]
    cases hm : s.obj g with
    | map m =>
      simp only [ren, renOut, renS, ren_set, ren_strField h.nil]
      have := ren_mapSet h.inv m (s.buf.strField key) s.buf
      simp only [ren] at this
      rw [this]
    | _ => simp [ren, renOut]
  | enumField g e =>
    intro s
    simp only [stmtWords, List.mem_flatMap] at hst
    have hk : ∀ x ∈ e.table, f x.1 = x.1 := fun x hx => hst x.1 ⟨x, hx, by simp⟩
    have hv : ∀ x ∈ e.table, f x.2 = x.2 := fun x hx => hst x.2 ⟨x, hx, by simp⟩
    have hs1 : (if e.usesNext then doNext (renE f E) (renS f s) else renS f s) = renS f (if e.usesNext then doNext E s else s) := by
      split
      · exact doNext_ren h.nil s
      · rfl
    have ht : (if e.usesNext then (renS f (if e.usesNext then doNext E s else s)).ret else (renE f E).current (renS f s).idx) =
        f (if e.usesNext then (if e.usesNext then doNext E s else s).ret else E.current s.idx) := by
      split
      · rfl
      · exact current_ren h.nil _
    simp only [exec, hs1, ht, lookup_ren h.inv _ hk]
    cases hl : e.table.lookup (if e.usesNext then (if e.usesNext then doNext E s else s).ret else E.current s.idx) with
    | some v =>
      obtain ⟨x, hx, rfl⟩ := lookup_mem hl
      simp only [renOut, renS, ren_set, ren, hv x hx]
    | none =>
      have h0 : f emptyToken = emptyToken := h.nil
      simp only [renOut, renS, ren_set, ren, h0]
  | callBuf p =>
    intro s
    simp only [exec, hK]
    have e : (renS f s).idx = s.idx := rfl
    rw [e]
    cases K p s.idx <;> simp [renP, renOut, renS]
  | callField g p =>
    intro s
    simp only [exec, hK]
    have e : (renS f s).idx = s.idx := rfl
    rw [e]
    cases K p s.idx <;> simp [renP, renOut, renS, ren_set]
  | ite c a b iha ihb =>
    intro s
    simp only [stmtWords, List.mem_append] at hst
    simp only [exec, holds_ren h s c (fun t ht => hst t (.inl (.inl ht)))]
    split
    · exact iha (fun t ht => hst t (.inl (.inr ht))) s
    · exact ihb (fun t ht => hst t (.inr ht)) s
  | loop b ih =>
    intro s
    simp only [exec]
    exact iter_ren (fun s => ih hst s) n s

theorem init_ren (h0 : f [] = []) (i : Nat) : renS f (St.init i) = St.init i := by
  simp only [renS, St.init]
  congr 1

theorem run_ren (h : Renames f E.floatOk) (n d : Nat) : ∀ p i, run (renE f E) n d p i = renP f (run E n d p i) := by
  induction d with
  | zero => intro p i; rfl
  | succ d ih =>
    intro p i
    simp only [run]
    split
    · rfl
    · rw [← init_ren h.nil i, exec_ren h ih n (body p) (h.word p), init_ren h.nil i]
      cases exec E (run E n d) n (body p) (St.init i) <;> simp [renOut, finish, renP, renS, ren]
      rfl

theorem parse_ren (h : Renames f E.floatOk) (p : PName) (i : Nat) : parse (renE f E) p i = renP f (parse E p i) := by
  unfold parse
  have e : (renE f E).toks.length = E.toks.length := by simp [renE]
  rw [e]
  exact run_ren h _ _ p i

end Verif.A2l.Rename
