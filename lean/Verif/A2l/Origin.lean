import Verif.A2l.Local
import Verif.A2l.IntProps

/-!
C75: nothing is invented. Every word and every number in a struct that is returned without error stands in the text.
-/

namespace Verif.A2l.Spec
open Verif.Go Verif.A2l Lang

/-- A text put together from words of `T` with single spaces (texts that are read word by word), the empty text, or the one constant that
is filled in when a part is missing: the address type DIRECT of a BLOB. -/
inductive Phrase (T : List Str) : Str → Prop
  | empty : Phrase T []
  | default : Phrase T ['D', 'I', 'R', 'E', 'C', 'T']
  | word {t} : t ∈ T → Phrase T t
  | more {s t} : Phrase T s → t ∈ T → Phrase T (s ++ ' ' :: t)
  | blank {s} : Phrase T s → Phrase T (s ++ [' '])

/-- Everything in a value comes from the words `T`; `I` says which numbers there may be. -/
inductive From (T : List Str) (I : Int → Prop) : Val → Prop
  | zero : From T I .zero
  | bool (b) : From T I (.bool b)
  | str {s} : Phrase T s → From T I (.str s)
  | int {z} : I z → From T I (.int z)
  | flt {t} : t ∈ T → From T I (.flt t)
  | list {l} : (∀ v ∈ l, From T I v) → From T I (.list l)
  | obj {o} : (∀ f, From T I (o f)) → From T I (.obj o)
  | map {m} : (∀ k v, m k = some v → From T I v) → From T I (.map m)

/-- The numbers that stand in the text. -/
def Written (T : List Str) (z : Int) : Prop := ∃ t ∈ T, Decl.IsInt t z

end Verif.A2l.Spec

namespace Verif.A2l.Origin
open Verif.Go Verif.A2l Lang Spec

/-- What is known on a path: the error variable, whether the struct and the buffer are known to be fine, and which conversion
filled the buffer. -/
structure Abs where
  e : Option Bool
  g : Bool
  c : Option Conv
deriving DecidableEq

def Abs.init : Abs := ⟨some false, true, none⟩

def condT (mt : Bool) : Cond → Abs → List Abs
  | .errNe, a => if a.e = some false then [] else [{ a with e := some true }]
  | .multi, a => if mt then [a] else []
  | _, a => [a]

def condF : Cond → Abs → List Abs
  | .errNe, a => if a.e = some true then [] else [{ a with e := some false, g := true }]
  | _, a => [a]

/-- May the buffer be stored with this cast? -/
def castOk (c : Option Conv) (k : Cast) : Bool :=
  match c with
  | none => decide (k = .same)
  | some c => Props.sameWidth c k

/-- `mt`: modules are read in parallel; `ok`: the functions that may be called; `l`: numbers do not matter. -/
def ana (mt l : Bool) (ok : PName → Bool) : Stmt → Abs → Option (List (Abs × Ctl))
  | .skip, a => some [(a, .cont)]
  | .seq x y, a =>
    match ana mt l ok x a with
    | none => none
    | some outs => Analysis.collect (fun o => match o.2 with
        | .cont => ana mt l ok y o.1
        | .brk => some [(o.1, .brk)]) outs
  | .brk, a => some [(a, .brk)]
  | .setErr, a => some [({ a with e := some true }, .cont)]
  | .storeConst _ c, a => if c = (str! "DIRECT") then some [(a, .cont)] else none
  | .conv c, a => if a.g then some [(⟨none, l, some c⟩, .cont)] else none
  | .convRet c, a => if a.g then some [(⟨none, l, some c⟩, .cont)] else none
  | .store _ k, a => if l || castOk a.c k then some [(a, .cont)] else none
  | .append _ k, a => if l || castOk a.c k then some [(a, .cont)] else none
  | .enumField _ e, a =>
    if a.g && e.table.all (fun q => decide (q.1 = q.2)) then some [({ a with e := none }, .cont)] else none
  | .callBuf p, a => if a.g && ok p then some [(⟨none, l, none⟩, .cont)] else none
  | .callField _ p, a => if a.g && ok p then some [({ a with e := none, g := l }, .cont)] else none
  | .ite c x y, a =>
    match Analysis.collect (ana mt l ok x) (condT mt c a), Analysis.collect (ana mt l ok y) (condF c a) with
    | some u, some v => some (u ++ v)
    | _, _ => none
  | .loop b, a =>
    if a.g then
      match ana mt l ok b ⟨none, true, none⟩ with
      | none => none
      | some outs =>
        if outs.all (fun o => o.1.g || decide (o.2 = .brk)) then
          some ((outs.filter (·.2 = .brk)).map fun o => (o.1, .cont))
        else none
    else none
  | _, a => some [(a, .cont)]

/-- The functions that may be called. -/
def callable (mt : Bool) (p : PName) : Bool := mt || decide (p ≠ .parseModuleMultithreaded)

def checked (mt l : Bool) (p : PName) : Bool := (ana mt l (callable mt) (body p) Abs.init).isSome

theorem checked_all (mt l : Bool) (p : PName) (hp : p ≠ .parseModuleMultithreaded) : checked mt l p = true := by
  revert mt l
  cases p <;> first | exact absurd rfl hp | decide +kernel

/-- What the proof needs of the words `T` and the numbers `I`. -/
structure Base (E : Env) (T : List Str) (I : Int → Prop) (l : Bool) : Prop where
  sub : ∀ t ∈ E.toks, t ∈ T
  flt : E.floatOk [] = false
  num : ∀ t ∈ T, ∀ c z, Props.IntTok c t z → I z
  all : l = true → ∀ z, I z

section
variable {E : Env} {T : List Str} {I : Int → Prop} {l : Bool}

def BufOk (T : List Str) (I : Int → Prop) (l : Bool) (c : Option Conv) (v : Val) : Prop :=
  From T I v ∧ ∀ k, l = true ∨ castOk c k = true → From T I (castVal k v)

def Fine (T : List Str) (I : Int → Prop) (l : Bool) (c : Option Conv) (s : St) : Prop :=
  (∀ f, From T I (s.obj f)) ∧ BufOk T I l c s.buf

structure Inv (T : List Str) (I : Int → Prop) (l : Bool) (x : Abs) (s : St) : Prop where
  ret : s.ret ∈ T ∨ s.ret = []
  known : ∀ b, x.e = some b → s.err = b
  fine : x.g = true ∨ s.err = false → Fine T I l x.c s
  loose : l = true → x.g = true

theorem castVal_from (hB : Base E T I l) (hl : l = true) {v : Val} (h : From T I v) (k : Cast) : From T I (castVal k v) := by
  cases h with
  | int h => exact .int (hB.all hl _)
  | zero => exact .zero
  | bool b => exact .bool b
  | str h => exact .str h
  | flt h => exact .flt h
  | list h => exact .list h
  | obj h => exact .obj h
  | map h => exact .map h

theorem BufOk.plain (hB : Base E T I l) {v : Val} (h : From T I v) : BufOk T I l none v := by
  refine ⟨h, fun k hk => ?_⟩
  rcases hk with hk | hk
  · exact castVal_from hB hk h k
  · simp only [castOk, decide_eq_true_eq] at hk
    subst hk
    cases v <;> exact h

theorem word (hB : Base E T I l) {t : Str} (h : t ∈ T ∨ t = []) : From T I (.str t) := by
  rcases h with h | h
  · exact .str (.word h)
  · subst h; exact .str .empty

theorem current_mem (hB : Base E T I l) (i : Nat) : E.current i ∈ T ∨ E.current i = [] := by
  unfold Env.current
  cases h : E.toks[i]? with
  | none => right; rfl
  | some t => left; exact hB.sub _ (List.mem_of_getElem? h)

theorem IntTok_nil (c : Conv) (z : Int) : ¬ Props.IntTok c [] z := by
  cases c with
  | uint b => rintro ⟨n, ⟨h, _⟩, _⟩; exact h rfl
  | int b =>
    rintro ⟨h, _⟩
    rcases h with ⟨n, ⟨h, _⟩, _⟩ | ⟨n, t, h, _⟩ | ⟨n, t, h, _⟩
    · exact h rfl
    · cases h
    · cases h
  | float => exact id

theorem convert_ok (hB : Base E T I l) {t : Str} (ht : t ∈ T ∨ t = []) (c : Conv)
    (h : l = true ∨ (convert E c t).2 = true) : BufOk T I l (some c) (convert E c t).1 := by
  by_cases hc : c = .float
  · subst hc
    have hf : From T I (convert E .float t).1 := by
      simp only [convert]
      split
      · rename_i hh
        rcases ht with ht | ht
        · exact .flt ht
        · subst ht; rw [hB.flt] at hh; cases hh
      · exact .zero
    refine ⟨hf, fun k hk => ?_⟩
    rcases hk with hk | hk
    · exact castVal_from hB hk hf k
    · revert hf
      simp only [convert]
      split <;> exact id
  · cases hl : l with
    | true =>
      have hf : From T I (convert E c t).1 := by
        cases c with
        | uint b => exact .int (hB.all hl _)
        | int b => exact .int (hB.all hl _)
        | float => exact absurd rfl hc
      exact ⟨hf, fun k _ => castVal_from hB hl hf k⟩
    | false =>
      rw [hl] at h
      have h2 : (convert E c t).2 = true := by simpa using h
      obtain ⟨z, hz⟩ : ∃ z, (convert E c t).1 = .int z := by
        cases c with
        | uint b => exact ⟨_, rfl⟩
        | int b => exact ⟨_, rfl⟩
        | float => exact absurd rfl hc
      have hi := (Props.convert_int (E := E) hc t z).1 (Prod.ext hz h2)
      have htT : t ∈ T := by
        rcases ht with ht | ht
        · exact ht
        · subst ht; exact absurd hi (IntTok_nil c z)
      rw [hz]
      refine ⟨.int (hB.num t htT c z hi), fun k hk => ?_⟩
      have hk : Props.sameWidth c k = true := by simpa [castOk] using hk
      rw [Props.cast_same hk hi]
      exact .int (hB.num t htT c z hi)

theorem set_from {o : Obj} {f : String} {v : Val} (ho : ∀ g, From T I (o g)) (hv : From T I v) : ∀ g, From T I (o.set f v g) := by
  intro g
  unfold Obj.set
  split
  · exact hv
  · exact ho g

theorem list_from {o : Obj} {f : String} (ho : ∀ g, From T I (o g)) : ∀ v ∈ o.list f, From T I v := by
  intro v hv
  unfold Obj.list at hv
  have := ho f
  split at hv
  · rename_i l hl
    rw [hl] at this
    cases this with
    | list h => exact h v hv
  · simp at hv

theorem snoc_from {o : Obj} {f : String} {v : Val} (ho : ∀ g, From T I (o g)) (hv : From T I v) : From T I (.list (o.list f ++ [v])) := by
  refine .list fun w hw => ?_
  rcases List.mem_append.1 hw with hw | hw
  · exact list_from ho w hw
  · rw [List.mem_singleton.1 hw]; exact hv

theorem str_phrase {o : Obj} {f : String} (ho : ∀ g, From T I (o g)) : Phrase T (o.str f) := by
  unfold Obj.str
  have := ho f
  split
  · rename_i s hs
    rw [hs] at this
    cases this with
    | str h => exact h
  · exact .empty

theorem lookup_mem {t v : Str} : ∀ {tb : List (Str × Str)}, tb.lookup t = some v → (t, v) ∈ tb := by
  intro tb
  induction tb with
  | nil => intro h; simp at h
  | cons q tb ih =>
    obtain ⟨a, b⟩ := q
    intro h
    by_cases hab : t = a
    · subst hab
      simp only [List.lookup, beq_self_eq_true, Option.some.injEq] at h
      subst h
      exact List.mem_cons_self
    · have : (t == a) = false := by simpa using hab
      simp only [List.lookup, this] at h
      exact List.mem_cons_of_mem _ (ih h)

theorem next_inv (hB : Base E T I l) {x : Abs} {s : St} (h : Inv T I l x s) : Inv T I l x (doNext E s) := by
  unfold doNext
  split
  · exact ⟨current_mem hB _, h.known, h.fine, h.loose⟩
  · exact ⟨Or.inr rfl, h.known, h.fine, h.loose⟩

theorem condT_inv {x : Abs} {s : St} (h : Inv T I l x s) (c : Cond) (hc : holds E s c = true) :
    ∃ y ∈ condT E.multi c x, Inv T I l y s := by
  cases c with
  | errNe =>
    simp only [holds] at hc
    have hne : x.e ≠ some false := fun hh => by rw [h.known _ hh] at hc; cases hc
    exact ⟨{ x with e := some true }, by simp [condT, hne], h.ret, fun b hb => by injection hb with hb; rw [← hb]; exact hc, h.fine, h.loose⟩
  | multi => exact ⟨x, by simp only [holds] at hc; simp [condT, hc], h⟩
  | _ => exact ⟨x, by simp [condT], h⟩

theorem condF_inv {x : Abs} {s : St} (h : Inv T I l x s) (c : Cond) (hc : holds E s c = false) :
    ∃ y ∈ condF c x, Inv T I l y s := by
  cases c with
  | errNe =>
    simp only [holds] at hc
    have hne : x.e ≠ some true := fun hh => by rw [h.known _ hh] at hc; cases hc
    exact ⟨{ x with e := some false, g := true }, by simp [condF, hne], h.ret,
      fun b hb => by injection hb with hb; rw [← hb]; exact hc, fun _ => h.fine (Or.inr hc), fun _ => rfl⟩
  | _ => exact ⟨x, by simp [condF], h⟩

/-- The result of an execution is on one of the paths. -/
def Ends (T : List Str) (I : Int → Prop) (l : Bool) (outs : List (Abs × Ctl)) (o : Out) : Prop :=
  ∀ s1 c, o = .ok s1 c → ∃ y, (y, c) ∈ outs ∧ Inv T I l y s1

theorem Inv.any (hB : Base E T I l) {x : Abs} {s : St} (h : Inv T I l x s) (hg : x.g = true) : Inv T I l ⟨none, true, none⟩ s := by
  have hf := h.fine (Or.inl hg)
  exact ⟨h.ret, fun b hb => (by cases hb), fun _ => ⟨hf.1, BufOk.plain hB hf.2.1⟩, fun _ => rfl⟩

theorem iter_ends (hB : Base E T I l) {f : St → Out} {outs : List (Abs × Ctl)}
    (hall : outs.all (fun o => o.1.g || decide (o.2 = .brk)) = true)
    (hf : ∀ s, Inv T I l ⟨none, true, none⟩ s → Ends T I l outs (f s)) :
    ∀ n s, Inv T I l ⟨none, true, none⟩ s →
      Ends T I l ((outs.filter (·.2 = .brk)).map fun o => (o.1, .cont)) (iter f n s) := by
  intro n
  induction n with
  | zero => intro s _ s1 c h; simp [iter] at h
  | succ n ih =>
    intro s hs s1 c h
    simp only [iter] at h
    split at h
    · rename_i s2 h2
      obtain ⟨y, hm, hy⟩ := hf s hs s2 _ h2
      have hg := List.all_eq_true.1 hall _ hm
      simp only [Bool.or_eq_true, decide_eq_true_eq] at hg
      rcases hg with hg | hg
      · exact ih s2 (hy.any hB hg) s1 c h
      · cases hg
    · rename_i s2 h2
      injection h with h3 h4
      subst h3; subst h4
      obtain ⟨y, hm, hy⟩ := hf s hs _ _ h2
      exact ⟨y, List.mem_map.2 ⟨(y, .brk), List.mem_filter.2 ⟨hm, by simp⟩, rfl⟩, hy⟩
    · simp at h
    · simp at h

/-- What is needed of the functions called. -/
def Calls (T : List Str) (I : Int → Prop) (l : Bool) (ok : PName → Bool) (K : PName → Nat → PRes) : Prop :=
  ∀ p, ok p = true → ∀ i j v e, K p i = .ok j v e → (l = true ∨ e = false) → From T I v

theorem exec_ends (hB : Base E T I l) {ok : PName → Bool} {K : PName → Nat → PRes} (hK : Calls T I l ok K) {n : Nat} (st : Stmt) :
    ∀ x outs, ana E.multi l ok st x = some outs → ∀ s, Inv T I l x s → Ends T I l outs (exec E K n st s) := by
  induction st with
  | seq p q hp hq =>
    intro x outs ho s hs s1 c h
    simp only [ana] at ho
    split at ho
    · simp at ho
    · rename_i o1 h1
      simp only [exec] at h
      split at h
      · rename_i s2 h2
        obtain ⟨y, hm, hy⟩ := hp x o1 h1 s hs s2 _ h2
        obtain ⟨u, hu, hsub⟩ := Local.mem_collect ho _ hm
        obtain ⟨z, hz, hz'⟩ := hq y u hu s2 hy s1 c h
        exact ⟨z, hsub _ hz, hz'⟩
      · rename_i r hr
        obtain ⟨y, hm, hy⟩ := hp x o1 h1 s hs s1 c h
        cases c with
        | cont => exact absurd h (hr s1)
        | brk =>
          obtain ⟨u, hu, hsub⟩ := Local.mem_collect ho _ hm
          simp only [Option.some.injEq] at hu
          subst hu
          exact ⟨y, hsub _ (by simp), hy⟩
  | ite c p q hp hq =>
    intro x outs ho s hs s1 c1 h
    simp only [ana] at ho
    split at ho
    · rename_i u v hu hv
      injection ho with ho
      subst ho
      simp only [exec] at h
      split at h
      · rename_i hc
        obtain ⟨y, hy, hy'⟩ := condT_inv hs c hc
        obtain ⟨z, hz, hsub⟩ := Local.mem_collect hu y hy
        obtain ⟨y1, h1, h2⟩ := hp y z hz s hy' s1 c1 h
        exact ⟨y1, List.mem_append_left _ (hsub _ h1), h2⟩
      · rename_i hc
        obtain ⟨y, hy, hy'⟩ := condF_inv hs c (by simpa using hc)
        obtain ⟨z, hz, hsub⟩ := Local.mem_collect hv y hy
        obtain ⟨y1, h1, h2⟩ := hq y z hz s hy' s1 c1 h
        exact ⟨y1, List.mem_append_right _ (hsub _ h1), h2⟩
    · simp at ho
  | loop p hp =>
    intro x outs ho s hs
    simp only [ana] at ho
    split at ho
    · rename_i hg
      split at ho
      · simp at ho
      · rename_i o1 h1
        split at ho
        · rename_i hall
          injection ho with ho
          subst ho
          exact iter_ends hB hall (fun s hs => hp _ _ h1 s hs) n s (hs.any hB hg)
        · simp at ho
    · simp at ho
  | next =>
    intro x outs ho s hs s1 c h
    simp only [ana, Option.some.injEq] at ho
    simp only [exec, Out.ok.injEq] at h
    obtain ⟨h1, h2⟩ := h
    subst ho; subst h1; subst h2
    exact ⟨_, List.mem_singleton.2 rfl, next_inv hB hs⟩
  | prev =>
    intro x outs ho s hs s1 c h
    simp only [ana, Option.some.injEq] at ho
    simp only [exec] at h
    split at h
    · simp at h
    · injection h with h1 h2
      subst ho; subst h1; subst h2
      exact ⟨_, List.mem_singleton.2 rfl, hs.ret, hs.known, hs.fine, hs.loose⟩
  | conv c0 =>
    intro x outs ho s hs s1 c h
    simp only [ana] at ho
    split at ho
    · rename_i hg
      simp only [Option.some.injEq] at ho
      simp only [exec, Out.ok.injEq] at h
      obtain ⟨h1, h2⟩ := h
      subst ho; subst h1; subst h2
      refine ⟨_, List.mem_singleton.2 rfl, hs.ret, fun b hb => (by cases hb), fun hh => ⟨(hs.fine (Or.inl hg)).1, ?_⟩, fun hl => hl⟩
      exact convert_ok hB (current_mem hB _) c0 (by simpa using hh)
    · simp at ho
  | convRet c0 =>
    intro x outs ho s hs s1 c h
    simp only [ana] at ho
    split at ho
    · rename_i hg
      simp only [Option.some.injEq] at ho
      simp only [exec, Out.ok.injEq] at h
      obtain ⟨h1, h2⟩ := h
      subst ho; subst h1; subst h2
      refine ⟨_, List.mem_singleton.2 rfl, hs.ret, fun b hb => (by cases hb), fun hh => ⟨(hs.fine (Or.inl hg)).1, ?_⟩, fun hl => hl⟩
      exact convert_ok hB hs.ret c0 (by simpa using hh)
    · simp at ho
  | storeConst f c0 =>
    intro x outs ho s hs s1 c h
    simp only [ana] at ho
    split at ho
    · rename_i hg
      simp only [Option.some.injEq] at ho
      simp only [exec, Out.ok.injEq] at h
      obtain ⟨h1, h2⟩ := h
      subst ho; subst h1; subst h2
      refine ⟨_, List.mem_singleton.2 rfl, hs.ret, hs.known, fun hh => ⟨set_from (hs.fine hh).1 ?_, (hs.fine hh).2⟩, hs.loose⟩
      rw [hg]
      exact .str .default
    · simp at ho
  | store f k =>
    intro x outs ho s hs s1 c h
    simp only [ana] at ho
    split at ho
    · rename_i hg
      simp only [Option.some.injEq] at ho
      simp only [exec, Out.ok.injEq] at h
      obtain ⟨h1, h2⟩ := h
      subst ho; subst h1; subst h2
      exact ⟨_, List.mem_singleton.2 rfl, hs.ret, hs.known, fun hh => ⟨set_from (hs.fine hh).1 ((hs.fine hh).2.2 k (by simpa using hg)), (hs.fine hh).2⟩, hs.loose⟩
    · simp at ho
  | append f k =>
    intro x outs ho s hs s1 c h
    simp only [ana] at ho
    split at ho
    · rename_i hg
      simp only [Option.some.injEq] at ho
      simp only [exec, Out.ok.injEq] at h
      obtain ⟨h1, h2⟩ := h
      subst ho; subst h1; subst h2
      exact ⟨_, List.mem_singleton.2 rfl, hs.ret, hs.known,
        fun hh => ⟨set_from (hs.fine hh).1 (snoc_from (hs.fine hh).1 ((hs.fine hh).2.2 k (by simpa using hg))), (hs.fine hh).2⟩, hs.loose⟩
    · simp at ho
  | enumField f e =>
    intro x outs ho s hs s1 c h
    simp only [ana] at ho
    split at ho
    · rename_i hg
      simp only [Bool.and_eq_true] at hg
      simp only [Option.some.injEq] at ho
      subst ho
      have hs1 : Inv T I l x (if e.usesNext then doNext E s else s) := by
        split
        · exact next_inv hB hs
        · exact hs
      have hfine := hs1.fine (Or.inl hg.1)
      have ht : ∀ t, (t = if e.usesNext then (if e.usesNext then doNext E s else s).ret else E.current s.idx) → t ∈ T ∨ t = [] := by
        rintro t rfl
        split
        · exact (next_inv hB hs).ret
        · exact current_mem hB _
      simp only [exec] at h
      split at h
      · rename_i v hv
        injection h with h1 h2
        subst h1; subst h2
        have hmem := lookup_mem hv
        have heq := List.all_eq_true.1 hg.2 _ hmem
        simp only [decide_eq_true_eq] at heq
        exact ⟨_, List.mem_singleton.2 rfl, hs1.ret, fun b hb => (by cases hb),
          fun _ => ⟨set_from hfine.1 (by rw [← heq]; exact word hB (ht _ rfl)), hfine.2⟩, hs1.loose⟩
      · injection h with h1 h2
        subst h1; subst h2
        exact ⟨_, List.mem_singleton.2 rfl, hs1.ret, fun b hb => (by cases hb),
          fun _ => ⟨set_from hfine.1 (.str .empty), hfine.2⟩, hs1.loose⟩
    · simp at ho
  | callBuf p =>
    intro x outs ho s hs s1 c h
    simp only [ana] at ho
    split at ho
    · rename_i hg
      simp only [Bool.and_eq_true] at hg
      simp only [Option.some.injEq] at ho
      subst ho
      simp only [exec] at h
      split at h
      · rename_i j v e hk
        injection h with h1 h2
        subst h1; subst h2
        exact ⟨_, List.mem_singleton.2 rfl, hs.ret, fun b hb => (by cases hb),
          fun hh => ⟨(hs.fine (Or.inl hg.1)).1, BufOk.plain hB (hK p hg.2 _ _ _ _ hk hh)⟩, fun hl => hl⟩
      · simp at h
      · simp at h
    · simp at ho
  | callField f p =>
    intro x outs ho s hs s1 c h
    simp only [ana] at ho
    split at ho
    · rename_i hg
      simp only [Bool.and_eq_true] at hg
      simp only [Option.some.injEq] at ho
      subst ho
      simp only [exec] at h
      split at h
      · rename_i j v e hk
        injection h with h1 h2
        subst h1; subst h2
        exact ⟨_, List.mem_singleton.2 rfl, hs.ret, fun b hb => (by cases hb),
          fun hh => ⟨set_from (hs.fine (Or.inl hg.1)).1 (hK p hg.2 _ _ _ _ hk hh), (hs.fine (Or.inl hg.1)).2⟩, fun hl => hl⟩
      · simp at h
      · simp at h
    · simp at ho
  | mapInsert f key =>
    intro x outs ho s hs s1 c h
    simp only [ana, Option.some.injEq] at ho
    simp only [exec] at h
    split at h
    · rename_i m hm
      injection h with h1 h2
      subst ho; subst h1; subst h2
      refine ⟨_, List.mem_singleton.2 rfl, hs.ret, hs.known, fun hh => ⟨set_from (hs.fine hh).1 (.map ?_), (hs.fine hh).2⟩, hs.loose⟩
      intro k v hkv
      unfold mapSet at hkv
      split at hkv
      · injection hkv with hkv
        rw [← hkv]
        exact (hs.fine hh).2.1
      · have := (hs.fine hh).1 f
        rw [hm] at this
        cases this with
        | map h => exact h k v hkv
    · simp at h
  | setErr =>
    intro x outs ho s hs s1 c h
    simp only [ana, Option.some.injEq] at ho
    simp only [exec, Out.ok.injEq] at h
    obtain ⟨h1, h2⟩ := h
    subst ho; subst h1; subst h2
    refine ⟨_, List.mem_singleton.2 rfl, hs.ret, fun b hb => (by injection hb), fun hh => ?_, hs.loose⟩
    rcases hh with hh | hh
    · exact hs.fine (Or.inl hh)
    · cases hh
  | setTrue f =>
    intro x outs ho s hs s1 c h
    simp only [ana, Option.some.injEq] at ho
    simp only [exec, Out.ok.injEq] at h
    obtain ⟨h1, h2⟩ := h
    subst ho; subst h1; subst h2
    exact ⟨_, List.mem_singleton.2 rfl, hs.ret, hs.known, fun hh => ⟨set_from (hs.fine hh).1 (.bool true), (hs.fine hh).2⟩, hs.loose⟩
  | storeCur f =>
    intro x outs ho s hs s1 c h
    simp only [ana, Option.some.injEq] at ho
    simp only [exec, Out.ok.injEq] at h
    obtain ⟨h1, h2⟩ := h
    subst ho; subst h1; subst h2
    exact ⟨_, List.mem_singleton.2 rfl, hs.ret, hs.known, fun hh => ⟨set_from (hs.fine hh).1 (word hB (current_mem hB _)), (hs.fine hh).2⟩, hs.loose⟩
  | appendCur f =>
    intro x outs ho s hs s1 c h
    simp only [ana, Option.some.injEq] at ho
    simp only [exec, Out.ok.injEq] at h
    obtain ⟨h1, h2⟩ := h
    subst ho; subst h1; subst h2
    exact ⟨_, List.mem_singleton.2 rfl, hs.ret, hs.known,
      fun hh => ⟨set_from (hs.fine hh).1 (snoc_from (hs.fine hh).1 (word hB (current_mem hB _))), (hs.fine hh).2⟩, hs.loose⟩
  | concatCur f =>
    intro x outs ho s hs s1 c h
    simp only [ana, Option.some.injEq] at ho
    simp only [exec, Out.ok.injEq] at h
    obtain ⟨h1, h2⟩ := h
    subst ho; subst h1; subst h2
    refine ⟨_, List.mem_singleton.2 rfl, hs.ret, hs.known, fun hh => ⟨set_from (hs.fine hh).1 ?_, (hs.fine hh).2⟩, hs.loose⟩
    have hp := str_phrase (f := f) (hs.fine hh).1
    rw [List.append_assoc]
    rcases current_mem hB s.idx with hc | hc
    · exact .str (.more hp hc)
    · rw [hc]; exact .str (.blank hp)
  | storeArr f k =>
    intro x outs ho s hs s1 c h
    simp only [ana, Option.some.injEq] at ho
    simp only [exec, Out.ok.injEq] at h
    obtain ⟨h1, h2⟩ := h
    subst ho; subst h1; subst h2
    refine ⟨_, List.mem_singleton.2 rfl, hs.ret, hs.known, fun hh => ⟨set_from (hs.fine hh).1 (.list fun v hv => ?_), (hs.fine hh).2⟩, hs.loose⟩
    rw [List.eq_of_mem_replicate hv]
    exact word hB (current_mem hB _)
  | mapInit f =>
    intro x outs ho s hs s1 c h
    simp only [ana, Option.some.injEq] at ho
    simp only [exec, Out.ok.injEq] at h
    obtain ⟨h1, h2⟩ := h
    subst ho; subst h1; subst h2
    exact ⟨_, List.mem_singleton.2 rfl, hs.ret, hs.known,
      fun hh => ⟨set_from (hs.fine hh).1 (.map fun k v hkv => (by cases hkv)), (hs.fine hh).2⟩, hs.loose⟩
  | skip =>
    intro x outs ho s hs s1 c h
    simp only [ana, Option.some.injEq] at ho
    simp only [exec, Out.ok.injEq] at h
    obtain ⟨h1, h2⟩ := h
    subst ho; subst h1; subst h2
    exact ⟨_, List.mem_singleton.2 rfl, hs⟩
  | brk =>
    intro x outs ho s hs s1 c h
    simp only [ana, Option.some.injEq] at ho
    simp only [exec, Out.ok.injEq] at h
    obtain ⟨h1, h2⟩ := h
    subst ho; subst h1; subst h2
    exact ⟨_, List.mem_singleton.2 rfl, hs⟩

theorem run_from (hB : Base E T I l)
    (hmt : E.multi = true → ∀ i j v e, E.mtModule i = .ok j v e → (l = true ∨ e = false) → From T I v) (n : Nat) :
    ∀ d, Calls T I l (callable E.multi) (run E n d) := by
  intro d
  induction d with
  | zero => intro p _ i j v e h; simp [run] at h
  | succ d ih =>
    intro p hp i j v e h he
    rw [run] at h
    split at h
    · rename_i hpm
      subst hpm
      exact hmt (by simpa [callable] using hp) i j v e h he
    · rename_i hpm
      obtain ⟨outs, ho⟩ := Option.isSome_iff_exists.1 (checked_all E.multi l p hpm)
      unfold finish at h
      split at h
      · rename_i s c hx
        injection h with h1 h2 h3
        subst h1; subst h2; subst h3
        have hinit : Inv T I l Abs.init (St.init i) := by
          refine ⟨Or.inr rfl, fun b hb => ?_, fun _ => ⟨fun f => .zero, BufOk.plain hB .zero⟩, fun _ => rfl⟩
          simp only [Abs.init, Option.some.injEq] at hb
          rw [← hb]; rfl
        obtain ⟨y, _, hy⟩ := exec_ends hB ih (body p) _ _ ho _ hinit s c hx
        refine .obj (hy.fine ?_).1
        rcases he with he | he
        · exact Or.inl (hy.loose he)
        · exact Or.inr he
      · simp at h
      · simp at h

end

end Verif.A2l.Origin
