import Verif.A2l.ParseProps

/-!
C74: an object is read from its own text. A static analysis of the statement language for how far a parse function looks ahead
of the position it ends at, proved sound once and evaluated on all parse functions.
-/

namespace Verif.A2l.Local
open Verif.Go Verif.A2l Lang

/-- The two functions that step back one token. -/
def peeks : List PName := [.parseMatrixDim, .parseFrameMeasurement]

/-- What is known on a path. -/
structure Abs where
  /-- no token after the current one has been looked at -/
  t : Bool
  /-- the cursor has moved forward since the start -/
  m : Bool
  /-- the error variable is known -/
  e : Option Bool
deriving DecidableEq

/-- The parse functions that read one object: all but the multithreaded module parser, the function that reads
the whole file and, if modules are read by several workers (`mt`), the one that reads a project. -/
def callable (mt : Bool) (p : PName) : Bool :=
  decide (p ≠ .parseModuleMultithreaded) && decide (p ≠ .parseA2l) && (!mt || decide (p ≠ .parseProject))

def Abs.init : Abs := ⟨true, false, some false⟩

def condT (mt : Bool) : Cond → Abs → List Abs
  | .errNe, a => if a.e = some false then [] else [{ a with e := some true }]
  | .multi, a => if mt then [a] else []
  | _, a => [a]

def condF : Cond → Abs → List Abs
  | .errNe, a => if a.e = some true then [] else [{ a with e := some false }]
  | _, a => [a]

def Abs.next (a : Abs) : Abs := ⟨true, true, a.e⟩

/-- After a call from a state in which nothing ahead has been looked at. -/
def Abs.called (a : Abs) (p : PName) : List Abs :=
  if peeks.contains p then [⟨false, a.m, none⟩] else [⟨true, a.m, some false⟩, ⟨false, a.m, some true⟩]

def ana (mt : Bool) : Stmt → Abs → Option (List (Abs × Ctl))
  | .skip, a => some [(a, .cont)]
  | .seq x y, a =>
    match ana mt x a with
    | none => none
    | some outs => Analysis.collect (fun o => match o.2 with
        | .cont => ana mt y o.1
        | .brk => some [(o.1, .brk)]) outs
  | .next, a => some [(a.next, .cont)]
  | .prev, a => if a.t && a.m then some [(⟨false, false, a.e⟩, .cont)] else none
  | .brk, a => some [(a, .brk)]
  | .setErr, a => some [({ a with e := some true }, .cont)]
  | .conv _, a => some [({ a with e := none }, .cont)]
  | .convRet _, a => some [({ a with e := none }, .cont)]
  | .enumField _ e, a => some [({ (if e.usesNext then a.next else a) with e := none }, .cont)]
  | .callBuf p, a => if a.t && callable mt p then some ((a.called p).map (·, .cont)) else none
  | .callField _ p, a => if a.t && callable mt p then some ((a.called p).map (·, .cont)) else none
  | .ite c x y, a =>
    match Analysis.collect (ana mt x) (condT mt c a), Analysis.collect (ana mt y) (condF c a) with
    | some u, some v => some (u ++ v)
    | _, _ => none
  | .loop b, _ =>
    match ana mt b ⟨false, false, none⟩ with
    | none => none
    | some outs => some ((outs.filter (·.2 = .brk)).map fun o => (o.1, .cont))
  | _, a => some [(a, .cont)]

/-- A path ends without having looked ahead, or with an error, or the function is one of the two. -/
def pathOk (p : PName) (o : Abs × Ctl) : Bool := o.1.t || decide (o.1.e = some true) || peeks.contains p

def checked (mt : Bool) (p : PName) : Bool :=
  match ana mt (body p) Abs.init with
  | some outs => outs.all (pathOk p)
  | none => false

theorem checked_all (mt : Bool) (p : PName) (hp : callable mt p = true) : checked mt p = true := by
  cases mt <;> cases p <;> first | exact absurd hp (by decide) | decide +kernel

/-! ### Soundness -/

section
variable {E E' : Env} {a a' w : Nat}

/-- The two states are at the same place of the window, which starts at `a` and `a'`, and agree; `b` is the place at which the
function was called. -/
structure Rel (a a' w b : Nat) (x : Abs) (s s' : St) : Prop where
  idx : ∃ k, b ≤ k ∧ k < w ∧ s.idx = a + k ∧ s'.idx = a' + k ∧ (x.m = true → b + 1 ≤ k)
  ret : s'.ret = s.ret
  obj : s'.obj = s.obj
  buf : s'.buf = s.buf
  err : s'.err = s.err
  known : ∀ c, x.e = some c → s.err = c

/-- A token behind the window has been looked at. -/
structure Esc (a w : Nat) (x : Abs) (s : St) : Prop where
  tight : x.t = true → a + w ≤ s.idx
  loose : a + w ≤ s.idx + 1
  known : ∀ c, x.e = some c → s.err = c

/-- The same for the result of a call. -/
def EscP (a w : Nat) (p : PName) (j : Nat) (e : Bool) : Prop :=
  (p ∉ peeks → e = false → a + w ≤ j) ∧ a + w ≤ j + 1

/-- What is needed of the functions called. -/
structure Calls (mt : Bool) (K K' : PName → Nat → PRes) (a a' w : Nat) : Prop where
  rel : ∀ p, callable mt p = true → ∀ k < w, ∀ j v e, K p (a + k) = .ok j v e →
    (∃ m, k ≤ m ∧ m < w ∧ j = a + m ∧ K' p (a' + k) = .ok (a' + m) v e) ∨ EscP a w p j e
  esc : ∀ p, callable mt p = true → ∀ i, a + w ≤ i → ∀ j v e, K p i = .ok j v e → EscP a w p j e

/-- The two token lists agree in the window; in the first the window is followed by a token. -/
structure Window (E E' : Env) (a a' w : Nat) : Prop where
  cur : ∀ k < w, E.current (a + k) = E'.current (a' + k)
  len : a + w < E.toks.length
  len' : a' + w ≤ E'.toks.length
  flt : E'.floatOk = E.floatOk
  multi : E'.multi = E.multi

theorem mem_collect {α β : Type} {f : α → Option (List β)} : ∀ {l : List α} {r : List β}, Analysis.collect f l = some r →
    ∀ x ∈ l, ∃ u, f x = some u ∧ ∀ y ∈ u, y ∈ r := by
  intro l
  induction l with
  | nil => intro r _ x hx; simp at hx
  | cons z l ih =>
    intro r h x hx
    unfold Analysis.collect at h
    split at h
    · rename_i u v h1 h2
      injection h with h
      subst h
      rcases List.mem_cons.1 hx with rfl | hx
      · exact ⟨u, h1, fun y hy => List.mem_append_left _ hy⟩
      · obtain ⟨u', h3, h4⟩ := ih h2 x hx
        exact ⟨u', h3, fun y hy => List.mem_append_right _ (h4 y hy)⟩
    · simp at h

theorem holds_eq (hw : Window E E' a a' w) {b : Nat} {x : Abs} {s s' : St} (h : Rel a a' w b x s s') (c : Cond) :
    holds E' s' c = holds E s c := by
  obtain ⟨⟨k, _, hk, h1, h2, _⟩, hr, ho, _, he, _⟩ := h
  induction c with
  | curIs t => simp only [holds, h1, h2, hw.cur k hk]
  | retIs t => simp only [holds, hr]
  | curKw => simp only [holds, h1, h2, hw.cur k hk]
  | errNe => simp only [holds, he]
  | unset f => simp only [holds, ho]
  | len16Is f g => simp only [holds, ho]
  | lenIs f n => simp only [holds, ho]
  | multi => simp only [holds, hw.multi]
  | or p q hp hq => simp only [holds, hp, hq]

theorem next_rel (hw : Window E E' a a' w) {b : Nat} {x : Abs} {s s' : St} (h : Rel a a' w b x s s') :
    Rel a a' w b x.next (doNext E s) (doNext E' s') ∨ Esc a w x.next (doNext E s) := by
  obtain ⟨⟨k, hb, hk, h1, h2, _⟩, hr, ho, hbf, he, hkn⟩ := h
  have hlen := hw.len
  have hlen' := hw.len'
  have hn : E.hasNext s.idx = true := by simp only [Env.hasNext, decide_eq_true_eq]; omega
  unfold doNext
  rw [if_pos hn]
  by_cases hk1 : k + 1 < w
  · have hn' : E'.hasNext s'.idx = true := by simp only [Env.hasNext, decide_eq_true_eq]; omega
    rw [if_pos hn']
    left
    refine ⟨⟨k + 1, by omega, hk1, by simp only; omega, by simp only; omega, fun _ => by omega⟩, ?_, ho, hbf, he, hkn⟩
    simp only [h1, h2]
    exact (hw.cur (k + 1) hk1).symm
  · right
    exact ⟨fun _ => by simp only; omega, by simp only; omega, hkn⟩

theorem next_esc (hw : Window E E' a a' w) {x : Abs} {s : St} (h : Esc a w x s) : Esc a w x.next (doNext E s) := by
  have hlen := hw.len
  have hl := h.loose
  unfold doNext
  split
  · exact ⟨fun _ => by simp only; omega, by simp only; omega, h.known⟩
  · rename_i hn
    simp only [Env.hasNext, decide_eq_true_eq] at hn
    exact ⟨fun _ => by simp only; omega, by simp only; omega, h.known⟩

theorem convert_eq (hw : Window E E' a a' w) (c : Conv) (t : Str) : convert E' c t = convert E c t := by
  cases c <;> simp [convert, hw.flt]

theorem condT_rel {b : Nat} {x : Abs} {s s' : St} (h : Rel a a' w b x s s') (c : Cond)
    (hc : holds E s c = true) : ∃ y ∈ condT E.multi c x, Rel a a' w b y s s' := by
  cases c with
  | errNe =>
    simp only [holds] at hc
    have hne : x.e ≠ some false := fun hh => by rw [h.known _ hh] at hc; cases hc
    refine ⟨{ x with e := some true }, by simp [condT, hne], ?_⟩
    exact { h with known := fun c hh => by injection hh with hh; rw [← hh]; exact hc }
  | multi => exact ⟨x, by simp only [holds] at hc; simp [condT, hc], h⟩
  | _ => exact ⟨x, by simp [condT], h⟩

theorem condF_rel {b : Nat} {x : Abs} {s s' : St} (h : Rel a a' w b x s s') (c : Cond)
    (hc : holds E s c = false) : ∃ y ∈ condF c x, Rel a a' w b y s s' := by
  cases c with
  | errNe =>
    simp only [holds] at hc
    have hne : x.e ≠ some true := fun hh => by rw [h.known _ hh] at hc; cases hc
    refine ⟨{ x with e := some false }, by simp [condF, hne], ?_⟩
    exact { h with known := fun c hh => by injection hh with hh; rw [← hh]; exact hc }
  | _ => exact ⟨x, by simp [condF], h⟩

theorem condT_esc {x : Abs} {s : St} (h : Esc a w x s) (c : Cond)
    (hc : holds E s c = true) : ∃ y ∈ condT E.multi c x, Esc a w y s := by
  cases c with
  | errNe =>
    simp only [holds] at hc
    have hne : x.e ≠ some false := fun hh => by rw [h.known _ hh] at hc; cases hc
    refine ⟨{ x with e := some true }, by simp [condT, hne], ?_⟩
    exact { h with known := fun c hh => by injection hh with hh; rw [← hh]; exact hc }
  | multi => exact ⟨x, by simp only [holds] at hc; simp [condT, hc], h⟩
  | _ => exact ⟨x, by simp [condT], h⟩

theorem condF_esc {x : Abs} {s : St} (h : Esc a w x s) (c : Cond)
    (hc : holds E s c = false) : ∃ y ∈ condF c x, Esc a w y s := by
  cases c with
  | errNe =>
    simp only [holds] at hc
    have hne : x.e ≠ some true := fun hh => by rw [h.known _ hh] at hc; cases hc
    refine ⟨{ x with e := some false }, by simp [condF, hne], ?_⟩
    exact { h with known := fun c hh => by injection hh with hh; rw [← hh]; exact hc }
  | _ => exact ⟨x, by simp [condF], h⟩

theorem Rel.any {b : Nat} {x : Abs} {s s' : St} (h : Rel a a' w b x s s') : Rel a a' w b ⟨false, false, none⟩ s s' := by
  obtain ⟨⟨k, h1, h2, h3, h4, _⟩, hr, ho, hbf, he, _⟩ := h
  exact ⟨⟨k, h1, h2, h3, h4, fun hh => (by cases hh)⟩, hr, ho, hbf, he, fun c hh => (by cases hh)⟩

theorem Esc.any {x : Abs} {s : St} (h : Esc a w x s) : Esc a w ⟨false, false, none⟩ s :=
  ⟨fun hh => (by cases hh), h.loose, fun c hh => (by cases hh)⟩

/-- A result of the first program that has not left the window is also the result of the second. -/
def Follows (a a' w b : Nat) (outs : List (Abs × Ctl)) (o o' : Out) : Prop :=
  ∀ s1 c, o = .ok s1 c → ∃ y, (y, c) ∈ outs ∧ ((∃ s1', o' = .ok s1' c ∧ Rel a a' w b y s1 s1') ∨ Esc a w y s1)

def Leaves (a w : Nat) (outs : List (Abs × Ctl)) (o : Out) : Prop :=
  ∀ s1 c, o = .ok s1 c → ∃ y, (y, c) ∈ outs ∧ Esc a w y s1

theorem called_mem {x : Abs} {p : PName} {e : Bool} : (⟨decide (p ∉ peeks ∧ e = false), x.m, if p ∈ peeks then none else some e⟩ : Abs) ∈ x.called p := by
  unfold Abs.called
  by_cases hp : p ∈ peeks
  · simp [hp]
  · cases e <;> simp [hp]

theorem iter_leaves {f : St → Out} {outs : List (Abs × Ctl)}
    (hf : ∀ s, Esc a w ⟨false, false, none⟩ s → Leaves a w outs (f s)) :
    ∀ n s, Esc a w ⟨false, false, none⟩ s →
      Leaves a w ((outs.filter (·.2 = .brk)).map fun o => (o.1, .cont)) (iter f n s) := by
  intro n
  induction n with
  | zero => intro s _ s1 c h; simp [iter] at h
  | succ n ih =>
    intro s hs s1 c h
    simp only [iter] at h
    split at h
    · rename_i s2 h2
      obtain ⟨y, _, hy⟩ := hf s hs s2 _ h2
      exact ih s2 hy.any s1 c h
    · rename_i s2 h2
      injection h with h3 h4
      subst h3; subst h4
      obtain ⟨y, hm, hy⟩ := hf s hs _ _ h2
      exact ⟨y, List.mem_map.2 ⟨(y, .brk), List.mem_filter.2 ⟨hm, by simp⟩, rfl⟩, hy⟩
    · simp at h
    · simp at h

theorem iter_follows {f f' : St → Out} {outs : List (Abs × Ctl)} {b : Nat}
    (hf : ∀ s, Esc a w ⟨false, false, none⟩ s → Leaves a w outs (f s))
    (hr : ∀ s s', Rel a a' w b ⟨false, false, none⟩ s s' → Follows a a' w b outs (f s) (f' s')) :
    ∀ n s s', Rel a a' w b ⟨false, false, none⟩ s s' →
      Follows a a' w b ((outs.filter (·.2 = .brk)).map fun o => (o.1, .cont)) (iter f n s) (iter f' n s') := by
  intro n
  induction n with
  | zero => intro s s' _ s1 c h; simp [iter] at h
  | succ n ih =>
    intro s s' hs s1 c h
    simp only [iter] at h
    split at h
    · rename_i s2 h2
      obtain ⟨y, _, ⟨s2', h2', hy⟩ | hy⟩ := hr s s' hs s2 _ h2
      · simp only [iter, h2']
        exact ih s2 s2' hy.any s1 c h
      · obtain ⟨z, hz, hz'⟩ := iter_leaves hf n s2 hy.any s1 c h
        exact ⟨z, hz, Or.inr hz'⟩
    · rename_i s2 h2
      injection h with h3 h4
      subst h3; subst h4
      obtain ⟨y, hm, hy⟩ := hr s s' hs _ _ h2
      refine ⟨y, List.mem_map.2 ⟨(y, .brk), List.mem_filter.2 ⟨hm, by simp⟩, rfl⟩, ?_⟩
      rcases hy with ⟨s2', h2', hy⟩ | hy
      · exact Or.inl ⟨s2', by simp only [iter, h2'], hy⟩
      · exact Or.inr hy
    · simp at h
    · simp at h

theorem exec_leaves (hw : Window E E' a a' w) {K K' : PName → Nat → PRes} (hK : Calls E.multi K K' a a' w) {n : Nat} (st : Stmt) :
    ∀ x outs, ana E.multi st x = some outs → ∀ s, Esc a w x s → Leaves a w outs (exec E K n st s) := by
  induction st with
  | seq p q hp hq =>
    intro x outs ho s hs s1 c h
    simp only [ana] at ho
    split at ho
    · simp at ho
    · rename_i o1 h1
      simp only [exec] at h
      split at h
      · rename_i s2 h2
        obtain ⟨y, hm, hy⟩ := hp x o1 h1 s hs s2 _ h2
        obtain ⟨u, hu, hsub⟩ := mem_collect ho _ hm
        obtain ⟨z, hz, hz'⟩ := hq y u hu s2 hy s1 c h
        exact ⟨z, hsub _ hz, hz'⟩
      · rename_i r hr
        obtain ⟨y, hm, hy⟩ := hp x o1 h1 s hs s1 c h
        cases c with
        | cont => exact absurd h (hr s1)
        | brk =>
          obtain ⟨u, hu, hsub⟩ := mem_collect ho _ hm
          simp only [Option.some.injEq] at hu
          subst hu
          exact ⟨y, hsub _ (by simp), hy⟩
  | ite c p q hp hq =>
    intro x outs ho s hs s1 c1 h
    simp only [ana] at ho
    split at ho
    · rename_i u v hu hv
      injection ho with ho
      subst ho
      simp only [exec] at h
      split at h
      · rename_i hc
        obtain ⟨y, hy, hy'⟩ := condT_esc hs c hc
        obtain ⟨z, hz, hsub⟩ := mem_collect hu y hy
        obtain ⟨y1, h1, h2⟩ := hp y z hz s hy' s1 c1 h
        exact ⟨y1, List.mem_append_left _ (hsub _ h1), h2⟩
      · rename_i hc
        obtain ⟨y, hy, hy'⟩ := condF_esc hs c (by simpa using hc)
        obtain ⟨z, hz, hsub⟩ := mem_collect hv y hy
        obtain ⟨y1, h1, h2⟩ := hq y z hz s hy' s1 c1 h
        exact ⟨y1, List.mem_append_right _ (hsub _ h1), h2⟩
    · simp at ho
  | loop p hp =>
    intro x outs ho s hs
    simp only [ana] at ho
    split at ho
    · simp at ho
    · rename_i o1 h1
      injection ho with ho
      subst ho
      exact iter_leaves (fun s hs => hp _ _ h1 s hs) n s hs.any
  | next =>
    intro x outs ho s hs s1 c h
    simp only [ana, Option.some.injEq] at ho
    simp only [exec, Out.ok.injEq] at h
    obtain ⟨h1, h2⟩ := h
    subst ho; subst h1; subst h2
    exact ⟨_, List.mem_singleton.2 rfl, next_esc hw hs⟩
  | prev =>
    intro x outs ho s hs s1 c h
    simp only [ana] at ho
    split at ho
    · rename_i ht
      simp only [Bool.and_eq_true] at ht
      have hti := hs.tight ht.1
      simp only [exec] at h
      split at h
      · simp at h
      · injection h with h1 h2
        injection ho with ho
        subst ho; subst h1; subst h2
        exact ⟨_, List.mem_singleton.2 rfl, fun hh => (by cases hh), by simp only; omega, hs.known⟩
    · simp at ho
  | callBuf p =>
    intro x outs ho s hs s1 c h
    simp only [ana] at ho
    split at ho
    · rename_i ht
      simp only [Bool.and_eq_true] at ht
      injection ho with ho
      subst ho
      simp only [exec] at h
      split at h
      · rename_i j v e hk
        injection h with h1 h2
        subst h1; subst h2
        obtain ⟨e1, e2⟩ := hK.esc p ht.2 s.idx (hs.tight ht.1) j v e hk
        refine ⟨_, List.mem_map.2 ⟨_, called_mem (e := e), rfl⟩, fun hh => ?_, e2, fun c hh => ?_⟩
        · simp only [decide_eq_true_eq] at hh
          exact e1 hh.1 hh.2
        · simp only at hh ⊢
          split at hh
          · cases hh
          · injection hh
      · simp at h
      · simp at h
    · simp at ho
  | callField f p =>
    intro x outs ho s hs s1 c h
    simp only [ana] at ho
    split at ho
    · rename_i ht
      simp only [Bool.and_eq_true] at ht
      injection ho with ho
      subst ho
      simp only [exec] at h
      split at h
      · rename_i j v e hk
        injection h with h1 h2
        subst h1; subst h2
        obtain ⟨e1, e2⟩ := hK.esc p ht.2 s.idx (hs.tight ht.1) j v e hk
        refine ⟨_, List.mem_map.2 ⟨_, called_mem (e := e), rfl⟩, fun hh => ?_, e2, fun c hh => ?_⟩
        · simp only [decide_eq_true_eq] at hh
          exact e1 hh.1 hh.2
        · simp only at hh ⊢
          split at hh
          · cases hh
          · injection hh
      · simp at h
      · simp at h
    · simp at ho
  | mapInsert f key =>
    intro x outs ho s hs s1 c h
    simp only [ana, Option.some.injEq] at ho
    simp only [exec] at h
    split at h
    · injection h with h1 h2
      subst ho; subst h1; subst h2
      exact ⟨_, List.mem_singleton.2 rfl, hs.tight, hs.loose, hs.known⟩
    · simp at h
  | enumField f e =>
    intro x outs ho s hs s1 c h
    simp only [ana, Option.some.injEq] at ho
    subst ho
    have hs1 : Esc a w (if e.usesNext then x.next else x) (if e.usesNext then doNext E s else s) := by
      split
      · exact next_esc hw hs
      · exact hs
    simp only [exec] at h
    split at h <;>
    · injection h with h1 h2
      subst h1; subst h2
      exact ⟨_, List.mem_singleton.2 rfl, hs1.tight, hs1.loose, fun c hh => (by cases hh)⟩
  | setErr =>
    intro x outs ho s hs s1 c h
    simp only [ana, Option.some.injEq] at ho
    simp only [exec, Out.ok.injEq] at h
    obtain ⟨h1, h2⟩ := h
    subst ho; subst h1; subst h2
    exact ⟨_, List.mem_singleton.2 rfl, hs.tight, hs.loose, fun c hh => (by injection hh)⟩
  | _ =>
    intro x outs ho s hs s1 c h
    simp only [ana, Option.some.injEq] at ho
    simp only [exec, Out.ok.injEq] at h
    obtain ⟨h1, h2⟩ := h
    subst ho; subst h1; subst h2
    exact ⟨_, List.mem_singleton.2 rfl, hs.tight, hs.loose, by first | exact hs.known | exact fun c hh => (by cases hh)⟩

theorem exec_follows (hw : Window E E' a a' w) {K K' : PName → Nat → PRes} (hK : Calls E.multi K K' a a' w) {n b : Nat} (st : Stmt) :
    ∀ x outs, ana E.multi st x = some outs → ∀ s s', Rel a a' w b x s s' →
      Follows a a' w b outs (exec E K n st s) (exec E' K' n st s') := by
  induction st with
  | seq p q hp hq =>
    intro x outs ho s s' hs s1 c h
    simp only [ana] at ho
    split at ho
    · simp at ho
    · rename_i o1 h1
      simp only [exec] at h
      split at h
      · rename_i s2 h2
        obtain ⟨y, hm, hy⟩ := hp x o1 h1 s s' hs s2 _ h2
        obtain ⟨u, hu, hsub⟩ := mem_collect ho _ hm
        rcases hy with ⟨s2', h2', hy⟩ | hy
        · obtain ⟨z, hz, hz'⟩ := hq y u hu s2 s2' hy s1 c h
          refine ⟨z, hsub _ hz, ?_⟩
          simp only [exec, h2']
          exact hz'
        · obtain ⟨z, hz, hz'⟩ := exec_leaves hw hK q y u hu s2 hy s1 c h
          exact ⟨z, hsub _ hz, Or.inr hz'⟩
      · rename_i r hr
        obtain ⟨y, hm, hy⟩ := hp x o1 h1 s s' hs s1 c h
        cases c with
        | cont => exact absurd h (hr s1)
        | brk =>
          obtain ⟨u, hu, hsub⟩ := mem_collect ho _ hm
          simp only [Option.some.injEq] at hu
          subst hu
          refine ⟨y, hsub _ (by simp), ?_⟩
          rcases hy with ⟨s2', h2', hy⟩ | hy
          · exact Or.inl ⟨s2', by simp only [exec, h2'], hy⟩
          · exact Or.inr hy
  | ite c p q hp hq =>
    intro x outs ho s s' hs s1 c1 h
    have hc' := holds_eq hw hs c
    simp only [ana] at ho
    split at ho
    · rename_i u v hu hv
      injection ho with ho
      subst ho
      simp only [exec] at h
      split at h
      · rename_i hc
        obtain ⟨y, hy, hy'⟩ := condT_rel hs c hc
        obtain ⟨z, hz, hsub⟩ := mem_collect hu y hy
        obtain ⟨y1, h1, h2⟩ := hp y z hz s s' hy' s1 c1 h
        refine ⟨y1, List.mem_append_left _ (hsub _ h1), ?_⟩
        simp only [exec, hc', hc, if_true]
        exact h2
      · rename_i hc
        obtain ⟨y, hy, hy'⟩ := condF_rel hs c (by simpa using hc)
        obtain ⟨z, hz, hsub⟩ := mem_collect hv y hy
        obtain ⟨y1, h1, h2⟩ := hq y z hz s s' hy' s1 c1 h
        refine ⟨y1, List.mem_append_right _ (hsub _ h1), ?_⟩
        simp only [exec, hc', hc]
        exact h2
    · simp at ho
  | loop p hp =>
    intro x outs ho s s' hs
    simp only [ana] at ho
    split at ho
    · simp at ho
    · rename_i o1 h1
      injection ho with ho
      subst ho
      exact iter_follows (fun s hs => exec_leaves hw hK p _ _ h1 s hs) (fun s s' hs => hp _ _ h1 s s' hs) n s s' hs.any
  | next =>
    intro x outs ho s s' hs s1 c h
    simp only [ana, Option.some.injEq] at ho
    simp only [exec, Out.ok.injEq] at h
    obtain ⟨h1, h2⟩ := h
    subst ho; subst h1; subst h2
    exact ⟨_, List.mem_singleton.2 rfl, (next_rel hw hs).imp (fun h => ⟨_, rfl, h⟩) id⟩
  | prev =>
    intro x outs ho s s' hs s1 c h
    simp only [ana] at ho
    split at ho
    · rename_i ht
      simp only [Bool.and_eq_true] at ht
      obtain ⟨⟨k, hb, hk, h3, h4, hm⟩, hr, hobj, hbf, he, hkn⟩ := hs
      have hm' := hm ht.2
      simp only [exec] at h
      split at h
      · simp at h
      · injection h with h1 h2
        injection ho with ho
        subst ho; subst h1; subst h2
        refine ⟨_, List.mem_singleton.2 rfl, Or.inl ⟨{ s' with idx := s'.idx - 1 }, ?_, ?_⟩⟩
        · simp only [exec]
          rw [if_neg (by omega)]
        · exact ⟨⟨k - 1, by omega, by omega, by simp only; omega, by simp only; omega, fun hh => (by cases hh)⟩,
            hr, hobj, hbf, he, hkn⟩
    · simp at ho
  | callBuf p =>
    intro x outs ho s s' hs s1 c h
    simp only [ana] at ho
    split at ho
    · rename_i ht
      simp only [Bool.and_eq_true] at ht
      injection ho with ho
      subst ho
      obtain ⟨⟨k, hb, hk, h3, h4, hm⟩, hr, hobj, hbf, he, hkn⟩ := hs
      simp only [exec] at h
      split at h
      · rename_i j v e hk1
        injection h with h1 h2
        subst h1; subst h2
        refine ⟨_, List.mem_map.2 ⟨_, called_mem (e := e), rfl⟩, ?_⟩
        have hknown : ∀ c, (if p ∈ peeks then none else some e) = some c → e = c := by
          intro c hh
          split at hh
          · cases hh
          · injection hh
        rw [h3] at hk1
        rcases hK.rel p ht.2 k hk j v e hk1 with ⟨m, hm1, hm2, hj, hk2⟩ | ⟨e1, e2⟩
        · left
          refine ⟨{ s' with idx := a' + m, buf := v, err := e }, ?_, ?_⟩
          · simp only [exec, h4, hk2]
          · exact ⟨⟨m, by omega, hm2, hj, rfl, fun hh => by have := hm hh; omega⟩, hr, hobj, rfl, rfl, hknown⟩
        · right
          refine ⟨fun hh => ?_, e2, hknown⟩
          simp only [decide_eq_true_eq] at hh
          exact e1 hh.1 hh.2
      · simp at h
      · simp at h
    · simp at ho
  | callField f p =>
    intro x outs ho s s' hs s1 c h
    simp only [ana] at ho
    split at ho
    · rename_i ht
      simp only [Bool.and_eq_true] at ht
      injection ho with ho
      subst ho
      obtain ⟨⟨k, hb, hk, h3, h4, hm⟩, hr, hobj, hbf, he, hkn⟩ := hs
      simp only [exec] at h
      split at h
      · rename_i j v e hk1
        injection h with h1 h2
        subst h1; subst h2
        refine ⟨_, List.mem_map.2 ⟨_, called_mem (e := e), rfl⟩, ?_⟩
        have hknown : ∀ c, (if p ∈ peeks then none else some e) = some c → e = c := by
          intro c hh
          split at hh
          · cases hh
          · injection hh
        rw [h3] at hk1
        rcases hK.rel p ht.2 k hk j v e hk1 with ⟨m, hm1, hm2, hj, hk2⟩ | ⟨e1, e2⟩
        · left
          refine ⟨{ s' with idx := a' + m, obj := s'.obj.set f v, err := e }, ?_, ?_⟩
          · simp only [exec, h4, hk2]
          · exact ⟨⟨m, by omega, hm2, hj, rfl, fun hh => by have := hm hh; omega⟩, hr, by simp only [hobj], hbf, rfl, hknown⟩
        · right
          refine ⟨fun hh => ?_, e2, hknown⟩
          simp only [decide_eq_true_eq] at hh
          exact e1 hh.1 hh.2
      · simp at h
      · simp at h
    · simp at ho
  | mapInsert f key =>
    intro x outs ho s s' hs s1 c h
    simp only [ana, Option.some.injEq] at ho
    simp only [exec] at h
    split at h
    · rename_i m hmap
      injection h with h1 h2
      subst ho; subst h1; subst h2
      obtain ⟨hi, hr, hobj, hbf, he, hkn⟩ := hs
      refine ⟨_, List.mem_singleton.2 rfl, Or.inl ⟨{ s' with obj := s'.obj.set f (.map (mapSet m (s'.buf.strField key) s'.buf)) }, ?_, ?_⟩⟩
      · simp only [exec, hobj, hmap]
      · exact ⟨hi, hr, by simp only [hobj, hbf], hbf, he, hkn⟩
    · simp at h
  | enumField f e =>
    intro x outs ho s s' hs s1 c h
    simp only [ana, Option.some.injEq] at ho
    subst ho
    have hcur : E'.current s'.idx = E.current s.idx := by
      obtain ⟨⟨k, _, hk, h3, h4, _⟩, _⟩ := hs
      rw [h3, h4, hw.cur k hk]
    have hs1 : Rel a a' w b (if e.usesNext then x.next else x) (if e.usesNext then doNext E s else s)
        (if e.usesNext then doNext E' s' else s') ∨
        Esc a w (if e.usesNext then x.next else x) (if e.usesNext then doNext E s else s) := by
      split
      · exact next_rel hw hs
      · exact Or.inl hs
    rcases hs1 with hs1 | hs1
    · obtain ⟨⟨k, hb, hk, h3, h4, hm⟩, hr, hobj, hbf, he, hkn⟩ := hs1
      have htok : (if e.usesNext then (if e.usesNext then doNext E' s' else s').ret else E'.current s'.idx) =
          (if e.usesNext then (if e.usesNext then doNext E s else s).ret else E.current s.idx) := by
        rw [hr, hcur]
      simp only [exec] at h
      split at h
      · rename_i v hl
        injection h with h1 h2
        subst h1; subst h2
        refine ⟨_, List.mem_singleton.2 rfl, Or.inl ⟨{ (if e.usesNext then doNext E' s' else s') with
          obj := (if e.usesNext then doNext E' s' else s').obj.set f (.str v), err := false }, ?_, ?_⟩⟩
        · simp only [exec, htok, hl]
        · exact ⟨⟨k, hb, hk, h3, h4, hm⟩, hr, by simp only [hobj], hbf, rfl, fun c hh => (by cases hh)⟩
      · rename_i hl
        injection h with h1 h2
        subst h1; subst h2
        refine ⟨_, List.mem_singleton.2 rfl, Or.inl ⟨{ (if e.usesNext then doNext E' s' else s') with
          obj := (if e.usesNext then doNext E' s' else s').obj.set f (.str emptyToken), err := true }, ?_, ?_⟩⟩
        · simp only [exec, htok, hl]
        · exact ⟨⟨k, hb, hk, h3, h4, hm⟩, hr, by simp only [hobj], hbf, rfl, fun c hh => (by cases hh)⟩
    · simp only [exec] at h
      split at h <;>
      · injection h with h1 h2
        subst h1; subst h2
        exact ⟨_, List.mem_singleton.2 rfl, Or.inr ⟨hs1.tight, hs1.loose, fun c hh => (by cases hh)⟩⟩
  | _ =>
    intro x outs ho s s' hs s1 c h
    simp only [ana, Option.some.injEq] at ho
    simp only [exec, Out.ok.injEq] at h
    obtain ⟨h1, h2⟩ := h
    subst ho; subst h1; subst h2
    have hcur : E'.current s'.idx = E.current s.idx := by
      obtain ⟨⟨k, _, hk, h3, h4, _⟩, _⟩ := hs
      rw [h3, h4, hw.cur k hk]
    obtain ⟨hi, hr, hobj, hbf, he, hkn⟩ := hs
    refine ⟨_, List.mem_singleton.2 rfl, Or.inl ⟨_, rfl, ?_⟩⟩
    refine ⟨hi, hr, ?_, ?_, ?_, ?_⟩ <;>
      first
        | (simp only [hobj, hbf, he, hcur, hr, convert_eq hw]; done)
        | exact hkn
        | exact fun c hh => (by first | (cases hh; done) | (cases hh; rfl))

/-- The initial states of the two calls. -/
theorem init_rel {k : Nat} (hk : k < w) : Rel a a' w k Abs.init (St.init (a + k)) (St.init (a' + k)) :=
  ⟨⟨k, Nat.le_refl _, hk, rfl, rfl, fun hh => (by cases hh)⟩, rfl, rfl, rfl, rfl,
    fun c hh => by simp only [Abs.init, Option.some.injEq] at hh; rw [← hh]; rfl⟩

theorem path_escP {p : PName} {y : Abs} {c : Ctl} {s : St} (hp : pathOk p (y, c) = true) (hs : Esc a w y s) :
    EscP a w p s.idx s.err := by
  refine ⟨fun hn he => ?_, hs.loose⟩
  simp only [pathOk, Bool.or_eq_true, decide_eq_true_eq, List.contains_iff_mem] at hp
  rcases hp with (hp | hp) | hp
  · exact hs.tight hp
  · have := hs.known _ hp
    rw [he] at this; cases this
  · exact absurd hp hn

theorem run_calls (hw : Window E E' a a' w) (n : Nat) : ∀ d, Calls E.multi (run E n d) (run E' n d) a a' w := by
  intro d
  induction d with
  | zero => exact ⟨fun p _ k _ j v e h => by simp [run] at h, fun p _ i _ j v e h => by simp [run] at h⟩
  | succ d ih =>
    have main : ∀ p, callable E.multi p = true → p ≠ .parseModuleMultithreaded ∧ ∃ outs, ana E.multi (body p) Abs.init = some outs ∧ ∀ o ∈ outs, pathOk p o = true := by
      intro p hp
      have hc := checked_all _ p hp
      unfold checked at hc
      split at hc
      · rename_i outs ho
        simp only [callable, Bool.and_eq_true, decide_eq_true_eq] at hp
        exact ⟨hp.1.1, outs, ho, List.all_eq_true.1 hc⟩
      · cases hc
    constructor
    · intro p hp k hk j v e h
      obtain ⟨hne, outs, ho, hall⟩ := main p hp
      simp only [run, if_neg hne] at h ⊢
      unfold finish at h
      split at h
      · rename_i s c hx
        injection h with h1 h2 h3
        subst h1; subst h2; subst h3
        obtain ⟨y, hm, hy⟩ := exec_follows hw ih (body p) _ _ ho _ _ (init_rel hk) s c hx
        rcases hy with ⟨s', hx', ⟨m, hb, hm2, h3, h4, _⟩, hr, hobj, hbf, he, _⟩ | hy
        · left
          refine ⟨m, hb, hm2, h3, ?_⟩
          rw [hx']
          simp only [finish, h4, hobj, he]
        · exact Or.inr (path_escP (hall _ hm) hy)
      · simp at h
      · simp at h
    · intro p hp i hi j v e h
      obtain ⟨hne, outs, ho, hall⟩ := main p hp
      simp only [run, if_neg hne] at h
      unfold finish at h
      split at h
      · rename_i s c hx
        injection h with h1 h2 h3
        subst h1; subst h2; subst h3
        have hinit : Esc a w Abs.init (St.init i) := ⟨fun _ => hi, by simp only [St.init]; omega,
          fun c hh => by simp only [Abs.init, Option.some.injEq] at hh; rw [← hh]; rfl⟩
        obtain ⟨y, hm, hy⟩ := exec_leaves hw ih (body p) _ _ ho _ hinit s c hx
        exact path_escP (hall _ hm) hy
      · simp at h
      · simp at h

end

end Verif.A2l.Local

namespace Verif.A2l.Props
open Verif.Go Verif.A2l Lang Local

theorem window_of {E E' : Env} {pre own post pre' post' : List Str} (hE : E.toks = pre ++ own ++ post) (hpost : post ≠ [])
    (hE' : E'.toks = pre' ++ own ++ post') (hf : E'.floatOk = E.floatOk) (hm : E'.multi = E.multi) :
    Window E E' pre.length pre'.length own.length where
  cur := by
    intro k hk
    unfold Env.current
    have key : ∀ u v : List Str, (u ++ own ++ v)[u.length + k]? = own[k]? := by
      intro u v
      rw [List.append_assoc, List.getElem?_append_right (by omega), Nat.add_sub_cancel_left, List.getElem?_append_left hk]
    rw [hE, hE', key, key]
  len := by
    have := List.length_pos_iff.2 hpost
    rw [hE]; simp only [List.length_append]; omega
  len' := by rw [hE']; simp only [List.length_append]; omega
  flt := hf
  multi := hm

/-- C74: an object that is read without error is read from its own text. If a parse function, called on the first token of `own`, returns
without error at the last token of `own`, then it does so with the same struct wherever the text `own` stands, whatever
is before and after it. All parse functions but the two of C74_ahead and the one for whole files. -/
theorem C74_own_text {E E' : Env} {pre own post pre' post' : List Str} (hE : E.toks = pre ++ own ++ post) (hpost : post ≠ [])
    (hE' : E'.toks = pre' ++ own ++ post') (hf : E'.floatOk = E.floatOk) (hm : E'.multi = E.multi)
    {p : PName} (hp : p ≠ .parseModuleMultithreaded) (hp' : p ≠ .parseA2l) (hpr : E.multi = true → p ≠ .parseProject) (h1 : p ≠ .parseMatrixDim)
    (h2 : p ≠ .parseFrameMeasurement) {last : Nat} (hl : last + 1 = own.length) {v : Val}
    (h : Returns E p pre.length (.ok (pre.length + last) v false)) :
    Returns E' p pre'.length (.ok (pre'.length + last) v false) := by
  obtain ⟨_, n, d, hr⟩ := h
  have hrun := hr n d (Nat.le_refl _) (Nat.le_refl _)
  have hc : callable E.multi p = true := by
    cases hmt : E.multi <;> simp [callable, hp, hp'] <;> exact hpr hmt
  rcases (run_calls (window_of hE hpost hE' hf hm) n d).rel p hc 0 (by omega) _ _ _ hrun with ⟨m, _, hm2, hj, hk⟩ | ⟨he, _⟩
  · have : m = last := by omega
    subst this
    exact returns_of_run hk (by simp)
  · have := he (by simp [peeks, h1, h2]) rfl
    omega

/-- The same for every result, also an error, of every function: one token after the last one may have an influence. -/
theorem C74_ahead {E E' : Env} {pre own post pre' post' : List Str} {next : Str} (hE : E.toks = pre ++ (own ++ [next]) ++ post)
    (hpost : post ≠ []) (hE' : E'.toks = pre' ++ (own ++ [next]) ++ post') (hf : E'.floatOk = E.floatOk) (hm : E'.multi = E.multi)
    {p : PName} (hp : p ≠ .parseModuleMultithreaded) (hp' : p ≠ .parseA2l) (hpr : E.multi = true → p ≠ .parseProject)
    {last : Nat} (hl : last + 1 = own.length) {v : Val} {e : Bool} (h : Returns E p pre.length (.ok (pre.length + last) v e)) :
    Returns E' p pre'.length (.ok (pre'.length + last) v e) := by
  obtain ⟨_, n, d, hr⟩ := h
  have hrun := hr n d (Nat.le_refl _) (Nat.le_refl _)
  have hc : callable E.multi p = true := by
    cases hmt : E.multi <;> simp [callable, hp, hp'] <;> exact hpr hmt
  have hlen : (own ++ [next]).length = last + 2 := by simp; omega
  rcases (run_calls (window_of hE hpost hE' hf hm) n d).rel p hc 0 (by omega) _ _ _ hrun with ⟨m, _, hm2, hj, hk⟩ | ⟨_, he⟩
  · have : m = last := by omega
    subst this
    exact returns_of_run hk (by simp)
  · omega

end Verif.A2l.Props
