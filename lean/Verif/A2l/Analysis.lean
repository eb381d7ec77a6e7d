import Verif.A2l.Run

/-!
A static analysis of the statement language, proved sound once and then evaluated on all
parse functions. For every path through a statement list it computes a lower bound for the
movement of the token cursor, what is known about the current token, and what is known
about `err`.
-/

namespace Verif.A2l.Analysis
open Verif.Go Verif.A2l Lang

/-- What is known on a path. -/
structure Abs where
  /-- the cursor has moved forward at least `lo` tokens -/
  lo : Nat
  /-- and `pend` more, unless the current token is the end of the list -/
  pend : Nat
  /-- the value returned by the last `tok.next()` is the current token -/
  retCur : Bool
  /-- the current token is known -/
  cur : Option Str
  /-- the error variable is known -/
  err : Option Bool
  /-- fields known to hold a map -/
  maps : List String
  /-- `useMultithreading` is known to be set -/
  mt : Bool
  /-- the current token is known not to be the end of the list -/
  ne : Bool
  /-- if there is no error, the cursor has moved `succ` more tokens -/
  succ : Nat
deriving DecidableEq

def Abs.init : Abs := ⟨0, 0, false, none, some false, [], false, false, 0⟩

/-- The current token is not the end of the list. -/
def Abs.resolve (a : Abs) : Abs := { a with lo := a.lo + a.pend, pend := 0, ne := true, succ := 0 }

/-- Refinement by `tok.current() == t` (or by `ret == t` when that is the same). -/
def curT (t : Str) (a : Abs) : List Abs :=
  match a.cur with
  | some u => if u = t then [a] else []
  | none => if t = emptyToken then [{ a with cur := some t }] else [{ a.resolve with cur := some t }]

def curF (t : Str) (a : Abs) : List Abs :=
  match a.cur with
  | some u => if u = t then [] else [a]
  | none => if t = emptyToken then [a.resolve] else [a]

mutual
/-- The paths on which a condition holds. -/
def condT : Cond → Abs → List Abs
  | .curIs t, a => curT t a
  | .retIs t, a => if a.retCur then curT t a else [a]
  | .curKw, a => [a.resolve]
  | .errNe, a => if a.err = some false then [] else [{ a with err := some true }]
  | .unset _, a => [a]
  | .len16Is _ _, a => [a]
  | .lenIs _ _, a => [a]
  | .multi, a => [{ a with mt := true }]
  | .or x y, a => condT x a ++ (condF x a).flatMap (condT y)

/-- The paths on which a condition fails. -/
def condF : Cond → Abs → List Abs
  | .curIs t, a => curF t a
  | .retIs t, a => if a.retCur then curF t a else [a]
  | .curKw, a => [a]
  | .errNe, a => if a.err = some true then [] else [{ a with lo := a.lo + a.succ, pend := a.pend - a.succ, succ := 0, err := some false }]
  | .unset _, a => [a]
  | .len16Is _ _, a => [a]
  | .lenIs _ _, a => [a]
  | .multi, a => [a]
  | .or x y, a => (condF x a).flatMap (condF y)
end

def Abs.next (a : Abs) : Abs :=
  if a.ne then
    { a with lo := a.lo + a.pend + 1, pend := 0, retCur := true, cur := none, ne := false, succ := 0 }
  else { a with pend := a.pend + 1, retCur := true, cur := none, succ := 0 }

def Abs.assign (a : Abs) (f : String) : Abs := { a with maps := a.maps.filter (· ≠ f) }

/-- After a call that moves the cursor at least `k` tokens when it succeeds. -/
def Abs.called (a : Abs) (k : Nat) : Abs :=
  { a with pend := 0, retCur := false, cur := none, err := none, ne := false, succ := k }

/-- Concatenate the results of all paths, `none` if one of them failed. -/
def collect {α β : Type} (f : α → Option (List β)) : List α → Option (List β)
  | [] => some []
  | x :: xs =>
    match f x, collect f xs with
    | some u, some v => some (u ++ v)
    | _, _ => none

/-- A loop round must advance the cursor and keep the maps. -/
def roundOk (m : List String) (o : Abs × Ctl) : Bool :=
  match o.2 with
  | .cont => decide (1 ≤ o.1.lo) && m.all (o.1.maps.contains ·)
  | .brk => true

/-- The paths through a statement; `ok` tells which functions may be called, `adv` how far
they move the cursor at least when they succeed. -/
def absexec (ok : PName → Bool) (adv : PName → Nat) : Stmt → Abs → Option (List (Abs × Ctl))
  | .skip, a => some [(a, .cont)]
  | .seq x y, a =>
    match absexec ok adv x a with
    | none => none
    | some outs => collect (fun o => match o.2 with
        | .cont => absexec ok adv y o.1
        | .brk => some [(o.1, .brk)]) outs
  | .next, a => some [(a.next, .cont)]
  | .prev, a =>
    if a.lo = 0 ∨ a.pend ≠ 0 then none
    else some [({ a with lo := a.lo - 1, retCur := false, cur := none, ne := false, succ := 0 }, .cont)]
  | .brk, a => some [(a, .brk)]
  | .setErr, a => some [({ a with err := some true }, .cont)]
  | .setTrue f, a => some [(a.assign f, .cont)]
  | .storeCur f, a => some [(a.assign f, .cont)]
  | .appendCur f, a => some [(a.assign f, .cont)]
  | .concatCur f, a => some [(a.assign f, .cont)]
  | .storeArr f _, a => some [(a.assign f, .cont)]
  | .storeConst f _, a => some [(a.assign f, .cont)]
  | .conv _, a => some [({ a with err := none, succ := 0 }, .cont)]
  | .convRet _, a => some [({ a with err := none, succ := 0 }, .cont)]
  | .store f _, a => some [(a.assign f, .cont)]
  | .append f _, a => some [(a.assign f, .cont)]
  | .mapInit f, a => some [({ a with maps := f :: a.maps }, .cont)]
  | .mapInsert f _, a => if a.maps.contains f then some [(a, .cont)] else none
  | .enumField f e, a =>
    some [({ (if e.usesNext then a.next else a).assign f with err := none, succ := 0 }, .cont)]
  | .callBuf p, a =>
    if ok p || (a.mt && decide (p = .parseModuleMultithreaded)) then some [(a.called (adv p), .cont)]
    else none
  | .callField f p, a =>
    if ok p || (a.mt && decide (p = .parseModuleMultithreaded)) then
      some [((a.called (adv p)).assign f, .cont)]
    else none
  | .ite c x y, a =>
    match collect (absexec ok adv x) (condT c a), collect (absexec ok adv y) (condF c a) with
    | some u, some v => some (u ++ v)
    | _, _ => none
  | .loop b, a =>
    match absexec ok adv b ⟨0, 0, false, none, none, a.maps, a.mt, false, 0⟩ with
    | none => none
    | some outs =>
      if outs.all (roundOk a.maps) then
        some ((outs.filter (·.2 = .brk)).map fun o => ({ o.1 with lo := a.lo + o.1.lo }, .cont))
      else none

/-! ### Meaning -/

/-- Token lists as the tokenizer makes them: the end is marked by the empty token, which
occurs nowhere else. -/
def Wf (E : Env) : Prop := ∃ pre : List Str, E.toks = pre ++ [emptyToken] ∧ emptyToken ∉ pre

theorem Wf.end_iff {E : Env} (h : Wf E) {i : Nat} (hi : i < E.toks.length) :
    E.current i = emptyToken ↔ i + 1 = E.toks.length := by
  obtain ⟨pre, he, hn⟩ := h
  unfold Env.current
  rw [he] at hi ⊢
  simp only [List.length_append, List.length_singleton] at hi ⊢
  by_cases hp : i < pre.length
  · rw [List.getElem?_append_left hp, List.getElem?_eq_getElem hp]
    simp only [Option.getD_some]
    constructor
    · intro h; exact absurd (h ▸ List.getElem_mem hp) hn
    · intro h; omega
  · have : i = pre.length := by omega
    subst this
    simp

theorem Wf.pos {E : Env} (h : Wf E) : 0 < E.toks.length := by
  obtain ⟨pre, he, _⟩ := h
  simp [he]

/-- A state agrees with what is known about it; `i` is the cursor at the start. -/
structure Agrees (E : Env) (i : Nat) (a : Abs) (s : St) : Prop where
  lt : s.idx < E.toks.length
  lo : i + a.lo ≤ s.idx
  pend : i + a.lo + a.pend ≤ s.idx ∨ E.current s.idx = emptyToken
  retCur : a.retCur = true → s.ret = E.current s.idx
  cur : ∀ t, a.cur = some t → E.current s.idx = t
  err : ∀ b, a.err = some b → s.err = b
  maps : ∀ f ∈ a.maps, ∃ m, s.obj f = .map m
  mt : a.mt = true → E.multi = true
  ne : a.ne = true → E.current s.idx ≠ emptyToken
  succ : s.err = false → i + a.lo + a.succ ≤ s.idx

theorem Agrees.resolve {E i a s} (h : Agrees E i a s) (hc : E.current s.idx ≠ emptyToken) :
    Agrees E i a.resolve s := by
  have hp := h.pend.resolve_right hc
  exact { h with
    lo := by simp only [Abs.resolve]; omega
    pend := Or.inl (by simp only [Abs.resolve]; omega)
    ne := fun _ => hc
    succ := fun _ => by simp only [Abs.resolve]; omega }

theorem empty_not_keyword : isKeyword emptyToken = false := by decide +kernel

theorem curT_sound {E i a s t} (h : Agrees E i a s) (ht : E.current s.idx = t) :
    ∃ a' ∈ curT t a, Agrees E i a' s := by
  unfold curT
  split
  · rename_i u hu
    have := h.cur u hu
    rw [if_pos (this.symm.trans ht)]
    exact ⟨a, by simp, h⟩
  · split
    · exact ⟨_, List.mem_singleton.2 rfl, { h with cur := fun u hu => by simp_all }⟩
    · rename_i hne
      have h' := h.resolve (by rw [ht]; exact hne)
      exact ⟨_, List.mem_singleton.2 rfl, { h' with cur := fun u hu => by simp_all }⟩

theorem curF_sound {E i a s t} (h : Agrees E i a s) (ht : E.current s.idx ≠ t) :
    ∃ a' ∈ curF t a, Agrees E i a' s := by
  unfold curF
  split
  · rename_i u hu
    have := h.cur u hu
    rw [if_neg (fun hh => ht (this.trans hh))]
    exact ⟨a, by simp, h⟩
  · split
    · rename_i he
      exact ⟨_, List.mem_singleton.2 rfl, h.resolve (he ▸ ht)⟩
    · exact ⟨a, by simp, h⟩

theorem cond_sound {E : Env} {i : Nat} (c : Cond) : ∀ {a : Abs} {s : St}, Agrees E i a s →
    (holds E s c = true → ∃ a' ∈ condT c a, Agrees E i a' s) ∧
    (holds E s c = false → ∃ a' ∈ condF c a, Agrees E i a' s) := by
  induction c with
  | curIs t =>
    intro a s h
    simp only [holds, condT, condF, decide_eq_true_eq, decide_eq_false_iff_not]
    exact ⟨curT_sound h, curF_sound h⟩
  | retIs t =>
    intro a s h
    simp only [holds, condT, condF, decide_eq_true_eq, decide_eq_false_iff_not]
    by_cases hr : a.retCur = true
    · rw [if_pos hr, if_pos hr, h.retCur hr]
      exact ⟨curT_sound h, curF_sound h⟩
    · rw [if_neg hr, if_neg hr]
      exact ⟨fun _ => ⟨a, by simp, h⟩, fun _ => ⟨a, by simp, h⟩⟩
  | curKw =>
    intro a s h
    simp only [holds, condT, condF]
    refine ⟨fun hk => ⟨_, List.mem_singleton.2 rfl, h.resolve ?_⟩, fun _ => ⟨a, by simp, h⟩⟩
    intro he
    rw [he, empty_not_keyword] at hk
    exact absurd hk (by simp)
  | errNe =>
    intro a s h
    simp only [holds, condT, condF]
    constructor
    · intro he
      rw [if_neg (fun hh => by simp [h.err _ hh] at he)]
      exact ⟨_, List.mem_singleton.2 rfl, { h with err := fun b hb => by simp_all }⟩
    · intro he
      rw [if_neg (fun hh => by simp [h.err _ hh] at he)]
      have hs := h.succ he
      exact ⟨_, List.mem_singleton.2 rfl, { h with
        lo := by simp only; omega
        pend := h.pend.imp (fun hh => by simp only; omega) id
        succ := fun _ => by simp only; omega
        err := fun b hb => by simp_all }⟩
  | unset f => intro a s h; exact ⟨fun _ => ⟨a, by simp [condT], h⟩, fun _ => ⟨a, by simp [condF], h⟩⟩
  | len16Is f g => intro a s h; exact ⟨fun _ => ⟨a, by simp [condT], h⟩, fun _ => ⟨a, by simp [condF], h⟩⟩
  | lenIs f n => intro a s h; exact ⟨fun _ => ⟨a, by simp [condT], h⟩, fun _ => ⟨a, by simp [condF], h⟩⟩
  | multi =>
    intro a s h
    simp only [holds, condT, condF]
    exact ⟨fun hm => ⟨_, List.mem_singleton.2 rfl, { h with mt := fun _ => hm }⟩,
      fun _ => ⟨a, by simp, h⟩⟩
  | or x y hx hy =>
    intro a s h
    simp only [holds, condT, condF, Bool.or_eq_true, Bool.or_eq_false_iff, List.mem_append,
      List.mem_flatMap]
    constructor
    · intro ho
      by_cases h1 : holds E s x = true
      · obtain ⟨a', hm, ha⟩ := (hx h).1 h1
        exact ⟨a', Or.inl hm, ha⟩
      · obtain ⟨a', hm, ha⟩ := (hx h).2 (by simpa using h1)
        obtain ⟨a'', hm', ha'⟩ := (hy ha).1 (ho.resolve_left h1)
        exact ⟨a'', Or.inr ⟨a', hm, hm'⟩, ha'⟩
    · rintro ⟨h1, h2⟩
      obtain ⟨a', hm, ha⟩ := (hx h).2 h1
      obtain ⟨a'', hm', ha'⟩ := (hy ha).2 h2
      exact ⟨a'', ⟨a', hm, hm'⟩, ha'⟩

theorem Agrees.next {E i a s} (hw : Wf E) (h : Agrees E i a s) : Agrees E i a.next (doNext E s) := by
  have hlo := h.lo
  have hlt := h.lt
  unfold doNext Abs.next
  by_cases hn : E.hasNext s.idx = true
  · rw [if_pos hn]
    have hl : s.idx + 1 < E.toks.length := by simpa [Env.hasNext] using hn
    have hc : E.current s.idx ≠ emptyToken := fun hh => by
      have := (hw.end_iff h.lt).1 hh; omega
    have hp := h.pend.resolve_right hc
    split
    · exact { lt := hl, lo := by simp only; omega
              pend := Or.inl (by simp only; omega)
              retCur := fun _ => rfl, cur := fun t ht => by simp at ht
              err := h.err, maps := h.maps, mt := h.mt, ne := fun hh => by simp at hh
              succ := fun _ => by simp only; omega }
    · rename_i hne
      exact { lt := hl, lo := by simp only; omega
              pend := Or.inl (by simp only; omega)
              retCur := fun _ => rfl, cur := fun t ht => by simp at ht
              err := h.err, maps := h.maps, mt := h.mt, ne := fun hh => absurd hh hne
              succ := fun _ => by simp only; omega }
  · rw [if_neg hn]
    have hl : ¬ s.idx + 1 < E.toks.length := by simpa [Env.hasNext] using hn
    have hc : E.current s.idx = emptyToken := (hw.end_iff h.lt).2 (by omega)
    have hne : ¬ a.ne = true := fun hh => h.ne hh hc
    rw [if_neg hne]
    exact { lt := h.lt, lo := h.lo, pend := Or.inr hc
            retCur := fun _ => hc.symm, cur := fun t ht => by simp at ht
            err := h.err, maps := h.maps, mt := h.mt, ne := fun hh => absurd hh hne
            succ := fun _ => by simp only; omega }

theorem Agrees.assign {E i a s} (h : Agrees E i a s) (f : String) (v : Val) :
    Agrees E i (a.assign f) { s with obj := s.obj.set f v } :=
  { h with
    maps := fun g hg => by
      simp only [Abs.assign, List.mem_filter, decide_eq_true_eq] at hg
      obtain ⟨m, hm⟩ := h.maps g hg.1
      exact ⟨m, by simp only [Obj.set]; rw [if_neg hg.2]; exact hm⟩ }

theorem Agrees.noErr {E i a s} (h : Agrees E i a s) (b : Bool) :
    Agrees E i { a with err := none, succ := 0 } { s with err := b } :=
  { h with err := fun _ hb => by simp at hb, succ := fun _ => h.lo }

/-- What is assumed of the functions called: they return, do not move backwards, stay
inside the token list, and move at least `k` tokens when they succeed. -/
def Good (E : Env) (r : PRes) (i k : Nat) : Prop :=
  ∃ i' v e, r = .ok i' v e ∧ i ≤ i' ∧ i' < E.toks.length ∧ (e = false → i + k ≤ i')

theorem Agrees.called {E : Env} {i a s i' k} {b : Val} {e : Bool} (h : Agrees E i a s)
    (h1 : s.idx ≤ i') (h2 : i' < E.toks.length) (h3 : e = false → s.idx + k ≤ i') :
    Agrees E i (a.called k) { s with idx := i', buf := b, err := e } := by
  have := h.lo
  exact { lt := h2, lo := by simp only [Abs.called]; omega
          pend := Or.inl (by simp only [Abs.called]; omega)
          retCur := fun hh => by simp [Abs.called] at hh
          cur := fun t hh => by simp [Abs.called] at hh
          err := fun t hh => by simp [Abs.called] at hh
          maps := h.maps, mt := h.mt
          ne := fun hh => by simp [Abs.called] at hh
          succ := fun he => by have := h3 he; simp only [Abs.called]; omega }

theorem collect_sound {α β : Type} {f : α → Option (List β)} {l : List α} {r : List β}
    (h : collect f l = some r) {x : α} (hx : x ∈ l) : ∃ u, f x = some u ∧ ∀ y ∈ u, y ∈ r := by
  induction l generalizing r with
  | nil => cases hx
  | cons z zs ih =>
    simp only [collect] at h
    split at h
    · rename_i u v hu hv
      cases h
      cases hx with
      | head => exact ⟨u, hu, fun y hy => List.mem_append_left _ hy⟩
      | tail _ hx =>
        obtain ⟨w, hw, hsub⟩ := ih hv hx
        exact ⟨w, hw, fun y hy => List.mem_append_right _ (hsub y hy)⟩
    · cases h

/-- The loop rounds: `iter` ends within the bound when every round that does not break
advances the cursor and keeps the invariant. -/
theorem iter_sound {E : Env} {f : St → Out} {Inv : St → Prop} {Post : Nat → St → Prop}
    (hinv : ∀ s, Inv s → s.idx < E.toks.length)
    (hstep : ∀ s, Inv s → ∃ s' c, f s = .ok s' c ∧
      match c with
      | .cont => Inv s' ∧ s.idx < s'.idx
      | .brk => Post s.idx s')
    (hmono : ∀ i j s, i ≤ j → Post j s → Post i s) :
    ∀ n s, Inv s → E.toks.length < n + s.idx → ∃ s', iter f n s = .ok s' .cont ∧ Post s.idx s' := by
  intro n
  induction n with
  | zero => intro s hs hl; have := hinv s hs; omega
  | succ n ih =>
    intro s hs hl
    obtain ⟨s', c, he, hc⟩ := hstep s hs
    cases c with
    | cont =>
      have hlt := hinv s' hc.1
      obtain ⟨s'', h1, h2⟩ := ih s' hc.1 (by have := hc.2; omega)
      refine ⟨s'', ?_, hmono _ _ _ (Nat.le_of_lt hc.2) h2⟩
      simp only [iter, he, h1]
    | brk => exact ⟨s', by simp only [iter, he], hc⟩

theorem absexec_sound {E : Env} {K : PName → Nat → PRes} {n : Nat} {ok : PName → Bool}
    {adv : PName → Nat}
    (hw : Wf E) (hn : E.toks.length < n)
    (hK : ∀ p i, i < E.toks.length →
      (ok p = true ∨ (E.multi = true ∧ p = .parseModuleMultithreaded)) →
      Good E (K p i) i (adv p)) (st : Stmt) :
    ∀ (a : Abs) (outs : List (Abs × Ctl)), absexec ok adv st a = some outs →
    ∀ (i : Nat) (s : St), Agrees E i a s →
    ∃ s' c a', exec E K n st s = .ok s' c ∧ (a', c) ∈ outs ∧ Agrees E i a' s' := by
  induction st with
  | skip => intro a outs h i s hs; cases h; exact ⟨s, .cont, a, rfl, List.mem_singleton.2 rfl, hs⟩
  | seq x y hx hy =>
    intro a outs h i s hs
    simp only [absexec] at h
    split at h
    · cases h
    · rename_i o1 h1
      obtain ⟨s1, c1, a1, e1, m1, g1⟩ := hx a o1 h1 i s hs
      obtain ⟨u, hu, hsub⟩ := collect_sound h m1
      cases c1 with
      | cont =>
        obtain ⟨s2, c2, a2, e2, m2, g2⟩ := hy a1 u hu i s1 g1
        exact ⟨s2, c2, a2, by simp only [exec, e1, e2], hsub _ m2, g2⟩
      | brk =>
        simp only [Option.some.injEq] at hu
        subst hu
        exact ⟨s1, .brk, a1, by simp only [exec, e1], hsub _ (by simp), g1⟩
  | next => intro a outs h i s hs; cases h; exact ⟨_, _, _, rfl, List.mem_singleton.2 rfl, hs.next hw⟩
  | prev =>
    intro a outs h i s hs
    simp only [absexec] at h
    split at h
    · cases h
    · rename_i hc
      cases h
      have hlo := hs.lo
      have hlt := hs.lt
      have h0 : s.idx ≠ 0 := by omega
      refine ⟨_, _, _, by simp only [exec, if_neg h0]; rfl, List.mem_singleton.2 rfl, ?_⟩
      exact { lt := by simp only; omega, lo := by simp only; omega
              pend := Or.inl (by simp only; omega)
              retCur := fun hh => by simp at hh, cur := fun t hh => by simp at hh
              err := hs.err, maps := hs.maps, mt := hs.mt, ne := fun hh => by simp at hh
              succ := fun _ => by simp only; omega }
  | brk => intro a outs h i s hs; cases h; exact ⟨s, .brk, a, rfl, List.mem_singleton.2 rfl, hs⟩
  | setErr =>
    intro a outs h i s hs; cases h
    exact ⟨_, _, _, rfl, List.mem_singleton.2 rfl, { hs with err := fun b hb => by simp_all, succ := fun hh => by simp at hh }⟩
  | setTrue f => intro a outs h i s hs; cases h; exact ⟨_, _, _, rfl, List.mem_singleton.2 rfl, hs.assign f _⟩
  | storeCur f => intro a outs h i s hs; cases h; exact ⟨_, _, _, rfl, List.mem_singleton.2 rfl, hs.assign f _⟩
  | appendCur f => intro a outs h i s hs; cases h; exact ⟨_, _, _, rfl, List.mem_singleton.2 rfl, hs.assign f _⟩
  | concatCur f => intro a outs h i s hs; cases h; exact ⟨_, _, _, rfl, List.mem_singleton.2 rfl, hs.assign f _⟩
  | storeArr f k => intro a outs h i s hs; cases h; exact ⟨_, _, _, rfl, List.mem_singleton.2 rfl, hs.assign f _⟩
  | storeConst f k => intro a outs h i s hs; cases h; exact ⟨_, _, _, rfl, List.mem_singleton.2 rfl, hs.assign f _⟩
  | conv c =>
    intro a outs h i s hs; cases h
    exact ⟨_, _, _, rfl, List.mem_singleton.2 rfl, { hs with err := fun b hb => by simp at hb, succ := fun _ => hs.lo }⟩
  | convRet c =>
    intro a outs h i s hs; cases h
    exact ⟨_, _, _, rfl, List.mem_singleton.2 rfl, { hs with err := fun b hb => by simp at hb, succ := fun _ => hs.lo }⟩
  | store f c => intro a outs h i s hs; cases h; exact ⟨_, _, _, rfl, List.mem_singleton.2 rfl, hs.assign f _⟩
  | append f c => intro a outs h i s hs; cases h; exact ⟨_, _, _, rfl, List.mem_singleton.2 rfl, hs.assign f _⟩
  | mapInit f =>
    intro a outs h i s hs; cases h
    refine ⟨_, _, _, rfl, List.mem_singleton.2 rfl, { hs with maps := fun g hg => ?_ }⟩
    by_cases hgf : g = f
    · exact ⟨_, by simp only [Obj.set, if_pos hgf]; rfl⟩
    · simp only [Obj.set, if_neg hgf]
      exact hs.maps g ((List.mem_cons.1 hg).resolve_left hgf)
  | mapInsert f key =>
    intro a outs h i s hs
    simp only [absexec] at h
    split at h
    · rename_i hf
      cases h
      obtain ⟨m, hm⟩ := hs.maps f (by simpa using hf)
      refine ⟨{ s with obj := s.obj.set f (.map (mapSet m (s.buf.strField key) s.buf)) }, .cont, a,
        by simp only [exec, hm], List.mem_singleton.2 rfl, { hs with maps := fun g hg => ?_ }⟩
      by_cases hgf : g = f
      · exact ⟨_, by simp only [Obj.set, if_pos hgf]; rfl⟩
      · simp only [Obj.set, if_neg hgf]
        exact hs.maps g hg
    · cases h
  | enumField f e =>
    intro a outs h i s hs
    simp only [absexec, Option.some.injEq] at h
    subst h
    have h1 : Agrees E i (if e.usesNext then a.next else a) (if e.usesNext then doNext E s else s) := by
      split
      · exact hs.next hw
      · exact hs
    simp only [exec]
    split
    · exact ⟨_, _, _, rfl, List.mem_singleton.2 rfl, (h1.assign f _).noErr _⟩
    · exact ⟨_, _, _, rfl, List.mem_singleton.2 rfl, (h1.assign f _).noErr _⟩
  | callBuf p =>
    intro a outs h i s hs
    simp only [absexec] at h
    split at h
    · rename_i hp
      cases h
      obtain ⟨i', v, e, hk, h1, h2, h3⟩ := hK p s.idx hs.lt (by
        simp only [Bool.or_eq_true, Bool.and_eq_true, decide_eq_true_eq] at hp
        exact hp.imp id fun hh => ⟨hs.mt hh.1, hh.2⟩)
      exact ⟨_, _, _, by simp only [exec, hk]; rfl, List.mem_singleton.2 rfl, hs.called h1 h2 h3⟩
    · cases h
  | callField f p =>
    intro a outs h i s hs
    simp only [absexec] at h
    split at h
    · rename_i hp
      cases h
      obtain ⟨i', v, e, hk, h1, h2, h3⟩ := hK p s.idx hs.lt (by
        simp only [Bool.or_eq_true, Bool.and_eq_true, decide_eq_true_eq] at hp
        exact hp.imp id fun hh => ⟨hs.mt hh.1, hh.2⟩)
      refine ⟨_, _, _, by simp only [exec, hk]; rfl, List.mem_singleton.2 rfl, ?_⟩
      exact (hs.called (b := s.buf) (e := e) h1 h2 h3).assign f v
    · cases h
  | ite c x y hx hy =>
    intro a outs h i s hs
    simp only [absexec] at h
    split at h
    · rename_i u v hu hv
      cases h
      simp only [exec]
      by_cases hc : holds E s c = true
      · rw [if_pos hc]
        obtain ⟨a1, m1, g1⟩ := (cond_sound c hs).1 hc
        obtain ⟨w, hw', hsub⟩ := collect_sound hu m1
        obtain ⟨s2, c2, a2, e2, m2, g2⟩ := hx a1 w hw' i s g1
        exact ⟨s2, c2, a2, e2, List.mem_append_left _ (hsub _ m2), g2⟩
      · rw [if_neg hc]
        obtain ⟨a1, m1, g1⟩ := (cond_sound c hs).2 (by simpa using hc)
        obtain ⟨w, hw', hsub⟩ := collect_sound hv m1
        obtain ⟨s2, c2, a2, e2, m2, g2⟩ := hy a1 w hw' i s g1
        exact ⟨s2, c2, a2, e2, List.mem_append_right _ (hsub _ m2), g2⟩
    · cases h
  | loop b hb =>
    intro a outs h i s hs
    simp only [absexec] at h
    split at h
    · cases h
    · rename_i o1 h1
      split at h
      · rename_i hall
        cases h
        have hfresh : ∀ s1 : St, s1.idx < E.toks.length → (∀ f ∈ a.maps, ∃ m, s1.obj f = .map m) →
            Agrees E s1.idx ⟨0, 0, false, none, none, a.maps, a.mt, false, 0⟩ s1 := fun s1 hl hm =>
          { lt := hl, lo := Nat.le_refl _, pend := Or.inl (Nat.le_refl _)
            retCur := fun hh => by simp at hh, cur := fun t hh => by simp at hh
            err := fun t hh => by simp at hh, maps := hm, mt := hs.mt
            ne := fun hh => by simp at hh, succ := fun _ => Nat.le_refl _ }
        obtain ⟨s', e', hp⟩ := iter_sound (E := E) (f := exec E K n b)
          (Inv := fun s1 => s1.idx < E.toks.length ∧ ∀ f ∈ a.maps, ∃ m, s1.obj f = .map m)
          (Post := fun j s1 => ∃ a1, (a1, Ctl.brk) ∈ o1 ∧
            Agrees E j a1 s1)
          (fun s1 h => h.1)
          (fun s1 h => by
            obtain ⟨s2, c2, a2, e2, m2, g2⟩ := hb _ _ h1 s1.idx s1 (hfresh s1 h.1 h.2)
            refine ⟨s2, c2, e2, ?_⟩
            have hr := List.all_eq_true.1 hall _ m2
            cases c2 with
            | cont =>
              simp only [roundOk, Bool.and_eq_true, decide_eq_true_eq, List.all_eq_true] at hr
              refine ⟨⟨g2.lt, fun f hf => g2.maps f (by simpa using hr.2 f hf)⟩, ?_⟩
              have := g2.lo
              have := hr.1
              omega
            | brk => exact ⟨a2, m2, g2⟩)
          (fun j k s1 hjk hp => by
            obtain ⟨a1, m1, g1⟩ := hp
            refine ⟨a1, m1, { g1 with lo := ?_, pend := ?_, succ := ?_ }⟩
            · have := g1.lo; omega
            · exact g1.pend.imp (fun h => by omega) id
            · intro he; have := g1.succ he; omega)
          n s ⟨hs.lt, hs.maps⟩ (by omega)
        obtain ⟨a1, m1, g1⟩ := hp
        refine ⟨s', .cont, { a1 with lo := a.lo + a1.lo }, by simp only [exec, e'], ?_, ?_⟩
        · exact List.mem_map.2 ⟨(a1, .brk), List.mem_filter.2 ⟨m1, by simp⟩, rfl⟩
        · have hlo := hs.lo
          have := g1.lo
          refine { g1 with lo := ?_, pend := ?_, succ := ?_ }
          · simp only; omega
          · exact g1.pend.imp (fun h => by simp only at h ⊢; omega) id
          · intro he; have := g1.succ he; simp only; omega
      · cases h

end Verif.A2l.Analysis
