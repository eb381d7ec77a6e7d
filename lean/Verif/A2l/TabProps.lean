import Verif.A2l.IntProps

/-!
C48: the conversion tables COMPU_TAB, COMPU_VTAB and COMPU_VTAB_RANGE.
-/

namespace Verif.A2l.Props
open Verif.Go Verif.A2l Lang Decl Analysis Template

/-- The loop of a parse function that consists of one loop. -/
def loopOf : Stmt → Stmt
  | .seq (.loop b) .skip => b
  | s => s

/-- Rows read so far: `l` rows, `d` declared rows, `set` the marker. -/
def RowsOk (l : Nat) (d : Int) (set : Bool) : Prop :=
  0 ≤ d ∧ d < 65536 ∧
  if set then ((l % 65536 : Nat) : Int) = d ∧ 0 < l ∧ l ≤ 65536 else (l : Int) < d ∨ (d = 0 ∧ l < 65536)

theorem RowsOk.start {d : Int} (h1 : 0 ≤ d) (h2 : d < 65536) : RowsOk 0 d false := by
  refine ⟨h1, h2, ?_⟩
  simp only [Bool.false_eq_true, if_false]
  omega

theorem RowsOk.row {l : Nat} {d : Int} (h : RowsOk l d false) :
    RowsOk (l + 1) d (decide ((((l + 1) % 65536 : Nat) : Int) = d)) := by
  obtain ⟨h1, h2, h3⟩ := h
  refine ⟨h1, h2, ?_⟩
  simp only [Bool.false_eq_true, if_false] at h3
  split
  · rename_i h; simp only [decide_eq_true_eq] at h; omega
  · rename_i h; simp only [decide_eq_true_eq] at h; omega

/-- Invariant of the loop for a table with columns `cols` (field and marker), `nf` the field with
the declared number of rows and `nfl` its marker. -/
structure TabInv (cols : List (String × String)) (nf nfl : String) (o : Obj) : Prop where
  ex : ∃ (l : Nat) (b : Bool), (∀ c ∈ cols, (o.list c.1).length = l ∧ o.flag c.2 = b) ∧
    if o.flag nfl then RowsOk l (o.int nf) b else l = 0 ∧ b = false

theorem TabInv.congr {cols : List (String × String)} {nf nfl : String} {o o' : Obj} (h : TabInv cols nf nfl o)
    (h1 : ∀ f ∈ nf :: nfl :: (cols.map (·.1) ++ cols.map (·.2)), o' f = o f) : TabInv cols nf nfl o' := by
  obtain ⟨l, b, h2, h3⟩ := h.ex
  have e1 : o'.flag nfl = o.flag nfl := by simp [Obj.flag, h1 nfl (by simp)]
  have e2 : o'.int nf = o.int nf := by simp [Obj.int, h1 nf (by simp)]
  refine ⟨l, b, fun c hc => ?_, by rw [e1, e2]; exact h3⟩
  obtain ⟨g1, g2⟩ := h2 c hc
  refine ⟨?_, ?_⟩
  · rw [← g1]; simp [Obj.list, h1 c.1 (by simp only [List.mem_cons, List.mem_append, List.mem_map]; exact Or.inr (Or.inr (Or.inl ⟨c, hc, rfl⟩)))]
  · rw [← g2]; simp [Obj.flag, h1 c.2 (by simp only [List.mem_cons, List.mem_append, List.mem_map]; exact Or.inr (Or.inr (Or.inr ⟨c, hc, rfl⟩)))]

theorem iter_inv {f : St → Out} {I : Obj → Prop} (h : ∀ s s' c, I s.obj → f s = .ok s' c →
    (c = .brk → s'.err = false → I s'.obj) ∧ (c = .cont → I s'.obj)) : ∀ n s s' c, I s.obj → iter f n s = .ok s' c →
    s'.err = false → I s'.obj := by
  intro n
  induction n with
  | zero => intro s s' c _ h; simp [iter] at h
  | succ n ih =>
    intro s s' c hi hit he
    rw [iter] at hit
    cases hf : f s with
    | ok s1 c1 =>
      rw [hf] at hit
      cases c1 with
      | cont => exact ih s1 s' c ((h s s1 .cont hi hf).2 rfl) hit he
      | brk =>
        simp only [Out.ok.injEq] at hit
        obtain ⟨rfl, _⟩ := hit
        exact (h s s1 .brk hi hf).1 rfl he
    | panic => rw [hf] at hit; simp at hit
    | timeout => rw [hf] at hit; simp at hit

/-- A condition can hold when only the struct and the error are known. -/
def mayT (o : Obj) (e : Bool) : Cond → Prop
  | .errNe => e = true
  | .unset f => o.flag f = false
  | .len16Is f g => (((o.list f).length % 65536 : Nat) : Int) = o.int g
  | .lenIs f n => (o.list f).length = n
  | .or a b => mayT o e a ∨ mayT o e b
  | _ => True

/-- A condition can fail. -/
def mayF (o : Obj) (e : Bool) : Cond → Prop
  | .errNe => e = false
  | .unset f => o.flag f = true
  | .len16Is f g => ¬ (((o.list f).length % 65536 : Nat) : Int) = o.int g
  | .lenIs f n => ¬ (o.list f).length = n
  | .or a b => mayF o e a ∧ mayF o e b
  | _ => True

/-- The value is in the range of a cast. -/
def InCast (c : Cast) (v : Val) : Prop :=
  match c, v with
  | .uint b, .int z => 0 ≤ z ∧ z < (2 ^ b : Nat)
  | _, _ => True

/-- Weakest precondition of statements without loops, for conditions on the struct and the
error only: tokens and the results of calls may be anything. -/
def wp : Stmt → (Obj → Bool → Ctl → Prop) → Obj → Bool → Prop
  | .skip, Q, o, e => Q o e .cont
  | .seq a b, Q, o, e => wp a (fun o' e' c => match c with
      | .cont => wp b Q o' e'
      | .brk => Q o' e' .brk) o e
  | .next, Q, o, e => Q o e .cont
  | .prev, Q, o, e => Q o e .cont
  | .brk, Q, o, e => Q o e .brk
  | .setErr, Q, o, _ => Q o true .cont
  | .setTrue f, Q, o, e => Q (o.set f (.bool true)) e .cont
  | .storeCur f, Q, o, e => ∀ v, Q (o.set f v) e .cont
  | .appendCur f, Q, o, e => ∀ v, Q (o.set f (.list (o.list f ++ [v]))) e .cont
  | .conv _, Q, o, _ => ∀ e', Q o e' .cont
  | .convRet _, Q, o, _ => ∀ e', Q o e' .cont
  | .store f c, Q, o, e => ∀ v, InCast c v → Q (o.set f v) e .cont
  | .append f _, Q, o, e => ∀ v, Q (o.set f (.list (o.list f ++ [v]))) e .cont
  | .enumField f _, Q, o, _ => ∀ v e', Q (o.set f v) e' .cont
  | .callBuf _, Q, o, _ => ∀ e', Q o e' .cont
  | .callField f _, Q, o, _ => ∀ v e', Q (o.set f v) e' .cont
  | .ite c a b, Q, o, e => (mayT o e c → wp a Q o e) ∧ (mayF o e c → wp b Q o e)
  | _, _, _, _ => False

theorem may_of_holds {E : Env} {s : St} (c : Cond) :
    (holds E s c = true → mayT s.obj s.err c) ∧ (holds E s c = false → mayF s.obj s.err c) := by
  induction c with
  | or a b iha ihb =>
    simp only [holds, mayT, mayF, Bool.or_eq_true, Bool.or_eq_false_iff]
    exact ⟨fun h => h.imp iha.1 ihb.1, fun h => ⟨iha.2 h.1, ihb.2 h.2⟩⟩
  | _ => simp [holds, mayT, mayF]

theorem inCast_castVal (c : Cast) (v : Val) : InCast c (castVal c v) := by
  unfold InCast
  cases c with
  | uint b =>
    cases v with
    | int z =>
      simp only [castVal, castInt]
      have : (0 : Int) < (2 ^ b : Nat) := by exact_mod_cast Nat.two_pow_pos b
      exact ⟨Int.emod_nonneg _ (by omega), Int.emod_lt_of_pos _ this⟩
    | _ => trivial
  | _ => split <;> first | trivial | simp_all

theorem doNext_obj (E : Env) (s : St) : (doNext E s).obj = s.obj ∧ (doNext E s).err = s.err := by
  unfold doNext; split <;> exact ⟨rfl, rfl⟩

theorem wp_sound {E : Env} {K : PName → Nat → PRes} {n : Nat} (S : Stmt) : ∀ (Q : Obj → Bool → Ctl → Prop) (s : St),
    wp S Q s.obj s.err → ∀ s' c, exec E K n S s = .ok s' c → Q s'.obj s'.err c := by
  induction S with
  | seq a b iha ihb =>
    intro Q s h s' c he
    rw [exec] at he
    cases h1 : exec E K n a s with
    | ok s1 c1 =>
      have := iha _ s h s1 c1 h1
      rw [h1] at he
      cases c1 with
      | cont => exact ihb Q s1 this s' c he
      | brk =>
        simp only [Out.ok.injEq] at he
        obtain ⟨rfl, rfl⟩ := he
        exact this
    | panic => rw [h1] at he; simp at he
    | timeout => rw [h1] at he; simp at he
  | ite cd a b iha ihb =>
    intro Q s h s' c he
    rw [exec] at he
    cases hh : holds E s cd with
    | true => rw [hh] at he; exact iha Q s (h.1 ((may_of_holds cd).1 hh)) s' c (by simpa using he)
    | false => rw [hh] at he; exact ihb Q s (h.2 ((may_of_holds cd).2 hh)) s' c (by simpa using he)
  | enumField f e =>
    rintro Q s h s' c he
    simp only [exec] at he
    cases hu : e.usesNext with
    | false =>
      simp only [hu, Bool.false_eq_true, if_false] at he
      split at he <;> (simp only [Out.ok.injEq] at he; obtain ⟨rfl, rfl⟩ := he; exact h _ _)
    | true =>
      simp only [hu, if_true] at he
      split at he <;> (simp only [Out.ok.injEq] at he; obtain ⟨rfl, rfl⟩ := he; simp only [(doNext_obj E s).1]; exact h _ _)
  | callField f p =>
    intro Q s h s' c he
    simp only [exec] at he
    split at he
    · simp only [Out.ok.injEq] at he; obtain ⟨rfl, rfl⟩ := he; exact h _ _
    · cases he
    · cases he
  | callBuf p =>
    intro Q s h s' c he
    simp only [exec] at he
    split at he
    · simp only [Out.ok.injEq] at he; obtain ⟨rfl, rfl⟩ := he; exact h _
    · cases he
    · cases he
  | prev =>
    intro Q s h s' c he
    simp only [exec] at he
    split at he
    · cases he
    · simp only [Out.ok.injEq] at he; obtain ⟨rfl, rfl⟩ := he; exact h
  | next =>
    intro Q s h s' c he
    simp only [exec, Out.ok.injEq] at he
    obtain ⟨rfl, rfl⟩ := he
    rw [(doNext_obj E s).1, (doNext_obj E s).2]
    exact h
  | skip | brk | setErr | setTrue =>
    intro Q s h s' c he
    simp only [exec, Out.ok.injEq] at he
    obtain ⟨rfl, rfl⟩ := he
    exact h
  | store f k =>
    intro Q s h s' c he
    simp only [exec, Out.ok.injEq] at he
    obtain ⟨rfl, rfl⟩ := he
    exact h _ (inCast_castVal _ _)
  | storeCur | appendCur | conv | convRet | append =>
    intro Q s h s' c he
    simp only [exec, Out.ok.injEq] at he
    obtain ⟨rfl, rfl⟩ := he
    exact h _
  | _ => intro Q s h; exact h.elim

/-- What a round has to keep. -/
structure Keep (I : Obj → Prop) (o : Obj) (e : Bool) (c : Ctl) : Prop where
  brk : c = .brk → e = false → I o
  cont : c = .cont → I o

theorem Keep.of {I : Obj → Prop} {o : Obj} {e : Bool} {c : Ctl} (h : I o) : Keep I o e c := ⟨fun _ _ => h, fun _ => h⟩
theorem Keep.err {I : Obj → Prop} {o : Obj} : Keep I o true .brk := ⟨fun _ h => (by cases h), fun h => (by cases h)⟩

theorem TabInv.row {cols : List (String × String)} {nf nfl : String} {o o' : Obj} (h : TabInv cols nf nfl o)
    (hn : o.flag nfl = true) {c₀ : String × String} (hc : c₀ ∈ cols) (h0 : o.flag c₀.2 = false)
    (h1 : ∀ c ∈ cols, (o'.list c.1).length = (o.list c.1).length + 1 ∧
      o'.flag c.2 = decide (((((o.list c.1).length + 1) % 65536 : Nat) : Int) = o.int nf))
    (h2 : o'.flag nfl = true) (h3 : o'.int nf = o.int nf) : TabInv cols nf nfl o' := by
  obtain ⟨l, b, g1, g2⟩ := h.ex
  rw [if_pos hn] at g2
  have hb : b = false := by rw [← (g1 c₀ hc).2]; exact h0
  subst hb
  refine ⟨l + 1, _, fun c hc' => ?_, by rw [if_pos h2, h3]; exact g2.row⟩
  obtain ⟨k1, k2⟩ := h1 c hc'
  rw [(g1 c hc').1] at k1 k2
  exact ⟨k1, k2⟩

theorem TabInv.lens {cols : List (String × String)} {nf nfl : String} {o : Obj} (h : TabInv cols nf nfl o)
    {c d : String × String} (hc : c ∈ cols) (hd : d ∈ cols) :
    (o.list c.1).length = (o.list d.1).length ∧ o.flag c.2 = o.flag d.2 := by
  obtain ⟨l, b, g1, _⟩ := h.ex
  exact ⟨(g1 c hc).1.trans (g1 d hd).1.symm, (g1 c hc).2.trans (g1 d hd).2.symm⟩

/-- The declared number is read. -/
theorem TabInv.num {cols : List (String × String)} {nf nfl : String} {o o' : Obj} (h : TabInv cols nf nfl o)
    (hn : o.flag nfl = false) (h1 : ∀ c ∈ cols, o'.list c.1 = o.list c.1 ∧ o'.flag c.2 = o.flag c.2)
    (h2 : o'.flag nfl = true) (h3 : 0 ≤ o'.int nf ∧ o'.int nf < 65536) : TabInv cols nf nfl o' := by
  obtain ⟨l, b, g1, g2⟩ := h.ex
  rw [hn] at g2
  simp only [Bool.false_eq_true, if_false] at g2
  obtain ⟨rfl, rfl⟩ := g2
  refine ⟨0, false, fun c hc => ?_, by rw [if_pos h2]; exact .start h3.1 h3.2⟩
  rw [(h1 c hc).1, (h1 c hc).2]
  exact g1 c hc

theorem inCast_int {v : Val} (h : InCast (.uint 16) v) (o : Obj) (f : String) :
    0 ≤ (o.set f v).int f ∧ (o.set f v).int f < 65536 := by
  unfold Obj.int
  simp only [Obj.set, if_true]
  cases v with
  | int z => exact h
  | _ => exact ⟨Int.le_refl _, by simp⟩

theorem list_set (o : Obj) (f g : String) (l : List Val) : (o.set f (.list l)).list g = if g = f then l else o.list g := by
  by_cases h : g = f <;> simp [Obj.list, Obj.set, h]
theorem list_set_ne (o : Obj) {f g : String} (h : g ≠ f) (v : Val) : (o.set f v).list g = o.list g := by
  simp [Obj.list, Obj.set, h]
theorem flag_set (o : Obj) (f g : String) (b : Bool) : (o.set f (.bool b)).flag g = if g = f then b else o.flag g := by
  by_cases h : g = f <;> simp [Obj.flag, Obj.set, h]
theorem flag_set_ne (o : Obj) {f g : String} (h : g ≠ f) (v : Val) : (o.set f v).flag g = o.flag g := by
  simp [Obj.flag, Obj.set, h]
theorem int_set_ne (o : Obj) {f g : String} (h : g ≠ f) (v : Val) : (o.set f v).int g = o.int g := by
  simp [Obj.int, Obj.set, h]

def pairCols : List (String × String) := [("InVal", "InValSet"), ("OutVal", "OutValSet")]

theorem compuTab_round (o : Obj) (e : Bool) (hi : TabInv pairCols "NumberValuePairs" "NumberValuePairsSet" o) :
    wp (loopOf parseCompuTab) (Keep (TabInv pairCols "NumberValuePairs" "NumberValuePairsSet")) o e := by
  have hl := hi.lens (c := ("InVal", "InValSet")) (d := ("OutVal", "OutValSet")) (by simp [pairCols]) (by simp [pairCols])
  simp only at hl
  simp only [loopOf, parseCompuTab, blk, switchRet, wp, mayT, mayF, true_imp_iff]
  repeat' first | apply And.intro | intro _
  all_goals subst_vars
  all_goals try exact Keep.err
  all_goals try exact Keep.of hi
  all_goals try (refine Keep.of (hi.congr ?_); simp [Obj.set, pairCols]; done)
  · rename_i h1 v h2
    refine Keep.of (hi.num h1 ?_ ?_ ?_)
    · simp [pairCols, list_set_ne, flag_set_ne]
    · simp [flag_set]
    · rw [int_set_ne _ (by decide)]; exact inCast_int h2 _ _
  all_goals
    simp [list_set, int_set_ne, list_set_ne] at *
    rename_i h1 h2 v w hA hB
    obtain ⟨hl1, hl2⟩ := hl
    rw [hl2, or_self] at h2
    rw [hl1] at hA
    first
      | exact absurd hA hB
      | exact absurd hB hA
      | (refine Keep.of (hi.row h1 (c₀ := ("OutVal", "OutValSet")) (by simp [pairCols]) h2 ?_ ?_ ?_)
         · simp [pairCols, list_set, list_set_ne, flag_set, flag_set_ne, hl1, hA, h2, hl2]
         · simp [flag_set, flag_set_ne, h1]
         · simp [int_set_ne])

theorem compuVtab_round (o : Obj) (e : Bool) (hi : TabInv pairCols "NumberValuePairs" "NumberValuePairsSet" o) :
    wp (loopOf parseCompuVtab) (Keep (TabInv pairCols "NumberValuePairs" "NumberValuePairsSet")) o e := by
  have hl := hi.lens (c := ("InVal", "InValSet")) (d := ("OutVal", "OutValSet")) (by simp [pairCols]) (by simp [pairCols])
  simp only at hl
  simp only [loopOf, parseCompuVtab, blk, switchRet, wp, mayT, mayF, true_imp_iff]
  repeat' first | apply And.intro | intro _
  all_goals subst_vars
  all_goals try exact Keep.err
  all_goals try exact Keep.of hi
  all_goals try (refine Keep.of (hi.congr ?_); simp [Obj.set, pairCols]; done)
  · rename_i h1 v h2
    refine Keep.of (hi.num h1 ?_ ?_ ?_)
    · simp [pairCols, list_set_ne, flag_set_ne]
    · simp [flag_set]
    · rw [int_set_ne _ (by decide)]; exact inCast_int h2 _ _
  all_goals
    simp [list_set, int_set_ne, list_set_ne] at *
    rename_i h1 h2 v w hA hB
    obtain ⟨hl1, hl2⟩ := hl
    rw [hl2, or_self] at h2
    rw [hl1] at hA
    first
      | exact absurd hA hB
      | exact absurd hB hA
      | (refine Keep.of (hi.row h1 (c₀ := ("OutVal", "OutValSet")) (by simp [pairCols]) h2 ?_ ?_ ?_)
         · simp [pairCols, list_set, list_set_ne, flag_set, flag_set_ne, hl1, hA, h2, hl2]
         · simp [flag_set, flag_set_ne, h1]
         · simp [int_set_ne])

def tripleCols : List (String × String) := [("InValMin", "InValMinSet"), ("InValMax", "InValMaxSet"), ("OutVal", "OutValSet")]

theorem compuVtabRange_round (o : Obj) (e : Bool) (hi : TabInv tripleCols "NumberValueTriples" "NumberValueTriplesSet" o) :
    wp (loopOf parseCompuVtabRange) (Keep (TabInv tripleCols "NumberValueTriples" "NumberValueTriplesSet")) o e := by
  have hl := hi.lens (c := ("InValMin", "InValMinSet")) (d := ("OutVal", "OutValSet")) (by simp [tripleCols]) (by simp [tripleCols])
  have hm := hi.lens (c := ("InValMax", "InValMaxSet")) (d := ("OutVal", "OutValSet")) (by simp [tripleCols]) (by simp [tripleCols])
  simp only at hl hm
  simp only [loopOf, parseCompuVtabRange, blk, switchRet, wp, mayT, mayF, true_imp_iff]
  repeat' first | apply And.intro | intro _
  all_goals subst_vars
  all_goals try exact Keep.err
  all_goals try exact Keep.of hi
  all_goals try (refine Keep.of (hi.congr ?_); simp [Obj.set, tripleCols]; done)
  · rename_i h1 v h2
    refine Keep.of (hi.num h1 ?_ ?_ ?_)
    · simp [tripleCols, list_set_ne, flag_set_ne]
    · simp [flag_set]
    · rw [int_set_ne _ (by decide)]; exact inCast_int h2 _ _
  all_goals
    simp [list_set, int_set_ne, list_set_ne] at *
    rename_i h1 h2 u v w hA hM hB
    obtain ⟨hl1, hl2⟩ := hl
    obtain ⟨hm1, hm2⟩ := hm
    rw [hl2, hm2, or_self, or_self] at h2
    rw [hl1] at hA
    rw [hm1] at hM
    first
      | exact absurd hA hB
      | exact absurd hB hA
      | exact absurd hB hM
      | exact absurd hM hB
      | (refine Keep.of (hi.row h1 (c₀ := ("OutVal", "OutValSet")) (by simp [tripleCols]) h2 ?_ ?_ ?_)
         · simp [tripleCols, list_set, list_set_ne, flag_set, flag_set_ne, hl1, hA, h2, hl2, hm1, hm2]
         · simp [flag_set, flag_set_ne, h1]
         · simp [int_set_ne])

/-! ### C48 -/

/-- The three kinds of tables: parse function, columns with their markers, field with the declared number of
rows. -/
def tables : List (PName × List (String × String) × String) :=
  [(.parseCompuTab, pairCols, "NumberValuePairs"), (.parseCompuVtab, pairCols, "NumberValuePairs"),
   (.parseCompuVtabRange, tripleCols, "NumberValueTriples")]

/-- C48 as stated: after a successful call all columns have as many entries as declared. -/
def C48_full : Prop := ∀ (E : Env), Wf E → ∀ p cols nf, (p, cols, nf) ∈ tables → ∀ i i' (o : Obj),
  Returns E p i (.ok i' (.obj o) false) → ∀ c ∈ cols, ((o.list c.1).length : Int) = o.int nf

/-- The length of a column. -/
def gotLen (E : Env) (p : PName) (i : Nat) (f g : String) : Option (Nat × Bool × Nat × Int) :=
  match parse E p i with
  | .ok j (.obj o) e => some (j, e, (Obj.list o f).length, Obj.int o g)
  | _ => none

theorem gotLen_spec {E : Env} {p : PName} {i : Nat} {f g : String} {j : Nat} {e : Bool} {a : Nat} {b : Int}
    (h : gotLen E p i f g = some (j, e, a, b)) :
    ∃ o : Obj, Returns E p i (.ok j (.obj o) e) ∧ (o.list f).length = a ∧ o.int g = b := by
  unfold gotLen at h
  split at h
  · rename_i j' o e' hh
    simp only [Option.some.injEq, Prod.mk.injEq] at h
    obtain ⟨rfl, rfl, h1, h2⟩ := h
    exact ⟨o, returns_of_run hh (by simp), h1, h2⟩
  · cases h

def vtabToks : List Str := [(str! "/begin COMPU_VTAB"), (str! "T"), (str! "\"text\""), (str! "TAB_VERB"), (str! "3"),
  (str! "0"), (str! "\"off\""), (str! "/end COMPU_VTAB")]

/-- It is false: a table that declares 3 rows and has one is accepted. -/
theorem C48_false : ¬ C48_full := by
  intro h
  have hg : gotLen (mkEnv vtabToks) .parseCompuVtab 0 "InVal" "NumberValuePairs" = some (7, false, 1, 3) := by
    decide +kernel
  obtain ⟨o, h1, h2, h3⟩ := gotLen_spec hg
  have := h (mkEnv vtabToks) (mkEnv_wf (by decide)) .parseCompuVtab pairCols "NumberValuePairs" (by simp [tables]) 0 7 o h1
    ("InVal", "InValSet") (by simp [pairCols])
  rw [h2, h3] at this
  exact absurd this (by decide)

theorem tab_start (cols : List (String × String)) (nf nfl : String) : TabInv cols nf nfl Obj.empty :=
  ⟨0, false, fun c _ => by simp [Obj.list, Obj.flag, Obj.empty], by simp [Obj.flag, Obj.empty]⟩

theorem tab_inv {E : Env} {p : PName} {S : Stmt} (hb : body p = .seq (.loop S) .skip) (hp : p ≠ .parseModuleMultithreaded)
    {I : Obj → Prop} (h0 : I Obj.empty) (hr : ∀ o e, I o → wp S (Keep I) o e) {i i' : Nat} {o : Obj}
    (h : Returns E p i (.ok i' (.obj o) false)) : I o := by
  obtain ⟨_, n, d, h⟩ := h
  have h := h n (d + 1) (Nat.le_refl _) (by omega)
  rw [run, if_neg hp, hb] at h
  have hit : ∀ s' c, iter (exec E (run E n d) n S) n (St.init i) = .ok s' c → s'.err = false → I s'.obj := by
    intro s' c hh he
    refine iter_inv (I := I) (fun s s' c hs hx => ?_) n _ s' c h0 hh he
    have := wp_sound S _ s (hr s.obj s.err hs) s' c hx
    exact ⟨this.brk, this.cont⟩
  have h1 : exec E (run E n d) n (.seq (.loop S) .skip) (St.init i) =
    (match iter (exec E (run E n d) n S) n (St.init i) with
    | .ok s' .cont => .ok s' .cont
    | r => r) := rfl
  rw [h1] at h
  cases hx : iter (exec E (run E n d) n S) n (St.init i) with
  | ok s' c =>
    have := hit s' c hx
    rw [hx] at h
    cases c <;>
    · simp only [finish, PRes.ok.injEq, Val.obj.injEq] at h
      obtain ⟨_, rfl, h3⟩ := h
      exact this h3
  | panic => rw [hx] at h; simp [finish] at h
  | timeout => rw [hx] at h; simp [finish] at h

/-- The part of C48 that holds, for every token list: all columns have the same length, which is not more than the
declared number (if one is declared; at most 65536 rows otherwise); and the marker of each column says whether as many
rows as declared were read. Missing: fewer rows than declared are accepted. -/
theorem C48_partial {E : Env} {p : PName} {cols : List (String × String)} {nf : String} (ht : (p, cols, nf) ∈ tables)
    {i i' : Nat} {o : Obj} (h : Returns E p i (.ok i' (.obj o) false)) :
    ∃ l : Nat, (∀ c ∈ cols, (o.list c.1).length = l) ∧ (0 < o.int nf → (l : Int) ≤ o.int nf) ∧ l ≤ 65536 ∧
      (0 < o.int nf → ∀ c ∈ cols, (o.flag c.2 = true ↔ (l : Int) = o.int nf)) := by
  have key : ∀ nfl, TabInv cols nf nfl o → ∃ l : Nat, (∀ c ∈ cols, (o.list c.1).length = l) ∧
      (0 < o.int nf → (l : Int) ≤ o.int nf) ∧ l ≤ 65536 ∧
      (0 < o.int nf → ∀ c ∈ cols, (o.flag c.2 = true ↔ (l : Int) = o.int nf)) := by
    intro nfl hI
    obtain ⟨l, b, g1, g2⟩ := hI.ex
    refine ⟨l, fun c hc => (g1 c hc).1, ?_⟩
    split at g2
    · obtain ⟨k1, k2, k3⟩ := g2
      cases b with
      | true =>
        simp only [if_true] at k3
        refine ⟨fun hp => by omega, k3.2.2, fun hp c hc => ?_⟩
        rw [(g1 c hc).2]
        exact ⟨fun _ => by omega, fun _ => rfl⟩
      | false =>
        simp only [Bool.false_eq_true, if_false] at k3
        refine ⟨fun hp => by omega, by omega, fun hp c hc => ?_⟩
        rw [(g1 c hc).2]
        exact ⟨fun hh => (by cases hh), fun _ => by omega⟩
    · obtain ⟨rfl, rfl⟩ := g2
      refine ⟨fun hp => by omega, by omega, fun hp c hc => ?_⟩
      rw [(g1 c hc).2]
      exact ⟨fun hh => (by cases hh), fun hh => by omega⟩
  simp only [tables, List.mem_cons, Prod.mk.injEq, List.not_mem_nil, or_false] at ht
  rcases ht with ⟨rfl, rfl, rfl⟩ | ⟨rfl, rfl, rfl⟩ | ⟨rfl, rfl, rfl⟩
  · exact key _ (tab_inv (S := loopOf parseCompuTab) rfl (by decide) (tab_start _ _ _) (fun o e => compuTab_round o e) h)
  · exact key _ (tab_inv (S := loopOf parseCompuVtab) rfl (by decide) (tab_start _ _ _) (fun o e => compuVtab_round o e) h)
  · exact key _ (tab_inv (S := loopOf parseCompuVtabRange) rfl (by decide) (tab_start _ _ _) (fun o e => compuVtabRange_round o e) h)

/-- The hypotheses of C48 are met: a table with 2 rows. -/
example : ∃ o : Obj, Returns (mkEnv [(str! "/begin COMPU_VTAB"), (str! "T"), (str! "\"text\""), (str! "TAB_VERB"), (str! "2"),
      (str! "0"), (str! "\"off\""), (str! "1"), (str! "\"on\""), (str! "/end COMPU_VTAB")]) .parseCompuVtab 0
      (.ok 9 (.obj o) false) ∧ (o.list "OutVal").length = 2 ∧ o.int "NumberValuePairs" = 2 := by
  apply gotLen_spec
  decide +kernel

end Verif.A2l.Props
