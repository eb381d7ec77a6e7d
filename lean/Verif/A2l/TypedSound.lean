import Verif.A2l.Typed

/-!
Soundness of the analysis of `Typed.lean`.
-/

namespace Verif.A2l.Typed
open Verif.Go Verif.A2l Lang

section
variable {E : Env}

theorem fieldIs_eq {T : GoType} {f : String} {t : GoType} (h : fieldIs T f t = true) : T.fieldType f = some t := of_decide_eq_true h

structure Inv (E : Env) (T : GoType) (a : Option GoType) (s : St) : Prop where
  obj : HasAux E.floatOk T [] (.obj s.obj)
  buf : ∀ t, a = some t → HasType E.floatOk t s.buf

theorem convert_ty (c : Conv) (t : Str) : HasType E.floatOk (convTy c) (convert E c t).1 := by
  cases c with
  | uint b =>
    refine Or.inr ⟨_, rfl, by omega, ?_⟩
    have hp : 0 < 2 ^ b := Nat.two_pow_pos b
    have : (parseUint t b).1 < 2 ^ b := by
      unfold parseUint
      split
      · exact hp
      · split
        · exact hp
        · split
          · assumption
          · simp only; omega
    omega
  | int b =>
    have hp : 0 < 2 ^ (b - 1) := Nat.two_pow_pos (b - 1)
    have : -((2 ^ (b - 1) : Nat) : Int) ≤ (parseInt t b).1 ∧ (parseInt t b).1 < ((2 ^ (b - 1) : Nat) : Int) := by
      unfold parseInt
      simp only
      split
      · simp only; omega
      · split
        · simp only; omega
        · split <;> split <;> (try split) <;> (try simp only) <;> omega
    exact Or.inr ⟨_, rfl, this.1, this.2⟩
  | float =>
    simp only [convert]
    split
    · rename_i h; exact Or.inr ⟨_, rfl, h⟩
    · exact Or.inl rfl

theorem castInt_uint (z : Int) (b : Nat) : 0 ≤ castInt (.uint b) z ∧ castInt (.uint b) z < (2 ^ b : Nat) := by
  have hp : (0 : Int) < (2 ^ b : Nat) := by exact_mod_cast Nat.two_pow_pos b
  exact ⟨Int.emod_nonneg _ (by omega), Int.emod_lt_of_pos _ hp⟩

theorem castInt_int (z : Int) (b : Nat) (hb : 0 < b) :
    -((2 ^ (b - 1) : Nat) : Int) ≤ castInt (.int b) z ∧ castInt (.int b) z < ((2 ^ (b - 1) : Nat) : Int) := by
  have hp : (0 : Int) < (2 ^ b : Nat) := by exact_mod_cast Nat.two_pow_pos b
  have h1 := Int.emod_nonneg (z + (2 ^ (b - 1) : Nat)) (b := ((2 ^ b : Nat) : Int)) (by omega)
  have h2 := Int.emod_lt_of_pos (z + (2 ^ (b - 1) : Nat)) hp
  have h3 : 2 ^ b = 2 ^ (b - 1) + 2 ^ (b - 1) := by
    obtain ⟨k, rfl⟩ : ∃ k, b = k + 1 := ⟨b - 1, by omega⟩
    rw [Nat.add_sub_cancel, Nat.pow_succ]; omega
  simp only [castInt]
  omega

theorem cast_ty {t u : GoType} {k : Cast} {v : Val} (h : castTy t k = some u) (hv : HasType E.floatOk t v) : HasType E.floatOk u (castVal k v) := by
  cases k with
  | same =>
    have : castVal .same v = v := by cases v <;> rfl
    rw [this]
    simp only [castTy, Option.some.injEq] at h
    rw [← h]; exact hv
  | uint b =>
    cases t with
    | uint n =>
      simp only [castTy, Option.some.injEq] at h
      subst h
      rcases hv with rfl | ⟨z, rfl, _⟩
      · exact Or.inl rfl
      · exact Or.inr ⟨_, rfl, castInt_uint z b⟩
    | int n =>
      simp only [castTy, Option.some.injEq] at h
      subst h
      rcases hv with rfl | ⟨z, rfl, _⟩
      · exact Or.inl rfl
      · exact Or.inr ⟨_, rfl, castInt_uint z b⟩
    | _ => simp [castTy] at h
  | int b =>
    cases t with
    | uint n =>
      simp only [castTy] at h
      split at h
      · cases h
      · rename_i hb
        injection h with h
        subst h
        rcases hv with rfl | ⟨z, rfl, _⟩
        · exact Or.inl rfl
        · exact Or.inr ⟨_, rfl, castInt_int z b (by omega)⟩
    | int n =>
      simp only [castTy] at h
      split at h
      · cases h
      · rename_i hb
        injection h with h
        subst h
        rcases hv with rfl | ⟨z, rfl, _⟩
        · exact Or.inl rfl
        · exact Or.inr ⟨_, rfl, castInt_int z b (by omega)⟩
    | _ => simp [castTy] at h

theorem list_ty {T t : GoType} {o : Obj} {f : String} (ho : HasAux E.floatOk T [] (.obj o)) (hf : T.fieldType f = some (.slice t)) :
    ∀ v ∈ o.list f, HasType E.floatOk t v := by
  intro v hv
  have := ho.get hf
  simp only [Val.fieldVal] at this
  unfold Obj.list at hv
  rcases this with h | ⟨l, h, hl⟩
  · rw [h] at hv; simp at hv
  · rw [h] at hv; exact hl v hv

theorem snoc_ty {T t : GoType} {o : Obj} {f : String} {v : Val} (ho : HasAux E.floatOk T [] (.obj o)) (hf : T.fieldType f = some (.slice t))
    (hv : HasType E.floatOk t v) : HasType E.floatOk (.slice t) (.list (o.list f ++ [v])) := by
  refine Or.inr ⟨_, rfl, fun w hw => ?_⟩
  rcases List.mem_append.1 hw with hw | hw
  · exact list_ty ho hf w hw
  · rw [List.mem_singleton.1 hw]; exact hv

def Ends (E : Env) (T : GoType) (outs : List (Option GoType × Ctl)) (o : Out) : Prop :=
  ∀ s1 c, o = .ok s1 c → ∃ y, (y, c) ∈ outs ∧ Inv E T y s1

/-- What is needed of the functions called. -/
def Calls (E : Env) (mt : Bool) (K : PName → Nat → PRes) : Prop :=
  ∀ p, (mt || decide (p ≠ .parseModuleMultithreaded)) = true → ∀ i j v e, K p i = .ok j v e → HasType E.floatOk (typeOf p) v

theorem next_inv {T : GoType} {a : Option GoType} {s : St} (h : Inv E T a s) : Inv E T a (doNext E s) := by
  unfold doNext
  split <;> exact ⟨h.obj, h.buf⟩

theorem iter_ends {T : GoType} {f : St → Out} {outs : List (Option GoType × Ctl)} (hf : ∀ s, Inv E T none s → Ends E T outs (f s)) :
    ∀ n s, Inv E T none s → Ends E T ((outs.filter (·.2 = .brk)).map fun o => (o.1, .cont)) (iter f n s) := by
  intro n
  induction n with
  | zero => intro s _ s1 c h; simp [iter] at h
  | succ n ih =>
    intro s hs s1 c h
    simp only [iter] at h
    split at h
    · rename_i s2 h2
      obtain ⟨y, _, hy⟩ := hf s hs s2 _ h2
      exact ih s2 ⟨hy.obj, fun t ht => (by cases ht)⟩ s1 c h
    · rename_i s2 h2
      injection h with h3 h4
      subst h3; subst h4
      obtain ⟨y, hm, hy⟩ := hf s hs _ _ h2
      exact ⟨y, List.mem_map.2 ⟨(y, .brk), List.mem_filter.2 ⟨hm, by simp⟩, rfl⟩, hy⟩
    · simp at h
    · simp at h

/-- A step that stores a value of the right type in field `f`. -/
theorem stored {T t : GoType} (hT : T.names.Nodup) {f : String} {a : Option GoType} {s : St} (h : Inv E T a s)
    (hf : fieldIs T f t = true) {v : Val} (hv : HasType E.floatOk t v) {i : Nat} {r : Str} {e : Bool} :
    Inv E T a ⟨i, r, s.obj.set f v, s.buf, e⟩ :=
  ⟨h.obj.set hT (fieldIs_eq hf) hv, h.buf⟩

theorem exec_ends {T : GoType} (hT : T.names.Nodup) {K : PName → Nat → PRes} (hK : Calls E E.multi K) {n : Nat} (st : Stmt) :
    ∀ x outs, ana E.multi T st x = some outs → ∀ s, Inv E T x s → Ends E T outs (exec E K n st s) := by
  induction st with
  | seq p q hp hq =>
    intro x outs ho s hs s1 c h
    simp only [ana] at ho
    split at ho
    · simp at ho
    · rename_i o1 h1
      simp only [exec] at h
      split at h
      · rename_i s2 h2
        obtain ⟨y, hm, hy⟩ := hp x o1 h1 s hs s2 _ h2
        obtain ⟨u, hu, hsub⟩ := Local.mem_collect ho _ hm
        obtain ⟨z, hz, hz'⟩ := hq y u hu s2 hy s1 c h
        exact ⟨z, hsub _ hz, hz'⟩
      · rename_i r hr
        obtain ⟨y, hm, hy⟩ := hp x o1 h1 s hs s1 c h
        cases c with
        | cont => exact absurd h (hr s1)
        | brk =>
          obtain ⟨u, hu, hsub⟩ := Local.mem_collect ho _ hm
          simp only [Option.some.injEq] at hu
          subst hu
          exact ⟨y, hsub _ (by simp), hy⟩
  | ite c p q hp hq =>
    intro x outs ho s hs s1 c1 h
    simp only [ana] at ho
    split at ho
    · rename_i u v hu hv
      injection ho with ho
      subst ho
      simp only [exec] at h
      split at h
      · rename_i hc
        have hm : x ∈ condT E.multi c x := by
          cases c with
          | multi => simp only [holds] at hc; simp [condT, hc]
          | _ => simp [condT]
        obtain ⟨z, hz, hsub⟩ := Local.mem_collect hu x hm
        obtain ⟨y1, h1, h2⟩ := hp x z hz s hs s1 c1 h
        exact ⟨y1, List.mem_append_left _ (hsub _ h1), h2⟩
      · obtain ⟨y1, h1, h2⟩ := hq x v hv s hs s1 c1 h
        exact ⟨y1, List.mem_append_right _ h1, h2⟩
    · simp at ho
  | loop p hp =>
    intro x outs ho s hs
    simp only [ana] at ho
    split at ho
    · simp at ho
    · rename_i o1 h1
      injection ho with ho
      subst ho
      exact iter_ends (fun s hs => hp _ _ h1 s hs) n s ⟨hs.obj, fun t ht => (by cases ht)⟩
  | skip =>
    intro x outs ho s hs s1 c h
    simp only [ana, Option.some.injEq] at ho
    simp only [exec, Out.ok.injEq] at h
    obtain ⟨h1, h2⟩ := h
    subst ho; subst h1; subst h2
    exact ⟨_, List.mem_singleton.2 rfl, hs⟩
  | brk =>
    intro x outs ho s hs s1 c h
    simp only [ana, Option.some.injEq] at ho
    simp only [exec, Out.ok.injEq] at h
    obtain ⟨h1, h2⟩ := h
    subst ho; subst h1; subst h2
    exact ⟨_, List.mem_singleton.2 rfl, hs⟩
  | next =>
    intro x outs ho s hs s1 c h
    simp only [ana, Option.some.injEq] at ho
    simp only [exec, Out.ok.injEq] at h
    obtain ⟨h1, h2⟩ := h
    subst ho; subst h1; subst h2
    exact ⟨_, List.mem_singleton.2 rfl, next_inv hs⟩
  | prev =>
    intro x outs ho s hs s1 c h
    simp only [ana, Option.some.injEq] at ho
    simp only [exec] at h
    split at h
    · simp at h
    · injection h with h1 h2
      subst ho; subst h1; subst h2
      exact ⟨_, List.mem_singleton.2 rfl, hs.obj, hs.buf⟩
  | setErr =>
    intro x outs ho s hs s1 c h
    simp only [ana, Option.some.injEq] at ho
    simp only [exec, Out.ok.injEq] at h
    obtain ⟨h1, h2⟩ := h
    subst ho; subst h1; subst h2
    exact ⟨_, List.mem_singleton.2 rfl, hs.obj, hs.buf⟩
  | conv c0 =>
    intro x outs ho s hs s1 c h
    simp only [ana, Option.some.injEq] at ho
    simp only [exec, Out.ok.injEq] at h
    obtain ⟨h1, h2⟩ := h
    subst ho; subst h1; subst h2
    exact ⟨_, List.mem_singleton.2 rfl, hs.obj, fun t ht => by injection ht with ht; subst ht; exact convert_ty c0 _⟩
  | convRet c0 =>
    intro x outs ho s hs s1 c h
    simp only [ana, Option.some.injEq] at ho
    simp only [exec, Out.ok.injEq] at h
    obtain ⟨h1, h2⟩ := h
    subst ho; subst h1; subst h2
    exact ⟨_, List.mem_singleton.2 rfl, hs.obj, fun t ht => by injection ht with ht; subst ht; exact convert_ty c0 _⟩
  | callBuf p =>
    intro x outs ho s hs s1 c h
    simp only [ana] at ho
    split at ho
    · rename_i hg
      simp only [Option.some.injEq] at ho
      subst ho
      simp only [exec] at h
      split at h
      · rename_i j v e hk
        injection h with h1 h2
        subst h1; subst h2
        exact ⟨_, List.mem_singleton.2 rfl, hs.obj, fun t ht => by injection ht with ht; subst ht; exact hK p hg _ _ _ _ hk⟩
      · simp at h
      · simp at h
    · simp at ho
  | callField f p =>
    intro x outs ho s hs s1 c h
    simp only [ana] at ho
    split at ho
    · rename_i hg
      rw [Bool.and_eq_true] at hg
      simp only [Option.some.injEq] at ho
      subst ho
      simp only [exec] at h
      split at h
      · rename_i j v e hk
        injection h with h1 h2
        subst h1; subst h2
        exact ⟨_, List.mem_singleton.2 rfl, stored hT hs hg.2 (hK p hg.1 _ _ _ _ hk)⟩
      · simp at h
      · simp at h
    · simp at ho
  | mapInsert f key =>
    intro x outs ho s hs s1 c h
    simp only [ana] at ho
    split at ho
    · rename_i t
      split at ho
      · rename_i hg
        rw [Bool.and_eq_true] at hg
        simp only [Option.some.injEq] at ho
        simp only [exec] at h
        split at h
        · rename_i m hm
          injection h with h1 h2
          subst ho; subst h1; subst h2
          refine ⟨_, List.mem_singleton.2 rfl, stored hT hs hg.1 (Or.inr ⟨_, rfl, fun k v hkv => ?_⟩)⟩
          unfold mapSet at hkv
          split at hkv
          · injection hkv with hkv
            rw [← hkv]; exact hs.buf t rfl
          · have := hs.obj.get (fieldIs_eq hg.1)
            simp only [Val.fieldVal] at this
            rw [hm] at this
            rcases this with h | ⟨m', h, h'⟩
            · cases h
            · injection h with h; subst h; exact h' k v hkv
        · simp at h
      · simp at ho
    · simp at ho
  | mapInit f =>
    intro x outs ho s hs s1 c h
    simp only [ana] at ho
    split at ho
    · rename_i hg
      simp only [Option.some.injEq] at ho
      simp only [exec, Out.ok.injEq] at h
      obtain ⟨h1, h2⟩ := h
      subst ho; subst h1; subst h2
      unfold isDict at hg
      split at hg
      · rename_i t ht
        exact ⟨_, List.mem_singleton.2 rfl, hs.obj.set hT ht (Or.inr ⟨_, rfl, fun k w hw => by cases hw⟩), hs.buf⟩
      · cases hg
    · simp at ho
  | store f k =>
    intro x outs ho s hs s1 c h
    simp only [ana] at ho
    split at ho
    · rename_i t ht
      split at ho
      · rename_i hg
        simp only [Option.some.injEq] at ho
        simp only [exec, Out.ok.injEq] at h
        obtain ⟨h1, h2⟩ := h
        subst ho; subst h1; subst h2
        obtain ⟨u, hu, hc⟩ := Option.bind_eq_some_iff.1 ht
        exact ⟨_, List.mem_singleton.2 rfl, stored hT hs hg (cast_ty hc (hs.buf u hu))⟩
      · simp at ho
    · simp at ho
  | append f k =>
    intro x outs ho s hs s1 c h
    simp only [ana] at ho
    split at ho
    · rename_i t ht
      split at ho
      · rename_i hg
        simp only [Option.some.injEq] at ho
        simp only [exec, Out.ok.injEq] at h
        obtain ⟨h1, h2⟩ := h
        subst ho; subst h1; subst h2
        obtain ⟨u, hu, hc⟩ := Option.bind_eq_some_iff.1 ht
        exact ⟨_, List.mem_singleton.2 rfl, stored hT hs hg (snoc_ty hs.obj (fieldIs_eq hg) (cast_ty hc (hs.buf u hu)))⟩
      · simp at ho
    · simp at ho
  | enumField f e =>
    intro x outs ho s hs s1 c h
    simp only [ana] at ho
    split at ho
    · rename_i hg
      simp only [Option.some.injEq] at ho
      subst ho
      have hs1 : Inv E T x (if e.usesNext then doNext E s else s) := by
        split
        · exact next_inv hs
        · exact hs
      simp only [exec] at h
      split at h
      · injection h with h1 h2
        subst h1; subst h2
        exact ⟨_, List.mem_singleton.2 rfl, stored hT hs1 hg (Or.inr ⟨_, rfl⟩)⟩
      · injection h with h1 h2
        subst h1; subst h2
        exact ⟨_, List.mem_singleton.2 rfl, stored hT hs1 hg (Or.inr ⟨_, rfl⟩)⟩
    · simp at ho
  | storeArr f k =>
    intro x outs ho s hs s1 c h
    simp only [ana] at ho
    split at ho
    · rename_i hg
      simp only [Option.some.injEq] at ho
      simp only [exec, Out.ok.injEq] at h
      obtain ⟨h1, h2⟩ := h
      subst ho; subst h1; subst h2
      refine ⟨_, List.mem_singleton.2 rfl, stored hT hs hg (Or.inr ⟨_, rfl, List.length_replicate, fun w hw => ?_⟩)⟩
      rw [List.eq_of_mem_replicate hw]
      exact Or.inr ⟨_, rfl⟩
    · simp at ho
  | appendCur f =>
    intro x outs ho s hs s1 c h
    simp only [ana] at ho
    split at ho
    · rename_i hg
      simp only [Option.some.injEq] at ho
      simp only [exec, Out.ok.injEq] at h
      obtain ⟨h1, h2⟩ := h
      subst ho; subst h1; subst h2
      exact ⟨_, List.mem_singleton.2 rfl, stored hT hs hg (snoc_ty hs.obj (fieldIs_eq hg) (Or.inr ⟨_, rfl⟩))⟩
    · simp at ho
  | _ =>
    intro x outs ho s hs s1 c h
    simp only [ana] at ho
    split at ho
    · rename_i hg
      simp only [Option.some.injEq] at ho
      simp only [exec, Out.ok.injEq] at h
      obtain ⟨h1, h2⟩ := h
      subst ho; subst h1; subst h2
      exact ⟨_, List.mem_singleton.2 rfl, stored hT hs hg (Or.inr ⟨_, rfl⟩)⟩
    · simp at ho

theorem run_typed (hmt : E.multi = true → ∀ i j v e, E.mtModule i = .ok j v e → HasType E.floatOk T_Module v) (n : Nat) :
    ∀ d, Calls E E.multi (run E n d) := by
  intro d
  induction d with
  | zero => intro p _ i j v e h; simp [run] at h
  | succ d ih =>
    intro p hp i j v e h
    rw [run] at h
    split at h
    · rename_i hpm
      subst hpm
      exact hmt (by simpa using hp) i j v e h
    · rename_i hpm
      have hc := checked_all E.multi p hpm
      simp only [checked, Bool.and_eq_true, decide_eq_true_eq] at hc
      obtain ⟨outs, ho⟩ := Option.isSome_iff_exists.1 hc.1
      unfold finish at h
      split at h
      · rename_i s c hx
        injection h with h1 h2 h3
        subst h1; subst h2; subst h3
        have hinit : Inv E (typeOf p) none (St.init i) := by
          refine ⟨?_, fun t ht => (by cases ht)⟩
          exact HasAux.empty hc.2.2
        obtain ⟨y, _, hy⟩ := exec_ends hc.2.1 ih (body p) _ _ ho _ hinit s c hx
        exact hy.obj
      · simp at h
      · simp at h

end

end Verif.A2l.Typed
