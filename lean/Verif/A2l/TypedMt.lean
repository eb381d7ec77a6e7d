import Verif.A2l.TypedSound
import Verif.A2l.OriginProps

/-!
Modules read in parallel have the type `Module`, too.
-/

namespace Verif.A2l.Typed
open Verif.Go Verif.A2l Lang Verif.Conc

/-- The collector of a channel writes a field of the right type. -/
def caseOk (c : ModCase) : Bool :=
  decide (c.parser ≠ .parseModuleMultithreaded) &&
  match c.key with
  | some key => fieldIs T_Module c.field (.dict (typeOf c.parser)) && fieldIs (typeOf c.parser) key .str
  | none => fieldIs T_Module c.field (typeOf c.parser)

theorem cases_ok : channels.all caseOk = true := by decide +kernel

theorem module_nodup : T_Module.names.Nodup := by decide +kernel

theorem maps_ok : mapFields.all (fun f => isDict (T_Module.fieldType f)) = true := by decide +kernel

theorem newModule_ty {E : Env} : HasAux E.floatOk T_Module [] (.obj newModule) := by
  have : ∀ (fs : List String), fs.all (fun f => isDict (T_Module.fieldType f)) = true → ∀ o : Obj, HasAux E.floatOk T_Module [] (.obj o) →
      HasAux E.floatOk T_Module [] (.obj (fs.foldl (fun (o : Obj) f => o.set f (.map fun _ => none)) o)) := by
    intro fs
    induction fs with
    | nil => intro _ o h; exact h
    | cons f fs ih =>
      intro hf o h
      simp only [List.all_cons, Bool.and_eq_true] at hf
      refine ih hf.2 _ ?_
      have hd := hf.1
      unfold isDict at hd
      split at hd
      · rename_i t ht
        exact h.set module_nodup ht (Or.inr ⟨_, rfl, fun k w hw => by cases hw⟩)
      · cases hd
  exact this mapFields maps_ok _ (HasAux.empty (by decide +kernel))

section
variable {E : Env}

theorem header_ty (i : Nat) : HasAux E.floatOk T_Module [] (.obj (header E i).2.1) := by
  have hset : ∀ (o : Obj) f s g, T_Module.fieldType f = some .str → T_Module.fieldType g = some .bool → HasAux E.floatOk T_Module [] (.obj o) →
      HasAux E.floatOk T_Module [] (.obj ((o.set f (.str s)).set g (.bool true))) := fun o f s g hf hg h =>
    (h.set module_nodup hf (Or.inr ⟨_, rfl⟩)).set module_nodup hg (Or.inr ⟨_, rfl⟩)
  unfold header
  simp only
  split
  · exact newModule_ty
  · have h1 := hset newModule "Name" (E.current (nextIdx E i)) "nameSet" (by decide +kernel) (by decide +kernel) newModule_ty
    split
    · exact h1
    · exact hset _ "longIdentifier" _ "longIdentifierSet" (by decide +kernel) (by decide +kernel) h1

/-- What is sent on channel `k`. -/
def Sent (E : Env) (k : Nat) (v : Val) : Prop :=
  (k = errChan ∧ v = .zero) ∨ ∃ c, channels[k - 1]? = some c ∧ 1 ≤ k ∧ HasType E.floatOk (typeOf c.parser) v

theorem findCase_index {t : Str} : ∀ {cs : List ModCase} {n k : Nat} {c : ModCase}, findCase t n cs = some (k, c) →
    n ≤ k ∧ cs[k - n]? = some c := by
  intro cs
  induction cs with
  | nil => intro n k c h; simp [findCase] at h
  | cons d cs ih =>
    intro n k c h
    simp only [findCase] at h
    split at h
    · injection h with h
      injection h with h1 h2
      subst h1; subst h2
      simp
    · obtain ⟨h1, h2⟩ := ih h
      refine ⟨by omega, ?_⟩
      rw [show k - n = (k - (n + 1)) + 1 by omega, List.getElem?_cons_succ]
      exact h2

theorem worker_ty (hs : E.multi = false) {max : Int} : ∀ fuel i l, worker E max fuel i = some l → ∀ q ∈ l, Sent E q.1 q.2 := by
  intro fuel
  induction fuel with
  | zero => intro i l h; simp [worker] at h
  | succ fuel ih =>
    intro i l h q hq
    simp only [worker] at h
    split at h
    · injection h with h; subst h; simp at hq
    · split at h
      · rename_i k c hc
        split at h
        · rename_i j v e hp
          split at h
          · injection h with h; subst h
            rw [List.mem_singleton.1 hq]; exact Or.inl ⟨rfl, rfl⟩
          · rw [Option.map_eq_some_iff] at h
            obtain ⟨l', h1, h2⟩ := h
            subst h2
            rcases List.mem_cons.1 hq with rfl | hq
            · obtain ⟨hk, hci⟩ := findCase_index hc
              refine Or.inr ⟨c, hci, hk, ?_⟩
              refine run_typed (fun hm => (by rw [hs] at hm; cases hm)) _ _ c.parser ?_ _ _ _ _ hp
              have := List.all_eq_true.1 cases_ok c (List.mem_of_getElem? hci)
              simp only [caseOk, Bool.and_eq_true] at this
              simp only [this.1, Bool.or_true]
            · exact ih _ _ h1 q hq
        · simp at h
      · split at h
        · injection h with h; subst h
          rw [List.mem_singleton.1 hq]; exact Or.inl ⟨rfl, rfl⟩
        · split at h
          · injection h with h; subst h; simp at hq
          · split at h
            · injection h with h; subst h; simp at hq
            · exact ih _ _ h q hq

theorem collectOne_ty {c : ModCase} (hc : caseOk c = true) {o : Obj} {v : Val} (ho : HasAux E.floatOk T_Module [] (.obj o))
    (hv : HasType E.floatOk (typeOf c.parser) v) : HasAux E.floatOk T_Module [] (.obj (collectOne c o v)) := by
  simp only [caseOk, Bool.and_eq_true] at hc
  have hc := hc.2
  unfold collectOne
  cases hk : c.key with
  | some key =>
    rw [hk] at hc
    simp only [Bool.and_eq_true] at hc
    refine ho.set module_nodup (fieldIs_eq hc.1) (Or.inr ⟨_, rfl, fun k w hw => ?_⟩)
    unfold mapSet at hw
    split at hw
    · injection hw with hw; rw [← hw]; exact hv
    · have hm := ho.get (fieldIs_eq hc.1)
      simp only [Val.fieldVal] at hm
      unfold Obj.map at hw
      rcases hm with h | ⟨m, h, h'⟩
      · rw [h] at hw; cases hw
      · rw [h] at hw; exact h' k w hw
  | none =>
    rw [hk] at hc
    exact ho.set module_nodup (fieldIs_eq hc) hv

theorem collectAll_ty {acc : Nat → List Val} : ∀ (cs : List ModCase) (k : Nat) (o : Obj), cs.all caseOk = true →
    (∀ n c, cs[n]? = some c → ∀ v ∈ acc (k + n), HasType E.floatOk (typeOf c.parser) v) → HasAux E.floatOk T_Module [] (.obj o) →
    HasAux E.floatOk T_Module [] (.obj (collectAll acc k cs o)) := by
  intro cs
  induction cs with
  | nil => intro k o _ _ h; exact h
  | cons c cs ih =>
    intro k o hc ha ho
    simp only [List.all_cons, Bool.and_eq_true] at hc
    simp only [collectAll]
    refine ih _ _ hc.2 (fun n d hd v hv => ha (n + 1) d (by simpa using hd) v (by rw [show k + (n + 1) = k + 1 + n by omega]; exact hv)) ?_
    have : ∀ (l : List Val) (o : Obj), (∀ v ∈ l, HasType E.floatOk (typeOf c.parser) v) → HasAux E.floatOk T_Module [] (.obj o) →
        HasAux E.floatOk T_Module [] (.obj (l.foldl (collectOne c) o)) := by
      intro l
      induction l with
      | nil => intro o _ h; exact h
      | cons v l ih =>
        intro o hl h
        exact ih _ (fun w hw => hl w (List.mem_cons_of_mem _ hw)) (collectOne_ty hc.1 h (hl v List.mem_cons_self))
    exact this _ _ (ha 0 c rfl) ho

theorem mt_typed (hs : E.multi = false) {np : Nat} {sched : List Collect.Op} {i j : Nat} {v : Val} {e : Bool}
    (h : mtModule E np sched i = .ok j v e) : HasType E.floatOk T_Module v := by
  unfold mtModule at h
  simp only at h
  split at h
  · injection h with _ h _
    rw [← h]; exact header_ty i
  · split at h
    · cases h
    · rename_i ss hss
      split at h
      · cases h
      · rename_i s hrun
        split at h
        · cases h
        · split at h
          · rename_i hfin
            injection h with _ h _
            have hinv := Collect.run_inv _ _ _ (Collect.inv_init (capacities np) ss) hrun
            have hrec : ∀ n < 27, ∀ v ∈ received s n, Sent E n v := by
              intro n hn v hv
              obtain ⟨sc, hsc, hm⟩ := (received_iff hinv hfin hn v).1 hv
              obtain ⟨k, _, hk⟩ := Origin.mapM_mem hss sc hsc
              exact worker_ty hs _ _ _ hk _ hm
            have hall := collectAll_ty (acc := received s) channels 1 (header E i).2.1 cases_ok
              (fun n c hc v hv => by
                have hn : n < channels.length := (List.getElem?_eq_some_iff.1 hc).1
                rw [channels_length] at hn
                rcases hrec (1 + n) (by omega) v hv with ⟨h, _⟩ | ⟨d, hd, _, hty⟩
                · simp only [errChan] at h; omega
                · rw [show 1 + n - 1 = n by omega, hc] at hd
                  injection hd with hd
                  rw [hd]; exact hty) (header_ty i)
            rw [← h]
            split
            · exact hall
            · refine hall.set module_nodup (t := .slice .other) (by decide +kernel) (Or.inr ⟨_, rfl, fun w hw => ?_⟩)
              rcases hrec errChan (by decide) w hw with ⟨_, h⟩ | ⟨d, _, h, _⟩
              · exact h
              · cases h
          · cases h

end

end Verif.A2l.Typed
