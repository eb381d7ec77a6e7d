import Verif.A2l.HashMap

/-!
C92: what the result of `toHashMap` contains.
-/

namespace Verif.A2l.HashMap
open Verif.Go Verif.A2l Lang Spec Verif.Conc

seal Calib.F64.ofInt Link.number64

theorem exported_iff (f : String) : exported f = true ↔ Capital f := by
  unfold exported Capital
  cases h : f.toList with
  | nil => simp
  | cons c r =>
    constructor
    · intro hc
      simp only [Char.isUpper, Bool.and_eq_true, decide_eq_true_eq, ge_iff_le, UInt32.le_iff_toNat_le] at hc
      exact ⟨c, r, rfl, hc.1, hc.2⟩
    · rintro ⟨c', r', h1, h2, h3⟩
      injection h1 with h1 _
      subst h1
      simp only [Char.isUpper, Bool.and_eq_true, decide_eq_true_eq, ge_iff_le, UInt32.le_iff_toNat_le]
      exact ⟨h2, h3⟩

/-- The exported part of a type: structs end well, and the numbers are small. -/
def good : GoType → Bool
  | .uint n => decide (n ≤ 53)
  | .int n => decide (n ≤ 53)
  | .slice t => good t
  | .array _ t => good t
  | .dict t => good t
  | .field f t r => (!exported f || good t) && (r.isStruct && !r.names.contains f) && good r
  | _ => true

theorem good_A2L : good T_A2L = true := by decide +kernel

/-- The map of a struct. -/
theorem struct_json {v : Val} : ∀ {T : GoType}, T.isStruct = true → ∃ o, toJson T v = .obj o ∧
    ∀ f : String, o f.toList = if exported f then (T.fieldType f).map fun t => toJson t (v.fieldVal f) else none := by
  intro T
  induction T with
  | nil => intro _; exact ⟨_, by rw [toJson], fun f => by simp [GoType.fieldType]⟩
  | field g t r _ ihr =>
    intro h
    obtain ⟨o, h1, h2⟩ := ihr (by simpa [GoType.isStruct] using h)
    simp only [toJson]
    split
    · rename_i hg
      refine ⟨_, by rw [h1]; rfl, fun f => ?_⟩
      by_cases hf : f = g
      · subst hf
        simp [hg, GoType.fieldType]
      · have : f.toList ≠ g.toList := fun h => hf (String.toList_injective h)
        simp only [this, if_false, GoType.fieldType, hf]
        exact h2 f
    · rename_i hg
      refine ⟨o, h1, fun f => ?_⟩
      rw [h2 f]
      by_cases hf : f = g
      · subst hf; simp [hg]
      · simp [GoType.fieldType, hf]
  | _ => intro h; simp [GoType.isStruct] at h

theorem fieldType_struct {T t : GoType} {f : String} (hT : good T = true) (h : T.fieldType f = some t) : T.isStruct = true := by
  cases T with
  | field g u r => simp only [good, Bool.and_eq_true] at hT; simpa [GoType.isStruct] using hT.1.2.1
  | _ => simp [GoType.fieldType] at h

theorem fieldType_good {t : GoType} {f : String} (hx : exported f = true) : ∀ {T : GoType}, good T = true → T.fieldType f = some t →
    good t = true := by
  intro T
  induction T with
  | field g u r _ ihr =>
    intro hT h
    simp only [good, Bool.and_eq_true, Bool.or_eq_true, Bool.not_eq_true'] at hT
    simp only [GoType.fieldType] at h
    split at h
    · rename_i hg
      injection h with h
      subst h; subst hg
      rcases hT.1.1 with h | h
      · rw [hx] at h; cases h
      · exact h
    · exact ihr hT.2 h
  | _ => intro _ h; simp [GoType.fieldType] at h

section
variable {F : Str → Bool}

theorem find_nil (j : Json) : find j [] = some j := by cases j <;> simp only [find]

theorem found {T : GoType} {v : Val} {p : List Step} {u : GoType} {w : Val} (h : At T v p u w) : good T = true → HasType F T v → Shown p →
    find (toJson T v) (p.map Step.spot) = some (toJson u w) ∧ good u = true ∧ HasType F u w := by
  induction h with
  | here => intro hg ht _; exact ⟨find_nil _, hg, ht⟩
  | @field T v f t p u w hf _ ih =>
    intro hg ht hp
    have hx : exported f = true := (exported_iff f).2 (hp f List.mem_cons_self)
    obtain ⟨o, h1, h2⟩ := struct_json (v := v) (fieldType_struct hg hf)
    obtain ⟨h3, h4⟩ := ih (fieldType_good hx hg hf) (ht.get hf) (fun g hm => hp g (List.mem_cons_of_mem _ hm))
    refine ⟨?_, h4⟩
    rw [h1, List.map_cons, Step.spot, find, h2 f, if_pos hx, hf]
    exact h3
  | @elem t l n v p u w hl _ ih =>
    intro hg ht hp
    have hv : HasType F t v := by
      rcases ht with h | ⟨l', h, h'⟩
      · cases h
      · injection h with h; subst h; exact h' v (List.mem_of_getElem? hl)
    obtain ⟨h3, h4⟩ := ih hg hv (fun g hm => hp g (List.mem_cons_of_mem _ hm))
    refine ⟨?_, h4⟩
    simp only [toJson, List.map_cons, Step.spot, find, List.getElem?_map, hl, Option.map_some, Option.bind_some]
    exact h3
  | @item k t l n v p u w hl _ ih =>
    intro hg ht hp
    have hv : HasType F t v := by
      rcases ht with h | ⟨l', h, _, h'⟩
      · cases h
      · injection h with h; subst h; exact h' v (List.mem_of_getElem? hl)
    obtain ⟨h3, h4⟩ := ih hg hv (fun g hm => hp g (List.mem_cons_of_mem _ hm))
    refine ⟨?_, h4⟩
    simp only [toJson, List.map_cons, Step.spot, find, List.getElem?_map, hl, Option.map_some, Option.bind_some]
    exact h3
  | @blank k t n p u w hn _ ih =>
    intro hg ht hp
    obtain ⟨h3, h4⟩ := ih hg (HasType.zero t) (fun g hm => hp g (List.mem_cons_of_mem _ hm))
    refine ⟨?_, h4⟩
    simp only [toJson, List.map_cons, Step.spot, find, List.getElem?_replicate, hn, if_true, Option.bind_some]
    exact h3
  | @key t m k v p u w hk _ ih =>
    intro hg ht hp
    have hv : HasType F t v := by
      rcases ht with h | ⟨l', h, h'⟩
      · cases h
      · injection h with h; subst h; exact h' k v hk
    obtain ⟨h3, h4⟩ := ih hg hv (fun g hm => hp g (List.mem_cons_of_mem _ hm))
    refine ⟨?_, h4⟩
    simp only [toJson, List.map_cons, Step.spot, find, hk, Option.map_some, Option.bind_some]
    exact h3

theorem only {q : List Spot} : ∀ {T : GoType} {v : Val} {j : Json}, good T = true → HasType F T v → find (toJson T v) q = some j →
    ∃ p u w, q = p.map Step.spot ∧ Shown p ∧ At T v p u w ∧ j = toJson u w := by
  induction q with
  | nil =>
    intro T v j _ _ h
    rw [find_nil] at h
    injection h with h
    exact ⟨[], T, v, rfl, (fun f hf => by simp at hf), .here, h.symm⟩
  | cons s q ih =>
    intro T v j hg ht h
    cases T with
    | str => simp [toJson, find] at h
    | bool => simp [toJson, find] at h
    | uint n => simp [toJson, find] at h
    | int n => simp [toJson, find] at h
    | float => simp [toJson, find] at h
    | other => simp [toJson, find] at h
    | slice t =>
      rcases ht with rfl | ⟨l, rfl, hl⟩
      · simp [toJson, find] at h
      · cases s with
        | name k => simp [toJson, find] at h
        | elem n =>
          simp only [toJson, find, List.getElem?_map] at h
          cases hn : l[n]? with
          | none => rw [hn] at h; simp at h
          | some v =>
            rw [hn] at h
            obtain ⟨p, u, w, h1, h2, h3, h4⟩ := ih (T := t) hg (hl v (List.mem_of_getElem? hn)) h
            exact ⟨.elem n :: p, u, w, by rw [h1]; rfl, (fun f hf => by simp at hf; exact h2 f hf), .elem hn h3, h4⟩
    | array k t =>
      rcases ht with rfl | ⟨l, rfl, _, hl⟩
      · cases s with
        | name k => simp [toJson, find] at h
        | elem n =>
          simp only [toJson, find, List.getElem?_replicate] at h
          split at h
          · rename_i hn
            obtain ⟨p, u, w, h1, h2, h3, h4⟩ := ih (T := t) hg (HasType.zero t) h
            exact ⟨.elem n :: p, u, w, by rw [h1]; rfl, (fun f hf => by simp at hf; exact h2 f hf), .blank hn h3, h4⟩
          · simp at h
      · cases s with
        | name k => simp [toJson, find] at h
        | elem n =>
          simp only [toJson, find, List.getElem?_map] at h
          cases hn : l[n]? with
          | none => rw [hn] at h; simp at h
          | some v =>
            rw [hn] at h
            obtain ⟨p, u, w, h1, h2, h3, h4⟩ := ih (T := t) hg (hl v (List.mem_of_getElem? hn)) h
            exact ⟨.elem n :: p, u, w, by rw [h1]; rfl, (fun f hf => by simp at hf; exact h2 f hf), .item hn h3, h4⟩
    | dict t =>
      rcases ht with rfl | ⟨m, rfl, hm⟩
      · simp [toJson, find] at h
      · cases s with
        | elem n => simp [toJson, find] at h
        | name k =>
          simp only [toJson, find] at h
          cases hk : m k with
          | none => rw [hk] at h; simp at h
          | some v =>
            rw [hk] at h
            obtain ⟨p, u, w, h1, h2, h3, h4⟩ := ih (T := t) hg (hm k v hk) h
            exact ⟨.key k :: p, u, w, by rw [h1]; rfl, (fun f hf => by simp at hf; exact h2 f hf), .key hk h3, h4⟩
    | nil => cases s <;> simp [toJson, find] at h
    | field g t r =>
      obtain ⟨o, h1, h2⟩ := struct_json (v := v) (T := .field g t r) (by simp only [good, Bool.and_eq_true] at hg; simpa [GoType.isStruct] using hg.1.2.1)
      rw [h1] at h
      cases s with
      | elem n => simp [find] at h
      | name k =>
        simp only [find] at h
        have hk := h2 (String.ofList k)
        rw [String.toList_ofList] at hk
        rw [hk] at h
        split at h
        · rename_i hx
          cases hf : GoType.fieldType (.field g t r) (String.ofList k) with
          | none => rw [hf] at h; simp at h
          | some t' =>
            rw [hf] at h
            obtain ⟨p, u, w, h1, h2, h3, h4⟩ := ih (T := t') (fieldType_good hx hg hf) (ht.get hf) h
            refine ⟨.field (String.ofList k) :: p, u, w, by rw [h1]; simp [Step.spot], fun f hf => ?_, .field hf h3, h4⟩
            rcases List.mem_cons.1 hf with hf | hf
            · injection hf with hf; rw [hf]; exact (exported_iff _).1 hx
            · exact h2 f hf
        · simp at h

theorem names_of_fieldType {T t : GoType} {f : String} (h : T.fieldType f = some t) : f ∈ T.names := by
  induction T with
  | field g u r _ ihr =>
    simp only [GoType.fieldType] at h
    split at h
    · rename_i hg; subst hg; exact List.mem_cons_self
    · exact List.mem_cons_of_mem _ (ihr h)
  | _ => simp [GoType.fieldType] at h

theorem at_rest {f : String} {t r : GoType} {v w : Val} {p : List Step} (hr : r.isStruct = true) (hf : f ∉ r.names)
    (h : At r v p .float w) : At (.field f t r) v p .float w := by
  cases h with
  | here => simp [GoType.isStruct] at hr
  | @field _ _ g u p _ _ h1 h2 =>
    have : g ≠ f := fun h => hf (h ▸ names_of_fieldType h1)
    exact .field (by simp only [GoType.fieldType, this, if_false]; exact h1) h2
  | elem => simp [GoType.isStruct] at hr
  | item => simp [GoType.isStruct] at hr
  | blank => simp [GoType.isStruct] at hr
  | key => simp [GoType.isStruct] at hr

theorem shown_cons {s : Step} {p : List Step} (hs : ∀ f, s = .field f → Capital f) (hp : Shown p) : Shown (s :: p) := by
  intro f hf
  rcases List.mem_cons.1 hf with hf | hf
  · exact hs f hf.symm
  · exact hp f hf

theorem unsupported_at {T : GoType} : ∀ {v : Val}, good T = true → Unsupported T v →
    ∃ p w, Shown p ∧ At T v p .float w ∧ ∀ s n, Link.number64 w ≠ .fin s n := by
  induction T with
  | float => intro v _ h; exact ⟨[], v, (fun f hf => by simp at hf), .here, h⟩
  | slice t ih =>
    rintro v hg ⟨l, rfl, x, hx, h⟩
    obtain ⟨n, hn⟩ := List.mem_iff_getElem?.1 hx
    obtain ⟨p, w, h1, h2, h3⟩ := ih hg h
    exact ⟨.elem n :: p, w, shown_cons (fun f hf => by cases hf) h1, .elem hn h2, h3⟩
  | array k t ih =>
    rintro v hg ⟨l, rfl, x, hx, h⟩
    obtain ⟨n, hn⟩ := List.mem_iff_getElem?.1 hx
    obtain ⟨p, w, h1, h2, h3⟩ := ih hg h
    exact ⟨.elem n :: p, w, shown_cons (fun f hf => by cases hf) h1, .item hn h2, h3⟩
  | dict t ih =>
    rintro v hg ⟨m, k, x, rfl, hx, h⟩
    obtain ⟨p, w, h1, h2, h3⟩ := ih hg h
    exact ⟨.key k :: p, w, shown_cons (fun f hf => by cases hf) h1, .key hx h2, h3⟩
  | field f t r iht ihr =>
    intro v hg h
    simp only [good, Bool.and_eq_true, Bool.or_eq_true, Bool.not_eq_true'] at hg
    rcases h with ⟨hx, h⟩ | h
    · have ht : good t = true := by
        rcases hg.1.1 with h | h
        · rw [hx] at h; cases h
        · exact h
      obtain ⟨p, w, h1, h2, h3⟩ := iht ht h
      refine ⟨.field f :: p, w, shown_cons (fun g hf => ?_) h1, .field (by simp [GoType.fieldType]) h2, h3⟩
      injection hf with hf
      rw [← hf]; exact (exported_iff f).1 hx
    · obtain ⟨p, w, h1, h2, h3⟩ := ihr hg.2 h
      exact ⟨p, w, h1, at_rest hg.1.2.1 (by simpa using hg.1.2.2) h2, h3⟩
  | _ => intro v _ h; exact h.elim

theorem unsupported_field {f : String} {t : GoType} {v : Val} (hx : exported f = true) (h : Unsupported t (v.fieldVal f)) :
    ∀ {T : GoType}, T.fieldType f = some t → Unsupported T v := by
  intro T
  induction T with
  | field g u r _ ihr =>
    intro hf
    simp only [GoType.fieldType] at hf
    split at hf
    · rename_i hg
      injection hf with hf
      subst hf; subst hg
      exact Or.inl ⟨hx, h⟩
    · exact Or.inr (ihr hf)
  | _ => intro hf; simp [GoType.fieldType] at hf

theorem at_zero {T : GoType} {v : Val} {p : List Step} {u : GoType} {w : Val} (h : At T v p u w) : v = .zero → w = .zero := by
  induction h with
  | here => exact id
  | field _ _ ih => intro h; subst h; exact ih rfl
  | elem _ _ _ => intro h; cases h
  | item _ _ _ => intro h; cases h
  | blank _ _ ih => intro _; exact ih rfl
  | key _ _ _ => intro h; cases h

theorem number64_zero : Link.number64 .zero = .fin false 0 := by unfold Link.number64; rfl

theorem at_unsupported {T : GoType} {v : Val} {p : List Step} {u : GoType} {w : Val} (h : At T v p u w) : u = .float → Shown p →
    (∀ s n, Link.number64 w ≠ .fin s n) → Unsupported T v := by
  induction h with
  | here => intro hu _ hw; subst hu; exact hw
  | @field T v f t p u w hf _ ih =>
    intro hu hp hw
    exact unsupported_field ((exported_iff f).2 (hp f List.mem_cons_self)) (ih hu (fun g hg => hp g (List.mem_cons_of_mem _ hg)) hw) hf
  | elem hl _ ih => intro hu hp hw; exact ⟨_, rfl, _, List.mem_of_getElem? hl, ih hu (fun g hg => hp g (List.mem_cons_of_mem _ hg)) hw⟩
  | item hl _ ih => intro hu hp hw; exact ⟨_, rfl, _, List.mem_of_getElem? hl, ih hu (fun g hg => hp g (List.mem_cons_of_mem _ hg)) hw⟩
  | blank _ h _ =>
    intro _ _ hw
    rw [at_zero h rfl] at hw
    exact absurd number64_zero (hw _ _)
  | key hk _ ih => intro hu hp hw; exact ⟨_, _, _, rfl, hk, ih hu (fun g hg => hp g (List.mem_cons_of_mem _ hg)) hw⟩

end

theorem number_none {x : Calib.F64} : Calib.Spec.number x = none ↔ ∀ s n, x ≠ .fin s n := by
  cases x with
  | nan => simp [Calib.Spec.number]
  | inf s => simp [Calib.Spec.number]
  | fin s n => simp [Calib.Spec.number]

theorem accepted {t : Str} (h : Link.accepts t = true) : ∃ x, Calib.parseFloat t = .ok x ∧ Link.number64 (.flt t) = x := by
  unfold Link.accepts at h
  split at h
  · rename_i x hx
    refine ⟨x, hx, ?_⟩
    simp only [Link.number64, Link.float64Of, hx]
  · cases h

theorem intOf_number {z : Int} {n : Nat} (hn : n ≤ 53) (h1 : z.natAbs ≤ 2 ^ n) : Calib.Spec.number (intOf (.int z)) = some (z : Rat) := by
  have : z.natAbs ≤ 2 ^ 53 := Nat.le_trans h1 (Nat.pow_le_pow_right (by decide) hn)
  exact Calib.Props.ofInt_number (Calib.Props.isDouble_small this) (Nat.lt_of_le_of_lt this (by decide +kernel))

theorem number_zero : Calib.Spec.number (.fin false 0) = some 0 := by decide +kernel

theorem same_of {u : GoType} {w : Val} (hg : good u = true) (ht : HasType Link.accepts u w) (hb : Basic u) : Same u w (toJson u w) := by
  cases u with
  | str =>
    rcases ht with rfl | ⟨s, rfl⟩
    · exact .noStr
    · exact .str
  | bool =>
    rcases ht with rfl | ⟨s, rfl⟩
    · exact .noBool
    · exact .bool
  | uint n =>
    simp only [good, decide_eq_true_eq] at hg
    rcases ht with rfl | ⟨z, rfl, h1, h2⟩
    · exact .noUint number_zero
    · exact .uint (intOf_number hg (by omega))
  | int n =>
    simp only [good, decide_eq_true_eq] at hg
    rcases ht with rfl | ⟨z, rfl, h1, h2⟩
    · exact .noInt number_zero
    · have : 2 ^ (n - 1) ≤ 2 ^ n := Nat.pow_le_pow_right (by decide) (by omega)
      exact .int (intOf_number hg (by omega))
  | float =>
    rcases ht with rfl | ⟨t, rfl, h⟩
    · simp only [toJson, number64_zero]
      exact .noFloat number_zero
    · obtain ⟨x, h1, h2⟩ := accepted h
      simp only [toJson, h2]
      exact .float h1
  | _ => exact hb.elim

theorem fieldType_of_names {T : GoType} {f : String} (h : f ∈ T.names) : ∃ t, T.fieldType f = some t := by
  induction T with
  | field g u r _ ihr =>
    simp only [GoType.fieldType]
    split
    · exact ⟨_, rfl⟩
    · rename_i hg
      rcases List.mem_cons.1 h with h | h
      · exact absurd h hg
      · exact ihr h
  | _ => simp [GoType.names] at h

theorem looks_of {F : Str → Bool} {u : GoType} {w : Val} (hg : good u = true) (ht : HasType F u w) (hb : ¬ Basic u) : Looks u w (toJson u w) := by
  cases u with
  | other => exact .other
  | slice t =>
    rcases ht with rfl | ⟨l, rfl, _⟩
    · exact .noSlice
    · exact .slice (by simp)
  | array n t =>
    rcases ht with rfl | ⟨l, rfl, hl, _⟩
    · exact .array (by simp)
    · exact .array (by simpa using hl)
  | dict t =>
    rcases ht with rfl | ⟨m, rfl, _⟩
    · exact .noDict
    · exact .dict (fun k => by cases m k <;> rfl)
  | nil => exact .noFields (fun _ => rfl)
  | field f t r =>
    obtain ⟨o, h1, h2⟩ := struct_json (v := w) (T := .field f t r) (by simp only [good, Bool.and_eq_true] at hg; simpa [GoType.isStruct] using hg.1.2.1)
    rw [h1]
    refine .struct fun k => ?_
    have hk := h2 (String.ofList k)
    rw [String.toList_ofList] at hk
    rw [hk]
    constructor
    · intro h
      split at h
      · rename_i hx
        cases hf : GoType.fieldType (.field f t r) (String.ofList k) with
        | none => rw [hf] at h; cases h
        | some t' => exact ⟨_, names_of_fieldType hf, (exported_iff _).1 hx, by rw [String.toList_ofList]⟩
      · cases h
    · rintro ⟨g, hg, hx, rfl⟩
      rw [String.ofList_toList, if_pos ((exported_iff g).2 hx)]
      obtain ⟨t', ht'⟩ := fieldType_of_names hg
      rw [ht']; rfl
  | _ => exact absurd trivial hb

end Verif.A2l.HashMap

namespace Verif.A2l.Props
open Verif.Go Verif.A2l Lang Spec HashMap Verif.Conc

/-- `a` is what the parser returns for the words of `E`, with modules one after the other or in parallel; `e`: with an error. -/
def ParsedAs (E : Env) (a : Val) (e : Bool) : Prop :=
  E.floatOk = Link.accepts ∧ E.multi = false ∧
    ((∃ j, Returns E .parseA2l 0 (.ok j a e)) ∨ ∃ np sched j, Returns (mtEnv E np sched) .parseA2l 0 (.ok j a e))

/-- The result of the parser is a value of the Go type `A2L`. -/
theorem C92_typed {E : Env} {a : Val} {e : Bool} (h : ParsedAs E a e) : HasType Link.accepts T_A2L a := by
  obtain ⟨hf, hs, ⟨j, _, n, d, hr⟩ | ⟨np, sched, j, _, n, d, hr⟩⟩ := h
  · have := Typed.run_typed (E := E) (fun hm => (by rw [hs] at hm; cases hm)) n d .parseA2l (by simp) 0 j a e (hr n d (Nat.le_refl _) (Nat.le_refl _))
    rw [hf] at this
    exact this
  · have := Typed.run_typed (E := mtEnv E np sched) (fun _ i j v e hmt => Typed.mt_typed hs hmt) n d .parseA2l (by simp) 0 j a e
      (hr n d (Nat.le_refl _) (Nat.le_refl _))
    rw [show (mtEnv E np sched).floatOk = E.floatOk from rfl, hf] at this
    exact this

/-- C92 as the comment of `toHashMap` states it: the map has all structs and their values. -/
def C92_full : Prop := ∀ E a, ParsedAs E a false → ∃ m, toHashMap a = some m ∧
  ∀ p u w, At T_A2L a p u w → Basic u → ∃ x, find m (p.map Step.spot) = some x ∧ Same u w x

theorem toHashMap_some {a : Val} {m : Json} (h : toHashMap a = some m) : m = toJson T_A2L a := by
  unfold toHashMap at h
  split at h
  · cases h
  · injection h with h; exact h.symm

/-- C92 for the exported fields: every value on a path of exported fields is in the map, at the place with the same names and with the same value;
lists are as long, maps have the same keys. Missing: the other fields (`C92_only`, `C92_lost`), and the conversion may fail (`C92_error`). -/
theorem C92_partial {E : Env} {a : Val} {e : Bool} (h : ParsedAs E a e) {m : Json} (hm : toHashMap a = some m) {p : List Step} {u : GoType}
    {w : Val} (hp : At T_A2L a p u w) (hx : Shown p) :
    ∃ x, find m (p.map Step.spot) = some x ∧ (Basic u → Same u w x) ∧ (¬ Basic u → Looks u w x) := by
  rw [toHashMap_some hm]
  obtain ⟨h1, h2, h3⟩ := found hp good_A2L (C92_typed h) hx
  exact ⟨_, h1, same_of h2 h3, looks_of h2 h3⟩

/-- C92: there is nothing else in the map, in particular no field that is not exported. -/
theorem C92_only {E : Env} {a : Val} {e : Bool} (h : ParsedAs E a e) {m : Json} (hm : toHashMap a = some m) {q : List Spot} {x : Json}
    (hq : find m q = some x) : ∃ p u w, q = p.map Step.spot ∧ Shown p ∧ At T_A2L a p u w := by
  rw [toHashMap_some hm] at hq
  obtain ⟨p, u, w, h1, h2, h3, _⟩ := only good_A2L (C92_typed h) hq
  exact ⟨p, u, w, h1, h2, h3⟩

/-- C92: the conversion fails exactly if an exported field contains a number that is not finite. -/
theorem C92_error {E : Env} {a : Val} {e : Bool} (h : ParsedAs E a e) : toHashMap a = none ↔
    ∃ p t x, Shown p ∧ At T_A2L a p .float (.flt t) ∧ Calib.parseFloat t = .ok x ∧ Calib.Spec.number x = none := by
  have hU : toHashMap a = none ↔ Unsupported T_A2L a := by
    unfold toHashMap
    split <;> simp_all
  rw [hU]
  constructor
  · intro hu
    obtain ⟨p, w, h1, h2, h3⟩ := unsupported_at good_A2L hu
    obtain ⟨_, _, h4⟩ := found h2 good_A2L (C92_typed h) h1
    rcases h4 with rfl | ⟨t, rfl, ht⟩
    · exact absurd number64_zero (h3 _ _)
    · obtain ⟨x, hx, hn⟩ := HashMap.accepted ht
      rw [hn] at h3
      exact ⟨p, t, x, h1, h2, hx, number_none.2 h3⟩
  · rintro ⟨p, t, x, h1, h2, h3, h4⟩
    refine at_unsupported h2 rfl h1 ?_
    have : Link.number64 (.flt t) = x := by simp only [Link.number64, Link.float64Of, h3]
    rw [this]
    exact number_none.1 h4

theorem at_from {T : List Str} {I : Int → Prop} {t : GoType} {v : Val} {p : List Step} {u : GoType} {w : Val} (h : At t v p u w) :
    From T I v → From T I w := by
  induction h with
  | here => exact id
  | @field _ v f _ _ _ _ _ _ ih =>
    intro hv
    refine ih ?_
    cases hv with
    | obj h => exact h f
    | _ => exact .zero
  | elem hl _ ih =>
    intro hv
    cases hv with
    | list h => exact ih (h _ (List.mem_of_getElem? hl))
  | item hl _ ih =>
    intro hv
    cases hv with
    | list h => exact ih (h _ (List.mem_of_getElem? hl))
  | blank _ _ ih => exact ih
  | key hk _ ih =>
    intro hv
    cases hv with
    | map h => exact ih (h _ _ hk)

/-- C92: a file without a word that stands for an infinite number or for NaN is converted. -/
theorem C92_succeeds {E : Env} {a : Val} (h : ParsedAs E a false)
    (hn : ∀ t ∈ E.toks, ∀ x, Calib.parseFloat t = .ok x → ∃ r, Calib.Spec.number x = some r) : ∃ m, toHashMap a = some m := by
  cases hm : toHashMap a with
  | some m => exact ⟨m, rfl⟩
  | none =>
    obtain ⟨p, t, x, _, hp, hx, hno⟩ := (C92_error h).1 hm
    obtain ⟨hf, hs, hr⟩ := h
    have he : E.floatOk [] = false := by rw [hf]; decide +kernel
    have hfrom : From E.toks (Written E.toks) a := by
      rcases hr with ⟨j, hr⟩ | ⟨np, sched, j, hr⟩
      · exact C75_nothing_invented he hs (by decide) hr
      · exact C75_parallel he hs hr
    have := at_from hp hfrom
    cases this with
    | flt ht =>
      obtain ⟨r, hr⟩ := hn t ht x hx
      rw [hno] at hr
      cases hr

/-- Structs of which nothing is left. -/
def emptied : List GoType := [T_measurement, T_axisPts, T_function, T_group, T_asap2Version, T_Formula, T_refUnit]

theorem emptied_names : emptied.all (fun t => t.isStruct && t.names.all (fun f => !exported f)) = true := by decide +kernel

/-- C92: a measurement, an axis, a function, a group, a formula, a reference to a unit and the version of the file become empty maps, whatever they contain. -/
theorem C92_lost {E : Env} {a : Val} {e : Bool} (h : ParsedAs E a e) {m : Json} (hm : toHashMap a = some m) {p : List Step} {u : GoType}
    {w : Val} (hp : At T_A2L a p u w) (hx : Shown p) (hu : u ∈ emptied) : ∃ o, find m (p.map Step.spot) = some (.obj o) ∧ ∀ k, o k = none := by
  rw [toHashMap_some hm]
  obtain ⟨h1, h2, h3⟩ := found hp good_A2L (C92_typed h) hx
  have hn := List.all_eq_true.1 emptied_names u hu
  simp only [Bool.and_eq_true] at hn
  obtain ⟨o, h4, h5⟩ := struct_json (v := w) hn.1
  rw [h4] at h1
  refine ⟨o, h1, fun k => ?_⟩
  have := h5 (String.ofList k)
  rw [String.toList_ofList] at this
  rw [this]
  split
  · rename_i hk
    cases hf : u.fieldType (String.ofList k) with
    | none => rfl
    | some t =>
      have := List.all_eq_true.1 hn.2 _ (names_of_fieldType hf)
      rw [hk] at this
      cases this
  · rfl

/-! ### Witnesses -/

/-- A file with a conversion method whose second coefficient is `b`. -/
def coeffFile (b : Str) : Env := ⟨[(str! "ASAP2_VERSION"), (str! "1"), (str! "71"), (str! "/begin PROJECT"), (str! "P"), (str! "\"x\""), (str! "/begin MODULE"),
  (str! "M"), (str! "\"d\""), (str! "/begin COMPU_METHOD"), (str! "C"), (str! "\"\""), (str! "LINEAR"), (str! "\"%4.2\""), (str! "\"\""),
  (str! "COEFFS_LINEAR"), (str! "2"), b, (str! "/end COMPU_METHOD"), (str! "/end MODULE"), (str! "/end PROJECT"), []], Link.accepts, false, fun _ => .panic⟩

/-- The path to the coefficient. -/
def coeffPath : List Step := [.field "Project", .field "Modules", .elem 0, .field "CompuMethods", .key (str! "C"), .field "CoeffsLinear", .field "B"]

/-- The coefficient. -/
def coeffAt (a : Val) : Option Str :=
  match (a.fieldVal "Project").fieldVal "Modules" with
  | .list (v :: _) =>
    match v.fieldVal "CompuMethods" with
    | .map m =>
      match m (str! "C") with
      | some c =>
        match (c.fieldVal "CoeffsLinear").fieldVal "B" with
        | .flt t => some t
        | _ => none
      | none => none
    | _ => none
  | _ => none

theorem coeffAt_at {a : Val} {t : Str} (h : coeffAt a = some t) : At T_A2L a coeffPath .float (.flt t) := by
  unfold coeffAt at h
  split at h
  · rename_i v l hl
    split at h
    · rename_i m hm
      split at h
      · rename_i c hc
        split at h
        · rename_i t' ht
          injection h with h
          subst h
          refine .field (t := T_Project) (by decide +kernel) (.field (t := .slice T_Module) (by decide +kernel) ?_)
          rw [hl]
          refine .elem rfl (.field (t := .dict T_CompuMethod) (by decide +kernel) ?_)
          rw [hm]
          refine .key hc (.field (t := T_CoeffsLinear) (by decide +kernel) (.field (t := .float) (by decide +kernel) ?_))
          rw [ht]
          exact .here
        · cases h
      · cases h
    · cases h
  · cases h

theorem coeffPath_shown : Shown coeffPath := by
  intro f hf
  simp only [coeffPath, List.mem_cons, Step.field.injEq, reduceCtorEq, List.not_mem_nil, or_false, false_or] at hf
  rcases hf with rfl | rfl | rfl | rfl | rfl <;> exact (exported_iff _).1 (by decide +kernel)

theorem coeff_parsed (b : Str) (h : (match parse (coeffFile b) .parseA2l 0 with | .ok _ a false => decide (coeffAt a = some b) | _ => false) = true) :
    ∃ a, ParsedAs (coeffFile b) a false ∧ coeffAt a = some b := by
  split at h
  · rename_i j a hp
    exact ⟨a, ⟨rfl, rfl, Or.inl ⟨j, returns_of_run hp (by simp)⟩⟩, of_decide_eq_true h⟩
  · cases h

/-- Is the token no infinite number and not NaN? -/
def finiteTok (t : Str) : Bool :=
  match Calib.parseFloat t with
  | .ok (.fin _ _) => true
  | .ok _ => false
  | _ => true

theorem finite_of {E : Env} (h : E.toks.all finiteTok = true) :
    ∀ t ∈ E.toks, ∀ x, Calib.parseFloat t = .ok x → ∃ r, Calib.Spec.number x = some r := by
  intro t ht x hx
  have := List.all_eq_true.1 h t ht
  unfold finiteTok at this
  rw [hx] at this
  cases x with
  | fin s n => exact ⟨_, rfl⟩
  | _ => cases this

/-- The hypotheses can be met: the coefficient 0.5 is in the map. -/
example : ∃ a m x, ParsedAs (coeffFile (str! "0.5")) a false ∧ toHashMap a = some m ∧ find m (coeffPath.map Step.spot) = some (.num x) ∧
    Calib.parseFloat (str! "0.5") = .ok x := by
  obtain ⟨a, h1, h2⟩ := coeff_parsed (str! "0.5") (by decide +kernel)
  obtain ⟨m, hm⟩ := C92_succeeds h1 (finite_of (by decide +kernel))
  obtain ⟨y, hy, hs, _⟩ := C92_partial h1 hm (coeffAt_at h2) coeffPath_shown
  cases hs trivial with
  | float hx => exact ⟨a, m, _, h1, hm, hy, hx⟩

/-- The version of the file is lost. -/
example : ∃ a m o, ParsedAs (coeffFile (str! "0.5")) a false ∧ toHashMap a = some m ∧
    find m [.name (str! "Asap2Version")] = some (.obj o) ∧ ∀ k, o k = none := by
  obtain ⟨a, h1, _⟩ := coeff_parsed (str! "0.5") (by decide +kernel)
  obtain ⟨m, hm⟩ := C92_succeeds h1 (finite_of (by decide +kernel))
  obtain ⟨o, h3, h4⟩ := C92_lost h1 hm (p := [.field "Asap2Version"]) (.field (t := T_asap2Version) (by decide +kernel) .here)
    (fun f hf => by simp only [List.mem_singleton, Step.field.injEq] at hf; rw [hf]; exact (exported_iff _).1 (by decide +kernel)) (by simp [emptied])
  exact ⟨a, m, o, h1, hm, h3, h4⟩

/-- C92 is false: the number of the version is not in the map. -/
theorem C92_false : ¬ C92_full := by
  intro h
  obtain ⟨a, h1, _⟩ := coeff_parsed (str! "0.5") (by decide +kernel)
  obtain ⟨m, hm, hall⟩ := h _ a h1
  obtain ⟨x, hx, _⟩ := hall [.field "Asap2Version", .field "versionNo"] (.uint 16) _
    (.field (t := T_asap2Version) (by decide +kernel) (.field (by decide +kernel) .here)) trivial
  obtain ⟨o, h3, h4⟩ := C92_lost h1 hm (p := [.field "Asap2Version"]) (.field (t := T_asap2Version) (by decide +kernel) .here)
    (fun f hf => by simp only [List.mem_singleton, Step.field.injEq] at hf; rw [hf]; exact (exported_iff _).1 (by decide +kernel)) (by simp [emptied])
  cases m with
  | obj f =>
    simp only [List.map_cons, List.map_nil, Step.spot, find] at h3 hx
    cases hj : f "Asap2Version".toList with
    | none => rw [hj] at h3; cases h3
    | some j =>
      rw [hj, Option.bind_some] at h3
      injection h3 with h3
      rw [hj, h3, Option.bind_some, find, h4] at hx
      cases hx
  | _ => simp [find, Step.spot] at h3

/-- C92: a file that is read without error cannot always be converted. -/
theorem C92_nan_false : ∃ a, ParsedAs (coeffFile (str! "NaN")) a false ∧ toHashMap a = none := by
  obtain ⟨a, h1, h2⟩ := coeff_parsed (str! "NaN") (by decide +kernel)
  exact ⟨a, h1, (C92_error h1).2 ⟨coeffPath, _, .nan, coeffPath_shown, coeffAt_at h2, by decide +kernel, rfl⟩⟩

end Verif.A2l.Props
