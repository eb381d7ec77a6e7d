import Verif.A2l.Lang

/-!
The Go types of the structs of package a2l, and which values a variable of a type can have. `GoTypes.lean` lists the types.
-/

namespace Verif.A2l
open Verif.Go Lang

/-- A Go type. A struct type is the list of its fields, `nil` or `field`, with all names, exported or not.
`other`: types whose variables are never set by the parser except to `nil` (`interface{}`, `map[uint16]string`), and `error`, whose values
are not distinguished. -/
inductive GoType where
  | str
  | bool
  | uint (bits : Nat)
  | int (bits : Nat)
  | float
  | other
  | slice (t : GoType)
  | array (n : Nat) (t : GoType)
  | dict (t : GoType)
  | nil
  | field (f : String) (t : GoType) (rest : GoType)
deriving DecidableEq

namespace GoType

/-- `struct { … }` -/
def struct : List (String × GoType) → GoType
  | [] => .nil
  | (f, t) :: r => .field f t (struct r)

/-- The type of field `g`. -/
def fieldType : GoType → String → Option GoType
  | .field f t r, g => if g = f then some t else r.fieldType g
  | _, _ => none

/-- The names of the fields. -/
def names : GoType → List String
  | .field f _ r => f :: r.names
  | _ => []

/-- Is it a struct type? -/
def isStruct : GoType → Bool
  | .nil => true
  | .field _ _ r => r.isStruct
  | _ => false

end GoType

/-- The field `f` of a struct; `zero` stands for the zero value of every type. -/
def Lang.Val.fieldVal (v : Val) (f : String) : Val :=
  match v with
  | .obj o => o f
  | _ => .zero

/-- `v` is a value of type `t`; `F` are the texts a `float64` may come from, `ns` the fields of
the struct that have been dealt with. There is nothing in fields that are not declared. -/
def HasAux (F : Str → Bool) : GoType → List String → Val → Prop
  | .str, _, v => v = .zero ∨ ∃ s, v = .str s
  | .bool, _, v => v = .zero ∨ ∃ b, v = .bool b
  | .uint n, _, v => v = .zero ∨ ∃ z : Int, v = .int z ∧ 0 ≤ z ∧ z < (2 ^ n : Nat)
  | .int n, _, v => v = .zero ∨ ∃ z : Int, v = .int z ∧ -(2 ^ (n - 1) : Nat) ≤ z ∧ z < (2 ^ (n - 1) : Nat)
  | .float, _, v => v = .zero ∨ ∃ t, v = .flt t ∧ F t = true
  | .other, _, v => v = .zero
  | .slice t, _, v => v = .zero ∨ ∃ l, v = .list l ∧ ∀ w ∈ l, HasAux F t [] w
  | .array n t, _, v => v = .zero ∨ ∃ l, v = .list l ∧ l.length = n ∧ ∀ w ∈ l, HasAux F t [] w
  | .dict t, _, v => v = .zero ∨ ∃ m, v = .map m ∧ ∀ k w, m k = some w → HasAux F t [] w
  | .nil, ns, v => v = .zero ∨ ∃ o, v = .obj o ∧ ∀ f, f ∉ ns → o f = .zero
  | .field f t r, ns, v => HasAux F t [] (v.fieldVal f) ∧ HasAux F r (f :: ns) v

/-- `v` is a value of the Go type `t`. -/
def HasType (F : Str → Bool) (t : GoType) (v : Val) : Prop := HasAux F t [] v

theorem HasAux.zero {F} (t : GoType) : ∀ ns, HasAux F t ns .zero := by
  induction t with
  | field f t r iht ihr => intro ns; exact ⟨iht [], ihr _⟩
  | other => intro ns; rfl
  | _ => intro ns; exact Or.inl rfl

theorem HasType.zero {F} (t : GoType) : HasType F t .zero := HasAux.zero t []

/-- The fields of a struct have their types. -/
theorem HasAux.get {F : Str → Bool} {t : GoType} {v : Val} {f : String} : ∀ {T ns}, HasAux F T ns v → T.fieldType f = some t → HasType F t (v.fieldVal f) := by
  intro T
  induction T with
  | field g u r _ ihr =>
    intro ns h hf
    simp only [GoType.fieldType] at hf
    split at hf
    · rename_i hg; injection hf with hf; subst hf; subst hg; exact h.1
    · exact ihr h.2 hf
  | _ => intro ns h hf; simp [GoType.fieldType] at hf

/-- The struct with zero values. -/
theorem HasAux.empty {F : Str → Bool} : ∀ {T : GoType} {ns}, T.isStruct = true → HasAux F T ns (.obj Obj.empty) := by
  intro T
  induction T with
  | field g u r _ ihr => intro ns h; exact ⟨HasAux.zero u [], ihr (by simpa [GoType.isStruct] using h)⟩
  | nil => intro ns _; exact Or.inr ⟨_, rfl, fun _ _ => rfl⟩
  | _ => intro ns h; simp [GoType.isStruct] at h

theorem HasAux.keep {F : Str → Bool} {f : String} {w : Val} {o : Obj} : ∀ {T : GoType} {ns}, f ∉ T.names → f ∈ ns → HasAux F T ns (.obj o) →
    (T.names ≠ [] ∨ T = .nil) → HasAux F T ns (.obj (o.set f w)) := by
  intro T
  induction T with
  | field g u r _ ihr =>
    intro ns hn hm h _
    simp only [GoType.names, List.mem_cons, not_or] at hn
    refine ⟨?_, ?_⟩
    · have : Val.fieldVal (.obj (o.set f w)) g = o g := by
        have : g ≠ f := fun h => hn.1 h.symm
        simp [Val.fieldVal, Obj.set, this]
      rw [this]; exact h.1
    · have h2 := h.2
      cases hr : r with
      | field => rw [hr] at ihr hn h2; exact ihr hn.2 (List.mem_cons_of_mem _ hm) h2 (Or.inl (by simp [GoType.names]))
      | nil => rw [hr] at ihr hn h2; exact ihr hn.2 (List.mem_cons_of_mem _ hm) h2 (Or.inr rfl)
      | _ => rw [hr] at h2; simp [HasAux] at h2
  | nil =>
    intro ns _ hm h _
    rcases h with h | ⟨o', h, hz⟩
    · cases h
    · injection h with h
      subst h
      refine Or.inr ⟨_, rfl, fun g hg => ?_⟩
      have : g ≠ f := fun h => hg (h ▸ hm)
      simp only [Obj.set, this, if_false]
      exact hz g hg
  | _ => intro ns _ _ _ h; simp [GoType.names] at h

theorem HasAux.set {F : Str → Bool} {f : String} {w : Val} {o : Obj} {t : GoType} : ∀ {T : GoType} {ns}, T.names.Nodup → HasAux F T ns (.obj o) →
    T.fieldType f = some t → HasType F t w → HasAux F T ns (.obj (o.set f w)) := by
  intro T
  induction T with
  | field g u r _ ihr =>
    intro ns hn h hf hw
    simp only [GoType.names, List.nodup_cons] at hn
    simp only [GoType.fieldType] at hf
    split at hf
    · rename_i hg
      injection hf with hf; subst hf; subst hg
      refine ⟨?_, ?_⟩
      · simpa [Val.fieldVal, Obj.set, HasType] using hw
      · have h2 := h.2
        cases hr : r with
        | field => rw [hr] at h2 hn; exact HasAux.keep hn.1 List.mem_cons_self h2 (Or.inl (by simp [GoType.names]))
        | nil => rw [hr] at h2 hn; exact HasAux.keep hn.1 List.mem_cons_self h2 (Or.inr rfl)
        | _ => rw [hr] at h2; simp [HasAux] at h2
    · rename_i hg
      refine ⟨?_, ihr hn.2 h.2 hf hw⟩
      have : Val.fieldVal (.obj (o.set f w)) g = o g := by
        have : g ≠ f := fun h => hg h.symm
        simp [Val.fieldVal, Obj.set, this]
      rw [this]; exact h.1
  | _ => intro ns _ _ hf; simp [GoType.fieldType] at hf

end Verif.A2l
