import Verif.A2l.PrintText

/-!
C71: the order in which the parts of an object stand in the file does not matter, except among the parts that belong to
the same field; and a further part changes nothing but its own field, in a map nothing but the entry under its own name.
-/

namespace Verif.A2l.Write
open Verif.Go Verif.A2l Lang Decl Template

/-- The same parts in another order: under every name at most one, and those of the same field that are not kept by
name in the same order. -/
structure Reordered (subs : List (Str × Sub)) (parts parts' : List Node) : Prop where
  perm : parts.Perm parts'
  names : ∀ s ∈ subs, ∀ key, modeOf s.2 = .byName key →
    ((belonging subs (values parts) (target s.2)).map (·.strField key)).Nodup
  order : ∀ s ∈ subs, (∀ key, modeOf s.2 ≠ .byName key) →
    belonging subs (values parts) (target s.2) = belonging subs (values parts') (target s.2)

end Verif.A2l.Write

namespace Verif.A2l.Props
open Verif.Go Lang Analysis Decl Template Write File FileSpec Shared Verif.Conc ModSpec

theorem values_map : ∀ ns : List Node, values ns = ns.map fun n => (n.key, n.value)
  | [] => rfl
  | n :: ns => by rw [values, values_map ns]; rfl

theorem belonging_perm {subs : List (Str × Sub)} {ns ns' : List Node} (h : ns.Perm ns') (g : String) :
    (belonging subs (values ns) g).Perm (belonging subs (values ns') g) := by
  unfold belonging
  rw [values_map, values_map]
  exact ((h.map _).filter _).map _

theorem filter_name {l : List Val} {key : String} (h : (l.map (·.strField key)).Nodup) (name : Str) :
    (l.filter (·.strField key = name)).length ≤ 1 := by
  induction l with
  | nil => simp
  | cons x l ih =>
    simp only [List.map_cons, List.nodup_cons] at h
    by_cases hx : x.strField key = name
    · rw [List.filter_cons_of_pos (by simpa using hx)]
      have : l.filter (·.strField key = name) = [] := by
        rw [List.filter_eq_nil_iff]
        intro y hy hh
        exact h.1 (List.mem_map.2 ⟨y, hy, by rw [hx]; simpa using hh⟩)
      rw [this]; simp
    · rw [List.filter_cons_of_neg (by simpa using hx)]
      exact ih h.2

theorem combine_perm {key : String} {l l' : List Val} (hp : l.Perm l') (h : (l.map (·.strField key)).Nodup) :
    combine (.byName key) l = combine (.byName key) l' := by
  have hgoal : ∀ name, (l.filter (·.strField key = name)).getLast? = (l'.filter (·.strField key = name)).getLast? := ?_
  · show Val.map _ = Val.map _
    congr 1
    funext name
    exact hgoal name
  intro name
  have h1 := filter_name h name
  have h2 := hp.filter (·.strField key = name)
  generalize l.filter (·.strField key = name) = a at h1 h2
  match a, h1, h2 with
  | [], _, h2 => rw [List.nil_perm.1 h2]
  | [x], _, h2 => rw [List.singleton_perm.1 h2]
  | x :: y :: a, h1, _ => simp at h1

theorem struct_reordered {sh : Shape} {ws ms : List Str} {parts parts' : List Node}
    (h : Reordered (Shape.subs sh) parts parts') : struct sh ws ms (values parts) = struct sh ws ms (values parts') := by
  cases sh with
  | keyword f fl => rfl
  | one q => rfl
  | seq ps => rfl
  | other => rfl
  | block raw ps rest subs maps =>
    have h : Reordered subs parts parts' := h
    funext g
    simp only [struct]
    split
    · rfl
    · split
      · rfl
      · split
        · rfl
        · cases hf : subs.find? (target ·.2 = g) with
          | none => rfl
          | some s =>
            have hs := List.mem_of_find?_eq_some hf
            have hg := List.find?_some hf
            simp only [decide_eq_true_eq] at hg
            subst hg
            simp only
            cases hm : modeOf s.2 with
            | byName key => exact combine_perm (belonging_perm h.perm _) (h.names s hs key hm)
            | field => rw [h.order s hs (by rw [hm]; simp)]
            | append => rw [h.order s hs (by rw [hm]; simp)]

/-- C71: if the parts of an object stand in another order in the file, and there is at most one part under each name and those
of the same field that are not kept by name stand in the same order, the same struct is read. Missing: the functions in
`irregular`. -/
theorem C71_order_partial {E E' : Env} (hw : Wf E) (hw' : Wf E') {key : Str} {fn : PName} {ws ms : List Str} {parts parts' : List Node}
    (h : Write.Legal E (.obj key fn ws ms parts)) (h' : Write.Legal E' (.obj key fn ws ms parts'))
    (hr : Reordered (Shape.subs (shape fn)) parts parts') {i i' : Nat}
    (hk : E.toks[i]? = some key) (hk' : E'.toks[i']? = some key)
    (ht : Words E i (Node.tail (.obj key fn ws ms parts))) (ht' : Words E' i' (Node.tail (.obj key fn ws ms parts'))) :
    ∃ r j j', Returns E fn i (.ok j (.obj r) false) ∧ Returns E' fn i' (.ok j' (.obj r) false) := by
  have h1 := C70_object_partial hw h rfl hk ht (fun _ h => by cases h)
  have h2 := C70_object_partial hw' h' rfl hk' ht' (fun _ h => by cases h)
  rw [Node.value] at h1 h2
  rw [← struct_reordered hr] at h2
  exact ⟨_, _, _, h1, h2⟩

theorem legal_regular {E : Env} {key : Str} {fn : PName} {ws ms : List Str} {x : Node} {a b : List Node}
    (h : Write.Legal E (.obj key fn ws ms (a ++ x :: b))) : fn ∉ irregular := by
  generalize hp : a ++ x :: b = parts at h
  cases h <;> first | assumption | simp at hp

theorem belonging_append (subs : List (Str × Sub)) (a b : List Node) (g : String) :
    belonging subs (values (a ++ b)) g = belonging subs (values a) g ++ belonging subs (values b) g := by
  simp [belonging, values_map]

theorem last_skip {l r : List Val} {x : Val} {key : String} {name : Str} (h : x.strField key ≠ name) :
    (l ++ x :: r).filter (·.strField key = name) = (l ++ r).filter (·.strField key = name) := by
  rw [List.filter_append, List.filter_append, List.filter_cons_of_neg (by simpa using h)]

/-- C71: a further part `x` changes no field but its own, and in a map no entry but the one under its own name. -/
theorem C71_added_partial {E E' : Env} (hw : Wf E) (hw' : Wf E') {key : Str} {fn : PName} {ws ms : List Str} {a b : List Node} {x : Node}
    (h : Write.Legal E (.obj key fn ws ms (a ++ b))) (h' : Write.Legal E' (.obj key fn ws ms (a ++ x :: b)))
    {s : Sub} (hs : (x.key, s) ∈ Shape.subs (shape fn)) {i i' : Nat}
    (hk : E.toks[i]? = some key) (hk' : E'.toks[i']? = some key)
    (ht : Words E i (Node.tail (.obj key fn ws ms (a ++ b)))) (ht' : Words E' i' (Node.tail (.obj key fn ws ms (a ++ x :: b)))) :
    ∃ (r r' : Obj) (j j' : Nat), Returns E fn i (.ok j (.obj r) false) ∧ Returns E' fn i' (.ok j' (.obj r') false) ∧
      (∀ g, g ≠ target s → r' g = r g) ∧
      (∀ k, modeOf s = .byName k → ∀ name, name ≠ x.value.strField k → r'.map (target s) name = r.map (target s) name) := by
  have h1 := C70_object_partial hw h rfl hk ht (fun _ h => by cases h)
  have h2 := C70_object_partial hw' h' rfl hk' ht' (fun _ h => by cases h)
  rw [Node.value] at h1 h2
  refine ⟨_, _, _, _, h1, h2, ?_⟩
  have hir : fn ∉ irregular := legal_regular h'
  have hok := shapeOk_all fn hir
  have hpo := printOk_all fn hir
  revert hs hok hpo
  cases hsh : shape fn with
  | keyword f fl => intro hs; cases hs
  | one q => intro hs; cases hs
  | seq ps => intro hs; cases hs
  | other => intro hs; cases hs
  | block raw ps rest subs maps =>
    intro hs hok hpo
    have hs : (x.key, s) ∈ subs := hs
    have hb : ∀ g, belonging subs (values (a ++ x :: b)) g = belonging subs (values a) g ++
        (if target s = g then x.value :: belonging subs (values b) g else belonging subs (values b) g) := by
      intro g
      rw [belonging_append]
      congr 1
      rw [values]
      exact belonging_cons subs hok.keys hs x.value (values b) g
    constructor
    · intro g hg
      simp only [struct]
      rw [hb g, if_neg (Ne.symm hg), ← belonging_append]
    · intro k hmk name hname
      simp only [printOk, Bool.and_eq_true, List.all_eq_true, Bool.not_eq_true', List.contains_eq_mem, decide_eq_false_iff_not,
        decide_eq_true_eq, List.any_eq_true, beq_iff_eq] at hpo
      obtain ⟨⟨⟨a1, a2⟩, a3⟩, a4⟩ := hpo.1.1 _ hs
      have hfl : target s ∉ Shape.flags (.block raw ps rest subs maps) := by
        refine hok.fields _ (List.mem_append_left _ (List.mem_append_right _ (List.mem_map.2 ⟨_, hs, ?_⟩)))
        cases s <;> rfl
      have hno : ((Shape.block raw ps rest subs maps).params.zip ws).find? (·.1.field = target s) = none := by
        refine List.find?_eq_none.2 (fun y hy => ?_)
        simp only [decide_eq_true_eq]
        intro hh
        exact a2 (hh ▸ List.mem_map.2 ⟨y.1, (List.of_mem_zip (a := y.1) (b := y.2) hy).1, rfl⟩)
      have hval : ∀ vs, struct (.block raw ps rest subs maps) ws ms vs (target s) =
          combine (.byName k) (belonging subs vs (target s)) := by
        intro vs
        simp only [struct]
        rw [if_neg hfl, hno]
        simp only [if_neg a3]
        cases hfd : subs.find? (target ·.2 = target s) with
        | none =>
          have := List.find?_eq_none.1 hfd _ hs
          simp at this
        | some s' =>
          have : modeOf s'.2 = .byName k := by
            rw [← hmk]
            simp only at a1
            rw [a1]
            simp only [modeAt, hfd]
            rfl
          simp only [this]
      unfold Obj.map
      rw [hval, hval, hb, if_pos rfl, belonging_append]
      simp only [combine]
      rw [last_skip (Ne.symm hname)]

/-- A checker: under every name one part, and of every other field at most one. -/
def uniqueB (subs : List (Str × Sub)) (parts : List Node) : Bool := subs.all fun s => match modeOf s.2 with
  | .byName key => decide ((belonging subs (values parts) (target s.2)).map (·.strField key)).Nodup
  | _ => (belonging subs (values parts) (target s.2)).length ≤ 1

theorem perm_short {l l' : List Val} (h : l.Perm l') (hl : l.length ≤ 1) : l = l' := by
  match l, hl, h with
  | [], _, h => exact (List.nil_perm.1 h).symm
  | [x], _, h => exact List.singleton_perm.1 h
  | x :: y :: a, hl, _ => simp at hl

theorem reordered_of {subs : List (Str × Sub)} {parts parts' : List Node} (hp : parts.Perm parts') (h : uniqueB subs parts = true) :
    Reordered subs parts parts' := by
  have h := List.all_eq_true.1 h
  constructor
  · exact hp
  · intro s hs key hm
    have := h s hs
    rw [hm] at this
    simpa using this
  · intro s hs hm
    have := h s hs
    refine perm_short (belonging_perm hp _) ?_
    cases hms : modeOf s.2 with
    | byName key => exact absurd hms (hm key)
    | field => rw [hms] at this; simpa using this
    | append => rw [hms] at this; simpa using this

def orderG : Node := .obj (str! "/begin GROUP") .parseGroup [(str! "G"), (str! "\"a\"")] [] []
def orderH : Node := .obj (str! "/begin GROUP") .parseGroup [(str! "H"), (str! "\"b\"")] [] [.obj (str! "ROOT") .parseRoot [] [] []]
def orderC : Node := .obj (str! "/begin MOD_COMMON") .parseModCommon [(str! "\"\"")] [] [.obj (str! "DEPOSIT") .parseDeposit [(str! "ABSOLUTE")] [] []]

/-- A module with the given parts. -/
def orderM (parts : List Node) : Node := .obj (str! "/begin MODULE") .parseModule [(str! "M"), (str! "\"\"")] [] parts

/-- The file that only has this module. -/
def orderEnv (parts : List Node) : Env := mkEnv ((orderM parts).key :: (orderM parts).tail)

theorem order_words (parts : List Node) : Words (orderEnv parts) 0 (orderM parts).tail := by
  intro j w hj
  show ((_ :: (orderM parts).tail) ++ [[]])[_]? = _
  rw [Nat.zero_add, List.cons_append, List.getElem?_cons_succ, List.getElem?_append_left (List.getElem?_eq_some_iff.1 hj).1]
  exact hj

/-- The hypotheses of `C71_order_partial` are met by a module with two groups and a MOD_COMMON. -/
example : ∃ r j j', Returns (orderEnv [orderG, orderH, orderC]) .parseModule 0 (.ok j (.obj r) false) ∧
    Returns (orderEnv [orderC, orderH, orderG]) .parseModule 0 (.ok j' (.obj r) false) :=
  C71_order_partial (mkEnv_wf (by decide +kernel)) (mkEnv_wf (by decide +kernel)) (legalB_spec (orderM _) (by decide +kernel))
    (legalB_spec (orderM _) (by decide +kernel))
    (reordered_of (List.reverse_perm [orderG, orderH, orderC]).symm (by decide +kernel)) rfl rfl (order_words _) (order_words _)

/-- The hypotheses of `C71_added_partial` are met by a further group. -/
example : ∃ (r r' : Obj) (j j' : Nat), Returns (orderEnv ([orderG] ++ [orderC])) .parseModule 0 (.ok j (.obj r) false) ∧
    Returns (orderEnv ([orderG] ++ orderH :: [orderC])) .parseModule 0 (.ok j' (.obj r') false) ∧
      (∀ g, g ≠ "Groups" → r' g = r g) ∧
      (∀ k, Decl.Mode.byName "groupName" = .byName k → ∀ name, name ≠ orderH.value.strField k → r'.map "Groups" name = r.map "Groups" name) :=
  C71_added_partial (s := .obj .parseGroup "Groups" (.byName "groupName")) (mkEnv_wf (by decide +kernel)) (mkEnv_wf (by decide +kernel)) (legalB_spec (orderM _) (by decide +kernel))
    (legalB_spec (orderM _) (by decide +kernel)) (by decide +kernel) rfl rfl (order_words _) (order_words _)

/-- The claim without the condition on names. -/
def C71_full : Prop := ∀ (E E' : Env), Wf E → Wf E' → ∀ key fn ws ms parts parts',
  Write.Legal E (.obj key fn ws ms parts) → Write.Legal E' (.obj key fn ws ms parts') → parts.Perm parts' → ∀ i i',
  E.toks[i]? = some key → E'.toks[i']? = some key →
  Words E i (Node.tail (.obj key fn ws ms parts)) → Words E' i' (Node.tail (.obj key fn ws ms parts')) →
  ∃ r j j', Returns E fn i (.ok j (.obj r) false) ∧ Returns E' fn i' (.ok j' (.obj r) false)

def orderG' : Node := .obj (str! "/begin GROUP") .parseGroup [(str! "G"), (str! "\"b\"")] [] []

/-- Of two groups with the same name the later one is kept. -/
theorem C71_false : ¬ C71_full := by
  intro h
  obtain ⟨r, j, j', h1, h2⟩ := h (orderEnv [orderG, orderG']) (orderEnv [orderG', orderG]) (mkEnv_wf (by decide +kernel)) (mkEnv_wf (by decide +kernel))
    _ _ _ _ [orderG, orderG'] [orderG', orderG] (legalB_spec (orderM _) (by decide +kernel)) (legalB_spec (orderM _) (by decide +kernel))
    (List.Perm.swap _ _ _) 0 0 rfl rfl (order_words _) (order_words _)
  have g1 := C70_object_partial (mkEnv_wf (by decide +kernel)) (legalB_spec (E := orderEnv [orderG, orderG']) (orderM [orderG, orderG']) (by decide +kernel)) rfl
    (i := 0) rfl (order_words _) (fun _ h => by cases h)
  have g2 := C70_object_partial (mkEnv_wf (by decide +kernel)) (legalB_spec (E := orderEnv [orderG', orderG]) (orderM [orderG', orderG]) (by decide +kernel)) rfl
    (i := 0) rfl (order_words _) (fun _ h => by cases h)
  have e1 := Returns.unique h1 g1
  have e2 := Returns.unique h2 g2
  injection e1 with _ e1 _
  injection e2 with _ e2 _
  have e := e1.symm.trans e2
  have : strOf (sub (at' (sub (orderM [orderG, orderG']).value "Groups") (str! "G")) "groupLongIdentifier") =
      strOf (sub (at' (sub (orderM [orderG', orderG]).value "Groups") (str! "G")) "groupLongIdentifier") := by rw [e]
  revert this
  decide +kernel

end Verif.A2l.Props
