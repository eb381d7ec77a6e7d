import Verif.A2l.Parts

/-!
The values of parameters by their position in the text: all parameters of an object without
blocks, and the parameters at the beginning of a block.
-/

namespace Verif.A2l.Props
open Verif.Go Verif.A2l Lang Decl Analysis Template

/-- `r` has the value of the token `t` in the field of the parameter, and the marker is set. -/
structure HasParam (E : Env) (q : Param) (t : Str) (r : Obj) : Prop where
  val : Denotes E q.kind t (r q.field)
  mark : r.flag q.flag = true

theorem params_get {E : Env} {i : Nat} {ps : List Param} {o o' : Obj} (h : Params E i ps o o') (hn : (ps.map (·.field)).Nodup) :
    ∀ (k : Nat) (q : Param), ps[k]? = some q → ∃ t, TokAfter E (i + k) t ∧ t ∉ keywords ∧ Denotes E q.kind t (o' q.field) := by
  induction h with
  | nil => intro k q hq; simp at hq
  | @cons i o o' t v p ps ht hne hkw hv h ih =>
    rw [List.map_cons, List.nodup_cons] at hn
    intro k q hq
    cases k with
    | zero =>
      simp only [List.getElem?_cons_zero, Option.some.injEq] at hq
      subst hq
      refine ⟨t, ht, hkw, ?_⟩
      rw [Params.untouched h hn.1, set_same]
      exact hv
    | succ k =>
      obtain ⟨t', h1, h2⟩ := ih hn.2 k q (by simpa using hq)
      refine ⟨t', ?_, h2⟩
      rw [show i + (k + 1) = i + 1 + k by omega]
      exact h1

theorem items_mono {E : Env} {R : PName → Nat → Nat → Val → Prop} {raw : Bool} {fin : Str} {ps : List Param}
    {rest : Rest} {subs : List (Str × Sub)} {n : Nat} {x z : Decl.Pos} (hi : Items E R raw fin ps rest subs n x z) : x.m ≤ z.m := by
  induction hi with
  | nil => exact Nat.le_refl _
  | @cons n x y z hit hs ih =>
    have : x.m ≤ y.m := by cases hit <;> simp
    omega

theorem items_head {E : Env} {R : PName → Nat → Nat → Val → Prop} {raw : Bool} {fin : Str} {ps : List Param}
    {rest : Rest} {subs : List (Str × Sub)} {n : Nat} {x z : Decl.Pos} (hi : Items E R raw fin ps rest subs n x z)
    (hf : TokAfter E z.i fin) (hn : (ps.map (·.field)).Nodup)
    (hd : ∀ q ∈ ps, q.field ∉ restFields rest ∧ q.field ∉ subs.map (fun y => subField y.2)) :
    ∀ ws : List Str, Words E x.i ws → (∀ w ∈ ws, w ∉ subs.map (·.1) ∧ w ≠ fin) → x.m + ws.length ≤ ps.length →
      x.m + ws.length ≤ z.m ∧ ∀ (k : Nat) (q : Param) (w : Str), ps[x.m + k]? = some q → ws[k]? = some w →
        Denotes E q.kind w (z.o q.field) := by
  induction hi with
  | @nil x =>
    intro ws hws hne hl
    cases ws with
    | nil => exact ⟨by simp, by simp⟩
    | cons w ws =>
      have h0 : TokAfter E x.i w := hws 0 w rfl
      have : some w = some fin := h0.symm.trans hf
      exact absurd (Option.some.inj this) (hne w (by simp)).2
  | @cons n x y z hit hs ih =>
    intro ws hws hne hl
    cases ws with
    | nil =>
      exact ⟨by simpa using items_mono (.cons hit hs), by simp⟩
    | cons w ws =>
      have h0 : TokAfter E x.i w := hws 0 w rfl
      simp only [List.length_cons] at hl
      cases hit with
      | @param m o i t v p hp ht hpl hv =>
        simp only at hl
        obtain rfl : w = t := Option.some.inj (h0.symm.trans ht)
        obtain ⟨g1, g2⟩ := ih hf ws hws.tail (fun w hw => hne w (by simp [hw])) (by simp only; omega)
        simp only at g1 g2
        refine ⟨by simp only [List.length_cons]; omega, fun k q u hq hu => ?_⟩
        cases k with
        | zero =>
          simp only [Nat.add_zero, List.getElem?_cons_zero, Option.some.injEq] at hq hu
          subst hu
          rw [hp] at hq
          cases hq
          have hm := List.mem_of_getElem? hp
          rw [(Items.untouched hs (f := p.field) (by
            intro k q hk _ hq he
            simp only at hk
            have h1 : (ps.map (·.field))[k]? = some p.field := by rw [List.getElem?_map, hq]; simp [he]
            have h2 : (ps.map (·.field))[m]? = some p.field := by rw [List.getElem?_map, hp]; rfl
            have := (List.getElem?_inj (List.getElem?_eq_some_iff.1 h2).1 hn).1 (h2.trans h1.symm)
            omega) (hd p hm).1 (hd p hm).2).2]
          simp only
          rw [set_same]
          exact hv
        | succ k =>
          exact g2 k q u (by rw [← hq]; simp only; congr 1; omega) (by simpa using hu)
      | member hm => simp only at hl; omega
      | word hm => simp only at hl; omega
      | surplus hm => simp only at hl; omega
      | sub hsub ht => obtain rfl := Option.some.inj (h0.symm.trans ht); exact absurd (List.mem_map.2 ⟨_, hsub, rfl⟩) (hne w (by simp)).1
      | enum hsub ht => obtain rfl := Option.some.inj (h0.symm.trans ht); exact absurd (List.mem_map.2 ⟨_, hsub, rfl⟩) (hne w (by simp)).1

/-- An object without blocks has the values of the tokens that follow its keyword, one for each parameter, in the
order of the declaration. -/
theorem flat_values {E : Env} (hw : Wf E) {p : PName} (hp : p ∉ irregular) {ps : List Param}
    (hsh : shape p = .seq ps ∨ ∃ q, shape p = .one q ∧ ps = [q]) {i j : Nat} {v : Val} (h : Returns E p i (.ok j v false)) :
    ∃ r, v = .obj r ∧ j = i + ps.length ∧ ∀ (k : Nat) (q : Param), ps[k]? = some q →
      ∃ t, TokAfter E (i + k) t ∧ t ∉ keywords ∧ HasParam E q t r := by
  obtain ⟨r, o, m, rfl, h1, h2, _, h4, _⟩ := C64_marks_partial hw hp h
  obtain ⟨n1, n2⟩ := fields_nodup p hp
  have hps : (shape p).params = ps := by rcases hsh with h | ⟨q, h, rfl⟩ <;> rw [h] <;> rfl
  have h5 : m = ps.length ∧ Params E i ps Obj.empty o ∧ j = i + ps.length := by
    rcases hsh with h | ⟨q, h, rfl⟩
    · rw [h] at h1; exact h1
    · rw [h] at h1; exact h1
  rw [hps] at n1 n2 h4
  refine ⟨r, rfl, h5.2.2, fun k q hq => ?_⟩
  obtain ⟨t, g1, g2, g3⟩ := params_get h5.2.1 n1 k q hq
  refine ⟨t, g1, g2, ?_, ?_⟩
  · rw [h2 _ (n2 q (List.mem_of_getElem? hq))]
    exact g3
  · rw [h4 k q hq, h5.1]
    exact (List.getElem?_eq_some_iff.1 hq).1

/-- If the tokens at the beginning of a block are no keywords of optional parts, they are the values of the first
parameters. -/
theorem head_values {E : Env} (hw : Wf E) {p : PName} (hp : p ∉ irregular) {raw : Bool} {ps : List Param} {rest : Rest}
    {subs : List (Str × Sub)} {maps : List String} (hsh : shape p = .block raw ps rest subs maps) {i j : Nat} {v : Val}
    (h : Returns E p i (.ok j v false)) {ws : List Str} (hws : Words E i ws) (hne : ∀ w ∈ ws, w ∉ subs.map (·.1) ∧ w ≠ fin p)
    (hl : ws.length ≤ ps.length) :
    ∃ r, v = .obj r ∧ ∀ (k : Nat) (q : Param) (w : Str), ps[k]? = some q → ws[k]? = some w → HasParam E q w r := by
  obtain ⟨r, o, m, rfl, h1, h2, _, h4, _⟩ := C64_marks_partial hw hp h
  obtain ⟨n1, n2⟩ := fields_nodup p hp
  have how := ownFields_all p hp
  rw [hsh] at h1 h2 h4 n1 n2 how
  simp only [ownFields, Bool.and_eq_true, List.all_eq_true, Bool.not_eq_true', List.contains_eq_mem, decide_eq_false_iff_not] at how
  obtain ⟨n, e, hi, hf, _⟩ := h1
  obtain ⟨g1, g2⟩ := items_head hi hf n1 (fun q hq => ⟨(how.2 q hq).1.1, (how.2 q hq).1.2⟩) ws hws hne (by simpa using hl)
  simp only [Nat.zero_add] at g1 g2
  refine ⟨r, rfl, fun k q w hq hu => ⟨?_, ?_⟩⟩
  · rw [h2 _ (n2 q (List.mem_of_getElem? hq))]
    exact g2 k q w hq hu
  · rw [h4 k q hq]
    have := (List.getElem?_eq_some_iff.1 hu).1
    omega

end Verif.A2l.Props
