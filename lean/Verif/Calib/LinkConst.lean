import Verif.Calib.LinkConv

/-!
C49: system constants, from the text of the file to the answer.
-/

namespace Verif.Link
open Verif.Go Verif.A2l Lang ModSpec FileSpec Analysis Decl Template

/-- The constants that the parts of a MOD_PAR define: the two tokens after each SYSTEM_CONSTANT, in the order of the text. -/
def constants (E : Env) (fs : List Part) : List (Str × Str) :=
  (fs.filter fun f => f.key = (str! "SYSTEM_CONSTANT")).map fun f => ((E.toks[f.pos + 1]?).getD [], (E.toks[f.pos + 2]?).getD [])

/-- The last entry for a name. -/
def lastEntry (cs : List (Str × Str)) (name : Str) : Option Str := ((cs.filter fun c => c.1 = name).getLast?).map (·.2)

theorem last_mapped {α β : Type} {l : List α} {g : α → β} {p : α → Bool} {q : β → Bool} (h : ∀ x ∈ l, p x = q (g x)) :
    ((l.map g).filter q).getLast? = ((l.filter p).getLast?).map g := by
  rw [List.filter_map, List.getLast?_map]
  congr 2
  exact List.filter_congr fun x hx => (h x hx).symm

/-- C49 from the text: `fs` are the parts of the last MOD_PAR of the module. A constant is found under the name that stands in the text, it has
the value of its last definition, and the value that is returned for it is the empty string; other names are errors. -/
theorem C49_text {E : Env} (hw : Wf E) (hs : E.multi = false) {s j : Nat} {os : List ModSpec.Found} (hsc : Scan E s os j)
    {fv : Str → Rat} {cd : Calib.CalData Val} (hu : Uses fv cd os) {f : ModSpec.Found} (hf : f ∈ os) (hkind : f.kind = 15)
    (hlast : lastOf os 15 = some f.val) :
    ∃ fs, PartsOf E (Succeeds E) (Props.Shape.subs (shape .parseModPar)) f.pos (f.stop - 1) fs ∧ ∀ name,
      match lastEntry (constants E fs) name with
      | some v => Calib.getSystemConstant cd name = .ok ⟨name, some v⟩ ∧ Calib.getSystemConstantValue cd name = .ok []
      | none => Calib.getSystemConstant cd name = .err ∧ Calib.getSystemConstantValue cd name = .err := by
  obtain ⟨K, hk, _, hret⟩ := scan_read hsc f hf
  rw [hkind] at hk
  cases hk
  obtain ⟨mo, u1, _, u3⟩ := hu
  have hmp : mo "ModPar" = f.val := by
    have := u3 15 _ rfl rfl
    rw [hlast] at this
    exact this
  obtain ⟨r, o, m, hv, _⟩ := Props.C64_marks_partial hw (p := .parseModPar) (by decide) hret
  rw [hv] at hret hmp
  obtain ⟨fs, h2, h3⟩ := Props.C65_parts_partial hw (Props.mtGood_seq hs) (p := .parseModPar) (by decide) hret
  refine ⟨fs, h2, fun name => ?_⟩
  have hkept := h3 (str! "SYSTEM_CONSTANT") .parseSystemConstant "SystemConstants" (.byName "Name") (by decide +kernel) name
  have hkey : ∀ p ∈ fs, (p.key = (str! "SYSTEM_CONSTANT") ↔ p.field = "SystemConstants") ∧ (p.key = (str! "SYSTEM_CONSTANT") → p.q = .parseSystemConstant) := by
    have hall : (Props.Shape.subs (shape .parseModPar)).all (fun y => match y.2 with
      | .obj q g _ => decide ((y.1 = (str! "SYSTEM_CONSTANT") ↔ g = "SystemConstants") ∧ (y.1 = (str! "SYSTEM_CONSTANT") → q = .parseSystemConstant))
      | .enum _ _ => true) = true := by decide +kernel
    intro p hp
    exact of_decide_eq_true (List.all_eq_true.1 hall _ (h2.decl p hp))
  have hparts : partsFor fs "SystemConstants" = fs.filter fun p => p.key = (str! "SYSTEM_CONSTANT") := by
    unfold partsFor
    apply List.filter_congr
    intro p hp
    rw [decide_eq_decide]
    exact (hkey p hp).1.symm
  -- what each of these parts is
  have hval : ∀ p ∈ fs.filter fun p => p.key = (str! "SYSTEM_CONSTANT"), ∃ x : Obj, p.val = .obj x ∧
      systemConstant x = ⟨(E.toks[p.pos + 1]?).getD [], some ((E.toks[p.pos + 2]?).getD [])⟩ := by
    intro p hp
    simp only [List.mem_filter, decide_eq_true_eq] at hp
    have hr := h2.read p hp.1
    rw [(hkey p hp.1).2 hp.2] at hr
    obtain ⟨x, e1, _, e3⟩ := Props.flat_values hw (p := .parseSystemConstant) (by decide) (Or.inl rfl) hr
    obtain ⟨t0, a0, _, b0⟩ := e3 0 _ rfl
    obtain ⟨t1, a1, _, b1⟩ := e3 1 _ rfl
    refine ⟨x, e1, ?_⟩
    have v0 := b0.val
    have v1 := b1.val
    have m1 := b1.mark
    simp only [Denotes] at v0 v1
    rw [show E.toks[p.pos + 1]? = some t0 from a0, show E.toks[p.pos + 2]? = some t1 from a1]
    unfold systemConstant optStr Obj.str
    simp only at m1
    rw [v0, v1, m1]
    rfl
  have hentry : lastEntry (constants E fs) name =
      ((((fs.filter fun p => p.key = (str! "SYSTEM_CONSTANT")).filter fun p => p.val.strField "Name" = name).getLast?).map fun p => (E.toks[p.pos + 2]?).getD []) := by
    unfold lastEntry constants
    rw [last_mapped (p := fun p => decide (p.val.strField "Name" = name)), Option.map_map]
    · rfl
    · intro p hp
      obtain ⟨x, e1, e2⟩ := hval p hp
      rw [decide_eq_decide]
      have e3 := congrArg Calib.SystemConstant.name e2
      have e4 : p.val.strField "Name" = x.str "Name" := by rw [e1]; rfl
      rw [e4]
      exact ⟨fun h => by rw [← h]; exact e3.symm, fun h => by rw [← h]; exact e3⟩
  rw [hparts] at hkept
  have hcon : (module fv mo).systemConstants name = (lastEntry (constants E fs) name).map fun v => ⟨name, some v⟩ := by
    show (Obj.map (inner mo "ModPar") "SystemConstants" name).map _ = _
    have : inner mo "ModPar" = r := by unfold inner; rw [hmp]
    rw [this, hkept, hentry]
    cases hl : ((fs.filter fun p => p.key = (str! "SYSTEM_CONSTANT")).filter fun p => p.val.strField "Name" = name).getLast? with
    | none => rfl
    | some p =>
      have hm := List.mem_of_getLast? hl
      rw [List.mem_filter] at hm
      obtain ⟨x, e1, e2⟩ := hval p hm.1
      have e4 : (objOf p.val).str "Name" = name := by
        have := of_decide_eq_true hm.2
        rw [e1] at this ⊢
        exact this
      simp only [Option.map_some]
      rw [e1] at e4 ⊢
      show some (systemConstant x) = _
      rw [e2]
      have e5 := congrArg Calib.SystemConstant.name e2
      have e6 : (E.toks[p.pos + 1]?).getD [] = name := by rw [← e4]; exact e5.symm
      rw [e6]
  cases hl : lastEntry (constants E fs) name with
  | none =>
    rw [hl] at hcon
    simp only
    unfold Calib.getSystemConstantValue Calib.getSystemConstant
    rw [u1]
    simp only
    rw [hcon]
    exact ⟨rfl, rfl⟩
  | some v =>
    rw [hl] at hcon
    simp only
    unfold Calib.getSystemConstantValue Calib.getSystemConstant
    rw [u1]
    simp only
    rw [hcon]
    exact ⟨rfl, rfl⟩

/-- C49 from the text: without a MOD_PAR there are no constants. -/
theorem C49_none {fv : Str → Rat} {cd : Calib.CalData Val} {os : List ModSpec.Found} (hu : Uses fv cd os) (hlast : lastOf os 15 = none) (name : Str) :
    Calib.getSystemConstant cd name = .err ∧ Calib.getSystemConstantValue cd name = .err := by
  obtain ⟨mo, u1, _, u3⟩ := hu
  have hmp : mo "ModPar" = .zero := by
    have := u3 15 _ rfl rfl
    rw [hlast] at this
    exact this
  have hcon : (module fv mo).systemConstants name = none := by
    show (Obj.map (inner mo "ModPar") "SystemConstants" name).map _ = _
    unfold inner
    rw [hmp]
    rfl
  unfold Calib.getSystemConstantValue Calib.getSystemConstant
  rw [u1]
  simp only
  rw [hcon]
  exact ⟨rfl, rfl⟩

-- the constant of the example file, whose name includes the quotation marks
example : Calib.getSystemConstant demoCd (str! "\"gear\"") = .ok ⟨(str! "\"gear\""), some (str! "\"7\"")⟩ ∧
    Calib.getSystemConstantValue demoCd (str! "\"gear\"") = .ok [] ∧ Calib.getSystemConstant demoCd (str! "gear") = .err := by
  obtain ⟨fs, h1, h2⟩ := C49_text demo_wf demo_seq demo_scan demo_uses (f := found 16 21 15) (by simp [demoOs]) rfl
    (by simp [lastOf, demoOs, found])
  have hpos : ∀ p ∈ fs, p.pos = 18 := by
    have hall : ∀ z, z ≤ 20 → 16 < z → (demo.toks[z]?).getD [] ∈ (Props.Shape.subs (shape .parseModPar)).map (·.1) → z = 18 := by decide +kernel
    intro p hp
    refine hall p.pos (by have := h1.within p hp; have e : (found 16 21 15).stop = 21 := rfl; omega) (h1.within p hp).1 ?_
    rw [h1.tok p hp]
    exact List.mem_map.2 ⟨_, h1.decl p hp, rfl⟩
  have hsome : constants demo fs ≠ [] := by
    obtain ⟨p, hp, _⟩ := h1.all 18 (str! "SYSTEM_CONSTANT") .parseSystemConstant "SystemConstants" (.byName "Name") (by decide) (by decide) rfl (by decide +kernel)
    have hk : p.key = (str! "SYSTEM_CONSTANT") := by
      have := h1.tok p hp
      rw [hpos p hp] at this
      exact (Option.some.inj this).symm
    have : p ∈ fs.filter fun p => p.key = (str! "SYSTEM_CONSTANT") := by simp [hp, hk]
    intro h
    unfold constants at h
    rw [List.map_eq_nil_iff] at h
    rw [h] at this
    cases this
  have hall : ∀ c ∈ constants demo fs, c = ((str! "\"gear\""), (str! "\"7\"")) := by
    intro c hc
    obtain ⟨p, hp, rfl⟩ := List.mem_map.1 hc
    rw [hpos p (List.mem_filter.1 hp).1]
    rfl
  generalize constants demo fs = cs at h2 hsome hall
  have e1 : lastEntry cs (str! "\"gear\"") = some (str! "\"7\"") := by
    unfold lastEntry
    rw [List.filter_eq_self.2 (fun c hc => by rw [hall c hc]; rfl)]
    cases hl : cs.getLast? with
    | none => exact absurd (List.getLast?_eq_none_iff.1 hl) hsome
    | some c => rw [hall c (List.mem_of_getLast? hl)]; rfl
  have e2 : lastEntry cs (str! "gear") = none := by
    unfold lastEntry
    rw [List.filter_eq_nil_iff.2 (fun c hc => by rw [hall c hc]; decide)]
    rfl
  have g1 := h2 (str! "\"gear\"")
  have g2 := h2 (str! "gear")
  rw [e1] at g1
  rw [e2] at g2
  exact ⟨g1.1, g1.2, g2.1⟩

-- a module without one
example : Calib.getSystemConstant (P := Val) { modules := [module demoFv Obj.empty] } (str! "x") = .err :=
  (C49_none (fv := demoFv) (os := []) ⟨Obj.empty, rfl, by intro n K key h1 h2 name; rfl, by intro n K h1 h2; rfl⟩ rfl _).1

end Verif.Link
