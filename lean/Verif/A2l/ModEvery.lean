import Verif.A2l.ModIff
import Verif.A2l.ObjProps2

/-!
C34 fails for every number of workers: for every number of workers from two on there is a module, accepted by the sequential parser, of
which the parallel parser loses an object without an error, whatever the schedule.
-/

namespace Verif.A2l.Props
open Verif.Go Lang Verif.Conc Analysis ModSpec
open Template (fin)
open Decl hiding Kind

/-- An IF_DATA block with a name and `k` words is read; the result has the name. -/
theorem ifData_returns {E : Env} (hw : Wf E) {i k : Nat} {name x : Str} (hn : TokAfter E i name) (hne : name ≠ [] ∧ name ≠ fin .parseIfData)
    (hx : x ≠ [] ∧ x ≠ fin .parseIfData) (hxs : ∀ q < k, TokAfter E (i + 1 + q) x) (hf : TokAfter E (i + 1 + k) (fin .parseIfData)) :
    ∃ o : Obj, Returns E .parseIfData i (.ok (i + k + 2) (.obj o) false) ∧ o "name" = .str name := by
  have members : ∀ (k i : Nat) (o : Obj), (∀ q < k, TokAfter E (i + q) x) → ∃ o', o' "name" = o "name" ∧
      Items E (Succeeds E) true (fin .parseIfData) [⟨"name", "nameSet", .str⟩] (.list "data" "dataSet" .str) [] k ⟨1, o, i⟩ ⟨1, o', i + k⟩ := by
    intro k
    induction k with
    | zero => intro i o _; exact ⟨o, rfl, .nil⟩
    | succ k ih =>
      intro i o h
      obtain ⟨o', h1, h2⟩ := ih (i + 1) (o.set "data" (.list (o.list "data" ++ [.str x]))) (fun q hq => by
        have := h (q + 1) (by omega)
        rwa [show i + (q + 1) = i + 1 + q by omega] at this)
      refine ⟨o', h1.trans rfl, .cons (.member rfl rfl (h 0 (by omega)) ⟨hx.1, hx.2, List.not_mem_nil, Or.inl rfl⟩ rfl) ?_⟩
      rwa [show i + (k + 1) = i + 1 + k by omega]
  obtain ⟨o', h1, h2⟩ := members k (i + 1) ((start []).set "name" (.str name)) hxs
  have ht : Text E (fin .parseIfData) (shape .parseIfData) i (i + k + 2) o' :=
    ⟨k + 1, 1, i + 1 + k, .cons (.param rfl hn ⟨hne.1, hne.2, List.not_mem_nil, Or.inl rfl⟩ rfl) h2, hf, by omega⟩
  obtain ⟨o, h3, h4⟩ := C32_partial hw (p := .parseIfData) (by decide) ht
  exact ⟨o, h3, (h4 "name" (by decide)).trans h1⟩

/-- A piece that begins with words. -/
theorem share_words {E : Env} {lim : Nat} {os : List Found} {b : Bool} : ∀ (k x : Nat), x + k < lim →
    (∀ p, x < p → p ≤ x + k → ∃ t, E.toks[p]? = some t ∧ t ≠ [] ∧ t ≠ (str! "/end MODULE") ∧ ¬ Opens t) →
    Share E lim (x + k) os b → Share E lim x os b
  | 0, x, _, _, h => h
  | k + 1, x, hl, hp, h => by
    obtain ⟨t, h1, h2, h3, h4⟩ := hp (x + 1) (by omega) (by omega)
    refine .skip (by omega) h1 h2 h3 h4 (share_words k (x + 1) (by omega) (fun p h5 h6 => hp p (by omega) (by omega)) ?_)
    rwa [show x + 1 + k = x + (k + 1) by omega]

/-- A module with two IF_DATA blocks, the second so long that the first of the `np` cuts falls on its opening token. -/
def cutToks (np : Nat) : List Str := [(str! "/begin MODULE"), (str! "M"), (str! "\"d\""), (str! "/begin IF_DATA"), (str! "A"), (str! "/end IF_DATA"),
  (str! "/begin IF_DATA"), (str! "B")] ++ (List.replicate (4 * np - 7) (str! "x") ++ [(str! "/end IF_DATA"), (str! "/end MODULE")])

theorem cut_get {np : Nat} (h : 2 ≤ np) {p : Nat} (hp : 8 ≤ p) (hp' : p ≤ 4 * np) : (fileEnv (cutToks np)).toks[p]? = some (str! "x") := by
  show (cutToks np ++ [[]])[p]? = _
  unfold cutToks
  rw [List.append_assoc, List.getElem?_append_right (by simpa using hp), List.append_assoc, List.getElem?_append_left (by simp; omega),
    List.getElem?_replicate, if_pos (by simp; omega)]

theorem cut_end {np : Nat} (h : 2 ≤ np) : (fileEnv (cutToks np)).toks[4 * np + 1]? = some (str! "/end IF_DATA") := by
  show (cutToks np ++ [[]])[4 * np + 1]? = _
  unfold cutToks
  rw [List.append_assoc, List.getElem?_append_right (by show 8 ≤ _; omega), List.append_assoc, List.getElem?_append_right (by rw [List.length_replicate]; show _ ≤ _ - 8; omega)]
  rw [show 4 * np + 1 - List.length [(str! "/begin MODULE"), (str! "M"), (str! "\"d\""), (str! "/begin IF_DATA"), (str! "A"), (str! "/end IF_DATA"),
    (str! "/begin IF_DATA"), (str! "B")] - (List.replicate (4 * np - 7) (str! "x")).length = 0 by rw [List.length_replicate]; show 4 * np + 1 - 8 - _ = _; omega]
  rfl

theorem cut_stop {np : Nat} (h : 2 ≤ np) : (fileEnv (cutToks np)).toks[4 * np + 2]? = some (str! "/end MODULE") := by
  show (cutToks np ++ [[]])[4 * np + 2]? = _
  unfold cutToks
  rw [List.append_assoc, List.getElem?_append_right (by show 8 ≤ _; omega), List.append_assoc, List.getElem?_append_right (by rw [List.length_replicate]; show _ ≤ _ - 8; omega)]
  rw [show 4 * np + 2 - List.length [(str! "/begin MODULE"), (str! "M"), (str! "\"d\""), (str! "/begin IF_DATA"), (str! "A"), (str! "/end IF_DATA"),
    (str! "/begin IF_DATA"), (str! "B")] - (List.replicate (4 * np - 7) (str! "x")).length = 1 by rw [List.length_replicate]; show 4 * np + 2 - 8 - _ = _; omega]
  rfl

theorem cut_only {np : Nat} (h : 2 ≤ np) {y : Nat} (hy : (fileEnv (cutToks np)).toks[y]? = some (str! "/end MODULE")) : y = 4 * np + 2 := by
  have hlen : (fileEnv (cutToks np)).toks.length = 4 * np + 4 := by
    show (cutToks np ++ [[]]).length = _
    unfold cutToks
    simp
    omega
  obtain ⟨hl, _⟩ := List.getElem?_eq_some_iff.1 hy
  rw [hlen] at hl
  by_cases h8 : 8 ≤ y
  · by_cases h1 : y ≤ 4 * np
    · rw [cut_get h h8 h1] at hy; exact absurd hy (by decide)
    · by_cases h2 : y = 4 * np + 1
      · subst h2; rw [cut_end h] at hy; exact absurd hy (by decide)
      · by_cases h3 : y = 4 * np + 2
        · exact h3
        · have : y = 4 * np + 3 := by omega
          subst this
          have e : (fileEnv (cutToks np)).toks[4 * np + 3]? = some [] := by
            show (cutToks np ++ [[]])[4 * np + 3]? = _
            have : (cutToks np).length = 4 * np + 3 := by unfold cutToks; simp; omega
            rw [List.getElem?_append_right (by omega), this, Nat.sub_self]
            rfl
          rw [e] at hy
          exact absurd hy (by decide)
  · have : y = 0 ∨ y = 1 ∨ y = 2 ∨ y = 3 ∨ y = 4 ∨ y = 5 ∨ y = 6 ∨ y = 7 := by omega
    rcases this with rfl | rfl | rfl | rfl | rfl | rfl | rfl | rfl <;> exact absurd (Option.some.inj hy) (by decide)

theorem cut_wf (np : Nat) : Wf (fileEnv (cutToks np)) := fileEnv_wf (by
  unfold cutToks
  intro hc
  simp only [List.mem_append, List.mem_replicate, List.mem_cons, List.not_mem_nil, or_false] at hc
  rcases hc with hc | ⟨_, hc⟩ | hc
  · revert hc; decide
  · revert hc; decide
  · revert hc; decide)

theorem cut_module {np : Nat} (h : 2 ≤ np) : OneModule (fileEnv (cutToks np)) 0 (4 * np + 2) where
  name := fun t ht => by cases ht; exact ⟨opensDec (by decide +kernel), by decide⟩
  text := fun t ht => by cases ht; exact ⟨opensDec (by decide +kernel), by decide⟩
  stop := cut_stop h
  only := fun _ hy => cut_only h hy

/-- **C34 is false for every number of workers from two on:** the sequential parser accepts the module with the block `B`; the parallel parser
gives the module without it and without an error, under every schedule. -/
theorem C34_false_everywhere {np : Nat} (h : 2 ≤ np) : ∃ (E : Env) (j : Nat) (o : Obj) (v : Val), Wf E ∧ E.multi = false ∧ OneModule E 0 j ∧
    Returns E .parseModule 0 (.ok j (.obj o) false) ∧ o.map "ifData" (str! "B") = some v ∧ (∃ sched, mtModule E np sched 0 ≠ .timeout) ∧
    ∀ sched, mtModule E np sched 0 ≠ .timeout → ∃ o' : Obj, mtModule E np sched 0 = .ok j (.obj o') false ∧ o'.map "ifData" (str! "B") = none := by
  have hwf := cut_wf np
  have hone := cut_module h
  obtain ⟨a, ha, hna⟩ := ifData_returns hwf (i := 3) (k := 0) (name := (str! "A")) (x := (str! "x")) rfl (by decide) (by decide) (fun q hq => absurd hq (by omega)) rfl
  obtain ⟨b, hb, hnb⟩ := ifData_returns hwf (i := 6) (k := 4 * np - 7) (name := (str! "B")) (x := (str! "x")) rfl (by decide) (by decide)
    (fun q hq => cut_get h (by omega) (by omega)) (by
      show (fileEnv (cutToks np)).toks[6 + 1 + (4 * np - 7) + 1]? = _
      rw [show 6 + 1 + (4 * np - 7) + 1 = 4 * np + 1 by omega]; exact cut_end h)
  rw [show 6 + (4 * np - 7) + 2 = 4 * np + 1 by omega] at hb
  let K : ModSpec.Kind := ⟨(str! "/begin IF_DATA"), .parseIfData, "ifData", some "name"⟩
  have hK : kinds[11]? = some K := rfl
  have e1 : Found.name ⟨3, 5, 11, .obj a⟩ = (str! "A") := by
    show Obj.str a "name" = _
    unfold Obj.str
    rw [hna]
  have e2 : Found.name ⟨7 - 1, 4 * np + 1, 11, .obj b⟩ = (str! "B") := by
    show Obj.str b "name" = _
    unfold Obj.str
    rw [hnb]
  have hsc : Scan (fileEnv (cutToks np)) (0 + 2) [⟨3, 5, 11, .obj a⟩, ⟨6, 4 * np + 1, 11, .obj b⟩] (4 * np + 2) :=
    Scan.obj (s := 2) (K := K) rfl hK ha (Scan.obj (s := 5) (K := K) rfl hK hb (Scan.stop (s := 4 * np + 1) (cut_stop h)))
  -- the sequential parser
  obtain ⟨o, ho⟩ : ∃ o : Obj, Returns (fileEnv (cutToks np)) .parseModule 0 (.ok (4 * np + 2) (.obj o) false) := by
    have hsub : ((str! "/begin IF_DATA"), Sub.obj .parseIfData "ifData" (.byName "name")) ∈ (match shape .parseModule with
      | .block _ _ _ subs _ => subs | _ => []) := by decide +kernel
    obtain ⟨o', h1, _⟩ := C32_partial hwf (p := .parseModule) (by decide) (i := 0) (i' := 4 * np + 2) (o := _)
      ⟨4, 2, 4 * np + 1, .cons (.param rfl (t := (str! "M")) rfl ⟨by decide, by decide, by decide +kernel, Or.inr (by decide +kernel)⟩ rfl)
        (.cons (.param rfl (t := (str! "\"d\"")) rfl ⟨by decide, by decide, by decide +kernel, Or.inr (by decide +kernel)⟩ rfl)
          (.cons (.sub hsub rfl ha ⟨_, rfl, rfl⟩) (.cons (.sub hsub rfl hb ⟨_, rfl, rfl⟩) .nil))), cut_stop h, rfl⟩
    exact ⟨o', h1⟩
  have hseq := (C36_sequential_partial hwf rfl (by show 0 < (cutToks np ++ [[]]).length; simp) hone ho hsc).1 11 K "name" hK rfl (str! "B")
  -- the workers
  have hcut : ∀ w, cut 2 (4 * np + 2) np w = 2 + 4 * w := by
    intro w
    unfold cut
    rw [show 4 * np + 2 - 2 = 4 * np by omega, Nat.mul_div_cancel _ (by omega)]
  have hword : ∀ p, 7 ≤ p → p ≤ 4 * np + 1 → ∃ t, (fileEnv (cutToks np)).toks[p]? = some t ∧ t ≠ [] ∧ t ≠ (str! "/end MODULE") ∧ ¬ Opens t := by
    intro p h7 hp
    by_cases h1 : p = 7
    · subst h1; exact ⟨(str! "B"), rfl, by decide, by decide, opensDec (by decide +kernel)⟩
    · by_cases h2 : p = 4 * np + 1
      · subst h2; exact ⟨_, cut_end h, by decide, by decide, opensDec (by decide +kernel)⟩
      · exact ⟨_, cut_get h (by omega) (by omega), by decide, by decide, opensDec (by decide +kernel)⟩
  have hp : Pieces (fileEnv (cutToks np)) (0 + 2) (4 * np + 2) np (fun w => if w = 0 then [⟨3, 5, 11, .obj a⟩] else []) (fun _ => false) := by
    intro w hwn
    rw [hcut]
    unfold pieceEnd
    rw [hcut]
    by_cases h0 : w = 0
    · subst h0
      rw [if_neg (by omega)]
      exact Share.obj (lim := 6) (x := 2) (K := K) (by decide) rfl hK ha (Share.limit (by decide))
    · simp only [if_neg h0]
      by_cases hl : w + 1 = np
      · rw [if_pos hl]
        exact share_words 3 (2 + 4 * w) (by omega) (fun p h1 h2 => hword p (by omega) (by omega))
          (Share.stop (by omega) (by rw [show 2 + 4 * w + 3 + 1 = 4 * np + 2 by omega]; exact cut_stop h))
      · rw [if_neg hl]
        exact share_words 3 (2 + 4 * w) (by omega) (fun p h1 h2 => hword p (by omega) (by omega)) (Share.limit (by omega))
  obtain ⟨hmap, herr⟩ := C36_pieces hwf rfl (i := 0) (by omega) hone (by omega) hp
  have hnp : 0 < np := by omega
  have hlen : 0 < (fileEnv (cutToks np)).toks.length := by show 0 < (cutToks np ++ [[]]).length; simp
  refine ⟨_, _, o, .obj b, hwf, rfl, hone, ho, ?_, (C35_returns hwf rfl hnp hlen).1, fun sched hc => ?_⟩
  · rw [show o.map "ifData" (str! "B") = _ from hseq]
    have e2' : Found.name ⟨6, 4 * np + 1, 11, .obj b⟩ = (str! "B") := e2
    simp [lastNamed, e1, e2']
  · obtain ⟨o0, hh⟩ := header_of_module hwf (i := 0) (j := 4 * np + 2) (by omega) (List.getElem?_eq_some_iff.1 hone.stop).1
    have hend : endIndex (fileEnv (cutToks np)) = 4 * np + 2 :=
      endIndex_eq hone.stop (fun y hy he => by have := hone.only y he; omega)
    rcases mtModule_cases hwf (mtGood_seq rfl) hlen hc with ⟨h1, _⟩ | ⟨_, ss, s, _, _, _, _, hres⟩
    · rw [hend, hh] at h1
      simp only at h1
      omega
    · rw [hend] at hres
      obtain ⟨o', e, hr⟩ : ∃ (o' : Obj) (e : Bool), mtModule (fileEnv (cutToks np)) np sched 0 = .ok (4 * np + 2) (.obj o') e := ⟨_, _, hres⟩
      have he : e = false := by
        cases e with
        | false => rfl
        | true =>
          obtain ⟨w, _, hw⟩ := (herr sched _ _ hr).1 rfl
          cases hw
      subst he
      refine ⟨o', hr, ?_⟩
      cases hx : o'.map "ifData" (str! "B") with
      | none => rfl
      | some v =>
        obtain ⟨w, hwn, hl⟩ := (hmap 11 K "name" hK rfl (str! "B") v).1 ⟨sched, _, _, hr, hx⟩
        by_cases h0 : w = 0
        · simp [h0, lastNamed, e1] at hl
        · simp [h0, lastNamed] at hl

example : ∃ (E : Env) (j : Nat) (o : Obj) (v : Val), Wf E ∧ E.multi = false ∧ OneModule E 0 j ∧
    Returns E .parseModule 0 (.ok j (.obj o) false) ∧ o.map "ifData" (str! "B") = some v ∧ (∃ sched, mtModule E 16 sched 0 ≠ .timeout) ∧
    ∀ sched, mtModule E 16 sched 0 ≠ .timeout → ∃ o' : Obj, mtModule E 16 sched 0 = .ok j (.obj o') false ∧ o'.map "ifData" (str! "B") = none :=
  C34_false_everywhere (by decide)

end Verif.A2l.Props
