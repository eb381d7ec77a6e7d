import Verif.A2l.ModPar

/-!
Properties C34 (parallel and sequential module parsing agree) and C36 (the last definition of
a name is the one found).
-/

namespace Verif.A2l.Props
open Verif.Go Lang Verif.Conc Analysis ModSpec

/-! ### The module made by the sequential parser -/

theorem field_inj {n m : Nat} {c d : ModCase} (h1 : channels[n]? = some c) (h2 : channels[m]? = some d)
    (h : c.field = d.field) : n = m := by
  have hnd := (List.nodup_append.1 channels_fields).1
  have e1 : (channels.map (·.field))[n]? = some c.field := by rw [List.getElem?_map, h1]; rfl
  have e2 : (channels.map (·.field))[m]? = some c.field := by rw [List.getElem?_map, h2, h]; rfl
  have l1 := (List.getElem?_eq_some_iff.1 e1).1
  exact (List.getElem?_inj l1 hnd).1 (e1.trans e2.symm)

theorem name_eq {f : Found} {n : Nat} {c : ModCase} {key : String} (hn : channels[n]? = some c)
    (hk : c.key = some key) (hf : f.kind = n) : f.name = f.val.strField key := by
  unfold Found.name
  rw [hf, get_kinds hn]
  simp only [ModCase.kind, hk]

theorem name_none {f : Found} {n : Nat} {c : ModCase} (hn : channels[n]? = some c)
    (hk : c.key = none) (hf : f.kind = n) : f.name = [] := by
  unfold Found.name
  rw [hf, get_kinds hn]
  simp only [ModCase.kind, hk]

theorem getLast?_or_cons {α : Type} (a : α) (l : List α) : (a :: l).getLast? = (l.getLast?).or (some a) := by
  rw [List.getLast?_cons]
  cases l.getLast? <;> rfl

theorem seq_map {n : Nat} {c : ModCase} {key : String} (hn : channels[n]? = some c) (hk : c.key = some key) :
    ∀ (os : List Found) (o : Obj) (m : Str → Option Val), o c.field = .map m →
      ∃ m', (os.foldl addFound o) c.field = .map m' ∧ ∀ name, m' name = (lastNamed os n name).or (m name) := by
  intro os
  induction os with
  | nil => intro o m h; exact ⟨m, h, fun name => by simp [lastNamed]⟩
  | cons f os ih =>
    intro o m h
    rw [List.foldl_cons]
    by_cases hf : f.kind = n
    · have hadd : addFound o f = collectOne c o f.val := by unfold addFound; rw [hf, hn]
      have hval : (addFound o f) c.field = .map (mapSet m (f.val.strField key) f.val) := by
        rw [hadd]; unfold collectOne; rw [hk]
        simp only [Obj.map, h]
        exact set_same _ _ _
      obtain ⟨m', h1, h2⟩ := ih _ _ hval
      refine ⟨m', h1, fun name => ?_⟩
      rw [h2]
      unfold lastNamed
      by_cases hname : f.name = name
      · rw [List.filter_cons, if_pos (by simp [hf, hname]), getLast?_or_cons]
        rw [name_eq hn hk hf] at hname
        cases (os.filter (fun f => f.kind = n ∧ f.name = name)).getLast? with
        | none => simp [mapSet, hname]
        | some g => simp
      · rw [List.filter_cons, if_neg (by simp [hname])]
        rw [name_eq hn hk hf] at hname
        simp [mapSet, Ne.symm hname]
    · have hval : (addFound o f) c.field = .map m := by
        unfold addFound
        cases hd : channels[f.kind]? with
        | none => exact h
        | some d =>
          simp only
          rw [collectOne_other (fun he => hf (field_inj hd hn he.symm)), h]
      obtain ⟨m', h1, h2⟩ := ih _ _ hval
      refine ⟨m', h1, fun name => ?_⟩
      rw [h2]
      unfold lastNamed
      rw [List.filter_cons, if_neg (by simp [hf])]

theorem seq_single {n : Nat} {c : ModCase} (hn : channels[n]? = some c) (hk : c.key = none) :
    ∀ (os : List Found) (o : Obj), (os.foldl addFound o) c.field = (lastOf os n).getD (o c.field) := by
  intro os
  induction os with
  | nil => intro o; rfl
  | cons f os ih =>
    intro o
    rw [List.foldl_cons, ih]
    unfold lastOf
    by_cases hf : f.kind = n
    · have hadd : (addFound o f) c.field = f.val := by
        unfold addFound; rw [hf, hn]; simp only [collectOne, hk]; exact set_same _ _ _
      rw [List.filter_cons, if_pos (by simp [hf]), getLast?_or_cons, hadd]
      cases (os.filter (fun f => f.kind = n)).getLast? <;> rfl
    · have hadd : (addFound o f) c.field = o c.field := by
        unfold addFound
        cases hd : channels[f.kind]? with
        | none => rfl
        | some d => simp only; rw [collectOne_other (fun he => hf (field_inj hd hn he.symm))]
      rw [List.filter_cons, if_neg (by simp [hf]), hadd]

theorem seq_other {g : String} (hg : g ∉ channels.map (·.field)) : ∀ (os : List Found) (o : Obj),
    (os.foldl addFound o) g = o g := by
  intro os
  induction os with
  | nil => intro o; rfl
  | cons f os ih =>
    intro o
    rw [List.foldl_cons, ih]
    unfold addFound
    cases hd : channels[f.kind]? with
    | none => rfl
    | some d =>
      simp only
      exact collectOne_other fun he => hg (List.mem_map.2 ⟨d, List.mem_of_getElem? hd, he.symm⟩)

/-! ### C34 -/

/-- The tokens of a file with one module, whose block begins at `i`: the two tokens after
`/begin MODULE` are its name and description, neither of them opens an object or ends the
module; `/end MODULE` occurs at `j` and not before. -/
structure OneModule (E : Env) (i j : Nat) : Prop where
  name : ∀ t, E.toks[i + 1]? = some t → ¬ Opens t ∧ t ≠ (str! "/end MODULE")
  text : ∀ t, E.toks[i + 2]? = some t → ¬ Opens t ∧ t ≠ (str! "/end MODULE")
  stop : E.toks[j]? = some (str! "/end MODULE")
  only : ∀ y, E.toks[y]? = some (str! "/end MODULE") → y = j

theorem OneModule.header {E : Env} {i j : Nat} (h : OneModule E i j) : PlainHeader E i := by
  have gen : ∀ k, (∀ t, E.toks[k]? = some t → ¬ Opens t ∧ t ≠ (str! "/end MODULE")) →
      ¬ Opens (E.current k) ∧ E.current k ≠ endModuleToken := by
    intro k hk
    unfold Env.current
    cases ht : E.toks[k]? with
    | none => exact ⟨empty_not_opens, by decide⟩
    | some t => exact hk t ht
  exact ⟨gen _ h.name, gen _ h.text⟩

/-- C34 as stated: if the sequential parser accepts a file with one module, the parallel
parser gives the same module, for every number of workers and every schedule. -/
def C34_full : Prop := ∀ (E : Env), Wf E → E.multi = false → ∀ (i j : Nat) (o : Obj), i < E.toks.length →
  OneModule E i j → Returns E .parseModule i (.ok j (.obj o) false) →
  ∀ (np : Nat), 0 < np → ∀ (sched : List Collect.Op), mtModule E np sched i ≠ .timeout →
  mtModule E np sched i = .ok j (.obj o) false

/-- The content of a module accepted by the sequential parser is well defined. -/
theorem C34_content {E : Env} (hw : Wf E) (hs : E.multi = false) {i j : Nat} {o : Obj} (hi : i < E.toks.length)
    (h1 : OneModule E i j) (hseq : Returns E .parseModule i (.ok j (.obj o) false)) :
    ∃ os, Scan E (i + 2) os j ∧ ∀ os' j', Scan E (i + 2) os' j' → os' = os ∧ j' = j := by
  have hmt := mtGood_seq hs
  obtain ⟨j', v', e', hp, hr, _⟩ := parse_ok hw hmt .parseModule (by decide) i hi
  rw [← hseq.unique hr] at hp
  obtain ⟨os, o0, _, _, hsc, _⟩ := seq_module hw hmt hi h1.header hp
  exact ⟨os, hsc, fun os' j' h => scan_unique h hsc⟩

/-- C34 for modules whose objects are not cut in a harmful way: no cut between two workers
falls on the opening token of an object, and in an object that is cut no further opening
token of a module object follows; and in which objects of the same kind and name are equal.
Then the parallel parser gives, under every schedule, exactly the result of the sequential
parser: the same module, the same position, no error. Missing: the other modules, for which
it is false. -/
theorem C34_partial {E : Env} (hw : Wf E) (hs : E.multi = false) {i j : Nat} {o : Obj} (hi : i < E.toks.length)
    (h1 : OneModule E i j) (hseq : Returns E .parseModule i (.ok j (.obj o) false)) {os : List Found}
    (hsc : Scan E (i + 2) os j) {np : Nat} (hnp : 0 < np) (hcuts : SafeCuts E (i + 2) j np os)
    (hcons : Consistent os) {sched : List Collect.Op} (hc : mtModule E np sched i ≠ .timeout) :
    mtModule E np sched i = .ok j (.obj o) false := by
  have hmt := mtGood_seq hs
  obtain ⟨j', v', e', hp, hr, _⟩ := parse_ok hw hmt .parseModule (by decide) i hi
  rw [← hseq.unique hr] at hp
  obtain ⟨os', o0, hh, hmaps, hsc', ho⟩ := seq_module hw hmt hi h1.header hp
  obtain ⟨rfl, _⟩ := scan_unique hsc hsc'
  have hfirst : ∀ y < j, E.toks[y]? ≠ some endModuleToken := fun y hy he => by
    have := h1.only y he; omega
  have hend := endIndex_eq h1.stop hfirst
  have hpos := scan_pos hw hmt hsc
  obtain ⟨j2, o2, e2, hres, _, _⟩ := (C35_returns hw hs hnp hi).2 sched hc
  obtain ⟨ss, s, hrun⟩ := mt_run hw hs hi hh (by omega) hres
  have hsent : ∀ k v, k < 27 → (v ∈ received s k ↔ ∃ f ∈ os, (k, v) = msg f) := by
    intro k v hk
    rw [hrun.sent k v hk, hend, sent_scan hw hs hnp hsc hfirst hcuts]
  have herr : received s 0 = [] := by
    apply List.eq_nil_iff_forall_not_mem.2
    intro v hv
    obtain ⟨f, _, he⟩ := (hsent 0 v (by decide)).1 hv
    simp [msg] at he
  have hrec : ∀ (n : Nat) (c : ModCase) v, channels[n]? = some c →
      (v ∈ received s (n + 1) ↔ ∃ f ∈ os, f.kind = n ∧ f.val = v) := by
    intro n c v hn
    rw [hsent _ v (channel_lt hn)]
    simp only [msg, Prod.mk.injEq, Nat.add_right_cancel_iff]
    constructor
    · rintro ⟨f, hf, h2, h3⟩; exact ⟨f, hf, h2.symm, h3.symm⟩
    · rintro ⟨f, hf, h2, h3⟩; exact ⟨f, hf, h2.symm, h3.symm⟩
  have hobj : o2 = o := by
    funext g
    by_cases hg : g ∈ channels.map (·.field)
    · obtain ⟨c, hcm, rfl⟩ := List.mem_map.1 hg
      obtain ⟨n, hnl, hce⟩ := List.getElem_of_mem hcm
      have hn : channels[n]? = some c := by rw [List.getElem?_eq_getElem hnl, hce]
      cases hk : c.key with
      | some key =>
        obtain ⟨m, hm, hmn⟩ := hrun.map_eq hn hk
        obtain ⟨m', hm', hmn'⟩ := seq_map hn hk os o0 (fun _ => none) (by
          rw [hrun.init n c hn, newModule_fields.1 _ (key_field hn hk)])
        rw [hm, ho, hm']
        congr 1
        funext name
        rw [hmn, hmn']
        simp only [Option.or_none]
        unfold lastNamed
        cases hl : ((received s (n + 1)).filter (fun v => v.strField key = name)).getLast? with
        | none =>
          rw [List.getLast?_eq_none_iff, List.filter_eq_nil_iff] at hl
          have : os.filter (fun f => f.kind = n ∧ f.name = name) = [] := by
            rw [List.filter_eq_nil_iff]
            intro f hf hcon
            simp only [Bool.decide_and, Bool.and_eq_true, decide_eq_true_eq] at hcon
            have h2 := hl f.val ((hrec n c _ hn).2 ⟨f, hf, hcon.1, rfl⟩)
            rw [← name_eq hn hk hcon.1] at h2
            exact h2 (by simp [hcon.2])
          rw [this]; rfl
        | some v =>
          have hv := List.mem_filter.1 (List.mem_of_getLast? hl)
          simp only [decide_eq_true_eq] at hv
          obtain ⟨f, hf, hfk, hfv⟩ := (hrec n c v hn).1 hv.1
          have hfn : f.name = name := by rw [name_eq hn hk hfk, hfv]; exact hv.2
          cases hl2 : (os.filter (fun f => f.kind = n ∧ f.name = name)).getLast? with
          | none =>
            rw [List.getLast?_eq_none_iff, List.filter_eq_nil_iff] at hl2
            exact absurd (by simp [hfk, hfn]) (hl2 f hf)
          | some g =>
            have hg2 := List.mem_filter.1 (List.mem_of_getLast? hl2)
            simp only [Bool.decide_and, Bool.and_eq_true, decide_eq_true_eq] at hg2
            simp only [Option.map_some, Option.some.injEq]
            rw [← hfv]
            exact hcons f hf g hg2.1 (hfk.trans hg2.2.1.symm) (hfn.trans hg2.2.2.symm)
      | none =>
        rw [hrun.single_eq hn hk, ho, seq_single hn hk]
        unfold lastOf
        have h0 : o0 c.field = .zero := by rw [hrun.init n c hn, newModule_single hn hk]
        rw [h0]
        cases hl : (received s (n + 1)).getLast? with
        | none =>
          rw [List.getLast?_eq_none_iff] at hl
          have : os.filter (fun f => f.kind = n) = [] := by
            rw [List.filter_eq_nil_iff]
            intro f hf hcon
            simp only [decide_eq_true_eq] at hcon
            have := (hrec n c _ hn).2 ⟨f, hf, hcon, rfl⟩
            rw [hl] at this; cases this
          rw [this]; rfl
        | some v =>
          obtain ⟨f, hf, hfk, hfv⟩ := (hrec n c v hn).1 (List.mem_of_getLast? hl)
          cases hl2 : (os.filter (fun f => f.kind = n)).getLast? with
          | none =>
            rw [List.getLast?_eq_none_iff, List.filter_eq_nil_iff] at hl2
            exact absurd (by simp [hfk]) (hl2 f hf)
          | some g =>
            have hg2 := List.mem_filter.1 (List.mem_of_getLast? hl2)
            simp only [decide_eq_true_eq] at hg2
            simp only [Option.map_some, Option.getD_some]
            rw [← hfv]
            exact hcons f hf g hg2.1 (hfk.trans hg2.2.symm)
              ((name_none hn hk hfk).trans (name_none hn hk hg2.2).symm)
    · rw [ho, seq_other hg]
      by_cases hge : g = "errors"
      · subst hge
        rw [hrun.errors, if_pos herr, header_fields hh _ (by decide), newModule_fields.2 _ (by decide +kernel)]
      · exact hrun.other g hg hge
  rw [hres, hrun.idx, hend, hobj, hrun.err, herr]
  rfl

/-! ### C36 -/

/-- What the sequential parser keeps of the objects of a module. -/
theorem module_content {E : Env} (hw : Wf E) (hs : E.multi = false) {i j : Nat} {o : Obj}
    (hi : i < E.toks.length) (hh : PlainHeader E i) (hseq : Returns E .parseModule i (.ok j (.obj o) false)) :
    ∃ os, Scan E (i + 2) os j ∧ (∀ (n : Nat) (K : Kind) (key : String), kinds[n]? = some K → K.key = some key →
      ∀ name, o.map K.field name = lastNamed os n name) ∧
    (∀ (n : Nat) (K : Kind), kinds[n]? = some K → K.key = none → o K.field = (lastOf os n).getD .zero) := by
  have hmt := mtGood_seq hs
  obtain ⟨j', v', e', hp, hr, _⟩ := parse_ok hw hmt .parseModule (by decide) i hi
  rw [← hseq.unique hr] at hp
  obtain ⟨os, o0, hh, hmaps, hsc, ho⟩ := seq_module hw hmt hi hh hp
  have hnd := channels_fields
  rw [List.nodup_append] at hnd
  have hinit : ∀ (n : Nat) (c : ModCase), channels[n]? = some c → o0 c.field = newModule c.field := by
    intro n c hn
    have hm : c.field ∈ channels.map (·.field) := List.mem_map.2 ⟨c, List.mem_of_getElem? hn, rfl⟩
    apply header_fields hh
    intro hin
    exact hnd.2.2 _ hm _ (List.mem_cons_of_mem _ hin) rfl
  refine ⟨os, hsc, ?_, ?_⟩
  · intro n K key hn hk name
    obtain ⟨c, hc, rfl⟩ := kinds_get hn
    obtain ⟨m', hm', hmn'⟩ := seq_map hc hk os o0 (fun _ => none) (by
      rw [hinit n c hc, newModule_fields.1 _ (key_field hc hk)])
    have : o.map (ModCase.kind c).field = m' := by
      unfold Obj.map
      show (match o c.field with | .map m => m | _ => fun _ => none) = m'
      rw [ho, hm']
    rw [this, hmn']
    simp
  · intro n K hn hk
    obtain ⟨c, hc, rfl⟩ := kinds_get hn
    show o c.field = _
    rw [ho, seq_single hc hk, hinit n c hc, newModule_single hc hk]

/-- C36 for the sequential parser: under every name the module holds the last object defined
with it, and nothing under the other names; likewise for the objects of which there is one. -/
theorem C36_sequential_partial {E : Env} (hw : Wf E) (hs : E.multi = false) {i j : Nat} {o : Obj}
    (hi : i < E.toks.length) (h1 : OneModule E i j) (hseq : Returns E .parseModule i (.ok j (.obj o) false))
    {os : List Found} (hsc : Scan E (i + 2) os j) :
    (∀ (n : Nat) (K : Kind) (key : String), kinds[n]? = some K → K.key = some key →
      ∀ name, o.map K.field name = lastNamed os n name) ∧
    (∀ (n : Nat) (K : Kind), kinds[n]? = some K → K.key = none → o K.field = (lastOf os n).getD .zero) := by
  obtain ⟨os', hsc', h⟩ := module_content hw hs hi h1.header hseq
  obtain ⟨rfl, _⟩ := scan_unique hsc hsc'
  exact h

/-- C36 as stated, for parallel parsing. -/
def C36_full : Prop := ∀ (E : Env), Wf E → E.multi = false → ∀ (i j : Nat) (os : List Found), i < E.toks.length →
  OneModule E i j → Scan E (i + 2) os j → ∀ (np : Nat), 0 < np → SafeCuts E (i + 2) j np os →
  ∀ (sched : List Collect.Op) (o : Obj), mtModule E np sched i = .ok j (.obj o) false →
  ∀ (n : Nat) (K : Kind) (key : String), kinds[n]? = some K → K.key = some key →
  ∀ name, o.map K.field name = lastNamed os n name

/-- The object begins in the piece of worker `w`. -/
def InPiece (start stop np w : Nat) (f : Found) : Prop :=
  cut start stop np w < f.pos ∧ (w + 1 < np → f.pos < cut start stop np (w + 1))

theorem inPiece_iff {start stop np w : Nat} {f : Found} (hw : w < np) (hf : f.pos ≤ stop) :
    InPiece start stop np w f ↔ minIndex start stop np w < f.pos ∧ (f.pos : Int) ≤ maxIndex start stop np w := by
  unfold InPiece maxIndex minIndex cut
  by_cases h : w + 1 = np
  · rw [if_pos h]
    constructor
    · rintro ⟨h1, _⟩; exact ⟨h1, by omega⟩
    · rintro ⟨h1, _⟩; exact ⟨h1, fun h2 => by omega⟩
  · rw [if_neg h, Nat.mul_add]
    constructor
    · rintro ⟨h1, h2⟩
      have := h2 (by omega)
      exact ⟨h1, by omega⟩
    · rintro ⟨h1, h2⟩; exact ⟨h1, fun _ => by omega⟩

theorem inPiece_unique {start stop np w w' : Nat} {f : Found} (hw : w < np) (hw' : w' < np)
    (h : InPiece start stop np w f) (h' : InPiece start stop np w' f) : w = w' := by
  unfold InPiece cut at h h'
  rcases Nat.lt_trichotomy w w' with hlt | heq | hlt
  · have h1 := h.2 (by omega)
    have : (stop - start) / np * (w + 1) ≤ (stop - start) / np * w' := Nat.mul_le_mul_left _ (by omega)
    omega
  · exact heq
  · have h1 := h'.2 (by omega)
    have : (stop - start) / np * (w' + 1) ≤ (stop - start) / np * w := Nat.mul_le_mul_left _ (by omega)
    omega

theorem filter_fromWorker {α : Type} (P : α → Bool) (w : Nat) : ∀ (l : List (Nat × α)),
    (∀ x ∈ l, P x.2 = true → x.1 = w) → (l.map (·.2)).filter P = (Collect.fromWorker w l).filter P := by
  intro l
  induction l with
  | nil => intro _; rfl
  | cons x l ih =>
    intro h
    have ih' := ih fun y hy => h y (List.mem_cons_of_mem _ hy)
    unfold Collect.fromWorker at ih' ⊢
    by_cases hx : x.1 = w
    · simp only [List.map_cons, List.filter_cons, hx, decide_true, if_true, ih']
    · have hp : P x.2 = false := by
        cases hp : P x.2 with
        | false => rfl
        | true => exact absurd (h x (by simp) hp) hx
      simp only [List.map_cons, List.filter_cons, hx, decide_false, Bool.false_eq_true, if_false, hp, ih']

/-- C36 for parallel parsing when all definitions of the name are read by the same worker
(in particular when there is only one): the last one is found, under every schedule.
Missing: names defined in the pieces of different workers, for which it is false. -/
theorem C36_parallel_partial {E : Env} (hw : Wf E) (hs : E.multi = false) {i j : Nat} {os : List Found}
    (hi : i < E.toks.length) (h1 : OneModule E i j) (hsc : Scan E (i + 2) os j) {np : Nat}
    (hcuts : SafeCuts E (i + 2) j np os) {sched : List Collect.Op} {o : Obj}
    (hc : mtModule E np sched i = .ok j (.obj o) false) {n : Nat} {K : Kind} {key : String}
    (hn : kinds[n]? = some K) (hk : K.key = some key) {name : Str} {w : Nat} (hwn : w < np)
    (hone : ∀ f ∈ os, f.kind = n → f.name = name → InPiece (i + 2) j np w f) :
    o.map K.field name = lastNamed os n name := by
  have hmt := mtGood_seq hs
  have hpos := scan_pos hw hmt hsc
  have hfirst : ∀ y < j, E.toks[y]? ≠ some endModuleToken := fun y hy he => by
    have := h1.only y he; omega
  have hend := endIndex_eq h1.stop hfirst
  obtain ⟨c, hcn, rfl⟩ := kinds_get hn
  -- the header is read without error
  have hcur : ∀ k, k + 1 < E.toks.length → E.current k ≠ emptyToken := fun k hk he => by
    have := (hw.end_iff (i := k) (by omega)).1 he; omega
  have e1 : nextIdx E i = i + 1 := by unfold nextIdx; rw [if_pos (hasNext_iff.2 (by omega))]
  have e2 : nextIdx E (i + 1) = i + 2 := by unfold nextIdx; rw [if_pos (hasNext_iff.2 (by omega))]
  obtain ⟨o0, hh⟩ : ∃ o0, header E i = (i + 2, o0, false) := by
    unfold header
    simp only [e1, e2, if_neg (hcur (i + 1) (by omega)), if_neg (hcur (i + 2) (by omega))]
    exact ⟨_, rfl⟩
  obtain ⟨ss, s, hrun⟩ := mt_run hw hs hi hh (by omega) hc
  obtain ⟨m, hm, hmn⟩ := hrun.map_eq hcn hk
  have hom : o.map (ModCase.kind c).field = m := by
    unfold Obj.map
    show (match o c.field with | .map m => m | _ => fun _ => none) = m
    rw [hm]
  rw [hom, hmn]
  -- what the collector of the channel has received from each worker
  have hscr := hrun.scripts
  rw [hend] at hscr
  obtain ⟨ss', h3, h4, h5, _⟩ := scripts_total (np := np) hw hmt (start := i + 2) (stop := j) (by omega) (by omega)
  rw [hscr] at h3
  simp only [Option.some.injEq] at h3
  subst h3
  have hlt : n + 1 < s.chans.length := by rw [hrun.inv.clen, capacities_length]; exact channel_lt hcn
  have hch : s.chans[n + 1]? = some s.chans[n + 1] := List.getElem?_eq_getElem hlt
  obtain ⟨hd1, hd2⟩ := Collect.delivered hrun.inv hrun.fin (n + 1) _ hch
  have hscript : ∀ w' < np, ∃ sc, ss[w']? = some sc ∧
      sc = (os.filter (fun f => minIndex (i + 2) j np w' < f.pos ∧ (f.pos : Int) ≤ maxIndex (i + 2) j np w')).map msg := by
    intro w' hw'
    have h6 := h5 w' hw'
    have hl : w' < ss.length := by omega
    rw [List.getElem?_eq_getElem hl] at h6
    refine ⟨ss[w'], List.getElem?_eq_getElem hl, ?_⟩
    exact (Sends.unique ⟨_, h6.symm⟩ (worker_sends hw hmt hw' hsc hfirst hcuts))
  have hrec : received s (n + 1) = s.chans[n + 1].acc.map (·.2) := by unfold received; rw [hch]
  rw [hrec, filter_fromWorker (fun v : Val => decide (v.strField key = name)) w]
  · obtain ⟨sc, h6, h7⟩ := hscript w hwn
    rw [hd1 w sc h6, h7]
    unfold lastNamed
    have : ∀ (l : List Found), (∀ f ∈ l, f.kind = n → f.name = name → InPiece (i + 2) j np w f ∧ f.pos ≤ j) →
        (Collect.onChan (n + 1) ((l.filter (fun f => minIndex (i + 2) j np w < f.pos ∧
          (f.pos : Int) ≤ maxIndex (i + 2) j np w)).map msg)).filter (fun v : Val => decide (v.strField key = name)) =
        (l.filter (fun f => f.kind = n ∧ f.name = name)).map (·.val) := by
      intro l
      induction l with
      | nil => intro _; rfl
      | cons f l ih =>
        intro hl
        have ih' := ih fun g hg => hl g (List.mem_cons_of_mem _ hg)
        unfold Collect.onChan at ih' ⊢
        by_cases hkind : f.kind = n
        · by_cases hname : f.name = name
          · have hp := (hl f (by simp) hkind hname)
            have hp' := (inPiece_iff hwn hp.2).1 hp.1
            have hs' : f.val.strField key = name := by rw [← name_eq hcn hk hkind]; exact hname
            rw [List.filter_cons (x := f), if_pos (by simpa using hp'), List.filter_cons (x := f),
              if_pos (by simp [hkind, hname])]
            simp only [List.map_cons, msg, List.filter_cons, hkind, decide_true, if_true, hs']
            congr 1
          · have hs' : ¬ f.val.strField key = name := by rw [← name_eq hcn hk hkind]; exact hname
            rw [List.filter_cons (x := f), List.filter_cons (x := f)]
            split
            · simp only [List.map_cons, msg, List.filter_cons, hkind, decide_true, if_true, hs', decide_false,
                Bool.false_eq_true, if_false]
              simpa [hname] using ih'
            · simpa [hname] using ih'
        · rw [List.filter_cons (x := f), List.filter_cons (x := f)]
          split
          · simp only [List.map_cons, msg, List.filter_cons, Nat.add_right_cancel_iff, hkind, decide_false,
              Bool.false_eq_true, if_false]
            simpa [hkind] using ih'
          · simpa [hkind] using ih'
    rw [this os fun f hf h8 h9 => ⟨hone f hf h8 h9, by have := hpos.2.2.2 f hf; omega⟩, List.getLast?_map]
  · rintro ⟨w', v⟩ hx hv
    simp only [decide_eq_true_eq] at hv
    have hwl := hd2 _ hx
    simp only at hwl
    obtain ⟨sc, h6, h7⟩ := hscript w' (by omega)
    have h8 := hd1 w' sc h6
    have h9 : v ∈ Collect.fromWorker w' s.chans[n + 1].acc := by
      simp only [Collect.fromWorker, List.mem_map, List.mem_filter]
      exact ⟨(w', v), ⟨hx, by simp⟩, rfl⟩
    rw [h8, h7] at h9
    simp only [Collect.onChan, List.mem_map, List.mem_filter, decide_eq_true_eq] at h9
    obtain ⟨_, ⟨⟨f, ⟨hf, hfp⟩, rfl⟩, hk2⟩, rfl⟩ := h9
    simp only [msg, Nat.add_right_cancel_iff] at hk2 hv
    have hfl := hpos.2.2.2 f hf
    have hname : f.name = name := by rw [name_eq hcn hk hk2]; exact hv
    exact inPiece_unique (by omega) hwn ((inPiece_iff (by omega) (by omega)).2 hfp) (hone f hf hk2 hname)

/-- C35, last part: under every complete schedule, when the module has an end token,
every object a worker has sent is in the result under its name, unless an object of the same
kind and name has replaced it; the result has no other objects; and an error is reported just
when a worker has sent one or the module's name and description are missing. The channel of kind
`n` has the number `n + 1`, the channel of errors the number 0. -/
theorem C35_no_loss {E : Env} (hw : Wf E) (hs : E.multi = false) {np : Nat} {i : Nat}
    (hi : i < E.toks.length) {sched : List Collect.Op} {start j : Nat} {o0 o : Obj} {e0 e : Bool}
    (hh : header E i = (start, o0, e0)) (hend : start < endIndex E)
    (hc : mtModule E np sched i = .ok j (.obj o) e) :
    (∀ (n : Nat) (K : Kind) (key : String), kinds[n]? = some K → K.key = some key →
      (∀ v, Sent E np start (endIndex E) (n + 1) v → ∃ v', o.map K.field (v.strField key) = some v') ∧
      (∀ name v', o.map K.field name = some v' →
        Sent E np start (endIndex E) (n + 1) v' ∧ v'.strField key = name)) ∧
    (∀ (n : Nat) (K : Kind), kinds[n]? = some K → K.key = none →
      (∀ v, Sent E np start (endIndex E) (n + 1) v → Sent E np start (endIndex E) (n + 1) (o K.field)) ∧
      ((∀ v, ¬ Sent E np start (endIndex E) (n + 1) v) → o K.field = .zero)) ∧
    (e = true ↔ e0 = true ∨ ∃ v, Sent E np start (endIndex E) 0 v) := by
  obtain ⟨h1, h2, h3⟩ := no_loss_channels hw hs hi hh hend hc
  refine ⟨fun n K key hn hk => ?_, fun n K hn hk => ?_, h3⟩
  · obtain ⟨c, hc, rfl⟩ := kinds_get hn
    exact h1 n c key hc hk
  · obtain ⟨c, hc, rfl⟩ := kinds_get hn
    exact h2 n c hc hk

end Verif.A2l.Props
