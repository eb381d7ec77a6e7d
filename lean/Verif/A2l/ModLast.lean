import Verif.A2l.ModExamples
import Verif.Conc.CollectOrder

/-!
C36 with several workers, exactly: which of several definitions of a name can be the one found.
-/

namespace Verif.A2l.ModSpec

open Verif.Go Lang

/-- `v` is the last of the objects `os` of kind `n` with the name that begin in the piece of worker `w`. -/
def LastIn (os : List Found) (start stop np w n : Nat) (name : Str) (v : Val) : Prop :=
  ∃ f ∈ os, f.kind = n ∧ f.name = name ∧ Props.InPiece start stop np w f ∧ f.val = v ∧
    ∀ g ∈ os, g.kind = n → g.name = name → Props.InPiece start stop np w g → g.pos ≤ f.pos

end Verif.A2l.ModSpec

namespace Verif.A2l.Props
open Verif.Go Lang Verif.Conc Analysis ModSpec

/-! ### Lists -/

theorem scan_sorted {E : Env} (hw : Wf E) (hmt : MtGood E) {s j : Nat} {os : List Found} (h : Scan E s os j) : os.Pairwise (fun f g => f.pos < g.pos) := by
  induction h with
  | stop => exact .nil
  | skip _ _ _ _ _ ih => exact ih
  | @obj s e j n os K v h1 h2 h3 h4 ih =>
    refine .cons ?_ ih
    intro g hg
    have hp := scan_pos hw hmt (Scan.obj h1 h2 h3 h4)
    have h5 := hp.2.2.2 ⟨s + 1, e, n, v⟩ (by simp)
    have h6 := (scan_pos hw hmt h4).2.2.2 g hg
    simp only at h5 ⊢
    omega

/-- The last of a sorted list with a property. -/
theorem getLast_iff (P : Found → Bool) : ∀ {l : List Found}, l.Pairwise (fun f g => f.pos < g.pos) → ∀ f,
    (l.filter P).getLast? = some f ↔ f ∈ l ∧ P f = true ∧ ∀ g ∈ l, P g = true → g.pos ≤ f.pos := by
  intro l
  induction l with
  | nil => intro _ f; simp
  | cons x l ih =>
    intro hs f
    obtain ⟨hx, hl⟩ := List.pairwise_cons.1 hs
    have ih' := ih hl
    cases hlast : (l.filter P).getLast? with
    | none =>
      rw [List.getLast?_eq_none_iff] at hlast
      have hno : ∀ g ∈ l, P g ≠ true := fun g hg => List.filter_eq_nil_iff.1 hlast g hg
      rw [List.filter_cons, hlast]
      by_cases hp : P x = true
      · rw [if_pos hp]
        simp only [List.getLast?_singleton, Option.some.injEq]
        constructor
        · rintro rfl
          refine ⟨by simp, hp, fun g hg hgp => ?_⟩
          rcases List.mem_cons.1 hg with rfl | h
          · exact Nat.le_refl _
          · exact absurd hgp (hno g h)
        · rintro ⟨hf, hfp, _⟩
          rcases List.mem_cons.1 hf with rfl | h
          · rfl
          · exact absurd hfp (hno f h)
      · rw [if_neg hp]
        simp only [List.getLast?_nil, reduceCtorEq, false_iff]
        rintro ⟨hf, hfp, _⟩
        rcases List.mem_cons.1 hf with rfl | h
        · exact hp hfp
        · exact hno f h hfp
    | some y =>
      have hy := (ih' y).1 hlast
      have heq : ((x :: l).filter P).getLast? = some y := by
        rw [List.filter_cons]
        split
        · rw [List.getLast?_cons, hlast]; rfl
        · exact hlast
      rw [heq]
      constructor
      · intro h
        obtain rfl : y = f := Option.some.inj h
        refine ⟨List.mem_cons_of_mem _ hy.1, hy.2.1, fun g hg hgp => ?_⟩
        rcases List.mem_cons.1 hg with rfl | h
        · exact Nat.le_of_lt (hx y hy.1)
        · exact hy.2.2 g h hgp
      · rintro ⟨hf, hfp, hmax⟩
        rcases List.mem_cons.1 hf with rfl | h
        · have := hmax y (List.mem_cons_of_mem _ hy.1) hy.2.1
          have := hx y hy.1
          omega
        · rw [← hlast]
          exact (ih' f).2 ⟨h, hfp, fun g hg => hmax g (List.mem_cons_of_mem _ hg)⟩

/-- The last message with a property is the last one of the worker that sent it. -/
theorem last_from {α : Type} (P : α → Bool) : ∀ (l : List (Nat × α)) (v : α), ((l.map (·.2)).filter P).getLast? = some v →
    ∃ w, (w, v) ∈ l ∧ ((Collect.fromWorker w l).filter P).getLast? = some v := by
  intro l
  induction l with
  | nil => intro v h; cases h
  | cons x l ih =>
    intro v h
    cases hl : ((l.map (·.2)).filter P).getLast? with
    | some y =>
      have hv : v = y := by
        rw [List.map_cons, List.filter_cons] at h
        split at h
        · rw [List.getLast?_cons, hl] at h; exact (Option.some.inj h).symm
        · rw [hl] at h; exact (Option.some.inj h).symm
      subst hv
      obtain ⟨w, h1, h2⟩ := ih v hl
      refine ⟨w, List.mem_cons_of_mem _ h1, ?_⟩
      unfold Collect.fromWorker at h2 ⊢
      rw [List.filter_cons]
      split
      · rw [List.map_cons, List.filter_cons]
        split
        · rw [List.getLast?_cons, h2]; rfl
        · exact h2
      · exact h2
    | none =>
      rw [List.getLast?_eq_none_iff] at hl
      rw [List.map_cons, List.filter_cons, hl] at h
      split at h
      · rename_i hp
        simp only [List.getLast?_singleton, Option.some.injEq] at h
        refine ⟨x.1, by rw [← h]; exact List.mem_cons_self, ?_⟩
        have hno : ∀ y ∈ l, P y.2 ≠ true := fun y hy => List.filter_eq_nil_iff.1 hl y.2 (List.mem_map.2 ⟨y, hy, rfl⟩)
        have : (Collect.fromWorker x.1 l).filter P = [] := by
          rw [List.filter_eq_nil_iff]
          intro a ha
          simp only [Collect.fromWorker, List.mem_map, List.mem_filter] at ha
          obtain ⟨y, ⟨hy, _⟩, rfl⟩ := ha
          exact hno y hy
        have e : Collect.fromWorker x.1 (x :: l) = x.2 :: Collect.fromWorker x.1 l := by simp [Collect.fromWorker]
        rw [e, List.filter_cons, if_pos hp, this, h]
        rfl
      · cases h

/-! ### The messages of a worker -/

theorem onChan_filter {n : Nat} {c : ModCase} {key : String} (hn : channels[n]? = some c) (hk : c.key = some key) (name : Str) (Q : Found → Bool) :
    ∀ (l : List Found), (Collect.onChan (n + 1) ((l.filter Q).map msg)).filter (fun v : Val => decide (v.strField key = name)) =
      (l.filter (fun f => Q f && decide (f.kind = n) && decide (f.name = name))).map (·.val) := by
  intro l
  induction l with
  | nil => rfl
  | cons f l ih =>
    unfold Collect.onChan at ih ⊢
    rw [List.filter_cons (x := f), List.filter_cons (x := f)]
    cases hQ : Q f with
    | false => simpa using ih
    | true =>
      by_cases hkind : f.kind = n
      · have hs' : f.val.strField key = f.name := (name_eq hn hk hkind).symm
        by_cases hname : f.name = name
        · simp only [hkind, hname, decide_true, Bool.and_self, if_true, List.map_cons, msg, List.filter_cons, hs']
          rw [← ih]
        · simp only [hkind, hname, decide_true, decide_false, Bool.and_false, if_true, List.map_cons, msg, List.filter_cons, hs',
            Bool.false_eq_true, if_false]
          rw [← ih]
      · simp only [hkind, decide_false, Bool.and_false, Bool.false_and, if_true, List.map_cons, msg, List.filter_cons, Nat.add_right_cancel_iff,
          Bool.false_eq_true, if_false]
        rw [← ih]

/-- What is common to all runs over a module: the message lists of the workers. -/
structure Shares (E : Env) (i j np : Nat) (os : List Found) (ss : List (List (Nat × Val))) : Prop where
  scr : scripts E np (i + 2) (endIndex E) = some ss
  len : ss.length = np
  chan : ∀ sc ∈ ss, ∀ m ∈ sc, m.1 < (capacities np).length
  last : ∀ (n : Nat) (c : ModCase) (key : String), channels[n]? = some c → c.key = some key → ∀ name, ∀ w < np, ∃ sc, ss[w]? = some sc ∧
    ∀ v, ((Collect.onChan (n + 1) sc).filter (fun v : Val => decide (v.strField key = name))).getLast? = some v ↔ LastIn os (i + 2) j np w n name v

theorem shares {E : Env} (hw : Wf E) (hs : E.multi = false) {i j : Nat} {os : List Found} (h1 : OneModule E i j)
    (hsc : Scan E (i + 2) os j) {np : Nat} (hcuts : SafeCuts E (i + 2) j np os) : ∃ ss, Shares E i j np os ss := by
  have hmt := mtGood_seq hs
  have hpos := scan_pos hw hmt hsc
  have hfirst : ∀ y < j, E.toks[y]? ≠ some endModuleToken := fun y hy he => by
    have := h1.only y he; omega
  have hend := endIndex_eq h1.stop hfirst
  obtain ⟨ss, h3, h4, h5, h6⟩ := scripts_total (np := np) hw hmt (start := i + 2) (stop := j) (by omega) (by omega)
  refine ⟨ss, by rw [hend]; exact h3, h4, h6, ?_⟩
  intro n c key hn hk name w hwn
  have h7 := h5 w hwn
  have hl : w < ss.length := by omega
  rw [List.getElem?_eq_getElem hl] at h7
  refine ⟨ss[w], List.getElem?_eq_getElem hl, fun v => ?_⟩
  rw [Sends.unique ⟨_, h7.symm⟩ (worker_sends hw hmt hwn hsc hfirst hcuts), onChan_filter hn hk, List.getLast?_map, Option.map_eq_some_iff]
  constructor
  · rintro ⟨f, hf, rfl⟩
    obtain ⟨hf1, hf2, hf3⟩ := (getLast_iff _ (scan_sorted hw hmt hsc) f).1 hf
    simp only [Bool.and_eq_true, decide_eq_true_eq] at hf2 hf3
    have := hpos.2.2.2 f hf1
    refine ⟨f, hf1, hf2.1.2, hf2.2, (inPiece_iff hwn (by omega)).2 hf2.1.1, rfl, fun g hg hgk hgn hgp => hf3 g hg ⟨⟨?_, hgk⟩, hgn⟩⟩
    have := hpos.2.2.2 g hg
    exact (inPiece_iff hwn (by omega)).1 hgp
  · rintro ⟨f, hf1, hf2, hf3, hf4, rfl, hf5⟩
    refine ⟨f, (getLast_iff _ (scan_sorted hw hmt hsc) f).2 ⟨hf1, ?_, ?_⟩, rfl⟩
    · have := hpos.2.2.2 f hf1
      simp only [Bool.and_eq_true, decide_eq_true_eq]
      exact ⟨⟨(inPiece_iff hwn (by omega)).1 hf4, hf2⟩, hf3⟩
    · intro g hg hgp
      simp only [Bool.and_eq_true, decide_eq_true_eq] at hgp
      have := hpos.2.2.2 g hg
      exact hf5 g hg hgp.1.2 hgp.2 ((inPiece_iff hwn (by omega)).2 hgp.1.1)

/-- The header of the module is read. -/
theorem header_of {E : Env} (hw : Wf E) (hs : E.multi = false) {i j : Nat} {os : List Found} (hsc : Scan E (i + 2) os j) :
    ∃ o0, header E i = (i + 2, o0, false) := by
  have hpos := scan_pos hw (mtGood_seq hs) hsc
  have hcur : ∀ k, k + 1 < E.toks.length → E.current k ≠ emptyToken := fun k hk he => by
    have := (hw.end_iff (i := k) (by omega)).1 he; omega
  have e1 : nextIdx E i = i + 1 := by unfold nextIdx; rw [if_pos (hasNext_iff.2 (by omega))]
  have e2 : nextIdx E (i + 1) = i + 2 := by unfold nextIdx; rw [if_pos (hasNext_iff.2 (by omega))]
  unfold header
  simp only [e1, e2, if_neg (hcur (i + 1) (by omega)), if_neg (hcur (i + 2) (by omega))]
  exact ⟨_, rfl⟩

/-- **C36 with several workers.** `v` is found under the name, for some schedule, exactly if it is the last definition in the piece of some
worker. -/
theorem C36_exact {E : Env} (hw : Wf E) (hs : E.multi = false) {i j : Nat} {os : List Found}
    (hi : i < E.toks.length) (h1 : OneModule E i j) (hsc : Scan E (i + 2) os j) {np : Nat} (hnp : 0 < np)
    (hcuts : SafeCuts E (i + 2) j np os) {n : Nat} {K : Kind} {key : String} (hn : kinds[n]? = some K) (hk : K.key = some key)
    (name : Str) (v : Val) :
    (∃ (sched : List Collect.Op) (o : Obj), mtModule E np sched i = .ok j (.obj o) false ∧ o.map K.field name = some v) ↔
      ∃ w < np, LastIn os (i + 2) j np w n name v := by
  have hmt := mtGood_seq hs
  have hpos := scan_pos hw hmt hsc
  have hfirst : ∀ y < j, E.toks[y]? ≠ some endModuleToken := fun y hy he => by
    have := h1.only y he; omega
  have hend := endIndex_eq h1.stop hfirst
  obtain ⟨c, hcn, rfl⟩ := kinds_get hn
  obtain ⟨o0, hh⟩ := header_of hw hs hsc
  obtain ⟨ss, hss⟩ := shares hw hs h1 hsc hcuts
  have hmap : ∀ {o : Obj} {e : Bool} {s : Collect.State Val}, MtRun E np (i + 2) j o0 o false e ss s →
      o.map (ModCase.kind c).field name = ((received s (n + 1)).filter (fun v => v.strField key = name)).getLast? := by
    intro o e s hrun
    obtain ⟨m, hm, hmn⟩ := hrun.map_eq hcn hk
    rw [← hmn]
    unfold Obj.map
    show (match o c.field with | .map m => m | _ => fun _ => none) name = m name
    rw [hm]
  constructor
  · rintro ⟨sched, o, hc, hv⟩
    obtain ⟨ss', s, hrun⟩ := mt_run hw hs hi hh (by omega) hc
    obtain rfl : ss' = ss := Option.some.inj (hrun.scripts.symm.trans hss.scr)
    rw [hmap hrun] at hv
    have hlt : n + 1 < s.chans.length := by rw [hrun.inv.clen, capacities_length]; exact channel_lt hcn
    have hch : s.chans[n + 1]? = some s.chans[n + 1] := List.getElem?_eq_getElem hlt
    obtain ⟨hd1, hd2⟩ := Collect.delivered hrun.inv hrun.fin (n + 1) _ hch
    have hrec : received s (n + 1) = s.chans[n + 1].acc.map (·.2) := by unfold received; rw [hch]
    rw [hrec] at hv
    obtain ⟨w, hwm, hwl⟩ := last_from _ _ v hv
    have hwn : w < np := by have := hd2 _ hwm; rw [hss.len] at this; exact this
    obtain ⟨sc, hsc1, hsc2⟩ := hss.last n c key hcn hk name w hwn
    rw [hd1 w sc hsc1] at hwl
    exact ⟨w, hwn, (hsc2 v).1 hwl⟩
  · rintro ⟨w, hwn, hv⟩
    obtain ⟨sc, hsc1, hsc2⟩ := hss.last n c key hcn hk name w hwn
    obtain ⟨ops, s, hr, hf, hlast⟩ := Collect.last_worker (capacities_pos hnp) hss.chan hsc1
    have hne : mtModule E np ops i ≠ .timeout := by
      unfold mtModule
      simp only [hh]
      rw [if_neg (by omega), hss.scr]
      simp only [hr, hf, if_true]
      split <;> simp
    obtain ⟨j', o, e, hc, _, _⟩ := (C35_returns hw hs hnp hi).2 ops hne
    obtain ⟨ss', s', hr', hrun⟩ := mt_run_sched hw hs hi hh (by omega) hc
    obtain rfl : ss' = ss := Option.some.inj (hrun.scripts.symm.trans hss.scr)
    obtain rfl : s' = s := Option.some.inj (hr'.symm.trans hr)
    have hj : j' = j := by rw [hrun.idx, hend]
    subst hj
    have he : e = false := by
      rw [hrun.err]
      have : received s' 0 = [] := by
        apply List.eq_nil_iff_forall_not_mem.2
        intro v hv
        have h7 := (hrun.sent 0 v (by decide)).1 hv
        rw [hend] at h7
        obtain ⟨f, _, he⟩ := (sent_scan hw hs hnp hsc hfirst hcuts 0 v).1 h7
        simp [msg] at he
      rw [this]; rfl
    subst he
    refine ⟨ops, o, hc, ?_⟩
    rw [hmap hrun]
    have hlt : n + 1 < s'.chans.length := by rw [hrun.inv.clen, capacities_length]; exact channel_lt hcn
    have hch : s'.chans[n + 1]? = some s'.chans[n + 1] := List.getElem?_eq_getElem hlt
    obtain ⟨a, ha⟩ := hlast (n + 1) _ hch
    have hrec : received s' (n + 1) = a.map (·.2) ++ Collect.onChan (n + 1) sc := by
      unfold received; rw [hch]; simp only [ha, List.map_append, List.map_map]
      congr 1
      exact List.map_id _
    rw [hrec, List.filter_append, List.getLast?_append, (hsc2 v).2 hv]
    rfl

/-- Under every schedule some definition of a defined name is found. -/
theorem C36_found {E : Env} (hw : Wf E) (hs : E.multi = false) {i j : Nat} {os : List Found}
    (hi : i < E.toks.length) (h1 : OneModule E i j) (hsc : Scan E (i + 2) os j) {np : Nat} (hnp : 0 < np)
    (hcuts : SafeCuts E (i + 2) j np os) {n : Nat} {K : Kind} {key : String} (hn : kinds[n]? = some K) (hk : K.key = some key)
    {sched : List Collect.Op} {o : Obj} (hc : mtModule E np sched i = .ok j (.obj o) false) (name : Str) :
    (∃ v, o.map K.field name = some v) ↔ ∃ f ∈ os, f.kind = n ∧ f.name = name := by
  have hmt := mtGood_seq hs
  have hpos := scan_pos hw hmt hsc
  have hfirst : ∀ y < j, E.toks[y]? ≠ some endModuleToken := fun y hy he => by
    have := h1.only y he; omega
  have hend := endIndex_eq h1.stop hfirst
  obtain ⟨o0, hh⟩ := header_of hw hs hsc
  obtain ⟨hl, _, _⟩ := C35_no_loss hw hs hi hh (by omega) hc
  obtain ⟨h2, h3⟩ := hl n K key hn hk
  obtain ⟨c, hcn, rfl⟩ := kinds_get hn
  rw [hend] at h2 h3
  constructor
  · rintro ⟨v, hv⟩
    obtain ⟨h4, h5⟩ := h3 name v hv
    obtain ⟨f, hf, he⟩ := (sent_scan hw hs hnp hsc hfirst hcuts _ v).1 h4
    simp only [msg, Prod.mk.injEq, Nat.add_right_cancel_iff] at he
    exact ⟨f, hf, he.1.symm, by rw [name_eq hcn hk he.1.symm, ← he.2]; exact h5⟩
  · rintro ⟨f, hf, hfk, hfn⟩
    have h4 := h2 f.val ((sent_scan hw hs hnp hsc hfirst hcuts _ _).2 ⟨f, hf, by simp [msg, hfk]⟩)
    rw [← name_eq hcn hk hfk, hfn] at h4
    exact h4

/-- C36 holds for a name, under all schedules, exactly if in every piece that defines the name the last definition is the one that is last in
the file. -/
theorem C36_iff {E : Env} (hw : Wf E) (hs : E.multi = false) {i j : Nat} {os : List Found}
    (hi : i < E.toks.length) (h1 : OneModule E i j) (hsc : Scan E (i + 2) os j) {np : Nat} (hnp : 0 < np)
    (hcuts : SafeCuts E (i + 2) j np os) {n : Nat} {K : Kind} {key : String} (hn : kinds[n]? = some K) (hk : K.key = some key) (name : Str) :
    (∀ (sched : List Collect.Op) (o : Obj), mtModule E np sched i = .ok j (.obj o) false → o.map K.field name = lastNamed os n name) ↔
      ∀ w < np, ∀ v, LastIn os (i + 2) j np w n name v → lastNamed os n name = some v := by
  constructor
  · intro h w hwn v hv
    obtain ⟨sched, o, hc, ho⟩ := (C36_exact hw hs hi h1 hsc hnp hcuts hn hk name v).2 ⟨w, hwn, hv⟩
    rw [← h sched o hc, ho]
  · intro h sched o hc
    cases hv : o.map K.field name with
    | some v =>
      obtain ⟨w, hwn, hl⟩ := (C36_exact hw hs hi h1 hsc hnp hcuts hn hk name v).1 ⟨sched, o, hc, hv⟩
      exact (h w hwn v hl).symm
    | none =>
      have hno : ¬ ∃ f ∈ os, f.kind = n ∧ f.name = name := fun hf => by
        obtain ⟨v, hv'⟩ := (C36_found hw hs hi h1 hsc hnp hcuts hn hk hc name).2 hf
        rw [hv] at hv'; cases hv'
      unfold lastNamed
      have : os.filter (fun f => f.kind = n ∧ f.name = name) = [] := by
        rw [List.filter_eq_nil_iff]
        intro f hf hp
        exact hno ⟨f, hf, of_decide_eq_true hp⟩
      rw [this]; rfl

/-- Two workers, a unit defined in both pieces: each definition is found under some schedule. -/
example : ∃ (a b : Val), a.strField "longIdentifier" = (str! "\"one\"") ∧ b.strField "longIdentifier" = (str! "\"two\"") ∧
    (∃ (sched : List Collect.Op) (o : Obj), mtModule twiceFile 2 sched 0 = .ok 11 (.obj o) false ∧ o.map "Units" (str! "m") = some a) ∧
    (∃ (sched : List Collect.Op) (o : Obj), mtModule twiceFile 2 sched 0 = .ok 11 (.obj o) false ∧ o.map "Units" (str! "m") = some b) := by
  obtain ⟨v, w, h1, h2, h3, h4, hsc⟩ := twiceFile_scan
  have key := fun x => C36_exact (fileEnv_wf (by decide)) rfl (by decide) (oneModule_of (by decide +kernel)) hsc (np := 2) (by decide) (cuts_between _ v w)
    (n := 23) (K := ⟨(str! "/begin UNIT"), .parseUnit, "Units", some "name"⟩) (key := "name") rfl rfl (str! "m") x
  refine ⟨v, w, h2, h4, (key v).2 ⟨0, by decide, ?_⟩, (key w).2 ⟨1, by decide, ?_⟩⟩
  · refine ⟨⟨3, 6, 23, v⟩, by simp, rfl, h1, by simp [InPiece, cut], rfl, fun g hg _ _ hp => ?_⟩
    simp only [List.mem_cons, List.not_mem_nil, or_false] at hg
    rcases hg with rfl | rfl
    · exact Nat.le_refl _
    · simp [InPiece, cut] at hp
  · refine ⟨⟨7, 10, 23, w⟩, by simp, rfl, h3, by simp [InPiece, cut], rfl, fun g hg _ _ hp => ?_⟩
    simp only [List.mem_cons, List.not_mem_nil, or_false] at hg
    rcases hg with rfl | rfl
    · simp [InPiece, cut] at hp
    · exact Nat.le_refl _

end Verif.A2l.Props
