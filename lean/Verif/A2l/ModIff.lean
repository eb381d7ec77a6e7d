import Verif.A2l.ModLast

/-!
C34 and C36, exactly and for every module: what each worker reads of its piece decides which results the parallel parser can have, and when they
are all the result of the sequential parser. Nothing is assumed about where the cuts fall.
-/

namespace Verif.A2l.ModSpec

open Verif.Go Lang

/-- `Share E lim x os b`: a reader that starts after the token at position `x` and begins nothing at or after position `lim` finds the objects
`os`; `b` says whether it gives up because of an error (an object that is not accepted, or the end of the tokens). Where `Scan` describes a
whole module, this describes a piece of it, which can begin in the middle of an object. -/
inductive Share (E : Env) (lim : Nat) : Nat → List Found → Bool → Prop
  | limit {x : Nat} : lim ≤ x + 1 → Share E lim x [] false
  | stop {x : Nat} : x + 1 < lim → E.toks[x + 1]? = some (str! "/end MODULE") → Share E lim x [] false
  | skip {x : Nat} {os : List Found} {b : Bool} {t : Str} : x + 1 < lim → E.toks[x + 1]? = some t → t ≠ [] → t ≠ (str! "/end MODULE") →
      ¬ Opens t → Share E lim (x + 1) os b → Share E lim x os b
  | obj {x e n : Nat} {os : List Found} {b : Bool} {K : Kind} {v : Val} : x + 1 < lim → E.toks[x + 1]? = some K.tok → kinds[n]? = some K →
      Returns E K.parser (x + 1) (.ok e v false) → Share E lim e os b → Share E lim x (⟨x + 1, e, n, v⟩ :: os) b
  | bad {x e n : Nat} {K : Kind} {v : Val} : x + 1 < lim → E.toks[x + 1]? = some K.tok → kinds[n]? = some K →
      Returns E K.parser (x + 1) (.ok e v true) → Share E lim x [] true
  | eof {x : Nat} : x + 1 < lim → (E.toks[x + 1]? = none ∨ E.toks[x + 1]? = some []) → Share E lim x [] true

/-- Where the piece of worker `w` ends. -/
def pieceEnd (start stop np w : Nat) : Nat := if w + 1 = np then stop + 1 else cut start stop np (w + 1)

/-- The workers find `ps w`, and `bs w` says which of them give up. -/
def Pieces (E : Env) (start stop np : Nat) (ps : Nat → List Found) (bs : Nat → Bool) : Prop :=
  ∀ w < np, Share E (pieceEnd start stop np w) (cut start stop np w) (ps w) (bs w)

end Verif.A2l.ModSpec

namespace Verif.A2l.Props
open Verif.Go Lang Verif.Conc Analysis ModSpec

/-- The messages of a worker that finds `os`. -/
def msgs (os : List Found) (b : Bool) : List (Nat × Val) := os.map msg ++ if b then [(0, .zero)] else []

theorem share_limit {start stop np w : Nat} (x : Nat) :
    pieceEnd start stop np w ≤ x + 1 ↔ maxIndex start stop np w ≤ (x : Int) := by
  unfold pieceEnd maxIndex minIndex cut
  split
  · omega
  · rw [Nat.mul_add, Nat.mul_one]
    omega

/-- The worker sends what the specification says. -/
theorem share_sends {E : Env} (hw : Wf E) (hmt : MtGood E) {max : Int} {lim : Nat} (hlim : ∀ x : Nat, lim ≤ x + 1 ↔ max ≤ (x : Int)) {x : Nat}
    {os : List Found} {b : Bool} (h : Share E lim x os b) : x < E.toks.length → Sends E max x (msgs os b) := by
  induction h with
  | @limit x h => intro _; exact Sends.stop ((hlim x).1 h)
  | @stop x h1 h2 => intro _; exact Sends.ended (fun h => by have := (hlim x).2 h; omega) h2
  | @skip x os b t h1 h2 h3 h4 h5 _ ih =>
    intro _
    exact Sends.skip (fun h => by have := (hlim x).2 h; omega) h2 h3 h4 h5 (ih (List.getElem?_eq_some_iff.1 h2).1)
  | @obj x e n os b K v h1 h2 h3 h4 _ ih =>
    intro _
    have hlt : x + 1 < E.toks.length := (List.getElem?_eq_some_iff.1 h2).1
    obtain ⟨c, hc, rfl⟩ := kinds_get h3
    obtain ⟨j, v', e', hp, hr', _, hjl, _⟩ := Props.parse_ok hw hmt c.parser (case_not_mt (List.mem_of_getElem? hc)) (x + 1) hlt
    have hu := h4.unique hr'
    simp only [PRes.ok.injEq] at hu
    obtain ⟨rfl, rfl, rfl⟩ := hu
    exact Sends.obj hw hmt (fun h => by have := (hlim x).2 h; omega) h2 h3 h4 (ih hjl)
  | @bad x e n K v h1 h2 h3 h4 =>
    intro _
    obtain ⟨c, hc, rfl⟩ := kinds_get h3
    obtain ⟨e1, e2, e3⟩ := Sends.next h2
    have hlt : x + 1 < E.toks.length := (List.getElem?_eq_some_iff.1 h2).1
    obtain ⟨j, v', e', hp, hr', _⟩ := Props.parse_ok hw hmt c.parser (case_not_mt (List.mem_of_getElem? hc)) (x + 1) hlt
    have hu := h4.unique hr'
    have hf : findCase (ModCase.kind c).tok 1 channels = some (1 + n, c) := findCase_get channels 1 n c tokens_nodup hc
    have hx : ¬ max ≤ (x : Int) := fun h => by have := (hlim x).2 h; omega
    refine ⟨1, ?_⟩
    simp only [worker, if_neg hx, e1, e2, hf, hp, ← hu, if_true]
    rfl
  | @eof x h1 h2 =>
    intro hxl
    have hx : ¬ max ≤ (x : Int) := fun h => by have := (hlim x).2 h; omega
    have hnone : findCase emptyToken 1 channels = none := by
      rw [findCase_none]
      intro c hc
      exact (case_tok hc).1
    refine ⟨1, ?_⟩
    rcases h2 with h2 | h2
    · have hlen : E.toks.length ≤ x + 1 := List.getElem?_eq_none_iff.1 h2
      have hn : E.hasNext x = false := by
        cases hh : E.hasNext x with
        | false => rfl
        | true => have := hasNext_iff.1 hh; omega
      have hcur : E.current x = emptyToken := (hw.end_iff hxl).2 (by omega)
      simp only [worker, if_neg hx, nextIdx, nextTok, hn, Bool.false_eq_true, if_false, hnone, hcur, if_true]
      rfl
    · obtain ⟨e1, e2, e3⟩ := Sends.next h2
      have hnone' : findCase ([] : Str) 1 channels = none := hnone
      have e4 : E.current (x + 1) = emptyToken := e3
      simp only [worker, if_neg hx, e1, e2, e4, hnone', if_true]
      rfl

/-- Every piece is described by the specification. -/
theorem share_total {E : Env} (hw : Wf E) (hmt : MtGood E) (lim : Nat) : ∀ (f x : Nat), x < E.toks.length → E.toks.length - x < f →
    ∃ os b, Share E lim x os b := by
  intro f
  induction f with
  | zero => intro x _ h; omega
  | succ f ih =>
    intro x hx hf
    by_cases hl : lim ≤ x + 1
    · exact ⟨_, _, .limit hl⟩
    · have hl' : x + 1 < lim := by omega
      cases ht : E.toks[x + 1]? with
      | none => exact ⟨_, _, .eof hl' (Or.inl ht)⟩
      | some t =>
        have hlt : x + 1 < E.toks.length := (List.getElem?_eq_some_iff.1 ht).1
        by_cases h0 : t = []
        · subst h0; exact ⟨_, _, .eof hl' (Or.inr ht)⟩
        · by_cases he : t = (str! "/end MODULE")
          · subst he; exact ⟨_, _, .stop hl' ht⟩
          · by_cases ho : Opens t
            · obtain ⟨K, hK, rfl⟩ := ho
              obtain ⟨n, hnl, hKn⟩ := List.getElem_of_mem hK
              have hn : kinds[n]? = some K := by rw [List.getElem?_eq_getElem hnl, hKn]
              obtain ⟨c, hc, rfl⟩ := kinds_get hn
              obtain ⟨j, v, e, _, hr, hle, hjl, _⟩ := Props.parse_ok hw hmt c.parser (case_not_mt (List.mem_of_getElem? hc)) (x + 1) hlt
              cases e with
              | true => exact ⟨_, _, .bad hl' ht hn hr⟩
              | false =>
                obtain ⟨os, b, hs⟩ := ih j hjl (by omega)
                exact ⟨_, _, .obj hl' ht hn hr hs⟩
            · obtain ⟨os, b, hs⟩ := ih (x + 1) hlt (by omega)
              exact ⟨_, _, .skip hl' ht h0 he ho hs⟩

theorem pieces_total {E : Env} (hw : Wf E) (hs : E.multi = false) {start stop : Nat} (h1 : start ≤ stop) (h2 : stop < E.toks.length) (np : Nat) :
    ∃ ps bs, Pieces E start stop np ps bs := by
  have h : ∀ w, ∃ p : List Found × Bool, w < np → Share E (pieceEnd start stop np w) (cut start stop np w) p.1 p.2 := by
    intro w
    by_cases hwn : w < np
    · have := minIndex_le h1 hwn
      obtain ⟨os, b, hsh⟩ := share_total hw (mtGood_seq hs) (pieceEnd start stop np w) _ (cut start stop np w)
        (show cut start stop np w < _ by unfold cut; unfold minIndex at this; omega) (Nat.lt_succ_self _)
      exact ⟨(os, b), fun _ => hsh⟩
    · exact ⟨([], false), fun h => absurd h hwn⟩
  exact ⟨fun w => (Classical.choose (h w)).1, fun w => (Classical.choose (h w)).2, fun w hw => Classical.choose_spec (h w) hw⟩

/-- The scripts of the workers. -/
theorem pieces_scripts {E : Env} (hw : Wf E) (hs : E.multi = false) {start stop np : Nat} (h1 : start ≤ stop) (h2 : stop < E.toks.length)
    {ps : Nat → List Found} {bs : Nat → Bool} (hp : Pieces E start stop np ps bs) :
    ∃ ss, scripts E np start stop = some ss ∧ ss.length = np ∧ (∀ w < np, ss[w]? = some (msgs (ps w) (bs w))) ∧
      ∀ sc ∈ ss, ∀ m ∈ sc, m.1 < (capacities np).length := by
  have hmt := mtGood_seq hs
  obtain ⟨ss, h3, h4, h5, h6⟩ := scripts_total (np := np) hw hmt h1 h2
  refine ⟨ss, h3, h4, fun w hwn => ?_, h6⟩
  have h7 := h5 w hwn
  have hl : w < ss.length := by omega
  rw [List.getElem?_eq_getElem hl] at h7 ⊢
  have hlt : minIndex start stop np w < E.toks.length := by have := minIndex_le h1 hwn; omega
  have h8 := share_sends hw hmt (max := maxIndex start stop np w) (fun x => share_limit x) (hp w hwn) hlt
  rw [Sends.unique ⟨_, h7.symm⟩ h8]

theorem filter_true {α : Type} (l : List α) : l.filter (fun _ => true) = l := by
  rw [List.filter_eq_self]; intro _ _; rfl

/-- Parse functions return objects. -/
theorem returns_nonzero {E : Env} {p : PName} (hp : p ≠ .parseModuleMultithreaded) {i j : Nat} {v : Val} {e : Bool}
    (h : Returns E p i (.ok j v e)) : v ≠ .zero := by
  obtain ⟨_, n, d, h⟩ := h
  have h1 := h n (d + 1) (Nat.le_refl _) (Nat.le_succ _)
  simp only [run, if_neg hp] at h1
  rintro rfl
  cases hx : exec E (run E n d) n (body p) (St.init i) with
  | ok s f => rw [hx] at h1; simp [finish] at h1
  | panic => rw [hx] at h1; simp [finish] at h1
  | timeout => rw [hx] at h1; simp [finish] at h1

theorem nonzero {E : Env} {lim x : Nat} {os : List Found} {b : Bool} (h : Share E lim x os b) : ∀ f ∈ os, f.val ≠ .zero := by
  induction h with
  | obj _ _ h3 h4 _ ih =>
    intro f hf
    rcases List.mem_cons.1 hf with rfl | hf
    · obtain ⟨c, hc, rfl⟩ := kinds_get h3
      exact returns_nonzero (case_not_mt (List.mem_of_getElem? hc)) h4
    · exact ih f hf
  | skip _ _ _ _ _ _ ih => exact ih
  | limit _ => intro f hf; cases hf
  | stop _ _ => intro f hf; cases hf
  | bad _ _ _ _ => intro f hf; cases hf
  | eof _ _ => intro f hf; cases hf

theorem nonzero_scan {E : Env} {s j : Nat} {os : List Found} (h : Scan E s os j) : ∀ f ∈ os, f.val ≠ .zero := by
  induction h with
  | stop => intro f hf; cases hf
  | skip _ _ _ _ _ ih => exact ih
  | obj _ h3 h4 _ ih =>
    intro f hf
    rcases List.mem_cons.1 hf with rfl | hf
    · obtain ⟨c, hc, rfl⟩ := kinds_get h3
      exact returns_nonzero (case_not_mt (List.mem_of_getElem? hc)) h4
    · exact ih f hf

/-! ### The messages on a channel -/

theorem onChan_msgs (n : Nat) (P : Val → Bool) (Q : Found → Bool) (hPQ : ∀ f : Found, f.kind = n → P f.val = Q f) (b : Bool) : ∀ (os : List Found),
    (Collect.onChan (n + 1) (msgs os b)).filter P = (os.filter (fun f => decide (f.kind = n) && Q f)).map (·.val) := by
  intro os
  induction os with
  | nil => cases b <;> rfl
  | cons f os ih =>
    unfold msgs Collect.onChan at ih ⊢
    rw [List.map_cons, List.cons_append, List.filter_cons]
    by_cases hk : f.kind = n
    · have hm : (msg f).1 = n + 1 := by simp [msg, hk]
      rw [if_pos (by simp [hm]), List.map_cons, List.filter_cons, List.filter_cons]
      have hv : (msg f).2 = f.val := rfl
      rw [hv, hPQ f hk]
      cases hQ : Q f with
      | true => simp only [if_true, hk, decide_true, Bool.and_self, List.map_cons, ih]
      | false => simp only [Bool.false_eq_true, if_false, Bool.and_false, ih]
    · have hm : ¬ (msg f).1 = n + 1 := by simp [msg, hk]
      rw [if_neg (by simp [hm]), ih, List.filter_cons]
      simp [hk]

theorem onChan_errors (os : List Found) (b : Bool) : Collect.onChan 0 (msgs os b) = if b then [.zero] else [] := by
  unfold msgs Collect.onChan
  rw [List.filter_append]
  have : (os.map msg).filter (fun m => decide (m.1 = 0)) = [] := by
    rw [List.filter_eq_nil_iff]
    intro m hm
    obtain ⟨f, _, rfl⟩ := List.mem_map.1 hm
    simp [msg]
  rw [this]
  cases b <;> rfl

theorem last_named {n : Nat} {c : ModCase} {key : String} (hn : channels[n]? = some c) (hk : c.key = some key) (os : List Found) (b : Bool)
    (name : Str) : ((Collect.onChan (n + 1) (msgs os b)).filter (fun v : Val => decide (v.strField key = name))).getLast? = lastNamed os n name := by
  rw [onChan_msgs n _ (fun f => decide (f.name = name)) (fun f hf => by rw [name_eq hn hk hf]), List.getLast?_map]
  unfold lastNamed
  congr 3
  funext f
  simp

theorem last_of (n : Nat) (os : List Found) (b : Bool) :
    ((Collect.onChan (n + 1) (msgs os b)).filter (fun _ : Val => true)).getLast? = lastOf os n := by
  rw [onChan_msgs n _ (fun _ => true) (fun _ _ => rfl), List.getLast?_map]
  unfold lastOf
  congr 3
  funext f
  simp

/-! ### What can be received last -/

/-- A run that is complete, seen from one channel: what is received last is the last message of some worker. -/
theorem received_last {E : Env} {np start j : Nat} {o0 o : Obj} {e0 e : Bool} {ss : List (List (Nat × Val))} {s : Collect.State Val}
    (hrun : MtRun E np start j o0 o e0 e ss s) {ps : Nat → List Found} {bs : Nat → Bool} (hlen : ss.length = np)
    (hss : ∀ w < np, ss[w]? = some (msgs (ps w) (bs w))) {k : Nat} (hk : k < 27) (P : Val → Bool) :
    (∀ v, ((received s k).filter P).getLast? = some v → ∃ w < np, ((Collect.onChan k (msgs (ps w) (bs w))).filter P).getLast? = some v) ∧
    (((received s k).filter P).getLast? = none → ∀ w < np, ((Collect.onChan k (msgs (ps w) (bs w))).filter P).getLast? = none) := by
  have hlt : k < s.chans.length := by rw [hrun.inv.clen, capacities_length]; exact hk
  have hch : s.chans[k]? = some s.chans[k] := List.getElem?_eq_getElem hlt
  obtain ⟨hd1, hd2⟩ := Collect.delivered hrun.inv hrun.fin k _ hch
  have hrec : received s k = s.chans[k].acc.map (·.2) := by unfold received; rw [hch]
  constructor
  · intro v hv
    rw [hrec] at hv
    obtain ⟨w, hwm, hwl⟩ := last_from _ _ v hv
    have hwn : w < np := by have := hd2 _ hwm; rw [hlen] at this; exact this
    rw [hd1 w _ (hss w hwn)] at hwl
    exact ⟨w, hwn, hwl⟩
  · intro hno w hwn
    rw [List.getLast?_eq_none_iff, List.filter_eq_nil_iff] at hno ⊢
    intro v hv
    apply hno
    rw [← hd1 w _ (hss w hwn)] at hv
    simp only [Collect.fromWorker, List.mem_map, List.mem_filter] at hv
    obtain ⟨y, ⟨hy, _⟩, rfl⟩ := hv
    rw [hrec]
    exact List.mem_map.2 ⟨y, hy, rfl⟩

/-- For every worker there is a complete call in which its messages are received last. -/
theorem worker_last {E : Env} (hw : Wf E) (hs : E.multi = false) {i : Nat} (hi : i < E.toks.length) {np : Nat} (hnp : 0 < np) {o0 : Obj} {e0 : Bool}
    {start : Nat} (hh : header E i = (start, o0, e0)) (hend : start < endIndex E) {ss : List (List (Nat × Val))}
    (hscr : scripts E np start (endIndex E) = some ss) (hchan : ∀ sc ∈ ss, ∀ m ∈ sc, m.1 < (capacities np).length) {w : Nat}
    {sc : List (Nat × Val)} (hsc : ss[w]? = some sc) :
    ∃ (sched : List Collect.Op) (o : Obj) (e : Bool) (s : Collect.State Val), mtModule E np sched i = .ok (endIndex E) (.obj o) e ∧
      MtRun E np start (endIndex E) o0 o e0 e ss s ∧ ∀ k < 27, ∀ P : Val → Bool, ((Collect.onChan k sc).filter P).getLast? ≠ none →
        ((received s k).filter P).getLast? = ((Collect.onChan k sc).filter P).getLast? := by
  obtain ⟨ops, s, hr, hf, hlast⟩ := Collect.last_worker (capacities_pos hnp) hchan hsc
  have hne : mtModule E np ops i ≠ .timeout := by
    unfold mtModule
    simp only [hh]
    rw [if_neg (by omega), hscr]
    simp only [hr, hf, if_true]
    split <;> simp
  obtain ⟨j', o, e, hc, _, _⟩ := (C35_returns hw hs hnp hi).2 ops hne
  obtain ⟨ss', s', hr', hrun⟩ := mt_run_sched hw hs hi hh hend hc
  obtain rfl : ss' = ss := Option.some.inj (hrun.scripts.symm.trans hscr)
  obtain rfl : s' = s := Option.some.inj (hr'.symm.trans hr)
  have hj : j' = endIndex E := hrun.idx
  subst hj
  refine ⟨ops, o, e, s', hc, hrun, fun k hk P hne' => ?_⟩
  have hlt : k < s'.chans.length := by rw [hrun.inv.clen, capacities_length]; exact hk
  have hch : s'.chans[k]? = some s'.chans[k] := List.getElem?_eq_getElem hlt
  obtain ⟨a, ha⟩ := hlast k _ hch
  have hrec : received s' k = a.map (·.2) ++ Collect.onChan k sc := by
    unfold received; rw [hch]; simp only [ha, List.map_append, List.map_map]
    congr 1
    exact List.map_id _
  rw [hrec, List.filter_append, List.getLast?_append]
  cases h : ((Collect.onChan k sc).filter P).getLast? with
  | none => exact absurd h hne'
  | some v => rfl

/-! ### The theorems -/

/-- The header of the module has been read and its objects begin before its end. -/
theorem header_of_module {E : Env} (hw : Wf E) {i j : Nat} (hij : i + 2 < j) (hj : j < E.toks.length) : ∃ o0, header E i = (i + 2, o0, false) := by
  have hcur : ∀ k, k + 1 < E.toks.length → E.current k ≠ emptyToken := fun k hk he => by
    have := (hw.end_iff (i := k) (by omega)).1 he; omega
  have e1 : nextIdx E i = i + 1 := by unfold nextIdx; rw [if_pos (hasNext_iff.2 (by omega))]
  have e2 : nextIdx E (i + 1) = i + 2 := by unfold nextIdx; rw [if_pos (hasNext_iff.2 (by omega))]
  unfold header
  simp only [e1, e2, if_neg (hcur (i + 1) (by omega)), if_neg (hcur (i + 2) (by omega))]
  exact ⟨_, rfl⟩

/-- **C36 for every module.** Whatever the module contains and wherever the cuts fall: `v` is found under the name, for some schedule, exactly if
it is the last object of the name that some worker finds in its piece; and the result has an error, under every schedule, exactly if some worker
gives up. -/
theorem C36_pieces {E : Env} (hw : Wf E) (hs : E.multi = false) {i j : Nat} (hi : i + 2 < j) (h1 : OneModule E i j) {np : Nat} (hnp : 0 < np)
    {ps : Nat → List Found} {bs : Nat → Bool} (hp : Pieces E (i + 2) j np ps bs) :
    (∀ (n : Nat) (K : Kind) (key : String), kinds[n]? = some K → K.key = some key → ∀ (name : Str) (v : Val),
      (∃ (sched : List Collect.Op) (o : Obj) (e : Bool), mtModule E np sched i = .ok j (.obj o) e ∧ o.map K.field name = some v) ↔
        ∃ w < np, lastNamed (ps w) n name = some v) ∧
    (∀ (sched : List Collect.Op) (o : Obj) (e : Bool), mtModule E np sched i = .ok j (.obj o) e → (e = true ↔ ∃ w < np, bs w = true)) := by
  have hmt := mtGood_seq hs
  have hj : j < E.toks.length := (List.getElem?_eq_some_iff.1 h1.stop).1
  have hfirst : ∀ y < j, E.toks[y]? ≠ some endModuleToken := fun y hy he => by
    have := h1.only y he; omega
  have hend := endIndex_eq h1.stop hfirst
  obtain ⟨o0, hh⟩ := header_of_module hw hi hj
  obtain ⟨ss, hscr, hlen, hss, hchan⟩ := pieces_scripts hw hs (Nat.le_of_lt hi) hj hp
  have hscr' : scripts E np (i + 2) (endIndex E) = some ss := by rw [hend]; exact hscr
  constructor
  · intro n K key hn hk name v
    obtain ⟨c, hcn, rfl⟩ := kinds_get hn
    have hmap : ∀ {j' : Nat} {o : Obj} {e : Bool} {s : Collect.State Val}, MtRun E np (i + 2) j' o0 o false e ss s →
        o.map (ModCase.kind c).field name = ((received s (n + 1)).filter (fun v => v.strField key = name)).getLast? := by
      intro j' o e s hrun
      obtain ⟨m, hm, hmn⟩ := hrun.map_eq hcn hk
      rw [← hmn]
      unfold Obj.map
      show (match o c.field with | .map m => m | _ => fun _ => none) name = m name
      rw [hm]
    constructor
    · rintro ⟨sched, o, e, hc, hv⟩
      obtain ⟨ss', s, hrun⟩ := mt_run hw hs (by omega) hh (by omega) hc
      obtain rfl : ss' = ss := Option.some.inj (hrun.scripts.symm.trans hscr')
      rw [hmap hrun] at hv
      obtain ⟨w, hwn, hwl⟩ := (received_last hrun hlen hss (channel_lt hcn) _).1 v hv
      rw [last_named hcn hk] at hwl
      exact ⟨w, hwn, hwl⟩
    · rintro ⟨w, hwn, hv⟩
      obtain ⟨sched, o, e, s, hc, hrun, hl⟩ := worker_last hw hs (by omega) hnp hh (by omega) hscr' hchan (hss w hwn)
      have h3 := last_named hcn hk (ps w) (bs w) name
      have h2 := hl (n + 1) (channel_lt hcn) (fun v => decide (v.strField key = name)) (by rw [h3, hv]; simp)
      rw [hend] at hc
      exact ⟨sched, o, e, hc, by rw [hmap hrun, h2, h3, hv]⟩
  · intro sched o e hc
    obtain ⟨ss', s, hrun⟩ := mt_run hw hs (by omega) hh (by omega) hc
    obtain rfl : ss' = ss := Option.some.inj (hrun.scripts.symm.trans hscr')
    have h2 := received_last hrun hlen hss (k := 0) (by decide) (fun _ => true)
    have ht : ∀ l : List Val, l.filter (fun _ => true) = l := filter_true
    rw [ht] at h2
    rw [hrun.err]
    simp only [Bool.false_or, Bool.not_eq_true', List.isEmpty_eq_false_iff]
    constructor
    · intro hne
      cases hl : (received s 0).getLast? with
      | none => rw [List.getLast?_eq_none_iff] at hl; exact absurd hl hne
      | some v =>
        obtain ⟨w, hwn, hwl⟩ := h2.1 v hl
        refine ⟨w, hwn, ?_⟩
        rw [onChan_errors] at hwl
        cases hb : bs w with
        | true => rfl
        | false => rw [hb] at hwl; cases hwl
    · rintro ⟨w, hwn, hb⟩ hnil
      have := h2.2 (by rw [hnil]; rfl) w hwn
      rw [onChan_errors, hb] at this
      cases this

/-- **C34 exactly.** The parallel parser gives the result of the sequential parser under every schedule just if no worker gives up, every object
that a worker finds last under a name in its piece is also the last one in the file, and every name of the file is found by some worker. -/
theorem C34_iff {E : Env} (hw : Wf E) (hs : E.multi = false) {i j : Nat} {o : Obj} (h1 : OneModule E i j)
    (hseq : Returns E .parseModule i (.ok j (.obj o) false)) {os : List Found} (hsc : Scan E (i + 2) os j) {np : Nat} (hnp : 0 < np)
    {ps : Nat → List Found} {bs : Nat → Bool} (hp : Pieces E (i + 2) j np ps bs) :
    (∀ (sched : List Collect.Op), mtModule E np sched i ≠ .timeout → mtModule E np sched i = .ok j (.obj o) false) ↔
      (∀ w < np, bs w = false) ∧ ∀ n name,
        (∀ w < np, ∀ v, lastNamed (ps w) n name = some v → lastNamed os n name = some v) ∧
        (∀ v, lastNamed os n name = some v → ∃ w < np, ∃ v', lastNamed (ps w) n name = some v') := by
  have hmt := mtGood_seq hs
  have hpos := scan_pos hw hmt hsc
  have hij : i + 2 < j := hpos.1
  have hj : j < E.toks.length := hpos.2.1
  have hfirst : ∀ y < j, E.toks[y]? ≠ some endModuleToken := fun y hy he => by
    have := h1.only y he; omega
  have hend := endIndex_eq h1.stop hfirst
  have hi : i < E.toks.length := by omega
  obtain ⟨jj, v', e', hpp, hr, _⟩ := parse_ok hw hmt .parseModule (by decide) i hi
  rw [← hseq.unique hr] at hpp
  obtain ⟨os', o0, hh, hmaps, hsc', ho⟩ := seq_module hw hmt hi h1.header hpp
  obtain ⟨rfl, _⟩ := scan_unique hsc hsc'
  obtain ⟨ss, hscr, hlen, hss, hchan⟩ := pieces_scripts hw hs (Nat.le_of_lt hij) hj hp
  have hscr' : scripts E np (i + 2) (endIndex E) = some ss := by rw [hend]; exact hscr
  obtain ⟨hq1, hq2⟩ := C36_sequential_partial hw hs hi h1 hseq hsc
  have hsome : ∀ {os' : List Found} {n : Nat} {name : Str} {v : Val}, lastNamed os' n name = some v →
      ∃ f ∈ os', f.kind = n ∧ f.name = name ∧ f.val = v := by
    intro os' n name v h
    unfold lastNamed at h
    rw [Option.map_eq_some_iff] at h
    obtain ⟨f, hf, rfl⟩ := h
    have := List.mem_filter.1 (List.mem_of_getLast? hf)
    simp only [Bool.decide_and, Bool.and_eq_true, decide_eq_true_eq] at this
    exact ⟨f, this.1, this.2.1, this.2.2, rfl⟩
  -- kinds of which there is one: all names are empty
  have hone : ∀ {n : Nat} {c : ModCase}, channels[n]? = some c → c.key = none → ∀ os' : List Found, lastNamed os' n [] = lastOf os' n := by
    intro n c hn hk os'
    unfold lastNamed lastOf
    congr 2
    apply List.filter_congr
    intro f _
    by_cases hf : f.kind = n
    · simp [hf, name_none hn hk hf]
    · simp [hf]
  -- objects that the workers find have kinds of the list
  have hkindS : ∀ {lim x : Nat} {os' : List Found} {b : Bool}, Share E lim x os' b → ∀ f ∈ os', ∃ c, channels[f.kind]? = some c := by
    intro lim x os' b h
    induction h with
    | obj _ _ h3 _ _ ih =>
      intro f hf
      rcases List.mem_cons.1 hf with rfl | hf
      · obtain ⟨c, hc, _⟩ := kinds_get h3; exact ⟨c, hc⟩
      · exact ih f hf
    | skip _ _ _ _ _ _ ih => exact ih
    | limit _ => intro f hf; cases hf
    | stop _ _ => intro f hf; cases hf
    | bad _ _ _ _ => intro f hf; cases hf
    | eof _ _ => intro f hf; cases hf
  have hkindO : ∀ {s j : Nat} {os' : List Found}, Scan E s os' j → ∀ f ∈ os', ∃ c, channels[f.kind]? = some c := by
    intro s j os' h
    induction h with
    | stop => intro f hf; cases hf
    | skip _ _ _ _ _ ih => exact ih
    | obj _ h3 _ _ ih =>
      intro f hf
      rcases List.mem_cons.1 hf with rfl | hf
      · obtain ⟨c, hc, _⟩ := kinds_get h3; exact ⟨c, hc⟩
      · exact ih f hf
  have hmap : ∀ {n : Nat} {c : ModCase} {key : String} {j' : Nat} {o : Obj} {e : Bool} {s : Collect.State Val}, channels[n]? = some c →
      c.key = some key → MtRun E np (i + 2) j' o0 o false e ss s → ∀ name,
      o.map (ModCase.kind c).field name = ((received s (n + 1)).filter (fun v => decide (v.strField key = name))).getLast? := by
    intro n c key j' o e s hcn hk hrun name
    obtain ⟨m, hm, hmn⟩ := hrun.map_eq hcn hk
    rw [← hmn]
    unfold Obj.map
    show (match o c.field with | .map m => m | _ => fun _ => none) name = m name
    rw [hm]
  constructor
  · intro hall
    have hrunOf : ∀ {sched : List Collect.Op} {o' : Obj} {e : Bool}, mtModule E np sched i = .ok (endIndex E) (.obj o') e → o' = o ∧ e = false := by
      intro sched o' e hc
      have := hall sched (by rw [hc]; simp)
      rw [hc] at this
      simp only [PRes.ok.injEq, Val.obj.injEq] at this
      exact this.2
    -- a complete run
    obtain ⟨sched0, hne0⟩ := (C35_returns hw hs hnp hi).1
    have hc0 := hall sched0 hne0
    obtain ⟨ss', s0, hrun0⟩ := mt_run hw hs hi hh (by omega) hc0
    obtain rfl : ss' = ss := Option.some.inj (hrun0.scripts.symm.trans hscr')
    refine ⟨fun w hwn => ?_, fun n name => ⟨fun w hwn v hv => ?_, fun v hv => ?_⟩⟩
    · cases hb : bs w with
      | false => rfl
      | true =>
        have := ((C36_pieces hw hs hij h1 hnp hp).2 sched0 o false hc0).2 ⟨w, hwn, hb⟩
        cases this
    · obtain ⟨f, hf, hfk, hfn, hfv⟩ := hsome hv
      obtain ⟨c, hc⟩ := hkindS (hp w hwn) f hf
      rw [hfk] at hc
      obtain ⟨sched, o', e, s, hres, hrun, hl⟩ := worker_last hw hs hi hnp hh (by omega) hscr' hchan (hss w hwn)
      obtain ⟨rfl, rfl⟩ := hrunOf hres
      cases hk : c.key with
      | some key =>
        have h3 := last_named hc hk (ps w) (bs w) name
        have h2 := hl (n + 1) (channel_lt hc) (fun v => decide (v.strField key = name)) (by rw [h3, hv]; simp)
        rw [← hq1 n c.kind key (get_kinds hc) hk name, hmap hc hk hrun, h2, h3, hv]
      | none =>
        have hnil : name = [] := by rw [← hfn]; exact name_none hc hk hfk
        subst hnil
        rw [hone hc hk] at hv ⊢
        have h3 := last_of n (ps w) (bs w)
        have h2 := hl (n + 1) (channel_lt hc) (fun _ => true) (by rw [h3, hv]; simp)
        rw [filter_true, h3, hv] at h2
        have h4 := hrun.single_eq hc hk
        rw [h2] at h4
        have h5 := hq2 n c.kind (get_kinds hc) hk
        have h6 : o' (ModCase.kind c).field = o' c.field := rfl
        rw [h6, h4] at h5
        cases hlo : lastOf os n with
        | some v2 => rw [hlo] at h5; exact congrArg some h5.symm
        | none =>
          -- `v` would be the zero value, which no parser returns
          rw [hlo] at h5
          simp only [Option.getD_some, Option.getD_none] at h5
          exact (nonzero (hp w hwn) f hf (by rw [hfv]; exact h5)).elim
    · obtain ⟨f, hf, hfk, hfn, hfv⟩ := hsome hv
      obtain ⟨c, hc⟩ := hkindO hsc f hf
      rw [hfk] at hc
      cases hk : c.key with
      | some key =>
        have h2 := hq1 n c.kind key (get_kinds hc) hk name
        rw [hv] at h2
        obtain ⟨w, hwn, hl⟩ := ((C36_pieces hw hs hij h1 hnp hp).1 n c.kind key (get_kinds hc) hk name v).1 ⟨sched0, o, false, hc0, h2⟩
        exact ⟨w, hwn, v, hl⟩
      | none =>
        have hnil : name = [] := by rw [← hfn]; exact name_none hc hk hfk
        subst hnil
        rw [hone hc hk] at hv
        have h5 := hq2 n c.kind (get_kinds hc) hk
        rw [hv] at h5
        have h4 := hrun0.single_eq hc hk
        have h6 : o (ModCase.kind c).field = o c.field := rfl
        rw [h6, h4] at h5
        cases hl : (received s0 (n + 1)).getLast? with
        | some v2 =>
          obtain ⟨w, hwn, hwl⟩ := (received_last hrun0 hlen hss (channel_lt hc) (fun _ => true)).1 v2 (by rw [filter_true]; exact hl)
          rw [last_of] at hwl
          exact ⟨w, hwn, v2, by rw [hone hc hk]; exact hwl⟩
        | none =>
          rw [hl] at h5
          simp only [Option.getD_some, Option.getD_none] at h5
          exact (nonzero_scan hsc f hf (by rw [hfv]; exact h5.symm)).elim
  · rintro ⟨hb, hcrit⟩ sched hc
    obtain ⟨j2, o2, e2, hres, _, _⟩ := (C35_returns hw hs hnp hi).2 sched hc
    obtain ⟨ss', s, hrun⟩ := mt_run hw hs hi hh (by omega) hres
    obtain rfl : ss' = ss := Option.some.inj (hrun.scripts.symm.trans hscr')
    have hj2 : j2 = j := by rw [hrun.idx, hend]
    subst hj2
    have he2 : e2 = false := by
      cases he : e2 with
      | false => rfl
      | true =>
        subst he
        obtain ⟨w, hwn, h⟩ := ((C36_pieces hw hs hij h1 hnp hp).2 sched o2 true hres).1 rfl
        rw [hb w hwn] at h; cases h
    subst he2
    have herr : received s 0 = [] := by
      have := hrun.err
      simp only [Bool.false_or, Bool.false_eq, Bool.not_eq_false', List.isEmpty_iff] at this
      exact this
    have hobj : o2 = o := by
      funext g
      by_cases hg : g ∈ channels.map (·.field)
      · obtain ⟨c, hcm, rfl⟩ := List.mem_map.1 hg
        obtain ⟨n, hnl, hce⟩ := List.getElem_of_mem hcm
        have hn : channels[n]? = some c := by rw [List.getElem?_eq_getElem hnl, hce]
        cases hk : c.key with
        | some key =>
          obtain ⟨m, hm, hmn⟩ := hrun.map_eq hn hk
          obtain ⟨m', hm', hmn'⟩ := seq_map hn hk os o0 (fun _ => none) (by
            rw [hrun.init n c hn, newModule_fields.1 _ (key_field hn hk)])
          rw [hm, ho, hm']
          congr 1
          funext name
          rw [hmn, hmn']
          simp only [Option.or_none]
          have hr2 := received_last hrun hlen hss (channel_lt hn) (fun v => decide (v.strField key = name))
          cases hl : ((received s (n + 1)).filter (fun v => decide (v.strField key = name))).getLast? with
          | some v =>
            obtain ⟨w, hwn, hwl⟩ := hr2.1 v hl
            rw [last_named hn hk] at hwl
            exact ((hcrit n name).1 w hwn v hwl).symm
          | none =>
            cases hlo : lastNamed os n name with
            | none => rfl
            | some v =>
              obtain ⟨w, hwn, v2, hv2⟩ := (hcrit n name).2 v hlo
              have := hr2.2 hl w hwn
              rw [last_named hn hk, hv2] at this
              cases this
        | none =>
          rw [hrun.single_eq hn hk, ho, seq_single hn hk]
          have h0 : o0 c.field = .zero := by rw [hrun.init n c hn, newModule_single hn hk]
          rw [h0]
          congr 1
          have hr2 := received_last hrun hlen hss (channel_lt hn) (fun _ => true)
          rw [filter_true] at hr2
          cases hl : (received s (n + 1)).getLast? with
          | some v =>
            obtain ⟨w, hwn, hwl⟩ := hr2.1 v hl
            rw [last_of, ← hone hn hk] at hwl
            rw [← hone hn hk]
            exact ((hcrit n []).1 w hwn v hwl).symm
          | none =>
            cases hlo : lastOf os n with
            | none => rfl
            | some v =>
              rw [← hone hn hk] at hlo
              obtain ⟨w, hwn, v2, hv2⟩ := (hcrit n []).2 v hlo
              have := hr2.2 hl w hwn
              rw [last_of, ← hone hn hk, hv2] at this
              cases this
      · rw [ho, seq_other hg]
        by_cases hge : g = "errors"
        · subst hge
          rw [hrun.errors, if_pos herr, header_fields hh _ (by decide), newModule_fields.2 _ (by decide +kernel)]
        · exact hrun.other g hg hge
    rw [hres, hobj]

/-! ### Examples -/

/-- Two workers, the cut between two units: every schedule gives the result of the sequential parser. -/
example : ∃ o : Obj, Returns goodFile .parseModule 0 (.ok 11 (.obj o) false) ∧
    ∀ sched, mtModule goodFile 2 sched 0 ≠ .timeout → mtModule goodFile 2 sched 0 = .ok 11 (.obj o) false := by
  obtain ⟨v, hv, h1, h2⟩ := unitAt_ok (E := goodFile) (p := 3) (e := 6) (name := (str! "m")) (text := (str! "\"one\"")) (by decide +kernel)
  obtain ⟨w, hw, h3, h4⟩ := unitAt_ok (E := goodFile) (p := 7) (e := 10) (name := (str! "s")) (text := (str! "\"two\"")) (by decide +kernel)
  have hsc : Scan goodFile 2 [⟨3, 6, 23, v⟩, ⟨7, 10, 23, w⟩] 11 :=
    Scan.obj (s := 2) (K := ⟨(str! "/begin UNIT"), .parseUnit, "Units", some "name"⟩) rfl rfl hv
    (Scan.obj (s := 6) (K := ⟨(str! "/begin UNIT"), .parseUnit, "Units", some "name"⟩) rfl rfl hw (Scan.stop (s := 10) rfl))
  obtain ⟨o, _, hr⟩ := accepted_returns (E := goodFile) (i := 0) (j := 11) (by decide +kernel)
  have hp : Pieces goodFile (0 + 2) 11 2 (fun w' => if w' = 0 then [⟨3, 6, 23, v⟩] else [⟨7, 10, 23, w⟩]) (fun _ => false) := by
    intro k hk
    have : k = 0 ∨ k = 1 := by omega
    rcases this with rfl | rfl
    · exact Share.obj (lim := 6) (x := 2) (K := ⟨(str! "/begin UNIT"), .parseUnit, "Units", some "name"⟩) (by decide) rfl rfl hv
        (Share.limit (by decide))
    · exact Share.obj (lim := 12) (x := 6) (K := ⟨(str! "/begin UNIT"), .parseUnit, "Units", some "name"⟩) (by decide) rfl rfl hw
        (Share.stop (by decide) rfl)
  refine ⟨o, hr, (C34_iff goodFile_wf rfl goodFile_one hr hsc (by decide) hp).2 ⟨fun _ _ => rfl, fun n name => ⟨fun k hk x hx => ?_, fun x hx => ?_⟩⟩⟩
  · have e1 : Found.name ⟨3, 6, 23, v⟩ = (str! "m") := h1
    have e2 : Found.name ⟨7, 10, 23, w⟩ = (str! "s") := h3
    have : k = 0 ∨ k = 1 := by omega
    rcases this with rfl | rfl
    · simp only [lastNamed, if_true, List.filter_cons, e1, e2, List.filter_nil] at hx ⊢
      by_cases hc : (23 : Nat) = n ∧ (str! "m") = name
      · obtain ⟨rfl, rfl⟩ := hc
        simpa using hx
      · simp [hc] at hx
    · simp only [lastNamed, if_neg (show ¬ (1 : Nat) = 0 by decide), List.filter_cons, e1, e2, List.filter_nil] at hx ⊢
      by_cases hc : (23 : Nat) = n ∧ (str! "s") = name
      · obtain ⟨rfl, rfl⟩ := hc
        simpa using hx
      · simp [hc] at hx
  · have e1 : Found.name ⟨3, 6, 23, v⟩ = (str! "m") := h1
    have e2 : Found.name ⟨7, 10, 23, w⟩ = (str! "s") := h3
    by_cases hc : (23 : Nat) = n ∧ (str! "m") = name
    · refine ⟨0, by decide, v, ?_⟩
      obtain ⟨rfl, rfl⟩ := hc
      simp [lastNamed, e1]
    · refine ⟨1, by decide, x, ?_⟩
      have h0 : ¬ ((1 : Nat) = 0) := by decide
      simp only [lastNamed, if_neg h0, List.filter_cons, e1, e2, List.filter_nil, hc, decide_false, Bool.false_eq_true, if_false] at hx ⊢
      exact hx

/-- Two workers, the cut on the opening token of a unit: the criterion fails, as neither worker finds the unit `b`. -/
example : ∃ o : Obj, Returns lostFile .parseModule 0 (.ok 12 (.obj o) false) ∧
    ∃ sched, mtModule lostFile 2 sched 0 ≠ .timeout ∧ mtModule lostFile 2 sched 0 ≠ .ok 12 (.obj o) false := by
  have hwf : Wf lostFile := fileEnv_wf (by decide)
  obtain ⟨v, hv, h1, h2⟩ := unitAt_ok (E := lostFile) (p := 3) (e := 6) (name := (str! "a")) (text := (str! "\"x\"")) (by decide +kernel)
  obtain ⟨w, hw, h3, h4⟩ := unitAt_ok (E := lostFile) (p := 7) (e := 11) (name := (str! "b")) (text := (str! "\"z\"")) (by decide +kernel)
  have hsc : Scan lostFile 2 [⟨3, 6, 23, v⟩, ⟨7, 11, 23, w⟩] 12 :=
    Scan.obj (s := 2) (K := ⟨(str! "/begin UNIT"), .parseUnit, "Units", some "name"⟩) rfl rfl hv
    (Scan.obj (s := 6) (K := ⟨(str! "/begin UNIT"), .parseUnit, "Units", some "name"⟩) rfl rfl hw (Scan.stop (s := 11) rfl))
  obtain ⟨o, _, hr⟩ := accepted_returns (E := lostFile) (i := 0) (j := 12) (by decide +kernel)
  have hp : Pieces lostFile (0 + 2) 12 2 (fun w' => if w' = 0 then [⟨3, 6, 23, v⟩] else []) (fun _ => false) := by
    intro k hk
    have : k = 0 ∨ k = 1 := by omega
    rcases this with rfl | rfl
    · exact Share.obj (lim := 7) (x := 2) (K := ⟨(str! "/begin UNIT"), .parseUnit, "Units", some "name"⟩) (by decide) rfl rfl hv
        (Share.limit (by decide))
    · exact Share.skip (lim := 13) (x := 7) (by decide) rfl (by decide) (by decide) (opensDec (by decide +kernel))
        (Share.skip (by decide) rfl (by decide) (by decide) (opensDec (by decide +kernel))
          (Share.skip (by decide) rfl (by decide) (by decide) (opensDec (by decide +kernel))
            (Share.skip (by decide) rfl (by decide) (by decide) (opensDec (by decide +kernel))
              (Share.stop (by decide) rfl))))
  refine ⟨o, hr, Classical.byContradiction fun hno => ?_⟩
  have hall : ∀ sched, mtModule lostFile 2 sched 0 ≠ .timeout → mtModule lostFile 2 sched 0 = .ok 12 (.obj o) false := fun sched h1 =>
    Classical.byContradiction fun h2 => hno ⟨sched, h1, h2⟩
  have e1 : Found.name ⟨3, 6, 23, v⟩ = (str! "a") := h1
  have e2 : Found.name ⟨7, 11, 23, w⟩ = (str! "b") := h3
  obtain ⟨k, hk, x, hx⟩ := (((C34_iff hwf rfl (oneModule_of (by decide +kernel)) hr hsc (by decide) hp).1 hall).2 23 (str! "b")).2 w (by
    simp [lastNamed, e1, e2])
  have : k = 0 ∨ k = 1 := by omega
  rcases this with rfl | rfl
  · simp [lastNamed, e1] at hx
  · simp [lastNamed] at hx

/-- `C36_pieces` on the file with two definitions of `m`: the first worker finds the first definition, so it can be the one kept. -/
example : ∃ (v : Val) (sched : List Collect.Op) (o : Obj) (e : Bool), v.strField "longIdentifier" = (str! "\"one\"") ∧
    mtModule twiceFile 2 sched 0 = .ok 11 (.obj o) e ∧ o.map "Units" (str! "m") = some v := by
  obtain ⟨v, hv, h1, h2⟩ := unitAt_ok (E := twiceFile) (p := 3) (e := 6) (name := (str! "m")) (text := (str! "\"one\"")) (by decide +kernel)
  obtain ⟨w, hw, h3, h4⟩ := unitAt_ok (E := twiceFile) (p := 7) (e := 10) (name := (str! "m")) (text := (str! "\"two\"")) (by decide +kernel)
  have hp : Pieces twiceFile (0 + 2) 11 2 (fun w' => if w' = 0 then [⟨3, 6, 23, v⟩] else [⟨7, 10, 23, w⟩]) (fun _ => false) := by
    intro k hk
    have : k = 0 ∨ k = 1 := by omega
    rcases this with rfl | rfl
    · exact Share.obj (lim := 6) (x := 2) (K := ⟨(str! "/begin UNIT"), .parseUnit, "Units", some "name"⟩) (by decide) rfl rfl hv
        (Share.limit (by decide))
    · exact Share.obj (lim := 12) (x := 6) (K := ⟨(str! "/begin UNIT"), .parseUnit, "Units", some "name"⟩) (by decide) rfl rfl hw
        (Share.stop (by decide) rfl)
  have e1 : Found.name ⟨3, 6, 23, v⟩ = (str! "m") := h1
  obtain ⟨sched, o, e, hc, ho⟩ := ((C36_pieces (E := twiceFile) (fileEnv_wf (by decide)) rfl (by decide) (oneModule_of (by decide +kernel))
    (by decide) hp).1 23 ⟨(str! "/begin UNIT"), .parseUnit, "Units", some "name"⟩ "name" rfl rfl (str! "m") v).2
      ⟨0, by decide, by simp [lastNamed, e1]⟩
  exact ⟨v, sched, o, e, h2, hc, ho⟩

end Verif.A2l.Props
