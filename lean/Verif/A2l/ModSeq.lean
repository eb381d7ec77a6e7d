import Verif.A2l.ModLemmas
import Verif.A2l.ModSpec

/-!
The sequential module parser (a2l/module.go:45-321) against `ModSpec.Scan`.
-/

namespace Verif.A2l
open Verif.Go Lang Verif.Conc Analysis ModSpec

def ModCase.kind (c : ModCase) : Kind := ⟨c.tok, c.parser, c.field, c.key⟩

deriving instance DecidableEq for Kind

/-- The table of the parallel parser is the one of the specification. -/
theorem channels_kinds : channels.map ModCase.kind = kinds := by decide +kernel

theorem kinds_get {n : Nat} {K : Kind} (h : kinds[n]? = some K) : ∃ c, channels[n]? = some c ∧ c.kind = K := by
  rw [← channels_kinds, List.getElem?_map, Option.map_eq_some_iff] at h
  exact h

theorem get_kinds {n : Nat} {c : ModCase} (h : channels[n]? = some c) : kinds[n]? = some c.kind := by
  rw [← channels_kinds, List.getElem?_map, h]; rfl

theorem opens_iff {t : Str} : Opens t ↔ ∃ c ∈ channels, c.tok = t := by
  unfold Opens
  rw [← channels_kinds]
  simp only [List.mem_map]
  constructor
  · rintro ⟨_, ⟨c, hc, rfl⟩, h⟩; exact ⟨c, hc, h⟩
  · rintro ⟨c, hc, h⟩; exact ⟨_, ⟨c, hc, rfl⟩, h⟩

theorem not_opens {t : Str} : ¬ Opens t ↔ ∀ k, findCase t k channels = none := by
  rw [opens_iff]
  constructor
  · intro h k; exact findCase_none.2 fun c hc ht => h ⟨c, hc, ht⟩
  · rintro h ⟨c, hc, ht⟩; exact findCase_none.1 (h 0) c hc ht

theorem tokens_nodup : (channels.map (·.tok)).Nodup := by decide +kernel

theorem findCase_get : ∀ (cs : List ModCase) (k n : Nat) (c : ModCase), (cs.map (·.tok)).Nodup →
    cs[n]? = some c → findCase c.tok k cs = some (k + n, c) := by
  intro cs
  induction cs with
  | nil => intro k n c _ h; simp at h
  | cons d cs ih =>
    intro k n c hnd h
    simp only [List.map_cons, List.nodup_cons] at hnd
    simp only [findCase]
    cases n with
    | zero => simp only [List.getElem?_cons_zero, Option.some.injEq] at h; subst h; simp
    | succ n =>
      simp only [List.getElem?_cons_succ] at h
      have hne : d.tok ≠ c.tok := fun he => hnd.1 (by
        rw [he]; exact List.mem_map.2 ⟨c, List.mem_of_getElem? h, rfl⟩)
      rw [if_neg hne, ih (k + 1) n c hnd.2 h]
      simp only [Option.some.injEq, Prod.mk.injEq, and_true]
      omega

/-! ### The loop body -/

/-- `case` of the sequential parser for a kind of object. -/
def seqCase (c : ModCase) : Str × Stmt :=
  (c.tok, match c.key with
    | some key => blk [.callBuf c.parser, .ite .errNe (blk [.brk]) (blk []), .mapInsert c.field key]
    | none => blk [.callField c.field c.parser, .ite .errNe (blk [.brk]) (blk [])])

/-- `default` of the sequential parser. -/
def seqDefault : Stmt :=
  blk [
    .ite (.curIs emptyToken)
      (blk [.setErr, .brk])
      (blk [
        .ite (.curIs endModuleToken)
          (blk [.brk])
          (blk [
            .ite .curKw
              (blk [.setErr, .brk])
              (blk [
                .ite (.unset "nameSet")
                  (blk [.storeCur "Name", .setTrue "nameSet"])
                  (blk [
                    .ite (.unset "longIdentifierSet")
                      (blk [.storeCur "longIdentifier", .setTrue "longIdentifierSet"])
                      (blk [])])])])])]

def seqBody : Stmt := blk [.next, switchRet (channels.map seqCase) seqDefault]

theorem parseModule_eq : body .parseModule = blk (mapFields.map .mapInit ++ [.loop seqBody]) := by
  decide +kernel

/-- Calls of object parsers in the sequential parser. -/
structure Calls (E : Env) (K : PName → Nat → PRes) : Prop where
  eq : ∀ c ∈ channels, ∀ x < E.toks.length, K c.parser x = parse E c.parser x

theorem case_rank {c : ModCase} (h : c ∈ channels) : rank c.parser < 7 := by
  have : channels.all (fun c => decide (rank c.parser < 7)) = true := by decide +kernel
  simpa using List.all_eq_true.1 this c h

theorem calls_run {E : Env} (hw : Wf E) (hmt : Props.MtGood E) : Calls E (run E (E.toks.length + 1) 7) where
  eq := by
    intro c hc x hx
    obtain ⟨i', v, e, h1, _⟩ := Props.run_ok hw hmt (n := E.toks.length + 1) (by omega) 7 c.parser x
      (case_rank hc) (case_not_mt hc) hx
    obtain ⟨i2, v2, e2, _, h2, _⟩ := Props.parse_ok hw hmt c.parser (case_not_mt hc) x hx
    have := (returns_of_run h1 (by simp)).unique h2
    rw [h1, this]
    rcases Props.parse_ok hw hmt c.parser (case_not_mt hc) x hx with ⟨i3, v3, e3, h3, h4, _⟩
    rw [h3]
    exact h2.unique h4

theorem exec_switch {E : Env} {K : PName → Nat → PRes} {n : Nat} {d : Stmt} (k : Nat) : ∀ (cs : List ModCase) (s : St),
    exec E K n (switchRet (cs.map seqCase) d) s =
      match findCase s.ret k cs with
      | some (_, c) => exec E K n (seqCase c).2 s
      | none => exec E K n d s := by
  intro cs
  induction cs generalizing k with
  | nil => intro s; rfl
  | cons c cs ih =>
    intro s
    simp only [List.map_cons]
    show exec E K n (.ite (.retIs c.tok) (seqCase c).2 (switchRet (cs.map seqCase) d)) s = _
    simp only [exec, holds, findCase, decide_eq_true_eq]
    by_cases h : s.ret = c.tok
    · rw [if_pos h, if_pos h.symm]
    · rw [if_neg h, if_neg (Ne.symm h)]
      exact ih (k + 1) s

/-- The fields with a key hold maps. -/
def Maps (o : Obj) : Prop := ∀ f ∈ mapFields, ∃ m, o f = .map m

theorem Maps.set {o : Obj} (h : Maps o) {f : String} {v : Val} (hf : f ∉ mapFields ∨ ∃ m, v = .map m) : Maps (o.set f v) := by
  intro g hg
  by_cases he : g = f
  · subst he
    rcases hf with hf | ⟨m, rfl⟩
    · exact absurd hg hf
    · exact ⟨m, set_same _ _ _⟩
  · rw [set_other he]; exact h g hg

theorem Maps.collect {o : Obj} (h : Maps o) {c : ModCase} (hc : c ∈ channels) (v : Val) : Maps (collectOne c o v) := by
  obtain ⟨n, hn, rfl⟩ := List.getElem_of_mem hc
  unfold collectOne
  cases hk : channels[n].key with
  | some key => exact h.set (Or.inr ⟨_, rfl⟩)
  | none => exact h.set (Or.inl (single_field (List.getElem?_eq_getElem hn) hk))

/-- One `case`. -/
theorem exec_case {E : Env} {K : PName → Nat → PRes} (hK : Calls E K) {n : Nat} {c : ModCase}
    (hc : c ∈ channels) {s : St} (hi : s.idx < E.toks.length) (hm : Maps s.obj) {j : Nat} {v : Val} {e : Bool}
    (hp : parse E c.parser s.idx = .ok j v e) :
    (e = true → ∃ s', exec E K n (seqCase c).2 s = .ok s' .brk ∧ s'.err = true) ∧
    (e = false → ∃ b, exec E K n (seqCase c).2 s =
      .ok ⟨j, s.ret, collectOne c s.obj v, b, false⟩ .cont) := by
  obtain ⟨m, hmem, rfl⟩ := List.getElem_of_mem hc
  have hcall := hK.eq _ hc _ hi
  rw [hp] at hcall
  unfold seqCase collectOne
  cases hk : channels[m].key with
  | some key =>
    obtain ⟨mp, hmp⟩ := hm _ (key_field (List.getElem?_eq_getElem hmem) hk)
    constructor
    · rintro rfl
      exact ⟨{ s with idx := j, buf := v, err := true }, by simp [blk, exec, hcall, holds], rfl⟩
    · rintro rfl
      exact ⟨v, by simp [blk, exec, hcall, holds, hmp, Obj.map]⟩
  | none =>
    constructor
    · rintro rfl
      exact ⟨{ s with idx := j, obj := s.obj.set channels[m].field v, err := true }, by
        simp [blk, exec, hcall, holds], rfl⟩
    · rintro rfl
      exact ⟨s.buf, by simp [blk, exec, hcall, holds]⟩

/-- The `default` branch when name and description are already known. -/
theorem exec_default {E : Env} {K : PName → Nat → PRes} {n : Nat} {s : St}
    (h1 : s.obj.flag "nameSet" = true) (h2 : s.obj.flag "longIdentifierSet" = true) :
    exec E K n seqDefault s =
      if E.current s.idx = emptyToken then .ok { s with err := true } .brk
      else if E.current s.idx = endModuleToken then .ok s .brk
      else if isKeyword (E.current s.idx) then .ok { s with err := true } .brk
      else .ok s .cont := by
  simp only [seqDefault, blk, exec, holds, h1, h2, decide_eq_true_eq]
  by_cases ha : E.current s.idx = emptyToken
  · simp [ha]
  · rw [if_neg ha, if_neg ha]
    by_cases hb : E.current s.idx = endModuleToken
    · simp [hb]
    · rw [if_neg hb, if_neg hb]
      by_cases hc : isKeyword (E.current s.idx) = true
      · simp [hc]
      · rw [if_neg hc, if_neg hc]
        simp

theorem exec_body {E : Env} {K : PName → Nat → PRes} {n : Nat} {s : St} :
    exec E K n seqBody s = exec E K n (switchRet (channels.map seqCase) seqDefault) (doNext E s) := by
  simp only [seqBody, blk, exec]
  cases exec E K n (switchRet (channels.map seqCase) seqDefault) (doNext E s) with
  | ok s' c => cases c <;> rfl
  | panic => rfl
  | timeout => rfl

/-- Adding a found object to the module. -/
def addFound (o : Obj) (f : Found) : Obj :=
  match channels[f.kind]? with
  | some c => collectOne c o f.val
  | none => o

/-- Name and description are known. -/
def Named (o : Obj) : Prop := o.flag "nameSet" = true ∧ o.flag "longIdentifierSet" = true

theorem Named.collect {o : Obj} (h : Named o) {c : ModCase} (hc : c ∈ channels) (v : Val) : Named (collectOne c o v) := by
  have hnd := channels_fields
  rw [List.nodup_append] at hnd
  have hm : c.field ∈ channels.map (·.field) := List.mem_map.2 ⟨c, hc, rfl⟩
  have h1 : "nameSet" ≠ c.field := fun he => hnd.2.2 _ hm "nameSet" (by simp) he.symm
  have h2 : "longIdentifierSet" ≠ c.field := fun he => hnd.2.2 _ hm "longIdentifierSet" (by simp) he.symm
  obtain ⟨h3, h4⟩ := h
  unfold Obj.flag at h3 h4
  refine ⟨?_, ?_⟩
  · unfold Obj.flag; rw [collectOne_other h1]; exact h3
  · unfold Obj.flag; rw [collectOne_other h2]; exact h4

theorem empty_not_opens : ¬ Opens emptyToken := by
  rw [opens_iff]; rintro ⟨c, hc, h⟩; exact (case_tok hc).1 h

theorem endModule_not_opens : ¬ Opens endModuleToken := by
  rw [opens_iff]; rintro ⟨c, hc, h⟩; exact (case_tok hc).2.1 h

/-- If the sequential loop ends without error, the module consists of found objects, and they
have been added in this order. -/
theorem seq_scan {E : Env} (hw : Wf E) (hmt : Props.MtGood E) {K : PName → Nat → PRes} (hK : Calls E K) {n : Nat} :
    ∀ (f : Nat) (s s' : St), s.idx < E.toks.length → Maps s.obj → Named s.obj →
      iter (exec E K n seqBody) f s = .ok s' .cont → s'.err = false →
      ∃ os, Scan E s.idx os s'.idx ∧ s'.obj = os.foldl addFound s.obj := by
  intro f
  induction f with
  | zero => intro s s' _ _ _ h; cases h
  | succ f ih =>
    intro s s' hi hm hn h he
    simp only [iter, exec_body, exec_switch 1] at h
    by_cases hh : E.hasNext s.idx = true
    · have hlt := hasNext_iff.1 hh
      have hd : doNext E s = { s with idx := s.idx + 1, ret := E.current (s.idx + 1) } := by
        unfold doNext; rw [if_pos hh]
      rw [hd] at h
      simp only at h
      have htok := Props.current_eq hlt
      cases hf : findCase (E.current (s.idx + 1)) 1 channels with
      | some kc =>
        obtain ⟨k, c⟩ := kc
        rw [hf] at h
        simp only at h
        obtain ⟨hc, htc, hk1, hkc⟩ := findCase_some hf
        obtain ⟨j, v, e, hp, hr, hle, hjl, _⟩ := Props.parse_ok hw hmt c.parser (case_not_mt hc) (s.idx + 1) hlt
        have hex := exec_case hK (n := n) hc (s := { s with idx := s.idx + 1, ret := E.current (s.idx + 1) })
          hlt hm hp
        cases e with
        | true =>
          obtain ⟨s2, h2, h3⟩ := hex.1 rfl
          rw [h2] at h
          simp only [Out.ok.injEq, and_true] at h
          subst h
          rw [h3] at he; cases he
        | false =>
          obtain ⟨b, h2⟩ := hex.2 rfl
          rw [h2] at h
          simp only at h
          obtain ⟨os, h3, h4⟩ := ih _ s' hjl (hm.collect hc v) (hn.collect hc v) h he
          refine ⟨⟨s.idx + 1, j, k - 1, v⟩ :: os, Scan.obj (K := c.kind) ?_ (get_kinds hkc) hr h3, ?_⟩
          · rw [htok, ← htc]; rfl
          · rw [h4, List.foldl_cons]
            congr 1
            unfold addFound
            rw [hkc]
      | none =>
        rw [hf] at h
        simp only at h
        rw [exec_default (s := { s with idx := s.idx + 1, ret := E.current (s.idx + 1) }) hn.1 hn.2] at h
        simp only at h
        have hno : ¬ Opens (E.current (s.idx + 1)) := by
          rw [opens_iff]; rintro ⟨c, hc, ht⟩; exact findCase_none.1 hf c hc ht
        by_cases ha : E.current (s.idx + 1) = emptyToken
        · rw [if_pos ha] at h
          simp only [Out.ok.injEq, and_true] at h
          subst h; cases he
        · rw [if_neg ha] at h
          by_cases hb : E.current (s.idx + 1) = endModuleToken
          · rw [if_pos hb] at h
            simp only [Out.ok.injEq, and_true] at h
            subst h
            exact ⟨[], Scan.stop (by rw [htok, hb]; rfl), rfl⟩
          · rw [if_neg hb] at h
            by_cases hc : isKeyword (E.current (s.idx + 1)) = true
            · rw [if_pos hc] at h
              simp only [Out.ok.injEq, and_true] at h
              subst h; cases he
            · rw [if_neg hc] at h
              simp only at h
              obtain ⟨os, h3, h4⟩ := ih { s with idx := s.idx + 1, ret := E.current (s.idx + 1) } s' hlt hm hn h he
              exact ⟨os, Scan.skip htok ha hb hno h3, h4⟩
    · have hlast : s.idx + 1 = E.toks.length := by
        have := mt hasNext_iff.2 hh; omega
      have hemp := (hw.end_iff hi).2 hlast
      have hd : doNext E s = { s with ret := emptyToken } := by
        unfold doNext; rw [if_neg hh]
      rw [hd] at h
      simp only [not_opens.1 empty_not_opens 1] at h
      rw [exec_default (s := { s with ret := emptyToken }) hn.1 hn.2] at h
      simp only [hemp, if_true] at h
      simp only [Out.ok.injEq, and_true] at h
      subst h; cases he

/-! ### The whole function -/

theorem exec_default1 {E : Env} {K : PName → Nat → PRes} {n : Nat} {s : St}
    (h1 : s.obj.flag "nameSet" = false) :
    exec E K n seqDefault s =
      if E.current s.idx = emptyToken then .ok { s with err := true } .brk
      else if E.current s.idx = endModuleToken then .ok s .brk
      else if isKeyword (E.current s.idx) then .ok { s with err := true } .brk
      else .ok { s with obj := (s.obj.set "Name" (.str (E.current s.idx))).set "nameSet" (.bool true) } .cont := by
  simp only [seqDefault, blk, exec, holds, h1, decide_eq_true_eq]
  by_cases ha : E.current s.idx = emptyToken
  · simp [ha]
  · rw [if_neg ha, if_neg ha]
    by_cases hb : E.current s.idx = endModuleToken
    · simp [hb]
    · rw [if_neg hb, if_neg hb]
      by_cases hc : isKeyword (E.current s.idx) = true
      · simp [hc]
      · rw [if_neg hc, if_neg hc]
        simp

theorem exec_default2 {E : Env} {K : PName → Nat → PRes} {n : Nat} {s : St}
    (h1 : s.obj.flag "nameSet" = true) (h2 : s.obj.flag "longIdentifierSet" = false) :
    exec E K n seqDefault s =
      if E.current s.idx = emptyToken then .ok { s with err := true } .brk
      else if E.current s.idx = endModuleToken then .ok s .brk
      else if isKeyword (E.current s.idx) then .ok { s with err := true } .brk
      else .ok { s with
        obj := (s.obj.set "longIdentifier" (.str (E.current s.idx))).set "longIdentifierSet" (.bool true) } .cont := by
  simp only [seqDefault, blk, exec, holds, h1, h2, decide_eq_true_eq]
  by_cases ha : E.current s.idx = emptyToken
  · simp [ha]
  · rw [if_neg ha, if_neg ha]
    by_cases hb : E.current s.idx = endModuleToken
    · simp [hb]
    · rw [if_neg hb, if_neg hb]
      by_cases hc : isKeyword (E.current s.idx) = true
      · simp [hc]
      · rw [if_neg hc, if_neg hc]
        simp

theorem exec_mapInits {E : Env} {K : PName → Nat → PRes} {n : Nat} {X : Stmt} : ∀ (fs : List String) (s : St),
    exec E K n (blk (fs.map .mapInit ++ [X])) s =
      exec E K n (blk [X]) { s with obj := fs.foldl (fun o f => o.set f (.map fun _ => none)) s.obj } := by
  intro fs
  induction fs with
  | nil => intro s; rfl
  | cons f fs ih =>
    intro s
    simp only [List.map_cons, List.cons_append]
    show exec E K n (.seq (.mapInit f) (blk (fs.map .mapInit ++ [X]))) s = _
    simp only [exec, ih, List.foldl_cons]

theorem iter_cont {f : St → Out} : ∀ {n : Nat} {s s' : St} {c : Ctl}, iter f n s = .ok s' c → c = .cont := by
  intro n
  induction n with
  | zero => intro s s' c h; cases h
  | succ n ih =>
    intro s s' c h
    simp only [iter] at h
    split at h
    · exact ih h
    · simp only [Out.ok.injEq] at h; exact h.2.symm
    · cases h
    · cases h

/-- At the end of the token list the loop reports an error. -/
theorem iter_at_end {E : Env} (hw : Wf E) {K : PName → Nat → PRes} {n f : Nat} {s s' : St}
    (hl : s.idx + 1 = E.toks.length) (he : s'.err = false) : iter (exec E K n seqBody) f s ≠ .ok s' .cont := by
  intro h
  cases f with
  | zero => cases h
  | succ f =>
    have hemp := (hw.end_iff (i := s.idx) (by omega)).2 hl
    have hd : doNext E s = { s with ret := emptyToken } := by
      unfold doNext
      rw [if_neg (by intro hh; have := hasNext_iff.1 hh; omega)]
    simp only [iter, exec_body, exec_switch 1, hd, not_opens.1 empty_not_opens 1] at h
    have : exec E K n seqDefault { s with ret := emptyToken } =
        .ok { s with ret := emptyToken, err := true } .brk := by
      simp [seqDefault, blk, exec, holds, hemp]
    rw [this] at h
    simp only [Out.ok.injEq, and_true] at h
    subst h; cases he

/-- A round on a token that opens nothing; `x` is the outcome of the default branch. -/
theorem iter_default {E : Env} {K : PName → Nat → PRes} {n f : Nat} {s s' : St} {x : Out}
    (hlt : s.idx + 1 < E.toks.length) (hno : ¬ Opens (E.current (s.idx + 1)))
    (hx : exec E K n seqDefault { s with idx := s.idx + 1, ret := E.current (s.idx + 1) } = x)
    (h : iter (exec E K n seqBody) f s = .ok s' .cont) : ∃ g,
      (match x with
        | .ok s1 .cont => iter (exec E K n seqBody) g s1
        | .ok s1 .brk => .ok s1 .cont
        | r => r) = .ok s' .cont := by
  cases f with
  | zero => cases h
  | succ f =>
    have hd : doNext E s = { s with idx := s.idx + 1, ret := E.current (s.idx + 1) } := by
      unfold doNext; rw [if_pos (hasNext_iff.2 hlt)]
    simp only [iter, exec_body, exec_switch 1, hd, not_opens.1 hno 1, hx] at h
    refine ⟨f, ?_⟩
    rw [← h]
    cases x with
    | ok s1 c => cases c <;> rfl
    | panic => rfl
    | timeout => rfl

/-- The two tokens after `/begin MODULE` are name and description: neither opens an object
nor ends the module. -/
structure PlainHeader (E : Env) (i : Nat) : Prop where
  name : ¬ Opens (E.current (i + 1)) ∧ E.current (i + 1) ≠ endModuleToken
  text : ¬ Opens (E.current (i + 2)) ∧ E.current (i + 2) ≠ endModuleToken

theorem newModule_maps : Maps newModule := fun f hf => ⟨_, newModule_fields.1 f hf⟩

/-- A successful call of the sequential module parser. -/
theorem seq_module {E : Env} (hw : Wf E) (hmt : Props.MtGood E) {i j : Nat} (hi : i < E.toks.length) {o : Obj}
    (hp : PlainHeader E i) (h : parse E .parseModule i = .ok j (.obj o) false) :
    ∃ os o0, header E i = (i + 2, o0, false) ∧ Maps o0 ∧ Scan E (i + 2) os j ∧ o = os.foldl addFound o0 := by
  have hK := calls_run hw hmt
  have h1 : parse E .parseModule i =
      finish (exec E (run E (E.toks.length + 1) 7) (E.toks.length + 1) (blk [.loop seqBody])
        ⟨i, emptyToken, newModule, .zero, false⟩) := by
    show run E (E.toks.length + 1) (7 + 1) .parseModule i = _
    simp only [run, if_neg (show PName.parseModule ≠ .parseModuleMultithreaded by decide), parseModule_eq,
      exec_mapInits]
    rfl
  rw [h] at h1
  simp only [blk, exec] at h1
  generalize run E (E.toks.length + 1) 7 = K at *
  generalize E.toks.length + 1 = N at *
  cases hit : iter (exec E K N seqBody) N ⟨i, emptyToken, newModule, .zero, false⟩ with
  | panic => rw [hit] at h1; cases h1
  | timeout => rw [hit] at h1; cases h1
  | ok s' c =>
    rw [hit] at h1
    have hc : c = .cont := iter_cont hit
    subst hc
    simp only [finish, PRes.ok.injEq, Val.obj.injEq] at h1
    obtain ⟨rfl, rfl, he⟩ := h1
    have he := he.symm
    -- first round: name
    have hl1 : i + 1 < E.toks.length := by
      rcases Nat.lt_or_ge (i + 1) E.toks.length with h | h
      · exact h
      · exact absurd hit (iter_at_end hw (by simp only; omega) he)
    have hfl : newModule.flag "nameSet" = false := by
      unfold Obj.flag; rw [newModule_fields.2 _ (by decide +kernel)]
    have hfl2 : newModule.flag "longIdentifierSet" = false := by
      unfold Obj.flag; rw [newModule_fields.2 _ (by decide +kernel)]
    obtain ⟨g, hg⟩ := iter_default (s := ⟨i, emptyToken, newModule, .zero, false⟩) hl1 hp.name.1
      (exec_default1 (s := ⟨i + 1, E.current (i + 1), newModule, .zero, false⟩) hfl) hit
    simp only at hg
    by_cases ha : E.current (i + 1) = emptyToken
    · rw [if_pos ha] at hg; simp only [Out.ok.injEq, and_true] at hg; subst hg; cases he
    rw [if_neg ha, if_neg hp.name.2] at hg
    by_cases hk : isKeyword (E.current (i + 1)) = true
    · rw [if_pos hk] at hg; simp only [Out.ok.injEq, and_true] at hg; subst hg; cases he
    rw [if_neg hk] at hg
    simp only at hg
    -- second round: description
    generalize ho1 : (newModule.set "Name" (.str (E.current (i + 1)))).set "nameSet" (.bool true) = o1 at hg
    have hl2 : i + 2 < E.toks.length := by
      rcases Nat.lt_or_ge (i + 2) E.toks.length with h | h
      · exact h
      · exact absurd ((hw.end_iff hl1).2 (by omega)) ha
    have hf1 : o1.flag "nameSet" = true := by unfold Obj.flag; rw [← ho1, set_same]
    have hf2 : o1.flag "longIdentifierSet" = false := by
      unfold Obj.flag at hfl2 ⊢; rw [← ho1, set_other (by decide), set_other (by decide)]; exact hfl2
    obtain ⟨g2, hg2⟩ := iter_default (s := ⟨i + 1, E.current (i + 1), o1, .zero, false⟩) hl2 hp.text.1
      (exec_default2 (s := ⟨i + 2, E.current (i + 2), o1, .zero, false⟩) hf1 hf2) hg
    simp only at hg2
    by_cases ha2 : E.current (i + 2) = emptyToken
    · rw [if_pos ha2] at hg2; simp only [Out.ok.injEq, and_true] at hg2; subst hg2; cases he
    rw [if_neg ha2, if_neg hp.text.2] at hg2
    by_cases hk2 : isKeyword (E.current (i + 2)) = true
    · rw [if_pos hk2] at hg2; simp only [Out.ok.injEq, and_true] at hg2; subst hg2; cases he
    rw [if_neg hk2] at hg2
    simp only at hg2
    generalize ho2 : (o1.set "longIdentifier" (.str (E.current (i + 2)))).set "longIdentifierSet" (.bool true) = o2 at hg2
    have hm : Maps o2 := by
      rw [← ho2, ← ho1]
      exact (((newModule_maps.set (Or.inl (by decide +kernel))).set (Or.inl (by decide +kernel))).set
        (Or.inl (by decide +kernel))).set (Or.inl (by decide +kernel))
    have hn : Named o2 := by
      constructor
      · unfold Obj.flag at hf1 ⊢; rw [← ho2, set_other (by decide), set_other (by decide)]; exact hf1
      · unfold Obj.flag; rw [← ho2, set_same]
    obtain ⟨os, h3, h4⟩ := seq_scan hw hmt hK g2 _ s' hl2 hm hn hg2 he
    refine ⟨os, o2, ?_, hm, h3, h4⟩
    unfold header
    have e1 : nextIdx E i = i + 1 := by unfold nextIdx; rw [if_pos (hasNext_iff.2 hl1)]
    have e2 : nextIdx E (i + 1) = i + 2 := by unfold nextIdx; rw [if_pos (hasNext_iff.2 hl2)]
    simp only [e1, e2, if_neg ha, if_neg ha2, ho1, ho2]

/-! ### Determinism of the specification -/

theorem kinds_tok {n m : Nat} {K L : Kind} (h1 : kinds[n]? = some K) (h2 : kinds[m]? = some L)
    (h : K.tok = L.tok) : n = m ∧ K = L := by
  obtain ⟨c, hc, rfl⟩ := kinds_get h1
  obtain ⟨d, hd, rfl⟩ := kinds_get h2
  have e1 := findCase_get channels 0 n c tokens_nodup hc
  have e2 := findCase_get channels 0 m d tokens_nodup hd
  have : c.tok = d.tok := h
  rw [this, e2] at e1
  simp only [Option.some.injEq, Prod.mk.injEq, Nat.zero_add] at e1
  exact ⟨e1.1.symm, by rw [e1.2]⟩

theorem kind_opens {n : Nat} {K : Kind} (h : kinds[n]? = some K) : Opens K.tok :=
  ⟨K, List.mem_of_getElem? h, rfl⟩

/-- The content of a module is determined by the tokens. -/
theorem scan_unique {E : Env} {s j j' : Nat} {os os' : List Found} (h : Scan E s os j) (h' : Scan E s os' j') :
    os = os' ∧ j = j' := by
  induction h generalizing os' j' with
  | @stop s ht =>
    cases h' with
    | stop => exact ⟨rfl, rfl⟩
    | skip ht' _ hne => rw [ht] at ht'; cases ht'; exact absurd rfl hne
    | obj ht' hk =>
      rw [ht] at ht'
      simp only [Option.some.injEq] at ht'
      have := kind_opens hk
      rw [← ht'] at this
      exact absurd this endModule_not_opens
  | @skip s j os t ht h0 hne hno hs ih =>
    cases h' with
    | stop ht' => rw [ht] at ht'; simp only [Option.some.injEq] at ht'; exact absurd ht' hne
    | skip _ _ _ _ hs' => exact ih hs'
    | obj ht' hk =>
      rw [ht] at ht'
      simp only [Option.some.injEq] at ht'
      exact absurd (ht' ▸ kind_opens hk) hno
  | @obj s e j n os K v ht hk hr hs ih =>
    cases h' with
    | stop ht' =>
      rw [ht] at ht'
      simp only [Option.some.injEq] at ht'
      have := kind_opens hk
      rw [ht'] at this
      exact absurd this endModule_not_opens
    | skip ht' _ _ hno =>
      rw [ht] at ht'
      simp only [Option.some.injEq] at ht'
      exact absurd (ht' ▸ kind_opens hk) hno
    | obj ht' hk' hr' hs' =>
      rw [ht] at ht'
      simp only [Option.some.injEq] at ht'
      obtain ⟨rfl, rfl⟩ := kinds_tok hk hk' ht'
      have := hr.unique hr'
      simp only [PRes.ok.injEq, and_true] at this
      obtain ⟨rfl, rfl⟩ := this
      obtain ⟨rfl, rfl⟩ := ih hs'
      exact ⟨rfl, rfl⟩

end Verif.A2l
