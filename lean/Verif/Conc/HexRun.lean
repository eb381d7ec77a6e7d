import Verif.Conc.Props
import Verif.Conc.Locks

/-!
The two hex parsers as concurrent programs: `parseHex` (ihex32/hex.go:101-202, srec19/hex.go:101-191) with all goroutines it
starts. The goroutines of one phase run at the same time; the offset workers of the Intel HEX parser run beside the checksum
workers and are waited for later. `Op` says which goroutine makes the next step.
-/

namespace Verif.Conc.HexRun

open Verif.Go Verif.Ihex

/-- The goroutines that work on the shared records while the sums are checked. -/
structure Shared (R : Type) where
  S : Type
  /-- the goroutines are started -/
  start : List R → S
  /-- goroutine `k` makes a step; `none` if it cannot -/
  step : S → Nat → Option S
  /-- all of them have returned -/
  done : S → Bool
  recs : S → List R

/-- What the two parsers have in common: the functions their goroutines execute. `none` is a panic. -/
structure Prog (R : Type) where
  shared : Shared R
  /-- `parseRecordRoutine` -/
  parse : List Str → Option (List R)
  /-- `validateChecksum` -/
  valid : R → Option (Option Bool)
  /-- `calcDataRoutine` -/
  bytes : List R → Option (List (List DataByte))

/-- The goroutines that are still there when the parser has returned. -/
inductive Rest {R : Type} (P : Prog R)
  /-- the offset workers, after a wrong sum (hex.go:164) -/
  | offsets (s : P.shared.S)
  /-- the workers that compute bytes, after a collision or at the end (hex.go:195, 201); nobody receives from them -/
  | data (p : Pipeline.State (List DataByte))

/-- Where the main goroutine is, with the goroutines that run beside it. -/
inductive State {R : Type} (P : Prog R)
  /-- collects records from the channels (hex.go:112-130) -/
  | parsing (p : Pipeline.State (List R))
  /-- waits for the checksum workers (hex.go:141-168) -/
  | checking (f : FanIn.State) (s : P.shared.S)
  /-- waits for the offset workers (hex.go:171) -/
  | waiting (s : P.shared.S)
  /-- collects bytes from the channels, `h` is the map so far (hex.go:174-200) -/
  | collecting (p : Pipeline.State (List DataByte)) (h : Mem)
  /-- has returned to the caller; `rest` are the goroutines that were not waited for -/
  | returned (o : Outcome) (rest : Rest P)
  /-- a goroutine has panicked -/
  | crashed

inductive Op
  /-- a channel operation of the workers and the collector -/
  | chan (o : Pipeline.Op)
  /-- a step of a checksum worker, or `wgChecksum.Wait()` -/
  | check (o : FanIn.Op)
  /-- a step of offset worker `k` -/
  | off (k : Nat)
  /-- the main goroutine goes on to the next phase -/
  | main

variable {R : Type}

/-- hex.go:112-125: the goroutines that parse lines are started. -/
def init (P : Prog R) (n : Nat) (lines : List Str) : State P :=
  match (shares? lines n).bind fun parts => parts.mapM P.parse with
  | none => .crashed
  | some rss => .parsing (Pipeline.init lines.length (rss.map fun r => [r]))

/-- hex.go:132-155: the goroutines that work on the records and those that check sums are started. -/
def startCheck (P : Prog R) (n : Nat) (recs : List R) : State P :=
  match (shares? recs n).bind fun parts => parts.mapM fun p => p.mapM P.valid with
  | none => .crashed
  | some vss => .checking (FanIn.init n (vss.map fun vs => vs.map fun v => v == some true)) (P.shared.start recs)

/-- hex.go:173-186: the goroutines that compute bytes are started. -/
def startData (P : Prog R) (n : Nat) (recs : List R) : State P :=
  match (shares? recs n).bind fun parts => parts.mapM P.bytes with
  | none => .crashed
  | some bss => .collecting (Pipeline.init 1 bss) Mem.empty

/-- One step; `none` if the goroutine cannot make one. -/
def step (P : Prog R) (n : Nat) : State P → Op → Option (State P)
  | .parsing p, .chan o => (Pipeline.step p o).map .parsing
  | .parsing p, .main => if p.pos = p.ws.length then some (startCheck P n p.acc.flatten) else none
  | .checking f s, .check o => (FanIn.step f o).map fun f' => .checking f' s
  | .checking f s, .off k => (P.shared.step s k).map fun s' => .checking f s'
  | .checking f s, .main =>
    match f.verdict with
    | none => none
    | some true => some (.returned ⟨Mem.empty, some .invalidChecksums⟩ (.offsets s))
    | some false => some (.waiting s)
  | .waiting s, .off k => (P.shared.step s k).map .waiting
  | .waiting s, .main => if P.shared.done s then some (startData P n (P.shared.recs s)) else none
  | .collecting p h, .chan o =>
    match Pipeline.step p o with
    | none => none
    | some p' =>
      let r := insertBytes h (p'.acc.drop p.acc.length).flatten
      match r.err with
      | some _ => some (.returned r (.data p'))
      | none => some (.collecting p' r.map)
  | .collecting p h, .main => if p.pos = p.ws.length then some (.returned ⟨h, none⟩ (.data p)) else none
  | .returned o (.offsets s), .off k => (P.shared.step s k).map fun s' => .returned o (.offsets s')
  | .returned o (.data p), .chan (.send i) => (Pipeline.step p (.send i)).map fun p' => .returned o (.data p')
  | .returned o (.data p), .chan (.close i) => (Pipeline.step p (.close i)).map fun p' => .returned o (.data p')
  | _, _ => none

def run (P : Prog R) (n : Nat) (s : State P) : List Op → Option (State P)
  | [] => some s
  | o :: os => (step P n s o).bind fun s' => run P n s' os

/-- The goroutines on the shared records, run on their own. -/
def Shared.run (C : Shared R) (s : C.S) : List Nat → Option C.S
  | [] => some s
  | k :: ks => (C.step s k).bind fun s' => C.run s' ks

theorem Shared.run_snoc {C : Shared R} {s s' s'' : C.S} {ks : List Nat} {k : Nat} (h : C.run s ks = some s')
    (h' : C.step s' k = some s'') : C.run s (ks ++ [k]) = some s'' := by
  induction ks generalizing s with
  | nil => cases h; simp [Shared.run, h']
  | cons j ks ih =>
    obtain ⟨s1, h1, h2⟩ := Option.bind_eq_some_iff.1 h
    rw [List.cons_append, Shared.run, h1]
    exact ih h2

/-- What has to be known about the functions: they do not panic on what they are given. -/
structure Total (P : Prog R) (n : Nat) (lines : List Str) (recs : List R) : Prop where
  parse : ∃ rss, ((shares? lines n).bind fun parts => parts.mapM P.parse) = some rss ∧ rss.flatten = recs
  valid : ∃ vss, ((shares? recs n).bind fun parts => parts.mapM fun p => p.mapM P.valid) = some vss ∧ vss.length = n
  bytes : ∀ ks s, P.shared.run (P.shared.start recs) ks = some s → P.shared.done s = true →
    ∃ bss, ((shares? (P.shared.recs s) n).bind fun parts => parts.mapM P.bytes) = some bss

/-- Is there a wrong sum among the records? -/
def Bad (P : Prog R) (recs : List R) : Prop := ∃ r ∈ recs, P.valid r ≠ some (some true)

/-- The bytes of the records in order. -/
def bytesOf (P : Prog R) (n : Nat) (recs : List R) : List DataByte :=
  match (shares? recs n).bind fun parts => parts.mapM P.bytes with
  | none => []
  | some bss => bss.flatten.flatten

/-- What may be returned. -/
def Result (P : Prog R) (n : Nat) (recs : List R) (o : Outcome) : Prop :=
  (Bad P recs ∧ o = ⟨Mem.empty, some .invalidChecksums⟩) ∨
  (¬ Bad P recs ∧ ∃ ks s, P.shared.run (P.shared.start recs) ks = some s ∧ P.shared.done s = true ∧
    o = insertBytes Mem.empty (bytesOf P n (P.shared.recs s)))

/-- A channel of capacity 1 and at most one batch: sending never blocks. -/
def Room (p : Pipeline.State (List DataByte)) : Prop := ∀ w ∈ p.ws, w.cap = 1 ∧ w.buf.length + w.todo.length ≤ 1

/-- The worker has closed its channel and has nothing to send. -/
def Tidy (p : Pipeline.State (List DataByte)) : Prop := ∀ w ∈ p.ws, w.closed = true → w.todo = []

/-- What is known of the goroutines left over. -/
def RestInv (P : Prog R) (n : Nat) (recs : List R) : Rest P → Prop
  | .offsets s => ∃ ks, P.shared.run (P.shared.start recs) ks = some s
  | .data p => ¬ Bad P recs ∧ ∃ ks s scripts, P.shared.run (P.shared.start recs) ks = some s ∧ P.shared.done s = true ∧
      ((shares? (P.shared.recs s) n).bind fun parts => parts.mapM P.bytes) = some scripts ∧ Tidy p ∧
      ((∀ b ∈ scripts, b.length ≤ 1) → Room p)

inductive Inv (P : Prog R) (n : Nat) (lines : List Str) (recs : List R) : State P → Prop
  | parsing {p} (scripts : List (List (List R))) (h : Pipeline.Inv scripts p) (hs : scripts.flatten.flatten = recs) : Inv P n lines recs (.parsing p)
  | checking {f s} (scripts : List (List Bool)) (h : FanIn.Inv scripts f) (hb : (∃ t ∈ scripts, false ∈ t) ↔ Bad P recs)
      (ks : List Nat) (hr : P.shared.run (P.shared.start recs) ks = some s) : Inv P n lines recs (.checking f s)
  | waiting {s} (hb : ¬ Bad P recs) (ks : List Nat) (hr : P.shared.run (P.shared.start recs) ks = some s) : Inv P n lines recs (.waiting s)
  | collecting {p m} (hb : ¬ Bad P recs) (ks : List Nat) (s : P.shared.S) (hr : P.shared.run (P.shared.start recs) ks = some s)
      (hd : P.shared.done s = true) (scripts : List (List (List DataByte)))
      (hsc : ((shares? (P.shared.recs s) n).bind fun parts => parts.mapM P.bytes) = some scripts)
      (h : Pipeline.Inv scripts p) (hroom : (∀ b ∈ scripts, b.length ≤ 1) → Room p) (hm : insertBytes Mem.empty p.acc.flatten = ⟨m, none⟩) : Inv P n lines recs (.collecting p m)
  | returned {o rest} (h : Result P n recs o) (hr : RestInv P n recs rest) : Inv P n lines recs (.returned o rest)

theorem mem_flatten_shares {recs : List R} {n : Nat} (hn : 0 < n) {parts : List (List R)} (h : shares? recs n = some parts) :
    parts.flatten = recs ∧ parts.length = n := by
  rw [shares?_eq] at h
  cases h
  exact ⟨flatten_shares recs n hn, by simp⟩

theorem mapM_some {α β : Type} {f : α → Option β} : ∀ {l : List α} {l' : List β}, l.mapM f = some l' →
    l'.length = l.length ∧ (∀ y, y ∈ l' ↔ ∃ x ∈ l, f x = some y) ∧ ∀ x ∈ l, ∃ y, f x = some y
  | [], l', h => by simp at h; subst h; simp
  | a :: l, l', h => by
    rw [List.mapM_cons] at h
    simp only [Option.bind_eq_bind, Option.bind_eq_some_iff, Option.pure_def, Option.some.injEq] at h
    obtain ⟨y, hy, ys, hys, rfl⟩ := h
    obtain ⟨h1, h2, h3⟩ := mapM_some hys
    refine ⟨by simp [h1], fun z => ?_, fun x hx => ?_⟩
    · simp only [List.mem_cons, h2, exists_eq_or_imp, hy, Option.some.injEq]
      constructor
      · rintro (rfl | h)
        · exact Or.inl rfl
        · exact Or.inr h
      · rintro (rfl | h)
        · exact Or.inl rfl
        · exact Or.inr h
    · rcases List.mem_cons.1 hx with rfl | hx
      · exact ⟨y, hy⟩
      · exact h3 x hx

theorem init_inv {P : Prog R} {n : Nat} {lines : List Str} {recs : List R} (ht : Total P n lines recs) :
    Inv P n lines recs (init P n lines) := by
  obtain ⟨rss, h1, h2⟩ := ht.parse
  unfold init
  rw [h1]
  refine .parsing _ (Pipeline.inv_init _ _) ?_
  rw [← h2]
  simp [← List.flatMap_def]

theorem startCheck_inv {P : Prog R} {n : Nat} (hn : 0 < n) {lines : List Str} {recs : List R} (ht : Total P n lines recs) :
    Inv P n lines recs (startCheck P n recs) := by
  obtain ⟨vss, h1, h2⟩ := ht.valid
  unfold startCheck
  rw [h1]
  obtain ⟨parts, hp, hv⟩ := Option.bind_eq_some_iff.1 h1
  obtain ⟨hf, hl⟩ := mem_flatten_shares hn hp
  obtain ⟨_, hmem, _⟩ := mapM_some hv
  have hlen : n = (vss.map fun vs => vs.map fun v => v == some true).length := by simp [h2]
  refine .checking (vss.map fun vs => vs.map fun v => v == some true) ?_ ?_ [] rfl
  · have := FanIn.inv_init (vss.map fun vs => vs.map fun v => v == some true)
    rw [← hlen] at this
    exact this
  · constructor
    · rintro ⟨t, ht, hf'⟩
      obtain ⟨vs, hvs, rfl⟩ := List.mem_map.1 ht
      obtain ⟨v, hv', hv''⟩ := List.mem_map.1 hf'
      obtain ⟨part, hpart, hpv⟩ := (hmem vs).1 hvs
      obtain ⟨_, hm2, _⟩ := mapM_some hpv
      obtain ⟨r, hr, hrv⟩ := (hm2 v).1 hv'
      refine ⟨r, ?_, ?_⟩
      · rw [← hf]; exact List.mem_flatten.2 ⟨part, hpart, hr⟩
      · rw [hrv]; intro h; cases h; simp at hv''
    · rintro ⟨r, hr, hrv⟩
      rw [← hf] at hr
      obtain ⟨part, hpart, hr⟩ := List.mem_flatten.1 hr
      obtain ⟨_, _, h3⟩ := mapM_some hv
      obtain ⟨vs, hvs⟩ := h3 part hpart
      obtain ⟨_, hm2, h4⟩ := mapM_some hvs
      obtain ⟨v, hv'⟩ := h4 r hr
      refine ⟨vs.map fun v => v == some true, List.mem_map.2 ⟨vs, (hmem vs).2 ⟨part, hpart, hvs⟩, rfl⟩,
        List.mem_map.2 ⟨v, (hm2 v).2 ⟨r, hr, hv'⟩, ?_⟩⟩
      rw [hv'] at hrv
      simpa using fun h => hrv (congrArg some h)

theorem insertBytes_append (m : Mem) (xs ys : List DataByte) (h : (insertBytes m xs).err = none) :
    insertBytes m (xs ++ ys) = insertBytes (insertBytes m xs).map ys := by
  induction xs generalizing m with
  | nil => rfl
  | cons d ds ih =>
    rw [List.cons_append]
    cases hd : m d.address with
    | some v => simp [insertBytes, hd] at h
    | none =>
      have h1 : insertBytes m (d :: ds) = insertBytes (m.insert d.address d.value) ds := by simp [insertBytes, hd]
      have h2 : insertBytes m (d :: (ds ++ ys)) = insertBytes (m.insert d.address d.value) (ds ++ ys) := by simp [insertBytes, hd]
      rw [h1] at h ⊢
      rw [h2]
      exact ih _ h

theorem acc_prefix {α : Type} {p p' : Pipeline.State α} {o : Pipeline.Op} (h : Pipeline.step p o = some p') : p.acc <+: p'.acc := by
  cases o <;> simp only [Pipeline.step] at h <;> (repeat' split at h) <;> cases h <;> simp

theorem room_init {scripts : List (List (List DataByte))} (h : ∀ b ∈ scripts, b.length ≤ 1) : Room (Pipeline.init 1 scripts) := by
  intro w hw
  obtain ⟨t, ht, rfl⟩ := List.mem_map.1 hw
  exact ⟨rfl, by simpa using h t ht⟩

theorem room_step {p p' : Pipeline.State (List DataByte)} {o : Pipeline.Op} (h : Room p) (hs : Pipeline.step p o = some p') : Room p' := by
  cases o <;> simp only [Pipeline.step] at hs <;> (repeat' split at hs) <;> cases hs
  · next w hw _ x t htodo hlt =>
    intro v hv
    rcases List.mem_or_eq_of_mem_set hv with hv | rfl
    · exact h v hv
    · have := h w (List.mem_of_getElem? hw)
      rw [htodo] at this
      simp at this ⊢
      omega
  · next i w hw hc =>
    intro v hv
    rcases List.mem_or_eq_of_mem_set hv with hv | rfl
    · exact h v hv
    · exact h w (List.mem_of_getElem? hw)
  · next w hw _ x b hbuf =>
    intro v hv
    rcases List.mem_or_eq_of_mem_set hv with hv | rfl
    · exact h v hv
    · have := h w (List.mem_of_getElem? hw)
      rw [hbuf] at this
      simp at this ⊢
      omega
  · next w hw _ _ x t hbuf htodo =>
    intro v hv
    rcases List.mem_or_eq_of_mem_set hv with hv | rfl
    · exact h v hv
    · have := h w (List.mem_of_getElem? hw)
      rw [hbuf, htodo] at this
      simp at this ⊢
      simp [this, hbuf]
  · exact h

theorem tidy_step {p p' : Pipeline.State (List DataByte)} {o : Pipeline.Op} (h : Tidy p) (hs : Pipeline.step p o = some p') : Tidy p' := by
  cases o <;> simp only [Pipeline.step] at hs <;> (repeat' split at hs) <;> cases hs
  · next w hw _ x t htodo hlt =>
    intro v hv hc
    rcases List.mem_or_eq_of_mem_set hv with hv | rfl
    · exact h v hv hc
    · have := h w (List.mem_of_getElem? hw) hc
      rw [htodo] at this
      cases this
  · next i w hw hc' =>
    intro v hv hc
    rcases List.mem_or_eq_of_mem_set hv with hv | rfl
    · exact h v hv hc
    · simp at hc'
      exact hc'.1
  · next w hw _ x b hbuf =>
    intro v hv hc
    rcases List.mem_or_eq_of_mem_set hv with hv | rfl
    · exact h v hv hc
    · exact h w (List.mem_of_getElem? hw) hc
  · next w hw _ _ x t hbuf htodo =>
    intro v hv hc
    rcases List.mem_or_eq_of_mem_set hv with hv | rfl
    · exact h v hv hc
    · have := h w (List.mem_of_getElem? hw) hc
      rw [htodo] at this
      cases this
  · exact h

theorem step_inv {P : Prog R} {n : Nat} (hn : 0 < n) {lines : List Str} {recs : List R} (ht : Total P n lines recs)
    {s s' : State P} {o : Op} (hi : Inv P n lines recs s) (hs : step P n s o = some s') : Inv P n lines recs s' := by
  cases hi with
  | @parsing p scripts h hsc =>
    cases o with
    | chan o =>
      obtain ⟨p', h1, rfl⟩ := Option.map_eq_some_iff.1 hs
      exact .parsing scripts (Pipeline.inv_step h h1) hsc
    | main =>
      simp only [step] at hs
      split at hs
      · next hp =>
        cases hs
        have hacc : p.acc = scripts.flatten := by
          have := h.content
          rw [hp, List.drop_length] at this
          simpa using this
        rw [hacc, hsc]
        exact startCheck_inv hn ht
      · cases hs
    | check o => cases hs
    | off k => cases hs
  | @checking f s scripts h hb ks hr =>
    cases o with
    | chan o => cases hs
    | check o =>
      obtain ⟨f', h1, rfl⟩ := Option.map_eq_some_iff.1 hs
      exact .checking scripts (FanIn.inv_step h h1) hb ks hr
    | off k =>
      obtain ⟨s', h1, rfl⟩ := Option.map_eq_some_iff.1 hs
      exact .checking scripts h hb (ks ++ [k]) (Shared.run_snoc hr h1)
    | main =>
      simp only [step] at hs
      have hv : ∀ v, f.verdict = some v → (v = true ↔ Bad P recs) := by
        intro v hv
        rw [h.ver v hv, ← hb]
        simp [List.any_eq_true]
      split at hs
      · cases hs
      · next hf =>
        cases hs
        exact .returned (Or.inl ⟨(hv _ hf).1 rfl, rfl⟩) ⟨ks, hr⟩
      · next hf =>
        cases hs
        exact .waiting (fun hbad => by cases (hv _ hf).2 hbad) ks hr
  | @waiting s hb ks hr =>
    cases o with
    | chan o => cases hs
    | check o => cases hs
    | off k =>
      obtain ⟨s', h1, rfl⟩ := Option.map_eq_some_iff.1 hs
      exact .waiting hb (ks ++ [k]) (Shared.run_snoc hr h1)
    | main =>
      simp only [step] at hs
      split at hs
      · next hd =>
        cases hs
        obtain ⟨bss, hbss⟩ := ht.bytes ks s hr hd
        unfold startData
        rw [hbss]
        exact .collecting hb ks s hr hd bss hbss (Pipeline.inv_init 1 bss) room_init rfl
      · cases hs
  | @collecting p m hb ks s hr hd scripts hsc h hroom hm =>
    have hbytes : scripts.flatten.flatten = bytesOf P n (P.shared.recs s) := by
      unfold bytesOf
      rw [hsc]
    cases o with
    | chan o =>
      simp only [step] at hs
      split at hs
      · cases hs
      · next p' hp' =>
        have hinv := Pipeline.inv_step h hp'
        have hacc : p'.acc.flatten = p.acc.flatten ++ (p'.acc.drop p.acc.length).flatten := by
          obtain ⟨t, ht'⟩ := acc_prefix hp'
          rw [← ht']
          simp
        have hins : insertBytes Mem.empty p'.acc.flatten = insertBytes m (p'.acc.drop p.acc.length).flatten := by
          rw [hacc, insertBytes_append _ _ _ (by rw [hm]), hm]
        split at hs
        · next e he =>
          cases hs
          refine .returned (Or.inr ⟨hb, ks, s, hr, hd, ?_⟩)
            ⟨hb, ks, s, scripts, hr, hd, hsc, hinv.closed, fun hl => room_step (hroom hl) hp'⟩
          rw [← hins] at he ⊢
          rw [← hbytes, ← hinv.content, List.flatten_append, insertBytes_prefix _ _ _ (by rw [he]; simp)]
        · next he =>
          cases hs
          refine .collecting hb ks s hr hd scripts hsc hinv (fun hl => room_step (hroom hl) hp') ?_
          rw [hins]
          generalize insertBytes m (p'.acc.drop p.acc.length).flatten = r at he ⊢
          cases r
          cases he
          rfl
    | main =>
      simp only [step] at hs
      split at hs
      · next hp =>
        cases hs
        have hacc : p.acc = scripts.flatten := by
          have := h.content
          rw [hp, List.drop_length] at this
          simpa using this
        refine .returned (Or.inr ⟨hb, ks, s, hr, hd, ?_⟩) ⟨hb, ks, s, scripts, hr, hd, hsc, h.closed, hroom⟩
        rw [← hm, hacc, hbytes]
      · cases hs
    | check o => cases hs
    | off k => cases hs
  | @returned out rest h hr =>
    cases rest with
    | offsets s =>
      obtain ⟨ks, hr⟩ := hr
      cases o with
      | off k =>
        obtain ⟨s', h1, rfl⟩ := Option.map_eq_some_iff.1 hs
        exact .returned h ⟨ks ++ [k], Shared.run_snoc hr h1⟩
      | chan o => cases hs
      | check o => cases hs
      | main => cases hs
    | data p =>
      obtain ⟨hb, ks, s, scripts, hr, hd, hsc, ht', hroom⟩ := hr
      cases o with
      | chan o =>
        cases o with
        | send i =>
          obtain ⟨p', h1, rfl⟩ := Option.map_eq_some_iff.1 hs
          exact .returned h ⟨hb, ks, s, scripts, hr, hd, hsc, tidy_step ht' h1, fun hl => room_step (hroom hl) h1⟩
        | close i =>
          obtain ⟨p', h1, rfl⟩ := Option.map_eq_some_iff.1 hs
          exact .returned h ⟨hb, ks, s, scripts, hr, hd, hsc, tidy_step ht' h1, fun hl => room_step (hroom hl) h1⟩
        | recv => cases hs
        | handoff => cases hs
        | advance => cases hs
      | off k => cases hs
      | check o => cases hs
      | main => cases hs

theorem run_inv {P : Prog R} {n : Nat} (hn : 0 < n) {lines : List Str} {recs : List R} (ht : Total P n lines recs)
    {s s' : State P} {os : List Op} (hi : Inv P n lines recs s) (hr : run P n s os = some s') : Inv P n lines recs s' := by
  induction os generalizing s with
  | nil => cases hr; exact hi
  | cons o os ih =>
    obtain ⟨s1, h1, h2⟩ := Option.bind_eq_some_iff.1 hr
    exact ih (step_inv hn ht hi h1) h2

/-- A state in which the parser has not returned can be continued, if that holds of the goroutines on the records. -/
theorem progress {P : Prog R} {n : Nat} {lines : List Str} {recs : List R}
    (hsh : ∀ ks s, P.shared.run (P.shared.start recs) ks = some s → P.shared.done s = false → ∃ k s', P.shared.step s k = some s')
    {s : State P} (hi : Inv P n lines recs s) : (∃ o s', step P n s o = some s') ∨ ∃ o rest, s = .returned o rest := by
  cases hi with
  | @parsing p scripts h hsc =>
    left
    by_cases hf : p.pos = p.ws.length
    · exact ⟨.main, _, if_pos hf⟩
    · obtain ⟨o, p', ho⟩ := Pipeline.progress h hf
      exact ⟨.chan o, .parsing p', by simp [step, ho]⟩
  | @checking f s scripts h hb ks hr =>
    left
    cases hv : f.verdict with
    | some v => cases v <;> exact ⟨.main, _, by simp only [step, hv]; rfl⟩
    | none =>
      by_cases hall : f.ws.all (·.done) = true
      · exact ⟨.check .main, _, by simp only [step, FanIn.step, hv, hall]; rfl⟩
      · simp only [List.all_eq_true, Classical.not_forall] at hall
        obtain ⟨w, hw, hd⟩ := hall
        obtain ⟨i, hi, rfl⟩ := List.getElem_of_mem hw
        obtain ⟨f', hf'⟩ := FanIn.worker_enabled h (List.getElem?_eq_getElem hi) (by simpa using hd)
        exact ⟨.check (.work i), .checking f' s, by simp [step, hf']⟩
  | @waiting s hb ks hr =>
    left
    cases hd : P.shared.done s with
    | true => exact ⟨.main, _, if_pos hd⟩
    | false =>
      obtain ⟨k, s', hk⟩ := hsh ks s hr hd
      exact ⟨.off k, .waiting s', by simp [step, hk]⟩
  | @collecting p m hb ks s hr hd scripts hsc h hroom hm =>
    left
    by_cases hf : p.pos = p.ws.length
    · exact ⟨.main, _, if_pos hf⟩
    · obtain ⟨o, p', ho⟩ := Pipeline.progress h hf
      cases he : (insertBytes m (p'.acc.drop p.acc.length).flatten).err with
      | none => exact ⟨.chan o, _, by simp only [step, ho, he]; rfl⟩
      | some e => exact ⟨.chan o, _, by simp only [step, ho, he]; rfl⟩
  | @returned o rest h hr => exact Or.inr ⟨o, rest, rfl⟩

/-- Steps still to come within a phase, and the number of the phase. -/
def State.phase {P : Prog R} : State P → Nat
  | .parsing _ => 4
  | .checking _ _ => 3
  | .waiting _ => 2
  | .collecting _ _ => 1
  | .returned _ _ => 0
  | .crashed => 0

def State.work {P : Prog R} (w : P.shared.S → Nat) : State P → Nat
  | .parsing p => p.work
  | .checking f s => f.work + w s
  | .waiting s => w s
  | .collecting p _ => p.work
  | .returned _ (.offsets s) => w s
  | .returned _ (.data p) => p.work
  | .crashed => 0

/-- Every step goes to a later phase or does some of the work of the phase. -/
theorem step_less {P : Prog R} {n : Nat} {lines : List Str} {recs : List R} (w : P.shared.S → Nat)
    (hw : ∀ ks s k s', P.shared.run (P.shared.start recs) ks = some s → P.shared.step s k = some s' → w s' < w s)
    {s s' : State P} {o : Op} (hi : Inv P n lines recs s) (hs : step P n s o = some s') :
    s'.phase < s.phase ∨ s'.phase = s.phase ∧ s'.work w < s.work w := by
  have hcheck : ∀ r, (startCheck P n r).phase < 4 := by
    intro r; unfold startCheck; split <;> simp [State.phase]
  have hdata : ∀ r, (startData P n r).phase < 2 := by
    intro r; unfold startData; split <;> simp [State.phase]
  cases hi with
  | parsing scripts h hsc =>
    cases o with
    | chan o =>
      obtain ⟨p', h1, rfl⟩ := Option.map_eq_some_iff.1 hs
      exact Or.inr ⟨rfl, Pipeline.step_work h1⟩
    | main =>
      simp only [step] at hs
      split at hs
      · cases hs; exact Or.inl (hcheck _)
      · cases hs
    | check o => cases hs
    | off k => cases hs
  | checking scripts h hb ks hr =>
    cases o with
    | chan o => cases hs
    | check o =>
      obtain ⟨f', h1, rfl⟩ := Option.map_eq_some_iff.1 hs
      exact Or.inr ⟨rfl, Nat.add_lt_add_right (FanIn.step_work h1) _⟩
    | off k =>
      obtain ⟨s', h1, rfl⟩ := Option.map_eq_some_iff.1 hs
      exact Or.inr ⟨rfl, Nat.add_lt_add_left (hw ks _ k s' hr h1) _⟩
    | main =>
      simp only [step] at hs
      split at hs <;> cases hs <;> simp [State.phase]
  | waiting hb ks hr =>
    cases o with
    | chan o => cases hs
    | check o => cases hs
    | off k =>
      obtain ⟨s', h1, rfl⟩ := Option.map_eq_some_iff.1 hs
      exact Or.inr ⟨rfl, hw ks _ k s' hr h1⟩
    | main =>
      simp only [step] at hs
      split at hs
      · cases hs; exact Or.inl (hdata _)
      · cases hs
  | collecting hb ks s hr hd scripts hsc h hroom hm =>
    cases o with
    | chan o =>
      simp only [step] at hs
      split at hs
      · cases hs
      · next p' hp' =>
        split at hs
        · cases hs; exact Or.inl (by simp [State.phase])
        · cases hs; exact Or.inr ⟨rfl, Pipeline.step_work hp'⟩
    | main =>
      simp only [step] at hs
      split at hs <;> cases hs
      exact Or.inl (by simp [State.phase])
    | check o => cases hs
    | off k => cases hs
  | @returned out rest h hr =>
    cases rest with
    | offsets s =>
      obtain ⟨ks, hr⟩ := hr
      cases o with
      | off k =>
        obtain ⟨s', h1, rfl⟩ := Option.map_eq_some_iff.1 hs
        exact Or.inr ⟨rfl, hw ks _ k s' hr h1⟩
      | chan o => cases hs
      | check o => cases hs
      | main => cases hs
    | data p =>
      cases o with
      | chan o =>
        cases o with
        | send i =>
          obtain ⟨p', h1, rfl⟩ := Option.map_eq_some_iff.1 hs
          exact Or.inr ⟨rfl, Pipeline.step_work h1⟩
        | close i =>
          obtain ⟨p', h1, rfl⟩ := Option.map_eq_some_iff.1 hs
          exact Or.inr ⟨rfl, Pipeline.step_work h1⟩
        | recv => cases hs
        | handoff => cases hs
        | advance => cases hs
      | off k => cases hs
      | check o => cases hs
      | main => cases hs

/-- Every state can be run to one that cannot be continued. -/
theorem exists_maximal {P : Prog R} {n : Nat} (hn : 0 < n) {lines : List Str} {recs : List R} (ht : Total P n lines recs) (w : P.shared.S → Nat)
    (hw : ∀ ks s k s', P.shared.run (P.shared.start recs) ks = some s → P.shared.step s k = some s' → w s' < w s)
    {s : State P} (hi : Inv P n lines recs s) : ∃ os s', run P n s os = some s' ∧ ∀ o, step P n s' o = none := by
  have key : ∀ ph wk (s : State P), Inv P n lines recs s → s.phase = ph → s.work w = wk →
      ∃ os s', run P n s os = some s' ∧ ∀ o, step P n s' o = none := by
    intro ph
    induction ph using Nat.strongRecOn with
    | _ ph ihp =>
      intro wk
      induction wk using Nat.strongRecOn with
      | _ wk ihw =>
        intro s hi h1 h2
        by_cases hst : ∀ o, step P n s o = none
        · exact ⟨[], s, rfl, hst⟩
        · simp only [Classical.not_forall] at hst
          obtain ⟨o, ho⟩ := hst
          obtain ⟨s1, ho⟩ := Option.ne_none_iff_exists'.1 ho
          have hi1 := step_inv hn ht hi ho
          have : ∃ os s', run P n s1 os = some s' ∧ ∀ o, step P n s' o = none := by
            rcases step_less w hw hi ho with h3 | ⟨h3, h4⟩
            · exact ihp _ (h1 ▸ h3) _ s1 hi1 rfl rfl
            · exact ihw _ (h2 ▸ h4) s1 hi1 (h3.trans h1) rfl
          obtain ⟨os, s', hr, hst⟩ := this
          exact ⟨o :: os, s', by simp [run, ho, hr], hst⟩
  exact key _ _ s hi rfl rfl

/-- There is no execution that goes on for ever. -/
theorem no_infinite {P : Prog R} {n : Nat} (hn : 0 < n) {lines : List Str} {recs : List R} (ht : Total P n lines recs) (w : P.shared.S → Nat)
    (hw : ∀ ks s k s', P.shared.run (P.shared.start recs) ks = some s → P.shared.step s k = some s' → w s' < w s)
    (f : Nat → State P) (h0 : f 0 = init P n lines) (hf : ∀ i, ∃ o, step P n (f i) o = some (f (i + 1))) : False := by
  have hinv : ∀ i, Inv P n lines recs (f i) := by
    intro i
    induction i with
    | zero => rw [h0]; exact init_inv ht
    | succ i ih => obtain ⟨o, ho⟩ := hf i; exact step_inv hn ht ih ho
  have key : ∀ ph wk i, (f i).phase = ph → (f i).work w = wk → False := by
    intro ph
    induction ph using Nat.strongRecOn with
    | _ ph ihp =>
      intro wk
      induction wk using Nat.strongRecOn with
      | _ wk ihw =>
        intro i h1 h2
        obtain ⟨o, ho⟩ := hf i
        rcases step_less w hw (hinv i) ho with h3 | ⟨h3, h4⟩
        · exact ihp _ (h1 ▸ h3) _ (i + 1) rfl rfl
        · exact ihw _ (h2 ▸ h4) (i + 1) (h3.trans h1) rfl
  exact key _ _ 0 rfl rfl

/-- All goroutines left over have ended. -/
def Rest.ended {P : Prog R} : Rest P → Prop
  | .offsets s => P.shared.done s = true
  | .data p => ∀ w ∈ p.ws, w.closed = true

/-- If every worker has one batch for its channel, the goroutines left over end. -/
theorem rest_ends {P : Prog R} {n : Nat} {lines : List Str} {recs : List R}
    (hsh : ∀ ks s, P.shared.run (P.shared.start recs) ks = some s → P.shared.done s = false → ∃ k s', P.shared.step s k = some s')
    (hone : ¬ Bad P recs → ∀ ks s scripts, P.shared.run (P.shared.start recs) ks = some s → P.shared.done s = true →
      ((shares? (P.shared.recs s) n).bind fun parts => parts.mapM P.bytes) = some scripts → ∀ b ∈ scripts, b.length ≤ 1)
    {o : Outcome} {rest : Rest P} (hi : Inv P n lines recs (.returned o rest)) (hst : ∀ op, step P n (.returned o rest) op = none) :
    rest.ended := by
  cases hi with
  | returned h hr =>
    cases rest with
    | offsets s =>
      obtain ⟨ks, hr⟩ := hr
      cases hd : P.shared.done s with
      | true => exact hd
      | false =>
        obtain ⟨k, s', hk⟩ := hsh ks s hr hd
        have := hst (.off k)
        simp [step, hk] at this
    | data p =>
      obtain ⟨hb, ks, s, scripts, hr, hd, hsc, ht', hroom⟩ := hr
      have hroom := hroom (hone hb ks s scripts hr hd hsc)
      intro w hw
      obtain ⟨i, hlt, rfl⟩ := List.getElem_of_mem hw
      have hget := List.getElem?_eq_getElem hlt
      obtain ⟨hcap, hlen⟩ := hroom _ hw
      cases hc : p.ws[i].closed with
      | true => rfl
      | false =>
        exfalso
        cases htodo : p.ws[i].todo with
        | nil =>
          have := hst (.chan (.close i))
          simp [step, Pipeline.step, hget, htodo, hc] at this
        | cons x t =>
          have := hst (.chan (.send i))
          rw [htodo] at hlen
          simp at hlen
          have hb0 : p.ws[i].buf.length < p.ws[i].cap := by omega
          simp [step, Pipeline.step, hget, htodo, hb0] at this

end Verif.Conc.HexRun
