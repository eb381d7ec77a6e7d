import Verif.Conc.RaceWholeRun
import Verif.Conc.RaceA2lProps
import Verif.Conc.RaceHexProps

/-! Data races of a call of `ReadCalibration`, and of overlapping calls (C90). -/

namespace Verif.Conc.Race.All
open Verif.Go Verif.Conc.Whole
open Verif.Conc.Race.A2l (mark Mix Ev2 Mix.place hb_into)

/-- C90: no execution of `ReadCalibration`, whatever the files, the number of CPUs and the order of the steps of all its goroutines, has a data
race: not inside one of the parsers, not between the two, not with the caller, which sets the logger before and uses the result after
the call, and not with goroutines that still run then. -/
theorem C90_call (cap : Sy → Nat) (F : Files) (os : List (Do F.readA2L F.readHex)) : ¬ Racy cap (trace F os) := not_racy F os

/-- A project without a module, four bytes, one CPU. -/
def smallFiles : Files := ⟨1, fun _ => true, fun _ => true, some "ASAP2_VERSION 1 60 /begin PROJECT p \"\" /end PROJECT".toList, "a.hex".toList,
  some ":0400000001020304F2".toList⟩

def inA2l (o : A2lRun.Op) : Do smallFiles.readA2L smallFiles.readHex := .step (.a2l o)
def inHex (o : HexRun.Op) : Do smallFiles.readA2L smallFiles.readHex := .step (.hex o)

/-- The hex file is read, then the A2L file; the caller looks at the bytes and changes the object. -/
def smallOps : List (Do smallFiles.readA2L smallFiles.readHex) :=
  [inHex (.chan (.send 0)), inHex (.chan .recv), inHex (.chan (.close 0)), inHex (.chan .advance), inHex .main,
    inHex (.off 0), inHex (.off 0), inHex (.off 0), inHex (.off 0), inHex (.check (.work 0)), inHex (.check (.work 0)), inHex (.check .main), inHex .main,
    inHex .main, inHex (.chan (.send 0)), inHex (.chan .recv), inHex (.chan (.close 0)), inHex (.chan .advance), inHex .main,
    .step .readHex, .step .readHex, .step .readHex,
    inA2l (.chan (.send 0)), inA2l (.chan .recv), inA2l (.chan (.close 0)), inA2l (.chan .advance), inA2l (.chan (.send 1)), inA2l (.chan .recv),
    inA2l (.chan (.close 1)), inA2l (.chan .advance), inA2l .main, inA2l .main, .step .readA2L, .step .readA2L, .step .readA2L,
    .step .main, .step .main, .step .main, .step .main, .step .main, .use (.read .hexMap), .use (.write .a2l)]

-- all these steps are possible, and memory goes from one goroutine to the other
example : ⟨.rdH, .write .hexMap⟩ ∈ trace smallFiles smallOps ∧ ⟨.rdA, .write .a2l⟩ ∈ trace smallFiles smallOps ∧
    (trace smallFiles smallOps).drop 109 = [⟨.caller, .read .hexMap⟩, ⟨.caller, .write .a2l⟩] ∧ ¬ Racy (fun _ => 1) (trace smallFiles smallOps) :=
  ⟨by decide +kernel, by decide +kernel, by decide +kernel, C90_call _ _ _⟩

/-- The first event of an execution, the one that sets the logger, after the two that start the goroutines. -/
def lateLogger : Trace → Trace
  | a :: b :: c :: t => b :: c :: a :: t
  | t => t

/-- The place of `configureLogger` (calib_data.go:60) is needed: if the logger were set after the goroutines have been started, one of them would
race with that. -/
theorem C90_logger_needed : ∃ F os, Racy (fun _ => 1) (lateLogger (trace F os)) :=
  ⟨smallFiles, smallOps, racy_of_races (i := 2) (j := 3) (by decide +kernel)⟩

/-- The caller waits and receives. -/
def joins (e : Ev) : Bool :=
  match e.act with
  | .wait .wgReaders | .recv .a2lChan | .recv .hexChan | .recv .errChan => true
  | _ => false

/-- Waiting for the goroutines or receiving from them (calib_data.go:76, 92-93) is needed: a caller that takes the result without either races with
the goroutine that has filled the map. -/
theorem C90_join_needed : ∃ F os, Racy (fun _ => 1) ((trace F os).filter fun e => !joins e) :=
  ⟨smallFiles, smallOps, racy_of_races (i := 57) (j := 106) (by decide +kernel)⟩

/-! ### Two calls at the same time -/

/-- Somebody starts two goroutines, each of which does what is in `u` and `v`, in any order. -/
def Both (r : G) (u v : Trace) (t : List Ev2) : Prop :=
  ∃ w, Mix (u.map (mark false)) (v.map (mark true)) w ∧ t = ⟨none, .go (some (false, r))⟩ :: ⟨none, .go (some (true, r))⟩ :: w

theorem mark_eq (b : Bool) (e : Ev) : mark b e = e.map (fun g => some (b, g)) (fun l => (if A2l.Loc.global l then false else b, l)) (fun c => (b, c)) := by
  obtain ⟨g, a⟩ := e
  cases a <;> rfl

/-- A call of one of the hex parsers. -/
def HexCall (t : Trace) : Prop :=
  (∃ n lines os, t = Hex.trace (HexRun.ihex n) (Hex.ihexAccess n) n lines os) ∨ ∃ n lines os, t = Hex.trace HexRun.srec Hex.srecAccess n lines os

theorem hexRun {cap : Sy → Nat} {R : Type} {P : HexRun.Prog R} {M : Hex.Access P} {D : Hex.Disc P M} {n : Nat} {lines : List Str} : ∀ {os : List HexRun.Op} {s : HexRun.State P}
    {t : Trace}, (hexPart (cap := cap) D n lines).inv s t → ∃ s', (hexPart (cap := cap) D n lines).inv s' (t ++ Hex.traceFrom P M n lines s os)
  | [], s, t, h => ⟨s, by rw [Hex.traceFrom, List.append_nil]; exact h⟩
  | o :: os, s, t, h => by
    rw [Hex.traceFrom]
    split
    · rw [List.append_nil]; exact ⟨s, h⟩
    · rename_i s' hs
      rw [← List.append_assoc]
      exact hexRun ((hexPart D n lines).step h hs)

theorem HexCall.facts {t : Trace} (h : HexCall t) (cap : Sy → Nat) : Free cap (fun _ => True) t ∧ ∀ e ∈ t, Own true e := by
  rcases h with ⟨n, lines, os, rfl⟩ | ⟨n, lines, os, rfl⟩
  · obtain ⟨s, hs⟩ := hexRun (os := os) (hexPart (cap := cap) (Hex.ihexDisc n) n lines).init
    exact ⟨(hexPart (Hex.ihexDisc n) n lines).free hs, (hexPart (Hex.ihexDisc n) n lines).own hs⟩
  · obtain ⟨s, hs⟩ := hexRun (os := os) (hexPart (cap := cap) Hex.srecDisc n lines).init
    exact ⟨(hexPart Hex.srecDisc n lines).free hs, (hexPart Hex.srecDisc n lines).own hs⟩

/-- An event of one of two calls. -/
def sideSel (b : Bool) (x : Option (Bool × Ev) × Ev2) : Option Ev := x.1.bind fun y => if y.1 = b then some y.2 else none

theorem Mix.sides : ∀ {u v : Trace} {w : List Ev2}, Mix (u.map (mark false)) (v.map (mark true)) w →
    ∃ T : List (Option (Bool × Ev) × Ev2), w = T.map (·.2) ∧ T.filterMap (sideSel false) = u ∧ T.filterMap (sideSel true) = v ∧ ∀ x ∈ T, ∃ b e, x = (some (b, e), mark b e) := by
  intro u v w h
  generalize hu : u.map (mark false) = u' at h
  generalize hv : v.map (mark true) = v' at h
  induction h generalizing u v with
  | nil =>
    rw [List.map_eq_nil_iff] at hu hv
    subst hu hv
    exact ⟨[], rfl, rfl, rfl, by simp⟩
  | left _ ih =>
    cases u with
    | nil => cases hu
    | cons e u =>
      simp only [List.map_cons, List.cons.injEq] at hu
      obtain ⟨rfl, hu⟩ := hu
      obtain ⟨T, rfl, h1, h2, h3⟩ := ih hu hv
      refine ⟨(some (false, e), mark false e) :: T, rfl, ?_, ?_, fun x hx => ?_⟩
      · simp [sideSel] at h1 ⊢; exact h1
      · simp [sideSel] at h2 ⊢; exact h2
      · rcases List.mem_cons.1 hx with rfl | hx
        · exact ⟨_, _, rfl⟩
        · exact h3 x hx
  | right _ ih =>
    cases v with
    | nil => cases hv
    | cons e v =>
      simp only [List.map_cons, List.cons.injEq] at hv
      obtain ⟨rfl, hv⟩ := hv
      obtain ⟨T, rfl, h1, h2, h3⟩ := ih hu hv
      refine ⟨(some (true, e), mark true e) :: T, rfl, ?_, ?_, fun x hx => ?_⟩
      · simp [sideSel] at h1 ⊢; exact h1
      · simp [sideSel] at h2 ⊢; exact h2
      · rcases List.mem_cons.1 hx with rfl | hx
        · exact ⟨_, _, rfl⟩
        · exact h3 x hx

theorem mark_access {b : Bool} {e : Ev} {l : Bool × Loc} {k : Kind} (h : (mark b e).act.access = some (l, k)) :
    ∃ l', e.act.access = some (l', k) ∧ l = (if A2l.Loc.global l' then false else b, l') := by
  obtain ⟨g, a⟩ := e
  cases a <;> cases h <;> exact ⟨_, rfl, rfl⟩

/-- C90 for the hex parsers: two calls at the same time, of the same format or of different ones, have no data race. -/
theorem C90_hex_overlap {u v : Trace} (hu : HexCall u) (hv : HexCall v) {t : List Ev2} (cap : Bool × Sy → Nat) (h : Both .rdH u v t) : ¬ Racy cap t := by
  obtain ⟨w, hm, rfl⟩ := h
  obtain ⟨T, rfl, h1, h2, h3⟩ := Mix.sides hm
  -- everything, with the two events of the goroutine that starts both
  let pre : List (Option (Bool × Ev) × Ev2) := [(none, ⟨none, .go (some (false, .rdH))⟩), (none, ⟨none, .go (some (true, .rdH))⟩)]
  have hT : (⟨none, .go (some (false, .rdH))⟩ :: ⟨none, .go (some (true, .rdH))⟩ :: T.map (·.2) : List Ev2) = (pre ++ T).map fun x => x.2 := rfl
  rw [hT]
  have hcase : ∀ x ∈ pre ++ T, (x.1 = none ∧ x.2.act.access = none ∧ ∀ c, x.2.act ≠ .send c ∧ x.2.act ≠ .recv c) ∨ ∃ b e, x = (some (b, e), mark b e) := by
    intro x hx
    rcases List.mem_append.1 hx with hx | hx
    · simp only [pre, List.mem_cons, List.not_mem_nil, or_false] at hx
      rcases hx with rfl | rfl <;> exact Or.inl ⟨rfl, rfl, fun _ => ⟨nofun, nofun⟩⟩
    · exact Or.inr (h3 x hx)
  have hpart : ∀ b, (pre ++ T).filterMap (sideSel b) = if b then v else u := fun b => by
    cases b
    · exact h1
    · exact h2
  have hfacts : ∀ b, Free (fun c => cap (b, c)) (fun _ => True) ((pre ++ T).filterMap (sideSel b)) ∧ ∀ e ∈ (pre ++ T).filterMap (sideSel b), Own true e := fun b => by
    rw [hpart]
    cases b
    · exact hu.facts _
    · exact hv.facts _
  have hview : ∀ b, View (fun x : Option (Bool × Ev) × Ev2 => x.2) (sideSel b) (fun g => some (b, g)) (fun l => (if A2l.Loc.global l then false else b, l)) (fun c => (b, c))
      (fun _ => True) (pre ++ T) := fun b =>
    { same := fun x hx e he => by
        rcases hcase x hx with ⟨h, _⟩ | ⟨b', e', rfl⟩
        · simp [sideSel, h] at he
        · simp only [sideSel, Option.bind_some] at he
          split at he
          · rename_i hb; cases he; cases hb; exact mark_eq _ _
          · cases he
      inj := fun c d h => (Prod.mk.inj h).2
      chans := fun _ _ _ _ _ _ => trivial
      alone := fun x hx c _ ha => by
        rcases hcase x hx with ⟨_, _, h⟩ | ⟨b', e', rfl⟩
        · rcases ha with ha | ha
          · exact absurd ha (h _).1
          · exact absurd ha (h _).2
        · have hb : b' = b := by
            obtain ⟨g, a⟩ := e'
            rcases ha with ha | ha <;> cases a <;> cases ha <;> rfl
          simp [sideSel, hb] }
  have hat : ∀ {i : Nat} {b : Bool} {e : Ev}, (pre ++ T)[i]? = some (some (b, e), mark b e) → At (sideSel b) (pre ++ T) i (rank (sideSel b) (pre ++ T) i) e := fun h =>
    ⟨_, h, by simp [sideSel], rfl⟩
  refine free_not_racy fun i j e f he hf hij _ _ hne hc => ?_
  rw [List.getElem?_map, Option.map_eq_some_iff] at he hf
  obtain ⟨x, hx, rfl⟩ := he
  obtain ⟨y, hy, rfl⟩ := hf
  obtain ⟨l, k, k', a1, a2, a3, a4⟩ := id hc
  rcases hcase x (List.mem_of_getElem? hx) with ⟨_, h, _⟩ | ⟨b, e, rfl⟩
  · rw [h] at a1; cases a1
  rcases hcase y (List.mem_of_getElem? hy) with ⟨_, h, _⟩ | ⟨b', f, rfl⟩
  · rw [h] at a2; cases a2
  have hx' := hat hx
  have hy' := hat hy
  obtain ⟨l1, c1, c2⟩ := mark_access a1
  obtain ⟨l2, d1, d2⟩ := mark_access a2
  have hl : l1 = l2 := by rw [c2] at d2; exact (Prod.mk.inj d2).2
  subst hl
  have o1 := ((hfacts b).2 e (List.mem_of_getElem? hx'.get)).1 l1 k c1
  have o2 := ((hfacts b').2 f (List.mem_of_getElem? hy'.get)).1 l1 k' d1
  have hex : Hex.hexL l1 := by
    rcases o1 with o1 | ⟨rfl, rfl⟩
    · exact o1
    · rcases o2 with o2 | ⟨_, rfl⟩
      · exact (mine_logger (b := true) o2).elim
      · exact absurd ⟨rfl, rfl⟩ a3
  have hglob : A2l.Loc.global l1 = false := by cases l1 <;> first | rfl | exact hex.elim
  have hb : b = b' := by
    rw [c2, hglob] at d2
    exact (Prod.mk.inj d2).1
  subst hb
  have hw : e.who ≠ f.who := fun h => hne (by simp [mark, h])
  exact (hview b).hb (cap := fun c => cap (b, c)) (fun _ _ => rfl)
    ((hfacts b).1 _ _ _ _ hx'.get hy'.get (hx'.mono hy' hij) trivial trivial hw ⟨l1, k, k', c1, d1, a3, a4⟩) hx' hy'

theorem mix_append {α : Type} (u v : List α) : Mix u v (u ++ v) := by
  induction u with
  | nil =>
    induction v with
    | nil => exact .nil
    | cons x v ih => exact .right ih
  | cons x u ih => exact .left ih

-- an Intel HEX and an S19 file
example : ¬ Racy (fun _ => 1) (⟨none, .go (some (false, .rdH))⟩ :: ⟨none, .go (some (true, .rdH))⟩ ::
    ((Hex.trace (HexRun.ihex 2) (Hex.ihexAccess 2) 2 Hex.someLines Hex.someOps).map (mark false) ++ (Hex.trace HexRun.srec Hex.srecAccess 2 Hex.someS19 Hex.s19Ops).map (mark true))) :=
  C90_hex_overlap (Or.inl ⟨_, _, _, rfl⟩) (Or.inr ⟨_, _, _, rfl⟩) _ ⟨_, mix_append _ _, rfl⟩

/-- The event starts nobody who starts a call. -/
def Below (e : Ev) : Prop := e.act ≠ .go .caller

theorem below_acts {g : G} {as : List Race.A} (h : ∀ a ∈ as, a ≠ .go .caller) : ∀ e ∈ acts g as, Below e := fun e he => by
  obtain ⟨_, h2⟩ := mem_acts.1 he
  exact h _ h2

theorem below_pipe {α : Type} {Q : Pipe G Loc Sy} {loc : Nat → List Race.A} {got : List Race.A} {p : Pipeline.State α} {o : Pipeline.Op}
    (hl : ∀ k, ∀ a ∈ loc k, a ≠ .go .caller) (hg : ∀ a ∈ got, a ≠ .go .caller) : ∀ e ∈ Q.events loc got p o, Below e := by
  have hsend : ∀ (k m : Nat), ∀ a ∈ loc k ++ [.write (Q.bt k m), .send (Q.ch k)], a ≠ .go .caller := fun k m a ha => by
    simp only [List.mem_append, List.mem_cons, List.not_mem_nil, or_false] at ha
    rcases ha with ha | rfl | rfl
    · exact hl k a ha
    · nofun
    · nofun
  have hrecv : ∀ (k m : Nat), ∀ a ∈ Act.recv (Q.ch k) :: .read (Q.bt k m) :: got, a ≠ .go .caller := fun k m a ha => by
    simp only [List.mem_cons] at ha
    rcases ha with rfl | rfl | ha
    · nofun
    · nofun
    · exact hg a ha
  intro e he
  cases o with
  | send k =>
    simp only [Pipe.events] at he
    split at he
    · exact below_acts (hsend k _) e he
    · cases he
  | close k => exact below_acts (fun a ha => by cases List.mem_singleton.1 ha; nofun) e he
  | recv =>
    simp only [Pipe.events] at he
    split at he
    · exact below_acts (hrecv _ _) e he
    · cases he
  | handoff =>
    simp only [Pipe.events] at he
    split at he
    · rcases List.mem_append.1 he with he | he
      · exact below_acts (hsend _ _) e he
      · exact below_acts (hrecv _ _) e he
    · cases he
  | advance => exact below_acts (fun a ha => by cases List.mem_singleton.1 ha; nofun) e he

theorem below_hex {R : Type} {P : HexRun.Prog R} {M : Hex.Access P} (hM : ∀ s k, ∀ a ∈ M.acts s k, a ≠ .go .caller) {n : Nat} {lines : List Str} {s : HexRun.State P}
    {o : HexRun.Op} : ∀ e ∈ Hex.events P M n lines s o, Below e := by
  have hline : ∀ k, ∀ a ∈ Hex.lineActs (Hex.parsed P n lines) k, a ≠ .go .caller := fun k a ha => by
    simp only [Hex.lineActs, List.mem_cons, List.mem_flatMap, List.not_mem_nil, or_false] at ha
    rcases ha with rfl | rfl | ⟨_, _, rfl | rfl⟩ <;> nofun
  have hdata : ∀ len k, ∀ a ∈ Hex.dataActs len n k, a ≠ .go .caller := fun len k a ha => by
    simp only [Hex.dataActs, List.mem_cons, List.mem_flatMap, List.not_mem_nil, or_false] at ha
    rcases ha with rfl | rfl | rfl | ⟨_, _, rfl | rfl⟩ <;> nofun
  have hgot : ∀ a ∈ Hex.recGot, a ≠ .go .caller := fun a ha => by
    simp only [Hex.recGot, List.mem_cons, List.not_mem_nil, or_false] at ha
    rcases ha with rfl | rfl <;> nofun
  have hgot' : ∀ a ∈ Hex.datGot, a ≠ .go .caller := fun a ha => by
    simp only [Hex.datGot, List.mem_cons, List.not_mem_nil, or_false] at ha
    rcases ha with rfl | rfl <;> nofun
  intro e he
  unfold Hex.events at he
  split at he
  · exact below_pipe hline hgot e he
  · refine below_acts (fun a ha => ?_) e he
    simp only [List.mem_cons, List.mem_map, List.mem_append] at ha
    rcases ha with rfl | ⟨g, ⟨k, _, rfl⟩ | ⟨k, _, rfl⟩, rfl⟩ <;> nofun
  · split at he
    · refine below_acts (fun a ha => ?_) e he
      unfold Hex.chkActs at ha
      repeat' split at ha
      all_goals
        simp only [List.mem_cons, List.not_mem_nil, or_false] at ha
      · rcases ha with rfl | rfl <;> nofun
      · cases ha; nofun
      · rcases ha with rfl | rfl | rfl | rfl <;> nofun
    · cases he
  · refine below_acts (fun a ha => ?_) e he
    rcases List.mem_append.1 ha with ha | ha
    · simp only [List.mem_cons, List.not_mem_nil, or_false] at ha
      rcases ha with rfl | rfl <;> nofun
    · split at ha
      · cases ha
      · cases List.mem_singleton.1 ha; nofun
  · exact below_acts (hM _ _) e he
  · exact below_acts (hM _ _) e he
  · refine below_acts (fun a ha => ?_) e he
    rcases List.mem_append.1 ha with ha | ha
    · split at ha
      · cases ha
      · cases List.mem_singleton.1 ha; nofun
    · simp only [List.mem_cons, List.mem_map] at ha
      rcases ha with rfl | ⟨g, ⟨k, _, rfl⟩, rfl⟩ <;> nofun
  · exact below_pipe (hdata _) hgot' e he
  · exact below_acts (hM _ _) e he
  · exact below_pipe (hdata _) hgot' e he
  · cases he

/-- The goroutines of a part start nobody who starts a call. -/
def Under {Out : Type} {X : Sys Out} (L : Labels X) : Prop := (∀ e ∈ L.first, Below e) ∧ ∀ s o, ∀ e ∈ L.ev s o, Below e

theorem under_fixed {Out : Type} (r : Out) : Under (fixedLabels r) := ⟨nofun, fun _ o => nomatch o⟩

theorem under_hex {R : Type} {P : HexRun.Prog R} {M : Hex.Access P} (hM : ∀ s k, ∀ a ∈ M.acts s k, a ≠ .go .caller) (n : Nat) (lines : List Str) :
    Under (hexLabels P M n lines) :=
  ⟨below_acts fun a ha => by
    simp only [List.mem_append, List.mem_cons, List.not_mem_nil, or_false, List.mem_map] at ha
    rcases ha with (rfl | rfl | rfl) | ⟨k, _, rfl⟩ <;> nofun, fun _ _ => below_hex hM⟩

theorem below_fine {e : Ev} (h : A2l.Fine e.act) : Below e := fun h' => (h.2.2 _ h').1

theorem under_a2l (I : A2lRun.Input) : Under (a2lLabels I) :=
  ⟨fun e he => below_fine (A2l.startEvents_own e he).2, fun _ _ e he => below_fine (A2l.events_own e he).2⟩

theorem underA (F : Files) : Under (labelsA F) := by
  obtain ⟨cpus, graphic, floatOk, a2l, path, hex⟩ := F
  cases a2l with
  | none => exact under_fixed _
  | some t => exact under_a2l _

theorem underH (F : Files) : Under (labelsH F) := by
  have h1 : ∀ n s k, ∀ a ∈ (Hex.ihexAccess n).acts s k, a ≠ .go .caller := fun n s k a ha => by
    simp only [Hex.ihexAccess] at ha
    repeat' split at ha
    all_goals
      simp only [List.mem_append, List.mem_cons, List.not_mem_nil, or_false] at ha
    all_goals first
      | (rcases ha with rfl | rfl | rfl <;> nofun)
      | (rcases ha with (rfl | rfl) | rfl <;> nofun)
      | (rcases ha with rfl | rfl <;> nofun)
  have h2 : ∀ s k, ∀ a ∈ Hex.srecAccess.acts s k, a ≠ .go .caller := fun s k a ha => by
    cases ha
  unfold labelsH Files.readHex
  cases h : ReadCal.format F.path with
  | none => exact under_fixed _
  | some f =>
    cases h' : F.hex with
    | none => exact under_fixed _
    | some t => cases f with
      | intelHex => exact under_hex (h1 _) _ _
      | s19 => exact under_hex h2 _ _

theorem below_glue {b ok : Bool} {n : Nat} : ∀ a ∈ glueActs b ok n, a ≠ .go .caller := fun a ha => by
  unfold glueActs at ha
  split at ha
  · split at ha
    · rcases List.mem_append.1 ha with ha | ha
      · split at ha
        · cases ha
        · cases List.mem_singleton.1 ha; nofun
      · cases List.mem_singleton.1 ha; nofun
    · simp only [List.mem_cons, List.not_mem_nil, or_false] at ha
      rcases ha with rfl | rfl <;> nofun
  · rcases List.mem_cons.1 ha with rfl | ha
    · nofun
    · split at ha
      · cases List.mem_singleton.1 ha; nofun
      · cases ha
  · cases List.mem_singleton.1 ha; nofun
  · cases ha

theorem below_main {α β ε : Type} {s : ReadCal.State α β ε} : ∀ a ∈ mainActs s, a ≠ .go .caller := fun a ha => by
  unfold mainActs at ha
  repeat' split at ha
  all_goals
    simp only [List.mem_cons, List.not_mem_nil, or_false] at ha
  all_goals first
    | (rcases ha with rfl | rfl <;> nofun)
    | (cases ha; nofun)
    | cases ha

theorem below_from {A H E : Type} {MA : Sys (Except E A)} {MH : Sys (Except E H)} {LA : Labels MA} {LH : Labels MH} (ha : Under LA) (hh : Under LH) :
    ∀ {os : List (Do MA MH)} {s : State MA MH}, ∀ x ∈ traceFrom LA LH s os, Below x.2
  | [], s => by simp [traceFrom]
  | .step o :: os, s => by
    rw [traceFrom]
    split
    · simp
    · intro x hx
      rcases List.mem_append.1 hx with hx | hx
      · unfold events at hx
        split at hx
        · exact ha.2 _ _ _ (mem_tagged.1 hx).2
        · exact hh.2 _ _ _ (mem_tagged.1 hx).2
        · split at hx
          · exact below_acts below_glue _ (mem_tagged.1 hx).2
          · cases hx
        · split at hx
          · exact below_acts below_glue _ (mem_tagged.1 hx).2
          · cases hx
        · exact below_acts below_main _ (mem_tagged.1 hx).2
      · exact below_from ha hh x hx
  | .use a :: os, s => by
    rw [traceFrom]
    split
    · rename_i h
      intro x hx
      rcases List.mem_cons.1 hx with rfl | hx
      · intro h'
        have h' : a = .go .caller := h'
        subst h'
        simp [usable] at h
      · exact below_from ha hh x hx
    · simp

theorem below_trace {F : Files} {os : List (Do F.readA2L F.readHex)} : ∀ e ∈ trace F os, Below e := fun e he => by
  obtain ⟨x, hx, rfl⟩ := List.mem_map.1 he
  simp only [tags, List.mem_append] at hx
  rcases hx with ((hx | hx) | hx) | hx
  · simp only [prologue, List.mem_cons, List.not_mem_nil, or_false] at hx
    rcases hx with rfl | rfl | rfl <;> nofun
  · exact (underA F).1 _ (mem_tagged.1 hx).2
  · exact (underH F).1 _ (mem_tagged.1 hx).2
  · exact below_from (underA F) (underH F) x hx

/-- What a call does first. -/
theorem trace_head (F : Files) (os : List (Do F.readA2L F.readHex)) : ∃ u, trace F os = ⟨.caller, .write .logger⟩ :: u := ⟨_, rfl⟩

/-- C90 for two calls of `ReadCalibration` at the same time: whatever the files and the order of the steps, they have a data race, on the logger. -/
theorem C90_calls_overlap_false {F F' : Files} {os : List (Do F.readA2L F.readHex)} {os' : List (Do F'.readA2L F'.readHex)} {t : List Ev2} (cap : Bool × Sy → Nat)
    (h : Both .caller (trace F os) (trace F' os') t) : Racy cap t := by
  -- the call that is the second one to set the logger is `c`
  have key : ∀ (c : Bool) (a b : Trace) (u : List Ev2) (f g : Nat → Nat), (∃ a', a = ⟨.caller, .write .logger⟩ :: a') → (∃ b', b = ⟨.caller, .write .logger⟩ :: b') →
      (∀ e ∈ a, Below e) → (∀ e ∈ b, Below e) →
      (∀ i x, (a.map (mark (!c)))[i]? = some x → u[f i]? = some x) →
      (∀ i x, (b.map (mark c))[i]? = some x → u[g i]? = some x) → (∀ i j, i < j → g i < g j) →
      (∀ i x, u[i]? = some x → (∃ j, f j = i ∧ (a.map (mark (!c)))[j]? = some x) ∨ ∃ j, g j = i ∧ (b.map (mark c))[j]? = some x) →
      f 0 < g 0 → Racy cap (⟨none, .go (some (false, .caller))⟩ :: ⟨none, .go (some (true, .caller))⟩ :: u) := by
    rintro c a b u f g ⟨v, rfl⟩ ⟨w, rfl⟩ ha hb h1 h2 h4 h5 hlt
    have hi : u[f 0]? = some (mark (!c) ⟨.caller, .write .logger⟩) := h1 0 _ rfl
    have hj : u[g 0]? = some (mark c ⟨.caller, .write .logger⟩) := h2 0 _ rfl
    have hin : ∀ (i : Nat) (e : Ev2), (⟨none, .go (some (false, .caller))⟩ :: ⟨none, .go (some (true, .caller))⟩ :: u)[i]? = some e →
        (e.who = none ∧ ∃ b, e.act = .go (some (b, .caller))) ∨ ∃ k, i = k + 2 ∧ u[k]? = some e := by
      intro i e h
      match i with
      | 0 => cases h; exact Or.inl ⟨rfl, _, rfl⟩
      | 1 => cases h; exact Or.inl ⟨rfl, _, rfl⟩
      | k + 2 => exact Or.inr ⟨k, rfl, h⟩
    have hmark : ∀ (k : Nat) (e : Ev2), u[k]? = some e → ∃ b e', e = mark b e' ∧ Below e' := by
      intro k e h
      rcases h5 k e h with ⟨j, _, h⟩ | ⟨j, _, h⟩
      · rw [List.getElem?_map, Option.map_eq_some_iff] at h
        obtain ⟨e', h6, rfl⟩ := h
        exact ⟨_, e', rfl, ha e' (List.mem_of_getElem? h6)⟩
      · rw [List.getElem?_map, Option.map_eq_some_iff] at h
        obtain ⟨e', h6, rfl⟩ := h
        exact ⟨_, e', rfl, hb e' (List.mem_of_getElem? h6)⟩
    refine ⟨f 0 + 2, g 0 + 2, _, _, hi, hj, by omega, ?_, ⟨(false, .logger), .write, .write, rfl, rfl, nofun, nofun⟩, fun hb => ?_, fun hb => ?_⟩
    · intro h; simp [mark] at h
    · have hx : ∃ e : Ev2, u[f 0]? = some e ∧ (e.who = some (c, .caller) ∨ e.who = none) := by
        refine hb_into (t := ⟨none, .go (some (false, .caller))⟩ :: ⟨none, .go (some (true, .caller))⟩ :: u) (i := f 0 + 2) (g := some (c, .caller)) (m := g 0 + 2) ?_ ?_ ?_ ?_ hb (Nat.le_refl _) ⟨_, hj, Or.inl rfl⟩
        · intro i e he hle hwho
          rcases hin i e he with ⟨h, _⟩ | ⟨k, rfl, he⟩
          · rw [h] at hwho; cases hwho
          · rcases h5 k e he with ⟨j, _, h⟩ | ⟨j, rfl, h⟩
            · rw [List.getElem?_map, Option.map_eq_some_iff] at h
              obtain ⟨e', _, rfl⟩ := h
              simp [mark] at hwho
            · have hj0 : j = 0 := by
                rcases Nat.lt_or_ge 0 j with h' | h'
                · have := h4 0 j h'; omega
                · omega
              subst hj0
              cases h; exact ⟨_, Or.inr rfl⟩
        · intro i e he hgo
          rcases hin i e he with ⟨h, _⟩ | ⟨k, rfl, he⟩
          · exact h
          · obtain ⟨b, e', rfl, hf⟩ := hmark k e he
            obtain ⟨g', h6, h7⟩ := A2l.mark_go hgo
            cases h7
            exact absurd h6 hf
        · intro i e he hwho
          rcases hin i e he with ⟨_, b, h⟩ | ⟨k, rfl, he⟩
          · exact ⟨_, h⟩
          · obtain ⟨b, e', rfl, hf⟩ := hmark k e he
            cases hwho
        · intro i e he hgo
          rcases hin i e he with ⟨_, b, h⟩ | ⟨k, rfl, he⟩
          · rw [h] at hgo; cases hgo
          · obtain ⟨b, e', rfl, hf⟩ := hmark k e he
            obtain ⟨g', _, h7⟩ := A2l.mark_go hgo
            cases h7
      obtain ⟨e, he, hwho⟩ := hx
      rw [hi] at he
      cases he
      rcases hwho with h | h <;> simp [mark] at h
    · have := hb.lt; omega
  obtain ⟨u, hm, rfl⟩ := h
  obtain ⟨f, g, h1, h2, h3, h4, h5⟩ := hm.place
  rcases Nat.lt_trichotomy (f 0) (g 0) with h | h | h
  · exact key true _ _ u f g (trace_head F os) (trace_head F' os') below_trace below_trace h1 h2 h4 h5 h
  · have hi := h1 0 (mark false ⟨.caller, .write .logger⟩) rfl
    have hj := h2 0 (mark true ⟨.caller, .write .logger⟩) rfl
    rw [h, hj] at hi
    cases hi
  · exact key false _ _ u g f (trace_head F' os') (trace_head F os) below_trace below_trace h2 h1 h3 (fun i x hx => (h5 i x hx).symm) h

-- two calls for the same files
example : Both .caller (trace smallFiles smallOps) (trace smallFiles smallOps)
    (⟨none, .go (some (false, .caller))⟩ :: ⟨none, .go (some (true, .caller))⟩ :: ((trace smallFiles smallOps).map (mark false) ++ (trace smallFiles smallOps).map (mark true))) :=
  ⟨_, mix_append _ _, rfl⟩

end Verif.Conc.Race.All
