import Verif.Conc.RaceWholeProofs

/-! What is known of the executions of the two parsers, in the form that is needed for the whole call. -/

namespace Verif.Conc.Race.All
open Verif.Go Verif.Conc.Whole

variable {cap : Sy → Nat}

/-- What is known of the execution of a part, in every state. -/
structure Part (cap : Sy → Nat) (b : Bool) {Out : Type} {X : Sys Out} (L : Labels X) where
  inv : X.S → Trace → Prop
  init : inv X.start L.first
  step : ∀ {s o s' t}, inv s t → X.step s o = some s' → inv s' (t ++ L.ev s o)
  free : ∀ {s t}, inv s t → Free cap (fun _ => True) t
  own : ∀ {s t}, inv s t → ∀ e ∈ t, Own b e
  begun : ∀ {s t}, inv s t → Begun (root b) t
  settled : ∀ {s t}, inv s t → X.out s ≠ none → ∀ (i : Nat) (e : Ev) (l : Loc) (x : Kind), t[i]? = some e → e.act.access = some (l, x) → res b l →
    ∃ (k : Nat) (f : Ev), t[k]? = some f ∧ f.who = root b ∧ Le cap t i k
  late : ∀ {s o s' t}, inv s t → X.out s ≠ none → X.step s o = some s' →
    X.out s' ≠ none ∧ ∀ e ∈ L.ev s o, e.who ≠ root b ∧ ∀ l k, e.act.access = some (l, k) → ¬ res b l

def fixedPart (b : Bool) {Out : Type} (r : Out) : Part cap b (fixedLabels r) where
  inv := fun _ t => t = []
  init := rfl
  step := fun {_ o _ _} _ _ => nomatch o
  free := fun h => by subst h; intro i j e f h1; simp at h1
  own := fun h => by subst h; intro e he; cases he
  begun := fun h => by subst h; exact begun_nil
  settled := fun h => by subst h; intro _ i e l x h1; simp at h1
  late := fun {_ o _ _} _ _ _ => nomatch o

theorem begun_acts {g : G} {as : List A} : Begun g (acts g as) := by
  have h := Begun.append (root := g) (t := ([] : Trace)) (u := acts g as) begun_nil fun e he => Or.inl (mem_acts.1 he).1
  simpa using h

/-! ### The A2L parser -/

section
open A2l

def liveA (np : Nat) (t : Trace) : A2lRun.State → Prop
  | .tokenizing _ => ∀ k, k < np → Started .rdA t (.tok k)
  | .inModule _ ans _ _ => ∀ g ∈ crew np ans.length, Started .rdA t g
  | _ => True

theorem coll_who {α : Type} {np q : Nat} {s s' : Collect.State α} {o : Collect.Op} (hs : Collect.step s o = some s') (hw : s.ws.length = np) (hc : s.chans.length = numChans) :
    ∀ e ∈ collEvents np q s o, e.who ∈ crew np q := by
  intro e he
  rw [mem_crew]
  cases o with
  | send k =>
    simp only [collEvents] at he
    split at he
    · rename_i w hk
      split at he
      · split at he
        · split at he
          · cases he
          · exact Or.inl ⟨k, hw ▸ lt_of_get hk, (mem_acts.1 he).1⟩
        · cases he
      · cases he
    · cases he
  | exit k =>
    simp only [Collect.step] at hs
    split at hs
    · rename_i w hk
      exact Or.inl ⟨k, hw ▸ lt_of_get hk, (mem_acts.1 he).1⟩
    · cases hs
  | close => exact Or.inr (Or.inl (mem_acts.1 he).1)
  | recv c =>
    simp only [collEvents] at he
    split at he
    · rename_i ch hk
      exact Or.inr (Or.inr ⟨c, hc ▸ lt_of_get hk, (mem_acts.1 he).1⟩)
    · cases he
  | fin c =>
    simp only [Collect.step] at hs
    split at hs
    · rename_i ch hk
      exact Or.inr (Or.inr ⟨c, hc ▸ lt_of_get hk, (mem_acts.1 he).1⟩)
    · cases hs

/-- Only goroutines that were started do something. -/
theorem a2l_started {I : A2lRun.Input} {t : Trace} {s s' : A2lRun.State} {o : A2lRun.Op} (h : A2lInv cap I t s) (hl : liveA I.np t s) (hs : A2lRun.step I s o = some s') :
    (∀ e ∈ A2l.events I s o, Started .rdA t e.who) ∧ liveA I.np (t ++ A2l.events I s o) s' := by
  have hme : ∀ {as : List A}, ∀ e ∈ acts .rdA as, Started .rdA t e.who := fun e he => Or.inl (mem_acts.1 he).1
  cases s with
  | tokenizing p =>
    cases o with
    | chan o =>
      obtain ⟨p', h1, rfl⟩ := Option.map_eq_some_iff.1 hs
      refine ⟨fun e he => ?_, fun k hk => (hl k hk).append⟩
      rcases Pipe.mem_events h1 he with ⟨k, hk, h2, _⟩ | ⟨h2, _⟩
      · rw [h2]; exact hl k (InvT.len h ▸ hk)
      · exact Or.inl h2
    | main =>
      simp only [A2lRun.step] at hs
      split at hs
      · cases hs; exact ⟨hme, trivial⟩
      · cases hs
    | call i => cases hs
    | coll o => cases hs
  | parsing ts ans =>
    cases o with
    | chan o => cases hs
    | coll o => cases hs
    | call i =>
      simp only [A2lRun.step] at hs
      split at hs
      · cases hs
        refine ⟨fun e he => ?_, ?_⟩
        · simp only [A2l.events] at he
          split at he <;> exact hme e he
        · cases hm : A2lRun.startModule I ts ans i with
          | inModule ts' ans' i' c =>
            have ha : ans' = ans := by
              unfold A2lRun.startModule at hm
              simp only at hm
              split at hm
              · cases hm
              · split at hm <;> cases hm; rfl
            subst ha
            intro g hg
            simp only [A2l.events, hm]
            exact Started.acts (List.mem_append_right _ (List.mem_map.2 ⟨g, hg, rfl⟩))
          | tokenizing p =>
            unfold A2lRun.startModule at hm
            simp only at hm
            split at hm
            · cases hm
            · split at hm <;> cases hm
          | _ => trivial
      · cases hs
    | main =>
      refine ⟨hme, ?_⟩
      simp only [A2lRun.step] at hs
      split at hs
      · cases hs
      · cases hs; trivial
      · cases hs; trivial
  | inModule ts ans i c =>
    cases o with
    | chan o => cases hs
    | call j => cases hs
    | coll o =>
      obtain ⟨c', h1, rfl⟩ := Option.map_eq_some_iff.1 hs
      exact ⟨fun e he => hl _ (coll_who h1 h.2.lenw h.2.lenc e he), fun g hg => (hl g hg).append⟩
    | main =>
      refine ⟨fun e he => ?_, ?_⟩
      · simp only [A2l.events] at he
        split at he
        · cases he
        · exact hme e he
      · simp only [A2lRun.step] at hs
        split at hs
        · cases hs; trivial
        · split at hs
          · cases hs; trivial
          · cases hs
  | returned r => cases o <;> cases hs
  | crashed => cases o <;> cases hs

theorem a2l_free {t : Trace} (h : Free cap a2lG t) (ho : ∀ e ∈ t, a2lG e.who ∧ Fine e.act) : Free cap (fun _ => True) t :=
  fun i j e f h1 h2 h3 _ _ => h i j e f h1 h2 h3 (ho e (List.mem_of_getElem? h1)).1 (ho f (List.mem_of_getElem? h2)).1

theorem a2l_out {I : A2lRun.Input} {s : (a2lSys I).S} (h : (a2lSys I).out s ≠ none) : ∃ r, s = A2lRun.State.returned r := by
  cases s with
  | returned r => exact ⟨r, rfl⟩
  | _ => exact absurd rfl h

def a2lPart (I : A2lRun.Input) : Part cap false (a2lLabels I) where
  inv := fun s t => A2lInv cap I t s ∧ liveA I.np t s ∧ Begun .rdA t ∧ ∀ e ∈ t, a2lG e.who ∧ Fine e.act
  init := by
    refine ⟨?_, ?_, begun_acts, startEvents_own⟩
    · have := A2lInv.init (cap := cap) I (t := []) (by simp)
      rwa [List.nil_append] at this
    · show liveA I.np (A2l.startEvents I.np) (A2lRun.init I)
      unfold A2lRun.init
      split
      · trivial
      · intro k hk
        have := Started.acts (root := G.rdA) (t := ([] : Trace)) (h := .rdA) (g := .tok k)
          (as := [.read .logger, .write .a2lLines, .write .moduleCount, .write .tokenList] ++ (List.range I.np).map fun k => .go (.tok k))
          (List.mem_append_right _ (List.mem_map.2 ⟨k, List.mem_range.2 hk, rfl⟩))
        rwa [List.nil_append] at this
  step := fun {s o s' t} h hs => by
    obtain ⟨h1, h2, h3, h4⟩ := h
    obtain ⟨g1, g2⟩ := a2l_started h1 h2 hs
    refine ⟨h1.step hs, g2, h3.append g1, fun e he => ?_⟩
    rcases List.mem_append.1 he with he | he
    · exact h4 e he
    · exact events_own e he
  free := fun h => a2l_free h.1.free h.2.2.2
  own := fun h e he => ⟨(h.2.2.2 e he).2.1, (h.2.2.2 e he).2.2.1⟩
  begun := fun h => h.2.2.1
  settled := fun {s t} h ho i e l x h1 h2 h3 => by
    obtain ⟨r, rfl⟩ := a2l_out ho
    obtain ⟨⟨q, hm⟩, _, _, h4⟩ := h
    rcases hm.settled h1 (h4 e (List.mem_of_getElem? h1)).1 with h5 | ⟨k, f, g1, g2, g3⟩
    · rcases h5 with h5 | h5 <;> rw [h5] at h2 <;> cases h2
      rcases h3 with h | h | ⟨_, h⟩ | ⟨_, _, _, h⟩ | ⟨_, _, h⟩ <;> cases h
    · refine ⟨k, f, g1, ?_, g3⟩
      rcases g2 with g2 | g2
      · exact g2
      · exact absurd rfl ((h4 f (List.mem_of_getElem? g1)).2.2.2 _ g2).2
  late := fun {s o s' t} h ho hs => by
    obtain ⟨r, rfl⟩ := a2l_out ho
    cases o <;> cases hs

end

/-! ### The hex parsers -/

section
open Hex
variable {R : Type}

def liveH {P : HexRun.Prog R} (M : Access P) (n : Nat) (t : Trace) : HexRun.State P → Prop
  | .parsing _ => ∀ k, k < n → Started .rdH t (.line k)
  | .checking _ _ | .waiting _ | .returned _ (.offsets _) => (∀ k, k < M.workers → Started .rdH t (.off k)) ∧ ∀ k, k < n → Started .rdH t (.chk k)
  | .collecting _ _ | .returned _ (.data _) => ∀ k, k < n → Started .rdH t (.data k)
  | .crashed => True

/-- The messages of the hex parser go over its own channels. -/
def ChanH (e : Ev) : Prop := ∀ c, e.act = .send c ∨ e.act = .recv c → chans true c

theorem chanH_access {e : Ev} {l : Loc} {x : Kind} (h : e.act.access = some (l, x)) : ChanH e := by
  rintro c (h' | h') <;> rw [h'] at h <;> cases h

theorem pipe_chan {Q : Pipe G Loc Sy} {α : Type} {p : Pipeline.State α} {o : Pipeline.Op} {loc : Nat → List A} {got : List A} (hq : ∀ k, chans true (Q.ch k))
    (hloc : ∀ k, ∀ a ∈ loc k, ∃ l x, a.access = some (l, x)) (hgot : ∀ a ∈ got, ∃ l x, a.access = some (l, x)) : ∀ e ∈ Q.events loc got p o, ChanH e := by
  intro e he
  rcases (Pipe.mem_events' he).2 with ⟨k, h⟩ | h | ⟨k, m, h | h⟩ | ⟨k, h | h | h | h⟩
  · obtain ⟨l, x, h1⟩ := hloc k _ h; exact chanH_access h1
  · obtain ⟨l, x, h1⟩ := hgot _ h; exact chanH_access h1
  · exact chanH_access (l := Q.bt k m) (x := .write) (by rw [h]; rfl)
  · exact chanH_access (l := Q.bt k m) (x := .read) (by rw [h]; rfl)
  · rintro c (h' | h') <;> rw [h] at h' <;> cases h'; exact hq k
  · rintro c (h' | h') <;> rw [h] at h' <;> cases h'; exact hq k
  · rintro c (h' | h') <;> rw [h] at h' <;> cases h'
  · rintro c (h' | h') <;> rw [h] at h' <;> cases h'

theorem recPipe_chan {rss : List (List R)} {p : Pipeline.State (List R)} {o : Pipeline.Op} : ∀ e ∈ recPipe.events (lineActs rss) recGot p o, ChanH e :=
  pipe_chan (fun k => Or.inr (Or.inl ⟨k, rfl⟩)) (fun _ _ ha => (lineActs_access ha).imp fun _ ⟨x, h, _⟩ => ⟨x, h⟩) fun a ha => by
    simp only [recGot, List.mem_cons, List.not_mem_nil, or_false] at ha
    rcases ha with rfl | rfl <;> exact ⟨_, _, rfl⟩

theorem datPipe_chan {len n : Nat} {p : Pipeline.State (List Ihex.DataByte)} {o : Pipeline.Op} : ∀ e ∈ datPipe.events (dataActs len n) datGot p o, ChanH e :=
  pipe_chan (fun k => Or.inr (Or.inr ⟨k, rfl⟩)) (fun _ _ ha => (dataActs_access ha).imp fun _ ⟨h, _⟩ => ⟨_, h⟩) fun a ha => by
    simp only [datGot, List.mem_cons, List.not_mem_nil, or_false] at ha
    rcases ha with rfl | rfl <;> exact ⟨_, _, rfl⟩

theorem does_chan {as : List A} {k : Nat} {h h' : Nat → Option Nat} {f' : Prop} (hd : Does as k h h' f') : ∀ e ∈ acts (.off k) as, ChanH e := by
  intro e he
  obtain ⟨_, h2⟩ := mem_acts.1 he
  have key : ∀ c, e.act ≠ .send c ∧ e.act ≠ .recv c := by
    intro c
    cases hd with
    | use r bs g1 g2 =>
      subst g1
      rcases List.mem_cons.1 h2 with h | h
      · rw [h]; exact ⟨nofun, nofun⟩
      · rcases g2 _ h with h | h | h <;> rw [h] <;> exact ⟨nofun, nofun⟩
    | lock r g1 =>
      subst g1
      simp only [List.mem_cons, List.not_mem_nil, or_false] at h2
      rcases h2 with h | h <;> rw [h] <;> exact ⟨nofun, nofun⟩
    | unlock r b g1 =>
      subst g1
      simp only [List.mem_append, List.mem_cons, List.not_mem_nil, or_false] at h2
      rcases h2 with (h | h) | h
      · rw [h]; exact ⟨nofun, nofun⟩
      · rw [h]; exact ⟨nofun, nofun⟩
      · split at h
        · rw [List.mem_singleton.1 h]; exact ⟨nofun, nofun⟩
        · cases h
    | exit g1 =>
      subst g1
      simp only [List.mem_cons, List.not_mem_nil, or_false] at h2
      rcases h2 with h | h <;> rw [h] <;> exact ⟨nofun, nofun⟩
  rintro c (h' | h')
  · exact absurd h' (key c).1
  · exact absurd h' (key c).2

theorem chk_chan {len n k : Nat} {w : FanIn.Worker} : ∀ e ∈ acts (.chk k) (chkActs len n k w), ChanH e := by
  intro e he
  obtain ⟨_, h⟩ := mem_acts.1 he
  unfold chkActs at h
  split at h
  · cases h
  · split at h
    · simp only [List.mem_cons, List.not_mem_nil, or_false] at h
      rcases h with h | h
      · rintro c (h' | h') <;> rw [h] at h' <;> cases h'; exact Or.inl rfl
      · rintro c (h' | h') <;> rw [h] at h' <;> cases h'
    · split at h
      · rintro c (h' | h') <;> rw [List.mem_singleton.1 h] at h' <;> cases h'
      · simp only [List.mem_cons, List.not_mem_nil, or_false] at h
        rcases h with h | h | h | h <;> rintro c (h' | h') <;> rw [h] at h' <;> cases h'

/-- What a step of the parser needs, and what it leaves. -/
theorem hex_started {P : HexRun.Prog R} {M : Access P} {D : Disc P M} {n : Nat} {lines : List Str} {t : Trace} {s s' : HexRun.State P} {o : HexRun.Op}
    (h : HexInv cap D n lines t s) (hl : liveH M n t s) (hs : HexRun.step P n s o = some s') :
    (∀ e ∈ Hex.events P M n lines s o, Started .rdH t e.who ∧ ChanH e) ∧ liveH M n (t ++ Hex.events P M n lines s o) s' := by
  have hme : ∀ {as : List A} {e : Ev}, e ∈ acts .rdH as → Started .rdH t e.who := fun he => Or.inl (mem_acts.1 he).1
  have hoff : ∀ {s s' k}, D.Reach s → (∀ k, k < M.workers → Started .rdH t (.off k)) → P.shared.step s k = some s' →
      ∀ e ∈ acts (.off k) (M.acts s k), Started .rdH t e.who ∧ ChanH e := fun {s s' k} hr hl hs e he => by
    obtain ⟨_, h2, _, _, h5⟩ := D.step hr hs
    exact ⟨by rw [(mem_acts.1 he).1]; exact hl k h2, does_chan h5 e he⟩
  have hgos : ∀ {as : List A}, (∀ a ∈ as, (∃ l x, a.access = some (l, x)) ∨ (∃ g, a = .go g) ∨ ∃ c, a = .wait c) → ∀ e ∈ acts .rdH as, ChanH e := fun has e he => by
    rcases has _ (mem_acts.1 he).2 with ⟨l, x, h⟩ | ⟨g, h⟩ | ⟨c, h⟩
    · exact chanH_access h
    · rintro c (h' | h') <;> rw [h] at h' <;> cases h'
    · rintro c (h' | h') <;> rw [h] at h' <;> cases h'
  have hdat : ∀ {p p' : Pipeline.State (List Ihex.DataByte)} {o : Pipeline.Op}, InvD cap n p t → (∀ k, k < n → Started .rdH t (.data k)) → Pipeline.step p o = some p' →
      ∀ e ∈ datPipe.events (dataActs (parsed P n lines).flatten.length n) datGot p o, Started .rdH t e.who ∧ ChanH e := fun hi hl h1 e he => by
    refine ⟨?_, datPipe_chan e he⟩
    rcases Pipe.mem_events h1 he with ⟨k, hk, h2, _⟩ | ⟨h2, _⟩
    · rw [h2]; exact hl k (Nat.lt_of_lt_of_le hk hi.len)
    · exact Or.inl h2
  have hup : ∀ {m : Nat} {f : Nat → G} {u : Trace}, (∀ k, k < m → Started .rdH t (f k)) → ∀ k, k < m → Started .rdH (t ++ u) (f k) := fun h k hk => (h k hk).append
  cases s with
  | parsing p =>
    cases o with
    | chan o =>
      obtain ⟨p', h1, rfl⟩ := Option.map_eq_some_iff.1 hs
      refine ⟨fun e he => ⟨?_, recPipe_chan e he⟩, hup hl⟩
      rcases Pipe.mem_events h1 he with ⟨k, hk, h2, _⟩ | ⟨h2, _⟩
      · rw [h2]; exact hl k (InvP.len h ▸ hk)
      · exact Or.inl h2
    | main =>
      refine ⟨fun e he => ⟨hme he, hgos (fun a ha => ?_) e he⟩, ?_⟩
      · rcases List.mem_cons.1 ha with rfl | ha
        · exact Or.inl ⟨_, _, rfl⟩
        · obtain ⟨g, _, rfl⟩ := List.mem_map.1 ha
          exact Or.inr (Or.inl ⟨_, rfl⟩)
      · simp only [HexRun.step] at hs
        split at hs
        · cases hs
          unfold HexRun.startCheck
          split
          · trivial
          · refine ⟨fun k hk => Started.acts (List.mem_cons_of_mem _ (List.mem_map.2 ⟨_, List.mem_append_left _ (List.mem_map.2 ⟨k, List.mem_range.2 hk, rfl⟩), rfl⟩)),
              fun k hk => Started.acts (List.mem_cons_of_mem _ (List.mem_map.2 ⟨_, List.mem_append_right _ (List.mem_map.2 ⟨k, List.mem_range.2 hk, rfl⟩), rfl⟩))⟩
        · cases hs
    | check o => cases hs
    | off k => cases hs
  | checking f s =>
    obtain ⟨hi, hr, hlen⟩ := h
    cases o with
    | chan o => cases hs
    | main =>
      refine ⟨fun e he => by simp [Hex.events] at he, ?_⟩
      simp only [HexRun.step] at hs
      split at hs
      · cases hs
      · cases hs; exact ⟨hup hl.1, hup hl.2⟩
      · cases hs; exact ⟨hup hl.1, hup hl.2⟩
    | check o =>
      obtain ⟨f', h1, rfl⟩ := Option.map_eq_some_iff.1 hs
      refine ⟨?_, hup hl.1, hup hl.2⟩
      cases o with
      | work k =>
        intro e he
        simp only [Hex.events] at he
        split at he
        · rename_i w hk
          exact ⟨by rw [(mem_acts.1 he).1]; exact hl.2 k (hlen ▸ lt_of_get hk), chk_chan e he⟩
        · cases he
      | main =>
        intro e he
        refine ⟨hme he, ?_⟩
        have ha := (mem_acts.1 he).2
        simp only [List.mem_append, List.mem_cons, List.not_mem_nil, or_false] at ha
        rcases ha with (h | h) | h
        · rintro c (h' | h') <;> rw [h] at h' <;> cases h'
        · rintro c (h' | h') <;> rw [h] at h' <;> cases h'
        · split at h
          · cases h
          · rintro c (h' | h') <;> rw [List.mem_singleton.1 h] at h' <;> cases h'; exact Or.inl rfl
    | off k =>
      obtain ⟨s', h1, rfl⟩ := Option.map_eq_some_iff.1 hs
      exact ⟨hoff hr hl.1 h1, hup hl.1, hup hl.2⟩
  | waiting s =>
    obtain ⟨hi, hr⟩ := h
    cases o with
    | chan o => cases hs
    | check o => cases hs
    | main =>
      refine ⟨fun e he => ⟨hme he, hgos (fun a ha => ?_) e he⟩, ?_⟩
      · rcases List.mem_append.1 ha with ha | ha
        · split at ha
          · cases ha
          · cases List.mem_singleton.1 ha; exact Or.inr (Or.inr ⟨_, rfl⟩)
        · rcases List.mem_cons.1 ha with rfl | ha
          · exact Or.inl ⟨_, _, rfl⟩
          · obtain ⟨g, _, rfl⟩ := List.mem_map.1 ha
            exact Or.inr (Or.inl ⟨_, rfl⟩)
      · simp only [HexRun.step] at hs
        split at hs
        · cases hs
          unfold HexRun.startData
          split
          · trivial
          · exact fun k hk => Started.acts (List.mem_append_right _ (List.mem_cons_of_mem _ (List.mem_map.2 ⟨_, List.mem_map.2 ⟨k, List.mem_range.2 hk, rfl⟩, rfl⟩)))
        · cases hs
    | off k =>
      obtain ⟨s', h1, rfl⟩ := Option.map_eq_some_iff.1 hs
      exact ⟨hoff hr hl.1 h1, hup hl.1, hup hl.2⟩
  | collecting p m =>
    cases o with
    | chan o =>
      simp only [HexRun.step] at hs
      split at hs
      · cases hs
      · rename_i p' h1
        refine ⟨hdat h hl h1, ?_⟩
        split at hs
        · cases hs; exact hup hl
        · cases hs; exact hup hl
    | main =>
      refine ⟨fun e he => by simp [Hex.events] at he, ?_⟩
      simp only [HexRun.step] at hs
      split at hs
      · cases hs; exact hup hl
      · cases hs
    | check o => cases hs
    | off k => cases hs
  | returned out rest =>
    cases rest with
    | offsets s =>
      obtain ⟨hi, hr⟩ := h
      cases o with
      | off k =>
        obtain ⟨s', h1, rfl⟩ := Option.map_eq_some_iff.1 hs
        exact ⟨hoff hr hl.1 h1, hup hl.1, hup hl.2⟩
      | chan o => cases hs
      | check o => cases hs
      | main => cases hs
    | data p =>
      cases o with
      | chan o =>
        cases o with
        | send k =>
          obtain ⟨p', h1, rfl⟩ := Option.map_eq_some_iff.1 hs
          exact ⟨hdat h hl h1, hup hl⟩
        | close k =>
          obtain ⟨p', h1, rfl⟩ := Option.map_eq_some_iff.1 hs
          exact ⟨hdat h hl h1, hup hl⟩
        | recv => cases hs
        | handoff => cases hs
        | advance => cases hs
      | off k => cases hs
      | check o => cases hs
      | main => cases hs
  | crashed => cases o <;> cases hs

/-- After the return only other goroutines of the parser go on. -/
theorem hex_late {P : HexRun.Prog R} {M : Access P} {n : Nat} {lines : List Str} {out : Ihex.Outcome} {rest : HexRun.Rest P} {s' : HexRun.State P} {o : HexRun.Op}
    (hs : HexRun.step P n (.returned out rest) o = some s') :
    (∃ rest', s' = .returned out rest') ∧ ∀ e ∈ Hex.events P M n lines (.returned out rest) o, e.who ≠ .rdH := by
  have hw : ∀ {g : G} {as : List A}, g ≠ .rdH → ∀ e ∈ acts g as, e.who ≠ .rdH := fun hg e he => by rw [(mem_acts.1 he).1]; exact hg
  cases rest with
  | offsets s =>
    cases o with
    | off k =>
      obtain ⟨s', h1, rfl⟩ := Option.map_eq_some_iff.1 hs
      exact ⟨⟨_, rfl⟩, hw nofun⟩
    | chan o => cases hs
    | check o => cases hs
    | main => cases hs
  | data p =>
    cases o with
    | chan o =>
      cases o with
      | send k =>
        obtain ⟨p', h1, rfl⟩ := Option.map_eq_some_iff.1 hs
        refine ⟨⟨_, rfl⟩, fun e he => ?_⟩
        simp only [Hex.events, Pipe.events] at he
        split at he
        · exact hw (g := .data k) nofun e he
        · cases he
      | close k =>
        obtain ⟨p', h1, rfl⟩ := Option.map_eq_some_iff.1 hs
        exact ⟨⟨_, rfl⟩, fun e he => hw (g := .data k) nofun e he⟩
      | recv => cases hs
      | handoff => cases hs
      | advance => cases hs
    | off k => cases hs
    | check o => cases hs
    | main => cases hs

theorem hex_out {P : HexRun.Prog R} {n : Nat} {lines : List Str} {s : (hexSys P n lines).S} (h : (hexSys P n lines).out s ≠ none) :
    ∃ out rest, s = HexRun.State.returned out rest := by
  cases s with
  | returned out rest => exact ⟨out, rest, rfl⟩
  | _ => exact absurd rfl h

def hexPart {P : HexRun.Prog R} {M : Access P} (D : Disc P M) (n : Nat) (lines : List Str) : Part cap true (hexLabels P M n lines) where
  inv := fun s t => HexInv cap D n lines t s ∧ liveH M n t s ∧ Begun .rdH t ∧ ∀ e ∈ t, (Hex.Own e ∧ hexG e.who) ∧ ChanH e
  init := by
    refine ⟨?_, ?_, begun_acts, fun e he => ⟨startEvents_own e he, ?_⟩⟩
    · have := HexInv.init (cap := cap) D n lines (t := []) (by simp)
      rwa [List.nil_append] at this
    · show liveH M n (Hex.startEvents n) (HexRun.init P n lines)
      unfold HexRun.init
      split
      · trivial
      · intro k hk
        have := Started.acts (root := G.rdH) (t := ([] : Trace)) (h := .rdH) (g := .line k)
          (as := [.write .hexLines, .write .hexMap, .write .hexRecs] ++ (List.range n).map fun k => .go (.line k))
          (List.mem_append_right _ (List.mem_map.2 ⟨k, List.mem_range.2 hk, rfl⟩))
        rwa [List.nil_append] at this
    · have h2 := (mem_acts.1 he).2
      simp only [List.mem_append, List.mem_cons, List.not_mem_nil, or_false, List.mem_map] at h2
      rcases h2 with (h | h | h) | ⟨k, _, h⟩
      · rintro c (h' | h') <;> rw [h] at h' <;> cases h'
      · rintro c (h' | h') <;> rw [h] at h' <;> cases h'
      · rintro c (h' | h') <;> rw [h] at h' <;> cases h'
      · rintro c (h' | h') <;> rw [← h] at h' <;> cases h'
  step := fun {s o s' t} h hs => by
    obtain ⟨h1, h2, h3, h4⟩ := h
    obtain ⟨g1, g2⟩ := hex_started h1 h2 hs
    refine ⟨h1.step hs, g2, h3.append fun e he => (g1 e he).1, fun e he => ?_⟩
    rcases List.mem_append.1 he with he | he
    · exact h4 e he
    · exact ⟨h1.own hs e he, (g1 e he).2⟩
  free := fun h i j e f h1 h2 h3 _ _ => h.1.free i j e f h1 h2 h3 (h.2.2.2 e (List.mem_of_getElem? h1)).1.2 (h.2.2.2 f (List.mem_of_getElem? h2)).1.2
  own := fun h e he => ⟨fun l x hx => ((h.2.2.2 e he).1.1 (h.2.2.2 e he).1.2 l x hx).1, (h.2.2.2 e he).2⟩
  begun := fun h => h.2.2.1
  settled := fun {s t} h ho i e l x h1 h2 h3 => by
    have := h.2.2.2 e (List.mem_of_getElem? h1)
    exact ⟨i, e, h1, (this.1.1 this.1.2 l x h2).2 h3, Or.inl rfl⟩
  late := fun {s o s' t} h ho hs => by
    obtain ⟨out, rest, rfl⟩ := hex_out ho
    obtain ⟨⟨rest', rfl⟩, g2⟩ := hex_late (M := M) (lines := lines) hs
    refine ⟨nofun, fun e he => ⟨g2 e he, fun l k hk hr => ?_⟩⟩
    have := h.1.own hs e he
    exact g2 e he ((this.1 this.2 l k hk).2 hr)

end

end Verif.Conc.Race.All
