import Verif.Conc.Collect

/-!
For every worker of the parallel module parser there is a schedule under which its messages arrive last on every channel.
-/

namespace Verif.Conc.Collect

/-- What a collector has received stays. -/
theorem step_acc {α : Type} {s s' : State α} {o : Op} (h : step s o = some s') (k : Nat) (c : Chan α) (hc : s.chans[k]? = some c) :
    ∃ c', s'.chans[k]? = some c' ∧ c.acc <+: c'.acc := by
  have set_case : ∀ (j : Nat) (d d' : Chan α), s.chans[j]? = some d → d.acc <+: d'.acc → ∃ c', (s.chans.set j d')[k]? = some c' ∧ c.acc <+: c'.acc := by
    intro j d d' hd hp
    by_cases hj : j = k
    · subst hj
      rw [hc] at hd
      cases hd
      refine ⟨d', ?_, hp⟩
      rw [List.getElem?_set_self (List.getElem?_eq_some_iff.1 hc).1]
    · refine ⟨c, ?_, List.prefix_rfl⟩
      rw [List.getElem?_set_ne hj]; exact hc
  cases o with
  | send i =>
    simp only [step] at h
    split at h
    · split at h
      · split at h
        · rename_i d hd
          split at h
          · cases h; exact ⟨c, hc, List.prefix_rfl⟩
          · split at h
            · cases h; exact set_case _ d _ hd List.prefix_rfl
            · cases h
        · cases h
      · cases h
    · cases h
  | exit i =>
    simp only [step] at h
    split at h
    · split at h
      · cases h; exact ⟨c, hc, List.prefix_rfl⟩
      · cases h
    · cases h
  | close =>
    simp only [step] at h
    split at h
    · rename_i d hd
      split at h
      · cases h; exact set_case _ d _ hd List.prefix_rfl
      · cases h
    · cases h
  | recv j =>
    simp only [step] at h
    split at h
    · rename_i d hd
      split at h
      · cases h; exact set_case _ d _ hd (List.prefix_append _ _)
      · cases h
    · cases h
  | fin j =>
    simp only [step] at h
    split at h
    · rename_i d hd
      split at h
      · cases h; exact set_case _ d _ hd List.prefix_rfl
      · cases h
    · cases h

theorem run_acc {α : Type} : ∀ (ops : List Op) {s s' : State α}, run s ops = some s' → ∀ (k : Nat) (c : Chan α), s.chans[k]? = some c →
    ∃ c', s'.chans[k]? = some c' ∧ c.acc <+: c'.acc := by
  intro ops
  induction ops with
  | nil => intro s s' h k c hc; cases h; exact ⟨c, hc, List.prefix_rfl⟩
  | cons o os ih =>
    intro s s' h k c hc
    simp only [run, Option.bind_eq_some_iff] at h
    obtain ⟨s1, h1, h2⟩ := h
    obtain ⟨c1, hc1, hp1⟩ := step_acc h1 k c hc
    obtain ⟨c2, hc2, hp2⟩ := ih h2 k c1 hc1
    exact ⟨c2, hc2, hp1.trans hp2⟩

theorem run_append {α : Type} : ∀ (a : List Op) {s s1 : State α} (b : List Op), run s a = some s1 → run s (a ++ b) = run s1 b := by
  intro a
  induction a with
  | nil => intro s s1 b h; cases h; rfl
  | cons o os ih =>
    intro s s1 b h
    simp only [run, Option.bind_eq_some_iff] at h
    obtain ⟨s2, h1, h2⟩ := h
    rw [List.cons_append, run, h1, Option.bind_some]
    exact ih b h2

/-- No message is under way and no channel is closed. -/
def Quiet {α : Type} (s : State α) : Prop := ∀ c ∈ s.chans, c.buf = [] ∧ c.closed = false ∧ 0 < c.cap

/-- One worker sends everything it has, the collectors take each message at once. -/
theorem drain {α : Type} (i : Nat) : ∀ (l : List (Nat × α)) (s : State α) (w : Worker α), Quiet s → s.ws[i]? = some w → w.todo = l →
    (∀ m ∈ l, m.1 < s.chans.length) →
    ∃ ops s', run s ops = some s' ∧ Quiet s' ∧ s'.ws = s.ws.set i { w with todo := [] } ∧ s'.chans.length = s.chans.length ∧
      ∀ (k : Nat) c, s.chans[k]? = some c → ∃ c', s'.chans[k]? = some c' ∧ c'.acc = c.acc ++ (onChan k l).map (i, ·) := by
  intro l
  induction l with
  | nil =>
    intro s w hq hw hl _
    refine ⟨[], s, rfl, hq, ?_, rfl, fun k c hc => ⟨c, hc, by simp [onChan]⟩⟩
    obtain ⟨hlt, hwe⟩ := List.getElem?_eq_some_iff.1 hw
    have : ({ w with todo := [] } : Worker α) = s.ws[i] := by rw [hwe, ← hl]
    rw [this, List.set_getElem_self]
  | cons m l ih =>
    intro s w hq hw hl hm
    obtain ⟨k0, x⟩ := m
    have hk0 : k0 < s.chans.length := hm (k0, x) (by simp)
    have hc0 : s.chans[k0]? = some s.chans[k0] := List.getElem?_eq_getElem hk0
    obtain ⟨hb, hcl, hcap⟩ := hq _ (List.getElem_mem hk0)
    have hi : i < s.ws.length := (List.getElem?_eq_some_iff.1 hw).1
    let c0 := s.chans[k0]
    let s1 : State α := { s with ws := s.ws.set i { w with todo := l }, chans := s.chans.set k0 { c0 with buf := c0.buf ++ [(i, x)] } }
    let s2 : State α := { s with ws := s.ws.set i { w with todo := l }, chans := s.chans.set k0 { c0 with buf := [], acc := c0.acc ++ [(i, x)] } }
    have h1 : step s (.send i) = some s1 := by
      simp only [step, hw, hl, hc0]
      rw [if_neg (by rw [hcl]; decide), if_pos (by rw [hb]; exact hcap)]
    have h2 : step s1 (.recv k0) = some s2 := by
      have : s1.chans[k0]? = some { c0 with buf := c0.buf ++ [(i, x)] } := by
        simp only [s1]; rw [List.getElem?_set_self hk0]
      simp only [step, this]
      have hb' : c0.buf = [] := hb
      simp only [hb', List.nil_append, s1, s2]
      rw [List.set_set]
    have hq2 : Quiet s2 := by
      intro c hc
      rcases mem_set hc with h | rfl
      · exact hq c h
      · exact ⟨rfl, hcl, hcap⟩
    have hw2 : s2.ws[i]? = some { w with todo := l } := by simp only [s2]; rw [List.getElem?_set_self hi]
    have hl2 : s2.chans.length = s.chans.length := by simp [s2]
    obtain ⟨ops, s', h3, h4, h5, h6, h7⟩ := ih s2 { w with todo := l } hq2 hw2 rfl (fun m hm' => by rw [hl2]; exact hm m (List.mem_cons_of_mem _ hm'))
    refine ⟨.send i :: .recv k0 :: ops, s', ?_, h4, ?_, by rw [h6, hl2], ?_⟩
    · rw [run, h1, Option.bind_some, run, h2, Option.bind_some]; exact h3
    · rw [h5]; simp only [s2]; rw [List.set_set]
    · intro k c hc
      by_cases hk : k0 = k
      · subst hk
        have hcc : c = c0 := by rw [hc0] at hc; exact (Option.some.inj hc).symm
        have : s2.chans[k0]? = some { c0 with buf := [], acc := c0.acc ++ [(i, x)] } := by
          simp only [s2]; rw [List.getElem?_set_self hk0]
        obtain ⟨c', hc', ha⟩ := h7 k0 _ this
        refine ⟨c', hc', ?_⟩
        rw [ha, hcc]
        simp [onChan]
      · have : s2.chans[k]? = some c := by simp only [s2]; rw [List.getElem?_set_ne hk]; exact hc
        obtain ⟨c', hc', ha⟩ := h7 k c this
        refine ⟨c', hc', ?_⟩
        rw [ha]
        simp [onChan, hk]

/-- The workers of a list send everything, the others keep what they have. -/
theorem drainAll {α : Type} : ∀ (L : List Nat) (s : State α), Quiet s →
    (∀ w ∈ s.ws, ∀ m ∈ w.todo, m.1 < s.chans.length) → (∀ i ∈ L, i < s.ws.length) →
    ∃ ops s', run s ops = some s' ∧ Quiet s' ∧ s'.ws.length = s.ws.length ∧ s'.chans.length = s.chans.length ∧
      (∀ i ∈ L, ∀ w, s'.ws[i]? = some w → w.todo = []) ∧ (∀ i, i ∉ L → s'.ws[i]? = s.ws[i]?) := by
  intro L
  induction L with
  | nil => intro s hq _ _; exact ⟨[], s, rfl, hq, rfl, rfl, by simp, fun _ _ => rfl⟩
  | cons i L ih =>
    intro s hq hm hL
    have hi : i < s.ws.length := hL i (by simp)
    have hw : s.ws[i]? = some s.ws[i] := List.getElem?_eq_getElem hi
    obtain ⟨ops, s1, h1, h2, h3, h4, _⟩ := drain i _ s s.ws[i] hq hw rfl (hm _ (List.getElem_mem hi))
    obtain ⟨ops', s', h5, h6, h7, h8, h9, h10⟩ := ih s1 h2 (by
      intro w hw m hm'
      rw [h3] at hw
      rw [h4]
      rcases mem_set hw with h | rfl
      · exact hm w h m hm'
      · cases hm') (fun j hj => by rw [h3, List.length_set]; exact hL j (List.mem_cons_of_mem _ hj))
    refine ⟨ops ++ ops', s', by rw [run_append ops ops' h1]; exact h5, h6, by rw [h7, h3, List.length_set], by rw [h8, h4], ?_, ?_⟩
    · intro j hj w hjw
      by_cases hjL : j ∈ L
      · exact h9 j hjL w hjw
      · have : j = i := by
          rcases List.mem_cons.1 hj with h | h
          · exact h
          · exact absurd h hjL
        subst this
        rw [h10 j hjL, h3, List.getElem?_set_self hi] at hjw
        cases hjw
        rfl
    · intro j hj
      simp only [List.mem_cons, not_or] at hj
      rw [h10 j hj.2, h3, List.getElem?_set_ne (Ne.symm hj.1)]

theorem quiet_init {α : Type} {caps : List Nat} (hcap : ∀ c ∈ caps, 0 < c) (scripts : List (List (Nat × α))) : Quiet (init caps scripts) := by
  intro c hc
  simp only [init, List.mem_map] at hc
  obtain ⟨n, hn, rfl⟩ := hc
  exact ⟨rfl, rfl, hcap n hn⟩

/-- There is a run to the end in which on every channel the messages of worker `w` arrive after all others. -/
theorem last_worker {α : Type} {caps : List Nat} {scripts : List (List (Nat × α))} (hcap : ∀ c ∈ caps, 0 < c)
    (hch : ∀ sc ∈ scripts, ∀ m ∈ sc, m.1 < caps.length) {w : Nat} {sc : List (Nat × α)} (hw : scripts[w]? = some sc) :
    ∃ ops s, run (init caps scripts) ops = some s ∧ s.finished = true ∧
      ∀ (k : Nat) c, s.chans[k]? = some c → ∃ a, c.acc = a ++ (onChan k sc).map (w, ·) := by
  have hwl : w < scripts.length := (List.getElem?_eq_some_iff.1 hw).1
  let L := (List.range scripts.length).filter (· ≠ w)
  have hL : ∀ i, i ∈ L ↔ i < scripts.length ∧ i ≠ w := by intro i; simp [L]
  have hlen : (init caps scripts).chans.length = caps.length := by simp [init]
  have hwlen : (init caps scripts).ws.length = scripts.length := by simp [init]
  obtain ⟨ops1, s1, h1, h2, h3, h4, h5, h6⟩ := drainAll L (init caps scripts) (quiet_init hcap scripts) (by
    intro x hx m hm
    simp only [init, List.mem_map] at hx
    obtain ⟨sc', hsc', rfl⟩ := hx
    rw [hlen]
    exact hch sc' hsc' m hm) (fun i hi => by rw [hwlen]; exact ((hL i).1 hi).1)
  have hw1 : s1.ws[w]? = some { todo := sc, done := false } := by
    rw [h6 w (fun h => ((hL w).1 h).2 rfl)]
    simp [init, hw]
  obtain ⟨ops2, s2, g1, g2, g3, g4, g5⟩ := drain w sc s1 _ h2 hw1 rfl (fun m hm => by rw [h4, hlen]; exact hch sc (mem_of_getElem? hw) m hm)
  have hrun : run (init caps scripts) (ops1 ++ ops2) = some s2 := by rw [run_append ops1 ops2 h1]; exact g1
  have hinv2 := run_inv _ _ _ (inv_init caps scripts) hrun
  obtain ⟨ops3, s3, f1, f2⟩ := run_complete hcap hch _ s2 (Nat.le_refl _) hinv2
  have hinv3 := run_inv _ _ _ hinv2 f1
  refine ⟨(ops1 ++ ops2) ++ ops3, s3, by rw [run_append _ ops3 hrun]; exact f1, f2, ?_⟩
  intro k c hc
  have hk : k < caps.length := by
    have := (List.getElem?_eq_some_iff.1 hc).1
    rw [hinv3.clen] at this; exact this
  have hk1 : s1.chans[k]? = some (s1.chans[k]'(by rw [h4, hlen]; exact hk)) := List.getElem?_eq_getElem _
  obtain ⟨c2, hc2, ha2⟩ := g5 k _ hk1
  obtain ⟨c3, hc3, rest, hp⟩ := run_acc ops3 f1 k c2 hc2
  rw [hc] at hc3
  cases hc3
  obtain ⟨hd1, hd2⟩ := delivered hinv3 f2 k c hc
  -- nothing comes after that
  have hrest : rest = [] := by
    cases hr : rest with
    | nil => rfl
    | cons x r =>
      exfalso
      have hx : x.1 < scripts.length := hd2 x (by rw [← hp, hr]; simp)
      have hsx : scripts[x.1]? = some scripts[x.1] := List.getElem?_eq_getElem hx
      have e1 := hd1 x.1 _ hsx
      obtain ⟨wx, hwx⟩ : ∃ wx, s2.ws[x.1]? = some wx := ⟨_, List.getElem?_eq_getElem (by rw [hinv2.wlen]; exact hx)⟩
      have e2 := hinv2.flow k c2 x.1 _ _ hc2 hwx hsx
      have hb : c2.buf = [] := (g2 c2 (mem_of_getElem? hc2)).1
      have ht : wx.todo = [] := by
        rw [g3] at hwx
        rcases getElem?_set_cases hwx with ⟨_, he, _⟩ | ⟨hne, he⟩
        · rw [he]
        · exact h5 x.1 ((hL x.1).2 ⟨hx, Ne.symm hne⟩) _ he
      rw [hb, ht, ← e1, ← hp] at e2
      have e3 := congrArg List.length e2
      simp [onChan, fromWorker, hr] at e3
  rw [hrest, List.append_nil] at hp
  exact ⟨_, hp ▸ ha2⟩

end Verif.Conc.Collect
