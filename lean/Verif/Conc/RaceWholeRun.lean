import Verif.Conc.RaceWholeParts

/-! No execution of a call of `ReadCalibration` has a data race: what is known in every state of the call. -/

namespace Verif.Conc.Race.All
open Verif.Go Verif.Conc.Whole

variable {cap : Sy → Nat}

/-! ### More of an execution -/

theorem sel_tagged {b : Bool} {es : Trace} : (tagged (.part b) es).filterMap (sel b) = es := by
  induction es with
  | nil => rfl
  | cons e es ih => simpa [tagged, sel] using ih

theorem sel_other {b : Bool} {u : Tagged} (h : ∀ x ∈ u, x.1 ≠ .part b) : u.filterMap (sel b) = [] := by
  rw [List.filterMap_eq_nil_iff]
  intro x hx
  simp [sel, h x hx]

theorem mem_tagged {g : Tag} {es : Trace} {x : Tag × Ev} : x ∈ tagged g es ↔ x.1 = g ∧ x.2 ∈ es := by
  obtain ⟨a, e⟩ := x
  simp only [tagged, List.mem_map, Prod.mk.injEq]
  constructor
  · rintro ⟨f, h1, rfl, rfl⟩; exact ⟨rfl, h1⟩
  · rintro ⟨rfl, h⟩; exact ⟨e, h, rfl, rfl⟩

/-- What `readA2L` or `readHex` does after its parser has returned. -/
structure Glued (b : Bool) (over : Prop) (T : Tagged) : Prop where
  glue : ∀ x ∈ T, x.1 = .glue b → over ∧ x.2.who = root b ∧ (∀ l k, x.2.act.access = some (l, k) → k = .read ∧ (l = .logger ∨ res b l)) ∧ Outer x.2.act
  late : ∀ (i j : Nat) (x y : Tag × Ev), T[i]? = some x → T[j]? = some y → i < j → x.1 = .glue b → y.1 = .part b →
    y.2.who ≠ root b ∧ ∀ l k, y.2.act.access = some (l, k) → ¬ res b l

theorem Glued.append {b : Bool} {over over' : Prop} {T u : Tagged} (h : Glued b over T) (ho : over → over')
    (hg : ∀ x ∈ u, x.1 = .glue b → over' ∧ x.2.who = root b ∧ (∀ l k, x.2.act.access = some (l, k) → k = .read ∧ (l = .logger ∨ res b l)) ∧ Outer x.2.act)
    (hp : ∀ y ∈ u, y.1 = .part b → (over → y.2.who ≠ root b ∧ ∀ l k, y.2.act.access = some (l, k) → ¬ res b l) ∧ ∀ x ∈ u, x.1 ≠ .glue b) : Glued b over' (T ++ u) where
  glue := fun x hx ht => by
    rcases List.mem_append.1 hx with hx | hx
    · obtain ⟨h1, h2⟩ := h.glue x hx ht
      exact ⟨ho h1, h2⟩
    · exact hg x hx ht
  late := fun i j x y hx hy hij htx hty => by
    rcases at_append hy with hy | ⟨hj, hy⟩
    · have hjl := lt_of_get hy
      rcases at_append hx with hx | ⟨hi, _⟩
      · exact h.late i j x y hx hy hij htx hty
      · omega
    · have hp' := hp y (List.mem_of_getElem? hy) hty
      rcases at_append hx with hx | ⟨_, hx⟩
      · exact hp'.1 (h.glue x (List.mem_of_getElem? hx) htx).1
      · exact absurd htx (hp'.2 x (List.mem_of_getElem? hx))

/-- The last thing the goroutine does is that it leaves the wait group. -/
def Last (T : Tagged) (b : Bool) (d : Nat) : Prop :=
  T[d]? = some (.glue b, ⟨root b, .done .wgReaders⟩) ∧ ∀ (i : Nat) (x : Tag × Ev), T[i]? = some x → x.1 = .glue b → i ≤ d

theorem Last.append {T u : Tagged} {b : Bool} {d : Nat} (h : Last T b d) (hu : ∀ x ∈ u, x.1 ≠ .glue b) : Last (T ++ u) b d := by
  refine ⟨getElem?_append h.1, fun i x hx ht => ?_⟩
  rcases at_append hx with hx | ⟨_, hx⟩
  · exact h.2 i x hx ht
  · exact absurd ht (hu x (List.mem_of_getElem? hx))

theorem Joined.append {T u : Tagged} {w : Nat} (h : Joined T w) (hu : ∀ x ∈ u, ∀ b, x.1 ≠ .glue b) : Joined (T ++ u) w :=
  ⟨getElem?_append h.1, fun b => by
    obtain ⟨d, h1, h2⟩ := h.2 b
    exact ⟨d, h1, Last.append (T := T) h2 fun x hx => hu x hx b⟩⟩

/-- The caller uses the result. -/
def Use (x : Tag × Ev) : Prop := x.1 = .main ∧ ∃ l k, x.2.act.access = some (l, k) ∧ l ≠ .logger

theorem Shape.append {T u : Tagged} (h : Shape T) (hp : ∀ x ∈ u, x.1 ≠ .pro)
    (hm : ∀ x ∈ u, x.1 = .main → x.2.who = .caller ∧ (∀ l k, x.2.act.access = some (l, k) → (l = .logger ∧ k = .read) ∨ ∃ b, res b l) ∧ Outer x.2.act)
    (hu : (∀ x ∈ T ++ u, ¬ Use x) ∨ ((∀ x ∈ u, ∀ b, x.1 ≠ .glue b) ∧ ∃ w, Joined T w)) : Shape (T ++ u) where
  pro := by
    obtain ⟨v, rfl, hv⟩ := h.pro
    refine ⟨v ++ u, by simp, fun x hx => ?_⟩
    rcases List.mem_append.1 hx with hx | hx
    · exact hv x hx
    · exact hp x hx
  main := fun x hx ht => by
    rcases List.mem_append.1 hx with hx | hx
    · exact h.main x hx ht
    · exact hm x hx ht
  use := fun j x hx ht hux => by
    rcases hu with hu | ⟨hg, w, hw⟩
    · exact absurd ⟨ht, hux⟩ (hu x (List.mem_of_getElem? hx))
    · rcases at_append hx with hx | ⟨hj, hx⟩
      · obtain ⟨w', h1, h2⟩ := h.use j x hx ht hux
        exact ⟨w', h1, h2.append hg⟩
      · exact ⟨w, Nat.lt_of_lt_of_le (lt_of_get hw.1) hj, hw.append hg⟩

/-! ### The program between the parsers -/

section
variable {A H E : Type}

def pc : Bool → ReadCal.State A H E → Nat
  | false, m => m.pcA
  | true, m => m.pcH

/-- What a step of `readA2L` or `readHex` after its parser has returned does to the state. -/
structure Steps (b : Bool) (m m' : ReadCal.State A H E) : Prop where
  old : pc b m ≤ 2
  other : pc (!b) m' = pc (!b) m
  new : (pc b m' ≤ 2 ∧ m'.wg = m.wg) ∨ (pc b m = 2 ∧ pc b m' = 3 ∧ m'.wg = m.wg - 1)
  main : m'.main = m.main ∨ m'.main = .panicked

theorem stepA_steps {r : Except E A} {m m' : ReadCal.State A H E} (h : ReadCal.stepA r m = some m') : Steps false m m' := by
  unfold ReadCal.stepA at h
  split at h
  · rename_i h0
    split at h
    · unfold ReadCal.sendErr at h
      split at h
      · cases h; exact ⟨by simp [pc, h0], rfl, Or.inl ⟨by simp [pc], rfl⟩, Or.inr rfl⟩
      · split at h
        · cases h; exact ⟨by simp [pc, h0], rfl, Or.inl ⟨by simp [pc], rfl⟩, Or.inl rfl⟩
        · cases h
    · split at h
      · cases h; exact ⟨by simp [pc, h0], rfl, Or.inl ⟨by simp [pc, h0], rfl⟩, Or.inr rfl⟩
      · split at h
        · cases h; exact ⟨by simp [pc, h0], rfl, Or.inl ⟨by simp [pc], rfl⟩, Or.inl rfl⟩
        · cases h
  · rename_i h0
    split at h
    · cases h; exact ⟨by simp [pc, h0], rfl, Or.inl ⟨by simp [pc, h0], rfl⟩, Or.inr rfl⟩
    · cases h; exact ⟨by simp [pc, h0], rfl, Or.inl ⟨by simp [pc], rfl⟩, Or.inl rfl⟩
  · rename_i h0
    cases h
    unfold ReadCal.wgDone
    split
    · rename_i h1; exact ⟨by simp [pc, h0], rfl, Or.inr ⟨h0, rfl, by simp [h1]⟩, Or.inr rfl⟩
    · exact ⟨by simp [pc, h0], rfl, Or.inr ⟨h0, rfl, rfl⟩, Or.inl rfl⟩
  · cases h

theorem stepH_steps {r : Except E H} {m m' : ReadCal.State A H E} (h : ReadCal.stepH r m = some m') : Steps true m m' := by
  unfold ReadCal.stepH at h
  split at h
  · rename_i h0
    split at h
    · unfold ReadCal.sendErr at h
      split at h
      · cases h; exact ⟨by simp [pc, h0], rfl, Or.inl ⟨by simp [pc], rfl⟩, Or.inr rfl⟩
      · split at h
        · cases h; exact ⟨by simp [pc, h0], rfl, Or.inl ⟨by simp [pc], rfl⟩, Or.inl rfl⟩
        · cases h
    · split at h
      · cases h; exact ⟨by simp [pc, h0], rfl, Or.inl ⟨by simp [pc, h0], rfl⟩, Or.inr rfl⟩
      · split at h
        · cases h; exact ⟨by simp [pc, h0], rfl, Or.inl ⟨by simp [pc], rfl⟩, Or.inl rfl⟩
        · cases h
  · rename_i h0
    split at h
    · cases h; exact ⟨by simp [pc, h0], rfl, Or.inl ⟨by simp [pc, h0], rfl⟩, Or.inr rfl⟩
    · cases h; exact ⟨by simp [pc, h0], rfl, Or.inl ⟨by simp [pc], rfl⟩, Or.inl rfl⟩
  · rename_i h0
    cases h
    unfold ReadCal.wgDone
    split
    · rename_i h1; exact ⟨by simp [pc, h0], rfl, Or.inr ⟨h0, rfl, by simp [h1]⟩, Or.inr rfl⟩
    · exact ⟨by simp [pc, h0], rfl, Or.inr ⟨h0, rfl, rfl⟩, Or.inl rfl⟩
  · cases h

/-- A step of the caller. -/
theorem stepM_steps {m m' : ReadCal.State A H E} (h : ReadCal.stepM m = some m') : (∀ b, pc b m' = pc b m) ∧ m'.wg = m.wg ∧ (∀ r, m.main ≠ .ret r) ∧ m.main ≠ .panicked ∧
    m'.main ≠ .wait ∧ (m.main = .wait → m.wg = 0) := by
  unfold ReadCal.stepM at h
  repeat' split at h
  all_goals first
    | (cases h; done)
    | (cases h
       rename_i h1
       refine ⟨by intro b; cases b <;> rfl, rfl, ?_, ?_, nofun, ?_⟩ <;> simp_all)

/-- The counters, and what they say about the execution. -/
structure Count (m : ReadCal.State A H E) (T : Tagged) : Prop where
  wg : m.wg = (if pc false m = 3 then 0 else 1) + (if pc true m = 3 then 0 else 1)
  le : ∀ b, pc b m ≤ 3
  done : ∀ b, pc b m = 3 → ∃ d, Last T b d
  past : m.main ≠ .wait → m.main ≠ .panicked → (∀ b, pc b m = 3) ∧ ∃ w, Joined T w
  quiet : (∀ r, m.main ≠ .ret r) → ∀ x ∈ T, ¬ Use x

theorem Count.same {m : ReadCal.State A H E} {T u : Tagged} (h : Count m T) (hg : ∀ x ∈ u, ∀ b, x.1 ≠ .glue b) (hu : (∀ r, m.main ≠ .ret r) → ∀ x ∈ u, ¬ Use x) : Count m (T ++ u) where
  wg := h.wg
  le := h.le
  done := fun b hb => by
    obtain ⟨d, hd⟩ := h.done b hb
    exact ⟨d, hd.append fun x hx => hg x hx b⟩
  past := fun h1 h2 => by
    obtain ⟨h3, w, h4⟩ := h.past h1 h2
    exact ⟨h3, w, h4.append hg⟩
  quiet := fun h1 x hx => by
    rcases List.mem_append.1 hx with hx | hx
    · exact h.quiet h1 x hx
    · exact hu h1 x hx

theorem Count.wait {m : ReadCal.State A H E} {T : Tagged} (h : Count m T) {b : Bool} (hb : pc b m ≤ 2) : m.main = .wait ∨ m.main = .panicked := by
  by_cases h1 : m.main = .wait
  · exact Or.inl h1
  · by_cases h2 : m.main = .panicked
    · exact Or.inr h2
    · have := (h.past h1 h2).1 b
      omega

theorem Count.glue {m m' : ReadCal.State A H E} {T : Tagged} (h : Count m T) {b : Bool} (hs : Steps b m m') {as : List Race.A} (has : pc b m = 2 → as = [.done .wgReaders]) :
    Count m' (T ++ tagged (.glue b) (acts (root b) as)) := by
  have hm : m'.main = .wait ∨ m'.main = .panicked := by
    rcases hs.main with h1 | h1
    · rw [h1]; exact h.wait hs.old
    · exact Or.inr h1
  have hnb : ∀ c, c ≠ b → pc c m' = pc c m := fun c hc => by
    have : c = !b := by cases b <;> cases c <;> simp_all
    subst this; exact hs.other
  have hold := hs.old
  refine ⟨?_, fun c => ?_, fun c hc => ?_, fun h1 h2 => ?_, fun h1 x hx => ?_⟩
  · have hwg := h.wg
    have ho := hs.other
    cases b with
    | false =>
      have ho : pc true m' = pc true m := ho
      rw [ho]
      rcases hs.new with ⟨h1, h2⟩ | ⟨h1, h2, h3⟩
      · rw [h2, hwg, if_neg (by omega : ¬ pc false m = 3), if_neg (by omega : ¬ pc false m' = 3)]
      · rw [h3, hwg, if_neg (by omega : ¬ pc false m = 3), if_pos h2]; omega
    | true =>
      have ho : pc false m' = pc false m := ho
      rw [ho]
      rcases hs.new with ⟨h1, h2⟩ | ⟨h1, h2, h3⟩
      · rw [h2, hwg, if_neg (by omega : ¬ pc true m = 3), if_neg (by omega : ¬ pc true m' = 3)]
      · rw [h3, hwg, if_neg (by omega : ¬ pc true m = 3), if_pos h2]; omega
  · by_cases hc : c = b
    · subst hc; rcases hs.new with ⟨h1, _⟩ | ⟨_, h1, _⟩ <;> omega
    · rw [hnb c hc]; exact h.le c
  · by_cases hcb : c = b
    · subst hcb
      rcases hs.new with ⟨h1, _⟩ | ⟨h1, h2, _⟩
      · omega
      · rw [has h1]
        refine ⟨T.length, ?_, fun i x hx _ => ?_⟩
        · simp [tagged, acts]
        · have := lt_of_get hx
          simp [tagged, acts] at this
          omega
    · rw [hnb c hcb] at hc
      obtain ⟨d, hd⟩ := h.done c hc
      refine ⟨d, hd.append fun x hx => ?_⟩
      rw [(mem_tagged.1 hx).1]
      intro hh; cases hh; exact hcb rfl
  · rcases hm with hm | hm
    · exact absurd hm h1
    · exact absurd hm h2
  · rcases List.mem_append.1 hx with hx | hx
    · refine h.quiet (fun r hr => ?_) x hx
      rcases h.wait hs.old with h2 | h2 <;> rw [h2] at hr <;> cases hr
    · intro hu
      have := hu.1
      rw [(mem_tagged.1 hx).1] at this
      cases this

/-- What the caller does inside the call. -/
theorem mainActs_mem {m : ReadCal.State A H E} {a : Race.A} (h : a ∈ mainActs m) : (∀ l k, a.access = some (l, k) → l = .logger ∧ k = .read) ∧ Outer a := by
  have hq : ∀ {a : Race.A}, a.access = none → Outer a → (∀ l k, a.access = some (l, k) → l = .logger ∧ k = .read) ∧ Outer a := fun h0 h1 =>
    ⟨fun l k h => (by rw [h0] at h; cases h), h1⟩
  unfold mainActs at h
  split at h
  · cases List.mem_singleton.1 h; exact hq rfl (by rintro c (h | h) <;> cases h)
  · cases List.mem_singleton.1 h; exact hq rfl (by rintro c (h | h) <;> cases h)
  · split at h
    · cases List.mem_singleton.1 h; exact hq rfl (by rintro c (h | h) <;> cases h)
    · simp only [List.mem_cons, List.not_mem_nil, or_false] at h
      rcases h with rfl | rfl
      · exact hq rfl (by rintro c (h | h) <;> cases h; exact Or.inl rfl)
      · exact ⟨fun l k h => by cases h; exact ⟨rfl, rfl⟩, by rintro c (h | h) <;> cases h⟩
  · split at h
    · cases List.mem_singleton.1 h; exact hq rfl (by rintro c (h | h) <;> cases h)
    · cases List.mem_singleton.1 h; exact hq rfl (by rintro c (h | h) <;> cases h; exact Or.inr (Or.inl rfl))
  · split at h
    · cases List.mem_singleton.1 h; exact hq rfl (by rintro c (h | h) <;> cases h)
    · cases List.mem_singleton.1 h; exact hq rfl (by rintro c (h | h) <;> cases h; exact Or.inr (Or.inr rfl))
  · cases h

theorem Count.main {m m' : ReadCal.State A H E} {T : Tagged} (h : Count m T) (hs : ReadCal.stepM m = some m') :
    Count m' (T ++ tagged .main (acts .caller (mainActs m))) ∧ ∀ x ∈ T ++ tagged .main (acts .caller (mainActs m)), ¬ Use x := by
  obtain ⟨h1, h2, h3, h4, h5, h6⟩ := stepM_steps hs
  have hg : ∀ x ∈ tagged .main (acts .caller (mainActs m)), ∀ b, x.1 ≠ .glue b := fun x hx b => by rw [(mem_tagged.1 hx).1]; nofun
  have hu : ∀ x ∈ T ++ tagged .main (acts .caller (mainActs m)), ¬ Use x := by
    intro x hx
    rcases List.mem_append.1 hx with hx | hx
    · exact h.quiet h3 x hx
    · rintro ⟨_, l, k, g1, g2⟩
      exact g2 ((mainActs_mem (mem_acts.1 (mem_tagged.1 hx).2).2).1 l k g1).1
  have h7 := h.same hg (fun _ x hx => hu x (List.mem_append_right _ hx))
  refine ⟨⟨by rw [h2, h1, h1]; exact h.wg, fun b => by rw [h1]; exact h.le b, fun b hb => h7.done b (by rwa [h1] at hb), fun _ g2 => ?_, fun _ => hu⟩, hu⟩
  by_cases hw : m.main = .wait
  · have hz := h6 hw
    have hwg := h.wg
    have ha : pc false m = 3 := by
      by_cases h : pc false m = 3
      · exact h
      · rw [if_neg h] at hwg; omega
    have hh : pc true m = 3 := by
      by_cases h : pc true m = 3
      · exact h
      · rw [if_neg h] at hwg; omega
    have hall : ∀ b, pc b m = 3 := fun b => match b with | false => ha | true => hh
    refine ⟨fun b => by rw [h1]; exact hall b, T.length, ?_, fun b => ?_⟩
    · simp [mainActs, hw, tagged, acts]
    · obtain ⟨d, hd⟩ := h.done b (hall b)
      exact ⟨d, lt_of_get hd.1, hd.append fun x hx => hg x hx b⟩
  · obtain ⟨g3, w, g4⟩ := h7.past hw h4
    exact ⟨fun b => by rw [h1]; exact g3 b, w, g4⟩

theorem glueActs_mem {b ok : Bool} {n : Nat} {a : Race.A} (h : a ∈ glueActs b ok n) : (∀ l k, a.access = some (l, k) → k = .read ∧ (l = .logger ∨ res b l)) ∧ Outer a := by
  have hq : ∀ {a : Race.A}, a.access = none → Outer a → (∀ l k, a.access = some (l, k) → k = .read ∧ (l = .logger ∨ res b l)) ∧ Outer a := fun h0 h1 =>
    ⟨fun l k h => (by rw [h0] at h; cases h), h1⟩
  have hlog : (∀ l k, (Act.read Loc.logger : Race.A).access = some (l, k) → k = .read ∧ (l = .logger ∨ res b l)) ∧ Outer (.read .logger) :=
    ⟨fun l k h => by cases h; exact ⟨rfl, Or.inl rfl⟩, by rintro c (h | h) <;> cases h⟩
  unfold glueActs at h
  split at h
  · split at h
    · rcases List.mem_append.1 h with h | h
      · split at h
        · cases h
        · rename_i hb
          cases List.mem_singleton.1 h
          have : b = false := by simpa using hb
          subst this
          exact ⟨fun l k h => by cases h; exact ⟨rfl, Or.inr (Or.inl rfl)⟩, by rintro c (h | h) <;> cases h⟩
      · cases List.mem_singleton.1 h
        exact hq rfl (by rintro c (h | h) <;> cases h; exact Or.inr (by cases b <;> simp [resultChan]))
    · simp only [List.mem_cons, List.not_mem_nil, or_false] at h
      rcases h with rfl | rfl
      · exact hlog
      · exact hq rfl (by rintro c (h | h) <;> cases h; exact Or.inl rfl)
  · rcases List.mem_cons.1 h with rfl | h
    · exact hq rfl (by rintro c (h | h) <;> cases h)
    · split at h
      · cases List.mem_singleton.1 h; exact hlog
      · cases h
  · cases List.mem_singleton.1 h; exact hq rfl (by rintro c (h | h) <;> cases h)
  · cases h

/-! ### The whole call -/

variable {MA : Sys (Except E A)} {MH : Sys (Except E H)} {LA : Labels MA} {LH : Labels MH}

/-- What is known in a state of the call. -/
structure Known (pa : Part cap false LA) (ph : Part cap true LH) (s : State MA MH) (T : Tagged) : Prop where
  a : pa.inv s.a (T.filterMap (sel false))
  h : ph.inv s.h (T.filterMap (sel true))
  ga : Glued false (MA.out s.a ≠ none) T
  gh : Glued true (MH.out s.h ≠ none) T
  shape : Shape T
  count : Count s.m T

theorem Known.free {pa : Part cap false LA} {ph : Part cap true LH} {s : State MA MH} {T : Tagged} (h : Known pa ph s T) : Free cap (fun _ => True) (T.map fun x : Tag × Ev => x.2) := by
  refine free_of_sides (o := fun b => match b with | false => MA.out s.a ≠ none | true => MH.out s.h ≠ none) (fun b => ?_) h.shape
  cases b with
  | false => exact ⟨pa.free h.a, pa.own h.a, pa.begun h.a, pa.settled h.a, h.ga.glue, h.ga.late⟩
  | true => exact ⟨ph.free h.h, ph.own h.h, ph.begun h.h, ph.settled h.h, h.gh.glue, h.gh.late⟩

/-- What is added does not belong to the parser or its goroutine. -/
theorem Glued.other {b : Bool} {over : Prop} {T u : Tagged} (h : Glued b over T) (hu : ∀ x ∈ u, x.1 ≠ .glue b ∧ x.1 ≠ .part b) : Glued b over (T ++ u) :=
  h.append id (fun x hx ht => absurd ht (hu x hx).1) fun x hx ht => absurd ht (hu x hx).2

theorem filter_other {b : Bool} {T u : Tagged} (hu : ∀ x ∈ u, x.1 ≠ .part b) : (T ++ u).filterMap (sel b) = T.filterMap (sel b) := by
  rw [List.filterMap_append, sel_other hu, List.append_nil]

theorem filter_part {b : Bool} {T : Tagged} {es : Trace} : (T ++ tagged (.part b) es).filterMap (sel b) = T.filterMap (sel b) ++ es := by
  rw [List.filterMap_append, sel_tagged]

/-- Nothing of the caller is added. -/
theorem Shape.silent {m : ReadCal.State A H E} {T u : Tagged} (h : Shape T) (hc : Count m T) (hg : (∀ x ∈ u, ∀ b, x.1 ≠ .glue b) ∨ ∀ r, m.main ≠ .ret r)
    (hu : ∀ x ∈ u, x.1 ≠ .pro ∧ x.1 ≠ .main) : Shape (T ++ u) := by
  refine h.append (fun x hx => (hu x hx).1) (fun x hx ht => absurd ht (hu x hx).2) ?_
  by_cases hr : ∀ r, m.main ≠ .ret r
  · refine Or.inl fun x hx => ?_
    rcases List.mem_append.1 hx with hx | hx
    · exact hc.quiet hr x hx
    · exact fun hu' => (hu x hx).2 hu'.1
  · rcases hg with hg | hg
    · refine Or.inr ⟨hg, (hc.past (fun h => hr fun r hh => ?_) fun h => hr fun r hh => ?_).2⟩
      · rw [h] at hh; cases hh
      · rw [h] at hh; cases hh
    · exact absurd hg hr

theorem Known.step {pa : Part cap false LA} {ph : Part cap true LH} {s s' : State MA MH} {T : Tagged} (h : Known pa ph s T) {o : Whole.Op MA MH} (hs : Whole.step s o = some s') :
    Known pa ph s' (T ++ events LA LH s o) := by
  cases o with
  | a2l o =>
    obtain ⟨a', h1, rfl⟩ := Option.map_eq_some_iff.1 hs
    have ht : ∀ x ∈ events LA LH s (.a2l o), x.1 = .part false := fun x hx => (mem_tagged.1 hx).1
    refine ⟨?_, ?_, ?_, h.gh.other fun x hx => by rw [ht x hx]; exact ⟨nofun, nofun⟩, ?_, ?_⟩
    · simp only [events, filter_part]; exact pa.step h.a h1
    · rw [filter_other fun x hx => by rw [ht x hx]; nofun]; exact h.h
    · refine h.ga.append (fun ho => (pa.late h.a ho h1).1) (fun x hx hg => ?_) fun y hy hg => ⟨fun ho => (pa.late h.a ho h1).2 y.2 (mem_tagged.1 hy).2, fun x hx => ?_⟩
      · rw [ht x hx] at hg; cases hg
      · rw [ht x hx]; nofun
    · exact h.shape.silent h.count (Or.inl fun x hx b => by rw [ht x hx]; nofun) fun x hx => by rw [ht x hx]; exact ⟨nofun, nofun⟩
    · exact h.count.same (fun x hx b => by rw [ht x hx]; nofun) fun _ x hx hu => by
        have := hu.1; rw [ht x hx] at this; cases this
  | hex o =>
    obtain ⟨h', h1, rfl⟩ := Option.map_eq_some_iff.1 hs
    have ht : ∀ x ∈ events LA LH s (.hex o), x.1 = .part true := fun x hx => (mem_tagged.1 hx).1
    refine ⟨?_, ?_, h.ga.other fun x hx => by rw [ht x hx]; exact ⟨nofun, nofun⟩, ?_, ?_, ?_⟩
    · rw [filter_other fun x hx => by rw [ht x hx]; nofun]; exact h.a
    · simp only [events, filter_part]; exact ph.step h.h h1
    · refine h.gh.append (fun ho => (ph.late h.h ho h1).1) (fun x hx hg => ?_) fun y hy hg => ⟨fun ho => (ph.late h.h ho h1).2 y.2 (mem_tagged.1 hy).2, fun x hx => ?_⟩
      · rw [ht x hx] at hg; cases hg
      · rw [ht x hx]; nofun
    · exact h.shape.silent h.count (Or.inl fun x hx b => by rw [ht x hx]; nofun) fun x hx => by rw [ht x hx]; exact ⟨nofun, nofun⟩
    · exact h.count.same (fun x hx b => by rw [ht x hx]; nofun) fun _ x hx hu => by
        have := hu.1; rw [ht x hx] at this; cases this
  | readA2L =>
    obtain ⟨r, h1, h2⟩ := Option.bind_eq_some_iff.1 hs
    obtain ⟨m', h3, rfl⟩ := Option.map_eq_some_iff.1 h2
    have hst := stepA_steps h3
    have he : events LA LH s .readA2L = tagged (.glue false) (acts (root false) (glueActs false (isOk r) s.m.pcA)) := by simp only [events, h1, root]
    rw [he]
    have ht : ∀ x ∈ tagged (.glue false) (acts (root false) (glueActs false (isOk r) s.m.pcA)), x.1 = .glue false := fun x hx => (mem_tagged.1 hx).1
    refine ⟨?_, ?_, ?_, h.gh.other fun x hx => by rw [ht x hx]; exact ⟨nofun, nofun⟩, ?_, ?_⟩
    · rw [filter_other fun x hx => by rw [ht x hx]; nofun]; exact h.a
    · rw [filter_other fun x hx => by rw [ht x hx]; nofun]; exact h.h
    · refine h.ga.append id (fun x hx _ => ?_) fun y hy hg => ?_
      · obtain ⟨g1, g2⟩ := mem_acts.1 (mem_tagged.1 hx).2
        exact ⟨by rw [h1]; nofun, g1, glueActs_mem g2⟩
      · rw [ht y hy] at hg; cases hg
    · refine h.shape.silent h.count (Or.inr fun r hr => ?_) fun x hx => by rw [ht x hx]; exact ⟨nofun, nofun⟩
      rcases h.count.wait hst.old with h2 | h2 <;> rw [h2] at hr <;> cases hr
    · refine h.count.glue hst fun hp => ?_
      have hp : s.m.pcA = 2 := hp
      rw [hp]; rfl
  | readHex =>
    obtain ⟨r, h1, h2⟩ := Option.bind_eq_some_iff.1 hs
    obtain ⟨m', h3, rfl⟩ := Option.map_eq_some_iff.1 h2
    have hst := stepH_steps h3
    have he : events LA LH s .readHex = tagged (.glue true) (acts (root true) (glueActs true (isOk r) s.m.pcH)) := by simp only [events, h1, root]
    rw [he]
    have ht : ∀ x ∈ tagged (.glue true) (acts (root true) (glueActs true (isOk r) s.m.pcH)), x.1 = .glue true := fun x hx => (mem_tagged.1 hx).1
    refine ⟨?_, ?_, h.ga.other fun x hx => by rw [ht x hx]; exact ⟨nofun, nofun⟩, ?_, ?_, ?_⟩
    · rw [filter_other fun x hx => by rw [ht x hx]; nofun]; exact h.a
    · rw [filter_other fun x hx => by rw [ht x hx]; nofun]; exact h.h
    · refine h.gh.append id (fun x hx _ => ?_) fun y hy hg => ?_
      · obtain ⟨g1, g2⟩ := mem_acts.1 (mem_tagged.1 hx).2
        exact ⟨by rw [h1]; nofun, g1, glueActs_mem g2⟩
      · rw [ht y hy] at hg; cases hg
    · refine h.shape.silent h.count (Or.inr fun r hr => ?_) fun x hx => by rw [ht x hx]; exact ⟨nofun, nofun⟩
      rcases h.count.wait hst.old with h2 | h2 <;> rw [h2] at hr <;> cases hr
    · refine h.count.glue hst fun hp => ?_
      have hp : s.m.pcH = 2 := hp
      rw [hp]; rfl
  | main =>
    obtain ⟨m', h1, rfl⟩ := Option.map_eq_some_iff.1 hs
    have ht : ∀ x ∈ events LA LH s .main, x.1 = .main := fun x hx => (mem_tagged.1 hx).1
    obtain ⟨g1, g2⟩ := h.count.main h1
    refine ⟨?_, ?_, h.ga.other fun x hx => by rw [ht x hx]; exact ⟨nofun, nofun⟩, h.gh.other fun x hx => by rw [ht x hx]; exact ⟨nofun, nofun⟩, ?_, g1⟩
    · rw [filter_other fun x hx => by rw [ht x hx]; nofun]; exact h.a
    · rw [filter_other fun x hx => by rw [ht x hx]; nofun]; exact h.h
    · refine h.shape.append (fun x hx => by rw [ht x hx]; nofun) (fun x hx _ => ?_) (Or.inl g2)
      obtain ⟨g3, g4⟩ := mem_acts.1 (mem_tagged.1 hx).2
      exact ⟨g3, fun l k hk => Or.inl ((mainActs_mem g4).1 l k hk), (mainActs_mem g4).2⟩

theorem usable_access {a : Race.A} (h : usable a = true) : (∀ l k, a.access = some (l, k) → (l = .logger ∧ k = .read) ∨ ∃ b, res b l) ∧ Outer a := by
  unfold usable at h
  split at h
  · split at h
    · exact ⟨fun l k h => by cases h; exact Or.inr ⟨false, Or.inl rfl⟩, by rintro c (h | h) <;> cases h⟩
    · exact ⟨fun l k h => by cases h; exact Or.inr ⟨false, Or.inr (Or.inr (Or.inr (Or.inl ⟨_, _, _, rfl⟩)))⟩, by rintro c (h | h) <;> cases h⟩
    · exact ⟨fun l k h => by cases h; exact Or.inr ⟨false, Or.inr (Or.inr (Or.inr (Or.inr ⟨_, _, rfl⟩)))⟩, by rintro c (h | h) <;> cases h⟩
    · exact ⟨fun l k h => by cases h; exact Or.inr ⟨true, rfl⟩, by rintro c (h | h) <;> cases h⟩
    · exact ⟨fun l k h => by cases h; exact Or.inr ⟨false, Or.inr (Or.inr (Or.inl ⟨_, rfl⟩))⟩, by rintro c (h | h) <;> cases h⟩
    · exact ⟨fun l k h => by cases h; exact Or.inr ⟨false, Or.inr (Or.inl rfl)⟩, by rintro c (h | h) <;> cases h⟩
    · exact ⟨fun l k h => by cases h; exact Or.inl ⟨rfl, rfl⟩, by rintro c (h | h) <;> cases h⟩
    · cases h
  · split at h
    · exact ⟨fun l k h => by cases h; exact Or.inr ⟨false, Or.inl rfl⟩, by rintro c (h | h) <;> cases h⟩
    · exact ⟨fun l k h => by cases h; exact Or.inr ⟨false, Or.inr (Or.inr (Or.inr (Or.inl ⟨_, _, _, rfl⟩)))⟩, by rintro c (h | h) <;> cases h⟩
    · exact ⟨fun l k h => by cases h; exact Or.inr ⟨false, Or.inr (Or.inr (Or.inr (Or.inr ⟨_, _, rfl⟩)))⟩, by rintro c (h | h) <;> cases h⟩
    · exact ⟨fun l k h => by cases h; exact Or.inr ⟨true, rfl⟩, by rintro c (h | h) <;> cases h⟩
    · cases h
  · cases h

theorem Known.use {pa : Part cap false LA} {ph : Part cap true LH} {s : State MA MH} {T : Tagged} (h : Known pa ph s T) {a : Race.A} (hr : returned s = true) (ha : usable a = true) :
    Known pa ph s (T ++ [(.main, ⟨.caller, a⟩)]) := by
  have ht : ∀ x ∈ [((.main, ⟨.caller, a⟩) : Tag × Ev)], x = (.main, ⟨.caller, a⟩) := fun x hx => List.mem_singleton.1 hx
  have hret : ∃ r, s.m.main = .ret r := by
    unfold returned at hr
    split at hr
    · rename_i r h; exact ⟨r, h⟩
    · cases hr
  obtain ⟨r, hret⟩ := hret
  have hj := (h.count.past (by rw [hret]; nofun) (by rw [hret]; nofun)).2
  refine ⟨?_, ?_, h.ga.other fun x hx => by rw [ht x hx]; exact ⟨nofun, nofun⟩, h.gh.other fun x hx => by rw [ht x hx]; exact ⟨nofun, nofun⟩, ?_, ?_⟩
  · rw [filter_other fun x hx => by rw [ht x hx]; nofun]; exact h.a
  · rw [filter_other fun x hx => by rw [ht x hx]; nofun]; exact h.h
  · refine h.shape.append (fun x hx => by rw [ht x hx]; nofun) (fun x hx _ => ?_) (Or.inr ⟨fun x hx b => by rw [ht x hx]; nofun, hj⟩)
    rw [ht x hx]
    exact ⟨rfl, usable_access ha⟩
  · exact h.count.same (fun x hx b => by rw [ht x hx]; nofun) fun hn => absurd hret (hn r)

theorem known_start (pa : Part cap false LA) (ph : Part cap true LH) : Known pa ph (start MA MH) (prologue ++ tagged (.part false) LA.first ++ tagged (.part true) LH.first) := by
  have h1 : ∀ x ∈ tagged (.part false) LA.first, x.1 = .part false := fun x hx => (mem_tagged.1 hx).1
  have h2 : ∀ x ∈ tagged (.part true) LH.first, x.1 = .part true := fun x hx => (mem_tagged.1 hx).1
  have h3 : ∀ x ∈ prologue ++ tagged (.part false) LA.first ++ tagged (.part true) LH.first, x.1 = .pro ∨ x.1 = .part false ∨ x.1 = .part true := by
    intro x hx
    rcases List.mem_append.1 hx with hx | hx
    · rcases List.mem_append.1 hx with hx | hx
      · simp only [prologue, List.mem_cons, List.not_mem_nil, or_false] at hx
        rcases hx with rfl | rfl | rfl <;> exact Or.inl rfl
      · exact Or.inr (Or.inl (h1 x hx))
    · exact Or.inr (Or.inr (h2 x hx))
  have hng : ∀ x ∈ prologue ++ tagged (.part false) LA.first ++ tagged (.part true) LH.first, ∀ b, x.1 ≠ .glue b := by
    intro x hx b
    rcases h3 x hx with h | h | h <;> rw [h] <;> nofun
  have hnm : ∀ x ∈ prologue ++ tagged (.part false) LA.first ++ tagged (.part true) LH.first, x.1 ≠ .main := by
    intro x hx
    rcases h3 x hx with h | h | h <;> rw [h] <;> nofun
  have hpro : ∀ b, prologue.filterMap (sel b) = [] := fun b => by cases b <;> rfl
  have hgl : ∀ {b : Bool} {o : Prop}, Glued b o (prologue ++ tagged (.part false) LA.first ++ tagged (.part true) LH.first) := fun {b o} =>
    ⟨fun x hx ht => absurd ht (hng x hx b), fun i j x y hx hy hij ht => absurd ht (hng x (List.mem_of_getElem? hx) b)⟩
  refine ⟨?_, ?_, hgl, hgl, ⟨⟨_, List.append_assoc _ _ _, fun x hx => ?_⟩, fun x hx ht => absurd ht (hnm x hx), fun j x hx ht => absurd ht (hnm x (List.mem_of_getElem? hx))⟩, ?_⟩
  · rw [filter_other fun x hx => by rw [h2 x hx]; nofun, filter_part, hpro]
    exact pa.init
  · rw [filter_part, filter_other fun x hx => by rw [h1 x hx]; nofun, hpro]
    exact ph.init
  · rcases List.mem_append.1 hx with hx | hx
    · rw [h1 x hx]; nofun
    · rw [h2 x hx]; nofun
  · refine ⟨rfl, fun b => (by cases b <;> exact Nat.zero_le _), fun b hb => (by cases b <;> cases hb), fun h => absurd rfl h, fun _ x hx hu => hnm x hx hu.1⟩

theorem Known.run {pa : Part cap false LA} {ph : Part cap true LH} : ∀ {os : List (Do MA MH)} {s : State MA MH} {T : Tagged}, Known pa ph s T →
    Free cap (fun _ => True) ((T ++ traceFrom LA LH s os).map fun x : Tag × Ev => x.2)
  | [], s, T, h => by rw [traceFrom, List.append_nil]; exact h.free
  | .step o :: os, s, T, h => by
    rw [traceFrom]
    split
    · rw [List.append_nil]; exact h.free
    · rename_i s' hs
      rw [← List.append_assoc]
      exact Known.run (h.step hs)
  | .use a :: os, s, T, h => by
    rw [traceFrom]
    split
    · rename_i hc
      obtain ⟨h1, h2⟩ := Bool.and_eq_true_iff.1 hc
      have := Known.run (os := os) (h.use h1 h2)
      rwa [List.append_assoc] at this
    · rw [List.append_nil]; exact h.free

end

/-! ### The files -/

def partA (F : Files) : Part cap false (labelsA F) := by
  obtain ⟨cpus, graphic, floatOk, a2l, path, hex⟩ := F
  cases a2l with
  | none => exact fixedPart false _
  | some t => exact a2lPart _

theorem partH (F : Files) : Nonempty (Part cap true (labelsH F)) := by
  unfold labelsH Files.readHex
  cases h : ReadCal.format F.path with
  | none => exact ⟨fixedPart true _⟩
  | some f =>
    cases h' : F.hex with
    | none => exact ⟨fixedPart true _⟩
    | some t =>
      cases f with
      | intelHex => exact ⟨hexPart (Hex.ihexDisc _) _ _⟩
      | s19 => exact ⟨hexPart Hex.srecDisc _ _⟩

/-- No execution has a data race. -/
theorem not_racy (F : Files) (os : List (Do F.readA2L F.readHex)) : ¬ Racy cap (trace F os) := by
  obtain ⟨ph⟩ := partH (cap := cap) F
  exact free_not_racy (Known.run (known_start (partA F) ph))

end Verif.Conc.Race.All
