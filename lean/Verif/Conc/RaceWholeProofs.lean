import Verif.Conc.RaceWhole
import Verif.Conc.RaceLift
import Verif.Conc.RaceA2lProofs

/-! No execution of a call of `ReadCalibration` has a data race: the races of the parts, and those between them. -/

namespace Verif.Conc.Race.All
open Verif.Go Verif.Conc.Whole

variable {cap : Sy → Nat}

/-! ### What the parts have to do with each other -/

def sel (b : Bool) (x : Tag × Ev) : Option Ev := if x.1 = .part b then some x.2 else none

theorem sel_some {b : Bool} {x : Tag × Ev} {e : Ev} : sel b x = some e ↔ x.1 = .part b ∧ x.2 = e := by
  unfold sel
  split
  · rename_i h; simp [h]
  · rename_i h; simp [h]

/-- The memory of a parser. -/
def mine : Bool → Loc → Prop
  | false => A2l.a2lL
  | true => Hex.hexL

/-- The channels of a parser. -/
def chans : Bool → Sy → Prop
  | false => A2l.a2lS
  | true => fun c => c = .vcs ∨ (∃ k, c = .recs k) ∨ ∃ k, c = .dat k

/-- The memory of the result of a parser. -/
def res : Bool → Loc → Prop
  | false => fun l => l = .a2l ∨ l = .a2lLines ∨ (∃ k, l = .chars k) ∨ (∃ i c m, l = .object i c m) ∨ ∃ i f, l = .field i f
  | true => fun l => l = .hexMap

theorem res_mine {b : Bool} {l : Loc} (h : res b l) : mine b l := by
  cases b with
  | false => rcases h with rfl | rfl | ⟨_, rfl⟩ | ⟨_, _, _, rfl⟩ | ⟨_, _, rfl⟩ <;> trivial
  | true => cases h; trivial

theorem mine_apart {b : Bool} {l : Loc} (h : mine b l) (h' : mine (!b) l) : False := by
  cases b <;> cases l <;> first | exact h | exact h'

theorem mine_logger {b : Bool} (h : mine b .logger) : False := by
  cases b <;> exact h

theorem chans_apart {b : Bool} {c : Sy} (h : chans b c) (h' : chans (!b) c) : False := by
  cases b with
  | false => rcases h' with rfl | ⟨_, rfl⟩ | ⟨_, rfl⟩ <;> exact h
  | true => rcases h with rfl | ⟨_, rfl⟩ | ⟨_, rfl⟩ <;> exact h'

theorem chans_own {b : Bool} {c : Sy} (h : chans b c) : c ≠ .errChan ∧ c ≠ .a2lChan ∧ c ≠ .hexChan := by
  cases b with
  | false => refine ⟨?_, ?_, ?_⟩ <;> rintro rfl <;> exact h
  | true => rcases h with rfl | ⟨_, rfl⟩ | ⟨_, rfl⟩ <;> exact ⟨nofun, nofun, nofun⟩

/-- The event uses what belongs to the parser, and the logger, which it reads. -/
def Own (b : Bool) (e : Ev) : Prop := (∀ l x, e.act.access = some (l, x) → mine b l ∨ (l = .logger ∧ x = .read)) ∧ ∀ c, e.act = .send c ∨ e.act = .recv c → chans b c

/-- The action uses the channels of `ReadCalibration` only. -/
def Outer (a : A) : Prop := ∀ c, a = .send c ∨ a = .recv c → c = .errChan ∨ c = .a2lChan ∨ c = .hexChan

/-- What is known of a parser and the goroutine that executes it; `over`: it has returned. -/
structure Side (cap : Sy → Nat) (b : Bool) (over : Prop) (T : Tagged) : Prop where
  free : Free cap (fun _ => True) (T.filterMap (sel b))
  own : ∀ e ∈ T.filterMap (sel b), Own b e
  begun : Begun (root b) (T.filterMap (sel b))
  settled : over → ∀ (i : Nat) (e : Ev) (l : Loc) (x : Kind), (T.filterMap (sel b))[i]? = some e → e.act.access = some (l, x) → res b l →
    ∃ (k : Nat) (f : Ev), (T.filterMap (sel b))[k]? = some f ∧ f.who = root b ∧ Le cap (T.filterMap (sel b)) i k
  glue : ∀ x ∈ T, x.1 = .glue b → over ∧ x.2.who = root b ∧ (∀ l k, x.2.act.access = some (l, k) → k = .read ∧ (l = .logger ∨ res b l)) ∧ Outer x.2.act
  late : ∀ (i j : Nat) (x y : Tag × Ev), T[i]? = some x → T[j]? = some y → i < j → x.1 = .glue b → y.1 = .part b →
    y.2.who ≠ root b ∧ ∀ l k, y.2.act.access = some (l, k) → ¬ res b l

/-- At place `w` the caller has waited for both goroutines. -/
def Joined (T : Tagged) (w : Nat) : Prop := T[w]? = some (.main, ⟨.caller, .wait .wgReaders⟩) ∧
  ∀ b, ∃ d, d < w ∧ T[d]? = some (.glue b, ⟨root b, .done .wgReaders⟩) ∧ ∀ (i : Nat) (x : Tag × Ev), T[i]? = some x → x.1 = .glue b → i ≤ d

/-- What is known of the caller. -/
structure Shape (T : Tagged) : Prop where
  pro : ∃ u, T = prologue ++ u ∧ ∀ x ∈ u, x.1 ≠ .pro
  main : ∀ x ∈ T, x.1 = .main → x.2.who = .caller ∧ (∀ l k, x.2.act.access = some (l, k) → (l = .logger ∧ k = .read) ∨ ∃ b, res b l) ∧ Outer x.2.act
  use : ∀ (j : Nat) (x : Tag × Ev), T[j]? = some x → x.1 = .main → (∃ l k, x.2.act.access = some (l, k) ∧ l ≠ .logger) → ∃ w, w < j ∧ Joined T w

theorem Shape.at_pro {T : Tagged} (h : Shape T) {j : Nat} {x : Tag × Ev} (hx : T[j]? = some x) (ht : x.1 = .pro) : j < 3 ∧ x.2.who = .caller ∧ (j ≠ 0 → x.2.act.access = none) ∧ Outer x.2.act := by
  obtain ⟨u, rfl, hu⟩ := h.pro
  rcases at_append hx with h1 | ⟨h1, h2⟩
  · match j with
    | 0 => cases h1; exact ⟨by omega, rfl, fun h => absurd rfl h, by rintro c (h | h) <;> cases h⟩
    | 1 => cases h1; exact ⟨by omega, rfl, fun _ => rfl, by rintro c (h | h) <;> cases h⟩
    | 2 => cases h1; exact ⟨by omega, rfl, fun _ => rfl, by rintro c (h | h) <;> cases h⟩
    | j + 3 => simp [prologue] at h1
  · exact absurd ht (hu _ (List.mem_of_getElem? h2))

theorem Shape.not_pro {T : Tagged} (h : Shape T) {j : Nat} {x : Tag × Ev} (hx : T[j]? = some x) (ht : x.1 ≠ .pro) : 3 ≤ j := by
  obtain ⟨u, rfl, hu⟩ := h.pro
  rcases at_append hx with h1 | ⟨h1, h2⟩
  · match j with
    | 0 => cases h1; exact absurd rfl ht
    | 1 => cases h1; exact absurd rfl ht
    | 2 => cases h1; exact absurd rfl ht
    | j + 3 => omega
  · exact h1

theorem map_id (e : Ev) : e.map id id id = e := by
  obtain ⟨g, a⟩ := e
  cases a <;> rfl

theorem Side.view {b : Bool} {T : Tagged} {o o' : Prop} (h : Side cap b o T) (h' : Side cap (!b) o' T) (hs : Shape T) :
    View (fun x : Tag × Ev => x.2) (sel b) id id id (chans b) T where
  same := fun x _ e he => by rw [map_id]; exact (sel_some.1 he).2
  inj := fun _ _ h => h
  chans := fun x hx e he c hc => (h.own e (List.mem_filterMap.2 ⟨x, hx, he⟩)).2 c hc
  alone := fun x hx c hc ha => by
    have hout : ¬ Outer x.2.act := fun ho => by
      obtain ⟨h1, h2, h3⟩ := chans_own hc
      rcases ho c ha with h | h | h
      · exact h1 h
      · exact h2 h
      · exact h3 h
    obtain ⟨j, hj⟩ := List.getElem?_of_mem hx
    cases ht : x.1 with
    | pro => exact absurd (hs.at_pro hj ht).2.2.2 hout
    | main => exact absurd (hs.main x hx ht).2.2 hout
    | glue b' =>
      by_cases hb : b' = b
      · subst hb; exact absurd (h.glue x hx ht).2.2.2 hout
      · have : b' = !b := by cases b <;> cases b' <;> simp_all
        subst this; exact absurd (h'.glue x hx ht).2.2.2 hout
    | part b' =>
      by_cases hb : b' = b
      · subst hb; simp [sel, ht]
      · have : b' = !b := by cases b <;> cases b' <;> simp_all
        subst this
        have := (h'.own x.2 (List.mem_filterMap.2 ⟨x, hx, sel_some.2 ⟨ht, rfl⟩⟩)).2 c ha
        exact (chans_apart hc this).elim

theorem at_part {b : Bool} {T : Tagged} {j : Nat} {x : Tag × Ev} (hx : T[j]? = some x) (ht : x.1 = .part b) : At (sel b) T j (rank (sel b) T j) x.2 :=
  ⟨x, hx, sel_some.2 ⟨ht, rfl⟩, rfl⟩

theorem at_full {T : Tagged} {j : Nat} {x : Tag × Ev} (hx : T[j]? = some x) : (T.map fun x : Tag × Ev => x.2)[j]? = some x.2 := by
  rw [List.getElem?_map, hx, Option.map_some]

/-- What the caller does first happens before everything in the parts. -/
theorem Side.early {b : Bool} {T : Tagged} {o o' : Prop} (h : Side cap b o T) (h' : Side cap (!b) o' T) (hs : Shape T) {j : Nat} {x : Tag × Ev}
    (hx : T[j]? = some x) (ht : x.1 = .part b ∨ x.1 = .glue b) : HB cap (T.map fun x : Tag × Ev => x.2) 0 j := by
  have hgo : ∀ {k : Nat} {y : Tag × Ev}, T[k]? = some y → y.1 ≠ .pro → y.2.who = root b → HB cap (T.map fun x : Tag × Ev => x.2) 0 k := by
    intro k y hy hp hw
    have h3 := hs.not_pro hy hp
    have h0 : (T.map fun x : Tag × Ev => x.2)[0]? = some ⟨.caller, .write .logger⟩ := by
      obtain ⟨u, rfl, _⟩ := hs.pro; rfl
    have hg : ∃ i, i < 3 ∧ 0 < i ∧ (T.map fun x : Tag × Ev => x.2)[i]? = some ⟨.caller, .go y.2.who⟩ := by
      rw [hw]
      obtain ⟨u, rfl, _⟩ := hs.pro
      cases b with
      | false => exact ⟨1, by omega, by omega, rfl⟩
      | true => exact ⟨2, by omega, by omega, rfl⟩
    obtain ⟨i, hi, hi0, hg⟩ := hg
    exact .trans (.order h0 hg hi0 rfl) (.go hg (at_full hy) (by omega))
  rcases ht with ht | ht
  · have ha := at_part hx ht
    obtain ⟨i, f, h1, h2, h3⟩ := h.begun.root (cap := cap) ha.get
    obtain ⟨k, hk⟩ := exists_at h1
    have hle := (h.view h' hs).le (cap' := cap) (fun _ _ => rfl) h3 hk ha
    obtain ⟨y, hy, hsel, _⟩ := hk
    obtain ⟨hy1, rfl⟩ := sel_some.1 hsel
    have h0 := hgo hy (by rw [hy1]; nofun) h2
    rcases hle with rfl | hle
    · exact h0
    · exact .trans h0 hle
  · exact hgo hx (by rw [ht]; nofun) (h.glue x (List.mem_of_getElem? hx) ht).2.1

/-- What a parser has done to its result happens before what its goroutine does after the return. -/
theorem Side.before_glue {b : Bool} {T : Tagged} {o o' : Prop} (h : Side cap b o T) (h' : Side cap (!b) o' T) (hs : Shape T) {i d : Nat} {x y : Tag × Ev}
    (hx : T[i]? = some x) (ht : x.1 = .part b) (hy : T[d]? = some y) (hg : y.1 = .glue b) {l : Loc} {k : Kind} (ha : x.2.act.access = some (l, k)) (hl : res b l) :
    HB cap (T.map fun x : Tag × Ev => x.2) i d := by
  have hat := at_part hx ht
  have hgl := h.glue y (List.mem_of_getElem? hy) hg
  obtain ⟨m, f, h1, h2, h3⟩ := h.settled hgl.1 _ _ l k hat.get ha hl
  obtain ⟨n, hn⟩ := exists_at h1
  have hle := (h.view h' hs).le (cap' := cap) (fun _ _ => rfl) h3 hat hn
  obtain ⟨z, hz, hsel, _⟩ := hn
  obtain ⟨hz1, rfl⟩ := sel_some.1 hsel
  have hnd : n < d := by
    rcases Nat.lt_trichotomy n d with hl | hl | hl
    · exact hl
    · subst hl
      rw [hy] at hz; cases hz
      rw [hg] at hz1; cases hz1
    · exact absurd h2 (h.late d n y z hy hz hl hg hz1).1
  exact hle.hb (.order (at_full hz) (at_full hy) hnd (h2.trans hgl.2.1.symm))

theorem conflict_at {a a' : A} {l l' : Loc} {x x' : Kind} (h : Conflict a a') (ha : a.access = some (l, x)) (ha' : a'.access = some (l', x')) :
    l = l' ∧ ¬ (x = .read ∧ x' = .read) := by
  obtain ⟨m, y, z, h1, h2, h3, _⟩ := h
  rw [h1] at ha; rw [h2] at ha'
  cases ha; cases ha'
  exact ⟨rfl, h3⟩

/-- What the goroutine of a parser has done, and what the caller does with the result. -/
theorem Side.before_use {b : Bool} {T : Tagged} {o o' : Prop} (h : Side cap b o T) (h' : Side cap (!b) o' T) (hs : Shape T) {i j : Nat} {x y : Tag × Ev}
    (hx : T[i]? = some x) (hy : T[j]? = some y) (ht : x.1 = .part b ∨ x.1 = .glue b) (hm : y.1 = .main) (hc : Conflict x.2.act y.2.act) :
    i < j ∧ HB cap (T.map fun x : Tag × Ev => x.2) i j := by
  obtain ⟨l, k, k', h1, h2, h3, h4⟩ := id hc
  have hm' := hs.main y (List.mem_of_getElem? hy) hm
  -- the location belongs to the result of the part
  have hlx : (mine b l ∨ (l = .logger ∧ k = .read)) := by
    rcases ht with ht | ht
    · exact (h.own x.2 (List.mem_filterMap.2 ⟨x, List.mem_of_getElem? hx, sel_some.2 ⟨ht, rfl⟩⟩)).1 l k h1
    · obtain ⟨h5, h6⟩ := (h.glue x (List.mem_of_getElem? hx) ht).2.2.1 l k h1
      exact h6.elim (fun h => Or.inr ⟨h, h5⟩) fun h => Or.inl (res_mine h)
  have hly := hm'.2.1 l k' h2
  have hres : res b l ∧ l ≠ .logger := by
    rcases hlx with hlx | ⟨rfl, rfl⟩
    · rcases hly with ⟨rfl, _⟩ | ⟨b', hb'⟩
      · exact (mine_logger hlx).elim
      · by_cases hb : b' = b
        · subst hb; exact ⟨hb', fun h => mine_logger (h ▸ hlx)⟩
        · have : b' = !b := by cases b <;> cases b' <;> simp_all
          subst this
          exact (mine_apart hlx (res_mine hb')).elim
    · rcases hly with ⟨_, rfl⟩ | ⟨b', hb'⟩
      · exact absurd ⟨rfl, rfl⟩ h3
      · exact (mine_logger (res_mine hb')).elim
  obtain ⟨w, hwj, hw, hd⟩ := hs.use j y hy hm ⟨l, k', h2, hres.2⟩
  obtain ⟨d, hdw, hd, hlast⟩ := hd b
  have hdj : HB cap (T.map fun x : Tag × Ev => x.2) d j :=
    .trans (.group (at_full hd) (at_full hw) hdw) (.order (at_full hw) (at_full hy) hwj hm'.1.symm)
  rcases ht with ht | ht
  · rcases Nat.lt_trichotomy i d with hl | hl | hl
    · exact ⟨by omega, .trans (h.before_glue h' hs hx ht hd rfl h1 hres.1) hdj⟩
    · subst hl; rw [hx] at hd; cases hd; cases ht
    · exact absurd hres.1 ((h.late d i _ x hd hx hl rfl ht).2 l k h1)
  · rcases Nat.lt_or_ge i d with hl | hl
    · exact ⟨by omega, .trans (.order (at_full hx) (at_full hd) hl (h.glue x (List.mem_of_getElem? hx) ht).2.1) hdj⟩
    · have : i = d := Nat.le_antisymm (hlast i x hx ht) hl
      subst this
      exact ⟨by omega, hdj⟩

/-- An execution of this shape has no data race. -/
theorem free_of_sides {T : Tagged} {o : Bool → Prop} (h : ∀ b, Side cap b (o b) T) (hs : Shape T) : Free cap (fun _ => True) (T.map fun x : Tag × Ev => x.2) := by
  intro i j e f he hf hij _ _ hne hc
  rw [List.getElem?_map, Option.map_eq_some_iff] at he hf
  obtain ⟨x, hx, rfl⟩ := he
  obtain ⟨y, hy, rfl⟩ := hf
  have hnb : ∀ b, o (!b) = o (!b) := fun _ => rfl
  -- one of the two is of the first events
  by_cases hpx : x.1 = .pro
  · obtain ⟨h1, h2, h3, _⟩ := hs.at_pro hx hpx
    have hi : i = 0 := by
      rcases Nat.eq_zero_or_pos i with h | h
      · exact h
      · obtain ⟨l, k, _, h4, _⟩ := hc
        rw [h3 (by omega)] at h4; cases h4
    subst hi
    cases hty : y.1 with
    | pro => exact absurd (h2.trans (hs.at_pro hy hty).2.1.symm) hne
    | main => exact absurd (h2.trans (hs.main y (List.mem_of_getElem? hy) hty).1.symm) hne
    | part b => exact (h b).early (h (!b)) hs hy (Or.inl hty)
    | glue b => exact (h b).early (h (!b)) hs hy (Or.inr hty)
  by_cases hpy : y.1 = .pro
  · have := hs.not_pro hx hpx
    have := (hs.at_pro hy hpy).1
    omega
  -- what a goroutine of one side accesses
  have hside : ∀ (z : Tag × Ev) (b : Bool), z ∈ T → (z.1 = .part b ∨ z.1 = .glue b) → ∀ l k, z.2.act.access = some (l, k) → mine b l ∨ (l = .logger ∧ k = .read) := by
    intro z b hz ht l k ha
    rcases ht with ht | ht
    · exact ((h b).own z.2 (List.mem_filterMap.2 ⟨z, hz, sel_some.2 ⟨ht, rfl⟩⟩)).1 l k ha
    · obtain ⟨h5, h6⟩ := ((h b).glue z hz ht).2.2.1 l k ha
      exact h6.elim (fun h => Or.inr ⟨h, h5⟩) fun h => Or.inl (res_mine h)
  have htag : ∀ z : Tag × Ev, z.1 ≠ .pro → z.1 = .main ∨ ∃ b, z.1 = .part b ∨ z.1 = .glue b := by
    intro z hz
    cases hzt : z.1 with
    | pro => exact absurd hzt hz
    | main => exact Or.inl rfl
    | part b => exact Or.inr ⟨b, Or.inl rfl⟩
    | glue b => exact Or.inr ⟨b, Or.inr rfl⟩
  have hxm := List.mem_of_getElem? hx
  have hym := List.mem_of_getElem? hy
  rcases htag x hpx with htx | ⟨b, htx⟩
  · rcases htag y hpy with hty | ⟨b, hty⟩
    · exact absurd ((hs.main x hxm htx).1.trans (hs.main y hym hty).1.symm) hne
    · have := ((h b).before_use (h (!b)) hs hy hx hty htx (conflict_symm hc)).1
      omega
  · rcases htag y hpy with hty | ⟨b', hty⟩
    · exact ((h b).before_use (h (!b)) hs hx hy htx hty hc).2
    · obtain ⟨l, k, k', h1, h2, h3, h4⟩ := id hc
      by_cases hb : b' = b
      · subst hb
        have hw : ∀ {z : Tag × Ev}, z ∈ T → z.1 = .glue b' → z.2.who = root b' ∧ ∀ l k, z.2.act.access = some (l, k) → k = .read ∧ (l = .logger ∨ res b' l) :=
          fun hz ht => ⟨((h b').glue _ hz ht).2.1, ((h b').glue _ hz ht).2.2.1⟩
        rcases htx with htx | htx <;> rcases hty with hty | hty
        · have ha := at_part hx htx
          have ha' := at_part hy hty
          exact ((h b').view (h (!b')) hs).hb (cap' := cap) (fun _ _ => rfl) ((h b').free _ _ _ _ ha.get ha'.get (ha.mono ha' hij) trivial trivial hne hc) ha ha'
        · obtain ⟨rfl, hl⟩ := (hw hym hty).2 l k' h2
          rcases hl with rfl | hl
          · rcases hside x b' hxm (Or.inl htx) _ _ h1 with h5 | ⟨_, rfl⟩
            · exact (mine_logger h5).elim
            · exact absurd ⟨rfl, rfl⟩ h3
          · exact (h b').before_glue (h (!b')) hs hx htx hy hty h1 hl
        · obtain ⟨rfl, hl⟩ := (hw hxm htx).2 l k h1
          rcases hl with rfl | hl
          · rcases hside y b' hym (Or.inl hty) _ _ h2 with h5 | ⟨_, rfl⟩
            · exact (mine_logger h5).elim
            · exact absurd ⟨rfl, rfl⟩ h3
          · exact absurd hl (((h b').late i j x y hx hy hij htx hty).2 l k' h2)
        · exact absurd ((hw hxm htx).1.trans (hw hym hty).1.symm) hne
      · have : b' = !b := by cases b <;> cases b' <;> simp_all
        subst this
        rcases hside x b hxm htx l k h1 with h5 | ⟨rfl, rfl⟩
        · rcases hside y _ hym hty l k' h2 with h6 | ⟨rfl, _⟩
          · exact (mine_apart h5 h6).elim
          · exact (mine_logger h5).elim
        · rcases hside y _ hym hty _ k' h2 with h6 | ⟨_, rfl⟩
          · exact (mine_logger h6).elim
          · exact absurd ⟨rfl, rfl⟩ h3

end Verif.Conc.Race.All
