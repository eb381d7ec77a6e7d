import Verif.Conc.RacePipe

/-! A test that finds data races in given executions. It is used for examples of programs that have one. -/

namespace Verif.Conc.Race

variable {G L S : Type} [DecidableEq G] [DecidableEq L] [DecidableEq S]

/-- Does event `i` happen before event `j` by one of the rules of `HB`? -/
def edge (cap : S → Nat) (t : List (Event G L S)) (i j : Nat) : Bool :=
  decide (i < j) &&
  match t[i]?, t[j]? with
  | some e, some f => decide (e.who = f.who) || decide (e.act = .go f.who) ||
    match e.act, f.act with
    | .send c, .recv d => decide (c = d) && decide (sends (t.take i) c = recvs (t.take j) c)
    | .recv c, .send d => decide (c = d) && decide (recvs (t.take i) c + cap c = sends (t.take j) c)
    | .close c, .closed d => decide (c = d)
    | .unlock c, .lock d => decide (c = d)
    | .done c, .wait d => decide (c = d)
    | .atomic c, .atomic d => decide (c = d)
    | _, _ => false
  | _, _ => false

/-- Event `i` and what is found to happen after it. -/
def after (cap : S → Nat) (t : List (Event G L S)) (i : Nat) : List Nat :=
  (List.range t.length).foldl (fun xs j => if xs.any fun k => edge cap t k j then j :: xs else xs) [i]

/-- No rule leads out of the set. -/
def shut (cap : S → Nat) (t : List (Event G L S)) (xs : List Nat) : Bool :=
  xs.all fun i => (List.range t.length).all fun j => !(edge cap t i j) || xs.contains j

theorem lt_of_some {α : Type} {t : List α} {i : Nat} {e : α} (h : t[i]? = some e) : i < t.length := lt_of_get h

theorem hb_shut {cap : S → Nat} {t : List (Event G L S)} {xs : List Nat} (h : shut cap t xs = true) {i j : Nat} (hb : HB cap t i j) : i ∈ xs → j ∈ xs := by
  have key : ∀ {i j : Nat}, j < t.length → edge cap t i j = true → i ∈ xs → j ∈ xs := by
    intro i j hj he hi
    have h1 := List.all_eq_true.1 (List.all_eq_true.1 h i hi) j (List.mem_range.2 hj)
    rw [he] at h1
    simpa using h1
  induction hb with
  | order h1 h2 h3 h4 => exact key (lt_of_get h2) (by simp [edge, h1, h2, h3, h4])
  | go h1 h2 h3 => exact key (lt_of_get h2) (by simp [edge, h1, h2, h3])
  | message h1 h2 h3 h4 => exact key (lt_of_get h2) (by simp [edge, h1, h2, h3, h4])
  | room h1 h2 h3 h4 => exact key (lt_of_get h2) (by simp [edge, h1, h2, h3, h4])
  | closed h1 h2 h3 => exact key (lt_of_get h2) (by simp [edge, h1, h2, h3])
  | mutex h1 h2 h3 => exact key (lt_of_get h2) (by simp [edge, h1, h2, h3])
  | group h1 h2 h3 => exact key (lt_of_get h2) (by simp [edge, h1, h2, h3])
  | atomic h1 h2 h3 => exact key (lt_of_get h2) (by simp [edge, h1, h2, h3])
  | trans _ _ ih1 ih2 => exact fun h => ih2 (ih1 h)

def conflicts (a b : Act G L S) : Bool :=
  match a.access, b.access with
  | some (l, x), some (m, y) => decide (l = m) && !(decide (x = .read) && decide (y = .read)) && !(decide (x = .atomic) && decide (y = .atomic))
  | _, _ => false

/-- Events `i < j` race. -/
def races (cap : S → Nat) (t : List (Event G L S)) (i j : Nat) : Bool :=
  decide (i < j) &&
  match t[i]?, t[j]? with
  | some e, some f => decide (e.who ≠ f.who) && conflicts e.act f.act && shut cap t (after cap t i) && (after cap t i).contains i && !((after cap t i).contains j)
  | _, _ => false

theorem racy_of_races {cap : S → Nat} {t : List (Event G L S)} {i j : Nat} (h : races cap t i j = true) : Racy cap t := by
  unfold races at h
  rw [Bool.and_eq_true] at h
  obtain ⟨h1, h2⟩ := h
  have hij : i < j := by simpa using h1
  split at h2
  · rename_i e f he hf
    simp only [Bool.and_eq_true, decide_eq_true_eq, Bool.not_eq_true', List.contains_iff_mem] at h2
    obtain ⟨⟨⟨⟨g1, g2⟩, g3⟩, g4⟩, g5⟩ := h2
    refine ⟨i, j, e, f, he, hf, by omega, g1, ?_, fun hb => ?_, fun hb => ?_⟩
    · unfold conflicts at g2
      split at g2
      · rename_i l x m y hx hy
        simp only [Bool.and_eq_true, decide_eq_true_eq, Bool.not_eq_true', Bool.and_eq_false_iff, decide_eq_false_iff_not] at g2
        obtain ⟨⟨rfl, g6⟩, g7⟩ := g2
        exact ⟨l, x, y, hx, hy, fun h => g6.elim (· h.1) (· h.2), fun h => g7.elim (· h.1) (· h.2)⟩
      · cases g2
    · have := hb_shut g3 hb g4
      rw [← List.contains_iff_mem, g5] at this
      cases this
    · have := hb.lt
      omega
  · cases h2

end Verif.Conc.Race
