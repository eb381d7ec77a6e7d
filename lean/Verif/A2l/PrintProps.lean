import Verif.A2l.Print

/-!
C70: an object that is written and read again is the object that was written.
-/

namespace Verif.A2l.Props
open Verif.Go Verif.A2l Lang Decl Analysis Template Write

theorem denotes_value {E : Env} {k : Decl.Kind} {t : Str} {v : Val} (h : Denotes E k t v) : v = valueOf k t := by
  cases k with
  | str => exact h
  | uint b => obtain ⟨n, h1, _, rfl⟩ := h; rw [← h1.2.2]; rfl
  | int b =>
    obtain ⟨z, h1, _, _, rfl⟩ := h
    rcases h1 with ⟨n, h, rfl⟩ | ⟨n, t', rfl, h, rfl⟩ | ⟨n, t', rfl, h, rfl⟩
    · rw [← h.2.2]
      unfold valueOf
      split
      · rename_i heq; cases heq
      · rename_i heq; cases heq
      · exact absurd (h.2.1 '-' (List.mem_cons_self ..)) (by unfold IsDigit; decide)
      · exact absurd (h.2.1 '+' (List.mem_cons_self ..)) (by unfold IsDigit; decide)
      · rfl
      all_goals (rename_i heq; cases heq)
    · rw [← h.2.2]; rfl
    · rw [← h.2.2]; rfl
  | float => exact h.2
  | enum e => exact h.2

theorem Words.append {E : Env} {i : Nat} {a b : List Str} (h : Words E i (a ++ b)) :
    Words E i a ∧ Words E (i + a.length) b := by
  refine ⟨fun j w hj => h j w ?_, fun j w hj => ?_⟩
  · rw [List.getElem?_append_left (List.getElem?_eq_some_iff.1 hj).1]; exact hj
  · have := h (a.length + j) w (by rw [List.getElem?_append_right (by omega)]; simpa using hj)
    rw [Nat.add_assoc]; exact this

/-- The mode of field `g`. -/
def modeAt (subs : List (Str × Sub)) (g : String) : Decl.Mode :=
  ((subs.find? (target ·.2 = g)).map (modeOf ·.2)).getD .field

def isByName : Decl.Mode → Bool
  | .byName _ => true
  | _ => false

/-- The fields of parameters, list or text, and optional parts are different ones, and a field keeps all its
parts in the same way. -/
def printOk : Shape → Bool
  | .block _ ps rest subs maps =>
      (subs.all fun s => modeOf s.2 = modeAt subs (target s.2) && !(ps.map (·.field)).contains (target s.2) &&
        restField rest ≠ some (target s.2) && isByName (modeOf s.2) == maps.contains (target s.2)) &&
      maps.all (fun m => !(ps.map (·.field)).contains m && restField rest ≠ some m && subs.any (target ·.2 = m)) &&
      (ps.map (·.field)).all (fun f => restField rest ≠ some f)
  | _ => true

theorem printOk_all (p : PName) (hp : p ∉ irregular) : printOk (shape p) = true := by
  cases p <;> first | exact absurd (by decide) hp | decide +kernel

theorem fold_keep (md : Decl.Mode) (l : List Val) :
    l.foldl (keep md) (if isByName md then .map fun _ => none else .zero) = combine md l := by
  cases md with
  | field =>
    have : ∀ (l : List Val) (v : Val), l.foldl (keep .field) v = l.getLast?.getD v := by
      intro l
      induction l with
      | nil => intro v; rfl
      | cons x l ih =>
        intro v
        rw [List.foldl_cons, ih, List.getLast?_cons]
        cases l.getLast? <;> rfl
    exact this l _
  | append =>
    have : ∀ (l w : List Val), l.foldl (keep .append) (.list w) = .list (w ++ l) := by
      intro l
      induction l with
      | nil => intro w; simp
      | cons x l ih =>
        intro w
        rw [List.foldl_cons, show keep .append (.list w) x = .list (w ++ [x]) from rfl, ih]
        simp
    cases l with
    | nil => rfl
    | cons x l =>
      rw [List.foldl_cons, show keep .append (if isByName .append then .map fun _ => none else .zero) x = .list [x] from rfl, this]
      rfl
  | byName key =>
    have : ∀ (l : List Val) (m : Str → Option Val), l.foldl (keep (.byName key)) (.map m) =
        .map fun name => ((l.filter (·.strField key = name)).getLast?).or (m name) := by
      intro l
      induction l with
      | nil => intro m; simp
      | cons x l ih =>
        intro m
        rw [List.foldl_cons, show keep (.byName key) (.map m) x =
          .map (fun k => if k = x.strField key then some x else m k) from rfl, ih]
        congr 1
        funext name
        by_cases hn : x.strField key = name
        · rw [List.filter_cons_of_pos (by simpa using hn), List.getLast?_cons, if_pos hn.symm]
          cases (l.filter (·.strField key = name)).getLast? <;> simp
        · rw [List.filter_cons_of_neg (by simpa using hn), if_neg (fun h => hn h.symm)]
    show l.foldl (keep (.byName key)) (.map fun _ => none) = _
    rw [this]
    simp only [Option.or_none, combine]

/-- The list or text at the end of a block. -/
def addRest : Rest → Val → List Str → Val
  | _, v, [] => v
  | .none, v, _ => v
  | .list _ _ k, .list l, ms => .list (l ++ ms.map (valueOf k))
  | .list _ _ k, _, ms => .list (ms.map (valueOf k))
  | .text _ _, .str s, ms => .str (s ++ ms.flatMap (' ' :: ·))
  | .text _ _, _, ms => .str (ms.flatMap (' ' :: ·))

theorem addRest_zero (rest : Rest) (ms : List Str) : addRest rest .zero ms = restVal rest ms := by
  cases ms with
  | nil => cases rest <;> rfl
  | cons => cases rest <;> rfl

theorem items_more {E : Env} {R : PName → Nat → Nat → Val → Prop} {raw : Bool} {fin : Str} {ps : List Param}
    {rest : Rest} {subs : List (Str × Sub)} : ∀ (ms : List Str) (i : Nat) (o : Obj), FitsRest E rest ms → Words E i ms →
    (∀ w ∈ ms, Plain raw fin subs w) →
    ∃ N o', Items E R raw fin ps rest subs N ⟨ps.length, o, i⟩ ⟨ps.length, o', i + ms.length⟩ ∧
      (∀ g, restField rest ≠ some g → o' g = o g) ∧ ∀ g, restField rest = some g → o' g = addRest rest (o g) ms
  | [], i, o, _, _, _ => ⟨0, o, .nil, fun _ _ => rfl, fun _ _ => by cases rest <;> rfl⟩
  | w :: ms, i, o, hf, hw, hpl => by
    cases rest with
    | none => cases hf
    | list f fl k =>
      obtain ⟨v, hv⟩ := hf w (List.mem_cons_self ..)
      obtain ⟨N, o', h1, h2, h3⟩ := items_more (R := R) (raw := raw) (fin := fin) (ps := ps) (rest := .list f fl k) (subs := subs)
        ms (i + 1) (o.set f (.list (o.list f ++ [v])))
        (fun x hx => hf x (List.mem_cons_of_mem _ hx)) hw.tail (fun x hx => hpl x (List.mem_cons_of_mem _ hx))
      refine ⟨N + 1, o', .cons (.member rfl rfl (hw 0 w rfl) (hpl w (List.mem_cons_self ..)) hv) ?_, fun g hg => ?_, fun g hg => ?_⟩
      · rw [show i + (w :: ms).length = i + 1 + ms.length by simp; omega]; exact h1
      · rw [h2 g hg]
        exact set_other _ _ (fun hh => hg (by simp [restField, hh]))
      · rw [h3 g hg]
        simp only [restField, Option.some.injEq] at hg
        subst hg
        rw [set_same, denotes_value hv]
        unfold Obj.list
        cases o f <;> cases ms <;> simp [addRest]
    | text f fl =>
      obtain ⟨N, o', h1, h2, h3⟩ := items_more (R := R) (raw := raw) (fin := fin) (ps := ps) (rest := .text f fl) (subs := subs)
        ms (i + 1) (o.set f (.str (o.str f ++ [' '] ++ w)))
        trivial hw.tail (fun x hx => hpl x (List.mem_cons_of_mem _ hx))
      refine ⟨N + 1, o', .cons (.word rfl rfl (hw 0 w rfl) (hpl w (List.mem_cons_self ..))) ?_, fun g hg => ?_, fun g hg => ?_⟩
      · rw [show i + (w :: ms).length = i + 1 + ms.length by simp; omega]; exact h1
      · rw [h2 g hg]
        exact set_other _ _ (fun hh => hg (by simp [restField, hh]))
      · rw [h3 g hg]
        simp only [restField, Option.some.injEq] at hg
        subst hg
        rw [set_same]
        unfold Obj.str
        cases o f <;> cases ms <;> simp [addRest]

/-- The parse function of an object. -/
def fnOf : Node → Option PName
  | .obj _ fn _ _ _ => some fn
  | .choice _ _ => none
  | .given _ fn _ _ => some fn

/-- Wherever the tokens of `n` stand (before a token that ends it, if it has no end of its own), it is read with its value. -/
def ReadBack (E : Env) (n : Node) : Prop :=
  ∀ fn, fnOf n = some fn → ∀ i, E.toks[i]? = some n.key → Words E i n.tail →
    (∀ l, n.stops = some l → ∃ t ∈ l, TokAfter E (i + n.tail.length) t) →
    Returns E fn i (.ok (i + n.tail.length) n.value false)

theorem belonging_cons (subs : List (Str × Sub)) (hk : (subs.map (·.1)).Nodup) {s : Str × Sub} (hs : s ∈ subs) (v : Val)
    (vs : List (Str × Val)) (g : String) :
    belonging subs ((s.1, v) :: vs) g = if target s.2 = g then v :: belonging subs vs g else belonging subs vs g := by
  unfold belonging
  have : (subs.any fun x => x.1 = s.1 && target x.2 = g) = decide (target s.2 = g) := by
    rw [Bool.eq_iff_iff, List.any_eq_true, decide_eq_true_eq]
    constructor
    · rintro ⟨x, hx, h⟩
      simp only [Bool.and_eq_true, decide_eq_true_eq] at h
      obtain rfl : x = s := by
        obtain ⟨a, ha, rfl⟩ := List.mem_iff_getElem.1 hx
        obtain ⟨b, hb, rfl⟩ := List.mem_iff_getElem.1 hs
        have : a = b := (List.getElem?_inj (i := a) (j := b) (by simpa using ha) hk).1
          (by simp [List.getElem?_eq_getElem ha, List.getElem?_eq_getElem hb, h.1])
        subst this; rfl
      exact h.2
    · intro h
      exact ⟨s, hs, by simp [h]⟩
  rw [List.filter_cons]
  simp only [this]
  by_cases h : target s.2 = g
  · simp [h]
  · simp [h]

theorem followed_tail {n : Node} {ns : List Node} {e : Str} (h : followed (n :: ns) e = true) : followed ns e = true := by
  simp only [followed, Bool.and_eq_true] at h
  exact h.2

theorem followed_next {E : Env} {n : Node} {ns : List Node} {e : Str} {i : Nat} (hw : Words E i (written (n :: ns)))
    (h : followed (n :: ns) e = true) (hend : TokAfter E (i + (written (n :: ns)).length) e) :
    ∀ l, n.stops = some l → ∃ t ∈ l, TokAfter E (i + 1 + n.tail.length) t := by
  intro l hl
  rw [written] at hw hend
  simp only [followed, Bool.and_eq_true, hl, List.contains_eq_mem, decide_eq_true_eq] at h
  cases ns with
  | nil =>
    rw [show i + 1 + n.tail.length = i + (n.key :: (n.tail ++ written [])).length by simp [written]; omega]
    exact ⟨e, h.1, hend⟩
  | cons b ns =>
    obtain ⟨_, hw2⟩ := Words.append hw.tail
    rw [written] at hw2
    exact ⟨b.key, h.1, hw2 0 _ rfl⟩

theorem items_nodes {E : Env} {raw : Bool} {fin : Str} {ps : List Param} {rest : Rest} {subs : List (Str × Sub)} {m : Nat} {e : Str}
    (hk : (subs.map (·.1)).Nodup) (hmd : ∀ s ∈ subs, modeOf s.2 = modeAt subs (target s.2)) :
    ∀ (ns : List Node) (i : Nat) (o : Obj), (∀ n ∈ ns, Allowed subs n) → (∀ n ∈ ns, ReadBack E n) → Words E i (written ns) →
    followed ns e = true → TokAfter E (i + (written ns).length) e →
    (∀ s ∈ subs, isByName (modeOf s.2) = true → ∃ mp, o (target s.2) = .map mp) →
    ∃ N o', Items E (Succeeds E) raw fin ps rest subs N ⟨m, o, i⟩ ⟨m, o', i + (written ns).length⟩ ∧
      ∀ g, o' g = (belonging subs (values ns) g).foldl (keep (modeAt subs g)) (o g)
  | [], i, o, _, _, _, _, _, _ => ⟨0, o, .nil, fun _ => rfl⟩
  | n :: ns, i, o, ha, hr, hw, hfo, hend, hmap => by
    have hnext := followed_next hw hfo hend
    rw [written] at hw hend ⊢
    have ht : TokAfter E i n.key := hw 0 _ rfl
    obtain ⟨hw1, hw2⟩ := Words.append hw.tail
    -- one part, then the others
    have step : ∀ (s : Str × Sub) (o1 : Obj), s ∈ subs → s.1 = n.key →
        Item E (Succeeds E) raw fin ps rest subs ⟨m, o, i⟩ ⟨m, o1, i + 1 + n.tail.length⟩ →
        o1 (target s.2) = keep (modeOf s.2) (o (target s.2)) n.value → (∀ g, g ≠ target s.2 → o1 g = o g) →
        ∃ N o', Items E (Succeeds E) raw fin ps rest subs N ⟨m, o, i⟩ ⟨m, o', i + (n.key :: (n.tail ++ written ns)).length⟩ ∧
          ∀ g, o' g = (belonging subs (values (n :: ns)) g).foldl (keep (modeAt subs g)) (o g) := by
      intro s o1 hs hsk hit h1 h2
      obtain ⟨N, o', g1, g2⟩ := items_nodes (raw := raw) (fin := fin) (ps := ps) (rest := rest) (m := m) hk hmd ns
        (i + 1 + n.tail.length) o1 (fun x hx => ha x (List.mem_cons_of_mem _ hx))
        (fun x hx => hr x (List.mem_cons_of_mem _ hx)) hw2 (followed_tail hfo)
        (by rw [show i + 1 + n.tail.length + (written ns).length = i + (n.key :: (n.tail ++ written ns)).length by simp; omega]; exact hend)
        (fun s' hs' hb => by
          obtain ⟨mp, hmp⟩ := hmap s' hs' hb
          by_cases hh : target s'.2 = target s.2
          · rw [hh, h1, hmd s hs, ← hh, ← hmd s' hs', hmp]
            cases hmo : modeOf s'.2 with
            | byName key => exact ⟨_, rfl⟩
            | field => rw [hmo] at hb; cases hb
            | append => rw [hmo] at hb; cases hb
          · rw [h2 _ hh]; exact ⟨mp, hmp⟩)
      refine ⟨N + 1, o', .cons hit ?_, fun g => ?_⟩
      · rw [show i + (n.key :: (n.tail ++ written ns)).length = i + 1 + n.tail.length + (written ns).length by simp; omega]
        exact g1
      · rw [g2, values, ← hsk, belonging_cons subs hk hs]
        by_cases hg : target s.2 = g
        · subst hg
          rw [if_pos rfl, List.foldl_cons, h1, ← hmd s hs]
        · rw [if_neg hg, h2 g (Ne.symm hg)]
    -- an object
    have objStep : ∀ fn f md, fnOf n = some fn → (n.key, Sub.obj fn f md) ∈ subs →
        ∃ N o', Items E (Succeeds E) raw fin ps rest subs N ⟨m, o, i⟩ ⟨m, o', i + (n.key :: (n.tail ++ written ns)).length⟩ ∧
          ∀ g, o' g = (belonging subs (values (n :: ns)) g).foldl (keep (modeAt subs g)) (o g) := by
      intro fn f md hfn hs
      have hret := hr n (List.mem_cons_self ..) fn hfn (i + 1) ht hw1 hnext
      obtain ⟨o1, ho1⟩ : ∃ o1, Keeps o f md n.value o1 := by
        cases md with
        | field => exact ⟨_, rfl⟩
        | append => exact ⟨_, rfl⟩
        | byName key => obtain ⟨mp, hmp⟩ := hmap _ hs rfl; exact ⟨_, mp, hmp, rfl⟩
      exact step (n.key, Sub.obj fn f md) o1 hs rfl (.sub hs ht hret ho1) (keeps_keep ho1) (fun g hg => keeps_other ho1 hg)
    have hall := ha n (List.mem_cons_self ..)
    cases n with
    | obj k fn ws ms parts => obtain ⟨f, md, h⟩ := hall; exact objStep fn f md rfl h
    | given k fn ts v => obtain ⟨f, md, h⟩ := hall; exact objStep fn f md rfl h
    | choice k w =>
      obtain ⟨e, f, c, h1, h2, h3⟩ := hall
      refine step (k, Sub.enum e f) (o.set f (.str w)) h1 rfl ?_ (by rw [Node.value]; exact set_same _ _ _) (fun g hg => set_other _ _ hg)
      have := Item.enum (E := E) (R := Succeeds E) (raw := raw) (fin := fin) (ps := ps) (rest := rest) (m := m) (o := o) (i := i)
        h1 ht (t := w) (c := c) (by rw [if_pos h2]; exact hw1 0 w (by rw [Node.tail]; rfl)) h3
      rw [if_pos h2] at this
      rw [Node.tail]
      exact this

theorem items_trans {E : Env} {R : PName → Nat → Nat → Val → Prop} {raw : Bool} {fin : Str} {ps : List Param}
    {rest : Rest} {subs : List (Str × Sub)} {n m : Nat} {x y z : Decl.Pos} (h : Items E R raw fin ps rest subs n x y)
    (h' : Items E R raw fin ps rest subs m y z) : Items E R raw fin ps rest subs (n + m) x z := by
  induction h with
  | nil => rw [Nat.zero_add]; exact h'
  | @cons n x y w hit _ ih => rw [Nat.add_right_comm]; exact .cons hit (ih h')

/-- A block with all its parameters: everything about the struct that is read. -/
theorem block_exact {E : Env} (hw : Wf E) {p : PName} (hp : p ∉ irregular) {raw : Bool} {ps : List Param} {rest : Rest}
    {subs : List (Str × Sub)} {maps : List String} (hsh : shape p = .block raw ps rest subs maps) {i k j : Nat} {o : Obj}
    (hi : Items E (Succeeds E) raw (fin p) ps rest subs k ⟨0, start maps, i⟩ ⟨ps.length, o, j⟩) (ht : TokAfter E j (fin p)) :
    Returns E p i (.ok (j + 1) (.obj fun g => if g ∈ flags ps rest then .bool true else o g) false) := by
  have hok := shapeOk_all p hp
  rw [hsh] at hok
  obtain ⟨n0, d0, hb⟩ := items_bounds hi
  have hi := hb (n0 + 1 + k) d0 (by omega) (Nat.le_refl _)
  obtain ⟨s0, a1, a2, a3⟩ := exec_block (E := E) (K := run E (n0 + 1 + k) d0) (n := n0 + 1 + k) (raw := raw) hok i
  obtain ⟨s1, b1, b2, b3⟩ := iter_items (n := n0 + 1 + k) hw hok hi a3 a2
  obtain ⟨s2, c1, c2, c3, c4⟩ := round_fin (K := run E (n0 + 1 + k) d0) (n := n0 + 1 + k) (raw := raw) hw hok b1
    (by rw [b2]; exact ht)
  obtain ⟨s3, d1, d2, d3⟩ := round_fin_marks (K := run E (n0 + 1 + k) d0) (n := n0 + 1 + k) (raw := raw) hw hok b1
    (by rw [b2]; exact ht)
  rw [c1] at d1
  cases d1
  refine returns_of_run (n := n0 + 1 + k) (d := d0 + 1) ?_ (by simp)
  rw [run_regular hp, hsh, a1, b3 (n0 + 1), iter, c1]
  simp only [finish, c4, b2, PRes.ok.injEq, Val.obj.injEq, and_true, c2, true_and]
  funext g
  by_cases hg : g ∈ flags ps rest
  · rw [if_pos hg]
    have : s2.obj.flag g = true := by
      rcases List.mem_append.1 hg with h | h
      · obtain ⟨q, hq, rfl⟩ := List.mem_map.1 h
        obtain ⟨a, ha, rfl⟩ := List.mem_iff_getElem.1 hq
        rw [d2 a ha]; simpa using ha
      · exact d3 g h
    unfold Obj.flag at this
    split at this
    · rename_i heq; rw [heq, this]
    · cases this
  · rw [if_neg hg]; exact c3 g hg

theorem fit_vals {E : Env} {ps : List Param} {ws : List Str} (hf : Fits E ps ws) :
    ∀ (j : Nat) (p : Param) (w : Str) (v : Val), ps[j]? = some p → ws[j]? = some w →
      ((ps.zip ws).map fun x => valueOf x.1.kind x.2)[j]? = some v → Denotes E p.kind w v := by
  intro j p w v h1 h2 h3
  obtain ⟨v', hv⟩ := hf.2 j p w h1 h2
  rw [List.getElem?_map, (List.getElem?_zip_eq_some (z := (p, w))).2 ⟨h1, h2⟩] at h3
  cases h3
  show Denotes E p.kind w (valueOf p.kind w)
  rw [← denotes_value hv]; exact hv

theorem fill_find (ps : List Param) (hn : (ps.map (·.field)).Nodup) (ws : List Str) (o : Obj) (g : String)
    (hl : ws.length = ps.length) :
    fill ps ((ps.zip ws).map fun x => valueOf x.1.kind x.2) o g =
      match (ps.zip ws).find? (·.1.field = g) with
      | some (q, w) => valueOf q.kind w
      | none => o g := by
  cases h : (ps.zip ws).find? (·.1.field = g) with
  | some x =>
    obtain ⟨q, w⟩ := x
    have hm := List.mem_of_find?_eq_some h
    have hg := List.find?_some h
    simp only [decide_eq_true_eq] at hg
    obtain ⟨j, hj, he⟩ := List.mem_iff_getElem.1 hm
    have he' : (ps.zip ws)[j]? = some (q, w) := by rw [List.getElem?_eq_getElem hj, he]
    have h1 := List.getElem?_zip_eq_some.1 he'
    subst hg
    exact fill_get ps _ o hn j q _ h1.1 (by rw [List.getElem?_map, he']; rfl)
  | none =>
    refine fill_other _ _ _ _ (fun hh => ?_)
    obtain ⟨q, hq, rfl⟩ := List.mem_map.1 hh
    obtain ⟨j, hj, rfl⟩ := List.mem_iff_getElem.1 hq
    have := List.find?_eq_none.1 h (ps[j], ws[j]) (List.mem_iff_getElem.2 ⟨j, by simp; omega, by simp⟩)
    simp at this

/-- C70: every legal object that is written as tokens is read with exactly its value. -/
theorem legal_read {E : Env} (hw : Wf E) {n : Node} (h : Write.Legal E n) : ReadBack E n := by
  induction h with
  | @keyword k fn f fl hr hs =>
    intro fn' hfn i hk htl _
    cases hfn
    have : Returns E fn i (.ok i (.obj ((Obj.empty.set f (.bool true)).set fl (.bool true))) false) :=
      returns_of_run (n := 0) (d := 1) (by rw [run_regular hr, hs]; rfl) (by simp)
    have hv : Node.value (.obj k fn [] [] []) = .obj ((Obj.empty.set f (.bool true)).set fl (.bool true)) := by
      rw [Node.value, hs]
      congr 1
      funext g
      simp only [struct, Obj.set, Obj.empty]
      by_cases h1 : g = f <;> by_cases h2 : g = fl <;> simp [h1, h2]
    have ht : Node.tail (.obj k fn [] [] []) = [] := by rw [Node.tail]; simp [written, closing, hs]
    rw [hv, ht]
    exact this
  | @flat k fn ps ws hr hs hf hwd =>
    intro fn' hfn i hk htl _
    cases hfn
    have ht : Node.tail (.obj k fn ws [] []) = ws := by
      rw [Node.tail]
      rcases hs with hs | ⟨q, hs, _⟩ <;> simp [written, closing, hs]
    rw [ht] at htl ⊢
    have htext : Text E (fin fn) (shape fn) i (i + ws.length) (fill ps ((ps.zip ws).map fun x => valueOf x.1.kind x.2) Obj.empty) := by
      have hpar := params_words ps ws ((ps.zip ws).map fun x => valueOf x.1.kind x.2) i Obj.empty hf.1
        (by simp [hf.1]) htl hwd (fit_vals hf)
      rcases hs with hs | ⟨q, hs, rfl⟩
      · rw [hs, hf.1]; exact ⟨hpar, rfl⟩
      · rw [hs, hf.1]; exact ⟨hpar, rfl⟩
    obtain ⟨r, h1, h2⟩ := C32_partial hw hr htext
    obtain ⟨r', o', m, e, g1, _, _, g4, _⟩ := C64_marks_partial hw hr h1
    cases e
    have hm : m = (shape fn).params.length := by
      rcases hs with hs | ⟨q, hs, rfl⟩ <;> rw [hs] at g1 ⊢ <;> exact g1.1
    have hv : Node.value (.obj k fn ws [] []) = .obj r := by
      rw [Node.value]
      congr 1
      funext g
      have hpa : (shape fn).params = ps := by rcases hs with hs | ⟨q, hs, rfl⟩ <;> rw [hs] <;> rfl
      have hfl : (shape fn).flags = ps.map (·.flag) := by
        rcases hs with hs | ⟨q, hs, rfl⟩ <;> rw [hs] <;> simp [Shape.flags, flags, Rest.flags]
      have hst : struct (shape fn) ws [] (values []) g = if g ∈ (shape fn).flags then .bool true else
          match ((shape fn).params.zip ws).find? (·.1.field = g) with
          | some (q, w) => valueOf q.kind w
          | none => .zero := by
        rcases hs with hs | ⟨q, hs, rfl⟩ <;> rw [hs] <;> rfl
      rw [hst]
      by_cases hg : g ∈ (shape fn).flags
      · rw [if_pos hg]
        rw [hfl] at hg
        obtain ⟨q, hq, rfl⟩ := List.mem_map.1 hg
        obtain ⟨a, ha, rfl⟩ := List.mem_iff_getElem.1 hq
        have := (g4 a ps[a] (by rw [hpa]; exact List.getElem?_eq_getElem ha)).2 (by rw [hm, hpa]; exact ha)
        unfold Obj.flag at this
        split at this
        · rename_i heq; rw [heq, this]
        · cases this
      · rw [if_neg hg, h2 g hg, fill_find ps (by rw [← hpa]; exact (fields_nodup fn hr).1) ws _ g hf.1, hpa]
        rfl
    rw [hv]
    exact h1
  | @block k fn raw ps rest subs maps ws ms parts hr hs hf hm hpl ha hfo hp ih =>
    intro fn' hfn i hk htl _
    cases hfn
    have hok := shapeOk_all fn hr
    have hpo := printOk_all fn hr
    have hnd := (fields_nodup fn hr).1
    rw [hs] at hok hpo hnd
    simp only [printOk, Bool.and_eq_true, List.all_eq_true, Bool.not_eq_true', List.contains_eq_mem, decide_eq_false_iff_not,
      decide_eq_true_eq, List.any_eq_true, beq_iff_eq] at hpo
    obtain ⟨⟨hsub, hmaps⟩, hrp⟩ := hpo
    have ht : Node.tail (.obj k fn ws ms parts) = ws ++ (ms ++ (written parts ++ [fin fn])) := by
      rw [Node.tail]; simp [closing, hs]
    rw [ht] at htl ⊢
    obtain ⟨w1, htl⟩ := Words.append htl
    obtain ⟨w2, htl⟩ := Words.append htl
    obtain ⟨w3, w4⟩ := Words.append htl
    have i1 := items_words (R := Succeeds E) (raw := raw) (fin := fin fn) (ps := ps) (rest := rest) (subs := subs) ps ws
      ((ps.zip ws).map fun x => valueOf x.1.kind x.2) 0 i (start maps) (by simp) hf.1 (by simp [hf.1]) w1
      (fun w hw' => hpl w (List.mem_append_left _ hw')) (fit_vals hf)
    rw [Nat.zero_add] at i1
    rw [hf.1] at w2 w3 w4
    obtain ⟨N2, o2, i2, e1, e2⟩ := items_more (R := Succeeds E) (raw := raw) (fin := fin fn) (ps := ps) (rest := rest) (subs := subs)
      ms (i + ps.length) (fill ps ((ps.zip ws).map fun x => valueOf x.1.kind x.2) (start maps)) hm w2
      (fun w hw' => hpl w (List.mem_append_right _ hw'))
    have hfs := fill_find ps hnd ws (start maps) (hl := hf.1)
    have hno : ∀ g, g ∉ ps.map (·.field) → (ps.zip ws).find? (·.1.field = g) = none := by
      intro g hg
      refine List.find?_eq_none.2 (fun x hx => ?_)
      simp only [decide_eq_true_eq]
      intro hh
      exact hg (hh ▸ List.mem_map.2 ⟨x.1, (List.of_mem_zip (a := x.1) (b := x.2) hx).1, rfl⟩)
    have hst : ∀ s ∈ subs, o2 (target s.2) = if isByName (modeOf s.2) then .map fun _ => none else .zero := by
      intro s hs'
      obtain ⟨⟨⟨a1, a2⟩, a3⟩, a4⟩ := hsub s hs'
      rw [e1 _ a3, hfs, hno _ a2]
      simp only [start, a4]
      by_cases hh : target s.2 ∈ maps <;> simp [hh]
    obtain ⟨N3, o3, i3, e3⟩ := items_nodes (raw := raw) (fin := fin fn) (ps := ps) (rest := rest) (m := ps.length) hok.keys
      (fun s hs' => (hsub s hs').1.1.1) parts (i + ps.length + ms.length) o2 ha ih w3 hfo
      (w4 0 _ rfl)
      (fun s hs' hb => ⟨_, by rw [hst s hs', if_pos hb]⟩)
    have hret := block_exact hw hr hs (items_trans i1 (items_trans i2 i3)) (w4 0 _ rfl)
    have hlen : i + (ws ++ (ms ++ (written parts ++ [fin fn]))).length = i + ps.length + ms.length + (written parts).length + 1 := by
      simp [hf.1]; omega
    rw [hlen]
    have hv : Node.value (.obj k fn ws ms parts) = .obj fun g => if g ∈ flags ps rest then .bool true else o3 g := by
      rw [Node.value, hs]
      congr 1
      funext g
      simp only [struct, Shape.flags, Shape.params]
      by_cases hg : g ∈ flags ps rest
      · rw [if_pos hg]; exact if_pos hg
      · rw [if_neg hg, e3]
        refine (if_neg hg).trans ?_
        by_cases hgs : ∃ s ∈ subs, target s.2 = g
        · obtain ⟨s, hs', rfl⟩ := hgs
          obtain ⟨⟨⟨a1, a2⟩, a3⟩, a4⟩ := hsub s hs'
          rw [hno _ a2, hst s hs', a1, fold_keep]
          simp only [if_neg a3]
          cases hfd : subs.find? (target ·.2 = target s.2) with
          | none =>
            have := List.find?_eq_none.1 hfd s hs'
            simp at this
          | some s' => simp only [modeAt, hfd]; rfl
        · have hb : belonging subs (values parts) g = [] := by
            unfold belonging
            rw [List.map_eq_nil_iff, List.filter_eq_nil_iff]
            intro y _ hh
            rw [List.any_eq_true] at hh
            obtain ⟨s, hs', h⟩ := hh
            simp only [Bool.and_eq_true, decide_eq_true_eq] at h
            exact hgs ⟨s, hs', h.2⟩
          have hfd : subs.find? (target ·.2 = g) = none := List.find?_eq_none.2 (fun s hs' hh =>
            hgs ⟨s, hs', by simpa using hh⟩)
          have hmp : start maps g = .zero := if_neg (fun hh => by
            obtain ⟨s, hs', h⟩ := (hmaps g hh).2
            exact hgs ⟨s, hs', h⟩)
          rw [hb, List.foldl_nil, hfd]
          by_cases hrf : restField rest = some g
          · rw [e2 g hrf, hfs, if_pos hrf]
            have : g ∉ ps.map (·.field) := fun hh => hrp g hh hrf
            rw [hno g this]
            simp only [hmp, addRest_zero]
          · rw [e1 g hrf, hfs, if_neg hrf, hmp]
            rfl
    rw [hv]
    exact hret
  | choice => intro fn hfn; cases hfn
  | given h =>
    intro fn' hfn i hk htl hah
    cases hfn
    rw [Node.tail] at htl hah ⊢
    rw [Node.value]
    exact h i hk htl hah

end Verif.A2l.Props
