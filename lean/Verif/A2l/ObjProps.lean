import Verif.A2l.ShapeSound
import Verif.A2l.ParseProps

/-!
C31, C32: the parse functions read exactly the texts of the declared objects.
-/

namespace Verif.A2l.Props
open Verif.Go Verif.A2l Lang Decl Analysis Template

/-- The declaration makes sense: markers and fields are different names, and so on. -/
def ShapeOk (fin : Str) : Shape → Prop
  | .keyword f fl => f ≠ fl
  | .one p => kindOk p.kind = true ∧ p.field ≠ p.flag
  | .seq ps => ps ≠ [] ∧ BlockOk ['x'] ps .none [] []
  | .block _ ps rest subs maps => BlockOk fin ps rest subs maps
  | .other => False

instance (fin : Str) (sh : Shape) : Decidable (ShapeOk fin sh) := by
  cases sh <;> unfold ShapeOk <;> infer_instance

theorem shapeOk_all (p : PName) (hp : p ∉ irregular) : ShapeOk (fin p) (shape p) := by
  cases p <;> first | exact absurd (by decide) hp | decide +kernel

theorem Items.map {E : Env} {R R' : PName → Nat → Nat → Val → Prop} (h : ∀ q i j v, R q i j v → R' q i j v)
    {raw : Bool} {fin : Str} {ps : List Param} {rest : Rest} {subs : List (Str × Sub)} {k : Nat} {x z : Decl.Pos}
    (hi : Items E R raw fin ps rest subs k x z) : Items E R' raw fin ps rest subs k x z := by
  induction hi with
  | nil => exact .nil
  | cons hit _ ih =>
    refine .cons ?_ ih
    cases hit with
    | param a b c d => exact .param a b c d
    | member a b c d e => exact .member a b c d e
    | word a b c d => exact .word a b c d
    | surplus a b c d => exact .surplus a b c d
    | sub a b c d => exact .sub a b (h _ _ _ _ c) d
    | enum a b c d => exact .enum a b c d

/-- Sub-objects that are read are read within common bounds. -/
theorem items_bounds {E : Env} {raw : Bool} {fin : Str} {ps : List Param} {rest : Rest} {subs : List (Str × Sub)}
    {k : Nat} {x z : Decl.Pos} (hi : Items E (Succeeds E) raw fin ps rest subs k x z) :
    ∃ n₀ d₀, ∀ n d, n₀ ≤ n → d₀ ≤ d → Items E (Suc (run E n d)) raw fin ps rest subs k x z := by
  induction hi with
  | nil => exact ⟨0, 0, fun _ _ _ _ => .nil⟩
  | cons hit _ ih =>
    obtain ⟨n1, d1, h1⟩ := ih
    cases hit with
    | param a b c d => exact ⟨n1, d1, fun n d' hn hd => .cons (.param a b c d) (h1 n d' hn hd)⟩
    | member a b c d e => exact ⟨n1, d1, fun n d' hn hd => .cons (.member a b c d e) (h1 n d' hn hd)⟩
    | word a b c d => exact ⟨n1, d1, fun n d' hn hd => .cons (.word a b c d) (h1 n d' hn hd)⟩
    | surplus a b c d => exact ⟨n1, d1, fun n d' hn hd => .cons (.surplus a b c d) (h1 n d' hn hd)⟩
    | sub a b c d =>
      obtain ⟨_, n2, d2, h2⟩ := c
      exact ⟨max n1 n2, max d1 d2, fun n d' hn hd =>
        .cons (.sub a b (h2 n d' (by omega) (by omega)) d) (h1 n d' (by omega) (by omega))⟩
    | enum a b c d => exact ⟨n1, d1, fun n d' hn hd => .cons (.enum a b c d) (h1 n d' hn hd)⟩

theorem not_mt {p : PName} (hp : p ∉ irregular) : p ≠ .parseModuleMultithreaded := by
  rintro rfl; exact hp (by decide)

theorem run_regular {E : Env} {n d i : Nat} {p : PName} (hp : p ∉ irregular) : run E n (d + 1) p i =
    finish (exec E (run E n d) n (template (fin p) (shape p)) (St.init i)) := by
  rw [run, if_neg (not_mt hp), body_eq p hp]

/-- Whatever a regular parse function accepts is a text of the declared shape, and the values
are those of the text. -/
theorem accepts_only_text {E : Env} (hw : Wf E) {p : PName} (hp : p ∉ irregular) {i i' : Nat} {v : Val}
    (h : Returns E p i (.ok i' v false)) :
    ∃ o o', v = .obj o' ∧ Text E (fin p) (shape p) i i' o ∧ SameValues (shape p).flags o' o := by
  obtain ⟨_, n, d, h⟩ := h
  have h := h n (d + 1) (Nat.le_refl _) (by omega)
  rw [run_regular hp] at h
  have hok := shapeOk_all p hp
  revert h hok
  cases shape p with
  | keyword f fl =>
    intro h hok
    simp only [template, exec_blk_one] at h
    have h' : PRes.ok i (.obj ((Obj.empty.set f (.bool true)).set fl (.bool true))) false = .ok i' v false := h
    simp only [PRes.ok.injEq, and_true] at h'
    obtain ⟨rfl, rfl⟩ := h'
    refine ⟨Obj.empty.set f (.bool true), _, rfl, ⟨rfl, rfl⟩, fun g hg => ?_⟩
    exact set_other _ _ (fun hh => hg (by simp [Shape.flags, hh]))
  | one q =>
    intro h hok
    rcases one_cases (K := run E n d) (n := n) (fin := fin p) hw hok.1 i with
      ⟨s, w, h1, h2, h3, h4, h5, h6, h7, h8⟩ | ⟨⟨s, h1, h2⟩, _⟩
    · rw [h1] at h
      simp only [finish, PRes.ok.injEq] at h
      obtain ⟨rfl, rfl, _⟩ := h
      refine ⟨Obj.empty.set q.field w, s.obj, rfl, ⟨.cons h5 h6 h7 h8 .nil, h3⟩, fun g hg => ?_⟩
      rw [h4]
      exact set_other _ _ (fun hh => hg (by simp [Shape.flags, hh]))
    · rw [h1] at h
      simp only [finish, PRes.ok.injEq] at h
      rw [h2] at h; simp at h
  | seq ps =>
    intro h hok
    have he : exec E (run E n d) n (template (fin p) (.seq ps)) (St.init i) =
        iter (exec E (run E n d) n (seqRound ps)) n (St.init i) := exec_blk_one _ _
    rw [he] at h
    cases hr : iter (exec E (run E n d) n (seqRound ps)) n (St.init i) with
    | ok s c =>
      rw [hr] at h
      simp only [finish, PRes.ok.injEq] at h
      obtain ⟨rfl, rfl, h3⟩ := h
      obtain ⟨o', g1, g2, g3⟩ := seq_sound (m := 0) hw hok.2 (List.length_pos_iff.2 hok.1)
        (inv_start hok.2 (s := St.init i) (fun f => by simp [St.init, Obj.empty]) rfl) hr h3
      refine ⟨o', s.obj, rfl, ⟨?_, by rw [g2]; rfl⟩, g3⟩
      have : start [] = Obj.empty := by funext f; simp [start, Obj.empty]
      rw [this] at g1
      exact g1
    | panic => rw [hr] at h; simp [finish] at h
    | timeout => rw [hr] at h; simp [finish] at h
  | block raw ps rest subs maps =>
    intro h hok
    obtain ⟨s0, h1, h2, h3⟩ := exec_block (E := E) (K := run E n d) (n := n) (raw := raw) hok i
    rw [h1] at h
    cases hr : iter (exec E (run E n d) n (round raw (fin p) ps rest subs)) n s0 with
    | ok s c =>
      rw [hr] at h
      simp only [finish, PRes.ok.injEq] at h
      obtain ⟨rfl, rfl, h5⟩ := h
      obtain ⟨k, m', o', j, g1, g2, g3, g4⟩ := iter_success hw hok h3 hr h5
      rw [h2] at g1
      refine ⟨o', s.obj, rfl, ⟨k, m', j, Items.map (fun q a b w hh => returns_of_run (r := .ok b w false) hh (by simp)) g1, g2, g3⟩, g4⟩
    | panic => rw [hr] at h; simp [finish] at h
    | timeout => rw [hr] at h; simp [finish] at h
  | other => intro _ hok; exact hok.elim

/-- Every text of the declared shape is accepted by a regular parse function, with the values
of the text. -/
theorem accepts_all_text {E : Env} (hw : Wf E) {p : PName} (hp : p ∉ irregular) {i i' : Nat} {o : Obj}
    (h : Text E (fin p) (shape p) i i' o) :
    ∃ o', Returns E p i (.ok i' (.obj o') false) ∧ SameValues (shape p).flags o' o := by
  have hok := shapeOk_all p hp
  have hrun : ∀ n d o', finish (exec E (run E n d) n (template (fin p) (shape p)) (St.init i)) =
      .ok i' (.obj o') false → Returns E p i (.ok i' (.obj o') false) :=
    fun n d o' hh => returns_of_run (n := n) (d := d + 1) (by rw [run_regular hp]; exact hh) (by simp)
  revert h hok hrun
  cases shape p with
  | keyword f fl =>
    rintro ⟨rfl, rfl⟩ hok hrun
    exact ⟨_, hrun 0 0 _ rfl, fun g hg => set_other _ _ (fun hh => hg (by simp [Shape.flags, hh]))⟩
  | one q =>
    rintro ⟨h, rfl⟩ hok hrun
    cases h with
    | cons ht hne hkw hv h =>
      cases h
      rename_i t w
      rcases one_cases (K := run E 0 0) (n := 0) (fin := fin p) hw hok.1 i with
        ⟨s, w', h1, h2, h3, h4, h5, h6, h7, h8⟩ | ⟨_, h1⟩
      · obtain ⟨_, rfl⟩ := tokAt_of ht
        have hw' : w' = w := by
          revert h8 hv
          cases q.kind with
          | str => intro a b; exact a.trans b.symm
          | uint b =>
            rintro ⟨x, a1, a2, rfl⟩ ⟨y, b1, b2, rfl⟩
            rw [a1.unique b1]
          | int b =>
            rintro ⟨x, a1, a2, a3, rfl⟩ ⟨y, b1, b2, b3, rfl⟩
            have e1 := (parseInt_ok _ b x).2 ⟨a1, a2, a3⟩
            rw [(parseInt_ok _ b y).2 ⟨b1, b2, b3⟩] at e1
            simp only [Prod.mk.injEq, and_true] at e1
            rw [e1]
          | float => rintro ⟨_, rfl⟩ ⟨_, rfl⟩; rfl
          | enum e => rintro ⟨_, rfl⟩ ⟨_, rfl⟩; rfl
        subst hw'
        refine ⟨s.obj, hrun 0 0 _ (by rw [h1]; simp only [finish, h2, h3]), fun g hg => ?_⟩
        rw [h4]
        exact set_other _ _ (fun hh => hg (by simp [Shape.flags, hh]))
      · exact absurd ⟨t, w, ht, hne, hkw, hv⟩ h1
  | seq ps =>
    rintro ⟨h, rfl⟩ hok hrun
    have hl := List.length_pos_iff.2 hok.1
    have hs0 : start [] = Obj.empty := by funext f; simp [start, Obj.empty]
    obtain ⟨s', g1, g2, g3, g4⟩ := seq_complete (K := run E ps.length 0) (n := ps.length) hw hok.2 (ps.length - 1)
      (m := 0) (s := St.init i) (by omega) (inv_start hok.2 (fun f => by simp [St.init, Obj.empty]) rfl)
      (by rw [hs0]; exact h) ps.length (by omega)
    have he : exec E (run E ps.length 0) ps.length (template (fin p) (.seq ps)) (St.init i) =
        iter (exec E (run E ps.length 0) ps.length (seqRound ps)) ps.length (St.init i) := exec_blk_one _ _
    refine ⟨s'.obj, hrun ps.length 0 _ ?_, g4⟩
    rw [he, g1]
    simp only [finish, g2, g3, PRes.ok.injEq, and_true, true_and]
    show i + _ = _
    omega
  | block raw ps rest subs maps =>
    rintro ⟨k, m, j, h1, h2, rfl⟩ hok hrun
    obtain ⟨n0, d0, hb⟩ := items_bounds h1
    have hi := hb (n0 + 1 + k) d0 (by omega) (Nat.le_refl _)
    obtain ⟨s0, a1, a2, a3⟩ := exec_block (E := E) (K := run E (n0 + 1 + k) d0) (n := n0 + 1 + k) (raw := raw) hok i
    obtain ⟨s1, b1, b2, b3⟩ := iter_items (n := n0 + 1 + k) hw hok hi a3 a2
    obtain ⟨s2, c1, c2, c3, c4⟩ := round_fin (K := run E (n0 + 1 + k) d0) (n := n0 + 1 + k) (raw := raw) hw hok b1
      (by rw [b2]; exact h2)
    refine ⟨s2.obj, hrun (n0 + 1 + k) d0 _ ?_, c3⟩
    rw [a1, b3 (n0 + 1), iter, c1]
    simp only [finish, c2, c4, b2]
  | other => intro _ hok; exact hok.elim

/-- A keyword that is not allowed, after any number of items of a block: error. -/
theorem rejects_keyword {E : Env} (hw : Wf E) {p : PName} (hp : p ∉ irregular) {ps : List Param} {rest : Rest}
    {subs : List (Str × Sub)} {maps : List String} (hsh : shape p = .block false ps rest subs maps) {i : Nat}
    {k m j : Nat} {o : Obj} (hi : Items E (Succeeds E) false (fin p) ps rest subs k ⟨0, start maps, i⟩ ⟨m, o, j⟩)
    {t : Str} (ht : TokAfter E j t) (h1 : t ∈ keywords) (h2 : t ≠ fin p) (h3 : t ∉ subs.map (·.1)) :
    ∃ i' v, Returns E p i (.ok i' v true) := by
  have hok := shapeOk_all p hp
  rw [hsh] at hok
  obtain ⟨n0, d0, hb⟩ := items_bounds hi
  have hi := hb (n0 + 1 + k) d0 (by omega) (Nat.le_refl _)
  obtain ⟨s0, a1, a2, a3⟩ := exec_block (E := E) (K := run E (n0 + 1 + k) d0) (n := n0 + 1 + k) (raw := false) hok i
  obtain ⟨s1, b1, b2, b3⟩ := iter_items (n := n0 + 1 + k) hw hok hi a3 a2
  obtain ⟨s2, c1, c2⟩ := round_kw (K := run E (n0 + 1 + k) d0) (n := n0 + 1 + k) (ps := ps) (rest := rest) hw
    (by rw [b2]; exact ht) h1 h2 h3
  refine ⟨s2.idx, .obj s2.obj, returns_of_run (n := n0 + 1 + k) (d := d0 + 1) ?_ (by simp)⟩
  rw [run_regular hp, hsh, a1, b3 (n0 + 1), iter, c1]
  simp only [finish, c2]

end Verif.A2l.Props
