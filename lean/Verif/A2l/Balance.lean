import Verif.A2l.PartsRest
import Verif.A2l.ModFile

/-!
C116: in an accepted object every `/begin X` has its `/end X`. So a project in which the closing word of one object was lost, or an opening
one is there once too often, is never accepted as it stands.
-/

namespace Verif.A2l.Balance
open Verif.Go Verif.A2l Lang Decl Analysis Template Loose

/-- How often the word `w` occurs among the tokens after position `i` up to position `j`. -/
def times (E : Env) (w : Str) (i j : Nat) : Nat := ((E.toks.drop (i + 1)).take (j - i)).count w

/-- The words that open and close an `X`. -/
def opening (X : Str) : Str := (str! "/begin ") ++ X
def closing (X : Str) : Str := (str! "/end ") ++ X

/-- The content of the block is of another language (A2ML, IF_DATA). -/
def foreign : Shape → Bool
  | .block r _ _ _ _ => r
  | _ => false

/-- The irregular blocks whose further words are no keywords either. -/
def calm : List Irr := [blob, measurement, typeDefMeasurement, memoryLayout, memorySegment, overwrite, project, unit, variantCoding]

theorem calm_irrs : ∀ B ∈ calm, B ∈ irrs := by
  intro B hB
  simp only [calm, irrs, List.mem_cons, List.not_mem_nil, or_false] at hB ⊢
  rcases hB with rfl | rfl | rfl | rfl | rfl | rfl | rfl | rfl | rfl <;> simp

/-- Irregular objects without an end: a few words, none of them a keyword. -/
def brief : List PName := [.parseMatrixDim, .parseNoRescaleX, .parseGuardRails, .parseSymbolTypeLink, .parseFrameMeasurement]

/-- The functions of which C116 is proved: the regular ones (`irregular` lists the others) without foreign content, and fifteen of the irregular
ones, MEASUREMENT, UNIT, COMPU_TAB and PROJECT among them. -/
def covered (p : PName) : Bool :=
  (!(irregular.contains p) && !foreign (shape p)) || (calm.map (·.p)).contains p || brief.contains p || p == .parseCompuTab

/-- The first words of the objects that are not covered. -/
def uncovered : List Str := [(str! "/begin A2ML"), (str! "/begin IF_DATA"), (str! "/begin BIT_OPERATION"), (str! "/begin FRAME"),
  (str! "/begin COMPU_VTAB"), (str! "/begin COMPU_VTAB_RANGE"), (str! "/begin VAR_FORBIDDEN_COMB")]

/-- The end of the file and the keywords are no numbers (`strconv.ParseFloat` fails on them). -/
def NoNumbers (E : Env) : Prop := E.floatOk [] = false ∧ ∀ t ∈ keywords, E.floatOk t = false

/-- None of the words after position `i` up to position `j` begins an object that is not covered. -/
def Clear (E : Env) (i j : Nat) : Prop := ∀ z t, i < z → z ≤ j → E.toks[z]? = some t → t ∉ uncovered

/-- `w` is no opening and no closing word. -/
def neither (w : Str) : Bool := !((str! "/begin ").isPrefixOf w) && !((str! "/end ").isPrefixOf w)

/-- `k` opens what `q` reads. -/
def fits (k : Str) (q : PName) : Bool :=
  if (str! "/end ").isPrefixOf (fin q) then k == opening ((fin q).drop 5) else neither k

def subFits (k : Str) (q : PName) : Bool := q != .parseModuleMultithreaded && (if covered q then fits k q else uncovered.contains k)

def shapeFits : Shape → Bool
  | .block _ _ _ subs _ => subs.all fun x => match x.2 with
    | .obj q _ _ => subFits x.1 q
    | .enum e _ => neither x.1 && e.table.all fun y => neither y.1
  | _ => true

def regFits (p : PName) : Bool := irregular.contains p || foreign (shape p) ||
  (shapeFits (shape p) && (match shape p with
    | .block .. => !((str! "/begin ").isPrefixOf (fin p))
    | _ => !((str! "/end ").isPrefixOf (fin p))))

def xFits (k : Str) : XSub → Bool
  | .obj q _ _ => subFits k q
  | .word _ => neither k
  | .enumNext e _ => neither k && e.table.all fun y => neither y.1
  | .enumHere _ _ _ => neither k
  | .module _ => subFits k .parseModule

def irrFits (B : Irr) : Bool := (B.fin == fin B.p) && !((str! "/begin ").isPrefixOf B.fin) && B.subs.all fun x => xFits x.1 x.2

set_option maxRecDepth 20000 in
theorem regFits_all (p : PName) : regFits p = true := by
  have : (PName.all.all regFits) = true := by decide +kernel
  exact List.all_eq_true.1 this p (by cases p <;> decide +kernel)

theorem irrFits_all : ∀ B ∈ calm, irrFits B = true := by
  have : calm.all irrFits = true := by decide +kernel
  exact fun B hB => List.all_eq_true.1 this B hB

theorem times_self (E : Env) (w : Str) (i : Nat) : times E w i i = 0 := by simp [times]

theorem times_trans {E : Env} (w : Str) {i j k : Nat} (h1 : i ≤ j) (h2 : j ≤ k) : times E w i k = times E w i j + times E w j k := by
  unfold times
  rw [show k - i = (j - i) + (k - j) by omega, List.take_add, List.count_append, List.drop_drop, show i + 1 + (j - i) = j + 1 by omega]

theorem times_tok {E : Env} (w : Str) {i : Nat} {t : Str} (h : TokAfter E i t) : times E w i (i + 1) = if t = w then 1 else 0 := by
  unfold times
  unfold TokAfter at h
  obtain ⟨hl, hg⟩ := List.getElem?_eq_some_iff.1 h
  rw [show i + 1 - i = 1 by omega, List.drop_eq_getElem_cons hl, List.take_succ_cons, List.take_zero, hg, List.count_cons, List.count_nil]
  by_cases e : t = w <;> simp [e]

/-- `1` if what `p` reads is closed by `/end X`. -/
def own (p : PName) (X : Str) : Nat := if fin p = closing X then 1 else 0

/-- The word is no opening and no closing word of an `X`. -/
def Plain' (X t : Str) : Prop := t ≠ opening X ∧ t ≠ closing X

theorem plain_neither {X t : Str} (h : neither t = true) : Plain' X t := by
  constructor <;> rintro rfl <;> simp [neither, opening, closing, List.isPrefixOf] at h

/-- A stretch of tokens in which the opening and closing words balance. `J`: how far the claim is known of the objects in it. -/
def Seg (E : Env) (X : Str) (J i j : Nat) : Prop :=
  i ≤ j ∧ (j ≤ J → Clear E i j → times E (opening X) i j = times E (closing X) i j)

theorem Seg.refl (E : Env) (X : Str) (J i : Nat) : Seg E X J i i := ⟨Nat.le_refl _, fun _ _ => by rw [times_self, times_self]⟩

theorem Seg.trans {E : Env} {X : Str} {J i j k : Nat} (h1 : Seg E X J i j) (h2 : Seg E X J j k) : Seg E X J i k := by
  obtain ⟨a1, a2⟩ := h1
  obtain ⟨b1, b2⟩ := h2
  refine ⟨by omega, fun hJ hc => ?_⟩
  rw [times_trans _ a1 b1, times_trans _ a1 b1, a2 (by omega) fun z t z1 z2 => hc z t z1 (by omega),
    b2 hJ fun z t z1 z2 => hc z t (by omega) z2]

theorem Seg.tok {E : Env} {X : Str} {J i : Nat} {t : Str} (h : TokAfter E i t) (hp : Plain' X t) : Seg E X J i (i + 1) :=
  ⟨by omega, fun _ _ => by rw [times_tok _ h, times_tok _ h, if_neg hp.1, if_neg hp.2]⟩

/-- The claim for the objects that end before position `J`. -/
def Known (E : Env) (X : Str) (J : Nat) : Prop := ∀ q i j v, covered q = true → j ≤ J → i ≤ j → Succeeds E q i j v → Clear E i j →
  times E (opening X) i j + own q X = times E (closing X) i j

theorem Seg.sub {E : Env} {X : Str} {J i j : Nat} {k : Str} {q : PName} {v : Val} (hw : Wf E) (hmt : Props.MtGood E) (H : Known E X J)
    (hk : subFits k q = true) (ht : TokAfter E i k) (h : Succeeds E q (i + 1) j v) : Seg E X J i j := by
  simp only [subFits, Bool.and_eq_true, bne_iff_ne, ne_eq] at hk
  have hle := Props.succeeds_le hw hmt (fun e => absurd e hk.1) ht h
  refine ⟨by omega, fun hJ hc => ?_⟩
  have hf := hk.2
  split at hf
  · rename_i hcov
    have h0 := H q (i + 1) j v hcov hJ hle h fun z t z1 z2 => hc z t (by omega) z2
    rw [times_trans _ (show i ≤ i + 1 by omega) hle, times_trans _ (show i ≤ i + 1 by omega) hle, times_tok _ ht, times_tok _ ht]
    unfold fits at hf
    split at hf
    · rename_i hpre
      obtain ⟨Y, hY⟩ := List.isPrefixOf_iff_prefix.1 hpre
      have hd : (fin q).drop 5 = Y := by rw [← hY]; rfl
      rw [beq_iff_eq, hd] at hf
      have e1 : own q X = if k = opening X then 1 else 0 := by
        unfold own
        rw [← hY, hf]
        simp [opening, closing]
      have e2 : k ≠ closing X := by rw [hf]; simp [opening, closing]
      rw [if_neg e2, ← e1]
      omega
    · rename_i hpre
      have hp := plain_neither (X := X) hf
      have e1 : own q X = 0 := by
        unfold own
        rw [if_neg]
        intro e
        exact hpre (List.isPrefixOf_iff_prefix.2 ⟨X, e.symm⟩)
      rw [if_neg hp.1, if_neg hp.2]
      omega
  · exact absurd (by simpa using hf) (hc (i + 1) k (by omega) hle ht)

theorem plain_word {X t : Str} (hX : opening X ∈ keywords ∧ closing X ∈ keywords) (h : t ∉ keywords) : Plain' X t :=
  ⟨fun e => h (e ▸ hX.1), fun e => h (e ▸ hX.2)⟩

theorem items_seg {E : Env} {X : Str} {J : Nat} (hw : Wf E) (hmt : Props.MtGood E) (H : Known E X J)
    (hX : opening X ∈ keywords ∧ closing X ∈ keywords) {f : Str} {ps : List Param} {rest : Rest} {subs : List (Str × Sub)}
    {maps : List String} (hok : shapeFits (.block false ps rest subs maps) = true) {n : Nat} {x z : Decl.Pos}
    (h : Decl.Items E (Succeeds E) false f ps rest subs n x z) : Seg E X J x.i z.i := by
  simp only [shapeFits, List.all_eq_true] at hok
  induction h with
  | nil => exact Seg.refl _ _ _ _
  | cons hi _ ih =>
    refine Seg.trans ?_ ih
    have word : ∀ {t : Str}, Plain false f subs t → Plain' X t := fun hp => plain_word hX (by simpa using hp.2.2.2)
    cases hi with
    | param _ ht hp _ => exact Seg.tok ht (word hp)
    | member _ _ ht hp _ => exact Seg.tok ht (word hp)
    | word _ _ ht hp => exact Seg.tok ht (word hp)
    | surplus _ _ ht hp => exact Seg.tok ht (word hp)
    | sub hs ht hR _ => exact Seg.sub hw hmt H (hok _ hs) ht hR
    | @enum m o i k e g t c hs ht ht' hc =>
      have := hok _ hs
      simp only [Bool.and_eq_true, List.all_eq_true] at this
      show Seg E X J i (if e.usesNext then i + 2 else i + 1)
      split at ht'
      · rename_i hu
        rw [if_pos hu]
        exact Seg.trans (Seg.tok ht (plain_neither this.1)) (Seg.tok ht' (plain_neither (this.2 _ hc)))
      · rename_i hu
        rw [if_neg hu]
        exact Seg.tok ht (plain_neither this.1)

theorem params_seg {E : Env} {X : Str} {J : Nat} (hX : opening X ∈ keywords ∧ closing X ∈ keywords) {i : Nat} {ps : List Param}
    {o o' : Obj} (h : Params E i ps o o') : Seg E X J i (i + ps.length) := by
  induction h with
  | nil => exact Seg.refl _ _ _ _
  | @cons i o o' t v p ps ht _ hkw _ _ ih =>
    have := Seg.trans (Seg.tok (J := J) ht (plain_word hX hkw)) ih
    rwa [show i + 1 + ps.length = i + (p :: ps).length by simp; omega] at this

theorem rest_seg {E : Env} {X : Str} {J : Nat} (hw : Wf E) (hX : opening X ∈ keywords ∧ closing X ∈ keywords) {B : Irr} (hB : B ∈ calm)
    {t : Str} {o : Obj} {i : Nat} {o' : Obj} {j : Nat} (h : B.rest E (Succeeds E) t o i o' j) : Seg E X J i j := by
  simp only [calm, List.mem_cons, List.not_mem_nil, or_false] at hB
  rcases hB with rfl | rfl | rfl | rfl | rfl | rfl | rfl | rfl | rfl
  · obtain ⟨rfl, rfl⟩ := h; exact Seg.refl _ _ _ _
  · obtain ⟨rfl, rfl⟩ := h; exact Seg.refl _ _ _ _
  · obtain ⟨rfl, rfl⟩ := h; exact Seg.refl _ _ _ _
  · obtain ⟨rfl, h⟩ := h; exact Seg.refl _ _ _ _
  · obtain ⟨rfl, h⟩ := h; exact Seg.refl _ _ _ _
  · obtain ⟨rfl, rfl⟩ := h; exact Seg.refl _ _ _ _
  · obtain ⟨rfl, rfl⟩ := h; exact Seg.refl _ _ _ _
  · obtain ⟨rfl, rfl⟩ := h; exact Seg.refl _ _ _ _
  · simp only [Loose.variantCoding] at h
    split at h
    · obtain ⟨rfl, rfl⟩ := h; exact Seg.refl _ _ _ _
    · obtain ⟨v, hv, rfl⟩ := h
      obtain ⟨o₁, _, _, ht, _⟩ := Props.C32_only_partial hw (p := .parseVarSeparator) (by decide) hv
      obtain ⟨hp, rfl⟩ : Params E i [⟨"separator", "separatorSet", .str⟩] Obj.empty o₁ ∧ j = i + 1 := ht
      exact params_seg hX hp

theorem loose_seg {E : Env} {X : Str} {J : Nat} (hw : Wf E) (hmt : Props.MtGood E) (hm : E.multi = false) (H : Known E X J)
    (hX : opening X ∈ keywords ∧ closing X ∈ keywords) {B : Irr} (hB : B ∈ calm) {n : Nat} {x z : Decl.Pos}
    (h : Loose.Items E (Succeeds E) B.fin (B.spec E) n x z) : Seg E X J x.i z.i := by
  have hok := irrFits_all B hB
  simp only [irrFits, Bool.and_eq_true, List.all_eq_true] at hok
  induction h with
  | nil => exact Seg.refl _ _ _ _
  | cons hi _ ih =>
    refine Seg.trans ?_ ih
    cases hi with
    | param _ ht _ _ _ hkw _ => exact Seg.tok ht (plain_word hX hkw)
    | rest _ ht _ _ _ hkw h => exact Seg.trans (Seg.tok ht (plain_word hX hkw)) (rest_seg hw hX hB h)
    | @sub m o o' i j t hs ht h =>
      obtain ⟨y, hy, hmean⟩ := h
      have hf := hok.2 _ hy
      show Seg E X J i j
      cases y with
      | obj q f md =>
        obtain ⟨v, hv, _⟩ := hmean
        exact Seg.sub hw hmt H hf ht hv
      | module f =>
        obtain ⟨v, hv, _⟩ := hmean
        rw [hm] at hv
        exact Seg.sub hw hmt H hf ht hv
      | word f =>
        obtain ⟨rfl, _⟩ := hmean
        exact Seg.tok ht (plain_neither hf)
      | enumNext e f =>
        obtain ⟨u, v, hu, hd, rfl, _⟩ := hmean
        simp only [xFits, Bool.and_eq_true, List.all_eq_true] at hf
        obtain ⟨⟨c, hc⟩, _⟩ := hd
        exact Seg.trans (Seg.tok ht (plain_neither hf.1)) (Seg.tok hu (plain_neither (hf.2 _ hc)))
      | enumHere e f fl =>
        obtain ⟨v, _, rfl, _⟩ := hmean
        exact Seg.tok ht (plain_neither hf)

theorem words_seg {E : Env} {X : Str} {J : Nat} (hX : opening X ∈ keywords ∧ closing X ∈ keywords) : ∀ {ws : List Str} {i : Nat},
    Props.Words E i ws → (∀ w ∈ ws, w ∉ keywords) → Seg E X J i (i + ws.length) := by
  intro ws
  induction ws with
  | nil => intro i _ _; exact Seg.refl _ _ _ _
  | cons w ws ih =>
    intro i h hk
    have g1 : TokAfter E i w := h 0 w rfl
    have g2 : Props.Words E (i + 1) ws := fun j t hj => by
      have := h (j + 1) t (by simpa using hj)
      rwa [show i + (j + 1) = i + 1 + j by omega] at this
    have := Seg.trans (Seg.tok (J := J) g1 (plain_word hX (hk w (by simp)))) (ih g2 fun u hu => hk u (by simp [hu]))
    rwa [show i + 1 + ws.length = i + (w :: ws).length by simp; omega] at this

theorem guard_rails_only {E : Env} {i j : Nat} {v : Val} (h : Returns E .parseGuardRails i (.ok j v false)) : j = i := by
  obtain ⟨_, n, d, h⟩ := h
  have h := h n (d + 1) (Nat.le_refl _) (by omega)
  rw [run, if_neg (by decide)] at h
  have h : finish (exec E _ n parseGuardRails (St.init i)) = _ := h
  by_cases hc : E.current i = []
  · simp [parseGuardRails, exec_blk_cons, exec_blk_nil, exec, holds, St.init, hc, emptyToken, Obj.flag, Obj.empty, finish] at h
  · simp [parseGuardRails, exec_blk_cons, exec_blk_nil, exec, holds, St.init, hc, emptyToken, Obj.flag, Obj.empty, finish] at h
    exact h.1.symm

theorem brief_seg {E : Env} {X : Str} {J : Nat} (hw : Wf E) (hX : opening X ∈ keywords ∧ closing X ∈ keywords) {p : PName} (hp : p ∈ brief)
    {i j : Nat} {v : Val} (h : Succeeds E p i j v) : Seg E X J i j := by
  simp only [brief, List.mem_cons, List.not_mem_nil, or_false] at hp
  rcases hp with rfl | rfl | rfl | rfl | rfl
  · obtain ⟨ws, ms, h1, h2, _, rfl, _⟩ := (Props.C32_matrix_dim_exact hw).1 h
    exact words_seg hX h1 fun w hw => (h2.mem w hw).1
  · obtain ⟨t, m, h1, h2, _, _, rfl, _⟩ := (Props.C32_no_rescale_x_exact hw).1 h
    exact Seg.tok h1 (plain_word hX h2)
  · obtain rfl := guard_rails_only h
    exact Seg.refl _ _ _ _
  · obtain ⟨t, h1, _, h2, rfl, _⟩ := (Props.C32_symbol_type_link hw).1 h
    exact Seg.tok h1 (plain_word hX h2)
  · obtain ⟨o, ws, _, h1, h2, rfl, _⟩ := Props.C32_frame_measurement_only hw h
    exact words_seg hX h1 fun w hw => (h2 w hw).2

theorem tab_seg {E : Env} {X : Str} {J : Nat} (hw : Wf E) (hmt : Props.MtGood E) (hn : NoNumbers E) (H : Known E X J)
    (hX : opening X ∈ keywords ∧ closing X ∈ keywords) {n : Nat} {x z : Decl.Pos}
    (h : Loose.Items E (Succeeds E) compuTab.fin (compuTab.spec E) n x z) : Seg E X J x.i z.i := by
  induction h with
  | nil => exact Seg.refl _ _ _ _
  | cons hi _ ih =>
    refine Seg.trans ?_ ih
    cases hi with
    | param _ ht _ _ _ hkw _ => exact Seg.tok ht (plain_word hX hkw)
    | @rest m o o' i j t _ ht _ _ _ hkw h =>
      refine Seg.trans (Seg.tok ht (plain_word hX hkw)) ?_
      have h : if ∀ c ∈ compuTab.cols, o.flag c.flag = true then o' = o ∧ j = i + 1
        else ∃ us vs, Props.Words E (i + 1) us ∧ Written E (compuTab.cols.map (·.kind)) (t :: us) vs ∧ j = i + 1 + us.length ∧
          o' = rowObj compuTab.num o compuTab.cols vs := h
      split at h
      · obtain ⟨_, rfl⟩ := h
        exact Seg.refl _ _ _ _
      · obtain ⟨us, vs, h1, h2, rfl, _⟩ := h
        refine words_seg hX h1 fun w hw hk => ?_
        cases h2 with
        | cons a b => cases b with
          | cons c d =>
            cases d
            obtain rfl : w = _ := by simpa using hw
            have c : E.floatOk _ = true ∧ _ := c
            rw [hn.2 _ hk] at c
            cases c.1
    | @sub m o o' i j t hs ht h =>
      obtain ⟨q, f, md, v, hm, hv, _⟩ := h
      have : ∀ y ∈ compuTab.subs, (match y.2 with | .obj q _ _ => subFits y.1 q | .enum _ _ => true) = true := by decide +kernel
      exact Seg.sub hw hmt H (this _ hm) ht hv

/-- A balanced stretch and the closing word. -/
theorem close_own {E : Env} {X : Str} {p : PName} {i j : Nat} (hs : Seg E X j i j) (hc : Clear E i (j + 1)) (ht : TokAfter E j (fin p))
    (hb : ((str! "/begin ").isPrefixOf (fin p)) = false) :
    times E (opening X) i (j + 1) + own p X = times E (closing X) i (j + 1) := by
  have h0 := hs.2 (Nat.le_refl _) fun z t z1 z2 => hc z t z1 (by omega)
  rw [times_trans _ hs.1 (show j ≤ j + 1 by omega), times_trans _ hs.1 (show j ≤ j + 1 by omega), times_tok _ ht, times_tok _ ht, h0]
  have : fin p ≠ opening X := fun e => by
    rw [List.isPrefixOf_iff_prefix.2 ⟨X, e.symm⟩] at hb
    exact Bool.noConfusion hb
  rw [if_neg this]
  unfold own
  omega

theorem known_all {E : Env} {X : Str} (hw : Wf E) (hmt : Props.MtGood E) (hm : E.multi = false) (hn : NoNumbers E)
    (hX : opening X ∈ keywords ∧ closing X ∈ keywords) (J : Nat) : Known E X J := by
  induction J using Nat.strongRecOn with
  | _ J IH =>
    intro q i j v hcov hJ hle h hc
    by_cases hlt : j < J
    · exact IH j hlt q i j v hcov (Nat.le_refl _) hle h hc
    obtain rfl : j = J := by omega
    have prev : ∀ k, k < j → Known E X k := fun k hk => IH k hk
    have flat : Seg E X j i j → ((str! "/end ").isPrefixOf (fin q)) = false →
        times E (opening X) i j + own q X = times E (closing X) i j := by
      intro hs hb
      have : own q X = 0 := by
        unfold own
        rw [if_neg]
        intro e
        rw [List.isPrefixOf_iff_prefix.2 ⟨X, e.symm⟩] at hb
        exact Bool.noConfusion hb
      rw [this, hs.2 (Nat.le_refl _) hc]
      rfl
    simp only [covered, Bool.or_eq_true, Bool.and_eq_true, Bool.not_eq_true', List.contains_eq_mem, decide_eq_false_iff_not, decide_eq_true_eq, beq_iff_eq] at hcov
    rcases hcov with ((⟨hp, hfor⟩ | hirr) | hbr) | rfl
    · have hreg := regFits_all q
      obtain ⟨o, o', _, ht, _⟩ := Props.accepts_only_text hw hp h
      unfold regFits at hreg
      rw [hfor, List.contains_eq_mem, decide_eq_false hp, Bool.or_false, Bool.false_or, Bool.and_eq_true] at hreg
      revert hfor ht hreg
      cases hsh : shape q with
      | keyword f fl =>
        rintro _ ⟨_, hb⟩ ⟨rfl, _⟩
        exact flat (Seg.refl _ _ _ _) (by simpa using hb)
      | one pr =>
        rintro _ ⟨_, hb⟩ ⟨hps, rfl⟩
        exact flat (params_seg hX hps) (by simpa using hb)
      | seq ps =>
        rintro _ ⟨_, hb⟩ ⟨hps, rfl⟩
        exact flat (params_seg hX hps) (by simpa using hb)
      | block raw ps rest subs maps =>
        rintro hfor ⟨hsf, hb⟩ ⟨n, m, j', hi, hfin, rfl⟩
        have hfor : raw = false := hfor
        subst hfor
        exact close_own (items_seg hw hmt (prev j' (by omega)) hX hsf hi) hc hfin (by simpa using hb)
      | other => intro _ _ ht; exact ht.elim
    · obtain ⟨B, hB, rfl⟩ := List.mem_map.1 hirr
      obtain ⟨o, _, n, m, j', o₁, hi, hfin, rfl, _⟩ := irr_only hw (calm_irrs B hB) h
      have hok := irrFits_all B hB
      simp only [irrFits, Bool.and_eq_true, beq_iff_eq, Bool.not_eq_true'] at hok
      exact close_own (loose_seg hw hmt hm (prev j' (by omega)) hX hB hi) hc (hok.1.1 ▸ hfin) (hok.1.1 ▸ hok.1.2)
    · refine flat (brief_seg hw hX hbr h) ?_
      have : ∀ p ∈ brief, ((str! "/end ").isPrefixOf (fin p)) = false := by decide +kernel
      exact this q hbr
    · obtain ⟨o, _, n, m, j', o₁, hi, hfin, rfl, _⟩ := table_only (T := compuTab) (by simp [tableKinds]) hw hn.1 h
      exact close_own (tab_seg hw hmt hn (prev j' (by omega)) hX hi) hc hfin (by decide +kernel)

end Verif.A2l.Balance

namespace Verif.A2l.Props
open Verif.Go Verif.A2l Lang Decl Analysis Template Loose Balance

/-- C116 in full: whatever a parse function accepts, foreign content aside, each opening word in it has its closing word. The opening word of
the object itself stands at position `i` and is counted separately. -/
def C116_full : Prop := ∀ (E : Env), Wf E → MtGood E → E.multi = false → NoNumbers E → ∀ (p : PName), p ≠ .parseModuleMultithreaded → foreign (shape p) = false →
  ∀ (i j : Nat) (v : Val), i < E.toks.length → Returns E p i (.ok j v false) →
  ∀ X, opening X ∈ keywords → closing X ∈ keywords →
    times E (opening X) i j + (if fin p = closing X then 1 else 0) = times E (closing X) i j

/-- C116 for the covered functions, as long as no word between begins an object that is not covered. Missing: those objects, of which it is
false (see below) or whose content is foreign, and the parallel reading of modules. -/
theorem C116_partial {E : Env} (hw : Wf E) (hmt : MtGood E) (hm : E.multi = false) (hn : NoNumbers E) {p : PName} (hp : covered p = true) {i j : Nat} {v : Val}
    (hi : i < E.toks.length) (h : Returns E p i (.ok j v false)) (hc : Clear E i j) {X : Str} (h1 : opening X ∈ keywords)
    (h2 : closing X ∈ keywords) :
    times E (opening X) i j + (if fin p = closing X then 1 else 0) = times E (closing X) i j :=
  known_all hw hmt hm hn ⟨h1, h2⟩ j p i j v hp (Nat.le_refl _)
    (succeeds_le hw hmt (by rintro rfl; exact absurd hp (by decide)) (List.getElem?_eq_getElem hi) h) h hc

/-- The same tokens `d` places further to the left. -/
theorem times_shift {E E' : Env} (w : Str) {i j d : Nat} (hd : d ≤ i) (h : ∀ k, i < k → k ≤ j → E'.toks[k - d]? = E.toks[k]?) :
    times E' w (i - d) (j - d) = times E w i j := by
  unfold times
  congr 1
  apply List.ext_getElem?
  intro n
  rw [List.getElem?_take, List.getElem?_take, List.getElem?_drop, List.getElem?_drop, show j - d - (i - d) = j - i by omega]
  split
  · rw [← h (i + 1 + n) (by omega) (by omega)]
    congr 1
    omega
  · rfl

/-- C116 put differently: from an accepted object drop one opening or closing word between its first and its last word. Then what is left is
not accepted as an object with the same last word. -/
theorem C116_lost_partial {E E' : Env} (hw : Wf E) (hmt : MtGood E) (hm : E.multi = false) (hn : NoNumbers E)
    (hw' : Wf E') (hmt' : MtGood E') (hm' : E'.multi = false) (hn' : NoNumbers E')
    {p : PName} (hp : covered p = true) {i j : Nat} {v : Val} (hi : i < E.toks.length) (h : Returns E p i (.ok j v false)) (hc : Clear E i j)
    {X : Str} (h1 : opening X ∈ keywords) (h2 : closing X ∈ keywords) {z : Nat} (hz : i < z) (hzj : z < j) {t : Str} (ht : E.toks[z]? = some t)
    (hX : t = opening X ∨ t = closing X) (he : E'.toks = E.toks.eraseIdx z) (v' : Val) : ¬ Returns E' p i (.ok (j - 1) v' false) := by
  intro h'
  have hzl := (List.getElem?_eq_some_iff.1 ht).1
  have e1 : ∀ k, k < z → E'.toks[k]? = E.toks[k]? := fun k hk => by rw [he, List.getElem?_eraseIdx, if_pos hk]
  have e2 : ∀ k, z < k → E'.toks[k - 1]? = E.toks[k]? := fun k hk => by
    rw [he, List.getElem?_eraseIdx, if_neg (by omega), show k - 1 + 1 = k by omega]
  have hc' : Clear E' i (j - 1) := by
    intro k u k1 k2 hu
    by_cases hk : k < z
    · exact hc k u k1 (by omega) (e1 k hk ▸ hu)
    · have := e2 (k + 1) (by omega)
      exact hc (k + 1) u (by omega) (by omega) (by rw [← this]; exact hu)
  have hi' : i < E'.toks.length := by rw [he, List.length_eraseIdx]; split <;> omega
  have a := C116_partial hw hmt hm hn hp hi h hc h1 h2
  have b := C116_partial hw' hmt' hm' hn' hp hi' h' hc' h1 h2
  have split : ∀ w, times E w i j = times E' w i (j - 1) + if t = w then 1 else 0 := by
    intro w
    have hta : TokAfter E (z - 1) t := by unfold TokAfter; rw [show z - 1 + 1 = z by omega]; exact ht
    have k1 := times_tok w hta
    rw [show z - 1 + 1 = z by omega] at k1
    have k2 := times_shift (E := E) (E' := E') w (i := i) (j := z - 1) (d := 0) (by omega) fun k _ _ => e1 k (by omega)
    have k3 := times_shift (E := E) (E' := E') w (i := z) (j := j) (d := 1) (by omega) fun k hk _ => e2 k hk
    rw [times_trans w (show i ≤ z - 1 by omega) (show z - 1 ≤ j by omega), times_trans w (show z - 1 ≤ z by omega) (show z ≤ j by omega),
      times_trans (E := E') w (show i ≤ z - 1 by omega) (show z - 1 ≤ j - 1 by omega), k1, ← k3]
    rw [Nat.sub_zero, Nat.sub_zero] at k2
    rw [k2]
    omega
  have hne : opening X ≠ closing X := by simp [opening, closing]
  rw [split, split] at a
  rcases hX with rfl | rfl
  · rw [if_pos rfl, if_neg hne] at a
    omega
  · rw [if_neg (Ne.symm hne), if_pos rfl] at a
    omega

/-- C116 for a file as a whole: the project in the result was read from a stretch of the file in which all words balance. -/
theorem C116_file_partial {E : Env} (hw : Wf E) (hm : E.multi = false) (hn : NoNumbers E) (hc : ∀ t ∈ E.toks, t ∉ uncovered) {J : Nat} {a p : Obj}
    (h : A2l.parse E .parseA2l 0 = .ok J (.obj a) false) (hp : a "Project" = .obj p) :
    ∃ x y, Returns E .parseProject x (.ok y (.obj p) false) ∧ ∀ X, opening X ∈ keywords → closing X ∈ keywords →
      times E (opening X) x y + (if X = (str! "PROJECT") then 1 else 0) = times E (closing X) x y := by
  have hmt : MtGood E := mtGood_seq hm
  obtain ⟨x, y, hx, hr⟩ := project_of_file hw hmt h hp
  refine ⟨x, y, hr, fun X h1 h2 => ?_⟩
  rw [← C116_partial hw hmt hm hn (by decide +kernel) hx hr (fun z t _ _ hz => hc t (List.mem_of_getElem? hz)) h1 h2]
  congr 1
  have : fin .parseProject = closing (str! "PROJECT") := by decide +kernel
  rw [this]
  by_cases e : X = (str! "PROJECT")
  · rw [if_pos e, if_pos (by rw [e])]
  · have hne : closing (str! "PROJECT") ≠ closing X := fun e' => e (List.append_cancel_left e').symm
    rw [if_neg e, if_neg hne]

/-- Tokens of a file; a number begins with a digit. -/
def numEnv (ts : List Str) : Env := { mkEnv ts with floatOk := fun t => match t with | c :: _ => c.isDigit | [] => false }

theorem numEnv_ok {ts : List Str} (h : [] ∉ ts) : Wf (numEnv ts) ∧ MtGood (numEnv ts) ∧ NoNumbers (numEnv ts) := by
  refine ⟨⟨ts, rfl, h⟩, fun h => by simp [numEnv, mkEnv] at h, rfl, ?_⟩
  have : (keywords.all fun t => !((numEnv []).floatOk t)) = true := by decide +kernel
  intro t ht
  have h0 : (numEnv []).floatOk t = false := by simpa using List.all_eq_true.1 this t ht
  exact h0

/-- C116 is false of BIT_OPERATION: an opening word that is not allowed there is forgotten when the next part is read. -/
theorem C116_false : ¬ C116_full := by
  intro h
  have hg : got (numEnv bitToks) .parseBitOperation 0 "x" = some (4, false, none, none) := by decide +kernel
  obtain ⟨o, hr', _⟩ := got_spec hg
  obtain ⟨a, b, c⟩ := numEnv_ok (ts := bitToks) (by decide)
  have := h (numEnv bitToks) a b rfl c .parseBitOperation (by decide) (by decide) 0 4 _ (by decide) hr'
    (str! "UNIT") (by decide +kernel) (by decide +kernel)
  exact absurd this (by decide +kernel)

def combToks : List Str := [(str! "/begin VAR_FORBIDDEN_COMB"), (str! "Car"), (str! "/end VAR_FORBIDDEN_COMB"),
  (str! "/end VAR_FORBIDDEN_COMB")]

/-- And of VAR_FORBIDDEN_COMB: a closing word is taken for the value of a criterion, and the block goes on to the next one. -/
theorem C116_false_comb : ∃ v, Returns (numEnv combToks) .parseVarForbiddenComb 0 (.ok 3 v false) ∧
    times (numEnv combToks) (closing (str! "VAR_FORBIDDEN_COMB")) 0 3 = 2 ∧ times (numEnv combToks) (opening (str! "VAR_FORBIDDEN_COMB")) 0 3 = 0 := by
  have hg : got (numEnv combToks) .parseVarForbiddenComb 0 "x" = some (3, false, none, none) := by decide +kernel
  obtain ⟨o, hr', _⟩ := got_spec hg
  exact ⟨_, hr', by decide +kernel, by decide +kernel⟩

def rowToks : List Str := [(str! "/begin COMPU_VTAB"), (str! "T"), (str! "\"\""), (str! "TAB_VERB"), (str! "1"), (str! "0"),
  (str! "/end COMPU_VTAB"), (str! "/end COMPU_VTAB")]

/-- And of COMPU_VTAB, where a closing word is taken for the text of a row (COMPU_VTAB_RANGE reads its texts alike). -/
theorem C116_false_row : ∃ v, Returns (numEnv rowToks) .parseCompuVtab 0 (.ok 7 v false) ∧
    times (numEnv rowToks) (closing (str! "COMPU_VTAB")) 0 7 = 2 ∧ times (numEnv rowToks) (opening (str! "COMPU_VTAB")) 0 7 = 0 := by
  have hg : got (numEnv rowToks) .parseCompuVtab 0 "x" = some (7, false, none, none) := by decide +kernel
  obtain ⟨o, hr', _⟩ := got_spec hg
  exact ⟨_, hr', by decide +kernel, by decide +kernel⟩

def rangeToks : List Str := [(str! "/begin COMPU_VTAB_RANGE"), (str! "T"), (str! "\"\""), (str! "1"), (str! "0"), (str! "1"),
  (str! "/end COMPU_VTAB_RANGE"), (str! "/end COMPU_VTAB_RANGE")]

theorem C116_false_range : ∃ v, Returns (numEnv rangeToks) .parseCompuVtabRange 0 (.ok 7 v false) ∧
    times (numEnv rangeToks) (closing (str! "COMPU_VTAB_RANGE")) 0 7 = 2 ∧ times (numEnv rangeToks) (opening (str! "COMPU_VTAB_RANGE")) 0 7 = 0 := by
  have hg : got (numEnv rangeToks) .parseCompuVtabRange 0 "x" = some (7, false, none, none) := by decide +kernel
  obtain ⟨o, hr', _⟩ := got_spec hg
  exact ⟨_, hr', by decide +kernel, by decide +kernel⟩

/-- And of FRAME, which may end with the file. -/
theorem C116_false_frame : ∃ v, Returns (numEnv [(str! "/begin FRAME"), (str! "F")]) .parseFrame 0 (.ok 2 v false) ∧
    times (numEnv [(str! "/begin FRAME"), (str! "F")]) (closing (str! "FRAME")) 0 2 = 0 := by
  have hg : got (numEnv [(str! "/begin FRAME"), (str! "F")]) .parseFrame 0 "x" = some (2, false, none, none) := by decide +kernel
  obtain ⟨o, hr', _⟩ := got_spec hg
  exact ⟨_, hr', by decide +kernel⟩

def projToks : List Str := [(str! "/begin PROJECT"), (str! "P"), (str! "\"\""), (str! "/begin MODULE"), (str! "M"), (str! "\"\""),
  (str! "/begin FUNCTION"), (str! "F"), (str! "\"\""), (str! "/begin IN_MEASUREMENT"), (str! "a"), (str! "/end IN_MEASUREMENT"),
  (str! "/end FUNCTION"), (str! "/begin FUNCTION"), (str! "G"), (str! "\"\""), (str! "/end FUNCTION"),
  (str! "/begin COMPU_TAB"), (str! "T"), (str! "\"\""), (str! "TAB_NOINTP"), (str! "1"), (str! "0"), (str! "5"), (str! "/end COMPU_TAB"),
  (str! "/end MODULE"), (str! "/end PROJECT")]

/-- The hypotheses of C116 are met: a project with a module of two functions and a table. -/
example : (∃ v, Returns (numEnv projToks) .parseProject 0 (.ok 26 v false)) ∧ covered .parseProject = true ∧ Clear (numEnv projToks) 0 26 ∧
    opening (str! "FUNCTION") ∈ keywords ∧ closing (str! "FUNCTION") ∈ keywords ∧
    times (numEnv projToks) (opening (str! "FUNCTION")) 0 26 = 2 ∧ times (numEnv projToks) (closing (str! "FUNCTION")) 0 26 = 2 ∧
    times (numEnv projToks) (opening (str! "PROJECT")) 0 26 = 0 ∧ times (numEnv projToks) (closing (str! "PROJECT")) 0 26 = 1 := by
  have hg : got (numEnv projToks) .parseProject 0 "x" = some (26, false, none, none) := by decide +kernel
  obtain ⟨o, hr', _⟩ := got_spec hg
  refine ⟨⟨_, hr'⟩, by decide +kernel, ?_, by decide +kernel, by decide +kernel, by decide +kernel, by decide +kernel, by decide +kernel,
    by decide +kernel⟩
  intro z t _ _ hz
  have : ∀ t ∈ (numEnv projToks).toks, t ∉ uncovered := by decide +kernel
  exact this t (List.mem_of_getElem? hz)

/-- The hypotheses of the form for files are met by a file with that project. -/
example : (match A2l.parse (numEnv projToks) .parseA2l 0 with | .ok _ (.obj a) false => (match a "Project" with | .obj _ => true | _ => false) | _ => false) = true ∧
    ∀ t ∈ (numEnv projToks).toks, t ∉ uncovered := ⟨by decide +kernel, by decide +kernel⟩

/-- The hypotheses of the second form are met: the project without the `/end FUNCTION` of its first function. -/
example : (numEnv projToks).toks[12]? = some (closing (str! "FUNCTION")) ∧
    (numEnv (projToks.eraseIdx 12)).toks = (numEnv projToks).toks.eraseIdx 12 ∧ Wf (numEnv (projToks.eraseIdx 12)) :=
  ⟨by decide +kernel, by decide +kernel, (numEnv_ok (by decide +kernel)).1⟩

end Verif.A2l.Props
