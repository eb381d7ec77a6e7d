import Verif.A2l.ModSeq
import Verif.A2l.ModProps

/-!
The workers of the parallel module parser against `ModSpec.Scan`.
-/

namespace Verif.A2l
open Verif.Go Lang Verif.Conc Analysis ModSpec

/-- The worker at index `x` that ends at `max` sends `l`. -/
def Sends (E : Env) (max : Int) (x : Nat) (l : List (Nat × Val)) : Prop := ∃ f, worker E max f x = some l

namespace Sends
variable {E : Env} {max : Int} {x : Nat} {l l' : List (Nat × Val)}

theorem unique (h : Sends E max x l) (h' : Sends E max x l') : l = l' := by
  obtain ⟨f, h⟩ := h
  obtain ⟨f', h'⟩ := h'
  have h1 := worker_mono f (Nat.max f f') x l h (Nat.le_max_left _ _)
  have h2 := worker_mono f' (Nat.max f f') x l' h' (Nat.le_max_right _ _)
  rw [h1] at h2
  exact Option.some.inj h2

theorem stop (h : max ≤ (x : Int)) : Sends E max x [] := ⟨1, by simp [worker, h]⟩

theorem next {t : Str} (ht : E.toks[x + 1]? = some t) : nextIdx E x = x + 1 ∧ nextTok E x = t ∧
    E.current (x + 1) = t := by
  have hlt : x + 1 < E.toks.length := (List.getElem?_eq_some_iff.1 ht).1
  have hh := hasNext_iff.2 hlt
  unfold nextIdx nextTok Env.current
  rw [if_pos hh, if_pos hh, ht]
  exact ⟨rfl, rfl, rfl⟩

theorem ended (hx : ¬ max ≤ (x : Int)) (ht : E.toks[x + 1]? = some endModuleToken) : Sends E max x [] := by
  obtain ⟨h1, h2, h3⟩ := next ht
  refine ⟨1, ?_⟩
  simp only [worker, if_neg hx, h1, h2, h3, not_opens.1 endModule_not_opens 1,
    if_neg (show endModuleToken ≠ emptyToken by decide), if_true]

theorem skip (hx : ¬ max ≤ (x : Int)) {t : Str} (ht : E.toks[x + 1]? = some t) (h0 : t ≠ emptyToken)
    (he : t ≠ endModuleToken) (hno : ¬ Opens t) (h : Sends E max (x + 1) l) : Sends E max x l := by
  obtain ⟨h1, h2, h3⟩ := next ht
  by_cases hm : max ≤ ((x + 1 : Nat) : Int)
  · have := h.unique (stop hm)
    subst this
    exact ⟨1, by simp only [worker, if_neg hx, h1, h2, h3, not_opens.1 hno 1, if_neg h0, if_neg he, if_pos hm]⟩
  · obtain ⟨f, h⟩ := h
    exact ⟨f + 1, by simp only [worker, if_neg hx, h1, h2, h3, not_opens.1 hno 1, if_neg h0, if_neg he, if_neg hm, h]⟩

theorem obj (hw : Wf E) (hmt : Props.MtGood E) (hx : ¬ max ≤ (x : Int)) {n e : Nat} {K : Kind} {v : Val}
    (ht : E.toks[x + 1]? = some K.tok) (hk : kinds[n]? = some K)
    (hr : Returns E K.parser (x + 1) (.ok e v false)) (h : Sends E max e l) :
    Sends E max x ((n + 1, v) :: l) := by
  obtain ⟨c, hc, rfl⟩ := kinds_get hk
  obtain ⟨h1, h2, h3⟩ := next ht
  have hlt : x + 1 < E.toks.length := (List.getElem?_eq_some_iff.1 ht).1
  obtain ⟨j, v', e', hp, hr', _⟩ := Props.parse_ok hw hmt c.parser (case_not_mt (List.mem_of_getElem? hc)) (x + 1) hlt
  have hu := hr.unique hr'
  have hf : findCase (ModCase.kind c).tok 1 channels = some (1 + n, c) := findCase_get channels 1 n c tokens_nodup hc
  obtain ⟨f, h⟩ := h
  refine ⟨f + 1, ?_⟩
  simp only [worker, if_neg hx, h1, h2, hf, hp, ← hu, Bool.false_eq_true, if_false, h, Option.map_some,
    Nat.add_comm]

end Sends

/-- The messages for found objects. -/
def msg (f : Found) : Nat × Val := (f.kind + 1, f.val)

theorem scan_pos {E : Env} (hw : Wf E) (hmt : Props.MtGood E) {s j : Nat} {os : List Found} (h : Scan E s os j) :
    s < j ∧ j < E.toks.length ∧ E.toks[j]? = some endModuleToken ∧
    (∀ f ∈ os, s < f.pos ∧ f.pos ≤ f.stop ∧ f.stop < j) := by
  induction h with
  | @stop s ht =>
    exact ⟨by omega, (List.getElem?_eq_some_iff.1 ht).1, ht, by simp⟩
  | skip _ _ _ _ _ ih =>
    obtain ⟨h1, h2, h3, h4⟩ := ih
    exact ⟨by omega, h2, h3, fun f hf => by have := h4 f hf; omega⟩
  | @obj s e j n os K v ht hk hr hs ih =>
    obtain ⟨h1, h2, h3, h4⟩ := ih
    obtain ⟨c, hc, rfl⟩ := kinds_get hk
    have hlt : s + 1 < E.toks.length := (List.getElem?_eq_some_iff.1 ht).1
    obtain ⟨j', v', e', _, hr', hle, _⟩ := Props.parse_ok hw hmt c.parser (case_not_mt (List.mem_of_getElem? hc)) (s + 1) hlt
    have := hr.unique hr'
    simp only [PRes.ok.injEq] at this
    obtain ⟨rfl, _, _⟩ := this
    refine ⟨by omega, h2, h3, fun f hf => ?_⟩
    rcases List.mem_cons.1 hf with rfl | hf
    · simp only; omega
    · have := h4 f hf; omega

/-- A worker that starts between two objects. -/
theorem sends_aligned {E : Env} (hw : Wf E) (hmt : Props.MtGood E) {max : Int} {s j : Nat} {os : List Found}
    (h : Scan E s os j) :
    Sends E max s ((os.filter (fun f => (f.pos : Int) ≤ max)).map msg) := by
  induction h with
  | @stop s ht =>
    by_cases hx : max ≤ (s : Int)
    · exact Sends.stop hx
    · exact Sends.ended hx ht
  | @skip s j os t ht h0 hne hno hs ih =>
    by_cases hx : max ≤ (s : Int)
    · have : os.filter (fun f => (f.pos : Int) ≤ max) = [] := by
        rw [List.filter_eq_nil_iff]
        intro f hf
        have := (scan_pos hw hmt hs).2.2.2 f hf
        simp only [decide_eq_true_eq]; omega
      rw [this]
      exact Sends.stop hx
    · exact Sends.skip hx ht h0 hne hno ih
  | @obj s e j n os K v ht hk hr hs ih =>
    have hpos := (scan_pos hw hmt (Scan.obj ht hk hr hs)).2.2.2
    by_cases hx : max ≤ (s : Int)
    · have : (⟨s + 1, e, n, v⟩ :: os).filter (fun f => (f.pos : Int) ≤ max) = [] := by
        rw [List.filter_eq_nil_iff]
        intro f hf
        have := hpos f hf
        simp only [decide_eq_true_eq]; omega
      rw [this]
      exact Sends.stop hx
    · rw [List.filter_cons, if_pos (by simp only [decide_eq_true_eq]; omega), List.map_cons]
      exact Sends.obj hw hmt hx ht hk hr ih

/-- Tokens that a worker walks over. -/
theorem sends_walk {E : Env} {max : Int} {e : Nat} {l : List (Nat × Val)} (h : Sends E max e l) :
    ∀ d x, x + d = e → (∀ y, x < y → y ≤ e → ∃ t, E.toks[y]? = some t ∧ t ≠ emptyToken ∧ t ≠ endModuleToken ∧ ¬ Opens t) →
    Sends E max x l := by
  intro d
  induction d with
  | zero => intro x hx _; have : x = e := by omega
            subst this; exact h
  | succ d ih =>
    intro x hx hq
    by_cases hm : max ≤ (x : Int)
    · have := h.unique (Sends.stop (by omega))
      subst this
      exact Sends.stop hm
    · obtain ⟨t, h1, h2, h3, h4⟩ := hq (x + 1) (by omega) (by omega)
      exact Sends.skip hm h1 h2 h3 h4 (ih (x + 1) (by omega) fun y hy hy' => hq y (by omega) hy')

/-- A worker that starts anywhere, as long as it does not start on an opening token or in an
object with further opening tokens. -/
theorem sends_from {E : Env} (hw : Wf E) (hmt : Props.MtGood E) {max : Int} {s j x : Nat} {os : List Found}
    (h : Scan E s os j) (hj : max ≤ (j : Int)) (hfirst : ∀ y < j, E.toks[y]? ≠ some endModuleToken) (hsx : s ≤ x)
    (hsafe : ∀ f ∈ os, f.pos ≠ x ∧ (f.pos < x → ∀ y, x < y → y ≤ f.stop → ∀ t, E.toks[y]? = some t → ¬ Opens t)) :
    Sends E max x ((os.filter (fun f => x < f.pos ∧ (f.pos : Int) ≤ max)).map msg) := by
  have haligned : ∀ {s j os}, Scan E s os j → Sends E max s ((os.filter (fun f => s < f.pos ∧ (f.pos : Int) ≤ max)).map msg) := by
    intro s j os h
    have h1 := sends_aligned (max := max) hw hmt h
    have : os.filter (fun f => s < f.pos ∧ (f.pos : Int) ≤ max) = os.filter (fun f => (f.pos : Int) ≤ max) := by
      apply List.filter_congr
      intro f hf
      have := ((scan_pos hw hmt h).2.2.2 f hf).1
      simp [this]
    rw [this]; exact h1
  induction h with
  | @stop s ht =>
    by_cases hs : x = s
    · subst hs; exact haligned (Scan.stop ht)
    · exact Sends.stop (by omega)
  | @skip s j os t ht h0 hne hno hs ih =>
    by_cases hx : x = s
    · subst hx; exact haligned (Scan.skip ht h0 hne hno hs)
    · exact ih hj hfirst (by omega) hsafe
  | @obj s e j n os K v ht hk hr hs ih =>
    have hall := scan_pos hw hmt (Scan.obj ht hk hr hs)
    have hse := hall.2.2.2 ⟨s + 1, e, n, v⟩ (by simp)
    simp only at hse
    by_cases hx : x = s
    · subst hx; exact haligned (Scan.obj ht hk hr hs)
    · have h1 := hsafe ⟨s + 1, e, n, v⟩ (by simp)
      simp only at h1
      have hnot : ¬ (x < s + 1 ∧ ((s + 1 : Nat) : Int) ≤ max) := by omega
      rw [List.filter_cons, if_neg (by simpa using hnot)]
      by_cases hin : x < e
      · have h2 := haligned hs
        have h3 : os.filter (fun f => x < f.pos ∧ (f.pos : Int) ≤ max) = os.filter (fun f => e < f.pos ∧ (f.pos : Int) ≤ max) := by
          apply List.filter_congr
          intro f hf
          have := ((scan_pos hw hmt hs).2.2.2 f hf).1
          have h4 : x < f.pos := by omega
          simp [this, h4]
        rw [h3]
        refine sends_walk h2 (e - x) x (by omega) fun y hy hy' => ?_
        have hyl : y < E.toks.length := by omega
        refine ⟨E.toks[y], List.getElem?_eq_getElem hyl, ?_, ?_, h1.2 (by omega) y hy hy' _ (List.getElem?_eq_getElem hyl)⟩
        · intro he0
          have : E.current y = emptyToken := by
            unfold Env.current; rw [List.getElem?_eq_getElem hyl]; exact he0
          have := (hw.end_iff hyl).1 this
          omega
        · intro he0
          exact hfirst y (by omega) (by rw [List.getElem?_eq_getElem hyl, he0])
      · exact ih hj hfirst (by omega) fun f hf => hsafe f (List.mem_cons_of_mem _ hf)

/-- The end index found by the parallel parser. -/
theorem endIndex_eq {E : Env} {j : Nat} (h : E.toks[j]? = some endModuleToken)
    (hfirst : ∀ y < j, E.toks[y]? ≠ some endModuleToken) : endIndex E = j := by
  unfold endIndex
  have hj := (List.getElem?_eq_some_iff.1 h).1
  have : E.toks.findIdx? (· = endModuleToken) = some j := by
    rw [List.findIdx?_eq_some_iff_getElem]
    refine ⟨hj, ?_, ?_⟩
    · have := (List.getElem?_eq_some_iff.1 h).2
      simpa using this
    · intro y hy
      have h1 := hfirst y hy
      rw [List.getElem?_eq_getElem (by omega)] at h1
      simpa using h1
  rw [this]
  rfl

/-- With safe cuts each worker sends just the objects that begin in its piece. -/
theorem worker_sends {E : Env} (hw : Wf E) (hmt : Props.MtGood E) {np w start j : Nat} {os : List Found} (hnp : w < np)
    (h : Scan E start os j) (hfirst : ∀ y < j, E.toks[y]? ≠ some endModuleToken) (hsafe : SafeCuts E start j np os) :
    Sends E (maxIndex start j np w) (minIndex start j np w)
      ((os.filter (fun f => minIndex start j np w < f.pos ∧ (f.pos : Int) ≤ maxIndex start j np w)).map msg) := by
  have hpos := scan_pos hw hmt h
  have hmin := minIndex_le (start := start) (stop := j) (np := np) (k := w) (by omega) hnp
  have hmax : maxIndex start j np w ≤ (j : Int) := by
    unfold maxIndex
    split
    · omega
    · have h1 := minIndex_le (start := start) (stop := j) (np := np) (k := w + 1) (by omega) (by omega)
      unfold minIndex at h1 ⊢
      rw [Nat.mul_add] at h1
      omega
  refine sends_from hw hmt h hmax hfirst hmin.1 fun f hf => ?_
  by_cases h0 : w = 0
  · subst h0
    have h1 := hpos.2.2.2 f hf
    have h2 : minIndex start j np 0 = start := by simp [minIndex]
    rw [h2]
    exact ⟨by omega, fun h => by omega⟩
  · exact hsafe w (by omega) hnp f hf

/-- With safe cuts every object begins in exactly one piece; here: in at least one. -/
theorem piece_exists {start j np p : Nat} (hnp : 0 < np) (h1 : start < p) (h2 : p ≤ j)
    (hcut : ∀ k, 0 < k → k < np → p ≠ cut start j np k) :
    ∃ w < np, minIndex start j np w < p ∧ (p : Int) ≤ maxIndex start j np w := by
  -- the last piece that begins before `p`
  have hex : ∃ w, w < np ∧ minIndex start j np w < p ∧ ∀ w', w < w' → w' < np → ¬ minIndex start j np w' < p := by
    have : ∀ n, n ≤ np → 0 < n → (∃ w, w < n ∧ minIndex start j np w < p ∧ ∀ w', w < w' → w' < n → ¬ minIndex start j np w' < p) := by
      intro n
      induction n with
      | zero => intro _ h; omega
      | succ n ih =>
        intro hn _
        by_cases hlast : minIndex start j np n < p
        · exact ⟨n, by omega, hlast, fun w' _ _ => by omega⟩
        · by_cases h0 : n = 0
          · subst h0
            exact absurd (show minIndex start j np 0 < p by simp [minIndex, h1]) hlast
          · obtain ⟨w, h3, h4, h5⟩ := ih (by omega) (by omega)
            refine ⟨w, by omega, h4, fun w' hw' hlt => ?_⟩
            by_cases hwn : w' = n
            · subst hwn; exact hlast
            · exact h5 w' hw' (by omega)
    exact this np (Nat.le_refl _) hnp
  obtain ⟨w, hw, hlt, hmax⟩ := hex
  refine ⟨w, hw, hlt, ?_⟩
  unfold maxIndex
  split
  · omega
  · rename_i hne
    have h3 := hmax (w + 1) (by omega) (by omega)
    have h4 := hcut (w + 1) (by omega) (by omega)
    unfold minIndex cut at *
    rw [Nat.mul_add] at h3 h4
    omega

/-- With safe cuts the workers together send just the objects of the module. -/
theorem sent_scan {E : Env} (hw : Wf E) (hs : E.multi = false) {np start j : Nat} {os : List Found} (hnp : 0 < np)
    (h : Scan E start os j) (hfirst : ∀ y < j, E.toks[y]? ≠ some endModuleToken) (hsafe : SafeCuts E start j np os)
    (k : Nat) (v : Val) : Props.Sent E np start j k v ↔ ∃ f ∈ os, (k, v) = msg f := by
  have hmt := Props.mtGood_seq hs
  have hpos := scan_pos hw hmt h
  constructor
  · rintro ⟨w, hwn, l, hl, hm⟩
    have := (worker_sends hw hmt hwn h hfirst hsafe).unique ⟨_, hl⟩
    rw [← this, List.mem_map] at hm
    obtain ⟨f, hf, he⟩ := hm
    exact ⟨f, (List.mem_filter.1 hf).1, he.symm⟩
  · rintro ⟨f, hf, he⟩
    have h1 := hpos.2.2.2 f hf
    obtain ⟨w, hwn, h2, h3⟩ := piece_exists (j := j) (p := f.pos) hnp h1.1 (by omega) fun k hk hk' => (hsafe k hk hk' f hf).1
    have hmin := minIndex_le (start := start) (stop := j) (np := np) (k := w) (by omega) hwn
    obtain ⟨l, hl⟩ := worker_total hw hmt (max := maxIndex start j np w) (E.toks.length + 1) (minIndex start j np w)
      (by omega) (by omega)
    have := (worker_sends hw hmt hwn h hfirst hsafe).unique ⟨_, hl⟩
    refine ⟨w, hwn, l, hl, ?_⟩
    rw [← this, he]
    exact List.mem_map.2 ⟨f, List.mem_filter.2 ⟨hf, by simp [h2, h3]⟩, rfl⟩

end Verif.A2l
