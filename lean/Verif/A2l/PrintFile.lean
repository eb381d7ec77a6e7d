import Verif.A2l.PrintProps
import Verif.A2l.FileProps

/-!
C70 for whole files: a project with its modules written as a text, one token per line, and read again by any
number of workers.
-/

namespace Verif.A2l.Write
open Verif.Go Verif.A2l Lang Decl Template

/-- The parts of a project. -/
def projectParts : List (Str × Sub) := [((str! "/begin HEADER"), .obj .parseHeader "header" .field),
  ((str! "/begin MODULE"), .obj .parseModule "Modules" .append)]

/-- The struct of a project with the given name, description, headers and modules. -/
def projectStruct (name text : Str) (parts : List Node) : Obj := fun g =>
  if g = "Name" then .str name
  else if g = "longIdentifier" then .str text
  else if g = "nameSet" ∨ g = "longIdentifierSet" then .bool true
  else if g = "header" then combine .field (belonging projectParts (values parts) g)
  else if g = "Modules" then combine .append (belonging projectParts (values parts) g)
  else .zero

/-- A project as an object of a file. -/
def project (name text : Str) (parts : List Node) : Node :=
  .given (str! "/begin PROJECT") .parseProject (name :: text :: (written parts ++ [(str! "/end PROJECT")]))
    (.obj (projectStruct name text parts))

/-- The parts of a file. -/
def fileParts : List (Str × Sub) := [((str! "ASAP2_VERSION"), .obj .parseASAP2Version "Asap2Version" .field),
  ((str! "A2ML_VERSION"), .obj .parseA2MLVersion "A2mlVersion" .field),
  ((str! "/begin PROJECT"), .obj .parseProject "Project" .field)]

/-- The struct of a file: of each of the three parts the last one. -/
def fileStruct (parts : List Node) : Obj := fun g => combine .field (belonging fileParts (values parts) g)

/-- Tokens that stand for themselves in a text: words, `/begin` or `/end` with a keyword, and strings in which there
is no white space but single spaces between words. -/
def Writable (t : Str) : Prop :=
  Spec.Plain t ∨ (∃ kw, (t = "/begin ".toList ++ kw ∨ t = "/end ".toList ++ kw) ∧ Spec.Plain kw) ∨
    ∃ c, t = '"' :: c ++ ['"'] ∧ Spec.doubled c = true ∧ Spec.unwords (fields t) = t ∧ '\n' ∉ c

end Verif.A2l.Write

namespace Verif.A2l.Props
open Verif.Go Lang Analysis Decl Template Write File FileSpec

theorem project_keys {t : Str} (h : t ∈ projectParts.map (·.1)) : t ∈ keywords := by
  simp only [projectParts, List.map_cons, List.map_nil, List.mem_cons, List.not_mem_nil, or_false] at h
  rcases h with rfl | rfl <;> decide +kernel

theorem no_stops {subs : List (Str × Sub)} (h : (subs.all fun s => match s.2 with | .obj q _ _ => (stops q).isNone | _ => true) = true)
    {n : Node} (ha : Allowed subs n) : n.stops = none := by
  cases n with
  | obj k fn ws ms parts => rfl
  | choice k w => rfl
  | given k fn ts v => obtain ⟨f, md, hm⟩ := ha; simpa [Node.stops] using List.all_eq_true.1 h _ hm

theorem no_stops_project {n : Node} (ha : Allowed projectParts n) : n.stops = none := no_stops (by decide) ha

theorem no_stops_file {n : Node} (ha : Allowed fileParts n) : n.stops = none := no_stops (by decide) ha

theorem project_nodes {E : Env} (hs : E.multi = false) {m : Nat} :
    ∀ (ns : List Node) (i : Nat) (o : Obj), (∀ n ∈ ns, Allowed projectParts n) → (∀ n ∈ ns, ReadBack E n) → Words E i (written ns) →
    ∃ N o', Loose.Items E (Succeeds E) Loose.project.fin (Loose.project.spec E) N ⟨m, o, i⟩ ⟨m, o', i + (written ns).length⟩ ∧
      ∀ g, o' g = (belonging projectParts (values ns) g).foldl (keep (modeAt projectParts g)) (o g)
  | [], i, o, _, _, _ => ⟨0, o, .nil, fun _ => rfl⟩
  | n :: ns, i, o, ha, hr, hw => by
    rw [written] at hw ⊢
    have ht : TokAfter E i n.key := hw 0 _ rfl
    obtain ⟨hw1, hw2⟩ := Words.append hw.tail
    have objStep : ∀ fn, fnOf n = some fn → (∃ f md, (n.key, Sub.obj fn f md) ∈ projectParts) →
        ∃ N o', Loose.Items E (Succeeds E) Loose.project.fin (Loose.project.spec E) N ⟨m, o, i⟩
            ⟨m, o', i + (n.key :: (n.tail ++ written ns)).length⟩ ∧
          ∀ g, o' g = (belonging projectParts (values (n :: ns)) g).foldl (keep (modeAt projectParts g)) (o g) := by
      rintro fn hfn ⟨f, md, hs'⟩
      have hret := hr n (List.mem_cons_self ..) fn hfn (i + 1) ht hw1
        (by rw [no_stops_project (ha n (List.mem_cons_self ..))]; simp)
      obtain ⟨o1, ho1, hit⟩ : ∃ o1, Keeps o f md n.value o1 ∧
          Loose.Item E (Succeeds E) Loose.project.fin (Loose.project.spec E) ⟨m, o, i⟩ ⟨m, o1, i + 1 + n.tail.length⟩ := by
        simp only [projectParts, List.mem_cons, Prod.mk.injEq, Sub.obj.injEq, List.not_mem_nil, or_false] at hs'
        rcases hs' with ⟨hk, rfl, rfl, rfl⟩ | ⟨hk, rfl, rfl, rfl⟩
        · refine ⟨_, rfl, .sub (t := n.key) (by rw [hk]; exact List.mem_cons_self ..) ht ⟨.obj .parseHeader "header" .field, ?_, n.value, hret, rfl⟩⟩
          rw [hk]; exact List.mem_cons_self ..
        · refine ⟨_, rfl, .sub (t := n.key) (by rw [hk]; exact List.mem_cons_of_mem _ (List.mem_cons_self ..)) ht ⟨.module "Modules", ?_, n.value, ?_, rfl⟩⟩
          · rw [hk]; exact List.mem_cons_of_mem _ (List.mem_cons_self ..)
          · rw [hs]; exact hret
      obtain ⟨N, o', g1, g2⟩ := project_nodes hs (m := m) ns (i + 1 + n.tail.length) o1
        (fun x hx => ha x (List.mem_cons_of_mem _ hx)) (fun x hx => hr x (List.mem_cons_of_mem _ hx)) hw2
      refine ⟨N + 1, o', .cons hit ?_, fun g => ?_⟩
      · rw [show i + (n.key :: (n.tail ++ written ns)).length = i + 1 + n.tail.length + (written ns).length by simp; omega]
        exact g1
      · have hmd : md = modeAt projectParts f := by
          simp only [projectParts, List.mem_cons, Prod.mk.injEq, Sub.obj.injEq, List.not_mem_nil, or_false] at hs'
          rcases hs' with ⟨hk, rfl, rfl, rfl⟩ | ⟨hk, rfl, rfl, rfl⟩ <;> rfl
        have hbc := belonging_cons projectParts (by decide) hs' n.value (values ns) g
        rw [g2, values]
        by_cases hg : f = g
        · subst hg
          rw [show belonging projectParts ((n.key, n.value) :: values ns) f = _ from hbc.trans (if_pos rfl), List.foldl_cons, keeps_keep ho1, hmd]
        · rw [show belonging projectParts ((n.key, n.value) :: values ns) g = _ from hbc.trans (if_neg hg), keeps_other ho1 (Ne.symm hg)]
    have hall := ha n (List.mem_cons_self ..)
    cases n with
    | obj k fn ws ms parts => exact objStep fn rfl hall
    | given k fn ts v => exact objStep fn rfl hall
    | choice k w =>
      obtain ⟨e, f, c, h1, _⟩ := hall
      simp [projectParts] at h1

theorem belonging_nil {subs : List (Str × Sub)} {vs : List (Str × Val)} {g : String} (h : ∀ s ∈ subs, target s.2 ≠ g) :
    belonging subs vs g = [] := by
  unfold belonging
  rw [List.map_eq_nil_iff, List.filter_eq_nil_iff]
  intro y _ hh
  rw [List.any_eq_true] at hh
  obtain ⟨s, hs', h'⟩ := hh
  simp only [Bool.and_eq_true, decide_eq_true_eq] at h'
  exact h s hs' h'.2

/-- C70 for projects: with legal headers and modules, a project that is written is read with exactly its value. -/
theorem project_legal {E : Env} (hw : Wf E) (hs : E.multi = false) {name text : Str} {parts : List Node}
    (hn : name ≠ [] ∧ name ∉ keywords) (ht : text ≠ [] ∧ text ∉ keywords) (ha : ∀ n ∈ parts, Allowed projectParts n)
    (hp : ∀ n ∈ parts, Write.Legal E n) : Write.Legal E (project name text parts) := by
  refine .given (fun i _ hws _ => ?_)
  have hws' : Words E i ([name, text] ++ (written parts ++ [(str! "/end PROJECT")])) := hws
  obtain ⟨w1, w2⟩ := Words.append hws'
  obtain ⟨w2, w3⟩ := Words.append w2
  obtain ⟨N, o', h1, h2⟩ := project_nodes hs (m := 2) parts (i + 2)
    (Loose.fillF Loose.project.ps [.str name, .str text] Obj.empty) ha (fun n hn' => legal_read hw (hp n hn')) w2
  have hwd : ∀ t ∈ [name, text], Loose.Word t ∧ t ∉ Loose.project.subs.map (·.1) := by
    intro t ht'
    have : t ≠ [] ∧ t ∉ keywords := by
      simp only [List.mem_cons, List.not_mem_nil, or_false] at ht'
      rcases ht' with rfl | rfl
      · exact hn
      · exact ht
    exact ⟨this, fun hh => this.2 (project_keys hh)⟩
  have := Loose.irr_text hw project_mem (hdr := [name, text]) (vals := [.str name, .str text])
    (.cons rfl (.cons rfl .nil)) hwd w1 h1 (w3 0 _ rfl)
  have hlen : i + (name :: text :: (written parts ++ [(str! "/end PROJECT")])).length = i + 2 + (written parts).length + 1 := by
    simp; omega
  rw [hlen]
  have hv : projectStruct name text parts = o' := by
    funext g
    rw [h2]
    have e0 : Loose.fillF Loose.project.ps [.str name, .str text] Obj.empty = (((Obj.empty.set "Name" (.str name)).set
      "nameSet" (.bool true)).set "longIdentifier" (.str text)).set "longIdentifierSet" (.bool true) := rfl
    rw [e0]
    unfold projectStruct
    by_cases g1 : g = "Name"
    · subst g1; rw [if_pos rfl, belonging_nil (by decide)]; rfl
    rw [if_neg g1]
    by_cases g2 : g = "longIdentifier"
    · subst g2; rw [if_pos rfl, belonging_nil (by decide)]; rfl
    rw [if_neg g2]
    by_cases g3 : g = "nameSet" ∨ g = "longIdentifierSet"
    · rw [if_pos g3]
      rcases g3 with rfl | rfl <;> rw [belonging_nil (by decide)] <;> rfl
    rw [if_neg g3]
    have hz : ((((Obj.empty.set "Name" (.str name)).set "nameSet" (.bool true)).set "longIdentifier" (.str text)).set
        "longIdentifierSet" (.bool true)) g = .zero := by
      simp only [not_or] at g3
      simp only [Obj.set, if_neg g1, if_neg g2, if_neg g3.1, if_neg g3.2, Obj.empty]
    rw [hz]
    by_cases g4 : g = "header"
    · subst g4
      rw [if_pos rfl]
      exact (fold_keep .field _).symm
    rw [if_neg g4]
    by_cases g5 : g = "Modules"
    · subst g5
      rw [if_pos rfl]
      exact (fold_keep .append _).symm
    rw [if_neg g5, belonging_nil]
    · rfl
    · intro s hs'
      simp only [projectParts, List.mem_cons, List.not_mem_nil, or_false] at hs'
      rcases hs' with rfl | rfl
      · exact fun h => g4 h.symm
      · exact fun h => g5 h.symm
  rw [hv]
  exact this

theorem top_nodes {E : Env} {e : Nat} : ∀ (ns : List Node) (i : Nat) (o : Obj), (∀ n ∈ ns, Allowed fileParts n) →
    (∀ n ∈ ns, ReadBack E n) → (∀ j w, (written ns)[j]? = some w → E.toks[i + j]? = some w) → e = i + (written ns).length →
    E.toks[e]? = some [] →
    ∃ o', Top E i o e o' ∧ ∀ g, o' g = (belonging fileParts (values ns) g).foldl (keep .field) (o g)
  | [], i, o, _, _, _, he, hend => by
    subst he
    exact ⟨o, .stop hend, fun _ => rfl⟩
  | n :: ns, i, o, ha, hr, hw, he, hend => by
    rw [written] at hw he
    have ht : E.toks[i]? = some n.key := hw 0 _ rfl
    have hw1 : Words E i n.tail := fun j w hj => by
      have := hw (j + 1) w (by
        rw [List.getElem?_cons_succ, List.getElem?_append_left (List.getElem?_eq_some_iff.1 hj).1]; exact hj)
      unfold TokAfter
      rw [Nat.add_assoc]; exact this
    have hw2 : ∀ j w, (written ns)[j]? = some w → E.toks[i + n.tail.length + 1 + j]? = some w := fun j w hj => by
      have := hw (n.tail.length + 1 + j) w (by
        rw [show n.tail.length + 1 + j = (n.tail.length + j) + 1 by omega, List.getElem?_cons_succ,
          List.getElem?_append_right (by omega)]
        simpa using hj)
      rw [← this]; congr 1; omega
    have objStep : ∀ fn, fnOf n = some fn → (∃ f md, (n.key, Sub.obj fn f md) ∈ fileParts) →
        ∃ o', Top E i o e o' ∧ ∀ g, o' g = (belonging fileParts (values (n :: ns)) g).foldl (keep .field) (o g) := by
      rintro fn hfn ⟨f, md, hs'⟩
      have hret := hr n (List.mem_cons_self ..) fn hfn i ht hw1
        (by rw [no_stops_file (ha n (List.mem_cons_self ..))]; simp)
      obtain ⟨o', g1, g2⟩ := top_nodes ns (i + n.tail.length + 1) (o.set f n.value)
        (fun x hx => ha x (List.mem_cons_of_mem _ hx)) (fun x hx => hr x (List.mem_cons_of_mem _ hx)) hw2
        (by rw [he]; simp; omega) hend
      refine ⟨o', .part ht ?_ hret g1, fun g => ?_⟩
      · simp only [fileParts, List.mem_cons, Prod.mk.injEq, Sub.obj.injEq, List.not_mem_nil, or_false] at hs'
        simp only [heads, List.mem_cons, Prod.mk.injEq, List.not_mem_nil, or_false]
        rcases hs' with ⟨h1, h2, h3, _⟩ | ⟨h1, h2, h3, _⟩ | ⟨h1, h2, h3, _⟩
        · exact Or.inl ⟨h1, h2, h3⟩
        · exact Or.inr (Or.inl ⟨h1, h2, h3⟩)
        · exact Or.inr (Or.inr ⟨h1, h2, h3⟩)
      · have hbc := belonging_cons fileParts (by decide) hs' n.value (values ns) g
        rw [g2, values]
        by_cases hg : f = g
        · subst hg
          rw [show belonging fileParts ((n.key, n.value) :: values ns) f = _ from hbc.trans (if_pos rfl), List.foldl_cons,
            show (o.set f n.value) f = n.value from if_pos rfl]
          rfl
        · rw [show belonging fileParts ((n.key, n.value) :: values ns) g = _ from hbc.trans (if_neg hg), show (o.set f n.value) g = o g from if_neg (Ne.symm hg)]
    have hall := ha n (List.mem_cons_self ..)
    cases n with
    | obj k fn ws ms parts => exact objStep fn rfl hall
    | given k fn ts v => exact objStep fn rfl hall
    | choice k w =>
      obtain ⟨e, f, c, h1, _⟩ := hall
      simp [fileParts] at h1

/-- C70 for token lists: the tokens of a written file are read with exactly its values. -/
theorem C70_tokens_partial {E : Env} (hw : Wf E) (hs : E.multi = false) {ns : List Node} (ha : ∀ n ∈ ns, Allowed fileParts n)
    (hp : ∀ n ∈ ns, Write.Legal E n) (htoks : E.toks = written ns ++ [[]]) :
    A2l.parse E .parseA2l 0 = .ok (written ns).length (.obj (fileStruct ns)) false := by
  obtain ⟨o', h1, h2⟩ := top_nodes (E := E) (e := (written ns).length) ns 0 Obj.empty ha (fun n hn => legal_read hw (hp n hn))
    (fun j w hj => by
      rw [htoks, Nat.zero_add, List.getElem?_append_left (List.getElem?_eq_some_iff.1 hj).1]; exact hj) (by omega)
    (by rw [htoks]; simp)
  have hmt := mtGood_seq hs
  have hret := (C56_file hw hmt).2 ⟨o', rfl, h1⟩
  have ho : o' = fileStruct ns := by
    funext g
    rw [h2]
    exact fold_keep .field _
  rw [ho] at hret
  obtain ⟨j, v, e, g1, g2, _⟩ := parse_ok hw hmt .parseA2l (by decide) 0 (by rw [htoks]; simp)
  rw [g1]
  exact (hret.unique g2).symm

theorem writable_text {t : Str} (h : Writable t) : ∃ d, Spec.IsText t d ∧ d.tokens = [t] := by
  have hsep : Spec.Blank ['\n'] := by
    intro c hc
    simp only [List.mem_cons, List.not_mem_nil, or_false] at hc
    subst hc; decide
  have mk : ∀ it : Spec.Item, it.Wf → (∀ c, it ≠ .lineComment c) → it.text = t → it.tokens = [t] →
      ∃ d, Spec.IsText t d ∧ Spec.Doc.tokens d = [t] := by
    intro it h1 h2 h3 h4
    refine ⟨[(it, ['\n'])], ⟨fun p hp => ?_, [], fun c hc => (List.not_mem_nil hc).elim, Or.inr ?_⟩, ?_⟩
    · simp only [List.mem_cons, List.not_mem_nil, or_false] at hp
      subst hp
      exact ⟨h1, hsep, by simp, fun ⟨c, hc⟩ => absurd hc (h2 c)⟩
    · simp [Spec.Doc.text, h3]
    · simp [Spec.Doc.tokens, h4]
  rcases h with h | ⟨kw, h1, h2⟩ | ⟨c, h1, h2, h3, h4⟩
  · exact mk (.word t) h (by simp) rfl rfl
  · have hb : Spec.Blank [' '] := by
      intro c hc
      simp only [List.mem_cons, List.not_mem_nil, or_false] at hc
      subst hc; decide
    rcases h1 with rfl | rfl
    · exact mk (.tag true [' '] kw) ⟨hb, by simp, h2⟩ (by simp) rfl rfl
    · exact mk (.tag false [' '] kw) ⟨hb, by simp, h2⟩ (by simp) rfl rfl
  · refine mk (.quoted c) h2 (by simp) h1.symm ?_
    simp only [Spec.Item.tokens]
    rw [← h1, h3]

theorem plain_no_nl {w : Str} (h : Spec.Plain w) : '\n' ∉ w := fun hh => absurd (h.2 _ hh).1 (by decide)

theorem writable_line {t : Str} (h : Writable t) : '\n' ∉ t ∧ t ≠ [] := by
  rcases h with h | ⟨kw, h1, h2⟩ | ⟨c, rfl, h2, h3, h4⟩
  · exact ⟨plain_no_nl h, h.1⟩
  · have := plain_no_nl h2
    rcases h1 with rfl | rfl
    · refine ⟨fun hh => ?_, by simp⟩
      rcases List.mem_append.1 hh with hh | hh
      · revert hh; decide
      · exact this hh
    · refine ⟨fun hh => ?_, by simp⟩
      rcases List.mem_append.1 hh with hh | hh
      · revert hh; decide
      · exact this hh
  · refine ⟨fun hh => ?_, by simp⟩
    simp only [List.cons_append, List.mem_cons, List.mem_append, List.not_mem_nil, or_false] at hh
    rcases hh with hh | hh | hh
    · revert hh; decide
    · exact h4 hh
    · revert hh; decide

/-- Tokens written one per line are read back, by any number of workers. -/
theorem C70_lines (graphic : Char → Bool) {ts : List Str} (hne : ts ≠ []) (hwr : ∀ t ∈ ts, Writable t)
    (hc : Clean graphic (unlines ts)) {n : Nat} (hn : 0 < n) :
    tokensOfFile graphic n (unlines ts) = some (ts ++ [[]]) := by
  have hsplit := split_unlines hne (fun l hl => (writable_line (hwr l hl)).1)
  have hd : ∀ l, ∃ d, l ∈ ts → Spec.IsText l d ∧ Spec.Doc.tokens d = [l] := by
    intro l
    by_cases hl : l ∈ ts
    · obtain ⟨d, h⟩ := writable_text (hwr l hl); exact ⟨d, fun _ => h⟩
    · exact ⟨[], fun h => absurd h hl⟩
  obtain ⟨doc, hdoc⟩ := Classical.skolem.1 hd
  rw [C24_lines_partial graphic _ hc n hn doc (fun l hl => (hdoc l (hsplit ▸ hl)).1), hsplit]
  have : (ts.map fun l => (doc l).tokens) = ts.map fun l => [l] :=
    List.map_congr_left (fun l hl => (hdoc l hl).2)
  rw [this]
  congr 2
  clear this hdoc hd hsplit hc hwr hne
  induction ts with
  | nil => rfl
  | cons t ts ih => simp only [List.map_cons, List.flatten_cons, ih]; rfl

end Verif.A2l.Props
