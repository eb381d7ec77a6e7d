import Verif.Conc.HexRunProps

/-!
C99: the number of steps a hex parser makes, whatever the scheduler does.
-/

namespace Verif.Conc.HexRun

open Verif.Go Verif.Hex Verif.Hex.Spec
open Verif.Ihex (Mem Outcome DataByte insertBytes)

variable {R : Type}

/-- Steps still to come: those of the phase and the bounds `C` and `D` for the phases that check sums and collect bytes. -/
def State.left {P : Prog R} (w : P.shared.S → Nat) (C D : Nat) : State P → Nat
  | .parsing p => p.work + C + D + 4
  | .checking f s => f.work + w s + D + 3
  | .waiting s => w s + D + 2
  | .collecting p _ => p.work + 1
  | .returned _ (.offsets s) => w s
  | .returned _ (.data p) => p.work
  | .crashed => 0

theorem step_left {P : Prog R} {n : Nat} {lines : List Str} {recs : List R} (w : P.shared.S → Nat) (C D : Nat)
    (hw : ∀ ks s k s', P.shared.run (P.shared.start recs) ks = some s → P.shared.step s k = some s' → w s' < w s)
    (hC : ∀ vss, ((shares? recs n).bind fun parts => parts.mapM fun p => p.mapM P.valid) = some vss →
      (FanIn.init n (vss.map fun vs => vs.map fun v => v == some true)).work + w (P.shared.start recs) ≤ C)
    (hD : ∀ ks s bss, P.shared.run (P.shared.start recs) ks = some s →
      ((shares? (P.shared.recs s) n).bind fun parts => parts.mapM P.bytes) = some bss →
      (Pipeline.init 1 bss : Pipeline.State (List DataByte)).work ≤ D)
    {s s' : State P} {o : Op} (hi : Inv P n lines recs s) (hs : step P n s o = some s') : s'.left w C D < s.left w C D := by
  cases hi with
  | @parsing p scripts h hsc =>
    cases o with
    | chan o =>
      obtain ⟨p', h1, rfl⟩ := Option.map_eq_some_iff.1 hs
      have := Pipeline.step_work h1
      simp only [State.left]; omega
    | main =>
      simp only [step] at hs
      split at hs
      · next hp =>
        cases hs
        have hacc : p.acc = scripts.flatten := by
          have := h.content
          rw [hp, List.drop_length] at this
          simpa using this
        rw [hacc, hsc]
        unfold startCheck
        cases hv : (shares? recs n).bind fun parts => parts.mapM fun p => p.mapM P.valid with
        | none => simp only [State.left]; omega
        | some vss => have := hC vss hv; simp only [State.left]; omega
      · cases hs
    | check o => cases hs
    | off k => cases hs
  | @checking f s scripts h hb ks hr =>
    cases o with
    | chan o => cases hs
    | check o =>
      obtain ⟨f', h1, rfl⟩ := Option.map_eq_some_iff.1 hs
      have := FanIn.step_work h1
      simp only [State.left]; omega
    | off k =>
      obtain ⟨s', h1, rfl⟩ := Option.map_eq_some_iff.1 hs
      have := hw ks _ k s' hr h1
      simp only [State.left]; omega
    | main =>
      simp only [step] at hs
      split at hs <;> cases hs <;> (simp only [State.left]; omega)
  | @waiting s hb ks hr =>
    cases o with
    | chan o => cases hs
    | check o => cases hs
    | off k =>
      obtain ⟨s', h1, rfl⟩ := Option.map_eq_some_iff.1 hs
      have := hw ks _ k s' hr h1
      simp only [State.left]; omega
    | main =>
      simp only [step] at hs
      split at hs
      · cases hs
        unfold startData
        cases hb : (shares? (P.shared.recs s) n).bind fun parts => parts.mapM P.bytes with
        | none => simp only [State.left]; omega
        | some bss => have := hD ks s bss hr hb; simp only [State.left]; omega
      · cases hs
  | collecting hb ks s hr hd scripts hsc h hroom hm =>
    cases o with
    | chan o =>
      simp only [step] at hs
      split at hs
      · cases hs
      · next p' hp' =>
        have := Pipeline.step_work hp'
        split at hs <;> cases hs <;> (simp only [State.left]; omega)
    | main =>
      simp only [step] at hs
      split at hs <;> cases hs
      simp only [State.left]; omega
    | check o => cases hs
    | off k => cases hs
  | @returned out rest h hr =>
    cases rest with
    | offsets s =>
      obtain ⟨ks, hr⟩ := hr
      cases o with
      | off k =>
        obtain ⟨s', h1, rfl⟩ := Option.map_eq_some_iff.1 hs
        exact hw ks _ k s' hr h1
      | chan o => cases hs
      | check o => cases hs
      | main => cases hs
    | data p =>
      cases o with
      | chan o =>
        cases o with
        | send i =>
          obtain ⟨p', h1, rfl⟩ := Option.map_eq_some_iff.1 hs
          exact Pipeline.step_work h1
        | close i =>
          obtain ⟨p', h1, rfl⟩ := Option.map_eq_some_iff.1 hs
          exact Pipeline.step_work h1
        | recv => cases hs
        | handoff => cases hs
        | advance => cases hs
      | off k => cases hs
      | check o => cases hs
      | main => cases hs

theorem run_left {P : Prog R} {n : Nat} (hn : 0 < n) {lines : List Str} {recs : List R} (ht : Total P n lines recs)
    (w : P.shared.S → Nat) (C D : Nat)
    (hw : ∀ ks s k s', P.shared.run (P.shared.start recs) ks = some s → P.shared.step s k = some s' → w s' < w s)
    (hC : ∀ vss, ((shares? recs n).bind fun parts => parts.mapM fun p => p.mapM P.valid) = some vss →
      (FanIn.init n (vss.map fun vs => vs.map fun v => v == some true)).work + w (P.shared.start recs) ≤ C)
    (hD : ∀ ks s bss, P.shared.run (P.shared.start recs) ks = some s →
      ((shares? (P.shared.recs s) n).bind fun parts => parts.mapM P.bytes) = some bss →
      (Pipeline.init 1 bss : Pipeline.State (List DataByte)).work ≤ D)
    {s s' : State P} {os : List Op} (hi : Inv P n lines recs s) (hs : run P n s os = some s') :
    os.length + s'.left w C D ≤ s.left w C D := by
  induction os generalizing s with
  | nil => cases hs; simp
  | cons o os ih =>
    obtain ⟨s1, h1, h2⟩ := Option.bind_eq_some_iff.1 hs
    have := ih (step_inv hn ht hi h1) h2
    have := step_left w C D hw hC hD hi h1
    simp only [List.length_cons]
    omega

/-! ### Sizes -/

theorem mapM_length_sum {α β : Type} {f : List α → Option (List β)} (hf : ∀ l l', f l = some l' → l'.length ≤ l.length + 1) :
    ∀ {parts : List (List α)} {bss : List (List β)}, parts.mapM f = some bss →
      (bss.map List.length).sum ≤ parts.flatten.length + parts.length ∧ bss.length = parts.length
  | [], bss, h => by simp at h; subst h; simp
  | a :: l, bss, h => by
    rw [List.mapM_cons] at h
    simp only [Option.bind_eq_bind, Option.bind_eq_some_iff, Option.pure_def, Option.some.injEq] at h
    obtain ⟨y, hy, ys, hys, rfl⟩ := h
    obtain ⟨h1, h2⟩ := mapM_length_sum hf hys
    have h3 := hf a y hy
    simp only [List.map_cons, List.sum_cons, List.flatten_cons, List.length_append, List.length_cons]
    exact ⟨by omega, by omega⟩

theorem mapM_mapM_length {α β : Type} {f : α → Option β} : ∀ {parts : List (List α)} {vss : List (List β)},
    parts.mapM (fun p => p.mapM f) = some vss → (vss.map List.length).sum = parts.flatten.length ∧ vss.length = parts.length
  | [], vss, h => by simp at h; subst h; simp
  | a :: l, vss, h => by
    rw [List.mapM_cons] at h
    simp only [Option.bind_eq_bind, Option.bind_eq_some_iff, Option.pure_def, Option.some.injEq] at h
    obtain ⟨y, hy, ys, hys, rfl⟩ := h
    obtain ⟨h1, h2⟩ := mapM_mapM_length hys
    have h3 := (mapM_some hy).1
    simp only [List.map_cons, List.sum_cons, List.flatten_cons, List.length_append, List.length_cons]
    exact ⟨by omega, by omega⟩

theorem check_work {P : Prog R} {n : Nat} (hn : 0 < n) {recs : List R} {vss : List (List (Option Bool))}
    (h : ((shares? recs n).bind fun parts => parts.mapM fun p => p.mapM P.valid) = some vss) :
    (FanIn.init n (vss.map fun vs => vs.map fun v => v == some true)).work = 2 * recs.length + n + 1 := by
  obtain ⟨parts, hp, hv⟩ := Option.bind_eq_some_iff.1 h
  obtain ⟨hf, hl⟩ := mem_flatten_shares hn hp
  obtain ⟨h1, h2⟩ := mapM_mapM_length hv
  rw [FanIn.init_work]
  simp only [List.map_map, List.length_map]
  have : (vss.map (List.length ∘ fun vs => vs.map fun v => v == some true)) = vss.map List.length :=
    List.map_congr_left fun vs _ => by simp
  rw [this, h1, h2, hf, hl]

theorem data_work {P : Prog R} {n : Nat} (hn : 0 < n) (hb : ∀ l bs, P.bytes l = some bs → bs.length ≤ l.length + 1) {recs : List R}
    {bss : List (List (List DataByte))} (h : ((shares? recs n).bind fun parts => parts.mapM P.bytes) = some bss) :
    (Pipeline.init 1 bss : Pipeline.State (List DataByte)).work ≤ 2 * recs.length + 4 * n := by
  obtain ⟨parts, hp, hv⟩ := Option.bind_eq_some_iff.1 h
  obtain ⟨hf, hl⟩ := mem_flatten_shares hn hp
  obtain ⟨h1, h2⟩ := mapM_length_sum hb hv
  rw [Pipeline.init_work]
  rw [hf, hl] at h1
  omega

theorem init_left {P : Prog R} {n : Nat} (hn : 0 < n) {lines : List Str} (w : P.shared.S → Nat) (C D : Nat) :
    (init P n lines).left w C D ≤ 4 * n + C + D + 4 := by
  unfold init
  cases hr : (shares? lines n).bind fun parts => parts.mapM P.parse with
  | none => simp [State.left]
  | some rss =>
    obtain ⟨parts, hp, hv⟩ := Option.bind_eq_some_iff.1 hr
    obtain ⟨_, hl⟩ := mem_flatten_shares hn hp
    have h1 := (mapM_some hv).1
    simp only [State.left, Pipeline.init_work, List.map_map, List.length_map]
    have : ∀ l : List (List R), (l.map (List.length ∘ fun r => [r])).sum = l.length := by
      intro l
      induction l with
      | nil => rfl
      | cons a l ih => simp only [List.map_cons, List.sum_cons, ih, List.length_cons, Function.comp, List.length_nil]; omega
    rw [this]
    omega

theorem parse_length {α : Type} {f : List Str → Option (List α)} (hf : ∀ ls rs, f ls = some rs → rs.length ≤ ls.length) :
    ∀ {parts : List (List Str)} {rss : List (List α)}, parts.mapM f = some rss → rss.flatten.length ≤ parts.flatten.length
  | [], rss, h => by simp at h; subst h; simp
  | a :: l, rss, h => by
    rw [List.mapM_cons] at h
    simp only [Option.bind_eq_bind, Option.bind_eq_some_iff, Option.pure_def, Option.some.injEq] at h
    obtain ⟨y, hy, ys, hys, rfl⟩ := h
    have h1 := parse_length hf hys
    have h3 := hf a y hy
    simp only [List.flatten_cons, List.length_append]
    omega

theorem recs_length {P : Prog R} {n : Nat} (hn : 0 < n) {lines : List Str} {recs : List R} (ht : Total P n lines recs)
    (hf : ∀ ls rs, P.parse ls = some rs → rs.length ≤ ls.length) : recs.length ≤ lines.length := by
  obtain ⟨rss, h1, rfl⟩ := ht.parse
  obtain ⟨parts, hp, hv⟩ := Option.bind_eq_some_iff.1 h1
  have := parse_length hf hv
  rw [(mem_flatten_shares hn hp).1] at this
  exact this

theorem ihex_parse_length : ∀ (ls : List Str) (rs : List Ihex.Record), Ihex.parseRecordRoutine ls = some rs → rs.length ≤ ls.length
  | [], rs, h => by cases h; simp
  | l :: ls, rs, h => by
    have ih := ihex_parse_length ls
    unfold Ihex.parseRecordRoutine at h
    split at h
    · obtain ⟨x, hx, h⟩ := Option.bind_eq_some_iff.1 h
      cases x with
      | error e => cases h; simp
      | ok r =>
        obtain ⟨rs', h1, h⟩ := Option.bind_eq_some_iff.1 h
        cases h
        have := ih rs' h1
        simp only [List.length_cons]; omega
    · have := ih rs h
      simp only [List.length_cons]; omega

theorem srec_parse_length : ∀ (ls : List Str) (rs : List Srec.Record), Srec.parseRecordRoutine ls = some rs → rs.length ≤ ls.length
  | [], rs, h => by cases h; simp
  | l :: ls, rs, h => by
    have ih := srec_parse_length ls
    unfold Srec.parseRecordRoutine at h
    split at h
    · obtain ⟨x, hx, h⟩ := Option.bind_eq_some_iff.1 h
      cases x with
      | none => cases h; simp
      | some r =>
        obtain ⟨rs', h1, h⟩ := Option.bind_eq_some_iff.1 h
        cases h
        have := ih rs' h1
        simp only [List.length_cons]; omega
    · have := ih rs h
      simp only [List.length_cons]; omega

theorem ihex_batches (l : List Ihex.Record) (bs : List (List DataByte)) (h : Ihex.calcDataRoutine l = some bs) : bs.length ≤ l.length + 1 := by
  unfold Ihex.calcDataRoutine at h
  obtain ⟨es, hes, hb⟩ := Option.bind_eq_some_iff.1 h
  cases hb
  have h1 := (mapM_some hes).1
  have h2 := List.length_filter_le (·.failed) es
  have h3 := List.length_filter_le (fun r : Ihex.Record => decide (r.recordType = Ihex.dataRecordToken)) l
  simp only [List.length_append, List.length_map, List.length_cons, List.length_nil]
  omega

theorem srec_batches (l : List Srec.Record) (bs : List (List DataByte)) (h : Srec.calcDataRoutine l = some bs) : bs.length ≤ l.length + 1 := by
  unfold Srec.calcDataRoutine at h
  obtain ⟨es, hes, hb⟩ := Option.bind_eq_some_iff.1 h
  cases hb
  have h1 := (mapM_some hes).1
  have h2 := List.length_filter_le (·.failed) es
  have h3 := List.length_filter_le (fun r : Srec.Record => decide (r.recordType = Srec.dataRecordToken)) l
  simp only [List.length_append, List.length_map, List.length_cons, List.length_nil]
  omega

theorem offsets_work (n : Nat) (recs : List Ihex.Record) : (Ihex.Locks.start n recs).work ≤ n * (4 * recs.length + 1) := by
  unfold Ihex.Locks.LState.work Ihex.Locks.start
  simp only [List.map_map]
  have : ∀ l : List Nat, (l.map (Ihex.Locks.LWorker.work recs.length ∘ fun i =>
      ({ pos := shareStart recs.length n i, offs := Ihex.zeroOffset, first := false, pc := .top } : Ihex.Locks.LWorker))).sum
        ≤ l.length * (4 * recs.length + 1) := by
    intro l
    induction l with
    | nil => simp
    | cons a l ih =>
      simp only [List.map_cons, List.sum_cons, List.length_cons, Nat.succ_mul, Function.comp, Ihex.Locks.LWorker.work] at ih ⊢
      omega
  have := this (List.range n)
  simpa using this

theorem step_recs_length {s s' : Ihex.Locks.LState} {k : Nat} (h : Ihex.Locks.step s k = some s') : s'.recs.length = s.recs.length := by
  unfold Ihex.Locks.step at h
  repeat' split at h
  all_goals first | cases h; done | (cases h; simp)

theorem run_recs_length {s s' : Ihex.Locks.LState} {ks : List Nat} (h : Ihex.Locks.run s ks = some s') : s'.recs.length = s.recs.length := by
  induction ks generalizing s with
  | nil => cases h; rfl
  | cons k ks ih =>
    obtain ⟨s1, h1, h2⟩ := Option.bind_eq_some_iff.1 h
    rw [ih h2, step_recs_length h1]

/-! ### C99 -/

/-- C99, Intel HEX: every run of the parser on a file of `L` lines with `n` workers has at most `4 (n + 1) L + 10 n + 5` steps,
whatever the lines are and whatever the scheduler does; the steps of the goroutines left behind included. -/
theorem C99_ihex {n : Nat} (hn : 0 < n) (lines : List Str) {os : List Op} {s : State (ihex n)}
    (h : run (ihex n) n (init (ihex n) n lines) os = some s) : os.length ≤ 4 * (n + 1) * lines.length + 10 * n + 5 := by
  have ht := ihex_total hn lines
  have hlen := recs_length hn ht ihex_parse_length
  have hoff := offsets_work n (Ihex.recordsOf n lines)
  have h1 := run_left hn ht Ihex.Locks.LState.work
    (2 * (Ihex.recordsOf n lines).length + n + 1 + n * (4 * (Ihex.recordsOf n lines).length + 1))
    (2 * (Ihex.recordsOf n lines).length + 4 * n) ihex_shared_work
    (fun vss hv => by
      rw [check_work hn hv]
      exact Nat.add_le_add_left hoff _)
    (fun ks s bss hr hb => by
      have := data_work hn ihex_batches hb
      have hl : ((ihex n).shared.recs s).length = (Ihex.recordsOf n lines).length := run_recs_length (ihex_run hr)
      rw [hl] at this
      exact this)
    (init_inv ht) h
  have h2 := init_left (P := ihex n) hn (lines := lines) Ihex.Locks.LState.work
    (2 * (Ihex.recordsOf n lines).length + n + 1 + n * (4 * (Ihex.recordsOf n lines).length + 1))
    (2 * (Ihex.recordsOf n lines).length + 4 * n)
  have h3 : n * (4 * (Ihex.recordsOf n lines).length + 1) ≤ 4 * (n * lines.length) + n := by
    rw [Nat.mul_add, Nat.mul_one, Nat.mul_left_comm]
    have := Nat.mul_le_mul_left n hlen
    omega
  have h4 : 4 * (n + 1) * lines.length = 4 * (n * lines.length) + 4 * lines.length := by
    rw [Nat.mul_assoc, Nat.add_mul, Nat.mul_add, Nat.one_mul]
  omega

/-- C99, S19: at most `4 L + 9 n + 5` steps. -/
theorem C99_srec {n : Nat} (hn : 0 < n) (lines : List Str) {os : List Op} {s : State srec}
    (h : run srec n (init srec n lines) os = some s) : os.length ≤ 4 * lines.length + 9 * n + 5 := by
  have ht := srec_total hn lines
  have hlen := recs_length hn ht srec_parse_length
  have h1 := run_left hn ht (fun _ => 0)
    (2 * ((Srec.Spec.recognised n lines).map Srec.recOfLine).length + n + 1)
    (2 * ((Srec.Spec.recognised n lines).map Srec.recOfLine).length + 4 * n) srec_shared_work
    (fun vss hv => by
      rw [check_work hn hv]
      exact Nat.le_refl _)
    (fun ks s bss hr hb => by
      cases srec_reach hr
      exact data_work hn srec_batches hb)
    (init_inv ht) h
  have h2 := init_left (P := srec) hn (lines := lines) (fun _ => 0)
    (2 * ((Srec.Spec.recognised n lines).map Srec.recOfLine).length + n + 1)
    (2 * ((Srec.Spec.recognised n lines).map Srec.recOfLine).length + 4 * n)
  omega

-- C99 on the run of C82 with two CPUs: it has 45 steps, and no run on the three lines has more than 61
example : okRun.length = 45 ∧ (run (ihex 2) 2 (init (ihex 2) 2 okLines) okRun).isSome = true := by decide +kernel
example (os : List Op) (s : State (ihex 2)) (h : run (ihex 2) 2 (init (ihex 2) 2 okLines) os = some s) : os.length ≤ 61 :=
  C99_ihex (by decide) okLines h
example (os : List Op) (s : State srec) (h : run srec 2 (init srec 2 ["S30600000010FFEA".toList, "S30600000020FEDB".toList]) os = some s) :
    os.length ≤ 31 := C99_srec (by decide) _ h

end Verif.Conc.HexRun
