import Verif.Conc.Props
import Verif.Ihex.Props
import Verif.Srec.Props
import Verif.Calib.LinkProps
import Verif.A2l.LayoutOne

/-!
C81: `ReadCalibration` (calib_data.go:45-98) from the two files to the answers of `GetObjectByIdent` (record_manager.go:45-101): the state
machine of `Conc/ReadCal.lean` with the models of the parsers in it.
-/

namespace Verif.EndToEnd
open Verif.Go Verif.A2l Lang Write Decl Shared Verif.Conc.ReadCal Verif.Ihex

/-- The error of a reader. -/
inductive Err where
  | a2l
  | hex (e : ParseError)
  | unsupported
  /-- the file cannot be read -/
  | unreadable

/-- What a call of `ReadCalibration` works on: the A2L file is read by call `call` of `a2l.ParseFromFile`, `before` and `after`
are the steps of other calls; path and content of the hex file; `sched` is the schedule of the workers of the Intel HEX parser;
`cpus` is `runtime.NumCPU()`. -/
structure Inputs where
  cpus : Nat
  setup : Setup
  call : Nat
  before : List Nat
  after : List Nat
  path : Str
  content : Str
  sched : List Nat

/-- a2l/a2l.go:25, ihex32/hex.go:17, srec19/hex.go:17: the A2L parser has two workers for each CPU, the hex parsers one. -/
def OnMachine (I : Inputs) : Prop := 0 < I.cpus ∧ I.setup.np = I.cpus * 2

theorem OnMachine.np_pos {I : Inputs} (h : OnMachine I) : 0 < I.setup.np := by obtain ⟨h1, h2⟩ := h; omega

/-- calib_data.go:102-114 (`readA2L`): what is sent; `none` if the parser does not return. -/
def a2lSent (I : Inputs) : Option (Except Err Lang.Obj) :=
  match (calls I.setup Shared.init (I.before ++ List.replicate (I.setup.np + 3) I.call ++ I.after)).result I.call with
  | some (.ok _ _ true) => some (.error .a2l)
  | some (.ok _ (.obj o) false) => some (.ok o)
  | _ => none

/-- What the hex readers send for an outcome of a hex parser. -/
def ofOutcome (o : Outcome) : Except Err Mem :=
  match o.err with
  | none => .ok o.map
  | some e => .error (.hex e)

/-- calib_data.go:118-155 (`readHex`) for a readable file; `none` if the parser does not return. -/
def hexSent (I : Inputs) : Option (Except Err Mem) :=
  match format I.path with
  | some .intelHex => match Ihex.parseFromText I.cpus I.sched I.content with
    | some (some o) => some (ofOutcome o)
    | _ => none
  | some .s19 => (Srec.parseFromText I.cpus I.content).map ofOutcome
  | none => some (.error .unsupported)

/-- A call of `ReadCalibration` returns `r`, under some schedule of its goroutines. -/
def ReadsTo (I : Inputs) (r : Result Lang.Obj Mem Err) : Prop :=
  ∃ ra rh os s, a2lSent I = some ra ∧ hexSent I = some rh ∧ run ra rh (init Lang.Obj Mem Err) os = some s ∧ s.main = .ret r

/-! ### Specification -/

/-- The A2L file of the call consists of the objects `ns`: laid out in any way, with several modules, or with one and no
harmful cut between workers. -/
inductive Describes (S : Setup) (c : Nat) : List Node → Prop
  | several {ns : List Node} (ha : ∀ n ∈ ns, Allowed fileParts n) (hp : ∀ n ∈ ns, Whole (Props.writtenEnv S.floatOk ns) n)
      (hne : [] ∉ written ns) (htext : Spec.LaidOut S.graphic S.np (S.text c) (written ns))
      (h2 : 2 ≤ (written ns).count (str! "/begin MODULE")) (h32 : (written ns).count (str! "/begin MODULE") < 2 ^ 32) : Describes S c ns
  | one {ns top heads parts : List Node} {pn pt mn mt : Str} {i : Nat}
      (hns : ns = top ++ [project pn pt (heads ++ [aModule mn mt parts])]) (hi : i = (written top).length + 3 + (written heads).length)
      (hat : ∀ n ∈ top, Allowed fileParts n) (hpt : ∀ n ∈ top, Whole (Props.writtenEnv S.floatOk ns) n)
      (hpn : pn ≠ [] ∧ pn ∉ keywords) (hptx : pt ≠ [] ∧ pt ∉ keywords)
      (hah : ∀ n ∈ heads, Allowed projectParts n) (hph : ∀ n ∈ heads, Whole (Props.writtenEnv S.floatOk ns) n)
      (hpm : Whole (Props.writtenEnv S.floatOk ns) (aModule mn mt parts))
      (hne : [] ∉ written ns) (htext : Spec.LaidOut S.graphic S.np (S.text c) (written ns))
      (h1 : (written ns).count (str! "/begin MODULE") ≤ 1) (h1' : (written ns).count (str! "/end MODULE") ≤ 1)
      (hcuts : ModSpec.SafeCuts (Props.writtenEnv S.floatOk ns) (i + 2) (i + 3 + (written parts).length) S.np (placed (i + 3) parts))
      (hcons : ModSpec.Consistent (placed (i + 3) parts))
      (hsched : ∀ i < (written ns).length + 1, mtModule (Props.writtenEnv S.floatOk ns) S.np (S.sched c i) i ≠ .timeout) : Describes S c ns

/-- The hex file holds the bytes of an image, in the format its name says. -/
inductive Holds (path content : Str) : List (Nat × Nat) → Prop
  | s19 {c : Hex.Spec.Case} {bs : List Srec.Spec.Block} {sep : Str} (hp : Conc.extS19 <:+ Conc.inSmall path) (hx : ¬ Conc.extHex <:+: Conc.inSmall path)
      (hfit : ∀ b ∈ bs, b.Fits) (hnd : ((Srec.Spec.imageBytes bs).map Prod.fst).Nodup) (hne : bs ≠ [])
      (hsep : sep = ['\r', '\n'] ∨ sep = ['\n']) (hc : content = joinLines sep (Srec.Spec.encode c bs)) :
      Holds path content (Srec.Spec.imageBytes bs)
  | intelHex {c : Hex.Spec.Case} {bs : List Ihex.Spec.Block} {sep : Str} (hp : Conc.extHex <:+ Conc.inSmall path)
      (hfit : ∀ b ∈ bs, b.Fits) (hnd : ((Ihex.Spec.imageBytes bs).map Prod.fst).Nodup) (hz : Ihex.Spec.ZeroBlocksLast bs)
      (hsep : sep = ['\r', '\n'] ∨ sep = ['\n']) (hc : content = joinLines sep (Ihex.Spec.encode c bs)) :
      Holds path content (Ihex.Spec.imageBytes bs)

/-- The last of the objects `objs` that begins with the token `key` and has the name `ident` in its field `f`. -/
def lastCalled (objs : List Node) (key : Str) (f : String) (ident : Str) : Option Val :=
  ((objs.filter fun n => n.key = key ∧ n.value.strField f = ident).getLast?).map (·.value)

/-- The kinds of objects that `GetObjectByIdent` searches: first token, field of the name, what the caller gets. -/
def searched (fv : Str → Rat) : List (Str × String × (Val → Calib.Obj Val)) := [
  ((str! "/begin AXIS_PTS"), "name", .axisPts), ((str! "/begin CHARACTERISTIC"), "Name", .characteristic),
  ((str! "/begin COMPU_METHOD"), "Name", fun v => .compuMethod (Link.compuMethod fv (Link.objOf v))),
  ((str! "/begin COMPU_TAB"), "Name", fun v => .compuTab (Link.compuTab fv (Link.objOf v))),
  ((str! "/begin COMPU_VTAB"), "Name", fun v => .compuVTab (Link.compuVTab fv (Link.objOf v))),
  ((str! "/begin COMPU_VTAB_RANGE"), "Name", fun v => .compuVTabRange (Link.compuVTabRange fv (Link.objOf v))),
  ((str! "/begin FUNCTION"), "name", .function), ((str! "/begin GROUP"), "groupName", .group),
  ((str! "/begin MEASUREMENT"), "name", .measurement),
  ((str! "/begin RECORD_LAYOUT"), "Name", fun v => .recordLayout (Link.recordLayout (Link.objOf v))),
  ((str! "/begin UNIT"), "name", .unit)]

/-- `x` is what is called `ident` among the objects of a module: the last object of a searched kind with that name, or the
constant with that name in the last MOD_PAR. -/
def IsCalled (fv : Str → Rat) (objs : List Node) (ident : Str) (x : Calib.Obj Val) : Prop :=
  (∃ k ∈ searched fv, ∃ v, lastCalled objs k.1 k.2.1 ident = some v ∧ x = k.2.2 v) ∨
  ∃ p v, ((objs.filter (·.key = (str! "/begin MOD_PAR"))).getLast?).map (·.value) = some (.obj p) ∧
    Obj.map p "SystemConstants" ident = some v ∧ x = .systemConstant (Link.systemConstant (Link.objOf v))

/-! ### Reading -/

theorem sent_a2l {I : Inputs} {ns : List Node} (hfl : I.setup.floatOk [] = false) (hnp : 0 < I.setup.np) (hb : I.call ∉ I.before)
    (h : Describes I.setup I.call ns) : a2lSent I = some (.ok (fileStruct ns)) := by
  unfold a2lSent
  cases h with
  | several ha hp hne htext h2 h32 =>
    rw [Props.C80_file_partial I.setup hfl hnp I.call I.before I.after hb ns ha hp hne htext h2 h32]
  | one hns hi hat hpt hpn hptx hah hph hpm hne htext h1 h1' hcuts hcons hsched =>
    rw [Props.C80_one_module_partial I.setup hfl hnp I.call I.before I.after hb _ _ _ _ _ _ _ hns hi hat hpt hpn hptx hah hph hpm hne htext
      h1 h1' hcuts hcons hsched]

theorem printLine_no_newline (c : Hex.Spec.Case) {bytes : List Nat} (h : ∀ x ∈ bytes, x < 256) :
    '\r' ∉ Ihex.Spec.printLine c bytes ∧ '\n' ∉ Ihex.Spec.printLine c bytes := by
  have hdig : ∀ x : Nat, x < 256 → '\r' ∉ Hex.Spec.printByte c x ∧ '\n' ∉ Hex.Spec.printByte c x := by
    intro x hx
    have : ∀ c ∈ [Hex.Spec.Case.upper, Hex.Spec.Case.lower], ∀ x ∈ List.range 256,
        '\r' ∉ Hex.Spec.printByte c x ∧ '\n' ∉ Hex.Spec.printByte c x := by decide +kernel
    exact this c (by cases c <;> simp) x (List.mem_range.mpr hx)
  have key : ∀ ch : Char, (∀ x : Nat, x < 256 → ch ∉ Hex.Spec.printByte c x) → ch ≠ ':' → ch ∉ Ihex.Spec.printLine c bytes := by
    intro ch hch hS hmem
    unfold Ihex.Spec.printLine at hmem
    simp only [List.mem_cons, hS, false_or, List.mem_flatten, List.mem_map] at hmem
    obtain ⟨s, ⟨x, hx, rfl⟩, hs⟩ := hmem
    refine hch x ?_ hs
    simp only [List.mem_append, List.mem_cons, List.not_mem_nil, or_false] at hx
    rcases hx with hx | rfl
    · exact h x hx
    · omega
  exact ⟨key _ (fun x hx => (hdig x hx).1) (by decide), key _ (fun x hx => (hdig x hx).2) (by decide)⟩

theorem encodeBlocks_no_newline (c : Hex.Spec.Case) : ∀ (bs : List Ihex.Spec.Block) (cur : Nat), (∀ b ∈ bs, b.Fits) →
    ∀ l ∈ Ihex.Spec.encodeBlocks c cur bs, '\r' ∉ l ∧ '\n' ∉ l
  | [], _, _, l, hl => by cases hl
  | b :: bs, cur, h, l, hl => by
    obtain ⟨h1, h2, h3, h4, _⟩ := h b (List.mem_cons_self ..)
    rw [Ihex.Spec.encodeBlocks, List.mem_append, List.mem_cons] at hl
    rcases hl with hl | rfl | hl
    · split at hl
      · obtain rfl := List.mem_singleton.1 hl
        refine printLine_no_newline c fun x hx => ?_
        simp only [List.mem_cons, List.not_mem_nil, or_false] at hx
        omega
      · cases hl
    · refine printLine_no_newline c fun x hx => ?_
      simp only [List.mem_append, List.mem_cons, List.not_mem_nil, or_false] at hx
      rcases hx with (rfl | rfl | rfl | rfl) | hx
      · exact h3
      · omega
      · omega
      · omega
      · exact h2 x hx
    · exact encodeBlocks_no_newline c bs b.seg (fun x hx => h x (List.mem_cons_of_mem _ hx)) l hl

theorem encode_no_newline (c : Hex.Spec.Case) {bs : List Ihex.Spec.Block} (h : ∀ b ∈ bs, b.Fits) :
    ∀ l ∈ Ihex.Spec.encode c bs, '\r' ∉ l ∧ '\n' ∉ l := by
  intro l hl
  rcases List.mem_append.1 hl with hl | hl
  · exact encodeBlocks_no_newline c bs 0 h l hl
  · obtain rfl := List.mem_singleton.1 hl
    exact printLine_no_newline c (by decide)

theorem sent_hex {I : Inputs} {bytes : List (Nat × Nat)} (hnp : 0 < I.cpus) (h : Holds I.path I.content bytes)
    {rh : Except Err Mem} (hs : hexSent I = some rh) : ∃ m, rh = .ok m ∧ ∀ a v, m a = some v ↔ (a, v) ∈ bytes := by
  unfold hexSent at hs
  cases h with
  | @s19 c bs sep hp hx hfit hnd hne hsep hc =>
    obtain ⟨o, ho, he, hm⟩ := Srec.C13_text hnp c hfit hnd hne sep hsep (Srec.encode_no_newline c hfit)
    rw [Conc.C23_s19_partial _ hp hx, hc] at hs
    simp only [ho, Option.map_some, ofOutcome, he, Option.some.injEq] at hs
    exact ⟨o.map, hs.symm, hm⟩
  | @intelHex c bs sep hp hfit hnd hz hsep hc =>
    rw [Conc.C23_hex_partial _ hp, hc] at hs
    have hne' : Ihex.Spec.encode c bs ≠ [] := by simp [Ihex.Spec.encode]
    have hsl : splitLines (joinLines sep (Ihex.Spec.encode c bs)) = Ihex.Spec.encode c bs := by
      rcases hsep with rfl | rfl
      · exact splitLines_crlf hne' (encode_no_newline c hfit)
      · exact splitLines_lf hne' (encode_no_newline c hfit)
    unfold Ihex.parseFromText at hs
    rw [hsl] at hs
    dsimp only at hs
    split at hs
    · rename_i o ho
      obtain ⟨he, hm⟩ := C02_roundtrip_partial hnp c hfit hnd hz I.sched ho
      simp only [ofOutcome, he, Option.some.injEq] at hs
      exact ⟨o.map, hs.symm, hm⟩
    · cases hs

/-- C81: from two files to the data. If the A2L file consists of the objects `ns` and the hex file holds `bytes`, what
`ReadCalibration` returns, under every schedule, is the values of these objects and exactly these bytes, and no error. Missing:
the A2L files outside `Describes` and the hex files outside `Holds`, on which the parsers go wrong (C34, C80; C01, C02, C23). -/
theorem C81_partial {I : Inputs} (hfl : I.setup.floatOk [] = false) (hcpu : OnMachine I) (hb : I.call ∉ I.before) {ns : List Node}
    (ha : Describes I.setup I.call ns) {bytes : List (Nat × Nat)} (hh : Holds I.path I.content bytes) {r : Result Lang.Obj Mem Err}
    (h : ReadsTo I r) : ∃ m, r = ⟨some (fileStruct ns), some m, none⟩ ∧ ∀ a v, m a = some v ↔ (a, v) ∈ bytes := by
  obtain ⟨ra, rh, os, s, h1, h2, h3, h4⟩ := h
  rw [sent_a2l hfl hcpu.np_pos hb ha] at h1
  cases h1
  obtain ⟨m, rfl, hm⟩ := sent_hex hcpu.1 hh h2
  exact ⟨m, (Conc.C21_result _ _ h3 h4).2.2.1 _ _ rfl rfl, hm⟩

/-- The hex parser returns if every worker gets its turns. -/
theorem hex_returns {I : Inputs} (hnp : 0 < I.cpus) (hf : ∀ k < I.cpus, (splitLines I.content).length < I.sched.count k)
    {bytes : List (Nat × Nat)} (hh : Holds I.path I.content bytes) : ∃ rh, hexSent I = some rh := by
  unfold hexSent
  cases hh with
  | @s19 c bs sep hp hx hfit hnd hne hsep hc =>
    obtain ⟨o, ho, _⟩ := Srec.C13_text hnp c hfit hnd hne sep hsep (Srec.encode_no_newline c hfit)
    rw [Conc.C23_s19_partial _ hp hx, hc]
    exact ⟨_, by simp only [ho, Option.map_some]; rfl⟩
  | intelHex hp hfit hnd hz hsep hc =>
    rw [Conc.C23_hex_partial _ hp]
    obtain ⟨o, ho⟩ := C02_returns hnp (splitLines I.content) I.sched hf
    exact ⟨_, by simp only [Ihex.parseFromText, ho]; rfl⟩

/-- C81: the call returns: there are runs, each has at most 12 steps, and one that cannot be continued has returned; the
Intel HEX parser needs a schedule in which each of its workers gets its turns. -/
theorem C81_returns {I : Inputs} (hfl : I.setup.floatOk [] = false) (hcpu : OnMachine I) (hb : I.call ∉ I.before) {ns : List Node}
    (ha : Describes I.setup I.call ns) {bytes : List (Nat × Nat)} (hh : Holds I.path I.content bytes)
    (hf : ∀ k < I.cpus, (splitLines I.content).length < I.sched.count k) :
    (∃ r, ReadsTo I r) ∧ ∃ ra rh, a2lSent I = some ra ∧ hexSent I = some rh ∧
      ∀ os s, run ra rh (init Lang.Obj Mem Err) os = some s → os.length ≤ 12 ∧ ((∀ w, step ra rh s w = none) → ∃ r, s.main = .ret r ∧ ReadsTo I r) := by
  have h1 := sent_a2l hfl hcpu.np_pos hb ha
  obtain ⟨rh, h2⟩ := hex_returns hcpu.1 hf hh
  obtain ⟨m, rfl, _⟩ := sent_hex hcpu.1 hh h2
  refine ⟨⟨_, _, _, [.a, .a, .a, .h, .h, .h, .m, .m, .m, .m, .m], _, h1, h2, rfl, rfl⟩, _, _, h1, h2, fun os s hr => ?_⟩
  obtain ⟨g1, g2⟩ := Conc.C21_terminates _ _ hr
  refine ⟨g1, fun hst => ?_⟩
  obtain ⟨⟨r, hm⟩, _⟩ := g2 hst
  exact ⟨r, hm, _, _, os, s, h1, h2, hr, hm⟩

/-- C81: if the hex file cannot be read (`hexSent` says what is sent for it), the caller gets that error and no data. -/
theorem C81_error {I : Inputs} (hfl : I.setup.floatOk [] = false) (hcpu : OnMachine I) (hb : I.call ∉ I.before) {ns : List Node}
    (ha : Describes I.setup I.call ns) {e : Err} (hh : hexSent I = some (.error e)) {r : Result Lang.Obj Mem Err} (h : ReadsTo I r) :
    r = ⟨none, none, some e⟩ := by
  obtain ⟨ra, rh, os, s, h1, h2, h3, h4⟩ := h
  rw [sent_a2l hfl hcpu.np_pos hb ha] at h1
  rw [hh] at h2
  cases h1; cases h2
  obtain ⟨g1, g2, _, g4⟩ := Conc.C21_result _ _ h3 h4
  obtain ⟨a, x, err⟩ := r
  cases err with
  | none => obtain ⟨_, x, hx⟩ := g1.1 rfl; cases hx
  | some e' =>
    obtain ⟨rfl, rfl⟩ := g4 (by simp)
    rcases g2 e' rfl with hx | hx
    · cases hx
    · cases hx; rfl

/-- The name says neither format. -/
theorem C81_unsupported {I : Inputs} (hx : ¬ Conc.extHex <:+: Conc.inSmall I.path) (hs : ¬ Conc.extS19 <:+: Conc.inSmall I.path) :
    hexSent I = some (.error .unsupported) := by
  unfold hexSent
  rw [Conc.format_small]
  rw [if_neg (by rw [contains_iff]; exact hx), if_neg (by rw [contains_iff]; exact hs)]

/-! ### Looking up -/

theorem values_map : ∀ ns : List Node, values ns = ns.map fun n => (n.key, n.value)
  | [] => rfl
  | n :: ns => by rw [values, values_map ns, List.map_cons]

theorem parts_checked : Props.moduleParts.all (fun s =>
    !(shape .parseModule).flags.contains (target s.2) && !((shape .parseModule).params.map (·.field)).contains (target s.2) &&
    Props.moduleParts.all (fun s' => !(target s'.2 = target s.2) || s'.1 = s.1)) = true := by decide +kernel

theorem parts_find {s : Str × Sub} (h : s ∈ Props.moduleParts) :
    Props.moduleParts.find? (fun x => target x.2 = target s.2) = some s := by
  have : (Props.moduleParts.map fun x => target x.2).Nodup := by decide +kernel
  generalize Props.moduleParts = l at h this
  induction l with
  | nil => cases h
  | cons a l ih =>
    rw [List.map_cons, List.nodup_cons] at this
    rcases List.mem_cons.1 h with rfl | h
    · simp
    · have hne : ¬ target a.2 = target s.2 := fun he => this.1 (he ▸ List.mem_map.2 ⟨s, h, rfl⟩)
      simp [hne, ih h this.2]

/-- What a module holds in the field of a kind of object. -/
theorem module_field {s : Str × Sub} (h : s ∈ Props.moduleParts) (mn mt : Str) (objs : List Node) :
    struct (shape .parseModule) [mn, mt] [] (values objs) (target s.2) =
      combine (modeOf s.2) ((objs.filter (·.key = s.1)).map (·.value)) := by
  have hc := List.all_eq_true.1 parts_checked s h
  simp only [Bool.and_eq_true, Bool.not_eq_true', List.contains_eq_mem, decide_eq_false_iff_not] at hc
  obtain ⟨⟨c1, c2⟩, c3⟩ := hc
  have hp : ((shape .parseModule).params.zip [mn, mt]).find? (·.1.field = target s.2) = none := by
    rw [List.find?_eq_none]
    intro x hx he
    simp only [decide_eq_true_eq] at he
    exact c2 (List.mem_map.2 ⟨x.1, (List.of_mem_zip (a := x.1) (b := x.2) hx).1, he⟩)
  have hb : belonging Props.moduleParts (values objs) (target s.2) = (objs.filter (·.key = s.1)).map (·.value) := by
    unfold belonging
    rw [values_map, List.filter_map, List.map_map]
    congr 1
    refine List.filter_congr fun n _ => ?_
    simp only [Function.comp_apply]
    rw [Bool.eq_iff_iff]
    simp only [List.any_eq_true, Bool.and_eq_true, decide_eq_true_eq]
    constructor
    · rintro ⟨s', hs', h1, h2⟩
      have := List.all_eq_true.1 c3 s' hs'
      simp only [h2, decide_true, Bool.not_true, Bool.false_or, decide_eq_true_eq] at this
      rw [← h1, this]
    · intro he; exact ⟨s, h, he.symm, rfl⟩
  obtain ⟨maps, hsh⟩ : ∃ maps, shape .parseModule = .block false
      [⟨"Name", "nameSet", .str⟩, ⟨"longIdentifier", "longIdentifierSet", .str⟩] .none Props.moduleParts maps := ⟨_, rfl⟩
  rw [hsh] at c1 hp ⊢
  simp only [struct]
  rw [if_neg c1, hp]
  simp only [restField, reduceCtorEq, if_false, parts_find h, hb]

theorem module_map {k : Str} {fn : PName} {f key : String} (h : (k, Sub.obj fn f (.byName key)) ∈ Props.moduleParts) (mn mt : Str)
    (objs : List Node) (ident : Str) :
    Obj.map (struct (shape .parseModule) [mn, mt] [] (values objs)) f ident = lastCalled objs k key ident := by
  have hf := module_field h mn mt objs
  simp only [target, modeOf, combine] at hf
  unfold Obj.map
  rw [hf]
  simp only [lastCalled]
  rw [List.filter_map, List.filter_filter, List.getLast?_map]
  congr 2
  refine List.filter_congr fun n _ => ?_
  simp [Bool.and_comm]

theorem modules_of (top : List Node) (pn pt : Str) (parts : List Node) :
    Obj.list (Link.inner (fileStruct (top ++ [project pn pt parts])) "Project") "Modules" =
      (parts.filter (·.key = (str! "/begin MODULE"))).map (·.value) := by
  have h1 : fileStruct (top ++ [project pn pt parts]) "Project" = .obj (projectStruct pn pt parts) := by
    unfold fileStruct belonging
    rw [values_map, List.map_append, List.filter_append, List.map_append]
    have : (List.filter (fun y => fileParts.any fun s => decide (s.1 = y.1) && decide (target s.2 = "Project"))
        ([project pn pt parts].map fun n => (n.key, n.value))) = [((str! "/begin PROJECT"), .obj (projectStruct pn pt parts))] := by
      simp [project, Node.key, Node.value, fileParts, target]
    rw [this]
    simp [combine]
  have h2 : belonging projectParts (values parts) "Modules" = (parts.filter (·.key = (str! "/begin MODULE"))).map (·.value) := by
    unfold belonging
    rw [values_map, List.filter_map, List.map_map]
    congr 1
    refine List.filter_congr fun n _ => ?_
    simp only [Function.comp_apply, projectParts, target, List.any_cons, List.any_nil, Bool.or_false]
    rw [Bool.eq_iff_iff]
    simp [eq_comm]
  unfold Link.inner
  rw [h1]
  unfold Obj.list
  simp only [projectStruct, String.reduceEq, if_false, if_true, or_self, h2]
  cases (parts.filter (·.key = (str! "/begin MODULE"))).map (·.value) <;> rfl

/-- The objects of the module with the number `mi` among the parts of a project. -/
def InModule (parts : List Node) (mi : Nat) (objs : List Node) : Prop :=
  ∃ mn mt, (parts.filter (·.key = (str! "/begin MODULE")))[mi]? = some (aModule mn mt objs)

/-- C81: the objects by name. In the data read from a file that ends with a project, `GetObjectByIdent` returns exactly the
objects with that name of the module in use, as they stand in the file. -/
theorem C81_lookup (fv : Str → Rat) {top parts objs : List Node} {pn pt : Str} {mi : Nat} (hm : InModule parts mi objs) (hex : Mem) (ident : Str) :
    ∃ l, Calib.getObjectByIdent (Link.calData fv (fileStruct (top ++ [project pn pt parts])) mi hex) ident = .ok l ∧
      ∀ x, x ∈ l ↔ IsCalled fv objs ident x := by
  obtain ⟨mn, mt, hm⟩ := hm
  have hmod : (Link.calData fv (fileStruct (top ++ [project pn pt parts])) mi hex).module? =
      some (Link.module fv (struct (shape .parseModule) [mn, mt] [] (values objs))) := by
    unfold Calib.CalData.module? Link.calData
    rw [Link.index_get, modules_of]
    simp only [List.getElem?_map, hm, Option.map_some]
    rfl
  refine ⟨_, by unfold Calib.getObjectByIdent; rw [hmod], fun x => ?_⟩
  have e {k : Str} {fn : PName} {f key : String} (h : (k, Sub.obj fn f (.byName key)) ∈ Props.moduleParts) :=
    module_map h mn mt objs ident
  have em : struct (shape .parseModule) [mn, mt] [] (values objs) "ModPar" =
      (((objs.filter (·.key = (str! "/begin MOD_PAR"))).getLast?).map (·.value)).getD .zero := by
    have := module_field (s := ((str! "/begin MOD_PAR"), .obj .parseModPar "ModPar" .field)) (by simp [Props.moduleParts, shape]) mn mt objs
    simpa [target, modeOf, combine, List.getLast?_map] using this
  have hmp : ∀ v, Obj.map (Link.inner (struct (shape .parseModule) [mn, mt] [] (values objs)) "ModPar") "SystemConstants" ident = some v ↔
      ∃ p, ((objs.filter (·.key = (str! "/begin MOD_PAR"))).getLast?).map (·.value) = some (.obj p) ∧
        Obj.map p "SystemConstants" ident = some v := by
    intro v
    unfold Link.inner
    rw [em]
    have hz : ∀ w : Val, ¬ Obj.map Obj.empty "SystemConstants" ident = some w := by
      intro w; simp [Obj.map, Obj.empty]
    cases hl : ((objs.filter (·.key = (str! "/begin MOD_PAR"))).getLast?).map (·.value) with
    | none => simp [hz]
    | some w => cases w <;> simp [hz]
  have e1 := e (k := (str! "/begin AXIS_PTS")) (fn := .parseAxisPts) (f := "AxisPts") (key := "name") (by simp [Props.moduleParts, shape])
  have e2 := e (k := (str! "/begin CHARACTERISTIC")) (fn := .parseCharacteristic) (f := "Characteristics") (key := "Name") (by simp [Props.moduleParts, shape])
  have e3 := e (k := (str! "/begin COMPU_METHOD")) (fn := .parseCompuMethod) (f := "CompuMethods") (key := "Name") (by simp [Props.moduleParts, shape])
  have e4 := e (k := (str! "/begin COMPU_TAB")) (fn := .parseCompuTab) (f := "CompuTabs") (key := "Name") (by simp [Props.moduleParts, shape])
  have e5 := e (k := (str! "/begin COMPU_VTAB")) (fn := .parseCompuVtab) (f := "CompuVTabs") (key := "Name") (by simp [Props.moduleParts, shape])
  have e6 := e (k := (str! "/begin COMPU_VTAB_RANGE")) (fn := .parseCompuVtabRange) (f := "CompuVTabRanges") (key := "Name") (by simp [Props.moduleParts, shape])
  have e7 := e (k := (str! "/begin FUNCTION")) (fn := .parseFunction) (f := "Functions") (key := "name") (by simp [Props.moduleParts, shape])
  have e8 := e (k := (str! "/begin GROUP")) (fn := .parseGroup) (f := "Groups") (key := "groupName") (by simp [Props.moduleParts, shape])
  have e9 := e (k := (str! "/begin MEASUREMENT")) (fn := .parseMeasurement) (f := "Measurements") (key := "name") (by simp [Props.moduleParts, shape])
  have e10 := e (k := (str! "/begin RECORD_LAYOUT")) (fn := .parseRecordLayout) (f := "RecordLayouts") (key := "Name") (by simp [Props.moduleParts, shape])
  have e11 := e (k := (str! "/begin UNIT")) (fn := .parseUnit) (f := "Units") (key := "name") (by simp [Props.moduleParts, shape])
  simp only [Link.module, List.mem_append, Option.mem_toList, Option.mem_def, Option.map_eq_some_iff, e1, e2, e3, e4, e5, e6, e7, e8,
    e9, e10, e11, hmp]
  unfold IsCalled searched
  simp only [List.mem_cons, List.not_mem_nil, or_false, exists_eq_or_imp, exists_eq_left]
  constructor
  · rintro (((((((((((⟨v, h, rfl⟩ | ⟨v, h, rfl⟩) | ⟨_, ⟨v, h, rfl⟩, rfl⟩) | ⟨_, ⟨v, h, rfl⟩, rfl⟩) | ⟨_, ⟨v, h, rfl⟩, rfl⟩) |
      ⟨_, ⟨v, h, rfl⟩, rfl⟩) | ⟨v, h, rfl⟩) | ⟨v, h, rfl⟩) | ⟨v, h, rfl⟩) | ⟨_, ⟨v, h, rfl⟩, rfl⟩) |
      ⟨_, ⟨v, ⟨p, hp, h⟩, rfl⟩, rfl⟩) | ⟨v, h, rfl⟩)
    all_goals first | exact Or.inr ⟨p, v, Option.map_eq_some_iff.2 hp, h, rfl⟩ | simp [h]
  · rintro ((⟨v, h, rfl⟩ | ⟨v, h, rfl⟩ | ⟨v, h, rfl⟩ | ⟨v, h, rfl⟩ | ⟨v, h, rfl⟩ | ⟨v, h, rfl⟩ | ⟨v, h, rfl⟩ | ⟨v, h, rfl⟩ |
      ⟨v, h, rfl⟩ | ⟨v, h, rfl⟩ | ⟨v, h, rfl⟩) | ⟨p, v, hp, h, rfl⟩)
    all_goals first | exact Or.inl (Or.inr ⟨_, ⟨v, ⟨p, Option.map_eq_some_iff.1 hp, h⟩, rfl⟩, rfl⟩) | simp [h]

/-- C81: files in, answers out. What `ReadCalibration` returns is without error, has exactly the bytes of the hex file, and
answers `GetObjectByIdent` for every module and every name with exactly the objects that the A2L file has under this name. -/
theorem C81_answers_partial {I : Inputs} (hfl : I.setup.floatOk [] = false) (hcpu : OnMachine I) (hb : I.call ∉ I.before)
    {top parts : List Node} {pn pt : Str} (ha : Describes I.setup I.call (top ++ [project pn pt parts])) {bytes : List (Nat × Nat)}
    (hh : Holds I.path I.content bytes) {r : Result Lang.Obj Mem Err} (h : ReadsTo I r) : ∃ o m, r = ⟨some o, some m, none⟩ ∧
      (∀ a v, m a = some v ↔ (a, v) ∈ bytes) ∧ ∀ fv mi objs, InModule parts mi objs → ∀ ident,
        ∃ l, Calib.getObjectByIdent (Link.calData fv o mi m) ident = .ok l ∧ ∀ x, x ∈ l ↔ IsCalled fv objs ident x := by
  obtain ⟨m, h1, h2⟩ := C81_partial hfl hcpu hb ha hh h
  exact ⟨_, m, h1, h2, fun fv mi objs hm ident => C81_lookup fv hm m ident⟩

/-- What one expects of Intel HEX files, without the condition on the order of the segments. It is false, see `C81_false`. -/
def C81_full : Prop := ∀ (I : Inputs) (ns : List Node) (c : Hex.Spec.Case) (bs : List Ihex.Spec.Block) (r : Result Lang.Obj Mem Err),
  I.setup.floatOk [] = false → OnMachine I → I.call ∉ I.before → Describes I.setup I.call ns → Conc.extHex <:+ Conc.inSmall I.path →
  (∀ b ∈ bs, b.Fits) → ((Ihex.Spec.imageBytes bs).map Prod.fst).Nodup → I.content = joinLines ['\n'] (Ihex.Spec.encode c bs) →
  ReadsTo I r → ∃ m, r = ⟨some (fileStruct ns), some m, none⟩ ∧ ∀ a v, m a = some v ↔ (a, v) ∈ Ihex.Spec.imageBytes bs

/-! ### Examples -/

/-- The A2L file of `laidSetup` and a hex file. -/
def inputs (path content : Str) (sched : List Nat) : Inputs := ⟨1, Props.laidSetup, 2, [1, 0], [0, 1], path, content, sched⟩

theorem describes_laid : Describes Props.laidSetup 2 Props.mixedFile := by
  refine .several ?_ Props.whole_file (by decide +kernel) Props.laid_out (by decide +kernel) (by decide +kernel)
  have : Props.mixedFile.all (Props.allowedB fileParts) = true := by decide +kernel
  exact fun n hn => Props.allowedB_spec (List.all_eq_true.1 this n hn)

/-- The bytes of segment 1 get lost without an error. -/
theorem C81_false : ¬ C81_full := by
  intro h
  obtain ⟨h1, h2, h3⟩ := C02_false_everywhere 1 (by omega) .upper
  let I := inputs "a.hex".toList (joinLines ['\n'] (Ihex.Spec.encode .upper (badBlocks 1))) (List.replicate 100 0 ++ List.replicate 100 1)
  have hsl : splitLines I.content = Ihex.Spec.encode .upper (badBlocks 1) :=
    splitLines_lf (by simp [Ihex.Spec.encode]) (encode_no_newline _ h1)
  obtain ⟨o, ho⟩ := C02_returns (n := 1) (by omega) (Ihex.Spec.encode .upper (badBlocks 1)) I.sched (by
    have : ∀ k < 1, (Ihex.Spec.encode .upper (badBlocks 1)).length < (List.replicate 100 0 ++ List.replicate 100 1).count k := by
      decide +kernel
    exact this)
  obtain ⟨he, hmem, hnone⟩ := h3 _ o ho
  have hhex : Conc.extHex <:+ Conc.inSmall I.path := ⟨['a'], by decide⟩
  have hs : hexSent I = some (.ok o.map) := by
    unfold hexSent
    rw [Conc.C23_hex_partial _ hhex]
    simp only [Ihex.parseFromText, hsl]
    have : parseHex I.cpus I.sched (Ihex.Spec.encode .upper (badBlocks 1)) = some (some o) := ho
    rw [this]
    simp [ofOutcome, he]
  have ha : a2lSent I = some (.ok (fileStruct Props.mixedFile)) :=
    sent_a2l (I := I) (by show Props.natB [] = false; decide) (by show 0 < 2; decide) (by show 2 ∉ [1, 0]; decide) describes_laid
  obtain ⟨m, hr, hm⟩ := h I Props.mixedFile .upper (badBlocks 1) _ (by show Props.natB [] = false; decide) ⟨by decide, rfl⟩
    (by show 2 ∉ [1, 0]; decide) describes_laid hhex h1 h2 rfl
    ⟨_, _, [.a, .h, .h, .a, .a, .h, .m, .m, .m, .m, .m], _, ha, hs, rfl, rfl⟩
  simp only [Result.mk.injEq, Option.some.injEq] at hr
  have := (hm 65537 9).2 hmem
  rw [← hr.2.1, hnone] at this
  cases this

def someBlocks : List Srec.Spec.Block := [⟨0x4000, [1, 2]⟩, ⟨0x10, [0xFF]⟩]

theorem holds_s19 : Holds "Data.S19".toList (joinLines ['\r', '\n'] (Srec.Spec.encode .upper someBlocks)) (Srec.Spec.imageBytes someBlocks) :=
  .s19 ⟨"data".toList, by decide⟩ (by rw [← contains_iff]; decide +kernel) (by decide) (by decide) (by decide) (Or.inl rfl) rfl

/-- An S19 file with three bytes and the A2L file: the call returns, and the table called `V` is found in the first module. -/
example : ∃ r, ReadsTo (inputs "Data.S19".toList (joinLines ['\r', '\n'] (Srec.Spec.encode .upper someBlocks))
      (List.replicate 5 0 ++ List.replicate 5 1)) r ∧
    ∃ o m, r = ⟨some o, some m, none⟩ ∧ m 0x4001 = some 2 ∧ m 0x11 = none ∧ ∃ l,
      Calib.getObjectByIdent (Link.calData (fun _ => 0) o 0 m) (str! "V") = .ok l ∧
        Calib.Obj.compuVTab (Link.compuVTab (fun _ => 0) (Link.objOf Props.mixedTable.value)) ∈ l := by
  obtain ⟨r, hr⟩ := (C81_returns (I := inputs "Data.S19".toList (joinLines ['\r', '\n'] (Srec.Spec.encode .upper someBlocks))
      (List.replicate 5 0 ++ List.replicate 5 1)) (by show Props.natB [] = false; decide) ⟨by decide, rfl⟩ (by show 2 ∉ [1, 0]; decide)
      describes_laid holds_s19 (by
        have : ∀ k < 1, (splitLines (joinLines ['\r', '\n'] (Srec.Spec.encode .upper someBlocks))).length <
          (List.replicate 5 0 ++ List.replicate 5 1).count k := by decide +kernel
        exact this)).1
  refine ⟨r, hr, ?_⟩
  obtain ⟨o, m, h1, h2, h3⟩ := C81_answers_partial (top := []) (by show Props.natB [] = false; decide) ⟨by decide, rfl⟩
    (by show 2 ∉ [1, 0]; decide) describes_laid holds_s19 hr
  obtain ⟨l, h4, h5⟩ := h3 (fun _ => 0) 0 [Props.mixedTable, Props.mixedMeasurement] ⟨(str! "M1"), (str! "\"\""), rfl⟩ (str! "V")
  refine ⟨o, m, h1, (h2 _ _).2 (by decide), ?_, l, h4, (h5 _).2 (Or.inl ⟨((str! "/begin COMPU_VTAB"), "Name",
    fun v => .compuVTab (Link.compuVTab (fun _ => 0) (Link.objOf v))), by simp [searched], Props.mixedTable.value, ?_, rfl⟩)⟩
  · cases hm : m 0x11 with
    | none => rfl
    | some v =>
      have := (h2 _ _).1 hm
      simp [Srec.Spec.imageBytes, someBlocks] at this
  · have hk : ([Props.mixedTable, Props.mixedMeasurement].map fun n => decide (n.key = (str! "/begin COMPU_VTAB") ∧
        n.value.strField "Name" = (str! "V"))) = [true, false] := by decide +kernel
    simp only [List.map_cons, List.map_nil, List.cons.injEq, and_true] at hk
    simp only [lastCalled, List.filter_cons, hk.1, hk.2, List.filter_nil]
    rfl

/-- A file with another name: the call returns the error of the hex reader and nothing else. -/
example : ∃ r, ReadsTo (inputs "data.bin".toList [] []) r ∧ r = ⟨none, none, some .unsupported⟩ := by
  have hu : hexSent (inputs "data.bin".toList [] []) = some (.error .unsupported) :=
    C81_unsupported (by rw [← contains_iff]; decide +kernel) (by rw [← contains_iff]; decide +kernel)
  have ha := sent_a2l (I := inputs "data.bin".toList [] []) (by show Props.natB [] = false; decide) (by show 0 < 2; decide)
    (by show 2 ∉ [1, 0]; decide) describes_laid
  have hr : ReadsTo (inputs "data.bin".toList [] []) ⟨none, none, some .unsupported⟩ :=
    ⟨_, _, [.a, .h, .h, .a, .a, .h, .m, .m, .m, .m, .m], _, ha, hu, rfl, rfl⟩
  exact ⟨_, hr, C81_error (by show Props.natB [] = false; decide) ⟨by decide, rfl⟩ (by show 2 ∉ [1, 0]; decide) describes_laid hu hr⟩

end Verif.EndToEnd
