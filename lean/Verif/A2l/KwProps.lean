import Verif.A2l.KwSpec
import Verif.A2l.LooseProps2

/-!
C57 (constants of the enumerations), C58 (every part begins with its own keyword), C59 (the keyword table).
-/

namespace Verif.A2l.KwSpec
open Verif.Go Lang Decl

/-- The parse function of an enumeration type. -/
def EnumType.parser : EnumType → EnumDef
  | .encoding => parseEncodingEnum
  | .dataType => parseDataTypeEnum
  | .dataSize => parseDataSizeEnum
  | .addrType => parseAddrTypeEnum
  | .byteOrder => parseByteOrderEnum
  | .indexOrder => parseIndexOrderEnum
  | .attribute => parseAttributeEnum
  | .calibrationAccess => parseCalibrationAccessEnum
  | .objType => parseTypeEnum
  | .conversionType => parseConversionTypeEnum
  | .indexMode => parseIndexModeEnum
  | .mode => parseModeEnum
  | .prgType => parsePrgTypeEnum
  | .memoryType => parseMemoryTypeEnum
  | .monotonyType => parseMonotonyTypeEnum
  | .tag => parseTagEnum
  | .trigger => parseTriggerEnum

/-- The constants that the code does not know or does not let through, see `C57_false`. -/
def lost : List Str := [(str! "PLONGLONG"), (str! "ALTERNATE_CURVES"), (str! "ALTERNATE_WITH_X"), (str! "ALTERNATE_WITH_Y")]

end Verif.A2l.KwSpec

namespace Verif.A2l.Props
open Verif.Go Lang Analysis Decl Template KwSpec

/-! ### C57: constants of the enumerations -/

theorem table_keys : ∀ T ∈ EnumType.all, (∀ x ∈ T.parser.table, x.1 = x.2 ∧ x.1 ∈ T.constants) ∧
    (∀ c ∈ T.constants, c = (str! "PLONGLONG") ∨ T.parser.table.lookup c = some c) ∧
    T.parser.table.lookup (str! "PLONGLONG") = none := by
  decide +kernel

theorem mem_all (T : EnumType) : T ∈ EnumType.all := by cases T <;> decide

theorem mem_of_lookup {α β : Type} [BEq α] [LawfulBEq α] {l : List (α × β)} {a : α} {b : β} (h : l.lookup a = some b) : (a, b) ∈ l := by
  induction l with
  | nil => simp at h
  | cons x l ih =>
    obtain ⟨c, d⟩ := x
    rw [List.lookup_cons] at h
    by_cases hc : a == c
    · rw [hc] at h
      obtain rfl := eq_of_beq hc
      cases h
      exact List.mem_cons_self ..
    · have : (a == c) = false := by simpa using hc
      rw [this] at h
      exact List.mem_cons_of_mem _ (ih h)

/-- C57 for the enumeration parsers by themselves: exactly the declared constants are known, each as itself,
except PLONGLONG. -/
theorem C57_table_partial (T : EnumType) (t v : Str) :
    T.parser.table.lookup t = some v ↔ v = t ∧ t ∈ T.constants ∧ t ≠ (str! "PLONGLONG") := by
  obtain ⟨h1, h2, h3⟩ := table_keys T (mem_all T)
  constructor
  · intro h
    obtain ⟨a, b⟩ := h1 _ (mem_of_lookup h)
    refine ⟨a.symm, b, ?_⟩
    rintro rfl
    rw [h3] at h
    cases h
  · rintro ⟨rfl, h, hne⟩
    exact (h2 _ h).resolve_left hne

example : EnumType.dataType.parser.table.lookup (str! "A_INT64") = some (str! "A_INT64") :=
  (C57_table_partial .dataType _ _).2 ⟨rfl, by decide, by decide⟩

/-- What a legal enumeration parameter is, in terms of the declared constants. -/
theorem denotes_enum {E : Env} {T : EnumType} {t : Str} {v : Val} :
    Denotes E (.enum T.parser) t v ↔ v = .str t ∧ t ∈ T.constants ∧ t ≠ (str! "PLONGLONG") := by
  obtain ⟨h1, h2, h3⟩ := table_keys T (mem_all T)
  constructor
  · rintro ⟨⟨c, hc⟩, rfl⟩
    refine ⟨rfl, (h1 _ hc).2, ?_⟩
    rintro rfl
    have := List.lookup_eq_none_iff.1 h3 _ hc
    simp at this
  · rintro ⟨rfl, h, hne⟩
    exact ⟨⟨t, mem_of_lookup ((h2 _ h).resolve_left hne)⟩, rfl⟩

/-- The declared constants are no keywords, except three. -/
theorem constants_plain : ∀ T ∈ EnumType.all, ∀ c ∈ T.constants, c ≠ [] ∧ (c ∉ keywords ∨ c ∈ lost) := by
  decide +kernel

theorem lost_kw : ∀ c ∈ lost, c = (str! "PLONGLONG") ∨ c ∈ keywords := by decide +kernel

/-- The declared constants neither close the block in which they are parameters nor start a part of it. -/
theorem constants_apart (p : PName) (hp : p ∉ irregular) : ∀ q ∈ (shape p).params, ∀ T ∈ EnumType.all, q.kind = .enum T.parser →
    ∀ c ∈ T.constants, c ∈ lost ∨ (c ≠ fin p ∧ c ∉ (shape p).keys) := by
  cases p <;> first | exact absurd (by decide) hp | decide +kernel

/-- The token `w` is a legal value `v` of parameter `q`: a declared constant of its enumeration, or any legal
parameter of another kind. -/
def Legal (E : Env) (raw : Bool) (fin : Str) (subs : List (Str × Sub)) (q : Param) (w : Str) (v : Val) : Prop :=
  (∃ T : EnumType, q.kind = .enum T.parser ∧ w ∈ T.constants ∧ w ∉ lost ∧ v = .str w) ∨
    (Plain raw fin subs w ∧ Denotes E q.kind w v)

theorem legal_iff {E : Env} {p : PName} (hp : p ∉ irregular) {raw : Bool} {subs : List (Str × Sub)} (hk : (shape p).keys = subs.map (·.1))
    {q : Param} (hq : q ∈ (shape p).params) {w : Str} {v : Val} (h : Legal E raw (fin p) subs q w v) :
    Plain raw (fin p) subs w ∧ Denotes E q.kind w v := by
  rcases h with ⟨T, h1, h2, h3, rfl⟩ | h
  · obtain ⟨g1, g2⟩ := constants_plain T (mem_all T) w h2
    obtain ⟨g3, g4⟩ := (constants_apart p hp q hq T (mem_all T) h1 w h2).resolve_left h3
    refine ⟨⟨g1, g3, by rw [← hk]; exact g4, Or.inr (g2.resolve_right h3)⟩, ?_⟩
    rw [h1]
    exact denotes_enum.2 ⟨rfl, h2, fun h => h3 (by rw [h]; decide)⟩
  · exact h

/-- C57 in keywords with a fixed number of parameters: each constant (except the lost ones) is accepted wherever its
enumeration is declared, and is read back as itself. -/
theorem C57_seq_partial {E : Env} (hw : Wf E) {p : PName} (hp : p ∉ irregular) {ps : List Param}
    (hsh : shape p = .seq ps ∨ ∃ q, shape p = .one q ∧ ps = [q])
    {i : Nat} {ws : List Str} {vs : List Val} (hlw : ws.length = ps.length) (hlv : vs.length = ps.length) (htx : Words E i ws)
    (hv : ∀ (j : Nat) (q : Param) (w : Str) (v : Val), ps[j]? = some q → ws[j]? = some w → vs[j]? = some v →
      Legal E false (fin p) [] q w v) :
    ∃ o, Returns E p i (.ok (i + ws.length) (.obj o) false) ∧
      ∀ (j : Nat) (q : Param) (v : Val), ps[j]? = some q → vs[j]? = some v → o q.field = v := by
  have hps : (shape p).params = ps := by rcases hsh with h | ⟨q, h, rfl⟩ <;> rw [h] <;> rfl
  have hks : (shape p).keys = ([] : List (Str × Sub)).map (·.1) := by rcases hsh with h | ⟨q, h, rfl⟩ <;> rw [h] <;> rfl
  have hl : ∀ (j : Nat) (q : Param) (w : Str) (v : Val), ps[j]? = some q → ws[j]? = some w → vs[j]? = some v →
      Plain false (fin p) [] w ∧ Denotes E q.kind w v := fun j q w v a b c =>
    legal_iff hp hks (by rw [hps]; exact List.mem_of_getElem? a) (hv j q w v a b c)
  refine C32_seq_partial hw hp hsh hlw hlv htx (fun w hw => ?_) (fun j q w v a b c => (hl j q w v a b c).2)
  obtain ⟨j, hj, rfl⟩ := List.mem_iff_getElem.1 hw
  have := hl j (ps[j]'(by omega)) ws[j] (vs[j]'(by omega)) (List.getElem?_eq_getElem _) (List.getElem?_eq_getElem _) (List.getElem?_eq_getElem _)
  exact ⟨this.1.1, this.1.2.2.2.resolve_left (by simp)⟩

/-- C57 in blocks. -/
theorem C57_block_partial {E : Env} (hw : Wf E) {p : PName} (hp : p ∉ irregular) {raw : Bool} {ps : List Param}
    {rest : Rest} {subs : List (Str × Sub)} {maps : List String} (hsh : shape p = .block raw ps rest subs maps)
    {i : Nat} {ws : List Str} {vs : List Val} (hlw : ws.length = ps.length) (hlv : vs.length = ps.length)
    (htx : Words E i (ws ++ [fin p]))
    (hv : ∀ (j : Nat) (q : Param) (w : Str) (v : Val), ps[j]? = some q → ws[j]? = some w → vs[j]? = some v →
      Legal E raw (fin p) subs q w v) :
    ∃ o, Returns E p i (.ok (i + ws.length + 1) (.obj o) false) ∧
      ∀ (j : Nat) (q : Param) (v : Val), ps[j]? = some q → vs[j]? = some v → o q.field = v := by
  have hps : (shape p).params = ps := by rw [hsh]; rfl
  have hks : (shape p).keys = subs.map (·.1) := by rw [hsh]; rfl
  have hl : ∀ (j : Nat) (q : Param) (w : Str) (v : Val), ps[j]? = some q → ws[j]? = some w → vs[j]? = some v →
      Plain raw (fin p) subs w ∧ Denotes E q.kind w v := fun j q w v a b c =>
    legal_iff hp hks (by rw [hps]; exact List.mem_of_getElem? a) (hv j q w v a b c)
  refine C32_block_partial hw hp hsh hlw hlv htx (fun w hw => ?_) (fun j q w v a b c => (hl j q w v a b c).2)
  obtain ⟨j, hj, rfl⟩ := List.mem_iff_getElem.1 hw
  exact (hl j (ps[j]'(by omega)) ws[j] (vs[j]'(by omega)) (List.getElem?_eq_getElem _) (List.getElem?_eq_getElem _) (List.getElem?_eq_getElem _)).1

/-- The field of a list or free text. -/
def Rest.fields : Rest → List String
  | .none => []
  | .list f _ _ => [f]
  | .text f _ => [f]

/-- The fields of sub-objects. -/
def objFields (subs : List (Str × Sub)) : List String :=
  subs.filterMap fun x => match x.2 with
    | .obj _ f _ => some f
    | .enum _ _ => none

/-- The enumeration parts. -/
def enumParts (subs : List (Str × Sub)) : List (Str × EnumDef × String) :=
  subs.filterMap fun x => match x.2 with
    | .obj _ _ _ => none
    | .enum e f => some (x.1, e, f)

theorem mem_objFields {subs : List (Str × Sub)} {k : Str} {q : PName} {f : String} {m : Decl.Mode} (h : (k, Sub.obj q f m) ∈ subs) :
    f ∈ objFields subs := List.mem_filterMap.2 ⟨_, h, rfl⟩

theorem mem_enumParts {subs : List (Str × Sub)} {k : Str} {e : EnumDef} {f : String} (h : (k, Sub.enum e f) ∈ subs) :
    (k, e, f) ∈ enumParts subs := List.mem_filterMap.2 ⟨_, h, rfl⟩

/-- A property of a field that is kept by everything that writes it holds at the end. -/
theorem items_field {E : Env} {R : PName → Nat → Nat → Val → Prop} {raw : Bool} {fin : Str} {ps : List Param} {rest : Rest}
    {subs : List (Str × Sub)} {f : String} (P : Val → Prop)
    (hps : ∀ q ∈ ps, q.field = f → ∀ t v, Plain raw fin subs t → Denotes E q.kind t v → P v)
    (hr : f ∉ Rest.fields rest) (hs : f ∉ objFields subs)
    (he : ∀ k e, (k, e, f) ∈ enumParts subs → ∀ t c, (e.usesNext = true ∨ t = k) → (t, c) ∈ e.table → P (.str t))
    {n : Nat} {x y : Decl.Pos} (h : Decl.Items E R raw fin ps rest subs n x y) (hx : P (x.o f)) : P (y.o f) := by
  have hset : ∀ (o : Obj) (g : String) (v : Val), (g = f → P v) → P (o f) → P ((o.set g v) f) := by
    intro o g v h1 h2
    unfold Obj.set
    by_cases hg : f = g
    · rw [if_pos hg]; exact h1 hg.symm
    · rw [if_neg hg]; exact h2
  induction h with
  | nil => exact hx
  | cons hi _ ih =>
    apply ih
    cases hi with
    | param hp ht hpl hv => exact hset _ _ _ (fun hf => hps _ (List.mem_of_getElem? hp) hf _ _ hpl hv) hx
    | member hm hrr ht hpl hv => exact hset _ _ _ (fun hf => by subst hrr; exact absurd (by simp [Rest.fields, hf]) hr) hx
    | word hm hrr ht hpl => exact hset _ _ _ (fun hf => by subst hrr; exact absurd (by simp [Rest.fields, hf]) hr) hx
    | surplus => exact hx
    | @sub m o o' i j k q g md v hm ht hR hk =>
      have hne : g ≠ f := fun hf => hs (hf ▸ mem_objFields hm)
      cases md with
      | field => subst hk; exact hset _ _ _ (fun hf => absurd hf hne) hx
      | append => subst hk; exact hset _ _ _ (fun hf => absurd hf hne) hx
      | byName key => obtain ⟨mp, _, rfl⟩ := hk; exact hset _ _ _ (fun hf => absurd hf hne) hx
    | @enum m o i k e g t c hm ht ht' hc =>
      refine hset _ _ _ (fun hf => ?_) hx
      subst hf
      refine he k e (mem_enumParts hm) t c ?_ hc
      by_cases hu : e.usesNext = true
      · exact Or.inl hu
      · rw [if_neg hu] at ht'; exact Or.inr ht'

/-- The parts of a shape besides its parameters. -/
def Shape.rest : Shape → Rest
  | .block _ _ r _ _ => r
  | _ => .none

def Shape.subs : Shape → List (Str × Sub)
  | .block _ _ _ s _ => s
  | _ => []

def Shape.raw : Shape → Bool
  | .block r _ _ _ _ => r
  | _ => false

def Shape.maps : Shape → List String
  | .block _ _ _ _ m => m
  | _ => []

/-- No field of a declared object has two uses. -/
theorem fields_apart (p : PName) (hp : p ∉ irregular) : (∀ q ∈ (shape p).params, q.field ∉ Rest.fields (Shape.rest (shape p)) ∧
      q.field ∉ objFields (Shape.subs (shape p)) ∧ (∀ x ∈ enumParts (Shape.subs (shape p)), x.2.2 ≠ q.field) ∧ q.field ∉ Shape.maps (shape p)) ∧
    (∀ x ∈ enumParts (Shape.subs (shape p)), x.2.2 ∉ (shape p).params.map (·.field) ∧ x.2.2 ∉ Rest.fields (Shape.rest (shape p)) ∧
      x.2.2 ∉ objFields (Shape.subs (shape p)) ∧ x.2.2 ∉ (shape p).flags ∧ x.2.2 ∉ Shape.maps (shape p) ∧
      ∀ y ∈ enumParts (Shape.subs (shape p)), y.2.2 = x.2.2 → y = x) := by
  cases p <;> first | exact absurd (by decide) hp | decide +kernel

theorem eq_of_field {l : List Param} (h : (l.map (·.field)).Nodup) {a b : Param} (ha : a ∈ l) (hb : b ∈ l) (he : a.field = b.field) : a = b := by
  induction l with
  | nil => cases ha
  | cons x l ih =>
    simp only [List.map_cons, List.nodup_cons, List.mem_map, not_exists, not_and] at h
    rcases List.mem_cons.1 ha with rfl | ha' <;> rcases List.mem_cons.1 hb with rfl | hb'
    · rfl
    · exact absurd he.symm (h.1 b hb')
    · exact absurd he (h.1 a ha')
    · exact ih h.2 ha' hb'

/-- What a field of an enumeration type may hold: nothing, or a declared constant that is not lost. -/
def Holds (T : EnumType) (v : Val) : Prop := v = .zero ∨ ∃ c, v = .str c ∧ c ∈ T.constants ∧ c ∉ lost

theorem params_holds {E : Env} {T : EnumType} {f : String} {i : Nat} {ps : List Param} {o o' : Obj} (h : Params E i ps o o')
    (hk : ∀ q ∈ ps, q.field = f → q.kind = .enum T.parser) (ho : Holds T (o f)) : Holds T (o' f) := by
  induction h with
  | nil => exact ho
  | @cons i o o' t v p ps ht hne hkw hv h ih =>
    refine ih (fun q hq => hk q (List.mem_cons_of_mem _ hq)) ?_
    unfold Obj.set
    by_cases hf : f = p.field
    · rw [if_pos hf]
      rw [hk p (List.mem_cons_self ..) hf.symm] at hv
      obtain ⟨h1, h2, h3⟩ := denotes_enum.1 hv
      exact Or.inr ⟨t, h1, h2, fun hl => (lost_kw t hl).elim h3 hkw⟩
    · rw [if_neg hf]; exact ho

theorem raw_no_enum (p : PName) (hp : p ∉ irregular) : ∀ q ∈ (shape p).params, ∀ T ∈ EnumType.all, q.kind = .enum T.parser → Shape.raw (shape p) = false := by
  cases p <;> first | exact absurd (by decide) hp | decide +kernel

/-- C57, nothing else: in every object that is accepted, a parameter of an enumeration type holds a declared constant,
and never one of the lost ones. -/
theorem C57_only {E : Env} (hw : Wf E) {p : PName} (hp : p ∉ irregular) {q : Param} (hq : q ∈ (shape p).params) {T : EnumType}
    (hk : q.kind = .enum T.parser) {i i' : Nat} {o : Obj} (h : Returns E p i (.ok i' (.obj o) false)) : Holds T (o q.field) := by
  obtain ⟨o₁, o₂, hv, ht, hsame⟩ := C32_only_partial hw hp h
  obtain rfl := Val.obj.inj hv
  obtain ⟨hnd, hfl⟩ := fields_nodup p hp
  rw [hsame _ (hfl q hq)]
  have hap := (fields_apart p hp).1 q hq
  have hraw := raw_no_enum p hp q hq T (mem_all T) hk
  have huniq : ∀ r ∈ (shape p).params, r.field = q.field → r.kind = .enum T.parser := fun r hr he => by
    rw [eq_of_field hnd hr hq he, hk]
  revert ht hap huniq hraw
  cases hsh : shape p with
  | keyword f fl => rw [hsh] at hq; cases hq
  | one r => rintro ⟨hp', _⟩ _ _ hu; exact params_holds hp' hu (Or.inl rfl)
  | seq ps => rintro ⟨hp', _⟩ _ _ hu; exact params_holds hp' hu (Or.inl rfl)
  | block raw ps rest subs maps =>
    rintro ⟨n, m, j, hi, _, _⟩ ⟨a1, a2, a3, a4⟩ (hraw : raw = false) hu
    subst hraw
    refine items_field (Holds T) ?_ a1 a2 ?_ hi ?_
    · intro r hr he t v hpl hd
      rw [hu r hr he] at hd
      obtain ⟨h1, h2, h3⟩ := denotes_enum.1 hd
      exact Or.inr ⟨t, h1, h2, fun hl => (lost_kw t hl).elim h3 (hpl.2.2.2.resolve_left (by simp))⟩
    · intro k e hm
      exact absurd rfl (a3 _ hm)
    · show Holds T (start maps q.field)
      unfold start
      rw [if_neg (show q.field ∉ maps from a4)]
      exact Or.inl rfl
  | other => rw [hsh] at hq; cases hq

/-- The enumeration parts of all regular objects: which are read after their keyword, which from the keyword itself. -/
theorem part_tables (p : PName) (hp : p ∉ irregular) : ∀ x ∈ enumParts (Shape.subs (shape p)), x.2.1.usesNext = true ∨
    x.2.1.table.lookup x.1 = none := by
  cases p <;> first | exact absurd (by decide) hp | decide +kernel

/-- C57 is false of every ADDRESS_TYPE and ENCODING: whatever is accepted, these fields are empty, because the keyword
itself is compared with the constants. -/
theorem C57_part_lost {E : Env} (hw : Wf E) {p : PName} (hp : p ∉ irregular) {k : Str} {e : EnumDef} {f : String}
    (hm : (k, e, f) ∈ enumParts (Shape.subs (shape p))) (hu : e.usesNext = false) {i i' : Nat} {o : Obj}
    (h : Returns E p i (.ok i' (.obj o) false)) : o f = .zero := by
  obtain ⟨o₁, o₂, hv, ht, hsame⟩ := C32_only_partial hw hp h
  obtain rfl := Val.obj.inj hv
  obtain ⟨b1, b2, b3, b4, b5, b6⟩ := (fields_apart p hp).2 _ hm
  simp only at b1 b2 b3 b4 b5
  rw [hsame _ b4]
  have hno := (part_tables p hp _ hm).resolve_left (by simp [hu])
  revert ht hm b1 b2 b3 b5 b6
  cases hsh : shape p with
  | keyword f fl => intro hm; cases hm
  | one r => intro hm; cases hm
  | seq ps => intro hm; cases hm
  | other => intro hm; cases hm
  | block raw ps rest subs maps =>
    rintro hm ⟨n, m, j, hi, _, _⟩ b1 b2 b3 b5 b6
    refine items_field (· = .zero) ?_ b2 b3 ?_ hi ?_
    · intro q hq he
      exact absurd (List.mem_map.2 ⟨q, hq, he⟩) b1
    · intro k' e' hm' t c ht hc
      have := b6 _ hm' rfl
      simp only [Prod.mk.injEq] at this
      obtain ⟨rfl, rfl, _⟩ := this
      rcases ht with ht | rfl
      · rw [hu] at ht; cases ht
      · have := List.lookup_eq_none_iff.1 hno _ hc
        simp at this
    · show start maps f = .zero
      unfold start
      rw [if_neg (show f ∉ maps from b5)]

/-- Which objects are concerned. -/
theorem C57_parts_lost_list : ∀ x ∈ [(PName.parseCharacteristic, (str! "ENCODING"), "encoding"),
      (.parseTypeDefCharacteristic, (str! "DISPLAY_IDENTIFIER"), "encoding"),
      (.parseInstance, (str! "ADDRESS_TYPE"), "addressType"), (.parseStructureComponent, (str! "ADDRESS_TYPE"), "addressType"),
      (.parseTypeDefBlob, (str! "ADDRESS_TYPE"), "addressType"), (.parseTypeDefStructure, (str! "ADDRESS_TYPE"), "addressType")],
    ∃ e, (x.2.1, e, x.2.2) ∈ enumParts (Shape.subs (shape x.1)) ∧ e.usesNext = false := by
  intro x hx
  simp only [List.mem_cons, List.not_mem_nil, or_false] at hx
  rcases hx with rfl | rfl | rfl | rfl | rfl | rfl
  all_goals first | exact ⟨parseEncodingEnum, by decide +kernel, rfl⟩ | exact ⟨parseAddrTypeEnum, by decide +kernel, rfl⟩

/-- C57 in optional parts that are read after their keyword (CALIBRATION_ACCESS): the constant is accepted and is read back. -/
theorem C57_part_partial {E : Env} (hw : Wf E) {p : PName} (hp : p ∉ irregular) {raw : Bool} {ps : List Param}
    {rest : Rest} {subs : List (Str × Sub)} {maps : List String} (hsh : shape p = .block raw ps rest subs maps)
    {k : Str} {T : EnumType} {f : String} (hm : (k, T.parser, f) ∈ enumParts subs) (hu : T.parser.usesNext = true)
    {i : Nat} {ws : List Str} {vs : List Val} {c : Str} (hlw : ws.length = ps.length) (hlv : vs.length = ps.length)
    (htx : Words E i (ws ++ [k, c, fin p])) (hc : c ∈ T.constants) (hcl : c ≠ (str! "PLONGLONG"))
    (hv : ∀ (j : Nat) (q : Param) (w : Str) (v : Val), ps[j]? = some q → ws[j]? = some w → vs[j]? = some v →
      Legal E raw (fin p) subs q w v) :
    ∃ o, Returns E p i (.ok (i + ws.length + 3) (.obj o) false) ∧ o f = .str c ∧
      ∀ (j : Nat) (q : Param) (v : Val), ps[j]? = some q → vs[j]? = some v → o q.field = v := by
  have hps : (shape p).params = ps := by rw [hsh]; rfl
  have hks : (shape p).keys = subs.map (·.1) := by rw [hsh]; rfl
  have hl : ∀ (j : Nat) (q : Param) (w : Str) (v : Val), ps[j]? = some q → ws[j]? = some w → vs[j]? = some v →
      Plain raw (fin p) subs w ∧ Denotes E q.kind w v := fun j q w v a b c =>
    legal_iff hp hks (by rw [hps]; exact List.mem_of_getElem? a) (hv j q w v a b c)
  have h1 := items_words (E := E) (R := Succeeds E) (raw := raw) (fin := fin p) (rest := rest) (subs := subs) ps ws vs 0 i (start maps) rfl hlw hlv
    (fun j w hj => htx j w (by
      rw [List.getElem?_append_left (by have := (List.getElem?_eq_some_iff.1 hj).1; exact this)]; exact hj))
    (fun w hw => by
      obtain ⟨j, hj, rfl⟩ := List.mem_iff_getElem.1 hw
      exact (hl j (ps[j]'(by omega)) ws[j] (vs[j]'(by omega)) (List.getElem?_eq_getElem _) (List.getElem?_eq_getElem _) (List.getElem?_eq_getElem _)).1)
    (fun j q w v a b c => (hl j q w v a b c).2)
  have hms : (k, Sub.enum T.parser f) ∈ subs := by
    obtain ⟨⟨k', sb⟩, hx, he⟩ := List.mem_filterMap.1 hm
    cases sb with
    | obj _ _ _ => cases he
    | enum e g => cases he; exact hx
  have ht1 : TokAfter E (i + ps.length) k := by rw [← hlw]; exact htx ws.length k (by simp)
  have ht2 : TokAfter E (i + ps.length + 1) c := by
    have := htx (ws.length + 1) c (by rw [List.getElem?_append_right (by omega)]; simp)
    rw [← hlw]; exact this
  have ht3 : TokAfter E (i + ps.length + 2) (fin p) := by
    have := htx (ws.length + 2) (fin p) (by rw [List.getElem?_append_right (by omega)]; simp)
    rw [← hlw]; exact this
  have hcT : (c, c) ∈ T.parser.table := mem_of_lookup ((C57_table_partial T c c).2 ⟨rfl, hc, hcl⟩)
  have hi : Decl.Item E (Succeeds E) raw (fin p) ps rest subs ⟨0 + ps.length, fill ps vs (start maps), i + ps.length⟩
      ⟨0 + ps.length, (fill ps vs (start maps)).set f (.str c), i + ps.length + 2⟩ := by
    have := Decl.Item.enum (E := E) (R := Succeeds E) (raw := raw) (fin := fin p) (ps := ps) (rest := rest) (m := 0 + ps.length)
      (o := fill ps vs (start maps)) (i := i + ps.length) hms ht1 (t := c) (by rw [if_pos hu]; exact ht2) hcT
    rw [if_pos hu] at this
    exact this
  have happ : ∀ {a b : Nat} {x y z : Decl.Pos}, Decl.Items E (Succeeds E) raw (fin p) ps rest subs a x y →
      Decl.Item E (Succeeds E) raw (fin p) ps rest subs y z → Decl.Items E (Succeeds E) raw (fin p) ps rest subs (a + 1) x z := by
    intro a b x y z h g
    induction h with
    | nil => exact .cons g .nil
    | cons hi _ ih => exact .cons hi (ih g)
  have h3 : Text E (fin p) (shape p) i (i + ws.length + 3) ((fill ps vs (start maps)).set f (.str c)) := by
    rw [hsh, hlw]
    exact ⟨_, _, _, happ (b := 0) h1 hi, ht3, rfl⟩
  obtain ⟨o', h4, h5⟩ := accepts_all_text hw hp h3
  obtain ⟨n1, n2⟩ := fields_nodup p hp
  have hap := (fields_apart p hp).2 (k, T.parser, f) (by rw [hsh]; exact hm)
  refine ⟨o', h4, ?_, fun j q v hq hv' => ?_⟩
  · rw [h5 _ hap.2.2.2.1]; simp [Obj.set]
  · rw [h5 _ (n2 q (by rw [hsh]; exact List.mem_of_getElem? hq))]
    have hne : q.field ≠ f := fun he => hap.1 (by rw [hsh]; exact List.mem_map.2 ⟨q, List.mem_of_getElem? hq, he⟩)
    rw [hsh] at n1
    unfold Obj.set
    rw [if_neg hne]
    exact fill_get ps vs _ n1 j q v hq hv'

theorem params_at {E : Env} {i : Nat} {ps : List Param} {o o' : Obj} (h : Params E i ps o o') :
    ∀ (m : Nat) (q : Param), ps[m]? = some q → ∃ t v, TokAfter E (i + m) t ∧ t ∉ keywords ∧ Denotes E q.kind t v := by
  induction h with
  | nil => intro m q hm; simp at hm
  | cons ht hne hkw hv h ih =>
    intro m q hm
    cases m with
    | zero => cases hm; exact ⟨_, _, ht, hkw, hv⟩
    | succ m =>
      obtain ⟨t, v, h1, h2⟩ := ih m q (by simpa using hm)
      exact ⟨t, v, by unfold TokAfter at h1 ⊢; rw [← h1]; congr 1; omega, h2⟩

/-- The lost constants are never accepted in keywords with a fixed number of parameters, whatever surrounds them. -/
theorem C57_lost_rejected {E : Env} (hw : Wf E) (hmt : MtGood E) {p : PName} (hp : p ∉ irregular) {ps : List Param}
    (hsh : shape p = .seq ps ∨ ∃ q, shape p = .one q ∧ ps = [q]) {m : Nat} {q : Param} (hq : ps[m]? = some q) {T : EnumType}
    (hk : q.kind = .enum T.parser) {i : Nat} (hi : i < E.toks.length) {c : Str} (hc : c ∈ lost) (ht : TokAfter E (i + m) c) :
    ∃ i' v, Returns E p i (.ok i' v true) := by
  obtain ⟨i', v, e, hr, _, _⟩ := C28_terminates hw hmt p (not_mt hp) i hi
  cases e with
  | true => exact ⟨i', v, hr⟩
  | false =>
    obtain ⟨o, o', _, htx, _⟩ := accepts_only_text hw hp hr
    have hpar : Params E i ps Obj.empty o := by
      rcases hsh with hsh | ⟨q, hsh, rfl⟩ <;> rw [hsh] at htx <;> exact htx.1
    obtain ⟨t, w, h1, h2, h3⟩ := params_at hpar m q hq
    have he : some t = some c := h1.symm.trans ht
    obtain rfl := Option.some.inj he
    rw [hk] at h3
    obtain ⟨_, _, h6⟩ := denotes_enum.1 h3
    exact (lost_kw t hc).elim (fun h => absurd h h6) (fun h => absurd h h2)

/-- C57 as stated, for keywords with a fixed number of parameters. -/
def C57_full : Prop := ∀ (E : Env), Wf E → MtGood E → ∀ (p : PName), p ∉ irregular → ∀ (ps : List Param), shape p = .seq ps →
  ∀ (i : Nat) (ws : List Str) (vs : List Val), ws.length = ps.length → vs.length = ps.length → Words E i ws →
  (∀ (j : Nat) (q : Param) (w : Str) (v : Val), ps[j]? = some q → ws[j]? = some w → vs[j]? = some v →
    (∃ T : EnumType, q.kind = .enum T.parser ∧ w ∈ T.constants ∧ v = .str w) ∨ (Plain false (fin p) [] w ∧ Denotes E q.kind w v)) →
  ∃ o, Returns E p i (.ok (i + ws.length) (.obj o) false) ∧
    ∀ (j : Nat) (q : Param) (v : Val), ps[j]? = some q → vs[j]? = some v → o q.field = v

def altToks : List Str := [(str! "FNC_VALUES"), (str! "1"), (str! "UWORD"), (str! "ALTERNATE_CURVES"), (str! "DIRECT")]

def colToks : List Str := [(str! "FNC_VALUES"), (str! "1"), (str! "UWORD"), (str! "COLUMN_DIR"), (str! "DIRECT")]

theorem words_drop (t : Str) (ts : List Str) : Words (mkEnv (t :: ts)) 0 ts := by
  intro j w hj
  have hlt := (List.getElem?_eq_some_iff.1 hj).1
  unfold TokAfter mkEnv
  simp only [Nat.zero_add]
  rw [List.cons_append, List.getElem?_cons_succ, List.getElem?_append_left hlt]
  exact hj

/-- The witness: `FNC_VALUES 1 UWORD ALTERNATE_CURVES DIRECT`. The constant is in the table of keywords. -/
theorem C57_false : ¬ C57_full := by
  intro h
  obtain ⟨o, hr, _⟩ := h (mkEnv altToks) (mkEnv_wf (by decide)) (mkEnv_mt _) .parseFncValues (by decide) _ rfl 0
    [(str! "1"), (str! "UWORD"), (str! "ALTERNATE_CURVES"), (str! "DIRECT")]
    [.int 1, .str (str! "UWORD"), .str (str! "ALTERNATE_CURVES"), .str (str! "DIRECT")] rfl rfl (words_drop _ _) (by
      intro j q w v h1 h2 h3
      match j with
      | 0 =>
        cases h1; cases h2; cases h3
        exact Or.inr ⟨⟨by decide, by decide, by decide, Or.inr (by decide +kernel)⟩, 1, ⟨by decide, by unfold IsDigit; decide, by decide⟩, by decide, rfl⟩
      | 1 => cases h1; cases h2; cases h3; exact Or.inl ⟨.dataType, rfl, by decide, rfl⟩
      | 2 => cases h1; cases h2; cases h3; exact Or.inl ⟨.indexMode, rfl, by decide, rfl⟩
      | 3 => cases h1; cases h2; cases h3; exact Or.inl ⟨.addrType, rfl, by decide, rfl⟩
      | j + 4 => simp at h2)
  obtain ⟨i', v, hr'⟩ := C57_lost_rejected (mkEnv_wf (by decide)) (mkEnv_mt altToks) (p := .parseFncValues) (by decide) (Or.inl rfl) (m := 2) rfl
    (T := .indexMode) rfl (i := 0) (by decide) (c := (str! "ALTERNATE_CURVES")) (by decide) rfl
  have := hr.unique hr'
  simp at this

/-- C57 on an example: `FNC_VALUES 1 UWORD COLUMN_DIR DIRECT`. -/
example : ∃ o : Obj, Returns (mkEnv colToks) .parseFncValues 0 (.ok 4 (.obj o) false) ∧ o "IndexMode" = .str (str! "COLUMN_DIR") ∧
    o "Datatype" = .str (str! "UWORD") := by
  obtain ⟨o, hr, ho⟩ := C57_seq_partial (E := mkEnv colToks) (mkEnv_wf (by decide)) (p := .parseFncValues) (by decide) (Or.inl rfl) (i := 0)
    (ws := [(str! "1"), (str! "UWORD"), (str! "COLUMN_DIR"), (str! "DIRECT")])
    (vs := [.int 1, .str (str! "UWORD"), .str (str! "COLUMN_DIR"), .str (str! "DIRECT")]) rfl rfl (words_drop _ _) (by
      intro j q w v h1 h2 h3
      match j with
      | 0 =>
        cases h1; cases h2; cases h3
        exact Or.inr ⟨⟨by decide, by decide, by decide, Or.inr (by decide +kernel)⟩, 1, ⟨by decide, by unfold IsDigit; decide, by decide⟩, by decide, rfl⟩
      | 1 => cases h1; cases h2; cases h3; exact Or.inl ⟨.dataType, rfl, by decide, by decide, rfl⟩
      | 2 => cases h1; cases h2; cases h3; exact Or.inl ⟨.indexMode, rfl, by decide, by decide, rfl⟩
      | 3 => cases h1; cases h2; cases h3; exact Or.inl ⟨.addrType, rfl, by decide, by decide, rfl⟩
      | j + 4 => simp at h2)
  exact ⟨o, hr, ho 2 _ _ rfl rfl, ho 1 _ _ rfl rfl⟩

def methToks : List Str := [(str! "/begin COMPU_METHOD"), (str! "M"), (str! "\"x\""), (str! "TAB_VERB"), (str! "\"%4.2\""), (str! "\"rpm\""), (str! "/end COMPU_METHOD")]

/-- A block: `/begin COMPU_METHOD M "x" TAB_VERB "%4.2" "rpm" /end COMPU_METHOD`. -/
example : ∃ o : Obj, Returns (mkEnv methToks) .parseCompuMethod 0 (.ok 6 (.obj o) false) ∧ o "ConversionType" = .str (str! "TAB_VERB") := by
  obtain ⟨o, hr, ho⟩ := C57_block_partial (E := mkEnv methToks) (mkEnv_wf (by decide)) (p := .parseCompuMethod) (by decide) rfl (i := 0)
    (ws := [(str! "M"), (str! "\"x\""), (str! "TAB_VERB"), (str! "\"%4.2\""), (str! "\"rpm\"")])
    (vs := [.str (str! "M"), .str (str! "\"x\""), .str (str! "TAB_VERB"), .str (str! "\"%4.2\""), .str (str! "\"rpm\"")]) rfl rfl (words_drop _ _) (by
      intro j q w v h1 h2 h3
      match j with
      | 0 | 1 | 3 | 4 =>
        cases h1; cases h2; cases h3
        exact Or.inr ⟨⟨by decide, by decide, by decide, Or.inr (by decide +kernel)⟩, rfl⟩
      | 2 => cases h1; cases h2; cases h3; exact Or.inl ⟨.conversionType, rfl, by decide, by decide, rfl⟩
      | j + 5 => simp at h2)
  exact ⟨o, hr, ho 2 _ _ rfl rfl⟩

def instToks (part c : Str) : List Str := [(str! "/begin INSTANCE"), (str! "I"), (str! "\"x\""), (str! "T"), (str! "16"), part, c, (str! "/end INSTANCE")]

/-- An optional part: `/begin INSTANCE I "x" T 16 CALIBRATION_ACCESS NO_CALIBRATION /end INSTANCE`. -/
example : ∃ o : Obj, Returns (mkEnv (instToks (str! "CALIBRATION_ACCESS") (str! "NO_CALIBRATION"))) .parseInstance 0 (.ok 7 (.obj o) false) ∧
    o "calibrationAccess" = .str (str! "NO_CALIBRATION") := by
  obtain ⟨o, hr, ho, _⟩ := C57_part_partial (E := mkEnv (instToks (str! "CALIBRATION_ACCESS") (str! "NO_CALIBRATION")))
    (mkEnv_wf (by decide)) (p := .parseInstance) (by decide) rfl
    (k := (str! "CALIBRATION_ACCESS")) (T := .calibrationAccess) (f := "calibrationAccess") (by decide +kernel) rfl (i := 0) (c := (str! "NO_CALIBRATION"))
    (ws := [(str! "I"), (str! "\"x\""), (str! "T"), (str! "16")])
    (vs := [.str (str! "I"), .str (str! "\"x\""), .str (str! "T"), .str (str! "16")]) rfl rfl (words_drop _ _) (by decide) (by decide) (by
      intro j q w v h1 h2 h3
      match j with
      | 0 | 1 | 2 | 3 =>
        cases h1; cases h2; cases h3
        exact Or.inr ⟨⟨by decide, by decide, by decide, Or.inr (by decide +kernel)⟩, rfl⟩
      | j + 4 => simp at h2)
  exact ⟨o, hr, ho⟩

/-- `ADDRESS_TYPE DIRECT` in an INSTANCE: rejected, because the keyword is compared with the constants. -/
theorem C57_address_type_rejected : ∃ i' v, Returns (mkEnv (instToks (str! "ADDRESS_TYPE") (str! "DIRECT"))) .parseInstance 0 (.ok i' v true) := by
  obtain ⟨o, h, _⟩ := got_spec (show got (mkEnv (instToks (str! "ADDRESS_TYPE") (str! "DIRECT"))) .parseInstance 0 "addressType" = some (5, true, some [], none) by decide +kernel)
  exact ⟨_, _, h⟩

/-- The hypotheses of `C57_part_lost` are met: an accepted INSTANCE. -/
example : ∃ o : Obj, Returns (mkEnv (instToks (str! "CALIBRATION_ACCESS") (str! "NO_CALIBRATION"))) .parseInstance 0 (.ok 7 (.obj o) false) ∧
    o "addressType" = .zero := by
  obtain ⟨o, h, _⟩ := got_spec (show got (mkEnv (instToks (str! "CALIBRATION_ACCESS") (str! "NO_CALIBRATION"))) .parseInstance 0 "x" = some (7, false, none, none) by decide +kernel)
  exact ⟨o, h, C57_part_lost (mkEnv_wf (by decide)) (by decide) (k := (str! "ADDRESS_TYPE")) (e := parseAddrTypeEnum) (by decide +kernel) rfl h⟩

/-- `C57_only` on the COMPU_METHOD above. -/
example : ∃ o : Obj, Returns (mkEnv methToks) .parseCompuMethod 0 (.ok 6 (.obj o) false) ∧ Holds .conversionType (o "ConversionType") := by
  obtain ⟨o, h, _⟩ := got_spec (show got (mkEnv methToks) .parseCompuMethod 0 "x" = some (6, false, none, none) by decide +kernel)
  exact ⟨o, h, C57_only (mkEnv_wf (by decide)) (by decide) (q := ⟨"ConversionType", "ConversionTypeSet", .enum parseConversionTypeEnum⟩)
    (by decide +kernel) rfl h⟩

end Verif.A2l.Props
