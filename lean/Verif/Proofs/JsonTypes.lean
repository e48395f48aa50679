import Verif.Model.JsonApi
import Verif.Model.JsonForks
import Verif.Proofs.Json

/-! # Facts about the JSON form of the types of the repository -/

namespace Verif.Json

open Text Spec

set_option maxRecDepth 20000 in
theorem types_distinct (K : Consts) :
    ((coreTypes K ++ apiTypes K).all fun p => p.2.distinct) = true := rfl

theorem distinct_of_mem {K : Consts} {p : String × Schema} (h : p ∈ coreTypes K ++ apiTypes K) :
    p.2.distinct = true :=
  List.all_eq_true.1 (types_distinct K) p h

/-! ## Types that need borrowed strings -/

/-- The types with a collection of integers written by `seq_of_str` -/
def borrowing : List String := [
  "phase0::IndexedAttestation", "phase0::AttesterSlashing", "phase0::BeaconBlockBody",
  "phase0::BeaconBlock", "phase0::SignedBeaconBlock", "phase0::BeaconState",
  "altair::BeaconBlockBody", "altair::BeaconBlock", "altair::SignedBeaconBlock",
  "altair::BeaconState",
  "bellatrix::BeaconBlockBody", "bellatrix::BeaconBlock", "bellatrix::SignedBeaconBlock",
  "bellatrix::BeaconState", "bellatrix::BlindedBeaconBlockBody", "bellatrix::BlindedBeaconBlock",
  "bellatrix::SignedBlindedBeaconBlock",
  "capella::BeaconBlockBody", "capella::BeaconBlock", "capella::SignedBeaconBlock",
  "capella::BeaconState", "capella::BlindedBeaconBlockBody", "capella::BlindedBeaconBlock",
  "capella::SignedBlindedBeaconBlock",
  "deneb::BeaconBlockBody", "deneb::BeaconBlock", "deneb::SignedBeaconBlock",
  "deneb::BeaconState", "deneb::BlindedBeaconBlockBody", "deneb::BlindedBeaconBlock",
  "deneb::SignedBlindedBeaconBlock",
  "electra::IndexedAttestation", "electra::AttesterSlashing", "electra::BeaconBlockBody",
  "electra::BeaconBlock", "electra::SignedBeaconBlock", "electra::BeaconState",
  "CommitteeSummary", "SyncCommitteeSummary", "SyncCommitteeDuty", "SyncCommitteeDescriptor"]

set_option maxRecDepth 20000 in
theorem types_plain (K : Consts) :
    ((coreTypes K ++ apiTypes K).all fun p => p.2.plain || borrowing.contains p.1) = true := rfl

theorem plain_of_mem {K : Consts} {p : String × Schema} (h : p ∈ coreTypes K ++ apiTypes K)
    (hp : p.1 ∉ borrowing) : p.2.plain = true := by
  have := List.all_eq_true.1 (types_plain K) p h
  simp only [Bool.or_eq_true, List.contains_iff_mem] at this
  exact this.resolve_right hp

/-- A vector of integers is never read from a source whose strings are transient. -/
theorem ints_owned {b n : Nat} (hn : n ≠ 0) (v : (Schema.ints b (.exactly n)).Val) :
    (Schema.ints b (.exactly n)).dec .owned ((Schema.ints b (.exactly n)).enc v) = none := by
  obtain ⟨xs, hx⟩ := v
  cases xs with
  | nil => simp [Len.ok] at hx; omega
  | cons x xs =>
    unfold Schema.enc Schema.dec
    simp only [List.map_cons, List.mapM_cons, elem_of_str, reduceCtorEq, ↓reduceIte,
      Option.bind_eq_bind, Option.bind_none]

/-- A struct is not read when one of its fields is not. -/
theorem decObj_none {src : Source} {fs : Fields} {name : String} {t : Schema}
    {ms : List (String × Json)} {x : Json} (hf : fs.find name = some t) (hx : lookup name ms = some x)
    (h : t.dec src x = none) : fs.decObj src ms = none := by
  match fs with
  | .nil => cases hf
  | .cons n s rest =>
    unfold Fields.find at hf
    unfold Fields.decObj
    split at hf
    · rename_i hn
      cases hf
      subst hn
      rw [hx]
      simp only [Option.bind_eq_bind, Option.bind_some, h, Option.bind_none]
    · rw [decObj_none hf hx h]
      cases lookup n ms with
      | none => rfl
      | some y =>
        simp only [Option.bind_eq_bind, Option.bind_some, Option.bind_none]
        cases s.dec src y <;> rfl

/-! ## Numbers -/

mutual

/-- Whether some integer in the type is written as a JSON number -/
def Schema.numeric : Schema → Bool
  | .num _ => true
  | .seq _ s => s.numeric
  | .record fs => fs.numeric
  | _ => false

def Fields.numeric : Fields → Bool
  | .nil => false
  | .cons _ s rest => s.numeric || rest.numeric

end

mutual

theorem Schema.numberFree : (s : Schema) → s.numeric = false → (v : s.Val) → NumberFree (s.enc v)
  | .int _, _, _ => .str _
  | .num _, h, _ => by simp [Schema.numeric] at h
  | .bool, _, _ => .bool _
  | .text, _, _ => .str _
  | .tag _, _, _ => .str _
  | .bytes _, _, _ => .str _
  | .byteList _, _, _ => .str _
  | .bitvector _, _, _ => .str _
  | .bitlist _, _, _ => .str _
  | .ints _ _, _, v => by
    unfold Schema.enc
    refine .arr fun x hx => ?_
    obtain ⟨y, _, rfl⟩ := List.mem_map.1 hx
    exact .str _
  | .seq l s, h, v => by
    unfold Schema.enc
    refine .arr fun x hx => ?_
    obtain ⟨y, _, rfl⟩ := List.mem_map.1 hx
    exact Schema.numberFree s (by simpa [Schema.numeric] using h) y
  | .record fs, h, v => by
    unfold Schema.enc
    exact .obj (Fields.numberFree fs (by simpa [Schema.numeric] using h) v)

theorem Fields.numberFree : (fs : Fields) → fs.numeric = false → (v : fs.Val) →
    ∀ m ∈ fs.enc v, NumberFree m.2
  | .nil, _, _, m, hm => by cases hm
  | .cons n s rest, h, v, m, hm => by
    simp only [Fields.numeric, Bool.or_eq_false_iff] at h
    unfold Fields.enc at hm
    rcases List.mem_cons.1 hm with rfl | hm
    · exact Schema.numberFree s h.1 v.1
    · exact Fields.numberFree rest h.2 v.2 m hm

end

/-- The types with an integer that is written as a JSON number -/
def numbered : List String := [
  "phase0::Eth1Block", "altair::SyncAggregatorSelectionData",
  "altair::LightClientUpdate", "altair::LightClientFinalityUpdate",
  "altair::LightClientOptimisticUpdate",
  "capella::LightClientUpdate", "capella::LightClientFinalityUpdate",
  "capella::LightClientOptimisticUpdate",
  "deneb::LightClientUpdate", "deneb::LightClientFinalityUpdate",
  "deneb::LightClientOptimisticUpdate"]

set_option maxRecDepth 20000 in
theorem types_numeric (K : Consts) :
    ((coreTypes K ++ apiTypes K).all fun p => !p.2.numeric || numbered.contains p.1) = true := rfl

theorem numeric_of_mem {K : Consts} {p : String × Schema} (h : p ∈ coreTypes K ++ apiTypes K)
    (hp : p.1 ∉ numbered) : p.2.numeric = false := by
  have := List.all_eq_true.1 (types_numeric K) p h
  simp only [Bool.or_eq_true, Bool.not_eq_true', List.contains_iff_mem] at this
  exact this.resolve_right hp

/-- Some field of the struct is written as a JSON number. -/
def Fields.hasNum : Fields → Bool
  | .nil => false
  | .cons _ (.num _) _ => true
  | .cons _ _ rest => rest.hasNum

def Schema.hasNum : Schema → Bool
  | .record fs => fs.hasNum
  | _ => false

theorem Fields.num_mem (fs : Fields) (h : fs.hasNum = true) (v : fs.Val) :
    ∃ m ∈ fs.enc v, ∃ n, m.2 = .num n := by
  match fs, v with
  | .nil, _ => cases h
  | .cons n s rest, v =>
    unfold Fields.hasNum at h
    unfold Fields.enc
    split at h
    · cases h
    · rename_i e
      cases e
      exact ⟨_, List.mem_cons_self, v.1.val, rfl⟩
    · rename_i e
      cases e
      obtain ⟨m, hm, x, hx⟩ := Fields.num_mem rest h v.2
      exact ⟨m, List.mem_cons_of_mem _ hm, x, hx⟩

theorem Schema.not_numberFree (s : Schema) (h : s.hasNum = true) (v : s.Val) :
    ¬ NumberFree (s.enc v) := by
  unfold Schema.hasNum at h
  split at h
  · rename_i fs
    unfold Schema.enc
    obtain ⟨m, hm, n, hn⟩ := Fields.num_mem fs h v
    rintro (_ | _ | _ | _ | hf)
    have := hf m hm
    rw [hn] at this
    cases this
  · cases h

set_option maxRecDepth 20000 in
theorem types_hasNum (K : Consts) :
    ((coreTypes K ++ apiTypes K).all fun p => p.2.hasNum || !numbered.contains p.1) = true := rfl

theorem hasNum_of_mem {K : Consts} {p : String × Schema} (h : p ∈ coreTypes K ++ apiTypes K)
    (hp : p.1 ∈ numbered) : p.2.hasNum = true := by
  have := List.all_eq_true.1 (types_hasNum K) p h
  simp only [Bool.or_eq_true, Bool.not_eq_true'] at this
  refine this.resolve_right fun h' => ?_
  rw [← List.contains_iff_mem] at hp
  rw [hp] at h'
  cases h'

theorem mem_of_lookup {name : String} {ms : List (String × Json)} {x : Json}
    (h : lookup name ms = some x) : (name, x) ∈ ms := by
  induction ms with
  | nil => cases h
  | cons m ms ih =>
    unfold lookup at h
    split at h
    · rename_i hn; cases h; subst hn; exact List.mem_cons_self
    · exact List.mem_cons_of_mem _ (ih h)

/-! ## The enums over forks -/

set_option maxRecDepth 20000 in
theorem enums_distinct (K : Consts) :
    ((forkEnums K).all fun E => E.order.all fun f => (E.schema f).distinct) = true := rfl

/-- Each variant of the list lacks nothing only of itself: none before it reads its values. -/
def lacking (schema : Fork → Schema) : List Fork → Bool
  | [] => true
  | f :: fs => (fs.all fun g => (schema f).lacks (schema g)) && lacking schema fs

set_option maxRecDepth 20000 in
theorem enums_lacking (K : Consts) :
    ((forkEnums K).all fun E => lacking E.schema E.order) = true := rfl

theorem versioned_dec {schema : Fork → Schema} {order : List Fork} (hl : lacking schema order = true)
    {f : Fork} (hf : f ∈ order) {v : (schema f).Val} (hd : (schema f).distinct = true) :
    Versioned.dec order schema ((schema f).enc v) = some ⟨f, v⟩ := by
  induction order with
  | nil => cases hf
  | cons g gs ih =>
    simp only [lacking, Bool.and_eq_true, List.all_eq_true] at hl
    unfold Versioned.dec
    rw [List.findSome?_cons]
    by_cases hg : f = g
    · subst hg
      rw [Schema.roundtrip .borrowed _ hd (by simp [Source.reads]) v]
      rfl
    · have hf' : f ∈ gs := (List.mem_cons.1 hf).resolve_left hg
      rw [Schema.dec_none .borrowed (schema g) (schema f) (hl.1 f hf') v]
      exact ih hl.2 hf'

theorem dec_congr {src : Source} {s : Schema} {a b : Json} (h1 : Extends a b) (h2 : Extends b a) :
    s.dec src a = s.dec src b := by
  cases hb : s.dec src b with
  | some v => exact Schema.dec_extends src s h1 hb
  | none =>
    cases ha : s.dec src a with
    | none => rfl
    | some v => rw [Schema.dec_extends src s h2 ha] at hb; cases hb

/-! ## Reading a part of a struct -/

/-- Every field of `gs` is a field of `fs`, of the same type or of a struct of which it reads a
part. -/
inductive Part : Schema → Schema → Prop
  | refl (s : Schema) : Part s s
  | record {gs fs : Fields} (sub : String → Schema) :
      (∀ n s, gs.find n = some s → fs.find n = some (sub n)) →
      (∀ n s, gs.find n = some s → Part s (sub n)) → Part (.record gs) (.record fs)

theorem Part.of_fields {gs fs : Fields}
    (h : ∀ n s, gs.find n = some s → ∃ t, fs.find n = some t ∧ Part s t) :
    Part (.record gs) (.record fs) := by
  refine .record (fun n => (fs.find n).getD .bool) (fun n s hs => ?_) fun n s hs => ?_
  · obtain ⟨t, ht, _⟩ := h n s hs
    rw [ht]; rfl
  · obtain ⟨t, ht, hst⟩ := h n s hs
    simp only [ht]; exact hst

theorem find_cons {n : String} {s : Schema} {rest : Fields} {P : String → Schema → Prop}
    (h1 : P n s) (h2 : ∀ m t, rest.find m = some t → P m t) :
    ∀ m t, (Fields.cons n s rest).find m = some t → P m t := by
  intro m t h
  unfold Fields.find at h
  split at h
  · rename_i e; subst e; cases h; exact h1
  · exact h2 m t h

theorem find_nil {P : String → Schema → Prop} : ∀ m t, Fields.nil.find m = some t → P m t := by
  intro m t h; cases h

theorem find_distinct {fs : Fields} {n : String} {s : Schema} (h : fs.distinct = true)
    (hs : fs.find n = some s) : s.distinct = true := by
  match fs with
  | .nil => cases hs
  | .cons m t rest =>
    simp only [Fields.distinct, Bool.and_eq_true] at h
    unfold Fields.find at hs
    split at hs
    · cases hs; exact h.1.1
    · exact find_distinct h.2 hs

theorem fields_part {gs : Fields} {ms : List (String × Json)} (hd : gs.distinct = true)
    (key : ∀ n s, gs.find n = some s → ∃ (x : Json) (w : s.Val),
      lookup n ms = some x ∧ s.dec .borrowed x = some w ∧ Extends x (s.enc w)) :
    ∃ w : gs.Val, gs.decObj .borrowed ms = some w ∧
      ∀ n x, lookup n (gs.enc w) = some x → ∃ y, lookup n ms = some y ∧ Extends y x := by
  match gs with
  | .nil => exact ⟨(), rfl, fun n x h => by cases h⟩
  | .cons m t rest =>
    simp only [Fields.distinct, Bool.and_eq_true, Option.isNone_iff_eq_none] at hd
    obtain ⟨w, hw, he⟩ := fields_part hd.2 (ms := ms) fun n s hs => key n s (by
      unfold Fields.find
      rw [if_neg, hs]
      rintro rfl
      rw [hd.1.2] at hs
      cases hs)
    obtain ⟨x, u, hx, hu, hxu⟩ := key m t (by simp [Fields.find])
    refine ⟨(u, w), decObj_cons hx hu hw, fun n y hy => ?_⟩
    unfold Fields.enc lookup at hy
    split at hy
    · rename_i e
      subst e
      cases hy
      exact ⟨x, hx, hxu⟩
    · exact he n y hy

/-- What is written of a struct is read as the part of it that another struct has. -/
theorem Schema.part_dec (g f : Schema) (hg : g.distinct = true) (hf : f.distinct = true)
    (h : Part g f) (v : f.Val) :
    ∃ w : g.Val, g.dec .borrowed (f.enc v) = some w ∧ Extends (f.enc v) (g.enc w) := by
  induction h with
  | refl s => exact ⟨v, Schema.roundtrip .borrowed s hg (by simp [Source.reads]) v, .refl _⟩
  | @record gs fs sub hp1 hp2 ih =>
    unfold Schema.distinct at hg hf
    have key : ∀ n s, gs.find n = some s → ∃ (x : Json) (w : s.Val),
        lookup n (fs.enc v) = some x ∧ s.dec .borrowed x = some w ∧ Extends x (s.enc w) := by
      intro n s hs
      have ht := hp1 n s hs
      obtain ⟨u, hu⟩ := lookup_enc_some ht v
      obtain ⟨w, h1, h2⟩ := ih n s hs (find_distinct hg hs) (find_distinct hf ht) u
      exact ⟨_, w, hu, h1, h2⟩
    obtain ⟨w, hw, he⟩ := fields_part hg key
    refine ⟨w, hw, ?_⟩
    unfold Schema.enc
    refine .obj (fun n => (lookup n (fs.enc v)).getD .null) (fun n x hx => ?_) fun n x hx => ?_
    · obtain ⟨y, hy, _⟩ := he n x hx
      rw [hy]; rfl
    · obtain ⟨y, hy, hyx⟩ := he n x hx
      simp only [hy]; exact hyx

/-- Settles that one struct is a part of another, given parts for the fields that differ. -/
macro "parts" "[" hs:term,* "]" : tactic =>
  `(tactic| (
    refine Part.of_fields ?_
    repeat' (first
      | exact find_nil
      | exact ⟨_, rfl, .refl _⟩
      $[| exact ⟨_, rfl, $hs⟩]*
      | refine find_cons ?_ ?_)))

theorem payload_part (K : Consts) : Part (deneb.ExecutionPayload K) (electra.ExecutionPayload K) := by
  parts []

theorem header_part (K : Consts) :
    Part (deneb.ExecutionPayloadHeader K) (electra.ExecutionPayloadHeader K) := by
  parts []

theorem state_part (K : Consts) : Part (deneb.BeaconState K) (electra.BeaconState K) := by
  parts [header_part K]

/-! ## Default values -/

/-- The least number of elements of a collection -/
def Len.least : Len → Nat
  | .exactly n => n
  | _ => 0

mutual

/-- `Default`: zeros and empty lists. Nothing for a type without values, such as a vector of values
of such a type. -/
def Schema.zero : (s : Schema) → Option s.Val
  | .int b => if h : 0 < b then some ⟨0, h⟩ else none
  | .num b => if h : 0 < b then some ⟨0, h⟩ else none
  | .bool => some false
  | .text => some []
  | .tag names => if h : 0 < names.length then some ⟨0, h⟩ else none
  | .bytes n => some ⟨List.replicate n 0, by simp⟩
  | .byteList _ => some ⟨[], by simp⟩
  | .bitvector n => some ⟨List.replicate n false, by simp⟩
  | .bitlist _ => some ⟨[], by simp⟩
  | .ints b l =>
    if h : 0 < b then collect l (List.replicate l.least (⟨0, h⟩ : Fin b)) else none
  | .seq l s =>
    if l.least = 0 then collect l [] else s.zero.bind fun x => collect l (List.replicate l.least x)
  | .record fs => fs.zero

def Fields.zero : (fs : Fields) → Option fs.Val
  | .nil => some ()
  | .cons _ s rest => s.zero.bind fun v => rest.zero.map fun vs => (v, vs)

end

end Verif.Json
