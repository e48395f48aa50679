import Mathlib.Data.List.Nodup
import Verif.Spec.ConfigFiles

/-! # Configuration files are read as written -/

namespace Verif.Config

open Spec

theorem read_iff {Y : Yaml} {node : Y.Node} {kind : Kind} {v : Value} :
    read Y node kind = some v ↔ Denotes Y node kind v := by
  constructor
  · intro h
    cases kind <;> simp only [read, Option.bind_eq_bind, Option.bind_eq_some_iff] at h
    · obtain ⟨n, hn, h⟩ := h
      split at h
      · cases h; exact .u64 hn ‹_›
      · cases h
    · obtain ⟨n, hn, h⟩ := h
      split at h
      · cases h; exact .u256 hn ‹_›
      · cases h
    · obtain ⟨s, hs, data, hd, h⟩ := h
      split at h
      · cases h; exact .bytes hs hd ‹_›
      · cases h
    · obtain ⟨s, hs, h⟩ := h
      cases h; exact .text hs
    · obtain ⟨s, hs, h⟩ := h
      cases h; exact .network hs
  · intro h
    cases h with
    | u64 h1 h2 => simp [read, h1, h2]
    | u256 h1 h2 => simp [read, h1, h2]
    | bytes h1 h2 h3 => simp [read, h1, h2, h3]
    | text h1 => simp [read, h1]
    | network h1 => simp [read, h1]

theorem filter_one {α : Type} {p : α → Bool} {l : List α} {a : α} (h : l.filter p = [a]) :
    ∃ before after, l = before ++ a :: after ∧ (∀ x ∈ before ++ after, p x = false) ∧ p a = true := by
  induction l with
  | nil => cases h
  | cons x l ih =>
    by_cases hx : p x = true
    · rw [List.filter_cons_of_pos hx] at h
      obtain ⟨rfl, h'⟩ := List.cons.inj h
      refine ⟨[], l, rfl, ?_, hx⟩
      intro y hy
      have := List.filter_eq_nil_iff.mp h' y (by simpa using hy)
      simpa using this
    · rw [List.filter_cons_of_neg hx] at h
      obtain ⟨b, c, rfl, h1, h2⟩ := ih h
      refine ⟨x :: b, c, rfl, ?_, h2⟩
      intro y hy
      rcases List.mem_cons.mp (by simpa using hy : y ∈ x :: (b ++ c)) with rfl | hy
      · simpa using hx
      · exact h1 y hy

theorem readField_iff {Y : Yaml} {file : File Y} {name : String} {kind : Kind} {v : Value} :
    readField Y file (keyOf name) kind = some v ↔ Gives Y file name kind v := by
  unfold readField
  constructor
  · intro h
    split at h
    · rename_i p hp
      obtain ⟨b, c, e, h1, h2⟩ := filter_one hp
      have hk : p.1 = keyOf name := by simpa using h2
      refine ⟨b, p.2, c, ?_, ?_, read_iff.mp h⟩
      · rw [e, ← hk]
      · intro q hq
        have := h1 q hq
        simpa using this
    · cases h
  · rintro ⟨b, node, c, rfl, h1, h2⟩
    have hb : b.filter (fun p => p.1 == keyOf name) = [] :=
      List.filter_eq_nil_iff.mpr fun q hq => by simpa using h1 q (List.mem_append_left _ hq)
    have hc : c.filter (fun p => p.1 == keyOf name) = [] :=
      List.filter_eq_nil_iff.mpr fun q hq => by simpa using h1 q (List.mem_append_right _ hq)
    have : (b ++ (keyOf name, node) :: c).filter (fun p => p.1 == keyOf name) =
        [(keyOf name, node)] := by
      rw [List.filter_append, hb, List.filter_cons_of_pos (by simp), hc, List.nil_append]
    rw [this]
    exact read_iff.mpr h2

/-! ## Tables -/

theorem get_cons {α : Type} {n m : String} {v : α} {l : List (String × α)} :
    get ((n, v) :: l) m = if n = m then some v else get l m := by
  unfold get
  by_cases h : n = m <;> simp [h]

theorem get_none {α : Type} {m : String} {l : List (String × α)} (h : m ∉ l.map (·.1)) :
    get l m = none := by
  induction l with
  | nil => rfl
  | cons a l ih =>
    obtain ⟨n, v⟩ := a
    simp only [List.map_cons, List.mem_cons, not_or] at h
    rw [get_cons, if_neg (Ne.symm h.1), ih h.2]

/-- What is under a name in a table that is made from another one -/
theorem get_filterMap {α β : Type} {g : String × α → Option β} {l : List (String × α)}
    (hn : (l.map (·.1)).Nodup) {a : String × α} (ha : a ∈ l) :
    get (l.filterMap fun x => (g x).map fun v => (x.1, v)) a.1 = g a := by
  induction l with
  | nil => cases ha
  | cons x l ih =>
    simp only [List.map_cons, List.nodup_cons] at hn
    have hnone : x.1 ∉ (l.filterMap fun x => (g x).map fun v => (x.1, v)).map (·.1) := by
      intro h
      simp only [List.mem_map, List.mem_filterMap, Option.map_eq_some_iff] at h
      obtain ⟨y, ⟨z, hz, w, hw, rfl⟩, e⟩ := h
      exact hn.1 (e ▸ List.mem_map_of_mem hz)
    rcases List.mem_cons.mp ha with rfl | ha
    · cases hg : g a with
      | none => rw [List.filterMap_cons_none (by simp [hg])]; exact get_none hnone
      | some v =>
        rw [List.filterMap_cons_some (by rw [hg]; rfl), get_cons, if_pos rfl]
    · have hne : x.1 ≠ a.1 := fun e => hn.1 (e ▸ List.mem_map_of_mem ha)
      cases hg : g x with
      | none => rw [List.filterMap_cons_none (by simp [hg])]; exact ih hn.2 ha
      | some v =>
        rw [List.filterMap_cons_some (by rw [hg]; rfl), get_cons, if_neg hne]
        exact ih hn.2 ha

theorem mapM_named {α β : Type} {g : String × α → Option β} {l : List (String × α)}
    {ys : List (String × β)} (h : (l.mapM fun x => (g x).map fun v => (x.1, v)) = some ys) :
    (∀ x ∈ l, (g x).isSome) ∧ ys = l.filterMap fun x => (g x).map fun v => (x.1, v) := by
  induction l generalizing ys with
  | nil => cases h; exact ⟨by simp, rfl⟩
  | cons x l ih =>
    simp only [List.mapM_cons, Option.bind_eq_bind, Option.bind_eq_some_iff, Option.map_eq_some_iff,
      Option.pure_def, Option.some.injEq] at h
    obtain ⟨y, ⟨v, hv, rfl⟩, zs, hz, rfl⟩ := h
    obtain ⟨h1, h2⟩ := ih hz
    refine ⟨?_, ?_⟩
    · intro z hm
      rcases List.mem_cons.mp hm with rfl | hm
      · simp [hv]
      · exact h1 z hm
    · rw [List.filterMap_cons_some (by rw [hv]; rfl), ← h2]

theorem mapM_named_some {α β : Type} {g : String × α → Option β} {l : List (String × α)}
    (h : ∀ x ∈ l, (g x).isSome) : ∃ ys, (l.mapM fun x => (g x).map fun v => (x.1, v)) = some ys := by
  induction l with
  | nil => exact ⟨[], rfl⟩
  | cons x l ih =>
    obtain ⟨ys, hy⟩ := ih fun z hz => h z (List.mem_cons_of_mem _ hz)
    obtain ⟨v, hv⟩ := Option.isSome_iff_exists.mp (h x (by simp))
    exact ⟨(x.1, v) :: ys, by simp [List.mapM_cons, hv, hy]⟩

theorem mapM_congr {α β : Type} {f g : α → Option β} {l : List α} (h : ∀ x ∈ l, f x = g x) :
    l.mapM f = l.mapM g := by
  induction l with
  | nil => rfl
  | cons x l ih =>
    rw [List.mapM_cons, List.mapM_cons, h x (by simp), ih fun y hy => h y (List.mem_cons_of_mem _ hy)]

/-! ## The tables of the repository -/

/-- The source of a preset parameter -/
def sourceOf (name : String) : Option Source := (get assignments name).map (·.1)

theorem fields_eq : fields = configParameters.map fun p => (p.1, keyOf p.1, p.2) := by
  decide +kernel

theorem names_nodup : (configParameters.map (·.1)).Nodup := by decide +kernel

theorem assignments_nodup : (assignments.map (·.1)).Nodup := by decide +kernel

theorem config_assigned : ∀ p ∈ configParameters, p.1 = "preset_base" ∨
    (p.1, Source.config, p.1) ∈ assignments := by decide +kernel

/-- The preset of a name -/
def presetOf : Base → Source → List (String × Nat)
  | .mainnet => mainnet
  | .minimal => minimal

theorem preset_assigned : ∀ n ∈ presetParameters, ∃ a ∈ assignments, a.1 = n ∧ a.2.1 ≠ .config ∧
    a.2.2 = n ∧ (get (presetOf .mainnet a.2.1) n).isSome ∧
    get (presetOf .mainnet a.2.1) n = get Base.mainnet.constants (capitals n) ∧
    (get (presetOf .minimal a.2.1) n).isSome ∧
    get (presetOf .minimal a.2.1) n = get Base.minimal.constants (capitals n) := by
  decide +kernel

theorem assigned_names : ∀ a ∈ assignments, a.1 ∈ presetParameters ∨
    (a.1 ∈ configParameters.map (·.1) ∧ a.1 ≠ "preset_base") := by decide +kernel

/-! ## Loading -/

theorem readConfig_iff {Y : Yaml} {file : File Y} {config : List (String × Value)}
    (h : readConfig Y fields file = some config) (p : String × Kind) (hp : p ∈ configParameters) :
    ∃ v, get config p.1 = some v ∧ Gives Y file p.1 p.2 v := by
  have he : readConfig Y fields file = (configParameters.mapM fun p =>
      (readField Y file (keyOf p.1) p.2).map fun v => (p.1, v)) := by
    unfold readConfig
    rw [fields_eq, List.mapM_map]
    congr 1
    funext p
    simp only [Function.comp_apply]
    cases readField Y file (keyOf p.1) p.2 <;> rfl
  rw [he] at h
  obtain ⟨h1, rfl⟩ := mapM_named h
  rw [get_filterMap (g := fun p => readField Y file (keyOf p.1) p.2) names_nodup hp]
  obtain ⟨v, hv⟩ := Option.isSome_iff_exists.mp (h1 p hp)
  exact ⟨v, hv, readField_iff.mp hv⟩

theorem readConfig_some {Y : Yaml} {file : File Y}
    (h : ∀ p ∈ configParameters, ∃ v, Gives Y file p.1 p.2 v) :
    ∃ config, readConfig Y fields file = some config := by
  have he : readConfig Y fields file = (configParameters.mapM fun p =>
      (readField Y file (keyOf p.1) p.2).map fun v => (p.1, v)) := by
    unfold readConfig
    rw [fields_eq, List.mapM_map]
    congr 1
    funext p
    simp only [Function.comp_apply]
    cases readField Y file (keyOf p.1) p.2 <;> rfl
  rw [he]
  refine mapM_named_some fun p hp => ?_
  obtain ⟨v, hv⟩ := h p hp
  rw [readField_iff.mpr hv]
  rfl

theorem from_config {preset : Source → List (String × Nat)} {config : List (String × Value)}
    {p : String × Kind} (hp : p ∈ configParameters) (hb : p.1 ≠ "preset_base") :
    get (Context_from preset config) p.1 = get config p.1 := by
  have ha := (config_assigned p hp).resolve_left hb
  exact get_filterMap (g := fun a : String × Source × String => match a.2.1 with
      | .config => get config a.2.2
      | source => (get (preset source) a.2.2).map .num) assignments_nodup ha

theorem from_preset {b : Base} {config : List (String × Value)} {n : String}
    (hn : n ∈ presetParameters) :
    ∃ k, get b.constants (capitals n) = some k ∧
      get (Context_from (presetOf b) config) n = some (.num k) := by
  obtain ⟨a, ha, h1, h2, h3, h4, h5, h6, h7⟩ := preset_assigned n hn
  have hg := get_filterMap (g := fun a : String × Source × String => match a.2.1 with
      | .config => get config a.2.2
      | source => (get (presetOf b source) a.2.2).map .num) assignments_nodup ha
  have hv : (match a.2.1 with
      | .config => get config a.2.2
      | source => (get (presetOf b source) a.2.2).map .num) =
      (get (presetOf b a.2.1) a.2.2).map .num := by
    split
    · rename_i e; exact absurd e h2
    · rfl
  have hc : ∃ k, get b.constants (capitals n) = some k ∧ get (presetOf b a.2.1) n = some k := by
    cases b with
    | mainnet => obtain ⟨k, hk⟩ := Option.isSome_iff_exists.mp h4; exact ⟨k, h5 ▸ hk, hk⟩
    | minimal => obtain ⟨k, hk⟩ := Option.isSome_iff_exists.mp h6; exact ⟨k, h7 ▸ hk, hk⟩
  obtain ⟨k, hk, hp⟩ := hc
  refine ⟨k, hk, ?_⟩
  rw [h1] at hg
  refine hg.trans (hv.trans ?_)
  rw [h3, hp]
  rfl

theorem gives_unique {Y : Yaml} {file : File Y} {name : String} {kind : Kind} {v w : Value}
    (hv : Gives Y file name kind v) (hw : Gives Y file name kind w) : v = w :=
  Option.some.inj ((readField_iff.mpr hv).symm.trans (readField_iff.mpr hw))

theorem base_mem : ("preset_base", Kind.text) ∈ configParameters := by decide +kernel

theorem try_ok {Y : Yaml} {file : File Y} {c : Parameters}
    (h : try_from_file Y (some file) = .ok c) :
    ∃ config, readConfig Y fields file = some config ∧ ∃ b : Base,
      get config "preset_base" = some (.text b.name) ∧ c = Context_from (presetOf b) config := by
  unfold try_from_file at h
  cases hr : readConfig Y fields file with
  | none =>
    simp only [hr, Option.elim, bind, Except.bind] at h
    cases h
  | some config =>
    simp only [hr, Option.elim, bind, Except.bind] at h
    refine ⟨config, rfl, ?_⟩
    split at h
    · cases h; exact ⟨.mainnet, ‹_›, rfl⟩
    · cases h; exact ⟨.minimal, ‹_›, rfl⟩
    · cases h
    · cases h

theorem try_of_config {Y : Yaml} {file : File Y} {config : List (String × Value)} {b : Base}
    (hr : readConfig Y fields file = some config)
    (hb : get config "preset_base" = some (.text b.name)) :
    try_from_file Y (some file) = .ok (Context_from (presetOf b) config) := by
  unfold try_from_file
  simp only [hr, Option.elim, bind, Except.bind, hb]
  cases b <;> rfl

end Verif.Config
