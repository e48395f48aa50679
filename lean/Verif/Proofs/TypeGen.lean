import Verif.Spec.TypeGen
import Mathlib.Data.List.Induction
import Mathlib.Data.List.Nodup

/-! # The generator of the enums over forks -/

namespace Verif.TypeGen

open Accessors Spec.TypeGen

/-! ## Merging the fields -/

/-- Fields as they are read, each with its fork -/
abbrev Stream := List (Fork × FieldDecl)

def mergeAll (xs : Stream) : List FieldDefn :=
  xs.foldl (fun fields p => merge_field p.1 fields p.2) []

theorem merge_field_idents (f : Fork) (fs : List FieldDefn) (d : FieldDecl) :
    (merge_field f fs d).map (·.ident) =
      if d.name ∈ fs.map (·.ident) then fs.map (·.ident) else fs.map (·.ident) ++ [d.name] := by
  unfold merge_field
  cases h : fs.findIdx? (·.ident = d.name) with
  | none =>
    rw [List.findIdx?_eq_none_iff] at h
    rw [if_neg]
    · simp
    · intro hm
      obtain ⟨x, hx, he⟩ := List.mem_map.1 hm
      have := h x hx
      simp [he] at this
  | some i =>
    obtain ⟨hi, h1, -⟩ := List.findIdx?_eq_some_iff_getElem.1 h
    have h1 : fs[i].ident = d.name := by simpa using h1
    rw [if_pos]
    · apply List.ext_getElem (by simp)
      intro j h2 h3
      simp only [List.getElem_map, List.getElem_modify]
      split
      next hj => subst hj; exact h1.symm
      next => rfl
    · exact List.mem_map.2 ⟨_, List.getElem_mem hi, h1⟩

/-- What is known of the merged fields -/
structure Merged (xs : Stream) (fs : List FieldDefn) : Prop where
  nodup : (fs.map (·.ident)).Nodup
  idents : ∀ n, n ∈ fs.map (·.ident) ↔ ∃ x ∈ xs, x.2.name = n
  first : ∀ d ∈ fs, (xs.find? (·.2.name = d.ident)).map (·.1) = some d.fork
  last : ∀ d ∈ fs, (xs.reverse.find? (·.2.name = d.ident)).map (·.2.ty) = some d.ty

theorem merged_step {xs : Stream} {fs : List FieldDefn} (h : Merged xs fs) (x : Fork × FieldDecl) :
    Merged (xs ++ [x]) (merge_field x.1 fs x.2) := by
  have hid := merge_field_idents x.1 fs x.2
  have hold : x.2.name ∈ fs.map (·.ident) ↔ ∃ y ∈ xs, y.2.name = x.2.name := h.idents _
  refine ⟨?_, ?_, ?_, ?_⟩
  · rw [hid]
    split
    · exact h.nodup
    next hn =>
      rw [List.nodup_append]
      refine ⟨h.nodup, by simp, ?_⟩
      rintro a ha b hb rfl
      rw [List.mem_singleton] at hb
      exact hn (hb ▸ ha)
  · intro n
    rw [hid]
    split
    next hm =>
      rw [h.idents]
      constructor
      · rintro ⟨y, hy, he⟩; exact ⟨y, List.mem_append_left _ hy, he⟩
      · rintro ⟨y, hy, he⟩
        rcases List.mem_append.1 hy with hy | hy
        · exact ⟨y, hy, he⟩
        · rw [List.mem_singleton] at hy; subst hy
          rw [← he]; exact hold.1 hm
    next hm =>
      rw [List.mem_append, h.idents]
      constructor
      · rintro (⟨y, hy, he⟩ | hn)
        · exact ⟨y, List.mem_append_left _ hy, he⟩
        · rw [List.mem_singleton] at hn
          exact ⟨x, by simp, hn.symm⟩
      · rintro ⟨y, hy, he⟩
        rcases List.mem_append.1 hy with hy | hy
        · exact .inl ⟨y, hy, he⟩
        · rw [List.mem_singleton] at hy; subst hy
          exact .inr (by simp [he])
  · intro d hd
    rw [List.find?_append]
    unfold merge_field at hd
    split at hd
    next i hi =>
      obtain ⟨hlt, h1, -⟩ := List.findIdx?_eq_some_iff_getElem.1 hi
      have h1 : fs[i].ident = x.2.name := by simpa using h1
      obtain ⟨j, hj, rfl⟩ := List.getElem_of_mem hd
      rw [List.length_modify] at hj
      rw [List.getElem_modify]
      split
      next he =>
        subst he
        have := h.first _ (List.getElem_mem hlt)
        rw [h1] at this
        dsimp only
        cases hf : xs.find? (·.2.name = x.2.name) with
        | none => rw [hf] at this; simp at this
        | some y => rw [hf] at this; simpa [hf] using this
      next he =>
        have := h.first _ (List.getElem_mem hj)
        cases hf : xs.find? (·.2.name = fs[j].ident) with
        | none => rw [hf] at this; simp at this
        | some y => rw [hf] at this; simpa [hf] using this
    next hnone =>
      rcases List.mem_append.1 hd with hd | hd
      · have := h.first d hd
        cases hf : xs.find? (·.2.name = d.ident) with
        | none => rw [hf] at this; simp at this
        | some y => rw [hf] at this; simpa [hf] using this
      · rw [List.mem_singleton] at hd
        subst hd
        have : xs.find? (·.2.name = x.2.name) = none := by
          rw [List.find?_eq_none]
          intro y hy he
          have hm := hold.2 ⟨y, hy, by simpa using he⟩
          obtain ⟨z, hz, hze⟩ := List.mem_map.1 hm
          rw [List.findIdx?_eq_none_iff] at hnone
          have := hnone z hz
          simp [hze] at this
        simp [this]
  · intro d hd
    rw [List.reverse_append, List.reverse_singleton, List.singleton_append, List.find?_cons]
    unfold merge_field at hd
    split at hd
    next i hi =>
      obtain ⟨hlt, h1, -⟩ := List.findIdx?_eq_some_iff_getElem.1 hi
      have h1 : fs[i].ident = x.2.name := by simpa using h1
      obtain ⟨j, hj, rfl⟩ := List.getElem_of_mem hd
      rw [List.length_modify] at hj
      rw [List.getElem_modify]
      by_cases he : i = j
      · simp [he]
      · rw [if_neg he]
        have hne : ¬ x.2.name = fs[j].ident := by
          intro h2
          refine he ?_
          have h3 := List.getElem_map (fun d : FieldDefn => d.ident) (l := fs) (i := i)
            (h := by simpa using hlt)
          have h4 := List.getElem_map (fun d : FieldDefn => d.ident) (l := fs) (i := j)
            (h := by simpa using hj)
          exact (List.Nodup.getElem_inj_iff h.nodup (hi := by simpa using hlt)
            (hj := by simpa using hj)).1 (by rw [h3, h4, h1, h2])
        simpa [hne] using h.last _ (List.getElem_mem hj)
    next hnone =>
      rcases List.mem_append.1 hd with hd | hd
      · have hne : ¬ x.2.name = d.ident := by
          intro he
          rw [List.findIdx?_eq_none_iff] at hnone
          have := hnone d hd
          simp [he] at this
        simpa [hne] using h.last d hd
      · rw [List.mem_singleton] at hd
        subst hd
        simp

theorem mergeAll_merged (xs : Stream) : Merged xs (mergeAll xs) := by
  induction xs using List.reverseRecOn with
  | nil => exact ⟨by simp [mergeAll], by simp [mergeAll], by simp [mergeAll], by simp [mergeAll]⟩
  | append_singleton xs x ih =>
    have : mergeAll (xs ++ [x]) = merge_field x.1 (mergeAll xs) x.2 := by
      simp [mergeAll, List.foldl_append]
    rw [this]
    exact merged_step ih x

/-- The stream of the definitions -/
def stream (defns : List TypeDefn) : Stream :=
  defns.flatMap fun d => d.fields.map fun x => (d.fork, x)

theorem mem_stream {defns : List TypeDefn} {p : Fork × FieldDecl} :
    p ∈ stream defns ↔ ∃ d ∈ defns, d.fork = p.1 ∧ p.2 ∈ d.fields := by
  obtain ⟨f, x⟩ := p
  simp only [stream, List.mem_flatMap, List.mem_map, Prod.mk.injEq]
  constructor
  · rintro ⟨d, hd, y, hy, rfl, rfl⟩; exact ⟨d, hd, rfl, hy⟩
  · rintro ⟨d, hd, rfl, hx⟩; exact ⟨d, hd, x, hx, rfl, rfl⟩

/-! ## The variants -/

section

variable {T : Target} {forks : List Fork} {defns : List TypeDefn}

theorem sorted_defns (h : Regular T forks defns) :
    (defns.map (·.fork)).Pairwise (rank · < rank ·) := by
  obtain ⟨a, b, e⟩ := h.gapless
  have := h.order
  rw [e, List.pairwise_append, List.pairwise_append] at this
  exact this.1.2.1

theorem rank_inj {f g : Fork} (h : rank f = rank g) : f = g := by
  cases f <;> cases g <;> first | rfl | exact absurd h (by decide)

theorem same_fork (h : Regular T forks defns) {d e : TypeDefn} (hd : d ∈ defns) (he : e ∈ defns)
    (hf : d.fork = e.fork) : d = e := by
  have hs := sorted_defns h
  rw [List.pairwise_map] at hs
  by_contra hne
  have : ∀ {l : List TypeDefn}, l.Pairwise (fun a b => rank a.fork < rank b.fork) → d ∈ l → e ∈ l →
      False := by
    intro l hl h1 h2
    induction l with
    | nil => exact absurd h1 (by simp)
    | cons a l ih =>
      rw [List.pairwise_cons] at hl
      rcases List.mem_cons.1 h1 with ha | h1
      · subst ha
        rcases List.mem_cons.1 h2 with hb | h2
        · exact hne hb.symm
        · have := hl.1 _ h2; rw [hf] at this; omega
      · rcases List.mem_cons.1 h2 with hb | h2
        · subst hb
          have := hl.1 d (by assumption); rw [hf] at this; omega
        · exact ih hl.2 h1 h2
  exact this hs hd he

theorem pairs_eq (h : Regular T forks defns) {first : TypeDefn} (hf : defns.head? = some first) :
    (forks.dropWhile (· ≠ first.fork)).zip defns = defns.map fun d => (d.fork, d) := by
  obtain ⟨a, b, e⟩ := h.gapless
  obtain ⟨rest, rfl⟩ : ∃ rest, defns = first :: rest := by
    cases defns with
    | nil => simp at hf
    | cons x rest => simp at hf; exact ⟨rest, by rw [hf]⟩
  have hs := h.order
  rw [e, List.append_assoc, List.pairwise_append] at hs
  have hno : ∀ x ∈ a, x ≠ first.fork := by
    rintro x hx rfl
    exact Nat.lt_irrefl _ (hs.2.2 _ hx _ (by simp))
  have hdrop : forks.dropWhile (· ≠ first.fork) = (first :: rest).map (·.fork) ++ b := by
    rw [e, List.append_assoc, List.dropWhile_append_of_pos (by simpa using hno)]
    simp
  rw [hdrop]
  have : ∀ (l : List TypeDefn) (b : List Fork),
      (l.map (·.fork) ++ b).zip l = l.map fun d => (d.fork, d) := by
    intro l
    induction l with
    | nil => intro b; simp
    | cons x l ih => intro b; simpa using ih b
  exact this _ _

theorem merge_type_eq (h : Regular T forks defns) :
    derive_merge_type forks defns = some ⟨
      derive_merge_generics (defns.map fun d => ⟨d.fork, d.generics⟩),
      defns.map fun d => ⟨d.fork, d.generics⟩, mergeAll (stream defns)⟩ := by
  obtain ⟨first, hf⟩ : ∃ first, defns.head? = some first := by
    cases hd : defns with
    | nil => exact absurd hd h.some_
    | cons x l => exact ⟨x, rfl⟩
  unfold derive_merge_type
  rw [hf]
  simp only [Option.bind_eq_bind, Option.bind_some, pairs_eq h hf, List.map_map, List.foldl_map,
    mergeAll, stream, List.foldl_flatMap, Function.comp_def]

/-! ## The accessors -/

theorem arm_of_map {a : Accessor} {fs : List Fork} {g : Fork → Arm}
    (h : a.arms = fs.map fun f => (some f, g f)) {f : Fork} (hf : f ∈ fs) :
    a.arm f = some (g f) := by
  unfold Accessor.arm
  rw [h]
  clear h
  induction fs with
  | nil => exact absurd hf (by simp)
  | cons x fs ih =>
    rw [List.map_cons, List.find?_cons]
    by_cases hx : x = f
    · subst hx; simp
    · simp only [reduceCtorEq, or_false, Option.some.injEq, hx, decide_false]
      exact ih (by rcases List.mem_cons.1 hf with e | e; exact absurd e.symm hx; exact e)

/-- What the generator takes for the fork of a deletion -/
def deletionOf (T : Target) (name : String) : Option Fork :=
  match T.deletions with
  | some (fork, fields) => if fields.contains name then some fork else none
  | none => none

theorem deletionOf_iff {name : String} {f : Fork} :
    (match deletionOf T name with
      | some d => decide (rank d ≤ rank f)
      | none => false) = true ↔ Dropped T name f := by
  unfold deletionOf Dropped
  cases h : T.deletions with
  | none => simp
  | some p =>
    obtain ⟨g, names⟩ := p
    by_cases hn : names.contains name
    · have hm : name ∈ names := by simpa using hn
      simp only [hn, if_true, decide_eq_true_eq, Option.some.injEq, Prod.mk.injEq]
      constructor
      · intro h; exact ⟨g, names, ⟨rfl, rfl⟩, hm, h⟩
      · rintro ⟨g', names', ⟨rfl, rfl⟩, -, h⟩; exact h
    · have hm : name ∉ names := by simpa using hn
      simp only [hn, Option.some.injEq, Prod.mk.injEq]
      constructor
      · intro h; simp at h
      · rintro ⟨g', names', ⟨rfl, rfl⟩, h, -⟩; exact absurd h hm

/-- What the generator takes for the enum of a polymorphic field -/
def destOf (T : Target) (name : String) (exclusive : Bool) : Option String :=
  match T.child with
  | some (field, type) =>
    if field = name then some (type ++ if exclusive then "RefMut" else "Ref") else none
  | none => none

/-- What an accessor of a field looks like -/
theorem method_shape {d : FieldDefn} {fs : List Fork} {kind : Kind} {a : Accessor}
    (ha : a ∈ derive_method_set T d fs kind) :
    a.name = d.ident ∧
    (a.optional = true ↔ (deletionOf T d.ident).isSome ∨ fs.head? ≠ some d.fork) ∧
    a.arms = derive_match_arms d.fork fs d.ident (destOf T d.ident a.exclusive)
      (deletionOf T d.ident) := by
  have key : ∀ ex, a = ⟨d.ident, ex, (deletionOf T d.ident).isSome ||
      !decide (fs.head? = some d.fork),
      derive_match_arms d.fork fs d.ident (destOf T d.ident ex) (deletionOf T d.ident)⟩ →
      a.name = d.ident ∧
      (a.optional = true ↔ (deletionOf T d.ident).isSome ∨ fs.head? ≠ some d.fork) ∧
      a.arms = derive_match_arms d.fork fs d.ident (destOf T d.ident a.exclusive)
        (deletionOf T d.ident) := by
    rintro ex rfl
    refine ⟨rfl, ?_, rfl⟩
    simp
  unfold derive_method_set at ha
  cases kind <;> simp only [List.mem_cons, List.not_mem_nil, or_false] at ha
  · rcases ha with h | h
    · exact key false h
    · exact key true h
  · exact key false ha
  · rcases ha with h | h
    · exact key false h
    · exact key true h

theorem sorted_stream (h : Regular T forks defns) :
    (stream defns).Pairwise (fun a b => rank a.1 ≤ rank b.1) := by
  have := sorted_defns h
  rw [List.pairwise_map] at this
  unfold stream
  rw [List.pairwise_flatMap]
  refine ⟨fun d _ => ?_, this.imp fun hlt a ha b hb => ?_⟩
  · rw [List.pairwise_map]; exact List.pairwise_of_forall fun _ _ => Nat.le_refl _
  · obtain ⟨_, _, rfl⟩ := List.mem_map.1 ha
    obtain ⟨_, _, rfl⟩ := List.mem_map.1 hb
    exact Nat.le_of_lt hlt

/-- The first definition with a field, as the generator finds it -/
theorem first_has (h : Regular T forks defns) {x : FieldDefn} (hx : x ∈ mergeAll (stream defns)) :
    (∃ d ∈ defns, d.fork = x.fork ∧ Has d x.ident) ∧
    ∀ d ∈ defns, Has d x.ident → rank x.fork ≤ rank d.fork := by
  have hm := (mergeAll_merged (stream defns)).first x hx
  cases hf : (stream defns).find? (·.2.name = x.ident) with
  | none => rw [hf] at hm; simp at hm
  | some p =>
    rw [hf] at hm
    have hp : p.1 = x.fork := by simpa using hm
    obtain ⟨hn, as, bs, e, hno⟩ := List.find?_eq_some_iff_append.1 hf
    have hn : p.2.name = x.ident := by simpa using hn
    constructor
    · obtain ⟨d, hd, h1, h2⟩ := mem_stream.1 (show p ∈ stream defns by rw [e]; simp)
      exact ⟨d, hd, h1.trans hp, p.2, h2, hn⟩
    · rintro d hd ⟨y, hy, he⟩
      have hmem : (d.fork, y) ∈ stream defns := mem_stream.2 ⟨d, hd, rfl, hy⟩
      have hs := sorted_stream h
      rw [e] at hmem hs
      rw [← hp]
      rcases List.mem_append.1 hmem with hm | hm
      · have := hno _ hm
        simp [he] at this
      · rcases List.mem_cons.1 hm with hm | hm
        · rw [← hm]
          exact Nat.le_refl _
        · exact (List.pairwise_cons.1 (List.pairwise_append.1 hs).2.1).1 _ hm

theorem head_le (h : Regular T forks defns) {f : Fork}
    (hf : (defns.map (·.fork)).head? = some f) {d : TypeDefn} (hd : d ∈ defns) :
    rank f ≤ rank d.fork := by
  have hs := sorted_defns h
  cases defns with
  | nil => simp at hf
  | cons x l =>
    simp only [List.map_cons, List.head?_cons, Option.some.injEq] at hf
    subst hf
    rw [List.map_cons, List.pairwise_cons] at hs
    rcases List.mem_cons.1 hd with rfl | hd
    · exact Nat.le_refl _
    · exact Nat.le_of_lt (hs.1 _ (List.mem_map.2 ⟨d, hd, rfl⟩))

theorem method_leads (h : Regular T forks defns) {x : FieldDefn}
    (hx : x ∈ mergeAll (stream defns)) {kind : Kind} {a : Accessor}
    (ha : a ∈ derive_method_set T x (defns.map (·.fork)) kind) : Leads T defns a := by
  obtain ⟨hn, hopt, harms⟩ := method_shape ha
  obtain ⟨⟨d0, hd0, hf0, hh0⟩, hmin⟩ := first_has h hx
  rw [← hn] at hh0 hmin hopt harms
  have harm : ∀ d ∈ defns,
      ((rank d.fork < rank x.fork ∨ Dropped T a.name d.fork) → a.arm d.fork = some .none) ∧
      (¬ (rank d.fork < rank x.fork ∨ Dropped T a.name d.fork) →
        a.arm d.fork = some (wanted T a.name a.exclusive)) := by
    intro d hd
    have := arm_of_map (a := a) (fs := defns.map (·.fork)) (f := d.fork)
      (g := fun f => if rank f < rank x.fork ∨ (match deletionOf T a.name with
          | some d => decide (rank d ≤ rank f)
          | none => false) = true then .none else wanted T a.name a.exclusive)
      (by
        refine harms.trans ?_
        unfold derive_match_arms
        refine List.map_congr_left fun f _ => ?_
        dsimp only
        have hw : (match destOf T a.name a.exclusive with
            | some t => Arm.view a.name t
            | none => Arm.field a.name) = wanted T a.name a.exclusive := by
          unfold destOf wanted
          cases T.child with
          | none => rfl
          | some p =>
            dsimp only
            by_cases hp : p.1 = a.name
            · rw [if_pos hp, if_pos hp]
            · rw [if_neg hp, if_neg hp]
        refine Eq.trans ?_ (apply_ite (Prod.mk (some f)) _ _ _).symm
        rw [← hw]
        rfl)
      (List.mem_map.2 ⟨d, hd, rfl⟩)
    rw [this]
    constructor
    · intro hc
      rw [if_pos (hc.imp id deletionOf_iff.2)]
    · intro hc
      rw [if_neg (fun h => hc (h.imp id deletionOf_iff.1))]
  intro d hd
  constructor
  · intro hh
    refine (harm d hd).2 ?_
    rintro (h1 | h1)
    · have := hmin d hd hh; omega
    · exact h.gone d hd _ hh h1
  · intro hno
    by_cases hlt : rank d.fork < rank x.fork
    · refine ⟨hopt.2 (.inr fun he => ?_), (harm d hd).1 (.inl hlt)⟩
      have := head_le h he hd
      omega
    · have hne : rank d0.fork ≠ rank d.fork := fun he =>
        hno (same_fork h hd0 hd (rank_inj he) ▸ hh0)
      have hdrop : Dropped T a.name d.fork :=
        (h.kept d0 hd0 d hd (by rw [hf0] at hne ⊢; omega) _ hh0).resolve_left hno
      refine ⟨hopt.2 (.inl ?_), (harm d hd).1 (.inr hdrop)⟩
      have := deletionOf_iff.2 hdrop
      cases hdel : deletionOf T a.name with
      | none => rw [hdel] at this; simp at this
      | some _ => rfl

theorem variant_asks {d : TypeDefn} (hd : d ∈ defns) {kind : Kind} {a : Accessor}
    (ha : a ∈ variant_accessors ⟨d.fork, d.generics⟩ kind) : AsksVariant defns a := by
  have key : ∀ ex, a = ⟨forkName d.fork, ex, true, [(some d.fork, .all), (none, .none)]⟩ →
      AsksVariant defns a := by
    rintro ex rfl
    refine ⟨d, hd, rfl, rfl, fun f => ?_⟩
    unfold Accessor.arm
    by_cases hf : d.fork = f
    · simp [hf]
    · have hf' : ¬ f = d.fork := fun h => hf h.symm
      simp [hf, hf']
  unfold variant_accessors at ha
  cases kind <;> simp only [List.mem_cons, List.not_mem_nil, or_false] at ha
  · rcases ha with h | h <;> exact key _ h
  · exact key _ ha
  · rcases ha with h | h <;> exact key _ h

theorem version_asks : AsksVersion defns (version_accessor (defns.map (·.fork))) := by
  refine ⟨rfl, rfl, rfl, fun d hd => ?_⟩
  exact arm_of_map (g := fun f => .version f) rfl (List.mem_map.2 ⟨d, hd, rfl⟩)

/-- The merged type, for definitions that follow the conventions -/
def merged (defns : List TypeDefn) : MergeType :=
  ⟨derive_merge_generics (defns.map fun d => ⟨d.fork, d.generics⟩),
    defns.map fun d => ⟨d.fork, d.generics⟩, mergeAll (stream defns)⟩

theorem generate_eq (h : Regular T forks defns) :
    generate T forks defns = some (as_syn T (merged defns)) := by
  unfold generate
  rw [merge_type_eq h]
  rfl

theorem supported_eq : (merged defns).supported_forks = defns.map (·.fork) := by
  simp [merged, MergeType.supported_forks, Function.comp_def]

theorem enum_mem {e : Enum} (he : e ∈ as_syn T (merged defns)) :
    e.accessors = derive_fields_impl T (merged defns) e.kind ∧
    e.variants = (merged defns).variants ∧ e.generics = (merged defns).generics ∧
    (e.kind = .owned → e.reads = (defns.map (·.fork)).reverse) ∧
    (e.kind ≠ .owned → e.froms = defns.map fun d => (d.fork, d.fork)) := by
  unfold as_syn at he
  rcases List.mem_cons.1 he with rfl | he
  · refine ⟨rfl, rfl, rfl, fun _ => ?_, fun h => absurd rfl h⟩
    simp [owned_enum, merged, Function.comp_def]
  · split at he
    · simp only [List.mem_cons, List.not_mem_nil, or_false] at he
      rcases he with rfl | rfl
      · refine ⟨rfl, rfl, rfl, fun h => absurd h (by simp [derive_ref_impl]), fun _ => ?_⟩
        simp [derive_ref_impl, merged, Function.comp_def]
      · refine ⟨rfl, rfl, rfl, fun h => absurd h (by simp [derive_ref_impl]), fun _ => ?_⟩
        simp [derive_ref_impl, merged, Function.comp_def]
    · exact absurd he (by simp)

theorem last_has (h : Regular T forks defns) {x : FieldDefn} (hx : x ∈ mergeAll (stream defns)) :
    ∃ d ∈ defns, (∃ y ∈ d.fields, y.name = x.ident ∧ y.ty = x.ty) ∧
      ∀ e ∈ defns, Has e x.ident → rank e.fork ≤ rank d.fork := by
  have hm := (mergeAll_merged (stream defns)).last x hx
  cases hf : (stream defns).reverse.find? (·.2.name = x.ident) with
  | none => rw [hf] at hm; simp at hm
  | some p =>
    rw [hf] at hm
    have hp : p.2.ty = x.ty := by simpa using hm
    obtain ⟨hn, as, bs, e, hno⟩ := List.find?_eq_some_iff_append.1 hf
    have hn : p.2.name = x.ident := by simpa using hn
    obtain ⟨d, hd, h1, h2⟩ := mem_stream.1 (show p ∈ stream defns by
      rw [← List.mem_reverse, e]; simp)
    refine ⟨d, hd, ⟨p.2, h2, hn, hp⟩, ?_⟩
    rintro d' hd' ⟨y, hy, he⟩
    have hmem : (d'.fork, y) ∈ (stream defns).reverse :=
      List.mem_reverse.2 (mem_stream.2 ⟨d', hd', rfl, hy⟩)
    have hs : (stream defns).reverse.Pairwise (fun a b => rank b.1 ≤ rank a.1) :=
      List.pairwise_reverse.2 (sorted_stream h)
    rw [e] at hmem hs
    rw [h1]
    rcases List.mem_append.1 hmem with hm | hm
    · have := hno _ hm
      simp [he] at this
    · rcases List.mem_cons.1 hm with hm | hm
      · rw [← hm]
        exact Nat.le_refl _
      · exact (List.pairwise_cons.1 (List.pairwise_append.1 hs).2.1).1 _ hm

theorem method_exists (T : Target) (x : FieldDefn) (fs : List Fork) {kind : Kind} {exclusive : Bool}
    (hex : exclusive = true → kind ≠ .shared) :
    ∃ a ∈ derive_method_set T x fs kind, a.exclusive = exclusive := by
  unfold derive_method_set
  cases kind <;> cases exclusive <;> simp_all

/-- The const generics -/
theorem merge_generics (vs : List Variant) : (derive_merge_generics vs).Nodup ∧
    ∀ g, g ∈ derive_merge_generics vs ↔ ∃ v ∈ vs, g ∈ v.generics := by
  have key : ∀ (gs all : List String), all.Nodup →
      (gs.foldl (fun all g => if all.contains g then all else all ++ [g]) all).Nodup ∧
      ∀ g, g ∈ gs.foldl (fun all g => if all.contains g then all else all ++ [g]) all ↔
        g ∈ all ∨ g ∈ gs := by
    intro gs
    induction gs with
    | nil => intro all h; exact ⟨h, by simp⟩
    | cons x gs ih =>
      intro all h
      rw [List.foldl_cons]
      by_cases hx : all.contains x
      · rw [if_pos hx]
        refine ⟨(ih all h).1, fun g => ?_⟩
        rw [(ih all h).2, List.mem_cons]
        have : x ∈ all := by simpa using hx
        constructor
        · rintro (h | h)
          · exact .inl h
          · exact .inr (.inr h)
        · rintro (h | rfl | h)
          · exact .inl h
          · exact .inl this
          · exact .inr h
      · rw [if_neg hx]
        have hx' : x ∉ all := by simpa using hx
        have hn : (all ++ [x]).Nodup := by
          rw [List.nodup_append]
          refine ⟨h, by simp, ?_⟩
          rintro a ha b hb rfl
          rw [List.mem_singleton] at hb
          exact hx' (hb ▸ ha)
        refine ⟨(ih _ hn).1, fun g => ?_⟩
        rw [(ih _ hn).2, List.mem_cons, List.mem_append, List.mem_singleton, or_assoc]
  obtain ⟨h1, h2⟩ := key (vs.flatMap (·.generics)) [] (by simp)
  refine ⟨h1, fun g => ?_⟩
  unfold derive_merge_generics
  rw [h2]
  simp

/-- The keys of the functions of a kind: with or without `_mut` -/
def keys : Kind → List Bool
  | .shared => [false]
  | _ => [false, true]

theorem names_nodup {names : List String} (h : names.Nodup) (kind : Kind) :
    (names.flatMap fun n => (keys kind).map fun b => (n, b)).Nodup := by
  rw [List.nodup_flatMap]
  refine ⟨fun n _ => ?_, h.imp fun hne => ?_⟩
  · cases kind <;> simp [keys]
  · intro p h1 h2
    obtain ⟨_, _, rfl⟩ := List.mem_map.1 h1
    obtain ⟨_, _, he⟩ := List.mem_map.1 h2
    exact hne (Prod.mk.inj he).1.symm

theorem forkName_inj {f g : Fork} (h : forkName f = forkName g) : f = g := by
  cases f <;> cases g <;> first | rfl | exact absurd h (by decide)

theorem keys_eq (kind : Kind) :
    (derive_fields_impl T (merged defns) kind).map (fun a => (a.name, a.exclusive)) =
      (defns.map fun d => forkName d.fork).flatMap (fun n => (keys kind).map fun b => (n, b)) ++
      [("version", false)] ++
      ((mergeAll (stream defns)).map (·.ident)).flatMap
        (fun n => (keys kind).map fun b => (n, b)) := by
  unfold derive_fields_impl
  rw [List.map_append, List.map_append, List.map_flatMap, List.map_flatMap, List.flatMap_map,
    List.flatMap_map]
  congr 1
  · congr 1
    simp only [merged, List.flatMap_map]
    refine List.flatMap_congr fun d _ => ?_
    cases kind <;> rfl
  · refine List.flatMap_congr fun d _ => ?_
    cases kind <;> rfl

theorem keys_nodup (h : Regular T forks defns) (hn : NoClash defns) (kind : Kind) :
    ((derive_fields_impl T (merged defns) kind).map fun a => (a.name, a.exclusive)).Nodup := by
  rw [keys_eq]
  have hnames : (defns.map fun d => forkName d.fork).Nodup := by
    have hs := sorted_defns h
    rw [List.pairwise_map] at hs
    rw [List.Nodup, List.pairwise_map]
    refine hs.imp fun hlt he => ?_
    rw [forkName_inj he] at hlt
    exact Nat.lt_irrefl _ hlt
  have hfields : ∀ n ∈ (mergeAll (stream defns)).map (·.ident),
      n ≠ "version" ∧ ∀ f, n ≠ forkName f := by
    intro n hm
    obtain ⟨x, hx, rfl⟩ := List.mem_map.1 hm
    obtain ⟨⟨d, hd, -, hh⟩, -⟩ := first_has h hx
    exact hn d hd _ hh
  have hin : ∀ {names : List String} {p : String × Bool},
      p ∈ names.flatMap (fun n => (keys kind).map fun b => (n, b)) → p.1 ∈ names := by
    intro names p hp
    obtain ⟨n, hn, hp⟩ := List.mem_flatMap.1 hp
    obtain ⟨_, _, rfl⟩ := List.mem_map.1 hp
    exact hn
  rw [List.nodup_append, List.nodup_append]
  refine ⟨⟨names_nodup hnames _, by simp, ?_⟩, names_nodup (mergeAll_merged _).nodup _, ?_⟩
  · rintro a ha b hb rfl
    rw [List.mem_singleton] at hb
    subst hb
    obtain ⟨d, -, he⟩ := List.mem_map.1 (hin ha)
    revert he
    cases d.fork <;> decide
  · rintro a ha b hb rfl
    have := hfields _ (hin hb)
    rcases List.mem_append.1 ha with ha | ha
    · obtain ⟨d, -, he⟩ := List.mem_map.1 (hin ha)
      exact this.2 d.fork he.symm
    · rw [List.mem_singleton] at ha
      subst ha
      exact this.1 rfl

theorem shared_only : ∀ a ∈ derive_fields_impl T (merged defns) .shared, a.exclusive = false := by
  intro a ha
  have : (a.name, a.exclusive) ∈
      (derive_fields_impl T (merged defns) .shared).map (fun a => (a.name, a.exclusive)) :=
    List.mem_map.2 ⟨a, ha, rfl⟩
  rw [keys_eq] at this
  simp only [keys, List.map_cons, List.map_nil, List.mem_append, List.mem_flatMap, List.mem_cons,
    List.not_mem_nil, or_false, Prod.mk.injEq] at this
  rcases this with (⟨_, _, _, h⟩ | ⟨_, h⟩) | ⟨_, _, _, h⟩ <;> exact h

/-! ## Checking the conventions -/

def hasB (d : TypeDefn) (name : String) : Bool := d.fields.any (·.name == name)

def droppedB (T : Target) (name : String) (f : Fork) : Bool :=
  match T.deletions with
  | some (g, names) => names.contains name && decide (rank g ≤ rank f)
  | none => false

/-- Whether the structs follow the conventions, if the forks with the struct are those from some fork
on -/
def regularB (T : Target) (forks : List Fork) (defns : List TypeDefn) : Bool :=
  decide (forks.Pairwise (rank · < rank ·)) && !defns.isEmpty &&
  decide ((defns.map (·.fork)).isSuffixOf forks) &&
  defns.all (fun d => defns.all fun e => !decide (rank d.fork < rank e.fork) ||
    d.fields.all fun x => hasB e x.name || droppedB T x.name e.fork) &&
  defns.all fun d => d.fields.all fun x => !droppedB T x.name d.fork

theorem hasB_iff {d : TypeDefn} {name : String} : hasB d name = true ↔ Has d name := by
  simp [hasB, Has, List.any_eq_true]

theorem droppedB_iff {name : String} {f : Fork} : droppedB T name f = true ↔ Dropped T name f := by
  unfold droppedB Dropped
  cases h : T.deletions with
  | none => simp
  | some p =>
    obtain ⟨g, names⟩ := p
    simp only [Bool.and_eq_true, List.contains_iff_mem, decide_eq_true_eq, Option.some.injEq,
      Prod.mk.injEq]
    constructor
    · rintro ⟨h1, h2⟩; exact ⟨g, names, ⟨rfl, rfl⟩, h1, h2⟩
    · rintro ⟨_, _, ⟨rfl, rfl⟩, h1, h2⟩; exact ⟨h1, h2⟩

theorem regular_of_check (h : regularB T forks defns = true) : Regular T forks defns := by
  unfold regularB at h
  simp only [Bool.and_eq_true, decide_eq_true_eq, List.all_eq_true, Bool.or_eq_true,
    Bool.not_eq_true', decide_eq_false_iff_not, List.isEmpty_eq_false_iff, hasB_iff,
    droppedB_iff, List.isSuffixOf_iff_suffix] at h
  obtain ⟨⟨⟨⟨h1, h2⟩, h3⟩, h4⟩, h5⟩ := h
  refine ⟨h1, h2, ?_, ?_, ?_⟩
  · obtain ⟨a, ha⟩ := h3
    exact ⟨a, [], by rw [← ha]; simp⟩
  · rintro d hd e he hlt _ ⟨x, hx, rfl⟩
    exact (h4 d hd e he).resolve_left (fun h => h hlt) x hx
  · rintro d hd _ ⟨x, hx, rfl⟩ hdrop
    have := h5 d hd x hx
    rw [droppedB_iff.2 hdrop] at this
    cases this

def noClashB (defns : List TypeDefn) : Bool :=
  defns.all fun d => d.fields.all fun x => decide (x.name ∉ ["version", "phase0", "altair",
    "bellatrix", "capella", "deneb", "electra"])

theorem noClash_of_check (h : noClashB defns = true) : NoClash defns := by
  unfold noClashB at h
  simp only [List.all_eq_true, decide_eq_true_eq, List.mem_cons, List.not_mem_nil, or_false,
    not_or] at h
  rintro d hd _ ⟨x, hx, rfl⟩
  obtain ⟨h0, h1, h2, h3, h4, h5, h6⟩ := h d hd x hx
  refine ⟨h0, fun f => ?_⟩
  cases f <;> assumption

end

end Verif.TypeGen
