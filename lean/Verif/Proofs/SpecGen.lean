import Verif.Spec.SpecGen
import Mathlib.Data.List.Perm.Basic
import Mathlib.Data.List.Nodup
import Mathlib.Tactic.Common

/-
The generator of the `spec` modules: what each of its loops adds.
-/

namespace Verif.SpecGen

/-- The entries of a map of modules, each with the name of its module. -/
def flat (mods : Modules) : List (Name × Entry) :=
  mods.flatMap fun mod => mod.2.map fun e => (mod.1, e)

theorem flat_upsert (mods : Modules) (m : Name) (es : List Entry) :
    (flat (upsert mods m es)).Perm (flat mods ++ es.map fun e => (m, e)) := by
  induction mods with
  | nil => simp [upsert, flat]
  | cons mod rest ih =>
    obtain ⟨k, xs⟩ := mod
    simp only [upsert]
    split_ifs with h h'
    · subst h
      simp only [flat, List.flatMap_cons, List.map_append, List.append_assoc]
      exact List.Perm.append_left _ List.perm_append_comm
    · simp only [flat, List.flatMap_cons]
      exact List.perm_append_comm
    · simp only [flat, List.flatMap_cons, List.append_assoc] at ih ⊢
      exact List.Perm.append_left _ ih

theorem mem_flat {mods : Modules} {m : Name} {e : Entry} :
    (m, e) ∈ flat mods ↔ ∃ es, (m, es) ∈ mods ∧ e ∈ es := by
  simp only [flat, List.mem_flatMap, List.mem_map, Prod.mk.injEq]
  constructor
  · rintro ⟨⟨k, xs⟩, h, e', he, rfl, rfl⟩
    exact ⟨xs, h, he⟩
  · rintro ⟨es, h, he⟩
    exact ⟨(m, es), h, e, he, rfl, rfl⟩

/-- The names of the modules. -/
def keys (mods : Modules) : List Name := mods.map (·.1)

theorem mem_keys_upsert (mods : Modules) (m k : Name) (es : List Entry) :
    k ∈ keys (upsert mods m es) ↔ k = m ∨ k ∈ keys mods := by
  induction mods with
  | nil => simp [upsert, keys]
  | cons mod rest ih =>
    obtain ⟨a, xs⟩ := mod
    simp only [upsert]
    split_ifs with h h'
    · subst h; simp [keys]
    · simp [keys]
    · simp only [keys, List.map_cons, List.mem_cons] at ih ⊢
      rw [ih]
      tauto

theorem sorted_upsert (mods : Modules) (m : Name) (es : List Entry)
    (h : (keys mods).Pairwise (· < ·)) : (keys (upsert mods m es)).Pairwise (· < ·) := by
  induction mods with
  | nil => simp [upsert, keys]
  | cons mod rest ih =>
    obtain ⟨a, xs⟩ := mod
    simp only [keys, List.map_cons, List.pairwise_cons] at h
    simp only [upsert]
    split_ifs with h1 h2
    · subst h1; simpa [keys] using h
    · simp only [keys, List.map_cons, List.pairwise_cons]
      refine ⟨?_, h⟩
      intro b hb
      rcases List.mem_cons.1 hb with rfl | hb
      · exact h2
      · exact Nat.lt_trans h2 (h.1 b hb)
    · simp only [keys, List.map_cons, List.pairwise_cons]
      refine ⟨?_, ih h.2⟩
      intro b hb
      rcases (mem_keys_upsert rest m b es).1 hb with rfl | hb
      · exact Nat.lt_of_le_of_ne (Nat.le_of_not_lt h2) (fun hh => h1 hh.symm)
      · exact h.1 b hb

theorem lookup_of_mem {mods : Modules} (h : (keys mods).Pairwise (· < ·)) {m : Name} {es : List Entry}
    (hm : (m, es) ∈ mods) : mods.lookup m = some es := by
  induction mods with
  | nil => simp at hm
  | cons mod rest ih =>
    obtain ⟨a, xs⟩ := mod
    simp only [keys, List.map_cons, List.pairwise_cons] at h
    rcases List.mem_cons.1 hm with heq | hm'
    · cases heq
      simp [List.lookup]
    · have hlt : a < m := h.1 m (List.mem_map.2 ⟨_, hm', rfl⟩)
      have hne : (m == a) = false := by simpa using (Nat.ne_of_lt hlt).symm
      simp only [List.lookup, hne]
      exact ih h.2 hm'

theorem lookup_of_key {mods : Modules} {m : Name} (hm : m ∈ keys mods) :
    ∃ es, mods.lookup m = some es ∧ (m, es) ∈ mods := by
  induction mods with
  | nil => simp [keys] at hm
  | cons mod rest ih =>
    obtain ⟨a, xs⟩ := mod
    by_cases h : m = a
    · subst h
      exact ⟨xs, by simp [List.lookup], by simp⟩
    · have hne : (m == a) = false := by simp [h]
      have hm' : m ∈ keys rest := by
        simp only [keys, List.map_cons, List.mem_cons] at hm
        exact hm.resolve_left h
      obtain ⟨es, h1, h2⟩ := ih hm'
      exact ⟨es, by simp only [List.lookup, hne]; exact h1, List.mem_cons_of_mem _ h2⟩

/-- What holds of a spec all along its making. -/
structure Sound (s : Spec) : Prop where
  sorted : (keys s.modules).Pairwise (· < ·)
  /-- the index gives the module of everything but constants -/
  placed : ∀ m e, (m, e) ∈ flat s.modules → e.decl.kind ≠ .constant →
    s.index.lookup e.decl.name = some m
  /-- the modules the index gives exist -/
  exist : ∀ n m, s.index.lookup n = some m → m ∈ keys s.modules

theorem flat_nodup_inj {s : Spec} (h : ((flat s.modules).map fun p => p.2.decl.name).Nodup)
    {m m' : Name} {e e' : Entry} (h1 : (m, e) ∈ flat s.modules) (h2 : (m', e') ∈ flat s.modules)
    (hn : e.decl.name = e'.decl.name) : m = m' ∧ e = e' := by
  have := List.inj_on_of_nodup_map h h1 h2 hn
  exact ⟨congrArg Prod.fst this, congrArg Prod.snd this⟩

/-- The containers of a spec, found by their name. -/
theorem containerOf_eq {s : Spec} (hs : Sound s)
    (huniq : ∀ m m' e e', (m, e) ∈ flat s.modules → (m', e') ∈ flat s.modules →
      e.decl.kind = .container → e'.decl.kind = .container → e.decl.name = e'.decl.name → e = e')
    (n : Name) : ∃ r, containerOf s n = some r ∧
      ∀ c, r = some c ↔ ∃ m, (m, c) ∈ flat s.modules ∧ c.decl.kind = .container ∧ c.decl.name = n := by
  unfold containerOf
  cases hl : s.index.lookup n with
  | none =>
    refine ⟨none, rfl, fun c => ⟨fun h => by simp at h, ?_⟩⟩
    rintro ⟨m, hc, hk, rfl⟩
    rw [hs.placed m c hc (by rw [hk]; decide)] at hl
    cases hl
  | some m =>
    obtain ⟨es, he, hmem⟩ := lookup_of_key (hs.exist n m hl)
    simp only [he]
    refine ⟨_, rfl, fun c => ⟨fun h => ?_, ?_⟩⟩
    · have h1 := List.mem_of_find?_eq_some h
      have h2 := List.find?_some h
      simp only [Bool.and_eq_true, beq_iff_eq] at h2
      exact ⟨m, mem_flat.2 ⟨es, hmem, h1⟩, h2.1, h2.2⟩
    · rintro ⟨m', hc, hk, rfl⟩
      have hp := hs.placed m' c hc (by rw [hk]; decide)
      rw [hl] at hp
      cases hp
      obtain ⟨es', hm', hce⟩ := mem_flat.1 hc
      have : es' = es := by
        have := lookup_of_mem hs.sorted hm'
        rw [he] at this
        exact (Option.some.inj this).symm
      subst this
      cases hf : es'.find? fun x => x.decl.kind == .container && x.decl.name == c.decl.name with
      | none =>
        have := List.find?_eq_none.1 hf c hce
        simp [hk] at this
      | some x =>
        have h1 := List.mem_of_find?_eq_some hf
        have h2 := List.find?_some hf
        simp only [Bool.and_eq_true, beq_iff_eq] at h2
        rw [huniq m m x c (mem_flat.2 ⟨es', hmem, h1⟩) hc h2.1 hk h2.2]

/-! ### One loop of `on_top_of` -/

section Pass

variable (s0 : Spec) (kind : Kind) (previous : Modules) (take : Entry → Bool) (g : Entry → Entry)

/-- A spec in the middle of a loop: `A` has been merged into its modules, and `D` has been put into its
index. -/
structure Mid (s : Spec) (A D : List (Name × Entry)) : Prop where
  fork : s.fork = s0.fork
  sorted : (keys s.modules).Pairwise (· < ·)
  modules : (flat s.modules).Perm (flat s0.modules ++ A)
  keys : ∀ m ∈ keys s0.modules, m ∈ keys s.modules
  kept : ∀ n m, s0.index.lookup n = some m → s.index.lookup n = some m
  new : ∀ n m, s.index.lookup n = some m → s0.index.lookup n = some m ∨ ∃ e, (m, e) ∈ D ∧ e.decl.name = n
  placed : ∀ m e, (m, e) ∈ D → s.index.lookup e.decl.name = some m
  inside : ∀ p ∈ D, (∃ e, (p.1, e) ∈ flat previous ∧ e.decl = p.2.decl) ∧ p.2.decl.kind = kind
  subset : ∀ p ∈ A, p ∈ D

/-- What a loop adds for a list of entries of the previous fork. -/
def addition (P : List (Name × Entry)) : List (Name × Entry) :=
  (P.filter fun p => take p.2 && !known s0 p.2.decl.name).map fun p => (p.1, g p.2)

/-- What the body of a loop does to an entry of the previous fork. -/
def StepOk (step : Name → Spec × List Entry → Entry → Option (Spec × List Entry)) : Prop :=
  ∀ s A D m e new, Mid s0 kind previous s A D → (m, e) ∈ flat previous → e.decl.kind = kind →
    step m (s, new) e =
      if take e && !known s e.decl.name then
        some ({ s with index := (e.decl.name, m) :: s.index }, new ++ [g e])
      else some (s, new)

variable {s0 kind previous take g}

theorem lookup_cons_ite (n n' m : Name) (idx : List (Name × Name)) :
    List.lookup n ((n', m) :: idx) = if n = n' then some m else idx.lookup n := by
  by_cases h : n = n'
  · subst h; simp [List.lookup]
  · have : (n == n') = false := by simp [h]
    simp [List.lookup, this, h]

theorem mid_known {s : Spec} {A D : List (Name × Entry)} (h : Mid s0 kind previous s A D) {n : Name}
    (hn : ∀ p ∈ D, p.2.decl.name ≠ n) : known s n = known s0 n := by
  unfold SpecGen.known
  cases h0 : s0.index.lookup n with
  | some m => rw [h.kept n m h0]
  | none =>
    cases h1 : s.index.lookup n with
    | none => rfl
    | some m =>
      rcases h.new n m h1 with h2 | ⟨e, he, hen⟩
      · rw [h0] at h2; cases h2
      · exact absurd hen (hn _ he)

theorem addition_append (P Q : List (Name × Entry)) :
    addition s0 take g (P ++ Q) = addition s0 take g P ++ addition s0 take g Q := by
  simp [addition]

theorem mem_addition_name (hg : ∀ e, (g e).decl = e.decl) {P : List (Name × Entry)} {p : Name × Entry}
    (h : p ∈ addition s0 take g P) : ∃ q ∈ P, q.1 = p.1 ∧ p.2.decl = q.2.decl := by
  obtain ⟨q, hq, rfl⟩ := List.mem_map.1 h
  exact ⟨q, (List.mem_filter.1 hq).1, rfl, hg q.2⟩

/-- The entries of one module. -/
theorem fold_step {step : Name → Spec × List Entry → Entry → Option (Spec × List Entry)}
    (hg : ∀ e, (g e).decl = e.decl) (hstep : StepOk s0 kind previous take g step) (m : Name)
    (es : List Entry) :
    ∀ s A D new, Mid s0 kind previous s A D →
      (∀ e ∈ es, (m, e) ∈ flat previous ∧ e.decl.kind = kind) →
      (es.map fun e => e.decl.name).Nodup →
      (∀ e ∈ es, ∀ p ∈ D, p.2.decl.name ≠ e.decl.name) →
      ∃ s' add, es.foldlM (step m) (s, new) = some (s', new ++ add) ∧
        (add.map fun e => (m, e)) = addition s0 take g (es.map fun e => (m, e)) ∧
        s'.modules = s.modules ∧
        Mid s0 kind previous s' A (D ++ addition s0 take g (es.map fun e => (m, e))) := by
  induction es with
  | nil =>
    intro s A D new hmid _ _ _
    exact ⟨s, [], by simp, by simp [addition], rfl, by simpa [addition] using hmid⟩
  | cons e es ih =>
    intro s A D new hmid hmem hnd hfresh
    obtain ⟨hin, hk⟩ := hmem e (by simp)
    have hstep' := hstep s A D m e new hmid hin hk
    have hknown : known s e.decl.name = known s0 e.decl.name := mid_known hmid (hfresh e (by simp))
    simp only [List.map_cons, List.nodup_cons] at hnd
    rw [List.foldlM_cons, hstep']
    by_cases hc : (take e && !known s0 e.decl.name) = true
    · rw [hknown, if_pos hc]
      have hkn : s0.index.lookup e.decl.name = none := by
        simp only [Bool.and_eq_true, Bool.not_eq_true', SpecGen.known] at hc
        exact Option.isSome_eq_false_iff.1 hc.2 |> Option.isNone_iff_eq_none.1
      have hmid' : Mid s0 kind previous { s with index := (e.decl.name, m) :: s.index } A
          (D ++ [(m, g e)]) := by
        refine ⟨hmid.fork, hmid.sorted, hmid.modules, hmid.keys, ?_, ?_, ?_, ?_, ?_⟩
        · intro n m' h
          rw [lookup_cons_ite, if_neg (by rintro rfl; rw [hkn] at h; cases h)]
          exact hmid.kept n m' h
        · intro n m' h
          rw [lookup_cons_ite] at h
          split_ifs at h with hn
          · cases h
            exact Or.inr ⟨g e, by simp, by rw [hg, hn]⟩
          · rcases hmid.new n m' h with h | ⟨x, hx, hxn⟩
            · exact Or.inl h
            · exact Or.inr ⟨x, by simp [hx], hxn⟩
        · intro m' x hx
          rw [lookup_cons_ite]
          rcases List.mem_append.1 hx with hx | hx
          · rw [if_neg (hfresh e (by simp) _ hx)]
            exact hmid.placed m' x hx
          · simp only [List.mem_singleton, Prod.mk.injEq] at hx
            obtain ⟨rfl, rfl⟩ := hx
            rw [if_pos (by rw [hg])]
        · intro p hp
          rcases List.mem_append.1 hp with hp | hp
          · exact hmid.inside p hp
          · simp only [List.mem_singleton] at hp
            subst hp
            exact ⟨⟨e, hin, (hg e).symm⟩, by rw [hg]; exact hk⟩
        · intro p hp
          exact List.mem_append_left _ (hmid.subset p hp)
      obtain ⟨s', add, h1, h2, h3, h4⟩ := ih _ A (D ++ [(m, g e)]) (new ++ [g e]) hmid'
        (fun x hx => hmem x (List.mem_cons_of_mem _ hx)) hnd.2 (by
          intro x hx p hp
          rcases List.mem_append.1 hp with hp | hp
          · exact hfresh x (List.mem_cons_of_mem _ hx) p hp
          · simp only [List.mem_singleton] at hp
            subst hp
            rw [hg]
            intro h
            exact hnd.1 (List.mem_map.2 ⟨x, hx, h.symm⟩))
      refine ⟨s', g e :: add, ?_, ?_, h3, ?_⟩
      · simpa using h1
      · simp only [List.map_cons, addition, List.filter_cons, hc, if_true] at h2 ⊢
        rw [h2]
      · have : addition s0 take g ((m, e) :: es.map fun e => (m, e)) =
            (m, g e) :: addition s0 take g (es.map fun e => (m, e)) := by
          simp only [addition, List.filter_cons, hc, if_true, List.map_cons]
        rw [List.map_cons, this]
        simpa using h4
    · rw [hknown, if_neg hc]
      obtain ⟨s', add, h1, h2, h3, h4⟩ := ih s A D new hmid
        (fun x hx => hmem x (List.mem_cons_of_mem _ hx)) hnd.2
        (fun x hx => hfresh x (List.mem_cons_of_mem _ hx))
      have : addition s0 take g ((m, e) :: es.map fun e => (m, e)) =
            addition s0 take g (es.map fun e => (m, e)) := by
        simp only [addition, List.filter_cons, hc]
        simp
      refine ⟨s', add, by simpa using h1, ?_, h3, ?_⟩
      · rw [List.map_cons, this]; exact h2
      · rw [List.map_cons, this]; exact h4

theorem flat_filter_cons (mod : Name × List Entry) (rest : Modules) :
    (flat (mod :: rest)).filter (fun p => p.2.decl.kind == kind) =
      ((mod.2.filter fun e => e.decl.kind == kind).map fun e => (mod.1, e)) ++
        (flat rest).filter (fun p => p.2.decl.kind == kind) := by
  simp [flat, List.filter_map, Function.comp_def]

/-- A whole loop. -/
theorem pass_fold {step : Name → Spec × List Entry → Entry → Option (Spec × List Entry)}
    (hg : ∀ e, (g e).decl = e.decl) (hstep : StepOk s0 kind previous take g step) (mods : Modules) :
    ∀ s D, Mid s0 kind previous s D D →
      (∀ p ∈ flat mods, p ∈ flat previous) →
      (((flat mods).filter fun p => p.2.decl.kind == kind).map fun p => p.2.decl.name).Nodup →
      (∀ p ∈ flat mods, p.2.decl.kind = kind → ∀ q ∈ D, q.2.decl.name ≠ p.2.decl.name) →
      ∃ s', pass kind step mods s = some s' ∧
        Mid s0 kind previous s'
          (D ++ addition s0 take g ((flat mods).filter fun p => p.2.decl.kind == kind))
          (D ++ addition s0 take g ((flat mods).filter fun p => p.2.decl.kind == kind)) ∧
        (∀ k ∈ keys mods, k ∈ keys s'.modules) ∧ ∀ k ∈ keys s.modules, k ∈ keys s'.modules := by
  induction mods with
  | nil =>
    intro s D hmid _ _ _
    exact ⟨s, by simp [pass], by simpa [flat, addition] using hmid, by simp [keys], fun k hk => hk⟩
  | cons mod rest ih =>
    intro s D hmid hsub hnd hfresh
    obtain ⟨m, es⟩ := mod
    rw [flat_filter_cons] at hnd
    simp only [List.map_append, List.nodup_append, List.map_map, Function.comp_def] at hnd
    have hmemf : ∀ e ∈ es.filter fun e => e.decl.kind == kind,
        (m, e) ∈ flat ((m, es) :: rest) ∧ e.decl.kind = kind := by
      intro e he
      obtain ⟨h1, h2⟩ := List.mem_filter.1 he
      exact ⟨mem_flat.2 ⟨es, by simp, h1⟩, by simpa using h2⟩
    obtain ⟨s1, add, h1, h2, h3, h4⟩ := fold_step hg hstep m
      (es.filter fun e => e.decl.kind == kind) s D D [] hmid
      (fun e he => ⟨hsub _ (hmemf e he).1, (hmemf e he).2⟩) hnd.1
      (fun e he p hp => hfresh _ (hmemf e he).1 (hmemf e he).2 p hp)
    set X := addition s0 take g ((es.filter fun e => e.decl.kind == kind).map fun e => (m, e)) with hX
    have hmid1 : Mid s0 kind previous { s1 with modules := upsert s1.modules m add } (D ++ X) (D ++ X) := by
      refine ⟨h4.fork, sorted_upsert _ _ _ h4.sorted, ?_, ?_, h4.kept, h4.new, h4.placed, h4.inside,
        fun p hp => hp⟩
      · refine (flat_upsert _ _ _).trans ?_
        rw [h2, ← List.append_assoc]
        exact List.Perm.append_right _ h4.modules
      · intro k hk
        exact (mem_keys_upsert _ _ _ _).2 (Or.inr (h4.keys k hk))
    obtain ⟨s2, g1, g2, g3, g4⟩ := ih _ (D ++ X) hmid1
      (fun p hp => hsub p (by
        simp only [flat, List.flatMap_cons, List.mem_append]; exact Or.inr hp))
      hnd.2.1 (by
        intro p hp hk q hq
        rcases List.mem_append.1 hq with hq | hq
        · exact hfresh p (by simp only [flat, List.flatMap_cons, List.mem_append]; exact Or.inr hp) hk q hq
        · obtain ⟨r, hr, _, hrd⟩ := mem_addition_name hg hq
          obtain ⟨e, he, rfl⟩ := List.mem_map.1 hr
          rw [hrd]
          exact hnd.2.2 _ (List.mem_map.2 ⟨e, he, rfl⟩) _
            (List.mem_map.2 ⟨p, List.mem_filter.2 ⟨hp, by simpa using hk⟩, rfl⟩))
    refine ⟨s2, ?_, ?_, ?_, ?_⟩
    · have : pass kind step ((m, es) :: rest) s =
          ((es.filter fun e => e.decl.kind == kind).foldlM (step m) (s, [])).bind fun r =>
            pass kind step rest { r.1 with modules := upsert r.1.modules m r.2 } := by
        simp only [pass, List.foldlM_cons]
        cases (es.filter fun e => e.decl.kind == kind).foldlM (step m) (s, []) <;> rfl
      rw [this, h1]
      simpa using g1
    · rw [flat_filter_cons, addition_append, ← List.append_assoc]
      exact g2
    · intro k hk
      simp only [keys, List.map_cons, List.mem_cons] at hk
      rcases hk with rfl | hk
      · exact g4 k ((mem_keys_upsert _ _ _ _).2 (Or.inl rfl))
      · exact g3 k hk
    · intro k hk
      exact g4 k ((mem_keys_upsert _ _ _ _).2 (Or.inr (by rw [h3]; exact hk)))

theorem mem_keys_of_flat {mods : Modules} {m : Name} {e : Entry} (h : (m, e) ∈ flat mods) :
    m ∈ keys mods := by
  obtain ⟨es, h, _⟩ := mem_flat.1 h
  exact List.mem_map.2 ⟨_, h, rfl⟩

/-- What a loop does. -/
structure Passed (s0 : Spec) (X : List (Name × Entry)) (previous : Modules) (s : Spec) : Prop where
  sound : Sound s
  fork : s.fork = s0.fork
  modules : (flat s.modules).Perm (flat s0.modules ++ X)
  keys : ∀ m ∈ keys s0.modules, m ∈ keys s.modules
  previousKeys : ∀ m ∈ SpecGen.keys previous, m ∈ SpecGen.keys s.modules
  kept : ∀ n m, s0.index.lookup n = some m → s.index.lookup n = some m
  new : ∀ n m, s.index.lookup n = some m → s0.index.lookup n = some m ∨ ∃ e, (m, e) ∈ X ∧ e.decl.name = n
  placed : ∀ m e, (m, e) ∈ X → s.index.lookup e.decl.name = some m

theorem pass_ok {step : Name → Spec × List Entry → Entry → Option (Spec × List Entry)}
    (hs : Sound s0) (hg : ∀ e, (g e).decl = e.decl) (hstep : StepOk s0 kind previous take g step)
    (hnd : ((flat previous).map fun p => p.2.decl.name).Nodup) :
    ∃ s, pass kind step previous s0 = some s ∧
      Passed s0 (addition s0 take g ((flat previous).filter fun p => p.2.decl.kind == kind)) previous s := by
  have h0 : Mid s0 kind previous s0 [] [] :=
    ⟨rfl, hs.sorted, by simp, fun _ h => h, fun _ _ h => h, fun _ _ h => Or.inl h,
      fun _ _ h => by simp at h, fun _ h => by simp at h, fun _ h => by simp at h⟩
  obtain ⟨s, h1, h2, h3, h4⟩ := pass_fold hg hstep previous s0 [] h0 (fun _ h => h)
    (hnd.sublist (List.Sublist.map _ List.filter_sublist)) (fun _ _ _ _ h => by simp at h)
  simp only [List.nil_append] at h2
  refine ⟨s, h1, ⟨h2.sorted, ?_, ?_⟩, h2.fork, h2.modules, h2.keys, h3, h2.kept, h2.new, h2.placed⟩
  · intro m e he hk
    rcases List.mem_append.1 ((h2.modules.mem_iff).1 he) with h | h
    · exact h2.kept _ _ (hs.placed m e h hk)
    · exact h2.placed m e h
  · intro n m h
    rcases h2.new n m h with h | ⟨e, he, _⟩
    · exact h2.keys m (hs.exist n m h)
    · obtain ⟨⟨x, hx, _⟩, _⟩ := h2.inside _ he
      exact h3 m (mem_keys_of_flat hx)

theorem stepOk_plain : StepOk s0 kind previous (fun _ => true) id inheritPlain := by
  intro s A D m e new _ _ _
  by_cases h : known s e.decl.name = true
  · simp [inheritPlain, h]
  · simp [inheritPlain, h]

/-! ### The loop over functions -/

/-- A container of that name which is the fork's own. -/
def fresh (s : Spec) (n : Name) : Bool :=
  (flat s.modules).any fun p => p.2.decl.kind == .container && p.2.decl.name == n && p.2.fork == s.fork

/-- A container of that name from an earlier fork. -/
def stale (s : Spec) (n : Name) : Bool :=
  (flat s.modules).any fun p => p.2.decl.kind == .container && p.2.decl.name == n && p.2.fork != s.fork

/-- What a function of the previous fork becomes. -/
def updated (s : Spec) (e : Entry) : Entry :=
  if e.decl.mentions.any (fresh s) then { e with fork := s.fork, canImport := false }
  else { e with canImport := true }

theorem updated_decl (s : Spec) (e : Entry) : (updated s e).decl = e.decl := by
  unfold updated; split <;> rfl

theorem mid_sound {s : Spec} {A D : List (Name × Entry)} (h : Mid s0 kind previous s A D) (hs : Sound s0)
    (hkeys : ∀ m ∈ keys previous, m ∈ keys s0.modules) : Sound s := by
  refine ⟨h.sorted, ?_, ?_⟩
  · intro m e he hk
    rcases List.mem_append.1 ((h.modules.mem_iff).1 he) with h' | h'
    · exact h.kept _ _ (hs.placed m e h' hk)
    · exact h.placed m e (h.subset _ h')
  · intro n m hl
    rcases h.new n m hl with h' | ⟨e, he, _⟩
    · exact h.keys m (hs.exist n m h')
    · obtain ⟨⟨x, hx, _⟩, _⟩ := h.inside _ he
      exact h.keys m (hkeys m (mem_keys_of_flat hx))

theorem retypeBy_eq {s : Spec} {A D : List (Name × Entry)} (h : Mid s0 .fn previous s A D) (hs : Sound s0)
    (hkeys : ∀ m ∈ keys previous, m ∈ keys s0.modules)
    (huniq : ∀ m m' e e', (m, e) ∈ flat s0.modules → (m', e') ∈ flat s0.modules →
      e.decl.kind = .container → e'.decl.kind = .container → e.decl.name = e'.decl.name → e = e')
    (f : Entry) (n : Name) :
    retypeBy s f n = some (if fresh s0 n then { f with fork := s0.fork }
      else if stale s0 n then { f with canImport := true } else f) := by
  have hold : ∀ m e, (m, e) ∈ flat s.modules → e.decl.kind = .container → (m, e) ∈ flat s0.modules := by
    intro m e he hk
    rcases List.mem_append.1 ((h.modules.mem_iff).1 he) with h' | h'
    · exact h'
    · have := (h.inside _ (h.subset _ h')).2
      rw [hk] at this
      cases this
  have hnew : ∀ m e, (m, e) ∈ flat s0.modules → (m, e) ∈ flat s.modules := fun m e he =>
    (h.modules.mem_iff).2 (List.mem_append_left _ he)
  obtain ⟨r, hr, hspec⟩ := containerOf_eq (mid_sound h hs hkeys) (fun m m' e e' h1 h2 k1 k2 hn =>
    huniq m m' e e' (hold m e h1 k1) (hold m' e' h2 k2) k1 k2 hn) n
  unfold retypeBy
  rw [hr]
  have hf : fresh s0 n = true ↔ ∃ c, r = some c ∧ c.fork = s0.fork := by
    simp only [fresh, List.any_eq_true, Bool.and_eq_true, beq_iff_eq]
    constructor
    · rintro ⟨⟨m, c⟩, hm, ⟨hk, hn⟩, hfk⟩
      exact ⟨c, (hspec c).2 ⟨m, hnew m c hm, hk, hn⟩, hfk⟩
    · rintro ⟨c, hc, hfk⟩
      obtain ⟨m, hm, hk, hn⟩ := (hspec c).1 hc
      exact ⟨(m, c), hold m c hm hk, ⟨hk, hn⟩, hfk⟩
  have hst : stale s0 n = true ↔ ∃ c, r = some c ∧ c.fork ≠ s0.fork := by
    simp only [stale, List.any_eq_true, Bool.and_eq_true, beq_iff_eq, bne_iff_ne]
    constructor
    · rintro ⟨⟨m, c⟩, hm, ⟨hk, hn⟩, hfk⟩
      exact ⟨c, (hspec c).2 ⟨m, hnew m c hm, hk, hn⟩, hfk⟩
    · rintro ⟨c, hc, hfk⟩
      obtain ⟨m, hm, hk, hn⟩ := (hspec c).1 hc
      exact ⟨(m, c), hold m c hm hk, ⟨hk, hn⟩, hfk⟩
  cases r with
  | none =>
    have h1 : ¬ fresh s0 n = true := by rw [hf]; rintro ⟨c, hc, _⟩; cases hc
    have h2 : ¬ stale s0 n = true := by rw [hst]; rintro ⟨c, hc, _⟩; cases hc
    simp [h1, h2]
  | some c =>
    by_cases hc : c.fork = s0.fork
    · have h1 : fresh s0 n = true := hf.2 ⟨c, rfl, hc⟩
      simp [h1, hc, h.fork]
    · have h1 : ¬ fresh s0 n = true := by rw [hf]; rintro ⟨c', hc', hh⟩; cases hc'; exact hc hh
      have h2 : stale s0 n = true := hst.2 ⟨c, rfl, hc⟩
      simp [h1, h2, hc, h.fork]

theorem retype_fold {s : Spec} (h : ∀ f n, retypeBy s f n = some (if fresh s0 n then { f with fork := s0.fork }
      else if stale s0 n then { f with canImport := true } else f)) (ns : List Name) : ∀ f : Entry,
    ns.foldlM (retypeBy s) f = some { f with
      fork := if ns.any (fresh s0) then s0.fork else f.fork
      canImport := f.canImport || ns.any fun n => !fresh s0 n && stale s0 n } := by
  induction ns with
  | nil => intro f; simp
  | cons n ns ih =>
    intro f
    rw [List.foldlM_cons, h]
    simp only [Option.bind_eq_bind, Option.bind_some]
    rw [ih]
    by_cases h1 : fresh s0 n = true
    · simp [h1]
    · by_cases h2 : stale s0 n = true
      · simp [h1, h2]
      · simp [h1, h2]

theorem mapM_unit (f : Name → Option Unit) (l : List Name) (h : ∀ b ∈ l, f b = some ()) :
    ∃ r, l.mapM f = some r := by
  induction l with
  | nil => exact ⟨[], rfl⟩
  | cons b l ih =>
    obtain ⟨r, hr⟩ := ih fun x hx => h x (List.mem_cons_of_mem _ hx)
    exact ⟨() :: r, by simp [List.mapM_cons, h b (by simp), hr]⟩

theorem stepOk_fn (dropped : Nat → Name → Bool) (hs : Sound s0)
    (hkeys : ∀ m ∈ keys previous, m ∈ keys s0.modules)
    (huniq : ∀ m m' e e', (m, e) ∈ flat s0.modules → (m', e') ∈ flat s0.modules →
      e.decl.kind = .container → e'.decl.kind = .container → e.decl.name = e'.decl.name → e = e')
    (hfork : ∀ m e, (m, e) ∈ flat previous → e.fork ≠ s0.fork)
    (himp : ∀ m e, (m, e) ∈ flat previous → e.decl.kind = .fn → e.canImport = false →
      ∃ n ∈ e.decl.mentions, fresh s0 n = true ∨ stale s0 n = true)
    (hbound : ∀ m e b m', (m, e) ∈ flat previous → e.decl.kind = .fn → b ∈ e.decl.bounds →
      s0.index.lookup b = some m' → ∃ x, (m', x) ∈ flat s0.modules ∧ x.decl.kind = .traitDef ∧ x.decl.name = b)
    (hbound' : ∀ m e m' e', (m, e) ∈ flat previous → (m', e') ∈ flat previous → e.decl.kind = .fn →
      e'.decl.kind = .fn → e'.decl.name ∉ e.decl.bounds) :
    StepOk s0 .fn previous (fun e => !dropped s0.fork e.decl.name) (updated s0) (inheritFn dropped) := by
  intro s A D m e new hmid hin hk
  have hsound := mid_sound hmid hs hkeys
  have hret : retype s e = some (updated s0 e) := by
    unfold retype
    rw [retype_fold (fun f n => retypeBy_eq hmid hs hkeys huniq f n)]
    simp only [Option.bind_eq_bind, Option.bind_some]
    by_cases hany : e.decl.mentions.any (fresh s0) = true
    · simp only [hany, if_true, hmid.fork, ne_eq, not_true_eq_false, if_false]
      obtain ⟨r, hr⟩ := mapM_unit (checkBound s) e.decl.bounds (by
        intro b hb
        unfold checkBound
        cases hl : s.index.lookup b with
        | none => rfl
        | some m' =>
          rcases hmid.new b m' hl with h0 | ⟨x, hx, hxn⟩
          · obtain ⟨t, ht, htk, htn⟩ := hbound m e b m' hin hk hb h0
            have ht' : (m', t) ∈ flat s.modules := (hmid.modules.mem_iff).2 (List.mem_append_left _ ht)
            obtain ⟨es, hes, hte⟩ := mem_flat.1 ht'
            have : (es.any fun c => c.decl.kind == .traitDef && c.decl.name == b) = true :=
              List.any_eq_true.2 ⟨t, hte, by simp [htk, htn]⟩
            simp only [lookup_of_mem hsound.sorted hes, this, if_true]
          · exfalso
            obtain ⟨⟨y, hy, hyd⟩, hxk⟩ := hmid.inside _ hx
            simp only at hyd hxk
            refine hbound' m e m' y hin hy hk (by rw [hyd]; exact hxk) ?_
            rw [hyd, hxn]
            exact hb)
      rw [hr]
      simp [updated, hany]
    · have hne : e.fork ≠ s.fork := by rw [hmid.fork]; exact hfork m e hin
      have hci : (e.canImport || e.decl.mentions.any fun n => !fresh s0 n && stale s0 n) = true := by
        cases hc : e.canImport with
        | true => simp
        | false =>
          obtain ⟨n, hn, hor⟩ := himp m e hin hk hc
          have hnf : ¬ fresh s0 n = true := fun hf => hany (List.any_eq_true.2 ⟨n, hn, hf⟩)
          have hns := hor.resolve_left hnf
          simp only [Bool.false_or, List.any_eq_true]
          exact ⟨n, hn, by simp [hnf, hns]⟩
      simp only [hany, hci]
      simp [hne, updated, hany]
  unfold inheritFn
  simp only [hmid.fork]
  by_cases hd : dropped s0.fork e.decl.name = true
  · simp [hd]
  · by_cases hkn : known s e.decl.name = true
    · simp [hd, hkn]
    · simp [hd, hkn, hret]

end Pass

/-! ### Reading the files of a fork -/

theorem mem_publicItems {src : Source} {m : Name} {d : Decl} :
    (m, d) ∈ publicItems src ↔ ∃ items, (m, items) ∈ src ∧ Item.decl d ∈ items ∧ d.isPub = true := by
  simp only [publicItems, List.mem_flatMap, List.mem_filterMap]
  constructor
  · rintro ⟨⟨m', items⟩, hf, x, hx, h⟩
    cases x with
    | skipped => simp at h
    | unsupported => simp at h
    | decl d' =>
      by_cases hp : d'.isPub = true
      · simp only [hp, if_true, Option.some.injEq, Prod.mk.injEq] at h
        obtain ⟨rfl, rfl⟩ := h
        exact ⟨items, hf, hx, hp⟩
      · simp [hp] at h
  · rintro ⟨items, hf, hx, hp⟩
    exact ⟨(m, items), hf, _, hx, by simp [hp]⟩

/-- What has been read of the files of a fork, when `P` are the public items seen so far. -/
structure Read (i : Nat) (P : List (Name × Decl)) (s : Spec) : Prop where
  fork : s.fork = i
  sorted : (keys s.modules).Pairwise (· < ·)
  modules : (flat s.modules).Perm (P.map fun p => (p.1, ⟨p.2, i, true⟩))
  placed : ∀ m d, (m, d) ∈ P → d.kind ≠ .constant → s.index.lookup d.name = some m
  new : ∀ n m, s.index.lookup n = some m → ∃ d, (m, d) ∈ P ∧ d.kind ≠ .constant ∧ d.name = n

/-- The public items of a file. -/
def publicOf (m : Name) (items : List Item) : List (Name × Decl) :=
  items.filterMap fun
    | .decl d => if d.isPub then some (m, d) else none
    | _ => none

theorem parse_items (fork : Nat) (m : Name) (items : List Item) : ∀ P s,
    Read fork P s → Item.unsupported ∉ items →
    ((P ++ publicOf m items).map fun p => p.2.name).Nodup →
    ∃ s', items.foldlM (parseItem m) s = some s' ∧ Read fork (P ++ publicOf m items) s' := by
  induction items with
  | nil => intro P s h _ _; exact ⟨s, rfl, by simpa [publicOf] using h⟩
  | cons x items ih =>
    intro P s h hun hnd
    have hun' : Item.unsupported ∉ items := fun hh => hun (List.mem_cons_of_mem _ hh)
    cases x with
    | unsupported => simp at hun
    | skipped =>
      obtain ⟨s', h1, h2⟩ := ih P s h hun' (by simpa [publicOf] using hnd)
      exact ⟨s', by simpa [List.foldlM_cons, parseItem] using h1, by simpa [publicOf] using h2⟩
    | decl d =>
      by_cases hp : d.isPub = true
      · have hpub : publicOf m (Item.decl d :: items) = (m, d) :: publicOf m items := by
          simp [publicOf, hp]
        rw [hpub] at hnd ⊢
        have happ : P ++ (m, d) :: publicOf m items = (P ++ [(m, d)]) ++ publicOf m items := by simp
        rw [happ] at hnd ⊢
        have hnd1 : ((P ++ [(m, d)]).map fun p => p.2.name).Nodup := by
          rw [List.map_append] at hnd
          exact hnd.of_append_left
        have hfreshname : ∀ p ∈ P, p.2.name ≠ d.name := by
          intro p hp' he
          rw [List.map_append, List.nodup_append] at hnd1
          exact hnd1.2.2 p.2.name (List.mem_map.2 ⟨p, hp', rfl⟩) d.name (by simp) he
        have hread : Read fork (P ++ [(m, d)]) { s with
            modules := upsert s.modules m [⟨d, s.fork, true⟩]
            index := if d.kind = .constant then s.index else (d.name, m) :: s.index } := by
          refine ⟨h.fork, sorted_upsert _ _ _ h.sorted, ?_, ?_, ?_⟩
          · refine (flat_upsert _ _ _).trans ?_
            simp only [List.map_append, List.map_cons, List.map_nil, h.fork]
            exact List.Perm.append_right _ h.modules
          · intro m' d' hd' hk
            rcases List.mem_append.1 hd' with hd' | hd'
            · have := h.placed m' d' hd' hk
              by_cases hc : d.kind = .constant
              · simp only [hc, if_true]; exact this
              · simp only [hc, if_false]
                rw [lookup_cons_ite, if_neg (hfreshname _ hd')]
                exact this
            · simp only [List.mem_singleton, Prod.mk.injEq] at hd'
              obtain ⟨rfl, rfl⟩ := hd'
              simp only [hk, if_false]
              rw [lookup_cons_ite, if_pos rfl]
          · intro n m' hl
            by_cases hc : d.kind = .constant
            · simp only [hc, if_true] at hl
              obtain ⟨d', h1, h2⟩ := h.new n m' hl
              exact ⟨d', List.mem_append_left _ h1, h2⟩
            · simp only [hc, if_false] at hl
              rw [lookup_cons_ite] at hl
              split_ifs at hl with hn
              · cases hl
                exact ⟨d, by simp, hc, hn.symm⟩
              · obtain ⟨d', h1, h2⟩ := h.new n m' hl
                exact ⟨d', List.mem_append_left _ h1, h2⟩
        obtain ⟨s', h1, h2⟩ := ih _ _ hread hun' hnd
        refine ⟨s', ?_, h2⟩
        rw [List.foldlM_cons]
        simp only [parseItem, hp, if_true]
        exact h1
      · have hpub : publicOf m (Item.decl d :: items) = publicOf m items := by
          simp [publicOf, hp]
        rw [hpub] at hnd ⊢
        obtain ⟨s', h1, h2⟩ := ih P s h hun' hnd
        refine ⟨s', ?_, h2⟩
        rw [List.foldlM_cons]
        simp only [parseItem, hp]
        exact h1

theorem publicItems_cons (file : Name × List Item) (src : Source) :
    publicItems (file :: src) = publicOf file.1 file.2 ++ publicItems src := by
  rw [publicItems, List.flatMap_cons]
  rfl

theorem parse_files (fork : Nat) (src : Source) : ∀ P s, Read fork P s →
    (∀ file ∈ src, Item.unsupported ∉ file.2) →
    ((P ++ publicItems src).map fun p => p.2.name).Nodup →
    ∃ s', src.foldlM (fun s (file : Name × List Item) =>
        file.2.foldlM (parseItem file.1) { s with modules := upsert s.modules file.1 [] }) s = some s' ∧
      Read fork (P ++ publicItems src) s' := by
  induction src with
  | nil => intro P s h _ _; exact ⟨s, rfl, by simpa [publicItems] using h⟩
  | cons file src ih =>
    intro P s h hun hnd
    rw [publicItems_cons, ← List.append_assoc] at hnd ⊢
    have h0 : Read fork P { s with modules := upsert s.modules file.1 [] } :=
      ⟨h.fork, sorted_upsert _ _ _ h.sorted,
        ((flat_upsert _ _ _).trans (by simp)).trans h.modules, h.placed, h.new⟩
    obtain ⟨s1, h1, h2⟩ := parse_items fork file.1 file.2 P _ h0 (hun file (by simp)) (by
      rw [List.map_append] at hnd
      exact hnd.of_append_left)
    obtain ⟨s2, h3, h4⟩ := ih _ s1 h2 (fun f hf => hun f (List.mem_cons_of_mem _ hf)) hnd
    refine ⟨s2, ?_, h4⟩
    rw [List.foldlM_cons, h1]
    exact h3

theorem parse_ok (fork : Nat) (src : Source) (hun : ∀ file ∈ src, Item.unsupported ∉ file.2)
    (hnd : ((publicItems src).map fun p => p.2.name).Nodup) :
    ∃ s, parse fork src = some s ∧ Read fork (publicItems src) s := by
  have h0 : Read fork [] (⟨fork, [], []⟩ : Spec) :=
    ⟨rfl, by simp [keys], by simp [flat], fun _ _ h => by simp at h, fun _ _ h => by simp at h⟩
  have h := parse_files fork src [] _ h0 hun (by simpa using hnd)
  rw [List.nil_append] at h
  exact h

theorem Read.mem {fork : Nat} {P : List (Name × Decl)} {s : Spec} (h : Read fork P s) {m : Name} {e : Entry} :
    (m, e) ∈ flat s.modules ↔ (m, e.decl) ∈ P ∧ e.fork = fork ∧ e.canImport = true := by
  rw [h.modules.mem_iff]
  constructor
  · intro hm
    obtain ⟨⟨m', d⟩, hp, heq⟩ := List.mem_map.1 hm
    cases heq
    exact ⟨hp, rfl, rfl⟩
  · rintro ⟨hp, hf, hc⟩
    refine List.mem_map.2 ⟨(m, e.decl), hp, ?_⟩
    cases e
    simp only at hf hc ⊢
    rw [hf, hc]

theorem Read.sound {fork : Nat} {P : List (Name × Decl)} {s : Spec} (h : Read fork P s) : Sound s := by
  refine ⟨h.sorted, ?_, ?_⟩
  · intro m e he hk
    exact h.placed m e.decl (h.mem.1 he).1 hk
  · intro n m hl
    obtain ⟨d, hd, _, _⟩ := h.new n m hl
    exact mem_keys_of_flat (h.mem (e := ⟨d, fork, true⟩) |>.2 ⟨hd, rfl, rfl⟩)

end Verif.SpecGen
