import Verif.Proofs.SpecGen

/-
The generator of the `spec` modules: what it exports for a sequence of forks.
-/

namespace Verif.SpecGen

theorem declares_iff {srcs : List Source} {k : Nat} {src : Source} (h : srcs[k]? = some src) {m : Name}
    {d : Decl} : Declares srcs k m d ↔ (m, d) ∈ publicItems src := by
  rw [mem_publicItems]
  constructor
  · rintro ⟨src', items, h1, h2, h3⟩
    rw [h] at h1
    cases h1
    exact ⟨items, h2, h3⟩
  · rintro ⟨items, h1, h2⟩
    exact ⟨src, items, h, h1, h2⟩

/-- Which fork an entry is attributed to, and whether it is imported, at fork `i`, when its definition is
that of fork `k`. -/
def Status (srcs : List Source) (k i : Nat) (e : Entry) : Prop :=
  ((∀ j, k < j → j ≤ i → ¬ Retyped srcs j e.decl) ∧ e.fork = k ∧ e.canImport = true) ∨
  ∃ j, k < j ∧ j ≤ i ∧ Retyped srcs j e.decl ∧ (∀ j', j < j' → j' ≤ i → ¬ Retyped srcs j' e.decl) ∧
    e.fork = j ∧ (e.canImport = true ↔ j ≠ i)

/-- The entries of a spec, said from the sources. -/
def Expected (dropped : Nat → Name → Bool) (srcs : List Source) (i : Nat) (m : Name) (e : Entry) : Prop :=
  ∃ k, InForce dropped srcs i k m e.decl ∧ Status srcs k i e

/-- The finished spec of a fork. -/
structure Full (dropped : Nat → Name → Bool) (srcs : List Source) (i : Nat) (s : Spec) : Prop where
  sound : Sound s
  fork : s.fork = i
  mem : ∀ m e, (m, e) ∈ flat s.modules ↔ Expected dropped srcs i m e
  nodup : ((flat s.modules).map fun p => p.2.decl.name).Nodup

/-- What becomes of an entry at the next fork. -/
def Next (srcs : List Source) (i : Nat) (e x : Entry) : Prop :=
  x.decl = e.decl ∧ (Retyped srcs (i + 1) e.decl → x.fork = i + 1 ∧ x.canImport = false) ∧
    (¬ Retyped srcs (i + 1) e.decl → x.fork = e.fork ∧ x.canImport = true)

theorem status_exists (srcs : List Source) (k : Nat) (d : Decl) : ∀ i, k ≤ i →
    ∃ e : Entry, e.decl = d ∧ Status srcs k i e := by
  intro i hi
  induction hi with
  | refl => exact ⟨⟨d, k, true⟩, rfl, Or.inl ⟨fun j h1 h2 => by omega, rfl, rfl⟩⟩
  | @step i hi ih =>
    obtain ⟨e, rfl, h⟩ := ih
    have hi : k ≤ i := hi
    show ∃ x : Entry, x.decl = e.decl ∧ Status srcs k (i + 1) x
    by_cases hr : Retyped srcs (i + 1) e.decl
    · exact ⟨⟨e.decl, i + 1, false⟩, rfl, Or.inr ⟨i + 1, by omega, Nat.le_refl _, hr,
        fun j' h1 h2 => by omega, rfl, by simp⟩⟩
    · refine ⟨{ e with canImport := true }, rfl, ?_⟩
      rcases h with ⟨h1, h2, h3⟩ | ⟨j, h1, h2, h3, h4, h5, h6⟩
      · refine Or.inl ⟨fun j hj hj' => ?_, h2, rfl⟩
        rcases Nat.lt_or_ge j (i + 1) with h | h
        · exact h1 j hj (by omega)
        · have : j = i + 1 := by omega
          subst this; exact hr
      · refine Or.inr ⟨j, h1, by omega, h3, fun j' hj hj' => ?_, h5, by simp; omega⟩
        rcases Nat.lt_or_ge j' (i + 1) with h | h
        · exact h4 j' hj (by omega)
        · have : j' = i + 1 := by omega
          subst this; exact hr

theorem status_succ {srcs : List Source} {k i : Nat} (hki : k ≤ i) {x : Entry} :
    Status srcs k (i + 1) x ↔ ∃ e, Status srcs k i e ∧ Next srcs i e x := by
  constructor
  · intro h
    by_cases hr : Retyped srcs (i + 1) x.decl
    · obtain ⟨e, he, hs⟩ := status_exists srcs k x.decl i hki
      refine ⟨e, hs, he.symm, fun _ => ?_, fun hn => absurd (he ▸ hr) hn⟩
      rcases h with ⟨h1, _⟩ | ⟨j, h1, h2, h3, h4, h5, h6⟩
      · exact absurd hr (h1 (i + 1) (by omega) (Nat.le_refl _))
      · have hj : j = i + 1 := by
          by_contra hne
          exact h4 (i + 1) (by omega) (Nat.le_refl _) hr
        subst hj
        exact ⟨h5, by simpa using h6⟩
    · rcases h with ⟨h1, h2, h3⟩ | ⟨j, h1, h2, h3, h4, h5, h6⟩
      · exact ⟨x, Or.inl ⟨fun j hj hj' => h1 j hj (by omega), h2, h3⟩, rfl, fun h => absurd h hr,
          fun _ => ⟨rfl, h3⟩⟩
      · have hj : j ≠ i + 1 := by rintro rfl; exact hr h3
        refine ⟨{ x with canImport := decide (j ≠ i) }, Or.inr ⟨j, h1, by omega, h3,
          fun j' hj hj' => h4 j' hj (by omega), h5, by simp⟩, rfl, fun h => absurd h hr,
          fun _ => ⟨rfl, h6.2 hj⟩⟩
  · rintro ⟨e, hs, hd, h1, h2⟩
    by_cases hr : Retyped srcs (i + 1) e.decl
    · obtain ⟨hf, hc⟩ := h1 hr
      exact Or.inr ⟨i + 1, by omega, Nat.le_refl _, hd ▸ hr, fun j' h1 h2 => by omega, hf, by simp [hc]⟩
    · obtain ⟨hf, hc⟩ := h2 hr
      rcases hs with ⟨g1, g2, g3⟩ | ⟨j, g1, g2, g3, g4, g5, g6⟩
      · refine Or.inl ⟨fun j hj hj' => ?_, by rw [hf, g2], hc⟩
        rw [hd]
        rcases Nat.lt_or_ge j (i + 1) with h | h
        · exact g1 j hj (by omega)
        · have : j = i + 1 := by omega
          subst this; exact hr
      · refine Or.inr ⟨j, g1, by omega, hd ▸ g3, fun j' hj hj' => ?_, by rw [hf, g5], by
          rw [hc]; simp; omega⟩
        rw [hd]
        rcases Nat.lt_or_ge j' (i + 1) with h | h
        · exact g4 j' hj (by omega)
        · have : j' = i + 1 := by omega
          subst this; exact hr

theorem inForce_succ {dropped : Nat → Name → Bool} {srcs : List Source} {i k : Nat} (hki : k ≤ i) {m : Name}
    {d : Decl} : InForce dropped srcs (i + 1) k m d ↔ InForce dropped srcs i k m d ∧
      ¬ DeclaresName srcs (i + 1) d.name ∧ (d.kind = .fn → dropped (i + 1) d.name = false) := by
  constructor
  · intro h
    exact ⟨⟨hki, h.declares, fun j h1 h2 => h.last j h1 (by omega), fun hk j h1 h2 => h.kept hk j h1 (by omega)⟩,
      h.last (i + 1) (by omega) (Nat.le_refl _), fun hk => h.kept hk (i + 1) (by omega) (Nat.le_refl _)⟩
  · rintro ⟨h, h1, h2⟩
    refine ⟨by omega, h.declares, fun j hj hj' => ?_, fun hk j hj hj' => ?_⟩
    · rcases Nat.lt_or_ge j (i + 1) with hlt | hge
      · exact h.last j hj (by omega)
      · have : j = i + 1 := by omega
        subst this; exact h1
    · rcases Nat.lt_or_ge j (i + 1) with hlt | hge
      · exact h.kept hk j hj (by omega)
      · have : j = i + 1 := by omega
        subst this; exact h2 hk

/-- The entries of a spec at the next fork. -/
theorem expected_succ {dropped : Nat → Name → Bool} {srcs : List Source} {i : Nat} {m : Name} {x : Entry} :
    Expected dropped srcs (i + 1) m x ↔
      (Declares srcs (i + 1) m x.decl ∧ x.fork = i + 1 ∧ x.canImport = true) ∨
      ∃ e, Expected dropped srcs i m e ∧ ¬ DeclaresName srcs (i + 1) e.decl.name ∧
        (e.decl.kind = .fn → dropped (i + 1) e.decl.name = false) ∧ Next srcs i e x := by
  constructor
  · rintro ⟨k, hf, hs⟩
    rcases Nat.lt_or_ge k (i + 1) with hlt | hge
    · obtain ⟨e, he, hn⟩ := (status_succ (by omega : k ≤ i)).1 hs
      obtain ⟨g1, g2, g3⟩ := (inForce_succ (by omega : k ≤ i)).1 hf
      rw [hn.1] at g1 g2 g3
      exact Or.inr ⟨e, ⟨k, g1, he⟩, g2, g3, hn⟩
    · have hk : k = i + 1 := by have := hf.le; omega
      subst hk
      rcases hs with ⟨_, h2, h3⟩ | ⟨j, h1, h2, _⟩
      · exact Or.inl ⟨hf.declares, h2, h3⟩
      · omega
  · rintro (⟨h1, h2, h3⟩ | ⟨e, ⟨k, hf, hs⟩, h1, h2, hn⟩)
    · exact ⟨i + 1, ⟨Nat.le_refl _, h1, fun j a b => by omega, fun _ j a b => by omega⟩,
        Or.inl ⟨fun j a b => by omega, h2, h3⟩⟩
    · refine ⟨k, (inForce_succ hf.le).2 ?_, (status_succ hf.le).2 ⟨e, hs, hn⟩⟩
      rw [hn.1]
      exact ⟨hf, h1, h2⟩

theorem expected_zero {dropped : Nat → Name → Bool} {srcs : List Source} {m : Name} {x : Entry} :
    Expected dropped srcs 0 m x ↔ Declares srcs 0 m x.decl ∧ x.fork = 0 ∧ x.canImport = true := by
  constructor
  · rintro ⟨k, hf, hs⟩
    have hk : k = 0 := by have := hf.le; omega
    subst hk
    rcases hs with ⟨_, h2, h3⟩ | ⟨j, h1, h2, _⟩
    · exact ⟨hf.declares, h2, h3⟩
    · omega
  · rintro ⟨h1, h2, h3⟩
    exact ⟨0, ⟨Nat.le_refl _, h1, fun j a b => by omega, fun _ j a b => by omega⟩,
      Or.inl ⟨fun j a b => by omega, h2, h3⟩⟩

theorem full_zero (dropped : Nat → Name → Bool) {srcs : List Source} (ht : Tidy srcs) {src : Source}
    (h0 : srcs[0]? = some src) : ∃ s, parse 0 src = some s ∧ Full dropped srcs 0 s := by
  have hmem : src ∈ srcs := List.mem_of_getElem? h0
  obtain ⟨s, h1, h2⟩ := parse_ok 0 src (ht.supported src hmem) (ht.distinct src hmem)
  refine ⟨s, h1, h2.sound, h2.fork, ?_, ?_⟩
  · intro m e
    rw [h2.mem, expected_zero, declares_iff h0]
  · have := h2.modules.map (fun p => p.2.decl.name)
    rw [this.nodup_iff, List.map_map]
    exact ht.distinct src hmem

/-! ### The next fork -/

section Step

variable (dropped : Nat → Name → Bool) (srcs : List Source) (i : Nat) (src : Source) (p s0 : Spec)

/-- A spec after the loops over the kinds of `L`, on top of `p`, starting from `s0`. -/
structure Stage (L : List Kind) (G : Entry → Entry) (s : Spec) : Prop where
  sound : Sound s
  fork : s.fork = i + 1
  mem : ∀ m x, (m, x) ∈ flat s.modules ↔ (m, x) ∈ flat s0.modules ∨
    ∃ e, (m, e) ∈ flat p.modules ∧ e.decl.kind ∈ L ∧ ¬ DeclaresName srcs (i + 1) e.decl.name ∧
      (e.decl.kind = .fn → dropped (i + 1) e.decl.name = false) ∧ x = G e
  nodup : ((flat s.modules).map fun p => p.2.decl.name).Nodup
  fresh : ∀ m e, (m, e) ∈ flat p.modules → e.decl.kind ∉ L →
    (known s e.decl.name = true ↔ DeclaresName srcs (i + 1) e.decl.name)
  cover : ∀ m e m' e', (m, e) ∈ flat p.modules → (m', e') ∈ flat s.modules →
    e.decl.name = e'.decl.name → known s e.decl.name = true
  keys : L ≠ [] → ∀ m ∈ SpecGen.keys p.modules, m ∈ SpecGen.keys s.modules
  backed : ∀ n m, s.index.lookup n = some m →
    (∃ d, (m, d) ∈ publicItems src ∧ d.kind ≠ .constant ∧ d.name = n) ∨
    ∃ e, (m, e) ∈ flat p.modules ∧ e.decl.kind ∈ L ∧ e.decl.name = n

variable {dropped srcs i src p s0}

theorem known_iff {s : Spec} {n : Name} : known s n = true ↔ ∃ m, s.index.lookup n = some m := by
  simp [known, Option.isSome_iff_exists]

theorem mem_addition {s : Spec} {take : Entry → Bool} {g : Entry → Entry} {kind : Kind} {m : Name} {x : Entry}
    {P : List (Name × Entry)} :
    (m, x) ∈ addition s take g (P.filter fun p => p.2.decl.kind == kind) ↔
      ∃ e, (m, e) ∈ P ∧ e.decl.kind = kind ∧ take e = true ∧ known s e.decl.name = false ∧ x = g e := by
  simp only [addition, List.mem_map, List.mem_filter, Bool.and_eq_true, Bool.not_eq_true', Prod.exists,
    Prod.mk.injEq, beq_iff_eq]
  constructor
  · rintro ⟨m', e, ⟨⟨h1, h2⟩, h3, h4⟩, rfl, rfl⟩
    exact ⟨e, h1, h2, h3, h4, rfl⟩
  · rintro ⟨e, h1, h2, h3, h4, rfl⟩
    exact ⟨m, e, ⟨⟨h1, h2⟩, h3, h4⟩, rfl, rfl⟩

theorem stage_next {L : List Kind} {G : Entry → Entry} {s : Spec}
    (h : Stage dropped srcs i src p s0 L G s)
    (hp : ((flat p.modules).map fun q => q.2.decl.name).Nodup) {K : Kind} (hK : K ∉ L)
    {step : Name → Spec × List Entry → Entry → Option (Spec × List Entry)} {take : Entry → Bool}
    {g : Entry → Entry} (hg : ∀ e, (g e).decl = e.decl)
    (htake : ∀ e : Entry, e.decl.kind = K →
      (take e = true ↔ (e.decl.kind = .fn → dropped (i + 1) e.decl.name = false)))
    (hstep : StepOk s K p.modules take g step) :
    ∃ s', pass K step p.modules s = some s' ∧
      Stage dropped srcs i src p s0 (K :: L) (fun e => if e.decl.kind = K then g e else G e) s' := by
  obtain ⟨s', h1, h2⟩ := pass_ok h.sound hg hstep hp
  have hmemX : ∀ m x, (m, x) ∈ addition s take g ((flat p.modules).filter fun q => q.2.decl.kind == K) ↔
      ∃ e, (m, e) ∈ flat p.modules ∧ e.decl.kind = K ∧ ¬ DeclaresName srcs (i + 1) e.decl.name ∧
        (e.decl.kind = .fn → dropped (i + 1) e.decl.name = false) ∧ x = g e := by
    intro m x
    rw [mem_addition]
    constructor
    · rintro ⟨e, a, b, c, d, rfl⟩
      refine ⟨e, a, b, ?_, (htake e b).1 c, rfl⟩
      rw [← h.fresh m e a (b ▸ hK), d]
      simp
    · rintro ⟨e, a, b, c, d, rfl⟩
      refine ⟨e, a, b, (htake e b).2 d, ?_, rfl⟩
      rw [← h.fresh m e a (b ▸ hK)] at c
      simpa using c
  have hkn : ∀ n, known s n = true → known s' n = true := by
    intro n hn
    obtain ⟨m, hm⟩ := known_iff.1 hn
    exact known_iff.2 ⟨m, h2.kept n m hm⟩
  refine ⟨s', h1, h2.sound, by rw [h2.fork, h.fork], ?_, ?_, ?_, ?_, ?_, ?_⟩
  · intro m x
    rw [h2.modules.mem_iff, List.mem_append, h.mem, hmemX]
    constructor
    · rintro ((h' | ⟨e, a, b, c, d, rfl⟩) | ⟨e, a, b, c, d, rfl⟩)
      · exact Or.inl h'
      · refine Or.inr ⟨e, a, List.mem_cons_of_mem _ b, c, d, ?_⟩
        rw [if_neg]
        rintro rfl
        exact hK b
      · exact Or.inr ⟨e, a, by rw [b]; simp, c, d, by rw [if_pos b]⟩
    · rintro (h' | ⟨e, a, b, c, d, rfl⟩)
      · exact Or.inl (Or.inl h')
      · by_cases hk : e.decl.kind = K
        · exact Or.inr ⟨e, a, hk, c, d, by rw [if_pos hk]⟩
        · exact Or.inl (Or.inr ⟨e, a, (List.mem_cons.1 b).resolve_left hk, c, d, by rw [if_neg hk]⟩)
  · have := h2.modules.map (fun q => q.2.decl.name)
    rw [this.nodup_iff, List.map_append, List.nodup_append]
    refine ⟨h.nodup, ?_, ?_⟩
    · have heq : (addition s take g ((flat p.modules).filter fun q => q.2.decl.kind == K)).map
          (fun q => q.2.decl.name) = (((flat p.modules).filter fun q => q.2.decl.kind == K).filter
            fun q => take q.2 && !known s q.2.decl.name).map fun q => q.2.decl.name := by
        simp only [addition, List.map_map, Function.comp_def, hg]
      rw [heq]
      exact hp.sublist (List.Sublist.map _ (List.filter_sublist.trans List.filter_sublist))
    · intro a ha b hb hab
      obtain ⟨⟨m, x⟩, hx, rfl⟩ := List.mem_map.1 ha
      obtain ⟨⟨m', y⟩, hy, rfl⟩ := List.mem_map.1 hb
      obtain ⟨e, c1, c2, c3, c4, rfl⟩ := mem_addition.1 hy
      simp only [hg] at hab
      have := h.cover m' e m x c1 hx hab.symm
      rw [c4] at this
      cases this
  · intro m e he hk
    rw [← h.fresh m e he (fun hh => hk (List.mem_cons_of_mem _ hh))]
    constructor
    · intro hh
      obtain ⟨m', hm'⟩ := known_iff.1 hh
      rcases h2.new _ _ hm' with h' | ⟨x, hx, hxn⟩
      · exact known_iff.2 ⟨m', h'⟩
      · exfalso
        obtain ⟨e', c1, c2, _, _, rfl⟩ := mem_addition.1 hx
        rw [hg] at hxn
        have := (flat_nodup_inj hp c1 he hxn).2
        subst this
        exact hk (by rw [c2]; simp)
    · exact hkn _
  · intro m e m' e' he he' hn
    rcases List.mem_append.1 (h2.modules.mem_iff.1 he') with h' | h'
    · exact hkn _ (h.cover m e m' e' he h' hn)
    · exact known_iff.2 ⟨m', by rw [hn]; exact h2.placed m' e' h'⟩
  · intro _ m hm
    exact h2.previousKeys m hm
  · intro n m hl
    rcases h2.new n m hl with h' | ⟨x, hx, hxn⟩
    · rcases h.backed n m h' with h' | ⟨e, a, b, c⟩
      · exact Or.inl h'
      · exact Or.inr ⟨e, a, List.mem_cons_of_mem _ b, c⟩
    · obtain ⟨e', c1, c2, _, _, rfl⟩ := mem_addition.1 hx
      rw [hg] at hxn
      exact Or.inr ⟨e', c1, by rw [c2]; simp, hxn⟩

theorem stage_plain {L : List Kind} {G : Entry → Entry} {s : Spec}
    (h : Stage dropped srcs i src p s0 L G s)
    (hp : ((flat p.modules).map fun q => q.2.decl.name).Nodup) {K : Kind} (hK : K ∉ L) (hfn : K ≠ .fn) :
    ∃ s', pass K inheritPlain p.modules s = some s' ∧
      Stage dropped srcs i src p s0 (K :: L) (fun e => if e.decl.kind = K then id e else G e) s' :=
  stage_next h hp hK (g := id) (fun _ => rfl)
    (fun e he => by
      have : e.decl.kind ≠ .fn := by rw [he]; exact hfn
      simp [this]) stepOk_plain

theorem expected_declares {m : Name} {e : Entry} (h : Expected dropped srcs i m e) :
    ∃ k ≤ i, Declares srcs k m e.decl := by
  obtain ⟨k, hf, _⟩ := h
  exact ⟨k, hf.le, hf.declares⟩

theorem expected_fork_le {m : Name} {e : Entry} (h : Expected dropped srcs i m e) : e.fork ≤ i := by
  obtain ⟨k, hf, hs⟩ := h
  have := hf.le
  rcases hs with ⟨_, h2, _⟩ | ⟨j, _, h2, _, _, h5, _⟩ <;> omega

theorem full_succ (ht : Tidy srcs) (hp : Full dropped srcs i p) (hsrc : srcs[i + 1]? = some src) :
    ∃ s0 s, parse (i + 1) src = some s0 ∧ onTopOf dropped p s0 = some s ∧ Full dropped srcs (i + 1) s := by
  have hmem : src ∈ srcs := List.mem_of_getElem? hsrc
  obtain ⟨s0, h1, h2⟩ := parse_ok (i + 1) src (ht.supported src hmem) (ht.distinct src hmem)
  have hdec : ∀ m e, (m, e) ∈ flat p.modules → ∃ k ≤ i, Declares srcs k m e.decl := fun m e he =>
    expected_declares ((hp.mem m e).1 he)
  have hst0 : Stage dropped srcs i src p s0 [] id s0 := by
    have hfresh : ∀ m e, (m, e) ∈ flat p.modules →
        (known s0 e.decl.name = true ↔ DeclaresName srcs (i + 1) e.decl.name) := by
      intro m e he
      obtain ⟨k, hk, hd⟩ := hdec m e he
      constructor
      · intro h
        obtain ⟨m', hm'⟩ := known_iff.1 h
        obtain ⟨d, hd1, _, hd3⟩ := h2.new _ _ hm'
        exact ⟨m', d, (declares_iff hsrc).2 hd1, hd3⟩
      · rintro ⟨m', d, hd', hn⟩
        have hkd := ht.sameKind _ _ _ _ _ _ hd hd' hn.symm
        have hc : d.kind ≠ .constant := by
          intro hc
          have := ht.constants _ _ _ _ _ _ hd hd' hn.symm (by rw [hkd, hc])
          omega
        exact known_iff.2 ⟨m', by rw [← hn]; exact h2.placed m' d ((declares_iff hsrc).1 hd') hc⟩
    refine ⟨h2.sound, h2.fork, ?_, ?_, fun m e he _ => hfresh m e he, ?_, fun h => absurd rfl h, ?_⟩
    · intro m x; simp
    · have := h2.modules.map (fun p => p.2.decl.name)
      rw [this.nodup_iff, List.map_map]
      exact ht.distinct src hmem
    · intro m e m' e' he he' hn
      rw [hfresh m e he]
      exact ⟨m', e'.decl, (declares_iff hsrc).2 (h2.mem.1 he').1, hn.symm⟩
    · intro n m hl
      exact Or.inl (h2.new n m hl)
  obtain ⟨s1, e1, st1⟩ := stage_plain hst0 hp.nodup (K := .constant) (by simp) (by decide)
  obtain ⟨s2, e2, st2⟩ := stage_plain st1 hp.nodup (K := .container) (by simp) (by decide)
  obtain ⟨s3, e3, st3⟩ := stage_plain st2 hp.nodup (K := .typeDef) (by simp) (by decide)
  -- the containers of `s3`
  have hown : ∀ m d, Declares srcs (i + 1) m d → (m, ⟨d, i + 1, true⟩) ∈ flat s3.modules := by
    intro m d hd
    exact (st3.mem _ _).2 (Or.inl (h2.mem.2 ⟨(declares_iff hsrc).1 hd, rfl, rfl⟩))
  have hkind : ∀ m x, (m, x) ∈ flat s3.modules → x.fork = i + 1 → Declares srcs (i + 1) m x.decl := by
    intro m x hx hf
    rcases (st3.mem m x).1 hx with h' | ⟨e, a, b, _, _, rfl⟩
    · exact (declares_iff hsrc).2 (h2.mem.1 h').1
    · exfalso
      have hle := expected_fork_le ((hp.mem m e).1 a)
      revert hf
      simp only [List.mem_cons, List.not_mem_nil, or_false] at b
      rcases b with b | b | b <;> simp [b] <;> omega
  have hfreshc : ∀ n, fresh s3 n = true ↔ ∃ m c, Declares srcs (i + 1) m c ∧ c.kind = .container ∧ c.name = n := by
    intro n
    simp only [fresh, List.any_eq_true, Bool.and_eq_true, beq_iff_eq, st3.fork]
    constructor
    · rintro ⟨⟨m, x⟩, hx, ⟨a, b⟩, c⟩
      exact ⟨m, x.decl, hkind m x hx c, a, b⟩
    · rintro ⟨m, c, hc, a, b⟩
      exact ⟨(m, ⟨c, i + 1, true⟩), hown m c hc, ⟨a, b⟩, rfl⟩
  have huniq : ∀ m m' e e', (m, e) ∈ flat s3.modules → (m', e') ∈ flat s3.modules →
      e.decl.kind = .container → e'.decl.kind = .container → e.decl.name = e'.decl.name → e = e' :=
    fun m m' e e' a b _ _ hn => (flat_nodup_inj st3.nodup a b hn).2
  obtain ⟨s4, e4, st4⟩ := stage_next st3 hp.nodup (K := .fn) (by simp) (updated_decl s3)
    (take := fun e => !dropped s3.fork e.decl.name)
    (fun e he => by simp [he, st3.fork])
    (stepOk_fn dropped st3.sound (st3.keys (by simp)) huniq
      (by
        intro m e he
        rw [st3.fork]
        have := expected_fork_le ((hp.mem m e).1 he)
        omega)
      (by
        intro m e he hk hc
        obtain ⟨k, hf, hs⟩ := (hp.mem m e).1 he
        rcases hs with ⟨_, _, h3⟩ | ⟨j, g1, g2, g3, g4, g5, g6⟩
        · rw [hc] at h3; cases h3
        · have hj : j = i := by
            by_contra hne
            rw [g6.2 hne] at hc
            cases hc
          subst hj
          obtain ⟨_, mc, c, hcd, hck, hcn⟩ := g3
          refine ⟨c.name, hcn, ?_⟩
          have hcp : (mc, (⟨c, j, true⟩ : Entry)) ∈ flat p.modules := by
            refine (hp.mem _ _).2 ⟨j, ⟨Nat.le_refl _, hcd, fun _ a b => by omega, fun _ _ a b => by omega⟩,
              Or.inl ⟨fun _ a b => by omega, rfl, rfl⟩⟩
          by_cases hd : DeclaresName srcs (j + 1) c.name
          · obtain ⟨m', d, hd', hn⟩ := hd
            exact Or.inl ((hfreshc _).2 ⟨m', d, hd', by
              rw [← hck]; exact ht.sameKind _ _ _ _ _ _ hd' hcd hn, hn⟩)
          · refine Or.inr ?_
            simp only [stale, List.any_eq_true, Bool.and_eq_true, beq_iff_eq, bne_iff_ne, st3.fork]
            refine ⟨(mc, ⟨c, j, true⟩), (st3.mem _ _).2 (Or.inr ⟨⟨c, j, true⟩, hcp, by simp [hck], hd,
              by simp [hck], by simp [hck]⟩), ⟨hck, rfl⟩, by simp⟩)
      (by
        intro m e b m' he hk hb hl
        obtain ⟨k, _, hd⟩ := hdec m e he
        rcases st3.backed b m' hl with ⟨d, hd', hc, hn⟩ | ⟨e', a, c, hn⟩
        · have hd'' := (declares_iff hsrc).2 hd'
          exact ⟨⟨d, i + 1, true⟩, hown m' d hd'', ht.bounds _ _ _ _ _ _ hd hd'' (by rw [hn]; exact hb), hn⟩
        · exfalso
          obtain ⟨k', _, hd'⟩ := hdec m' e' a
          have := ht.bounds _ _ _ _ _ _ hd hd' (by rw [hn]; exact hb)
          rw [this] at c
          simp at c)
      (by
        intro m e m' e' he he' _ hk' hb
        obtain ⟨k, _, hd⟩ := hdec m e he
        obtain ⟨k', _, hd'⟩ := hdec m' e' he'
        have := ht.bounds _ _ _ _ _ _ hd hd' hb
        rw [hk'] at this
        cases this))
  obtain ⟨s5, e5, st5⟩ := stage_plain st4 hp.nodup (K := .traitDef) (by simp) (by decide)
  refine ⟨s0, s5, h1, ?_, st5.sound, st5.fork, ?_, st5.nodup⟩
  · simp [onTopOf, e1, e2, e3, e4, e5]
  · intro m x
    rw [st5.mem, h2.mem, expected_succ, declares_iff hsrc]
    refine or_congr Iff.rfl ?_
    have hnext : ∀ e, (m, e) ∈ flat p.modules →
        (Next srcs i e x ↔ x = if e.decl.kind = .fn then updated s3 e else e) := by
      intro e he
      by_cases hk : e.decl.kind = .fn
      · have hany : e.decl.mentions.any (fresh s3) = true ↔ Retyped srcs (i + 1) e.decl := by
          simp only [List.any_eq_true, hfreshc, Retyped, hk, true_and]
          constructor
          · rintro ⟨n, hn, m', c, h1, h2, rfl⟩
            exact ⟨m', c, h1, h2, hn⟩
          · rintro ⟨m', c, h1, h2, hn⟩
            exact ⟨c.name, hn, m', c, h1, h2, rfl⟩
        rw [if_pos hk]
        by_cases hr : Retyped srcs (i + 1) e.decl
        · simp only [updated, hany.2 hr, if_true, st3.fork]
          constructor
          · rintro ⟨h1, h2, _⟩
            obtain ⟨h2, h3⟩ := h2 hr
            cases x
            simp only at h1 h2 h3
            simp [h1, h2, h3]
          · rintro rfl
            exact ⟨rfl, fun _ => ⟨rfl, rfl⟩, fun h => absurd hr h⟩
        · have hf : ¬ (e.decl.mentions.any (fresh s3) = true) := fun h => hr (hany.1 h)
          simp only [updated, if_neg hf]
          constructor
          · rintro ⟨h1, _, h2⟩
            obtain ⟨h2, h3⟩ := h2 hr
            cases x
            simp only at h1 h2 h3
            simp [h1, h2, h3]
          · rintro rfl
            exact ⟨rfl, fun h => absurd h hr, fun _ => ⟨rfl, rfl⟩⟩
      · rw [if_neg hk]
        have hr : ¬ Retyped srcs (i + 1) e.decl := fun h => hk h.1
        have hci : e.canImport = true := by
          obtain ⟨k, _, hs⟩ := (hp.mem m e).1 he
          rcases hs with ⟨_, _, h3⟩ | ⟨j, _, _, g3, _⟩
          · exact h3
          · exact absurd g3.1 hk
        constructor
        · rintro ⟨h1, _, h2⟩
          obtain ⟨h2, h3⟩ := h2 hr
          cases x
          cases e
          simp only at h1 h2 h3 hci
          simp [h1, h2, h3, hci]
        · rintro rfl
          exact ⟨rfl, fun h => absurd h hr, fun _ => ⟨rfl, hci⟩⟩
    constructor
    · rintro ⟨e, a, b, c, d, hx⟩
      refine ⟨e, (hp.mem m e).1 a, c, d, (hnext e a).2 ?_⟩
      rw [hx]
      cases hk : e.decl.kind <;> simp
    · rintro ⟨e, a, c, d, hn⟩
      have a' := (hp.mem m e).2 a
      refine ⟨e, a', ?_, c, d, ?_⟩
      · cases e.decl.kind <;> simp
      · rw [(hnext e a').1 hn]
        cases hk : e.decl.kind <;> simp

end Step

/-! ### A sequence of forks -/

theorem generate_from {dropped : Nat → Name → Bool} {srcs : List Source} (ht : Tidy srcs) :
    ∀ (rest : List Source) (i : Nat) (p : Spec), srcs.drop (i + 1) = rest → Full dropped srcs i p →
      ∃ specs, generate dropped (some p) (i + 1) rest = some specs ∧ specs.length = rest.length ∧
        ∀ j s, specs[j]? = some s → Full dropped srcs (i + 1 + j) s := by
  intro rest
  induction rest with
  | nil => intro i p _ _; exact ⟨[], rfl, rfl, fun j s h => by simp at h⟩
  | cons src rest ih =>
    intro i p hd hp
    have hsrc : srcs[i + 1]? = some src := by
      have : (srcs.drop (i + 1))[0]? = some src := by rw [hd]; rfl
      simpa [List.getElem?_drop] using this
    obtain ⟨s0, s, h1, h2, h3⟩ := full_succ ht hp hsrc
    have hd' : srcs.drop (i + 1 + 1) = rest := by
      rw [← List.drop_drop, hd]; rfl
    obtain ⟨specs, g1, g2, g3⟩ := ih (i + 1) s hd' h3
    refine ⟨s :: specs, ?_, by simp [g2], ?_⟩
    · simp [generate, h1, h2, g1]
    · intro j t hj
      cases j with
      | zero =>
        simp only [List.getElem?_cons_zero, Option.some.injEq] at hj
        subst hj
        exact h3
      | succ j =>
        have := g3 j t (by simpa using hj)
        rwa [show i + 1 + (j + 1) = i + 1 + 1 + j by omega]

theorem generate_ok (dropped : Nat → Name → Bool) {srcs : List Source} (ht : Tidy srcs) :
    ∃ specs, generate dropped none 0 srcs = some specs ∧ specs.length = srcs.length ∧
      ∀ i s, specs[i]? = some s → Full dropped srcs i s := by
  cases hs : srcs with
  | nil => exact ⟨[], rfl, rfl, fun j s h => by simp at h⟩
  | cons src rest =>
    rw [← hs]
    have h0 : srcs[0]? = some src := by rw [hs]; rfl
    obtain ⟨s, h1, h2⟩ := full_zero dropped ht h0
    obtain ⟨specs, g1, g2, g3⟩ := generate_from ht rest 0 s (by rw [hs]; rfl) h2
    refine ⟨s :: specs, ?_, by simp [hs, g2], ?_⟩
    · rw [hs]
      simp [generate, h1, g1]
    · intro j t hj
      cases j with
      | zero =>
        simp only [List.getElem?_cons_zero, Option.some.injEq] at hj
        subst hj
        exact h2
      | succ j =>
        have := g3 j t (by simpa using hj)
        rwa [show j + 1 = 0 + 1 + j by omega]

/-! ### The items of the generated modules -/

theorem ofKind_eq (kind : Kind) (mods : Modules) :
    ofKind kind mods = (flat mods).filter fun p => p.2.decl.kind == kind := by
  simp [ofKind, flat, List.filter_flatMap, List.filter_map, Function.comp_def]

theorem mem_assemble {s : Spec} {x : Export} :
    x ∈ assemble s ↔ ∃ m e, (m, e) ∈ flat s.modules ∧ x = render m e := by
  simp only [assemble, ofKind_eq, List.mem_append, List.mem_map, List.mem_filter, Prod.exists, beq_iff_eq,
    Bool.not_eq_true']
  constructor
  · rintro (((((⟨m, e, h, rfl⟩ | ⟨m, e, h, rfl⟩) | ⟨m, e, h, rfl⟩) | ⟨m, e, h, rfl⟩) | ⟨m, e, h, rfl⟩) |
      ⟨m, e, h, rfl⟩)
    · exact ⟨m, e, h.1, rfl⟩
    · exact ⟨m, e, h.1, rfl⟩
    · exact ⟨m, e, h.1, rfl⟩
    · exact ⟨m, e, h.1.1, rfl⟩
    · exact ⟨m, e, h.1.1, rfl⟩
    · exact ⟨m, e, h.1, rfl⟩
  · rintro ⟨m, e, h, rfl⟩
    cases hk : e.decl.kind with
    | constant => exact Or.inl (Or.inl (Or.inl (Or.inl (Or.inl ⟨m, e, ⟨h, hk⟩, rfl⟩))))
    | container => exact Or.inl (Or.inl (Or.inl (Or.inl (Or.inr ⟨m, e, ⟨h, hk⟩, rfl⟩))))
    | typeDef => exact Or.inl (Or.inl (Or.inl (Or.inr ⟨m, e, ⟨h, hk⟩, rfl⟩)))
    | traitDef => exact Or.inr ⟨m, e, ⟨h, hk⟩, rfl⟩
    | fn =>
      cases hc : e.canImport with
      | true => exact Or.inl (Or.inl (Or.inr ⟨m, e, ⟨⟨h, hk⟩, hc⟩, rfl⟩))
      | false => exact Or.inl (Or.inr ⟨m, e, ⟨⟨h, hk⟩, hc⟩, rfl⟩)

theorem render_name (m : Name) (e : Entry) : (render m e).name = e.decl.name := by
  unfold render; split <;> rfl

theorem filter_kinds_perm (l : List (Name × Entry)) :
    (l.filter (fun p => p.2.decl.kind == .constant) ++ l.filter (fun p => p.2.decl.kind == .container) ++
      l.filter (fun p => p.2.decl.kind == .typeDef) ++
      (l.filter (fun p => p.2.decl.kind == .fn)).filter (fun p => p.2.canImport) ++
      (l.filter (fun p => p.2.decl.kind == .fn)).filter (fun p => !p.2.canImport) ++
      l.filter (fun p => p.2.decl.kind == .traitDef)).Perm l := by
  classical
  rw [List.perm_iff_count]
  intro a
  simp only [List.count_append]
  have hc : ∀ q : Name × Entry → Bool, (l.filter q).count a = if q a then l.count a else 0 := by
    intro q
    split_ifs with h
    · exact List.count_filter h
    · exact List.count_eq_zero.2 fun hm => h (List.mem_filter.1 hm).2
  simp only [List.filter_filter, hc]
  cases a.2.decl.kind <;> cases a.2.canImport <;> simp

theorem assemble_nodup {s : Spec} (h : ((flat s.modules).map fun p => p.2.decl.name).Nodup) :
    ((assemble s).map Export.name).Nodup := by
  have hp := (filter_kinds_perm (flat s.modules)).map fun p => (render p.1 p.2).name
  have heq : (assemble s).map Export.name = (((flat s.modules).filter (fun p => p.2.decl.kind == .constant) ++
      (flat s.modules).filter (fun p => p.2.decl.kind == .container) ++
      (flat s.modules).filter (fun p => p.2.decl.kind == .typeDef) ++
      ((flat s.modules).filter (fun p => p.2.decl.kind == .fn)).filter (fun p => p.2.canImport) ++
      ((flat s.modules).filter (fun p => p.2.decl.kind == .fn)).filter (fun p => !p.2.canImport) ++
      (flat s.modules).filter (fun p => p.2.decl.kind == .traitDef))).map fun p => (render p.1 p.2).name := by
    simp only [assemble, ofKind_eq, List.map_append, List.map_map, Function.comp_def]
  rw [heq, hp.nodup_iff]
  simpa only [render_name] using h

end Verif.SpecGen
