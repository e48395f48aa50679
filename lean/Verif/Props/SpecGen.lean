import Verif.Proofs.SpecGenCheck
import Verif.Examples.SpecGenData

/-
C92: the generated `spec` module of each fork exports each name in force once, bound to its newest
definition.
-/

namespace Verif.SpecGen

/-- The generator succeeds on every sequence of forks that follows the conventions, and writes one module
for each. -/
theorem C92_total (dropped : Nat → Name → Bool) {srcs : List Source} (ht : Tidy srcs) :
    ∃ mods, run dropped srcs = some mods ∧ mods.length = srcs.length := by
  obtain ⟨specs, h1, h2, _⟩ := generate_ok dropped ht
  exact ⟨specs.map assemble, by simp [run, h1], by simp [h2]⟩

theorem run_full {dropped : Nat → Name → Bool} {srcs : List Source} (ht : Tidy srcs)
    {mods : List (List Export)} (hr : run dropped srcs = some mods) {i : Nat} {items : List Export}
    (hi : mods[i]? = some items) :
    i < srcs.length ∧ ∃ s, Full dropped srcs i s ∧ items = assemble s := by
  obtain ⟨specs, h1, h2, h3⟩ := generate_ok dropped ht
  have : mods = specs.map assemble := by
    simp only [run, h1, Option.bind_eq_bind, Option.bind_some, Option.pure_def, Option.some.injEq] at hr
    exact hr.symm
  subst this
  simp only [List.getElem?_map, Option.map_eq_some_iff] at hi
  obtain ⟨s, hs, rfl⟩ := hi
  refine ⟨?_, s, h3 i s hs, rfl⟩
  rw [← h2]
  exact (List.getElem?_eq_some_iff.1 hs).1

/-- Each name is exported once. -/
theorem C92_once {dropped : Nat → Name → Bool} {srcs : List Source} (ht : Tidy srcs)
    {mods : List (List Export)} (hr : run dropped srcs = some mods) {i : Nat} {items : List Export}
    (hi : mods[i]? = some items) : (items.map Export.name).Nodup := by
  obtain ⟨_, s, hf, rfl⟩ := run_full ht hr hi
  exact assemble_nodup hf.nodup

/-- The names exported are those with a definition in force. -/
theorem C92_names {dropped : Nat → Name → Bool} {srcs : List Source} (ht : Tidy srcs)
    {mods : List (List Export)} (hr : run dropped srcs = some mods) {i : Nat} {items : List Export}
    (hi : mods[i]? = some items) (n : Name) :
    n ∈ items.map Export.name ↔ ∃ k m d, InForce dropped srcs i k m d ∧ d.name = n := by
  obtain ⟨_, s, hf, rfl⟩ := run_full ht hr hi
  simp only [List.mem_map, mem_assemble]
  constructor
  · rintro ⟨x, ⟨m, e, he, rfl⟩, rfl⟩
    obtain ⟨k, h, _⟩ := (hf.mem m e).1 he
    exact ⟨k, m, e.decl, h, (render_name m e).symm⟩
  · rintro ⟨k, m, d, h, rfl⟩
    obtain ⟨e, rfl, hs⟩ := status_exists srcs k d i h.le
    exact ⟨_, ⟨m, e, (hf.mem m e).2 ⟨k, h, hs⟩, rfl⟩, render_name m e⟩

/-- A definition in force is in force alone. -/
theorem inForce_unique {dropped : Nat → Name → Bool} {srcs : List Source} (ht : Tidy srcs) {i k k' : Nat}
    {m m' : Name} {d d' : Decl} (h : InForce dropped srcs i k m d) (h' : InForce dropped srcs i k' m' d')
    (hn : d.name = d'.name) : k = k' ∧ m = m' ∧ d = d' := by
  have hk : k = k' := by
    rcases Nat.lt_trichotomy k k' with hlt | heq | hgt
    · exact absurd ⟨m', d', h'.declares, hn.symm⟩ (h.last k' hlt h'.le)
    · exact heq
    · exact absurd ⟨m, d, h.declares, hn⟩ (h'.last k hgt h.le)
  subst hk
  obtain ⟨src, items, hs, _⟩ := h.declares
  have hnd := ht.distinct src (List.mem_of_getElem? hs)
  have := List.inj_on_of_nodup_map hnd ((declares_iff hs).1 h.declares) ((declares_iff hs).1 h'.declares) hn
  exact ⟨rfl, congrArg Prod.fst this, congrArg Prod.snd this⟩

/-- The items of a generated module are the wanted ones: an import of the newest definition of each name,
or, for a function whose containers have changed since, its text. -/
theorem C92_items {dropped : Nat → Name → Bool} {srcs : List Source} (ht : Tidy srcs)
    (hst : Steady dropped srcs) {mods : List (List Export)} (hr : run dropped srcs = some mods) {i : Nat}
    {items : List Export} (hi : mods[i]? = some items) (x : Export) :
    x ∈ items ↔ ∃ k m d, InForce dropped srcs i k m d ∧ x = wanted srcs i k m d := by
  obtain ⟨hlt, s, hf, rfl⟩ := run_full ht hr hi
  have key : ∀ k m (e : Entry), InForce dropped srcs i k m e.decl → Status srcs k i e →
      render m e = wanted srcs i k m e.decl := by
    intro k m e h hs
    unfold render wanted
    rcases hs with ⟨h1, h2, h3⟩ | ⟨j, h1, h2, h3, h4, h5, h6⟩
    · rw [if_pos h3, if_neg, h2]
      rintro ⟨j, a, b, c⟩
      exact h1 j a b c
    · have hji : j = i := by
        by_contra hne
        have := hst i k m e.decl j hlt h h1 (by omega) h3
        exact h4 i (by omega) (Nat.le_refl _) this
      have hc : ¬ e.canImport = true := fun hc => h6.1 hc hji
      rw [if_neg hc, if_pos ⟨j, h1, h2, h3⟩]
  rw [mem_assemble]
  constructor
  · rintro ⟨m, e, he, rfl⟩
    obtain ⟨k, h, hs⟩ := (hf.mem m e).1 he
    exact ⟨k, m, e.decl, h, key k m e h hs⟩
  · rintro ⟨k, m, d, h, rfl⟩
    obtain ⟨e, rfl, hs⟩ := status_exists srcs k d i h.le
    exact ⟨m, e, (hf.mem m e).2 ⟨k, h, hs⟩, (key k m e h hs).symm⟩

/-- What a generated module imports exists, in the file and fork it is imported from, and no container
mentioned by an imported function has been redefined since. -/
theorem C92_imports {dropped : Nat → Name → Bool} {srcs : List Source} (ht : Tidy srcs)
    (hst : Steady dropped srcs) {mods : List (List Export)} (hr : run dropped srcs = some mods) {i : Nat}
    {items : List Export} (hi : mods[i]? = some items) {k : Nat} {m n : Name}
    (hx : Export.use k m n ∈ items) :
    ∃ d, Declares srcs k m d ∧ d.name = n ∧ ∀ j, k < j → j ≤ i →
      ¬ DeclaresName srcs j n ∧ ¬ Retyped srcs j d := by
  obtain ⟨k', m', d, h, hw⟩ := (C92_items ht hst hr hi _).1 hx
  unfold wanted at hw
  split_ifs at hw with hc
  · cases hw
    refine ⟨d, h.declares, rfl, fun j h1 h2 => ⟨h.last j h1 h2, fun hr => hc ⟨j, h1, h2, hr⟩⟩⟩

/-- A function imported from an earlier fork calls what the module exports: whatever the module exports
under the name of a function it calls is what that earlier fork exports under that name. -/
theorem C92_calls {dropped : Nat → Name → Bool} {srcs : List Source} (ht : Tidy srcs)
    (hst : Steady dropped srcs) (hth : Threaded dropped srcs) {mods : List (List Export)}
    (hr : run dropped srcs = some mods) {i k : Nat} {items earlier : List Export}
    (hi : mods[i]? = some items) (hk : mods[k]? = some earlier) {m n : Name} {d : Decl}
    (hx : Export.use k m n ∈ items) (hd : Declares srcs k m d) (hdn : d.name = n) (hfn : d.kind = .fn)
    {y : Export} (hy : y ∈ items) (hc : y.name ∈ d.calls)
    (hyf : ∀ k' m' g, Declares srcs k' m' g → g.name = y.name → g.kind = .fn) : y ∈ earlier := by
  obtain ⟨k0, m0, d0, h, hw⟩ := (C92_items ht hst hr hi _).1 hx
  unfold wanted at hw
  split_ifs at hw with hcond
  · cases hw
    have hd0 : d = d0 := by
      obtain ⟨src, items', hs, _⟩ := id hd
      have hnd := ht.distinct src (List.mem_of_getElem? hs)
      have := List.inj_on_of_nodup_map hnd ((declares_iff hs).1 hd) ((declares_iff hs).1 h.declares) hdn
      exact congrArg Prod.snd this
    subst hd0
    obtain ⟨k', m', g, hg, rfl⟩ := (C92_items ht hst hr hi _).1 hy
    have hname : (wanted srcs i k' m' g).name = g.name := by unfold wanted; split <;> rfl
    rw [hname] at hc
    have hgk := hyf k' m' g hg.declares hname.symm
    have hsub : ∀ {j k m d}, InForce dropped srcs i k m d → k ≤ j → j ≤ i → InForce dropped srcs j k m d := by
      intro j k m d hh a b
      exact ⟨a, hh.declares, fun j' x y => hh.last j' x (by omega), fun hk j' x y => hh.kept hk j' x (by omega)⟩
    have hno : ∀ j, k < j → j ≤ i → ¬ Retyped srcs j d := fun j a b c => hcond ⟨j, a, b, c⟩
    have hk' : k' ≤ k := by
      by_contra hgt
      exact hno k' (by omega) hg.le (hth k' k m d k' m' g (hsub h (by omega) hg.le) hfn
        (hsub hg (Nat.le_refl _) hg.le) hgk hc (by omega) (Or.inl rfl))
    have hnog : ∀ j, k < j → j ≤ i → ¬ Retyped srcs j g := fun j a b c =>
      hno j a b (hth j k m d k' m' g (hsub h (by omega) b) hfn (hsub hg (by omega) b) hgk hc a (Or.inr c))
    refine (C92_items ht hst hr hk _).2 ⟨k', m', g, hsub hg hk' h.le, ?_⟩
    have hiff : (∃ j, k' < j ∧ j ≤ i ∧ Retyped srcs j g) ↔ ∃ j, k' < j ∧ j ≤ k ∧ Retyped srcs j g := by
      constructor
      · rintro ⟨j, a, b, c⟩
        refine ⟨j, a, ?_, c⟩
        by_contra hgt
        exact hnog j (by omega) b c
      · rintro ⟨j, a, b, c⟩
        exact ⟨j, a, by have := h.le; omega, c⟩
    unfold wanted
    by_cases hex : ∃ j, k' < j ∧ j ≤ i ∧ Retyped srcs j g
    · rw [if_pos hex, if_pos (hiff.1 hex)]
    · rw [if_neg hex, if_neg fun h => hex (hiff.2 h)]

/-! ### The sources of the repository -/

theorem repo_tidy : Tidy Repo.sources := tidy_of_check (by decide +kernel)

theorem repo_steady : Steady Repo.dropped Repo.sources := steady_of_check (by decide +kernel)

theorem repo_threaded : Threaded Repo.dropped Repo.sources := threaded_of_check (by decide +kernel)

def agreesB (r : Option (List (List Export))) (c : List (List Export)) : Bool :=
  match r with
  | none => false
  | some mods => mods.length == c.length && (mods.zip c).all fun p => p.1.isPerm p.2

theorem agrees_of_check {r : Option (List (List Export))} {c : List (List Export)} (h : agreesB r c = true) :
    ∃ mods, r = some mods ∧ mods.length = c.length ∧ ∀ p ∈ mods.zip c, p.1.Perm p.2 := by
  cases r with
  | none => simp [agreesB] at h
  | some mods =>
    simp only [agreesB, Bool.and_eq_true, beq_iff_eq, List.all_eq_true, List.isPerm_iff] at h
    exact ⟨mods, rfl, h⟩

theorem repo_agrees : agreesB (run Repo.dropped Repo.sources) Repo.committed = true := by decide +kernel

/-- The sources of the repository follow the conventions, and the generator writes the modules that are
committed in it. -/
theorem C92_repo : Tidy Repo.sources ∧ Steady Repo.dropped Repo.sources ∧
    Threaded Repo.dropped Repo.sources ∧
    ∃ mods, run Repo.dropped Repo.sources = some mods ∧ mods.length = Repo.committed.length ∧
      ∀ p ∈ mods.zip Repo.committed, p.1.Perm p.2 :=
  ⟨repo_tidy, repo_steady, repo_threaded, agrees_of_check repo_agrees⟩

/-- So the committed modules export each name once, and what they import exists. -/
example : ∀ items ∈ Repo.committed, (items.map Export.name).Nodup := by
  obtain ⟨ht, _, _, mods, hr, hl, hp⟩ := C92_repo
  intro items hi
  obtain ⟨i, hlt, rfl⟩ := List.getElem_of_mem hi
  have hlt' : i < mods.length := by rw [hl]; exact hlt
  have hz : (mods[i], Repo.committed[i]) ∈ mods.zip Repo.committed := by
    have := List.getElem_mem (l := mods.zip Repo.committed) (n := i) (by
      rw [List.length_zip]; exact Nat.lt_min.2 ⟨hlt', hlt⟩)
    simpa using this
  rw [← ((hp _ hz).map Export.name).nodup_iff]
  exact C92_once ht hr (List.getElem?_eq_getElem hlt')

/-! ### Where the conventions are needed -/

namespace Gap

def con (n : Name) : Item := .decl ⟨.constant, true, n, [], [], [], 0⟩
def str (n : Name) : Item := .decl ⟨.container, true, n, [], [], [], 0⟩
def fn (n : Name) (mentions calls : List Name) (text : Nat) : Item :=
  .decl ⟨.fn, true, n, mentions, [], calls, text⟩

/-- A constant redefined by the second fork. -/
def constant : List Source := [[(0, [con 1])], [(0, [con 1])]]

/-- A function of the first fork, a container it mentions redefined by the second fork and not by the
third. -/
def pause : List Source := [[(0, [str 1, fn 2 [1] [] 7])], [(0, [str 1])], [(0, [])]]

/-- A function redefined by the second fork, and a function of the first fork that calls it. -/
def caller : List Source := [[(0, [fn 2 [] [3] 7, fn 3 [] [] 8])], [(0, [fn 3 [] [] 9])]]

def none : Nat → Name → Bool := fun _ _ => false

end Gap

/-- A constant that a fork redefines is exported twice, under the same name, by its module. -/
theorem C92_constant_twice : run Gap.none Gap.constant =
    some [[.use 0 0 1], [.use 1 0 1, .use 0 0 1]] := by decide +kernel

/-- When a container a function mentions is redefined by one fork and not by the next, the module of the
latter imports the function from a file that does not have it. -/
theorem C92_dangling_import : Tidy Gap.pause ∧ ∃ mods items, run Gap.none Gap.pause = some mods ∧
    mods[2]? = some items ∧ Export.use 1 0 2 ∈ items ∧ ¬ ∃ d, Declares Gap.pause 1 0 d ∧ d.name = 2 := by
  refine ⟨tidy_of_check (by decide +kernel), [[.use 0 0 1, .use 0 0 2], [.use 1 0 1, .define 2 7],
    [.use 1 0 1, .use 1 0 2]], [.use 1 0 1, .use 1 0 2], by decide +kernel, rfl, by decide, ?_⟩
  rintro ⟨d, hd, hn⟩
  have := mem_everything.2 hd
  have hall : ((everything Gap.pause).all fun a => a.1 != 1 || a.2.2.name != 2) = true := by decide +kernel
  have := List.all_eq_true.1 hall _ this
  simp [hn] at this

/-- A function whose types mention nothing redefined is imported from the earlier fork even if a function
it calls is redefined: there it calls the definition that the module has replaced. -/
theorem C92_stale_call : Tidy Gap.caller ∧ Steady Gap.none Gap.caller ∧
    run Gap.none Gap.caller = some [[.use 0 0 2, .use 0 0 3], [.use 1 0 3, .use 0 0 2]] := by
  exact ⟨tidy_of_check (by decide +kernel), steady_of_check (by decide +kernel), by decide +kernel⟩

end Verif.SpecGen
