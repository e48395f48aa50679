import Verif.Proofs.SpecGenRun

/-
Checking the conventions on given sources.
-/

namespace Verif.SpecGen

/-- All the public items, with their forks and files. -/
def everything (srcs : List Source) : List (Nat × Name × Decl) :=
  srcs.zipIdx.flatMap fun q => (publicItems q.1).map fun p => (q.2, p)

theorem mem_everything {srcs : List Source} {k : Nat} {m : Name} {d : Decl} :
    (k, m, d) ∈ everything srcs ↔ Declares srcs k m d := by
  simp only [everything, List.mem_flatMap, List.mem_map, Prod.mk.injEq, Prod.exists]
  constructor
  · rintro ⟨src, k', hk, m', d', hp, rfl, rfl, rfl⟩
    have := List.mem_zipIdx_iff_getElem?.1 hk
    exact (declares_iff this).2 hp
  · intro h
    obtain ⟨src, items, h1, h2⟩ := h
    exact ⟨src, k, List.mem_zipIdx_iff_getElem?.2 h1, m, d, (declares_iff h1).1 ⟨src, items, h1, h2⟩,
      rfl, rfl, rfl⟩

/-- The containers each fork has. -/
def containersOf (srcs : List Source) (j : Nat) : List Name :=
  ((srcs[j]?.map publicItems).getD []).filterMap fun p =>
    if p.2.kind == .container then some p.2.name else none

def retypedB (srcs : List Source) (j : Nat) (d : Decl) : Bool :=
  d.kind == .fn && d.mentions.any fun n => (containersOf srcs j).contains n

theorem retypedB_iff {srcs : List Source} {j : Nat} {d : Decl} :
    retypedB srcs j d = true ↔ Retyped srcs j d := by
  simp only [retypedB, Bool.and_eq_true, beq_iff_eq, List.any_eq_true, List.contains_iff_mem, containersOf,
    List.mem_filterMap, Prod.exists, Retyped]
  refine and_congr_right fun _ => ?_
  cases h : srcs[j]? with
  | none =>
    constructor
    · rintro ⟨n, _, m, c, hc, _⟩; simp at hc
    · rintro ⟨m, c, ⟨src, _, h', _⟩, _⟩; rw [h] at h'; cases h'
  | some src =>
    constructor
    · rintro ⟨n, hn, m, c, hc, hif⟩
      split_ifs at hif with hk
      · cases hif
        exact ⟨m, c, (declares_iff h).2 (by simpa using hc), by simpa using hk, hn⟩
    · rintro ⟨m, c, hc, hk, hn⟩
      exact ⟨c.name, hn, m, c, by simpa using (declares_iff h).1 hc, by simp [hk]⟩

def declaresNameB (srcs : List Source) (j : Nat) (n : Name) : Bool :=
  ((srcs[j]?.map publicItems).getD []).any fun p => p.2.name == n

theorem declaresNameB_iff {srcs : List Source} {j : Nat} {n : Name} :
    declaresNameB srcs j n = true ↔ DeclaresName srcs j n := by
  simp only [declaresNameB, List.any_eq_true, beq_iff_eq, Prod.exists, DeclaresName]
  cases h : srcs[j]? with
  | none =>
    constructor
    · rintro ⟨m, c, hc, _⟩; simp at hc
    · rintro ⟨m, c, ⟨src, _, h', _⟩, _⟩; rw [h] at h'; cases h'
  | some src =>
    constructor
    · rintro ⟨m, c, hc, hn⟩
      exact ⟨m, c, (declares_iff h).2 (by simpa using hc), hn⟩
    · rintro ⟨m, c, hc, hn⟩
      exact ⟨m, c, by simpa using (declares_iff h).1 hc, hn⟩

/-- Whether the definition `d` of fork `k` is still in force at fork `i`. -/
def inForceB (dropped : Nat → Name → Bool) (srcs : List Source) (i k : Nat) (d : Decl) : Bool :=
  decide (k ≤ i) && (List.range (i + 1)).all fun j =>
    !decide (k < j) || (!declaresNameB srcs j d.name && (d.kind != .fn || !dropped j d.name))

theorem inForceB_of {dropped : Nat → Name → Bool} {srcs : List Source} {i k : Nat} {m : Name} {d : Decl}
    (h : InForce dropped srcs i k m d) : inForceB dropped srcs i k d = true := by
  simp only [inForceB, Bool.and_eq_true, decide_eq_true_eq, List.all_eq_true, List.mem_range,
    Bool.or_eq_true, Bool.not_eq_true', decide_eq_false_iff_not, bne_iff_ne]
  refine ⟨h.le, fun j hj => ?_⟩
  by_cases hkj : k < j
  · refine Or.inr ⟨?_, ?_⟩
    · have := h.last j hkj (by omega)
      rw [← declaresNameB_iff] at this
      simpa using this
    · by_cases hk : d.kind = .fn
      · exact Or.inr (h.kept hk j hkj (by omega))
      · exact Or.inl hk
  · exact Or.inl hkj

def tidyB (srcs : List Source) : Bool :=
  let all := everything srcs
  (srcs.all fun src => src.all fun file => !file.2.contains .unsupported) &&
  (srcs.all fun src => decide ((publicItems src).map fun p => p.2.name).Nodup) &&
  (all.all fun a => all.all fun b => a.2.2.name != b.2.2.name ||
    (a.2.2.kind == b.2.2.kind && (a.2.2.kind != .constant || a.1 == b.1))) &&
  (all.all fun a => a.2.2.bounds.all fun n => all.all fun b => b.2.2.name != n || b.2.2.kind == .traitDef)

theorem tidy_of_check {srcs : List Source} (h : tidyB srcs = true) : Tidy srcs := by
  simp only [tidyB, Bool.and_eq_true] at h
  obtain ⟨⟨⟨h1, h2⟩, h3⟩, h4⟩ := h
  have hpair : ∀ j k m m' d d', Declares srcs j m d → Declares srcs k m' d' → d.name = d'.name →
      d.kind = d'.kind ∧ (d.kind ≠ .constant ∨ j = k) := by
    intro j k m m' d d' hd hd' hn
    have := List.all_eq_true.1 (List.all_eq_true.1 h3 _ (mem_everything.2 hd)) _ (mem_everything.2 hd')
    simpa [hn] using this
  refine ⟨?_, ?_, fun j k m m' d d' a b c => (hpair j k m m' d d' a b c).1, ?_, ?_⟩
  · intro src hs file hf hun
    have := List.all_eq_true.1 (List.all_eq_true.1 h1 src hs) file hf
    simp [hun] at this
  · intro src hs
    simpa using List.all_eq_true.1 h2 src hs
  · intro j k m m' d d' a b c hc
    exact (hpair j k m m' d d' a b c).2.resolve_left (fun h => h hc)
  · intro j k m m' d d' a b c
    have := List.all_eq_true.1 (List.all_eq_true.1 (List.all_eq_true.1 h4 _ (mem_everything.2 a)) _ c) _
      (mem_everything.2 b)
    simpa using this

def steadyB (dropped : Nat → Name → Bool) (srcs : List Source) : Bool :=
  (everything srcs).all fun a => (List.range srcs.length).all fun i => (List.range i).all fun j =>
    !decide (a.1 < j) || !retypedB srcs j a.2.2 || !inForceB dropped srcs i a.1 a.2.2 ||
      retypedB srcs i a.2.2

theorem steady_of_check {dropped : Nat → Name → Bool} {srcs : List Source}
    (h : steadyB dropped srcs = true) : Steady dropped srcs := by
  intro i k m d j hi hf hkj hji hr
  have := List.all_eq_true.1 (List.all_eq_true.1 (List.all_eq_true.1 h _ (mem_everything.2 hf.declares)) i
    (List.mem_range.2 hi)) j (List.mem_range.2 hji)
  simp only [hkj, retypedB_iff.2 hr, inForceB_of hf, decide_true, Bool.not_true, Bool.false_or] at this
  exact retypedB_iff.1 this

def threadedB (dropped : Nat → Name → Bool) (srcs : List Source) : Bool :=
  (everything srcs).all fun a => a.2.2.kind != .fn || a.2.2.calls.all fun n =>
    (everything srcs).all fun b => b.2.2.name != n || b.2.2.kind != .fn ||
      (List.range srcs.length).all fun j =>
        !decide (a.1 < j) || retypedB srcs j a.2.2 || !(b.1 == j || retypedB srcs j b.2.2) ||
          !inForceB dropped srcs j a.1 a.2.2 || !inForceB dropped srcs j b.1 b.2.2

theorem threaded_of_check {dropped : Nat → Name → Bool} {srcs : List Source}
    (h : threadedB dropped srcs = true) : Threaded dropped srcs := by
  intro j k m d k' m' g hf hk hg hgk hc hkj hor
  have hj : j < srcs.length := by
    have hlt : ∀ {k m d}, Declares srcs k m d → k < srcs.length := by
      rintro k m d ⟨src, _, hs, _⟩
      exact (List.getElem?_eq_some_iff.1 hs).1
    rcases hor with rfl | ⟨_, _, _, hd, _⟩
    · exact hlt hg.declares
    · exact hlt hd
  have h1 := List.all_eq_true.1 h _ (mem_everything.2 hf.declares)
  simp only [hk, bne_self_eq_false, Bool.false_or] at h1
  have h2 := List.all_eq_true.1 (List.all_eq_true.1 h1 _ hc) _ (mem_everything.2 hg.declares)
  simp only [hgk, bne_self_eq_false, Bool.false_or] at h2
  have h3 := List.all_eq_true.1 h2 j (List.mem_range.2 hj)
  have hor' : (k' == j || retypedB srcs j g) = true := by
    rcases hor with h | h
    · simp [h]
    · simp [retypedB_iff.2 h]
  simp only [hkj, hor', inForceB_of hf, inForceB_of hg, decide_true, Bool.not_true, Bool.false_or,
    Bool.or_false] at h3
  exact retypedB_iff.1 h3

end Verif.SpecGen
