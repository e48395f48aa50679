import Mathlib.GroupTheory.OrderOfElement
import Mathlib.Algebra.BigOperators.Group.List.Basic
import Mathlib.Algebra.Group.Subgroup.Lattice
import Verif.Spec.Bls

/-! # The algebra of signatures -/

namespace Verif.Bls

open Spec

variable {C : Curve} (h : SoundCurve C)

include h

theorem pairing_zero_left {q : C.P2} (hq : q ∈ C.S2) : C.pairing 0 q = 1 := by
  have := h.add_left 0 C.S1.zero_mem 0 C.S1.zero_mem q hq
  rw [add_zero] at this
  exact mul_eq_left.1 this.symm

theorem pairing_zero_right {p : C.P1} (hp : p ∈ C.S1) : C.pairing p 0 = 1 := by
  have := h.add_right p hp 0 C.S2.zero_mem 0 C.S2.zero_mem
  rw [add_zero] at this
  exact mul_eq_left.1 this.symm

theorem pairing_nsmul_left {p : C.P1} (hp : p ∈ C.S1) {q : C.P2} (hq : q ∈ C.S2) (k : Nat) :
    C.pairing (k • p) q = C.pairing p q ^ k := by
  induction k with
  | zero => rw [zero_nsmul, pow_zero, pairing_zero_left h hq]
  | succ k ih => rw [succ_nsmul, pow_succ, h.add_left _ (C.S1.nsmul_mem hp k) _ hp _ hq, ih]

theorem pairing_nsmul_right {p : C.P1} (hp : p ∈ C.S1) {q : C.P2} (hq : q ∈ C.S2) (k : Nat) :
    C.pairing p (k • q) = C.pairing p q ^ k := by
  induction k with
  | zero => rw [zero_nsmul, pow_zero, pairing_zero_right h hp]
  | succ k ih => rw [succ_nsmul, pow_succ, h.add_right _ hp _ (C.S2.nsmul_mem hq k) _ hq, ih]

/-- A point of the second subgroup is determined by its pairing with the generator. -/
theorem pairing_inj {q q' : C.P2} (hq : q ∈ C.S2) (hq' : q' ∈ C.S2)
    (e : C.pairing C.generator q = C.pairing C.generator q') : q = q' := by
  have h1 := h.add_right _ h.generator_mem (q - q') (C.S2.sub_mem hq hq') q' hq'
  rw [sub_add_cancel, e] at h1
  exact sub_eq_zero.1 (h.nondegenerate _ (C.S2.sub_mem hq hq') (mul_eq_right.1 h1.symm))

theorem compress2_inj {q q' : C.P2} (e : C.compress2 q = C.compress2 q') : q = q' := by
  have := (h.uncompress2 (C.compress2 q) q).2 rfl
  rw [e, (h.uncompress2 _ q').2 rfl] at this
  exact (Option.some.inj this).symm

theorem sig_compress (q : C.P2) : sig_from_bytes C (C.compress2 q) = .ok q := by
  unfold sig_from_bytes
  rw [(h.uncompress2 _ q).2 rfl]

theorem sig_ok {s : Bytes} {q : C.P2} : sig_from_bytes C s = .ok q ↔ s = C.compress2 q := by
  unfold sig_from_bytes
  cases e : C.uncompress2 s with
  | none =>
    constructor
    · intro h'; cases h'
    · rintro rfl; rw [(h.uncompress2 _ q).2 rfl] at e; cases e
  | some p =>
    constructor
    · intro h'; cases h'; exact ((h.uncompress2 _ _).1 e).symm
    · rintro rfl; rw [(h.uncompress2 _ q).2 rfl] at e; cases e; rfl

omit h in
theorem validate_ok {p : C.P1} : validate C p = .ok () ↔ p ≠ 0 ∧ p ∈ C.S1 := by
  unfold validate
  split <;> [skip; split] <;> simp_all

omit h in
theorem key_validate_ok {pk : Bytes} {p : C.P1} :
    key_validate C pk = .ok p ↔ C.uncompress1 pk = some p ∧ p ≠ 0 ∧ p ∈ C.S1 := by
  unfold key_validate
  cases C.uncompress1 pk with
  | none => simp [throw, throwThe, MonadExceptOf.throw]
  | some q =>
    cases hv : validate C q with
    | error e =>
      simp only [bind, Except.bind, hv, reduceCtorEq, false_iff]
      rintro ⟨e', h'⟩
      cases e'
      rw [validate_ok.2 h'] at hv
      cases hv
    | ok u =>
      have := validate_ok.1 hv
      simp only [bind, Except.bind, hv, pure, Except.pure]
      constructor
      · intro e; cases e; exact ⟨rfl, this⟩
      · rintro ⟨e, -⟩; cases e; rfl

omit h in
theorem invalid_ok {x : Except Err Unit} : invalid x = .ok () ↔ x = .ok () := by
  cases x <;> simp [invalid]

omit h in
theorem blst_verify_ok {sig : C.P2} {m : Bytes} {pk : C.P1} : blst_verify C sig m pk = .ok () ↔
    sig ∈ C.S2 ∧ (pk ≠ 0 ∧ pk ∈ C.S1) ∧
      C.pairing pk (C.hash_to m) = C.pairing C.generator sig := by
  unfold blst_verify
  by_cases hs : sig ∈ C.S2
  · cases hv : validate C pk with
    | error e =>
      simp only [hs, not_true_eq_false, ↓reduceIte, bind, Except.bind, reduceCtorEq, true_and,
        false_iff]
      rintro ⟨h', -⟩
      rw [validate_ok.2 h'] at hv
      cases hv
    | ok u =>
      have := validate_ok.1 hv
      simp only [hs, not_true_eq_false, ↓reduceIte, bind, Except.bind, pure, Except.pure,
        true_and, this, ne_eq, not_false_eq_true, and_self]
      split <;> simp_all [throw, throwThe, MonadExceptOf.throw]
  · simp [hs, bind, Except.bind, throw, throwThe, MonadExceptOf.throw]

omit h in
theorem bind_ok {ε α β : Type} {x : Except ε α} {f : α → Except ε β} {b : β} :
    (x >>= f) = .ok b ↔ ∃ a, x = .ok a ∧ f a = .ok b := by
  cases x <;> simp [bind, Except.bind]

omit h in
theorem mapM_ok {ε α β : Type} {f : α → Except ε β} {l : List α} {r : List β} :
    l.mapM f = .ok r ↔ List.Forall₂ (fun a b => f a = .ok b) l r := by
  induction l generalizing r with
  | nil =>
    simp only [List.mapM_nil, pure, Except.pure, Except.ok.injEq, List.forall₂_nil_left_iff]
    exact eq_comm
  | cons a l ih =>
    rw [List.mapM_cons, bind_ok]
    constructor
    · rintro ⟨b, hb, h'⟩
      obtain ⟨bs, hbs, e⟩ := bind_ok.1 h'
      cases e
      exact .cons hb (ih.1 hbs)
    · rintro (_ | ⟨hb, hbs⟩)
      exact ⟨_, hb, bind_ok.2 ⟨_, ih.2 hbs, rfl⟩⟩

/-- Exactly when a signature is accepted -/
theorem verify_ok {pk m s : Bytes} : verify_signature C pk m s = .ok () ↔ ∃ p q,
    C.uncompress1 pk = some p ∧ p ≠ 0 ∧ p ∈ C.S1 ∧ s = C.compress2 q ∧ q ∈ C.S2 ∧
      C.pairing p (C.hash_to m) = C.pairing C.generator q := by
  unfold verify_signature
  simp only [bind_ok, key_validate_ok, sig_ok h, invalid_ok, blst_verify_ok]
  constructor
  · rintro ⟨p, ⟨h1, h2, h3⟩, q, h4, h5, -, h6⟩
    exact ⟨p, q, h1, h2, h3, h4, h5, h6⟩
  · rintro ⟨p, q, h1, h2, h3, h4, h5, h6⟩
    exact ⟨p, ⟨h1, h2, h3⟩, q, h4, h5, ⟨h2, h3⟩, h6⟩

theorem key_point (sk : SecretKey C) : C.uncompress1 (public_key C sk) =
    some (sk.val • C.generator) ∧ sk.val • C.generator ≠ 0 ∧ sk.val • C.generator ∈ C.S1 := by
  refine ⟨h.uncompress1 _, fun e => ?_, C.S1.nsmul_mem h.generator_mem _⟩
  have := Nat.le_of_dvd sk.2.1 ((h.generator_order _).1 e)
  have := sk.2.2
  omega

theorem aggregate_ok {ss : List Bytes} {s : Bytes} : aggregate C ss = .ok s ↔ ss ≠ [] ∧
    ∃ qs : List C.P2, ss = qs.map C.compress2 ∧ (∀ q ∈ qs, q ∈ C.S2) ∧ s = C.compress2 qs.sum := by
  unfold aggregate
  by_cases hs : ss = []
  · simp [hs, bind, Except.bind, throw, throwThe, MonadExceptOf.throw]
  · have e1 : ss.isEmpty = false := by simpa using hs
    have e2 : ∀ qs : List C.P2, ss.mapM (sig_from_bytes C) = .ok qs ↔ ss = qs.map C.compress2 := by
      intro qs
      rw [mapM_ok, ← List.forall₂_eq_eq_eq, List.forall₂_map_right_iff]
      simp only [sig_ok h]
    simp only [e1, Bool.false_eq_true, ↓reduceIte, bind_ok, e2, ne_eq, hs, not_false_eq_true,
      true_and, pure, Except.pure, Except.ok.injEq]
    constructor
    · rintro ⟨qs, hqs, t, ht, rfl⟩
      refine ⟨qs, hqs, ?_⟩
      unfold blst_aggregate at ht
      have : qs.isEmpty = false := by cases qs <;> simp_all
      simp only [this, Bool.false_eq_true, ↓reduceIte] at ht
      split at ht
      · rename_i ha
        cases ht
        exact ⟨by simpa using ha, rfl⟩
      · cases ht
    · rintro ⟨qs, hqs, hm, rfl⟩
      refine ⟨qs, hqs, qs.sum, ?_, rfl⟩
      unfold blst_aggregate
      have : qs.isEmpty = false := by cases qs <;> simp_all
      simp only [this, Bool.false_eq_true, ↓reduceIte]
      rw [if_pos (by simpa using hm)]

omit h in
theorem sum_mem1 {ps : List C.P1} (hp : ∀ p ∈ ps, p ∈ C.S1) : ps.sum ∈ C.S1 :=
  C.S1.list_sum_mem hp

/-- Exactly when an aggregate over one message is accepted -/
theorem fast_ok {pks : List Bytes} {m s : Bytes} : fast_aggregate_verify C pks m s = .ok () ↔
    pks ≠ [] ∧ ∃ (ps : List C.P1) (q : C.P2),
      List.Forall₂ (fun pk p => C.uncompress1 pk = some p ∧ p ≠ 0 ∧ p ∈ C.S1) pks ps ∧
      ps.sum ≠ 0 ∧ s = C.compress2 q ∧ q ∈ C.S2 ∧
      C.pairing ps.sum (C.hash_to m) = C.pairing C.generator q := by
  unfold fast_aggregate_verify
  simp only [bind_ok, mapM_ok, key_validate_ok, sig_ok h, invalid_ok]
  have key : ∀ (ps : List C.P1) (q : C.P2), blst_fast_aggregate_verify C q m ps = .ok () ↔
      ps ≠ [] ∧ ps.sum ≠ 0 ∧ q ∈ C.S2 ∧
        C.pairing ps.sum (C.hash_to m) = C.pairing C.generator q := by
    intro ps q
    unfold blst_fast_aggregate_verify blst_aggregate_keys
    by_cases hp : ps = []
    · simp [hp, bind, Except.bind, throw, throwThe, MonadExceptOf.throw]
    · have e1 : ps.isEmpty = false := by simpa using hp
      simp only [e1, bind, Except.bind, pure, Except.pure, blst_aggregate_verify, pairings,
        Bool.false_eq_true, ↓reduceIte, throw, throwThe, MonadExceptOf.throw]
      by_cases hq : q ∈ C.S2 <;> by_cases h0 : ps.sum = 0 <;>
        by_cases he : C.pairing ps.sum (C.hash_to m) = C.pairing C.generator q <;>
        simp [hp, hq, h0, he]
  simp only [key]
  constructor
  · rintro ⟨ps, hps, q, rfl, h1, h2, h3, h4⟩
    refine ⟨?_, ps, q, hps, h2, rfl, h3, h4⟩
    rintro rfl
    cases hps
    exact h1 rfl
  · rintro ⟨h1, ps, q, hps, h2, rfl, h3, h4⟩
    refine ⟨ps, hps, q, rfl, ?_, h2, h3, h4⟩
    rintro rfl
    cases hps
    exact h1 rfl

omit h in
theorem pairings_ok (check : Bool) : ∀ (ps : List C.P1) (ms : List Bytes),
    (∀ p ∈ ps, p ≠ 0 ∧ p ∈ C.S1) →
    pairings C check ps ms = .ok (List.zipWith (fun p m => C.pairing p (C.hash_to m)) ps ms).prod
  | [], _, _ => by simp [pairings, pure, Except.pure]
  | _ :: _, [], _ => by simp [pairings, pure, Except.pure]
  | p :: ps, m :: ms, hp => by
    obtain ⟨h0, h1⟩ := hp p List.mem_cons_self
    unfold pairings
    rw [pairings_ok check ps ms fun x hx => hp x (List.mem_cons_of_mem _ hx)]
    cases check <;>
      simp [h0, bind, Except.bind, pure, Except.pure, validate_ok.2 ⟨h0, h1⟩, List.zipWith_cons_cons]

/-- Exactly when an aggregate over several messages is accepted -/
theorem aggregate_verify_ok {pks msgs : List Bytes} {s : Bytes} :
    aggregate_verify C pks msgs s = .ok () ↔ pks ≠ [] ∧ msgs.length = pks.length ∧
      ∃ (ps : List C.P1) (q : C.P2),
        List.Forall₂ (fun pk p => C.uncompress1 pk = some p ∧ p ≠ 0 ∧ p ∈ C.S1) pks ps ∧
        s = C.compress2 q ∧ q ∈ C.S2 ∧
        (List.zipWith (fun p m => C.pairing p (C.hash_to m)) ps msgs).prod =
          C.pairing C.generator q := by
  unfold aggregate_verify
  simp only [bind_ok, mapM_ok, key_validate_ok, sig_ok h, invalid_ok]
  have key : ∀ (ps : List C.P1) (q : C.P2), (∀ p ∈ ps, p ≠ 0 ∧ p ∈ C.S1) →
      (blst_aggregate_verify C q msgs ps true = .ok () ↔
      ps ≠ [] ∧ msgs.length = ps.length ∧ q ∈ C.S2 ∧
        (List.zipWith (fun p m => C.pairing p (C.hash_to m)) ps msgs).prod =
          C.pairing C.generator q) := by
    intro ps q hp
    unfold blst_aggregate_verify
    rw [pairings_ok true ps msgs hp]
    simp only [bind, Except.bind, pure, Except.pure, throw, throwThe, MonadExceptOf.throw,
      List.isEmpty_iff]
    by_cases h0 : ps = [] <;> by_cases hl : msgs.length = ps.length <;> by_cases hq : q ∈ C.S2 <;>
      simp [h0, hl, hq]
  have mem : ∀ {ps : List C.P1},
      List.Forall₂ (fun pk p => C.uncompress1 pk = some p ∧ p ≠ 0 ∧ p ∈ C.S1) pks ps →
      ∀ p ∈ ps, p ≠ 0 ∧ p ∈ C.S1 := by
    intro ps hf
    induction hf with
    | nil => simp
    | cons hx _ ih =>
      intro p hp
      rcases List.mem_cons.1 hp with rfl | hp
      · exact hx.2
      · exact ih p hp
  constructor
  · rintro ⟨ps, hps, q, rfl, hv⟩
    obtain ⟨h1, h2, h3, h4⟩ := (key ps q (mem hps)).1 hv
    refine ⟨?_, by rw [h2, hps.length_eq], ps, q, hps, rfl, h3, h4⟩
    rintro rfl
    cases hps
    exact h1 rfl
  · rintro ⟨h1, h2, ps, q, hps, rfl, h3, h4⟩
    refine ⟨ps, hps, q, rfl, (key ps q (mem hps)).2 ⟨?_, by rw [h2, hps.length_eq], h3, h4⟩⟩
    rintro rfl
    cases hps
    exact h1 rfl

/-! ## Keys and their signatures -/

/-- The points of the keys of a list of secret keys are the only ones they stand for. -/
theorem keys_points {sks : List (SecretKey C)} {ps : List C.P1} :
    List.Forall₂ (fun pk p => C.uncompress1 pk = some p ∧ p ≠ 0 ∧ p ∈ C.S1)
      (sks.map (public_key C)) ps ↔ ps = sks.map fun sk => sk.val • C.generator := by
  induction sks generalizing ps with
  | nil => simp
  | cons sk sks ih =>
    rw [List.map_cons, List.map_cons]
    constructor
    · rintro (_ | ⟨⟨hx, -⟩, hxs⟩)
      rw [(key_point h sk).1] at hx
      cases hx
      rw [ih.1 hxs]
    · rintro rfl
      exact .cons (key_point h sk) (ih.2 rfl)

omit h in
theorem sum_points (sks : List (SecretKey C)) : (sks.map fun sk => sk.val • C.generator).sum =
    (sks.map (·.val)).sum • C.generator := by
  induction sks with
  | nil => simp
  | cons sk sks ih => simp [ih, add_nsmul]

omit h in
theorem sum_sigs (sks : List (SecretKey C)) (m : Bytes) :
    (sks.map fun sk => sk.val • C.hash_to m).sum = (sks.map (·.val)).sum • C.hash_to m := by
  induction sks with
  | nil => simp
  | cons sk sks ih => simp [ih, add_nsmul]

/-- The signatures of several keys, each on its own message, are aggregated to the sum. -/
theorem aggregate_signs (l : List (SecretKey C × Bytes)) (hl : l ≠ []) :
    aggregate C (l.map fun x => sign C x.1 x.2) =
      .ok (C.compress2 (l.map fun x => x.1.val • C.hash_to x.2).sum) := by
  rw [aggregate_ok h]
  refine ⟨by simpa using hl, l.map fun x => x.1.val • C.hash_to x.2, by simp [sign], ?_, rfl⟩
  intro q hq
  obtain ⟨x, -, rfl⟩ := List.mem_map.1 hq
  exact C.S2.nsmul_mem (h.hash_mem _) _

theorem prod_pairings (l : List (SecretKey C × Bytes)) :
    (List.zipWith (fun p m => C.pairing p (C.hash_to m))
      (l.map fun x => x.1.val • C.generator) (l.map (·.2))).prod =
      C.pairing C.generator (l.map fun x => x.1.val • C.hash_to x.2).sum := by
  induction l with
  | nil => simp [pairing_zero_right h h.generator_mem]
  | cons x l ih =>
    simp only [List.map_cons, List.zipWith_cons_cons, List.prod_cons, List.sum_cons, ih]
    rw [h.add_right _ h.generator_mem _ (C.S2.nsmul_mem (h.hash_mem _) _) _
      (C.S2.list_sum_mem fun q hq => by
        obtain ⟨y, -, rfl⟩ := List.mem_map.1 hq
        exact C.S2.nsmul_mem (h.hash_mem _) _),
      pairing_nsmul_left h h.generator_mem (h.hash_mem _),
      pairing_nsmul_right h h.generator_mem (h.hash_mem _)]

/-- A multiple by a key is zero only of zero. -/
theorem key_cancel (sk : SecretKey C) {q : C.P2} (hq : q ∈ C.S2) (e : sk.val • q = 0) : q = 0 := by
  have h1 := addOrderOf_dvd_of_nsmul_eq_zero e
  have h2 := addOrderOf_dvd_of_nsmul_eq_zero (h.torsion q hq)
  have hc : Nat.Coprime sk.val C.r := by
    rw [Nat.coprime_comm, Nat.Prime.coprime_iff_not_dvd h.prime]
    intro hd
    have := Nat.le_of_dvd sk.2.1 hd
    have := sk.2.2
    omega
  exact AddMonoid.addOrderOf_eq_one_iff.1 (Nat.eq_one_of_dvd_coprimes hc h1 h2)

end Verif.Bls
