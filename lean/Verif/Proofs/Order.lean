import Verif.Proofs.OrderEq
import Verif.Proofs.Casper
import Verif.Proofs.Rewards

/-! # Transitions do not depend on the order of the hash sets -/

namespace Verif
open Spec

/-! ## Readers with related results -/

/-- When `x` succeeds so does `y`, with a related result. -/
def Rel {α β : Type} (r : α → β → Prop) (x : R α) (y : R β) : Prop :=
  ∀ a, x = .ok a → ∃ b, y = .ok b ∧ r a b

theorem Rel.of_eq {α : Type} {x y : R α} (h : x = y) : Rel Eq x y :=
  fun a ha => ⟨a, h ▸ ha, rfl⟩

theorem Rel.refl {α : Type} {x : R α} : Rel Eq x x := Rel.of_eq rfl

theorem Rel.pure {α β : Type} {r : α → β → Prop} {a : α} {b : β} (h : r a b) :
    Rel r (Pure.pure a : R α) (Pure.pure b) := by
  rintro _ ⟨⟩
  exact ⟨b, rfl, h⟩

theorem Rel.bind {α β γ δ : Type} {r : α → β → Prop} {q : γ → δ → Prop} {x : R α} {y : R β}
    {f : α → R γ} {g : β → R δ} (h : Rel r x y) (hf : ∀ a b, r a b → Rel q (f a) (g b)) :
    Rel q (x >>= f) (y >>= g) := by
  intro c hc
  obtain ⟨a, ha, hc⟩ := R_bind_eq_ok.1 hc
  obtain ⟨b, hb, hr⟩ := h a ha
  obtain ⟨d, hd, hq⟩ := hf a b hr c hc
  exact ⟨d, R_bind_eq_ok.2 ⟨b, hb, hd⟩, hq⟩

theorem Rel.bind_eq {α γ δ : Type} {q : γ → δ → Prop} {x y : R α}
    {f : α → R γ} {g : α → R δ} (h : Rel Eq x y) (hf : ∀ a, Rel q (f a) (g a)) :
    Rel q (x >>= f) (y >>= g) :=
  h.bind fun a b hab => by subst hab; exact hf a

theorem Rel.apply {α : Type} {x y : R α} (h : Rel Eq x y) {a : α} (ha : x = .ok a) : y = .ok a := by
  obtain ⟨b, hb, rfl⟩ := h a ha
  exact hb

/-- A fold whose steps commute does not depend on the order of the list. -/
theorem foldlM_perm {α β : Type} {f : β → α → R β}
    (comm : ∀ b i j c d, f b i = .ok c → f c j = .ok d → ∃ c', f b j = .ok c' ∧ f c' i = .ok d)
    {l m : List α} (h : l.Perm m) {b c : β} (hl : l.foldlM f b = .ok c) :
    m.foldlM f b = .ok c := by
  induction h generalizing b c with
  | nil => exact hl
  | cons x _ ih =>
    rw [List.foldlM_cons, R_bind_eq_ok] at hl ⊢
    obtain ⟨d, hd, hl⟩ := hl
    exact ⟨d, hd, ih hl⟩
  | swap x y l =>
    simp only [List.foldlM_cons, R_bind_eq_ok] at hl ⊢
    obtain ⟨d, hd, e, he, hl⟩ := hl
    obtain ⟨d', hd', he'⟩ := comm _ _ _ _ _ hd he
    exact ⟨d', hd', e, he', hl⟩
  | trans _ _ ih₁ ih₂ => exact ih₂ (ih₁ hl)

theorem addAt_iff {xs ys : List Nat} {i d : Nat} :
    addAt xs i d = .ok ys ↔ ∃ x, xs[i]? = some x ∧ x + d < U64_BOUND ∧ ys = xs.set i (x + d) := by
  simp only [addAt, run]
  constructor
  · rintro ⟨x, hx, _, ⟨rfl, h⟩, rfl⟩; exact ⟨x, hx, h, rfl⟩
  · rintro ⟨x, hx, h, rfl⟩; exact ⟨x, hx, _, ⟨rfl, h⟩, rfl⟩

theorem addAt_comm {xs ys zs : List Nat} {i j d e : Nat} (h1 : addAt xs i d = .ok ys)
    (h2 : addAt ys j e = .ok zs) : ∃ ws, addAt xs j e = .ok ws ∧ addAt ws i d = .ok zs := by
  simp only [addAt_iff] at *
  obtain ⟨x, hx, hd, rfl⟩ := h1
  obtain ⟨y, hy, he, rfl⟩ := h2
  have hi := (List.getElem?_eq_some_iff.1 hx).1
  by_cases hij : i = j
  · subst hij
    rw [List.getElem?_set_self hi] at hy
    cases hy
    refine ⟨_, ⟨x, hx, by omega, rfl⟩, x + e, ?_, by omega, ?_⟩
    · rw [List.getElem?_set_self hi]
    · rw [List.set_set, List.set_set]; congr 1; omega
  · rw [List.getElem?_set_ne hij] at hy
    refine ⟨_, ⟨y, hy, he, rfl⟩, x, ?_, hd, ?_⟩
    · rw [List.getElem?_set_ne (Ne.symm hij)]; exact hx
    · exact List.set_comm _ _ hij

variable {E : Env} {v : Order} {s : State}

/-! ## Sets of validators -/

theorem total_balance_perm {l m : List Nat} (h : l.Perm m) :
    Rel Eq (get_total_balance E s l) (get_total_balance (reorder E v) s m) := by
  intro t ht
  refine ⟨t, ?_, rfl⟩
  rw [get_total_balance_eq_ok] at ht ⊢
  have hs : totalEffective s m = totalEffective s l := (h.symm.map _).sum_nat
  rw [hs]
  exact ⟨fun i hi => ht.1 i (h.mem_iff.2 hi), ht.2⟩

theorem contains_perm {l m : List Nat} (h : l.Perm m) (i : Nat) : l.contains i = m.contains i := by
  rw [Bool.eq_iff_iff]
  simp [h.mem_iff]

theorem participating_perm {j epoch : Nat} :
    Rel List.Perm (get_unslashed_participating_indices E s j epoch)
      (get_unslashed_participating_indices (reorder E v) s j epoch) := by
  unfold get_unslashed_participating_indices
  simp only [ord]
  refine Rel.refl.bind_eq fun _ => Rel.refl.bind_eq fun _ => Rel.refl.bind_eq fun _ =>
    Rel.refl.bind_eq fun l => Rel.pure ?_
  exact (iterate_perm _ _ _).trans (iterate_perm _ _ _).symm

theorem attesting_perm {d : AttestationData} {bits : List Bool} :
    Rel List.Perm (get_attesting_indices E s d bits)
      (get_attesting_indices (reorder E v) s d bits) := by
  unfold get_attesting_indices
  simp only [ord]
  refine Rel.refl.bind_eq fun _ => Rel.refl.bind_eq fun _ => Rel.pure ?_
  exact (iterate_perm _ _ _).trans (iterate_perm _ _ _).symm

theorem electra_attesting_perm {a : Attestation} :
    Rel List.Perm (Electra.get_attesting_indices E s a)
      (Electra.get_attesting_indices (reorder E v) s a) := by
  unfold Electra.get_attesting_indices
  simp only [ord]
  refine Rel.refl.bind_eq fun _ => Rel.pure ?_
  exact (iterate_perm _ _ _).trans (iterate_perm _ _ _).symm

theorem insertUnslashed_total {out l : List Nat} (hl : ∀ i ∈ l, i < s.validators.length) :
    ∃ r, Phase0.insertUnslashed s out l = .ok r := by
  induction l generalizing out with
  | nil => exact ⟨out, rfl⟩
  | cons i l ih =>
    have hi := hl i (by simp)
    simp only [Phase0.insertUnslashed, run]
    obtain ⟨r, hr⟩ := ih (out := if s.validators[i].slashed then out else setInsert out i)
      fun j hj => hl j (by simp [hj])
    exact ⟨r, s.validators[i], List.getElem?_eq_getElem _, hr⟩

theorem insertUnslashed_in {out l r : List Nat} (h : Phase0.insertUnslashed s out l = .ok r) :
    ∀ i ∈ l, i < s.validators.length := by
  induction l generalizing out with
  | nil => simp
  | cons i l ih =>
    simp only [Phase0.insertUnslashed, run] at h
    obtain ⟨w, hw, h⟩ := h
    intro j hj
    rcases List.mem_cons.1 hj with rfl | hj
    · exact (List.getElem?_eq_some_iff.1 hw).1
    · exact ih h j hj

theorem unslashedFrom_perm {l : List PendingAttestation} {out out' : List Nat} :
    Rel (fun _ _ => True) (Phase0.unslashedFrom E s out l)
      (Phase0.unslashedFrom (reorder E v) s out' l) := by
  induction l generalizing out out' with
  | nil => exact Rel.pure trivial
  | cons a l ih =>
    rw [Phase0.unslashedFrom, Phase0.unslashedFrom]
    refine attesting_perm.bind fun is is' hp => Rel.bind (r := fun _ _ => True) ?_ fun _ _ _ => ih
    intro r hr
    have := insertUnslashed_in hr
    obtain ⟨r', hr'⟩ := insertUnslashed_total (s := s) (out := out') (l := is')
      fun i hi => this i (hp.mem_iff.2 hi)
    exact ⟨r', hr', trivial⟩

theorem unslashed_perm {l : List PendingAttestation} :
    Rel List.Perm (Phase0.get_unslashed_attesting_indices E s l)
      (Phase0.get_unslashed_attesting_indices (reorder E v) s l) := by
  have key : Rel (fun _ _ => True) (Phase0.get_unslashed_attesting_indices E s l)
      (Phase0.get_unslashed_attesting_indices (reorder E v) s l) := by
    unfold Phase0.get_unslashed_attesting_indices
    exact unslashedFrom_perm.bind fun _ _ _ => Rel.pure trivial
  intro r hr
  obtain ⟨r', hr', -⟩ := key r hr
  refine ⟨r', hr', ?_⟩
  obtain ⟨h1, h2⟩ := unslashed_attesting_eq_ok hr
  obtain ⟨h1', h2'⟩ := unslashed_attesting_eq_ok hr'
  rw [List.perm_ext_iff_of_nodup h1 h1']
  intro i
  rw [h2, h2']
  simp only [Attested, ord]

/-! ## Rewards -/

theorem foldlM_congr {α β : Type} {f g : β → α → R β} (h : ∀ b i, f b i = g b i) (l : List α)
    (b : β) : l.foldlM f b = l.foldlM g b := by
  have : f = g := by funext b i; exact h b i
  rw [this]

theorem component_perm {l m : List Nat} (h : l.Perm m) {t b : Nat} :
    Phase0.component_delta E s l t b = Phase0.component_delta E s m t b := by
  funext d i
  simp only [Phase0.component_delta, contains_perm h]

theorem component_deltas_rel {l : List PendingAttestation} :
    Rel Eq (Phase0.get_attestation_component_deltas E s l)
      (Phase0.get_attestation_component_deltas (reorder E v) s l) := by
  unfold Phase0.get_attestation_component_deltas
  simp only [ord]
  refine Rel.refl.bind_eq fun _ => unslashed_perm.bind fun is is' hp => ?_
  rw [← get_total_balance_ord (E := E) (v := v)]
  refine (total_balance_perm hp).bind_eq fun _ => Rel.refl.bind_eq fun _ => ?_
  rw [component_perm hp]
  exact Rel.refl

theorem inclusion_comm {source : List PendingAttestation} (b : List Nat) (i j : Nat)
    (c d : List Nat) (h1 : Phase0.inclusion_delta E s source b i = .ok c)
    (h2 : Phase0.inclusion_delta E s source c j = .ok d) :
    ∃ c', Phase0.inclusion_delta E s source b j = .ok c' ∧
      Phase0.inclusion_delta E s source c' i = .ok d := by
  simp only [Phase0.inclusion_delta, R_bind_eq_ok] at *
  obtain ⟨l1, hl1, a1, ha1, p1, hp1, r1, hr1, b1, hb1, m1, hm1, q1, hq1, h1⟩ := h1
  obtain ⟨l2, hl2, a2, ha2, p2, hp2, r2, hr2, b2, hb2, m2, hm2, q2, hq2, h2⟩ := h2
  obtain ⟨x1, hx1, hy1⟩ := addAt_comm h1 hr2
  obtain ⟨x2, hx2, hy2⟩ := addAt_comm hr1 hx1
  obtain ⟨x3, hx3, hy3⟩ := addAt_comm hy1 h2
  obtain ⟨x4, hx4, hy4⟩ := addAt_comm hy2 hx3
  exact ⟨x4, ⟨l2, hl2, a2, ha2, p2, hp2, x2, hx2, b2, hb2, m2, hm2, q2, hq2, hx4⟩,
    l1, hl1, a1, ha1, p1, hp1, x3, hy4, b1, hb1, m1, hm1, q1, hq1, hy3⟩

theorem inclusion_rel : Rel Eq (Phase0.get_inclusion_delay_deltas E s)
    (Phase0.get_inclusion_delay_deltas (reorder E v) s) := by
  unfold Phase0.get_inclusion_delay_deltas
  simp only [ord]
  refine Rel.refl.bind_eq fun _ => Rel.refl.bind_eq fun _ => unslashed_perm.bind fun is is' hp => ?_
  intro r hr
  exact ⟨r, foldlM_perm inclusion_comm hp hr, rfl⟩

theorem phase0_inactivity_perm {l m : List Nat} (h : l.Perm m) :
    Phase0.inactivity_delta E s l = Phase0.inactivity_delta E s m := by
  funext d i
  simp only [Phase0.inactivity_delta, contains_perm h]

theorem phase0_inactivity_rel : Rel Eq (Phase0.get_inactivity_penalty_deltas E s)
    (Phase0.get_inactivity_penalty_deltas (reorder E v) s) := by
  unfold Phase0.get_inactivity_penalty_deltas
  simp only [ord]
  refine Rel.refl.bind_eq fun _ => Rel.refl.bind_eq fun leak => ?_
  cases leak
  · exact Rel.refl
  · simp only [if_true]
    refine Rel.refl.bind_eq fun _ => unslashed_perm.bind fun is is' hp => Rel.refl.bind_eq fun _ => ?_
    rw [phase0_inactivity_perm hp]
    exact Rel.refl

theorem attestation_deltas_rel : Rel Eq (Phase0.get_attestation_deltas E s)
    (Phase0.get_attestation_deltas (reorder E v) s) := by
  unfold Phase0.get_attestation_deltas
  refine Rel.bind_eq ?_ fun _ => Rel.bind_eq ?_ fun _ => Rel.bind_eq ?_ fun _ =>
    inclusion_rel.bind_eq fun _ => phase0_inactivity_rel.bind_eq fun _ => Rel.refl
  · unfold Phase0.get_source_deltas
    simp only [ord]
    exact Rel.refl.bind_eq fun _ => Rel.refl.bind_eq fun _ => component_deltas_rel
  · unfold Phase0.get_target_deltas
    simp only [ord]
    exact Rel.refl.bind_eq fun _ => Rel.refl.bind_eq fun _ => component_deltas_rel
  · unfold Phase0.get_head_deltas
    simp only [ord]
    exact Rel.refl.bind_eq fun _ => Rel.refl.bind_eq fun _ => component_deltas_rel

theorem flag_perm {l m : List Nat} (h : l.Perm m) {j w a b : Nat} {c : Bool} :
    flag_delta E s j w l a b c = flag_delta E s j w m a b c := by
  funext d i
  simp only [flag_delta, contains_perm h]

theorem flag_deltas_rel {j : Nat} : Rel Eq (get_flag_index_deltas E s j)
    (get_flag_index_deltas (reorder E v) s j) := by
  unfold get_flag_index_deltas
  simp only [ord]
  refine Rel.refl.bind_eq fun _ => participating_perm.bind fun is is' hp => Rel.refl.bind_eq fun _ =>
    ?_
  rw [← get_total_balance_ord (E := E) (v := v)]
  refine (total_balance_perm hp).bind_eq fun _ => ?_
  simp only [flag_perm hp]
  exact Rel.refl

theorem inactivity_perm {l m : List Nat} (h : l.Perm m) {f : Fork} :
    inactivity_delta E f s l = inactivity_delta E f s m := by
  funext d i
  simp only [inactivity_delta, contains_perm h]

theorem inactivity_rel {f : Fork} : Rel Eq (get_inactivity_penalty_deltas E f s)
    (get_inactivity_penalty_deltas (reorder E v) f s) := by
  unfold get_inactivity_penalty_deltas
  simp only [ord]
  refine Rel.refl.bind_eq fun _ => participating_perm.bind fun is is' hp => ?_
  simp only [inactivity_perm hp]
  exact Rel.refl

theorem justification_rel {f : Fork} : Rel Eq (justification_balances E f s)
    (justification_balances (reorder E v) f s) := by
  have hb (l) : Rel Eq (Phase0.get_attesting_balance E s l)
      (Phase0.get_attesting_balance (reorder E v) s l) := by
    unfold Phase0.get_attesting_balance
    exact unslashed_perm.bind fun _ _ hp => total_balance_perm hp
  have other : ∀ f : Fork, f ≠ .Phase0 → Rel Eq (justification_balances E f s)
      (justification_balances (reorder E v) f s) := by
    intro f hf
    cases f <;> first | exact absurd rfl hf | (
      simp only [justification_balances, ord]
      refine Rel.refl.bind_eq fun _ => Rel.refl.bind_eq fun _ =>
        participating_perm.bind fun is is' hp => participating_perm.bind fun js js' hq =>
        Rel.refl.bind_eq fun _ => ?_
      rw [← get_total_balance_ord (E := E) (v := v)]
      exact (total_balance_perm hp).bind_eq fun _ => (total_balance_perm hq).bind_eq fun _ =>
        Rel.refl)
  by_cases hf : f = .Phase0
  · subst hf
    simp only [justification_balances, ord]
    exact Rel.refl.bind_eq fun _ => Rel.refl.bind_eq fun _ => Rel.refl.bind_eq fun _ =>
      Rel.refl.bind_eq fun _ => Rel.refl.bind_eq fun _ => (hb _).bind_eq fun _ =>
      (hb _).bind_eq fun _ => Rel.refl
  · exact other f hf

/-! ## Mutations -/

/-- When `m` succeeds so does `n`, with the same result and state. -/
def Sub {α : Type} (m n : M α) : Prop := ∀ s a t, m s = .ok a t → n s = .ok a t

theorem Sub.of_eq {α : Type} {m n : M α} (h : m = n) : Sub m n := fun _ _ _ hm => h ▸ hm

theorem Sub.refl {α : Type} {m : M α} : Sub m m := fun _ _ _ h => h

theorem Sub.bind {α β : Type} {m n : M α} {f g : α → M β} (h : Sub m n)
    (hf : ∀ a, Sub (f a) (g a)) : Sub (m >>= f) (n >>= g) := by
  intro s b t hb
  obtain ⟨a, u, ha, hb⟩ := M_bind_eq_ok.1 hb
  exact M_bind_eq_ok.2 ⟨a, u, h _ _ _ ha, hf _ _ _ _ hb⟩

theorem Sub.lift {α β : Type} {x y : R α} {f g : α → M β} (h : Rel Eq x y)
    (hf : ∀ a, Sub (f a) (g a)) : Sub (liftR x >>= f) (liftR y >>= g) := by
  refine Sub.bind ?_ hf
  intro s a t ha
  simp only [run] at ha ⊢
  exact ⟨h.apply ha.1, ha.2⟩

theorem Sub.lift_rel {α β γ : Type} {r : α → β → Prop} {x : R α} {y : R β} {f : α → M γ}
    {g : β → M γ} (h : Rel r x y) (hf : ∀ a b, r a b → Sub (f a) (g b)) :
    Sub (liftR x >>= f) (liftR y >>= g) := by
  intro s c t hc
  obtain ⟨a, u, ha, hc⟩ := M_bind_eq_ok.1 hc
  simp only [run] at ha
  obtain ⟨ha, rfl⟩ := ha
  obtain ⟨b, hb, hr⟩ := h a ha
  refine M_bind_eq_ok.2 ⟨b, s, ?_, hf a b hr _ _ _ hc⟩
  simp only [run]
  exact ⟨hb, trivial⟩

theorem Sub.forEach {α : Type} {l : List α} {f g : α → M Unit} (h : ∀ a, Sub (f a) (g a)) :
    Sub (forEach l f) (forEach l g) := by
  induction l with
  | nil => exact Sub.refl
  | cons a l ih => exact (h a).bind fun _ => ih

/-- `n` after `m` can be exchanged with `m` after `n`. -/
def Swap (m n : M Unit) : Prop :=
  ∀ s u t, m s = .ok () u → n u = .ok () t → ∃ u', n s = .ok () u' ∧ m u' = .ok () t

theorem Swap.forEach_left {α : Type} {l : List α} {f : α → M Unit} {n : M Unit}
    (h : ∀ a ∈ l, Swap (f a) n) : Swap (forEach l f) n := by
  induction l with
  | nil =>
    rintro s _ t ⟨⟩ ht
    exact ⟨t, ht, rfl⟩
  | cons a l ih =>
    intro s u t hu ht
    simp only [Verif.forEach] at hu
    obtain ⟨⟨⟩, w, hw, hu⟩ := M_bind_eq_ok.1 hu
    obtain ⟨u', h1, h2⟩ := ih (fun b hb => h b (by simp [hb])) _ _ _ hu ht
    obtain ⟨w', h3, h4⟩ := h a (by simp) _ _ _ hw h1
    exact ⟨w', h3, M_bind_eq_ok.2 ⟨(), _, h4, h2⟩⟩

theorem Swap.forEach_right {α : Type} {l : List α} {f : α → M Unit} {m : M Unit}
    (h : ∀ a ∈ l, Swap m (f a)) : Swap m (forEach l f) := by
  induction l with
  | nil =>
    rintro s u _ hu ⟨⟩
    exact ⟨s, rfl, hu⟩
  | cons a l ih =>
    intro s u t hu ht
    simp only [Verif.forEach] at ht
    obtain ⟨⟨⟩, w, hw, ht⟩ := M_bind_eq_ok.1 ht
    obtain ⟨u', h1, h2⟩ := h a (by simp) _ _ _ hu hw
    obtain ⟨w', h3, h4⟩ := ih (fun b hb => h b (by simp [hb])) _ _ _ h2 ht
    exact ⟨w', M_bind_eq_ok.2 ⟨(), _, h1, h3⟩, h4⟩

theorem forEach_perm {α : Type} {f : α → M Unit} (h : ∀ a b, Swap (f a) (f b)) {l m : List α}
    (p : l.Perm m) : Sub (forEach l f) (forEach m f) := by
  induction p with
  | nil => exact Sub.refl
  | cons x _ ih => exact Sub.refl.bind fun _ => ih
  | swap x y l =>
    intro s a t ha
    simp only [forEach] at ha ⊢
    obtain ⟨⟨⟩, u, hu, ha⟩ := M_bind_eq_ok.1 ha
    obtain ⟨⟨⟩, w, hw, ha⟩ := M_bind_eq_ok.1 ha
    obtain ⟨u', h1, h2⟩ := h _ _ _ _ _ hu hw
    exact M_bind_eq_ok.2 ⟨(), u', h1, M_bind_eq_ok.2 ⟨(), w, h2, ha⟩⟩
  | trans _ _ ih₁ ih₂ => exact fun s a t h => ih₂ _ _ _ (ih₁ _ _ _ h)

theorem foldlM_perm' {α β : Type} {f : β → α → M β} {P : β → Prop}
    (comm : ∀ b i j c d s t u, P b → f b i s = .ok c t → f c j t = .ok d u →
      ∃ c' t', f b j s = .ok c' t' ∧ f c' i t' = .ok d u)
    (keep : ∀ b i c s t, P b → f b i s = .ok c t → P c)
    {l m : List α} (h : l.Perm m) {b c : β} (hb : P b) {s t : State}
    (hl : l.foldlM f b s = .ok c t) : m.foldlM f b s = .ok c t := by
  induction h generalizing b c s with
  | nil => exact hl
  | cons x _ ih =>
    rw [List.foldlM_cons, M_bind_eq_ok] at hl ⊢
    obtain ⟨d, u, hd, hl⟩ := hl
    exact ⟨d, u, hd, ih (keep _ _ _ _ _ hb hd) hl⟩
  | swap x y l =>
    simp only [List.foldlM_cons, M_bind_eq_ok] at hl ⊢
    obtain ⟨d, u, hd, e, w, he, hl⟩ := hl
    obtain ⟨d', u', hd', he'⟩ := comm _ _ _ _ _ _ _ _ hb hd he
    exact ⟨d', u', hd', e, w, he', hl⟩
  | trans _ _ ih₁ ih₂ => exact ih₂ hb (ih₁ hb hl)

/-! ## Attestations -/

/-- The flags of one attester: the inner loop of `apply_flags`. -/
def oneAttester (E : Env) (c : Bool) (fl : List Nat) (num i : Nat) : M Nat :=
  enumeratedWeights.foldlM (apply_flag E c fl i) num

theorem oneAttester_none {c : Bool} {fl : List Nat} (h : ∀ k, k < 3 → fl.contains k = false)
    (num i : Nat) : oneAttester E c fl num i = pure num := by
  have h0 := h 0 (by decide)
  have h1 := h 1 (by decide)
  have h2 := h 2 (by decide)
  unfold oneAttester enumeratedWeights
  simp only [List.foldlM_cons, List.foldlM_nil, apply_flag, h0, h1, h2]
  rfl

theorem apply_flag_in {c : Bool} {fl : List Nat} {num i n : Nat} {p : Nat × Nat} {s t : State}
    (h : apply_flag E c fl i num p s = .ok n t) :
    (fl.contains p.1 = false ∧ t = s) ∨ ∃ x, (participationOf c s)[i]? = some x := by
  cases hc : fl.contains p.1 with
  | false =>
    simp only [apply_flag, run, hc] at h
    simp at h
    exact .inl ⟨rfl, h.2.symm⟩
  | true =>
    simp only [apply_flag, run, hc] at h
    simp at h
    obtain ⟨x, hx, -⟩ := h
    exact .inr ⟨x, hx⟩

theorem inner_in {c : Bool} {fl : List Nat} {ws : List (Nat × Nat)} {num i n : Nat} {s t : State}
    (h : ws.foldlM (apply_flag E c fl i) num s = .ok n t)
    (hw : ∃ p ∈ ws, fl.contains p.1 = true) : ∃ x, (participationOf c s)[i]? = some x := by
  induction ws generalizing num s with
  | nil => simp at hw
  | cons p ws ih =>
    rw [List.foldlM_cons, M_bind_eq_ok] at h
    obtain ⟨m, u, hp, h⟩ := h
    rcases apply_flag_in hp with ⟨hc, rfl⟩ | hx
    · refine ih h ?_
      obtain ⟨q, hq, hqc⟩ := hw
      rcases List.mem_cons.1 hq with rfl | hq
      · rw [hc] at hqc; cases hqc
      · exact ⟨q, hq, hqc⟩
    · exact hx

theorem oneAttester_ok {c : Bool} {fl : List Nat} {num i n : Nat} (hnum : num < U64_BOUND)
    {s t : State} {x : UInt8} (hx : (participationOf c s)[i]? = some x) :
    oneAttester E c fl num i s = .ok n t ↔
      ((∃ p ∈ enumeratedWeights, Missing fl x p.1) → ∃ r, Altair.get_base_reward E s i = .ok r) ∧
      n = num + baseReward E s i * missingIn enumeratedWeights fl x ∧ n < U64_BOUND ∧
      t = setParticipation c ((participationOf c s).set i (addIn enumeratedWeights fl x)) s :=
  inner_flags_eq_ok (by decide) (by decide) hnum hx

theorem oneAttester_comm {c : Bool} {fl : List Nat} (b i j n m : Nat) (s t u : State)
    (hb : b < U64_BOUND) (h1 : oneAttester E c fl b i s = .ok n t)
    (h2 : oneAttester E c fl n j t = .ok m u) :
    ∃ n' t', oneAttester E c fl b j s = .ok n' t' ∧ oneAttester E c fl n' i t' = .ok m u := by
  by_cases hij : i = j
  · subst hij; exact ⟨n, t, h1, h2⟩
  by_cases hf : ∃ p ∈ enumeratedWeights, fl.contains p.1 = true
  · obtain ⟨x, hx⟩ := inner_in h1 hf
    obtain ⟨y, hy⟩ := inner_in h2 hf
    rw [oneAttester_ok hb hx] at h1
    obtain ⟨hr1, rfl, hn, rfl⟩ := h1
    rw [oneAttester_ok hn hy] at h2
    obtain ⟨hr2, rfl, hm, rfl⟩ := h2
    rw [participationOf_set, List.getElem?_set_ne hij] at hy
    rw [base_reward_setParticipation] at hr2
    rw [baseReward_setParticipation] at hm ⊢
    have h1 := (oneAttester_ok (E := E) (c := c) (fl := fl) hb hy).2 ⟨hr2, rfl, by omega, rfl⟩
    refine ⟨_, _, h1, ?_⟩
    rw [oneAttester_ok (x := x) (by omega)]
    · refine ⟨by rw [base_reward_setParticipation]; exact hr1, ?_, hm, ?_⟩
      · rw [baseReward_setParticipation]; omega
      · rw [participationOf_set, participationOf_set, setParticipation_twice,
          setParticipation_twice, List.set_comm _ _ hij]
    · rw [participationOf_set, List.getElem?_set_ne (Ne.symm hij)]; exact hx
  · have hf : ∀ k, k < 3 → fl.contains k = false := by
      intro k hk
      by_contra hc
      have hc : fl.contains k = true := by simpa using hc
      apply hf
      have : k = 0 ∨ k = 1 ∨ k = 2 := by omega
      rcases this with rfl | rfl | rfl
      · exact ⟨(0, 14), by decide, hc⟩
      · exact ⟨(1, 26), by decide, hc⟩
      · exact ⟨(2, 14), by decide, hc⟩
    rw [oneAttester_none hf] at h1 h2
    refine ⟨b, s, ?_, ?_⟩
    · rw [oneAttester_none hf]; rfl
    · rw [oneAttester_none hf]
      cases h1; cases h2; rfl

theorem apply_flag_bound {c : Bool} {fl : List Nat} {num i n : Nat} {p : Nat × Nat} {s t : State}
    (hb : num < U64_BOUND) (h : apply_flag E c fl i num p s = .ok n t) : n < U64_BOUND := by
  simp only [apply_flag, run] at h
  rcases h with ⟨-, _, -, _, -, ⟨-, rfl, -⟩ | ⟨-, _, -, _, -, _, -, ⟨rfl, h⟩, -⟩⟩ | ⟨-, rfl, -⟩
  · exact hb
  · exact h
  · exact hb

theorem oneAttester_bound {c : Bool} {fl : List Nat} {ws : List (Nat × Nat)} {num i n : Nat}
    {s t : State} (hb : num < U64_BOUND) (h : ws.foldlM (apply_flag E c fl i) num s = .ok n t) :
    n < U64_BOUND := by
  induction ws generalizing num s with
  | nil => cases h; exact hb
  | cons p ws ih =>
    rw [List.foldlM_cons, M_bind_eq_ok] at h
    obtain ⟨m, u, hp, h⟩ := h
    exact ih (apply_flag_bound hb hp) h

theorem flags_sub {c : Bool} {fl l m : List Nat} (p : l.Perm m) :
    Sub (apply_flags E c fl l) (apply_flags E c fl m) := by
  intro s n t h
  exact foldlM_perm' (f := oneAttester E c fl) (P := (· < U64_BOUND)) oneAttester_comm
    (fun b i c s t hb h => oneAttester_bound hb h) p (by decide) h

theorem altair_attestation_sub {f : Fork} {a : Attestation} :
    Sub (Altair.process_attestation E f a) (Altair.process_attestation (reorder E v) f a) := by
  unfold Altair.process_attestation
  simp only [ord]
  refine Sub.refl.bind fun s => Sub.refl.bind fun _ => Sub.refl.bind fun _ => Sub.refl.bind fun _ =>
    Sub.refl.bind fun _ => Sub.refl.bind fun _ => Sub.refl.bind fun _ =>
    Sub.lift_rel attesting_perm fun is is' hp => (flags_sub hp).bind fun _ => Sub.refl

theorem electra_attestation_sub {a : Attestation} :
    Sub (Electra.process_attestation E a) (Electra.process_attestation (reorder E v) a) := by
  unfold Electra.process_attestation
  simp only [ord]
  refine Sub.refl.bind fun s => Sub.refl.bind fun _ => Sub.refl.bind fun _ => Sub.refl.bind fun _ =>
    Sub.refl.bind fun _ => Sub.refl.bind fun _ => Sub.refl.bind fun _ =>
    Sub.lift_rel electra_attesting_perm fun is is' hp => (flags_sub hp).bind fun _ => Sub.refl

theorem attestation_sub {f : Fork} {a : Attestation} :
    Sub (process_attestation E f a) (process_attestation (reorder E v) f a) := by
  unfold process_attestation
  cases f with
  | Phase0 =>
    show Sub (Phase0.process_attestation E a) (Phase0.process_attestation (reorder E v) a)
    rw [phase0_attestation_ord]
    exact Sub.refl
  | Electra => exact electra_attestation_sub
  | Altair => exact altair_attestation_sub
  | Bellatrix => exact altair_attestation_sub
  | Capella => exact altair_attestation_sub
  | Deneb => exact altair_attestation_sub

/-! ## Blocks -/

theorem operations_sub {f : Fork} {b : BeaconBlockBody} :
    Sub (process_operations E f b) (process_operations (reorder E v) f b) := by
  unfold process_operations
  simp only [ord]
  refine Sub.refl.bind fun _ => Sub.refl.bind fun _ => Sub.refl.bind fun _ =>
    (Sub.forEach fun _ => attestation_sub).bind fun _ => Sub.refl

theorem block_sub {f : Fork} {b : BeaconBlock} :
    Sub (process_block E f b) (process_block (reorder E v) f b) := by
  unfold process_block
  simp only [ord]
  exact Sub.refl.bind fun _ => Sub.refl.bind fun _ => Sub.refl.bind fun _ => Sub.refl.bind fun _ =>
    operations_sub.bind fun _ => Sub.refl

/-! ## Epochs -/

theorem justification_sub {f : Fork} : Sub (process_justification_and_finalization E f)
    (process_justification_and_finalization (reorder E v) f) := by
  unfold process_justification_and_finalization
  simp only [ord]
  refine Sub.refl.bind fun s => Sub.refl.bind fun e => ?_
  split
  · exact Sub.refl
  · exact Sub.lift justification_rel fun _ => Sub.refl

theorem inactivity_updates_sub :
    Sub (process_inactivity_updates E) (process_inactivity_updates (reorder E v)) := by
  unfold process_inactivity_updates
  simp only [ord]
  refine Sub.refl.bind fun s => Sub.refl.bind fun e => ?_
  split
  · exact Sub.refl
  · refine Sub.refl.bind fun _ => Sub.refl.bind fun _ =>
      Sub.lift_rel participating_perm fun is is' hp => ?_
    simp only [contains_perm hp]
    exact Sub.refl

theorem rewards_sub {f : Fork} : Sub (process_rewards_and_penalties E f)
    (process_rewards_and_penalties (reorder E v) f) := by
  unfold process_rewards_and_penalties
  simp only [ord]
  refine Sub.refl.bind fun s => Sub.refl.bind fun e => ?_
  split
  · exact Sub.refl
  · cases f <;> first
      | exact Sub.lift attestation_deltas_rel fun _ => Sub.refl
      | exact Sub.lift flag_deltas_rel fun _ => Sub.lift flag_deltas_rel fun _ =>
          Sub.lift flag_deltas_rel fun _ => Sub.lift inactivity_rel fun _ => Sub.refl

theorem epoch_sub {f : Fork} : Sub (process_epoch E f) (process_epoch (reorder E v) f) := by
  unfold process_epoch process_epoch_first
  simp only [ord]
  refine Sub.bind ?_ fun _ => Sub.refl
  refine justification_sub.bind fun _ => Sub.bind ?_ fun _ => rewards_sub.bind fun _ => Sub.refl
  cases f <;> first | exact Sub.refl | exact inactivity_updates_sub

/-! ## Slots and blocks -/

theorem slot_step_sub {f : Fork} : Sub (slot_step E f) (slot_step (reorder E v) f) := by
  unfold slot_step process_epoch_if_due
  simp only [ord]
  refine Sub.refl.bind fun _ => Sub.bind ?_ fun _ => Sub.refl
  refine Sub.refl.bind fun s => Sub.refl.bind fun _ => Sub.refl.bind fun _ => ?_
  split
  · exact epoch_sub
  · exact Sub.refl

theorem slots_loop_sub {f : Fork} {slot n : Nat} :
    Sub (slots_loop E f slot n) (slots_loop (reorder E v) f slot n) := by
  induction n with
  | zero => exact Sub.refl
  | succ n ih =>
    rw [slots_loop, slots_loop]
    refine Sub.refl.bind fun s => ?_
    split
    · exact slot_step_sub.bind fun _ => ih
    · exact Sub.refl

theorem slots_sub {f : Fork} {slot : Nat} :
    Sub (process_slots E f slot) (process_slots (reorder E v) f slot) := by
  unfold process_slots
  exact Sub.refl.bind fun s => Sub.refl.bind fun _ => slots_loop_sub

theorem block_in_slot_sub {f : Fork} {b : SignedBeaconBlock} {w : Validation} :
    Sub (state_transition_block_in_slot E f b w)
      (state_transition_block_in_slot (reorder E v) f b w) := by
  unfold state_transition_block_in_slot
  simp only [ord]
  exact Sub.refl.bind fun _ => block_sub.bind fun _ => Sub.refl

theorem transition_sub {f : Fork} {b : SignedBeaconBlock} {w : Validation} :
    Sub (state_transition E f b w) (state_transition (reorder E v) f b w) := by
  unfold state_transition
  exact slots_sub.bind fun _ => block_in_slot_sub

/-! ## Upgrades -/

theorem translate_flag_swap (i j k l : Nat) :
    Swap (do
      let s ← get
      let flags ← idx s.previous_epoch_participation i
      let flags' ← add_flag flags k
      upd fun s => { s with
        previous_epoch_participation := s.previous_epoch_participation.set i flags' })
     (do
      let s ← get
      let flags ← idx s.previous_epoch_participation j
      let flags' ← add_flag flags l
      upd fun s => { s with
        previous_epoch_participation := s.previous_epoch_participation.set j flags' }) := by
  intro s u t h1 h2
  have key (i k : Nat) (s t : State) : (do
      let s ← get
      let flags ← idx s.previous_epoch_participation i
      let flags' ← add_flag flags k
      upd fun s => { s with
        previous_epoch_participation := s.previous_epoch_participation.set i flags' } : M Unit) s =
        .ok () t ↔ ∃ x b, s.previous_epoch_participation[i]? = some x ∧ flagBit k = .ok b ∧
          t = { s with
            previous_epoch_participation := s.previous_epoch_participation.set i (x ||| b) } := by
    simp only [run, add_flag]
    constructor
    · rintro ⟨x, hx, y, ⟨b, hb, rfl⟩, rfl⟩; exact ⟨x, b, hx, hb, rfl⟩
    · rintro ⟨x, b, hx, hb, rfl⟩; exact ⟨x, hx, _, ⟨b, hb, rfl⟩, rfl⟩
  rw [key] at h1 h2
  simp only [key]
  obtain ⟨x, b, hx, hb, rfl⟩ := h1
  obtain ⟨y, c, hy, hc, rfl⟩ := h2
  have hi := (List.getElem?_eq_some_iff.1 hx).1
  by_cases hij : i = j
  · subst hij
    rw [List.getElem?_set_self hi] at hy
    cases hy
    refine ⟨_, ⟨x, c, hx, hc, rfl⟩, x ||| c, b, ?_, hb, ?_⟩
    · rw [List.getElem?_set_self hi]
    · simp only [List.set_set]
      rw [UInt8.or_assoc, UInt8.or_assoc, UInt8.or_comm b c]
  · rw [List.getElem?_set_ne hij] at hy
    refine ⟨_, ⟨y, c, hy, hc, rfl⟩, x, b, ?_, hb, ?_⟩
    · rw [List.getElem?_set_ne (Ne.symm hij)]; exact hx
    · simp only [List.set_comm _ _ hij]

theorem translate_flags_perm {fl l m : List Nat} (p : l.Perm m) :
    Sub (translate_flags fl l) (translate_flags fl m) := by
  unfold translate_flags
  refine forEach_perm (fun i j => ?_) p
  exact Swap.forEach_left fun k _ => Swap.forEach_right fun l _ => translate_flag_swap i j k l

theorem translate_sub {l : List PendingAttestation} :
    Sub (translate_participation E l) (translate_participation (reorder E v) l) := by
  unfold translate_participation
  simp only [ord]
  exact Sub.forEach fun a => Sub.refl.bind fun s => Sub.refl.bind fun _ =>
    Sub.lift_rel attesting_perm fun is is' hp => translate_flags_perm hp

theorem runLocal_rel {m n : M Unit} (h : Sub m n) (s : State) :
    Rel Eq (runLocal m s) (runLocal n s) := by
  intro t ht
  refine ⟨t, ?_, rfl⟩
  unfold runLocal at *
  cases hm : m s with
  | error e u => rw [hm] at ht; cases ht
  | ok a u => rw [hm] at ht; cases ht; rw [h _ _ _ hm]

theorem upgrade_to_altair_rel :
    Rel Eq (upgrade_to_altair E s) (upgrade_to_altair (reorder E v) s) := by
  unfold upgrade_to_altair
  simp only [ord]
  exact Rel.refl.bind_eq fun _ => (runLocal_rel translate_sub _).bind_eq fun _ => Rel.refl

theorem upgrade_rel {f : Fork} : Rel Eq (upgrade_to E f s) (upgrade_to (reorder E v) f s) := by
  unfold upgrade_to
  simp only [ord]
  cases f <;> first | exact Rel.refl | exact upgrade_to_altair_rel

theorem climb_rel {f : Fork} {l : List Fork} :
    Rel Eq (climb E f l s) (climb (reorder E v) f l s) := by
  induction l generalizing f s with
  | nil => exact Rel.refl
  | cons g l ih =>
    rw [climb, climb]
    simp only [ord]
    exact Rel.refl.bind_eq fun _ => (runLocal_rel slots_sub _).bind_eq fun _ =>
      upgrade_rel.bind_eq fun _ => ih

theorem upgrade_and_apply_rel {g target : Fork} {rest : List Fork} {b : SignedBeaconBlock}
    {w : Validation} : Rel Eq (upgrade_and_apply E g rest target b w s)
      (upgrade_and_apply (reorder E v) g rest target b w s) := by
  unfold upgrade_and_apply
  refine upgrade_rel.bind_eq fun _ => climb_rel.bind_eq fun t => ?_
  unfold transition_after_upgrade
  apply runLocal_rel
  split
  · exact block_in_slot_sub
  · exact transition_sub

theorem apply_block_sub {target : Fork} {b : SignedBeaconBlock} {w : Validation}
    {t t' : TaggedState} (h : apply_block_with_validation E target b w t = .ok () t') :
    apply_block_with_validation (reorder E v) target b w t = .ok () t' := by
  unfold apply_block_with_validation at *
  by_cases ht : t.version = target
  · rw [if_pos ht] at h ⊢
    cases hs : state_transition E target b w t.state with
    | error e u => rw [hs] at h; cases h
    | ok a u => rw [hs] at h; rw [transition_sub _ _ _ hs]; exact h
  · rw [if_neg ht] at h ⊢
    cases hp : fork_path t.version target with
    | nil => rw [hp] at h; cases h
    | cons g rest =>
      rw [hp] at h
      simp only [ord] at h ⊢
      have hsub : Sub (do
          let slot ← fork_slot E g
          process_slots E t.version slot : M Unit) (do
          let slot ← fork_slot E g
          process_slots (reorder E v) t.version slot : M Unit) :=
        Sub.refl.bind fun _ => slots_sub
      cases hs : (do
          let slot ← fork_slot E g
          process_slots E t.version slot : M Unit) t.state with
      | error e u => rw [hs] at h; cases h
      | ok a u =>
        rw [hs] at h
        rw [hsub _ _ _ hs]
        dsimp only at h ⊢
        cases hu : upgrade_and_apply E g rest target b w u with
        | error e => rw [hu] at h; cases h
        | ok u' => rw [hu] at h; rw [upgrade_and_apply_rel.apply hu]; exact h

/-! ## Both directions -/

theorem reorder_back : reorder (reorder E v) E.visit = E := rfl

end Verif
