import Verif.Proofs.JsonTypes
import Verif.Spec.ApiResponse

/-! # How the client of the beacon API reads answers -/

namespace Verif.Client

open Json Text Spec Spec.Beacon

theorem get_value {α : Type} {dec : Json → Option α} {r : Response} {j : Json} {v : α}
    (hb : r.body = some j) (h : dec j = some v) : get dec r = .ok v := by
  unfold get Response.json api_result
  rw [hb]
  simp only [Option.bind_some, h]
  rfl

theorem get_error {α : Type} {dec : Json → Option α} {r : Response} {j : Json} {e : ApiError}
    (hb : r.body = some j) (h : dec j = none) (he : ApiError.dec j = some e) :
    get dec r = .error (.Api e) := by
  unfold get Response.json api_result
  rw [hb]
  simp only [Option.bind_some, h, he]
  rfl

theorem get_http {α : Type} {dec : Json → Option α} {r : Response} {j : Json}
    (hb : r.body = some j) (h : dec j = none) (he : ApiError.dec j = none) :
    get dec r = .error .Http := by
  unfold get Response.json api_result
  rw [hb]
  simp only [Option.bind_some, h, he]
  rfl

theorem get_not_ok {α : Type} {dec : Json → Option α} {r : Response} {j : Json}
    (hb : r.body = some j) (h : dec j = none) (w : α) : get dec r ≠ .ok w := by
  unfold get Response.json api_result
  rw [hb]
  simp only [Option.bind_some, h]
  cases ApiError.dec j <;> exact fun h => nomatch h

theorem get_inv {α : Type} {dec : Json → Option α} {r : Response} {v : α}
    (h : get dec r = .ok v) : ∃ j, r.body = some j ∧ dec j = some v := by
  cases hb : r.body with
  | none => unfold get Response.json at h; rw [hb] at h; cases h
  | some j =>
    refine ⟨j, rfl, ?_⟩
    cases hd : dec j with
    | none => exact absurd h (get_not_ok hb hd v)
    | some w => rw [get_value hb hd] at h; cases h; rfl

theorem get_error_inv {α : Type} {dec : Json → Option α} {r : Response} {e : ApiError}
    (h : get dec r = .error (.Api e)) : ∃ j, r.body = some j ∧ ApiError.dec j = some e := by
  cases hb : r.body with
  | none => unfold get Response.json at h; rw [hb] at h; cases h
  | some j =>
    refine ⟨j, rfl, ?_⟩
    cases hd : dec j with
    | some w => rw [get_value hb hd] at h; cases h
    | none =>
      cases he : ApiError.dec j with
      | some e' => rw [get_error hb hd he] at h; cases h; rfl
      | none =>
        unfold get Response.json api_result at h
        rw [hb] at h
        simp only [Option.bind_some, hd, he] at h
        cases h

/-! ## Data -/

theorem value_of {c : Codec} {ms : List (String × Json)} {j : Json} {v : c.Val}
    (hj : lookup "data" ms = some j) (hv : c.dec j = some v) :
    value c (.obj ms) = some (v, fun name => if name = "data" then none else lookup name ms) := by
  simp only [value, hj]
  simp only [Option.bind_some, Option.bind_eq_bind, hv]

theorem value_none {c : Codec} {ms : List (String × Json)} {j : Json}
    (hj : lookup "data" ms = some j) (hv : c.dec j = none) : value c (.obj ms) = none := by
  simp only [value, hj]
  simp only [Option.bind_some, Option.bind_eq_bind, hv, Option.bind_none]

theorem value_missing {c : Codec} {ms : List (String × Json)} (hj : lookup "data" ms = none) :
    value c (.obj ms) = none := by
  simp only [value, hj]
  rfl

theorem versioned_missing {c : Codec} {ms : List (String × Json)} (hj : lookup "data" ms = none) :
    versioned_value c (.obj ms) = none := by
  simp only [versioned_value, hj]
  cases (lookup "version" ms).bind (api.Fork.dec .borrowed) <;> rfl

theorem read_in {c : Codec} {r : Response} {ms : List (String × Json)} {j : Json} {v : c.Val}
    (hs : Success r ms) (hj : lookup "data" ms = some j) (hv : c.dec j = some v) :
    (Want.data c).read r = .ok v := by
  simp only [Want.read]
  rw [get_value hs.2 (value_of hj hv)]
  rfl

theorem refuse_in {c : Codec} {r : Response} {ms : List (String × Json)} {j : Json}
    (hs : Success r ms) (hj : lookup "data" ms = some j) (hv : c.dec j = none) (w : c.Val) :
    (Want.data c).read r ≠ .ok w := by
  simp only [Want.read]
  intro h
  cases hg : get (value c) r with
  | error e => rw [hg] at h; cases h
  | ok x => exact get_not_ok hs.2 (value_none hj hv) x hg

theorem dec_of {s : Schema} (hd : s.distinct = true) {v : s.Val} {j : Json}
    (h : Extends j (s.enc v)) : s.dec .borrowed j = some v :=
  Schema.dec_extends _ _ h (Schema.roundtrip .borrowed s hd (by simp [Source.reads]) v)

theorem read_data {s : Schema} (hd : s.distinct = true) {v : s.Val} {r : Response}
    (h : Data s v r) : (Want.data (.of s)).read r = .ok v := by
  obtain ⟨ms, j, hs, hj, he⟩ := h
  exact read_in (c := .of s) hs hj (dec_of hd he)

theorem extends_list {s : Schema} {v : (Schema.seq .any s).Val} {js : List Json}
    (h : List.Forall₂ (fun j x => Extends j (s.enc x)) js v.val) :
    Extends (.arr js) ((Schema.seq .any s).enc v) := by
  unfold Schema.enc
  refine .arr ?_
  rw [List.forall₂_map_right_iff]
  exact h

theorem data_of_list {s : Schema} {v : (Schema.seq .any s).Val} {r : Response}
    (h : DataList s v r) : Data (.seq .any s) v r := by
  obtain ⟨ms, js, hs, hj, he⟩ := h
  exact ⟨ms, _, hs, hj, extends_list he⟩

theorem read_list {s : Schema} (hd : s.distinct = true) {v : (Schema.seq .any s).Val}
    {r : Response} (h : DataList s v r) : (Want.data (.many s)).read r = .ok v :=
  read_data (s := .seq .any s) (by unfold Schema.distinct; exact hd) (data_of_list h)

theorem dec_one {src : Source} {name : String} {s : Schema} {ns : List (String × Json)} {j : Json}
    {v : s.Val} (h : lookup name ns = some j) (hv : s.dec src j = some v) :
    (Schema.record (Fields.of [(name, s)])).dec src (.obj ns) = some (v, ()) := by
  show (Schema.record (.cons name s .nil)).dec src (.obj ns) = _
  unfold Schema.dec Fields.decObj Fields.decObj
  rw [h]
  simp only [Option.bind_eq_bind, Option.bind_some, hv]

theorem dec_two {src : Source} {name name' : String} {s s' : Schema} {ns : List (String × Json)}
    {j j' : Json} {v : s.Val} {v' : s'.Val} (h : lookup name ns = some j)
    (hv : s.dec src j = some v) (h' : lookup name' ns = some j') (hv' : s'.dec src j' = some v') :
    (Schema.record (Fields.of [(name, s), (name', s')])).dec src (.obj ns) = some (v, v', ()) := by
  show (Schema.record (.cons name s (.cons name' s' .nil))).dec src (.obj ns) = _
  unfold Schema.dec Fields.decObj Fields.decObj Fields.decObj
  rw [h, h']
  simp only [Option.bind_eq_bind, Option.bind_some, hv, hv']

theorem read_member {name : String} {s : Schema} (hd : s.distinct = true) {v : s.Val}
    {r : Response} (h : DataMember name s v r) : (Want.data (.only name s)).read r = .ok v := by
  obtain ⟨ms, ns, j, hs, hj, hn, he⟩ := h
  refine read_in (c := .only name s) hs hj ?_
  show Option.map _ ((Schema.record (Fields.of [(name, s)])).dec .borrowed (.obj ns)) = _
  rw [dec_one hn (dec_of hd he)]
  rfl

theorem read_version (f : Fork) :
    ∃ x, api.Fork.dec .borrowed (.str (forkName f).toList) = some x := by
  cases f <;> exact ⟨_, rfl⟩

theorem read_fork {E : ForkEnum} {v : Versioned E.schema} {r : Response}
    (hv : ∀ j, Extends j ((E.schema v.1).enc v.2) → Extends ((E.schema v.1).enc v.2) j →
      Versioned.dec E.order E.schema j = some v)
    (h : DataOfFork E v r) : (Want.versioned (.forks E)).read r = .ok v := by
  obtain ⟨ms, j, hs, hf, hj, h1, h2⟩ := h
  obtain ⟨x, hx⟩ := read_version v.1
  simp only [Want.read]
  rw [get_value (v := (x, v)) hs.2]
  · rfl
  · simp only [versioned_value, hf, hj]
    simp only [Option.bind_some, Option.bind_eq_bind, hx]
    rw [hv j h1 h2]
    rfl

theorem read_texts {v : String → Option (List Char)} {r : Response} (h : DataTexts v r) :
    (Want.data .texts).read r = .ok v := by
  obtain ⟨ms, ns, hs, hj, hn, hv⟩ := h
  refine read_in hs hj ?_
  have key : ∀ ns : List (String × Json), (ns.map (·.1)).Nodup → ∀ m ∈ ns,
      lookup m.1 ns = some m.2 := by
    intro ns
    induction ns with
    | nil => intro _ m hm; cases hm
    | cons n ns ih =>
      intro hn m hm
      rw [List.map_cons, List.nodup_cons] at hn
      unfold lookup
      rcases List.mem_cons.1 hm with rfl | hm
      · rw [if_pos rfl]
      · rw [if_neg, ih hn.2 m hm]
        intro e
        exact hn.1 (e ▸ List.mem_map_of_mem hm)
  refine (if_pos ?_).trans ?_
  rotate_left
  · show some _ = some _
    congr 1
    funext name
    rw [hv name]
    cases v name <;> rfl
  · rw [List.all_eq_true]
    intro m hm
    have := key ns hn m hm
    rw [hv m.1] at this
    cases hvn : v m.1 with
    | none => rw [hvn] at this; cases this
    | some t => rw [hvn] at this; rw [← Option.some.inj this]; rfl

theorem mapM_forall₂ {α β : Type} {f : α → Option β} {xs : List α} {ys : List β}
    (h : List.Forall₂ (fun x y => f x = some y) xs ys) : xs.mapM f = some ys := by
  induction h with
  | nil => rfl
  | cons hx _ ih => rw [List.mapM_cons, hx, ih]; rfl

theorem read_heads {K : Consts} {F : Foreign}
    {v : ((Call.get_heads).want K F).Val} {r : Response} (h : DataHeads v r) :
    (Want.data (.vec (.head K))).read r = .ok v := by
  obtain ⟨ms, js, hs, hj, he⟩ := h
  refine read_in (c := .vec (.head K)) hs hj ?_
  refine mapM_forall₂ (he.imp ?_)
  rintro j x ⟨ns, rfl, h1, h2, h3⟩
  show Option.map _ ((api.Coordinate K).dec .borrowed (.obj ns)) = _
  have e1 : (Schema.int (2 ^ 64)).dec .borrowed (.str (decimal x.1.1)) = some x.1.1 :=
    Schema.roundtrip .borrowed (.int (2 ^ 64)) rfl rfl x.1.1
  have e2 : (Schema.bytes 32).dec .borrowed (root.enc x.1.2.1) = some x.1.2.1 :=
    Schema.roundtrip .borrowed (.bytes 32) rfl rfl x.1.2.1
  unfold api.Coordinate
  rw [dec_two h1 e1 h2 e2]
  show some _ = some _
  congr 1
  refine Prod.ext rfl (funext fun name => (h3 name).symm)

theorem read_in_list {c : Codec} {v : List c.Val} {r : Response} (h : DataInList c v r) :
    (Want.data (.vec c)).read r = .ok v := by
  obtain ⟨ms, js, hs, hj, he⟩ := h
  exact read_in (c := .vec c) hs hj (mapM_forall₂ he)

/-! ## The duties -/

theorem checked_value {α : Type} {dec : Json → Option α} {r : Response} {j : Json} {v : α}
    (hs : r.status = 200 ∨ r.status = 202) (hb : r.body = some j) (h : dec j = some v) :
    api_error_or_value dec r = .ok v := by
  unfold api_error_or_value Response.json
  rw [if_pos hs, hb]
  simp only [Option.bind_some, h]

theorem read_checked {s : Schema} (hd : s.distinct = true) {v : (Schema.seq .any s).Val}
    {r : Response} (h : DataList s v r) : (Want.checked (.many s)).read r = .ok v := by
  obtain ⟨ms, js, hs, hj, he⟩ := h
  simp only [Want.read]
  rw [checked_value (.inl hs.1) hs.2 (value_of (c := .many s) hj
    (dec_of (s := .seq .any s) (by unfold Schema.distinct; exact hd) (extends_list he)))]
  rfl

theorem root_of {α : Type} {x : root.Val} {v : α} {meta_ : String → Option Json}
    (h : meta_ "dependent_root" = some (root.enc x)) :
    dependent_root (v, meta_) = .ok (x, v) := by
  unfold dependent_root
  simp only [h]
  rw [show (Schema.bytes 32).dec .owned (root.enc x) = some x from
    Schema.roundtrip .owned (.bytes 32) rfl rfl x]

theorem rooted_value {s : Schema} (hd : s.distinct = true) {v : root.Val × (Schema.seq .any s).Val}
    {r : Response} (h : DataRooted s v r) : ∃ ms x, Success r ms ∧
      value (.many s) (.obj ms) = some (v.2, x) ∧ x "dependent_root" = some (root.enc v.1) := by
  obtain ⟨⟨ms, js, hs, hj, he⟩, ms', hs', hr⟩ := h
  have : ms' = ms := by
    have := hs'.2.symm.trans hs.2
    injection this with this
    injection this
  subst this
  exact ⟨_, _, hs, value_of (c := .many s) hj (dec_of (s := .seq .any s)
    (by unfold Schema.distinct; exact hd) (extends_list he)), by simpa using hr⟩

theorem read_rooted {s : Schema} (hd : s.distinct = true)
    {v : root.Val × (Schema.seq .any s).Val} {r : Response} (h : DataRooted s v r) :
    (Want.rooted (.many s)).read r = .ok v := by
  obtain ⟨ms, x, hs, hv, hx⟩ := rooted_value hd h
  simp only [Want.read]
  rw [get_value hs.2 hv]
  exact root_of hx

theorem read_checked_rooted {s : Schema} (hd : s.distinct = true)
    {v : root.Val × (Schema.seq .any s).Val} {r : Response} (h : DataRooted s v r) :
    (Want.checkedRooted (.many s)).read r = .ok v := by
  obtain ⟨ms, x, hs, hv, hx⟩ := rooted_value hd h
  simp only [Want.read]
  rw [checked_value (.inl hs.1) hs.2 hv]
  exact root_of hx

/-! ## Errors -/

theorem reports_body {e : ApiError} {r : Response} (h : Reports e r) :
    ∃ ms, r.body = some (.obj ms) ∧ lookup "data" ms = none ∧ ApiError.dec (.obj ms) = some e := by
  cases e with
  | ErrorMessage code message =>
    obtain ⟨ms, ⟨h1, h2, hb, hc, hm, hd⟩, hf⟩ := h
    refine ⟨ms, hb, hd, ?_⟩
    simp only [ApiError.dec, ApiError.indexed, ApiError.message, hc, hm, hf, Option.bind_some, status_code, text?, Option.bind_eq_bind,
      Option.bind_none]
    rw [if_pos ⟨by omega, h1, h2⟩]
    rfl
  | IndexedError code message failures =>
    obtain ⟨ms, js, ⟨h1, h2, hb, hc, hm, hd⟩, hf, he⟩ := h
    refine ⟨ms, hb, hd, ?_⟩
    have : js.mapM (IndexedError.dec .borrowed) = some failures := by
      refine mapM_forall₂ (he.imp ?_)
      rintro j x ⟨ns, rfl, hi, hx⟩
      have e1 : (Schema.num (2 ^ 64)).dec .borrowed (.num x.1.val) = some x.1 :=
        Schema.roundtrip .borrowed (.num (2 ^ 64)) rfl rfl x.1
      unfold IndexedError
      exact dec_two hi e1 hx rfl
    simp only [ApiError.dec, ApiError.indexed, hc, hm, hf, Option.bind_some, status_code, text?, Option.bind_eq_bind, failures?,
      this]
    rw [if_pos ⟨by omega, h1, h2⟩]
    rfl

theorem checked_error {α : Type} {dec : Json → Option α} {r : Response} {j : Json} {e : ApiError}
    (h1 : r.status ≠ 200) (h2 : r.status ≠ 202) (hb : r.body = some j)
    (he : ApiError.dec j = some e) : api_error_or_value dec r = .error (.Api e) := by
  unfold api_error_or_value Response.json
  rw [if_neg (by simp [h1, h2]), hb]
  simp only [Option.bind_some, he]
  rfl

theorem done_error {r : Response} {j : Json} {e : ApiError}
    (h1 : r.status ≠ 200) (h2 : r.status ≠ 202) (hb : r.body = some j)
    (he : ApiError.dec j = some e) : api_error_or_ok r = .error (.Api e) := by
  unfold api_error_or_ok Response.json
  rw [if_neg (by simp [h1, h2]), hb]
  simp only [Option.bind_some, he]
  rfl

/-- Every method but those that look at the status only hands on the error that the server reports. -/
theorem read_error {w : Want} (hh : w ≠ .health) (hs : w ≠ .stream) {r : Response} {e : ApiError}
    (h1 : r.status ≠ 200) (h2 : r.status ≠ 202) (h : Reports e r) : w.read r = .error (.Api e) := by
  obtain ⟨ms, hb, hd, he⟩ := reports_body h
  cases w with
  | done => exact done_error h1 h2 hb he
  | data c =>
    simp only [Want.read]
    rw [get_error hb (value_missing hd) he]
    rfl
  | versioned c =>
    simp only [Want.read]
    rw [get_error hb (versioned_missing hd) he]
    rfl
  | checked c =>
    simp only [Want.read]
    rw [checked_error h1 h2 hb he]
    rfl
  | rooted c =>
    simp only [Want.read]
    rw [get_error hb (value_missing hd) he]
    rfl
  | checkedRooted c =>
    simp only [Want.read]
    rw [checked_error h1 h2 hb he]
    rfl
  | health => exact absurd rfl hh
  | stream => exact absurd rfl hs

/-! ## What a result rests on -/

theorem map_ok {α β : Type} {f : α → β} {x : Except Failure α} {b : β} (h : x.map f = .ok b) :
    ∃ a, x = .ok a ∧ f a = b := by
  cases x with
  | error e => cases h
  | ok a => exact ⟨a, rfl, by injection h⟩

theorem map_error {α β : Type} {f : α → β} {x : Except Failure α} {e : Failure}
    (h : x.map f = .error e) : x = .error e := by
  cases x with
  | error e' => injection h with h; rw [h]
  | ok a => cases h

theorem value_data {c : Codec} {j : Json} {x : c.Val × (String → Option Json)}
    (h : value c j = some x) :
    ∃ ms d, j = .obj ms ∧ lookup "data" ms = some d ∧ c.dec d = some x.1 := by
  cases j with
  | obj ms =>
    cases hj : lookup "data" ms with
    | none => rw [value_missing hj] at h; cases h
    | some d =>
      cases hd : c.dec d with
      | none => rw [value_none hj hd] at h; cases h
      | some v => rw [value_of hj hd] at h; cases h; exact ⟨ms, d, rfl, hj, hd⟩
  | _ => cases h

theorem versioned_data {c : Codec} {j : Json} {x : api.Fork.Val × c.Val}
    (h : versioned_value c j = some x) :
    ∃ ms d, j = .obj ms ∧ lookup "data" ms = some d ∧ c.dec d = some x.2 := by
  cases j with
  | obj ms =>
    cases hj : lookup "data" ms with
    | none => rw [versioned_missing hj] at h; cases h
    | some d =>
      simp only [versioned_value, hj, Option.bind_some, Option.bind_eq_bind] at h
      cases hf : (lookup "version" ms).bind (api.Fork.dec .borrowed) with
      | none => rw [hf] at h; cases h
      | some f =>
        rw [hf] at h
        cases hd : c.dec d with
        | none => rw [hd] at h; cases h
        | some v => rw [hd] at h; cases h; exact ⟨ms, d, rfl, hj, hd⟩
  | _ => cases h

theorem checked_inv {α : Type} {dec : Json → Option α} {r : Response} {v : α}
    (h : api_error_or_value dec r = .ok v) :
    (r.status = 200 ∨ r.status = 202) ∧ ∃ j, r.body = some j ∧ dec j = some v := by
  unfold api_error_or_value at h
  split at h
  · rename_i hs
    refine ⟨hs, ?_⟩
    unfold Response.json at h
    cases hb : r.body with
    | none => rw [hb] at h; cases h
    | some j =>
      rw [hb] at h
      simp only [Option.bind_some] at h
      cases hd : dec j with
      | none => rw [hd] at h; cases h
      | some w => rw [hd] at h; cases h; exact ⟨j, rfl, hd⟩
  · cases hj : r.json ApiError.dec with
    | error e => rw [hj] at h; cases h
    | ok e => rw [hj] at h; cases h

theorem json_inv {α : Type} {dec : Json → Option α} {r : Response} {v : α}
    (h : r.json dec = .ok v) : ∃ j, r.body = some j ∧ dec j = some v := by
  unfold Response.json at h
  cases hb : r.body with
  | none => rw [hb] at h; cases h
  | some j =>
    rw [hb] at h
    simp only [Option.bind_some] at h
    cases hd : dec j with
    | none => rw [hd] at h; cases h
    | some w => rw [hd] at h; cases h; exact ⟨j, rfl, hd⟩

theorem json_not_api {α : Type} {dec : Json → Option α} {r : Response} {e : ApiError} :
    r.json dec ≠ .error (.Api e) := by
  unfold Response.json
  cases r.body.bind dec <;> exact fun h => nomatch h

theorem reported_inv {α : Type} {r : Response} {e : ApiError}
    (h : (do let e ← r.json ApiError.dec; Except.error (Fail.Api e) : Except Failure α) =
      .error (.Api e)) :
    ∃ j, r.body = some j ∧ ApiError.dec j = some e := by
  cases hj : r.json ApiError.dec with
  | error e' =>
    rw [hj] at h
    have h : Except.error e' = (Except.error (Fail.Api e) : Except Failure α) := h
    injection h with h
    exact absurd (h ▸ hj) json_not_api
  | ok e' =>
    rw [hj] at h
    have h : Except.error (Fail.Api e') = (Except.error (Fail.Api e) : Except Failure α) := h
    injection h with h
    injection h with h
    exact json_inv (h ▸ hj)

theorem checked_error_inv {α : Type} {dec : Json → Option α} {r : Response} {e : ApiError}
    (h : api_error_or_value dec r = .error (.Api e)) :
    ∃ j, r.body = some j ∧ ApiError.dec j = some e := by
  unfold api_error_or_value at h
  split at h
  · exact absurd h json_not_api
  · exact reported_inv h

theorem dependent_root_not_api {α : Type} {x : α × (String → Option Json)} {e : ApiError} :
    dependent_root x ≠ .error (.Api e) := by
  unfold dependent_root
  split
  · exact fun h => nomatch h
  · split <;> exact fun h => nomatch h

theorem bind_not_api {α β : Type} {x : Except Failure α} {f : α → Except Failure β} {e : ApiError}
    (hf : ∀ a, f a ≠ .error (.Api e)) (h : x.bind f = .error (.Api e)) : x = .error (.Api e) := by
  cases x with
  | error e' =>
    have h : Except.error e' = (Except.error (Fail.Api e) : Except Failure β) := h
    injection h with h
    rw [h]
  | ok a => exact absurd h (hf a)

/-- An error of the server that a method returns is what the body says. -/
theorem read_error_inv {w : Want} {r : Response} {e : ApiError} (h : w.read r = .error (.Api e)) :
    ∃ j, r.body = some j ∧ ApiError.dec j = some e := by
  cases w with
  | done =>
    simp only [Want.read, api_error_or_ok] at h
    split at h
    · cases h
    · exact reported_inv h
  | data c => exact get_error_inv (map_error h)
  | versioned c => exact get_error_inv (map_error h)
  | checked c => exact checked_error_inv (map_error h)
  | rooted c => exact get_error_inv (bind_not_api (fun _ => dependent_root_not_api) h)
  | checkedRooted c => exact checked_error_inv (bind_not_api (fun _ => dependent_root_not_api) h)
  | health => cases h
  | stream => cases h

/-- What an error read from a body says is there. -/
theorem error_said {j : Json} {e : ApiError} (h : ApiError.dec j = some e) :
    ∃ ms, j = .obj ms ∧ (match e with
      | .IndexedError code message _ => lookup "code" ms = some (.num code) ∧
        lookup "message" ms = some (.str message)
      | .ErrorMessage code message => lookup "code" ms = some (.num code) ∧
        lookup "message" ms = some (.str message)) := by
  cases j with
  | obj ms =>
    refine ⟨ms, rfl, ?_⟩
    have hc : ∀ n, (lookup "code" ms).bind status_code = some n →
        lookup "code" ms = some (.num n) := by
      intro n hn
      cases hl : lookup "code" ms with
      | none => rw [hl] at hn; cases hn
      | some x =>
        rw [hl] at hn
        cases x with
        | num m =>
          simp only [Option.bind_some, status_code] at hn
          split at hn
          · cases hn; rfl
          · cases hn
        | _ => cases hn
    have ht : ∀ t, (lookup "message" ms).bind text? = some t →
        lookup "message" ms = some (.str t) := by
      intro t hn
      cases hl : lookup "message" ms with
      | none => rw [hl] at hn; cases hn
      | some x =>
        rw [hl] at hn
        cases x with
        | str m => cases hn; rfl
        | _ => cases hn
    simp only [ApiError.dec, ApiError.indexed, ApiError.message, Option.bind_eq_bind] at h
    cases h1 : (lookup "code" ms).bind status_code with
    | none => rw [h1] at h; cases h
    | some n =>
      rw [h1] at h
      cases h2 : (lookup "message" ms).bind text? with
      | none => rw [h2] at h; cases h
      | some t =>
        rw [h2] at h
        cases h3 : (lookup "failures" ms).bind failures? with
        | none => rw [h3] at h; cases h; exact ⟨hc _ h1, ht _ h2⟩
        | some fs => rw [h3] at h; cases h; exact ⟨hc _ h1, ht _ h2⟩
  | _ => cases h

/-- The methods that read a `Value` return what is under `data`. -/
theorem read_data_inv {w : Want} {r : Response} {v : w.Val} (h : w.read r = .ok v)
    (h1 : w ≠ .done) (h2 : w ≠ .health) (h3 : w ≠ .stream) :
    ∃ ms d, r.body = some (.obj ms) ∧ lookup "data" ms = some d := by
  cases w with
  | done => exact absurd rfl h1
  | health => exact absurd rfl h2
  | stream => exact absurd rfl h3
  | data c =>
    obtain ⟨a, ha, _⟩ := map_ok h
    obtain ⟨j, hb, hd⟩ := get_inv ha
    obtain ⟨ms, d, rfl, hl, _⟩ := value_data hd
    exact ⟨ms, d, hb, hl⟩
  | versioned c =>
    obtain ⟨a, ha, _⟩ := map_ok h
    obtain ⟨j, hb, hd⟩ := get_inv ha
    obtain ⟨ms, d, rfl, hl, _⟩ := versioned_data hd
    exact ⟨ms, d, hb, hl⟩
  | checked c =>
    obtain ⟨a, ha, _⟩ := map_ok h
    obtain ⟨_, j, hb, hd⟩ := checked_inv ha
    obtain ⟨ms, d, rfl, hl, _⟩ := value_data hd
    exact ⟨ms, d, hb, hl⟩
  | rooted c =>
    simp only [Want.read] at h
    cases ha : get (value c) r with
    | error e => rw [ha] at h; cases h
    | ok a =>
      obtain ⟨j, hb, hd⟩ := get_inv ha
      obtain ⟨ms, d, rfl, hl, _⟩ := value_data hd
      exact ⟨ms, d, hb, hl⟩
  | checkedRooted c =>
    simp only [Want.read] at h
    cases ha : api_error_or_value (value c) r with
    | error e => rw [ha] at h; cases h
    | ok a =>
      obtain ⟨_, j, hb, hd⟩ := checked_inv ha
      obtain ⟨ms, d, rfl, hl, _⟩ := value_data hd
      exact ⟨ms, d, hb, hl⟩

/-- The value that a method makes of two members of the body -/
def taken : (w : Want) → Json → Option Json → Option w.Val
  | .done, _, _ | .stream, _, _ | .health, _, _ => none
  | .data c, d, _ | .versioned c, d, _ | .checked c, d, _ => c.dec d
  | .rooted c, d, o | .checkedRooted c, d, o => do
    let root ← o.bind ((Schema.bytes 32).dec .owned)
    let data ← c.dec d
    some (root, data)

theorem value_other {c : Codec} {ms : List (String × Json)} {x : c.Val × (String → Option Json)}
    (h : value c (.obj ms) = some x) : x.2 "dependent_root" = lookup "dependent_root" ms := by
  cases hj : lookup "data" ms with
  | none => rw [value_missing hj] at h; cases h
  | some d =>
    cases hd : c.dec d with
    | none => rw [value_none hj hd] at h; cases h
    | some v => rw [value_of hj hd] at h; cases h; rfl

theorem dependent_root_inv {α : Type} {x : α × (String → Option Json)}
    {y : (Schema.bytes 32).Val × α} (h : dependent_root x = .ok y) :
    (x.2 "dependent_root").bind ((Schema.bytes 32).dec .owned) = some y.1 ∧ x.1 = y.2 := by
  unfold dependent_root at h
  split at h
  · cases h
  · rename_i j hj
    rw [hj]
    cases hr : (Schema.bytes 32).dec .owned j with
    | none => rw [hr] at h; cases h
    | some root => rw [hr] at h; cases h; exact ⟨hr, rfl⟩

theorem read_taken {w : Want} {r : Response} {v : w.Val} (h : w.read r = .ok v)
    (h1 : w ≠ .done) (h2 : w ≠ .health) (h3 : w ≠ .stream) :
    ∃ ms d, r.body = some (.obj ms) ∧ lookup "data" ms = some d ∧
      taken w d (lookup "dependent_root" ms) = some v := by
  cases w with
  | done => exact absurd rfl h1
  | health => exact absurd rfl h2
  | stream => exact absurd rfl h3
  | data c =>
    obtain ⟨a, ha, rfl⟩ := map_ok h
    obtain ⟨j, hb, hd⟩ := get_inv ha
    obtain ⟨ms, d, rfl, hl, hc⟩ := value_data hd
    exact ⟨ms, d, hb, hl, hc⟩
  | versioned c =>
    obtain ⟨a, ha, rfl⟩ := map_ok h
    obtain ⟨j, hb, hd⟩ := get_inv ha
    obtain ⟨ms, d, rfl, hl, hc⟩ := versioned_data hd
    exact ⟨ms, d, hb, hl, hc⟩
  | checked c =>
    obtain ⟨a, ha, rfl⟩ := map_ok h
    obtain ⟨_, j, hb, hd⟩ := checked_inv ha
    obtain ⟨ms, d, rfl, hl, hc⟩ := value_data hd
    exact ⟨ms, d, hb, hl, hc⟩
  | rooted c =>
    simp only [Want.read] at h
    cases ha : get (value c) r with
    | error e => rw [ha] at h; cases h
    | ok a =>
      rw [ha] at h
      obtain ⟨j, hb, hd⟩ := get_inv ha
      obtain ⟨ms, d, rfl, hl, hc⟩ := value_data hd
      obtain ⟨hr, he⟩ := dependent_root_inv (x := a) h
      rw [value_other hd] at hr
      refine ⟨ms, d, hb, hl, ?_⟩
      simp only [taken, hr, hc, he]
      rfl
  | checkedRooted c =>
    simp only [Want.read] at h
    cases ha : api_error_or_value (value c) r with
    | error e => rw [ha] at h; cases h
    | ok a =>
      rw [ha] at h
      obtain ⟨_, j, hb, hd⟩ := checked_inv ha
      obtain ⟨ms, d, rfl, hl, hc⟩ := value_data hd
      obtain ⟨hr, he⟩ := dependent_root_inv (x := a) h
      rw [value_other hd] at hr
      refine ⟨ms, d, hb, hl, ?_⟩
      simp only [taken, hr, hc, he]
      rfl

end Verif.Client
