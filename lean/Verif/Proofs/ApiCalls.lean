import Verif.Proofs.Api

/-! # The request of each call -/

namespace Verif.Spec.Beacon

open Client Json Text Net

/-! ## Targets -/

theorem join_relative (e : Endpoint) {path : List Char} (h : path.head? ≠ some '/') :
    e.join path = base e ++ path := by
  unfold Endpoint.join base
  split
  · simp at h
  · rfl

theorem join_rooted (e : Endpoint) (path : List Char) :
    e.join ('/' :: path) = e.origin ++ '/' :: path := rfl

theorem base_clean {e : Endpoint} (he : ValidEndpoint e) : '?' ∉ base e := by
  unfold base
  intro h
  rcases List.mem_append.1 h with h | h
  · exact he.2.1 h
  · unfold dir at h
    rw [List.mem_reverse] at h
    exact he.2.2 (List.mem_reverse.1 ((List.dropWhile_sublist _).subset h))

theorem built_of {e : Endpoint} (he : ValidEndpoint e) {path : List Char} {r : Request}
    (hr : r.url = e.join path) (h : path.head? ≠ some '/') (hq : '?' ∉ path) :
    Built r (base e ++ path) [] := by
  refine ⟨?_, ?_, by simp⟩
  · rw [hr, join_relative e h, render, List.append_nil]
  · simp only [List.mem_append, not_or]
    exact ⟨base_clean he, hq⟩

theorem path3_head {head : String} {v : List Char} {tail : String} {c : Char}
    (h : head.toList.head? = some c) (hc : c ≠ '/') : (path3 head v tail).head? ≠ some '/' := by
  unfold path3
  rw [List.append_assoc, List.head?_append, h]
  simpa using hc

/-! ## Queries -/

/-- The parameters of a query, as the operation reads them -/
def Reads (query : List (String × Kind × Mode)) (ps : List (String × List Char))
    (qs : List (String × List Arg)) : Prop :=
  (ps.map fun p => (p.1.toList, p.2)).mapM (readParam query) = some qs

theorem Reads.nil (query : List (String × Kind × Mode)) : Reads query [] [] := rfl

theorem Reads.append {query : List (String × Kind × Mode)} {ps ps' : List (String × List Char)}
    {qs qs' : List (String × List Arg)} (h : Reads query ps qs) (h' : Reads query ps' qs') :
    Reads query (ps ++ ps') (qs ++ qs') := by
  unfold Reads at *
  rw [List.map_append, List.mapM_append, h, h']
  rfl

theorem reads_one {query : List (String × Kind × Mode)} {name : String} {kind : Kind} {mode : Mode}
    (hf : (query.find? fun p => p.1.toList == name.toList) = some (name, kind, mode))
    (hm : mode ≠ .list) {v : List Char} {a : Arg} (hv : kind.read v = some a) :
    Reads query [(name, v)] [(name, [a])] := by
  unfold Reads
  rw [List.map_cons, List.map_nil, List.mapM_cons, List.mapM_nil]
  unfold readParam
  rw [hf]
  simp only [Option.bind_eq_bind, Option.bind_some, if_neg hm, List.mapM_cons, List.mapM_nil, hv]
  rfl

theorem reads_opt {query : List (String × Kind × Mode)} {name : String} {kind : Kind} {mode : Mode}
    (hf : (query.find? fun p => p.1.toList == name.toList) = some (name, kind, mode))
    (hm : mode ≠ .list) {α : Type} {x : Option α} {text : α → List Char} {arg : α → Arg}
    (hv : ∀ a ∈ x, kind.read (text a) = some (arg a)) :
    Reads query (optPair name (x.map text)) (opt name (x.map arg)) := by
  cases x with
  | none => exact .nil _
  | some a => exact reads_one hf hm (hv a rfl)

theorem mapM_read {kind : Kind} {α : Type} {xs : List α} {text : α → List Char} {arg : α → Arg}
    (hv : ∀ a ∈ xs, kind.read (text a) = some (arg a)) :
    (xs.map text).mapM kind.read = some (xs.map arg) := by
  induction xs with
  | nil => rfl
  | cons a xs ih =>
    rw [List.map_cons, List.mapM_cons, hv a (by simp), ih fun b hb => hv b (by simp [hb])]
    rfl

theorem reads_list {query : List (String × Kind × Mode)} {name : String} {kind : Kind}
    (hf : (query.find? fun p => p.1.toList == name.toList) = some (name, kind, .list))
    {α : Type} {xs : List α} {text : α → List Char} {arg : α → Arg}
    (hp : ∀ a ∈ xs, Plain (text a)) (hv : ∀ a ∈ xs, kind.read (text a) = some (arg a)) :
    Reads query (listPair name (xs.map text)) (many name (xs.map arg)) := by
  cases xs with
  | nil => exact .nil _
  | cons a xs =>
    have hs : split ',' (joinComma ((a :: xs).map text)) = (a :: xs).map text := by
      refine split_joinComma (by simp) ?_
      intro t ht
      obtain ⟨b, hb, rfl⟩ := List.mem_map.1 ht
      exact (hp b hb).not_mem (by decide)
    show Reads query [(name, joinComma ((a :: xs).map text))] [(name, (a :: xs).map arg)]
    unfold Reads
    rw [List.map_cons, List.map_nil, List.mapM_cons, List.mapM_nil]
    unfold readParam
    rw [hf]
    simp only [Option.bind_eq_bind, Option.bind_some, if_true, hs]
    rw [mapM_read hv]
    rfl

theorem readQuery_of {query : List (String × Kind × Mode)} {ps : List (String × List Char)}
    {qs : List (String × List Arg)} (h : Reads query ps qs)
    (hn : (qs.map (·.1)).Nodup ∧ ∀ p ∈ query, p.2.2 = .required → p.1 ∈ qs.map (·.1)) :
    readQuery query (ps.map fun p => (p.1.toList, p.2)) = some qs := by
  unfold readQuery
  rw [h]
  simp only [Option.bind_eq_bind, Option.bind_some]
  rw [if_pos hn]

/-! ## Families of calls -/

theorem readParams_one {k : Kind} {s : List Char} {a : Arg} (h : k.read s = some a) :
    readParams [k] [s] = some [a] := by
  simp [readParams, h]

/-- A closed path -/
def closed (path : String) : Bool :=
  path.toList.head? != some '/' && !path.toList.contains '?'

theorem closed_head {path : String} (h : closed path = true) : path.toList.head? ≠ some '/' := by
  simp only [closed, Bool.and_eq_true, bne_iff_ne] at h
  exact h.1

theorem closed_clean {path : String} (h : closed path = true) : '?' ∉ path.toList := by
  simp only [closed, Bool.and_eq_true, Bool.not_eq_true', List.contains_eq_mem,
    decide_eq_false_iff_not] at h
  exact h.2

/-- A call of an operation without parameters in its path -/
theorem serve_closed {e : Endpoint} {path : String} {r : Request}
    {ps : List (String × List Char)} (route : Route) {qs : List (String × List Arg)}
    {v : Option Fork} {body : Body} (hr : route ∈ routes)
    (hb : Built r (base e ++ path.toList) ps) (hm : route.method = r.method)
    (hp : route.segs = (split '/' path.toList).map .lit) (hk : route.params = [])
    (hq : Reads route.query ps qs)
    (hn : (qs.map (·.1)).Nodup ∧ ∀ p ∈ route.query, p.2.2 = .required → p.1 ∈ qs.map (·.1))
    (hv : readVersion r.version = some v) (hv' : v.isSome = route.versioned)
    (hbd : readBody route.body r.body = some body) :
    serve (base e) r = some { name := route.name, path := [], query := qs, version := v, body } :=
  serve_of hr hb hm (match_plain hp) (by rw [hk]; rfl) (readQuery_of hq hn) hv hv' hbd

/-- A call of an operation with one parameter in its path -/
theorem serve_open {e : Endpoint} {head tail : String} {s : List Char} {r : Request}
    {ps : List (String × List Char)} (route : Route) {k : Kind} {a : Arg}
    {qs : List (String × List Arg)} {v : Option Fork} {body : Body} (hr : route ∈ routes)
    (hb : Built r (base e ++ path3 head s tail) ps) (hm : route.method = r.method)
    (hp : route.segs = shape head tail) (hf : framed head tail = true) (hs : Plain s)
    (hk : route.params = [k]) (ha : k.read s = some a)
    (hq : Reads route.query ps qs)
    (hn : (qs.map (·.1)).Nodup ∧ ∀ p ∈ route.query, p.2.2 = .required → p.1 ∈ qs.map (·.1))
    (hv : readVersion r.version = some v) (hv' : v.isSome = route.versioned)
    (hbd : readBody route.body r.body = some body) :
    serve (base e) r = some { name := route.name, path := [a], query := qs, version := v, body } :=
  serve_of hr hb hm (by rw [hp]; exact match_shape hf (hs.not_mem (by decide)))
    (by rw [hk]; exact readParams_one ha) (readQuery_of hq hn) hv hv' hbd

theorem built_closed {e : Endpoint} (he : ValidEndpoint e) {path : String} {r : Request}
    (hr : r.url = e.join path.toList) (h : closed path = true) :
    Built r (base e ++ path.toList) [] :=
  built_of he hr (closed_head h) (closed_clean h)

theorem built_open {e : Endpoint} (he : ValidEndpoint e) {head tail : String} {s : List Char}
    {r : Request} (hr : r.url = e.join (path3 head s tail)) (hf : framed head tail = true)
    (hh : head.toList.head? = some 'e') (hs : Plain s) :
    Built r (base e ++ path3 head s tail) [] :=
  built_of he hr (path3_head hh (by decide)) (framed_clean hf (hs.not_mem (by decide)))

/-- A read without parameters -/
theorem get_closed {e : Endpoint} (he : ValidEndpoint e) {path : String} (i : Nat)
    {route : Route} (hi : routes[i]? = some route) (h : closed path = true)
    (hc : decide (route.method = .GET ∧ route.segs = (split '/' path.toList).map .lit ∧
      route.params = [] ∧ route.versioned = false ∧ route.body = .nothing ∧
      ∀ p ∈ route.query, p.2.2 ≠ .required) = true) :
    serve (base e) (http_get e path.toList) = some { name := route.name } := by
  obtain ⟨h1, h2, h3, h4, h5, h6⟩ := of_decide_eq_true hc
  exact serve_closed route (List.mem_of_getElem? hi) (built_closed he rfl h) h1 h2 h3 (.nil _)
    ⟨by simp, fun p hp hr => absurd hr (h6 p hp)⟩ rfl (by rw [h4]; rfl) (by rw [h5]; rfl)

/-- A submission without parameters -/
theorem post_closed {e : Endpoint} (he : ValidEndpoint e) {path : String} {j : Json} (i : Nat)
    {route : Route} (hi : routes[i]? = some route) (h : closed path = true)
    (hc : decide (route.method = .POST ∧ route.segs = (split '/' path.toList).map .lit ∧
      route.params = [] ∧ route.versioned = false ∧ route.body = .json ∧
      ∀ p ∈ route.query, p.2.2 ≠ .required) = true) :
    serve (base e) (http_post e path.toList j) = some { name := route.name, body := .json j } := by
  obtain ⟨h1, h2, h3, h4, h5, h6⟩ := of_decide_eq_true hc
  exact serve_closed route (List.mem_of_getElem? hi) (built_closed he rfl h) h1 h2 h3 (.nil _)
    ⟨by simp, fun p hp hr => absurd hr (h6 p hp)⟩ rfl (by rw [h4]; rfl) (by rw [h5]; rfl)

/-- A read with one parameter in the path -/
theorem get_open {e : Endpoint} (he : ValidEndpoint e) {head tail : String} {s : List Char}
    {k : Kind} {a : Arg} (i : Nat) {route : Route} (hi : routes[i]? = some route)
    (hs : Plain s) (ha : k.read s = some a)
    (hc : decide (framed head tail = true ∧ head.toList.head? = some 'e' ∧ route.method = .GET ∧
      route.segs = shape head tail ∧ route.params = [k] ∧ route.versioned = false ∧
      route.body = .nothing ∧ ∀ p ∈ route.query, p.2.2 ≠ .required) = true) :
    serve (base e) (http_get e (path3 head s tail)) =
      some { name := route.name, path := [a] } := by
  obtain ⟨h1, h2, h3, h4, h5, h6, h7, h8⟩ := of_decide_eq_true hc
  exact serve_open route (List.mem_of_getElem? hi) (built_open he rfl h1 h2 hs) h3 h4 h1 hs h5 ha
    (.nil _) ⟨by simp, fun p hp hr => absurd hr (h8 p hp)⟩ rfl (by rw [h6]; rfl) (by rw [h7]; rfl)

theorem opt_names (name : String) (a : Option Arg) :
    ((opt name a).map (·.1)).Sublist [name] := by
  cases a <;> simp [opt]

theorem many_names (name : String) (as : List Arg) :
    ((many name as).map (·.1)).Sublist [name] := by
  unfold many; split <;> simp

/-- A query none of whose parameters is required, given in the order of the operation -/
theorem names_of_sublist {query : List (String × Kind × Mode)} {qs : List (String × List Arg)}
    (h : (qs.map (·.1)).Sublist (query.map (·.1)))
    (hc : decide ((query.map (·.1)).Nodup ∧ ∀ p ∈ query, p.2.2 ≠ .required) = true) :
    (qs.map (·.1)).Nodup ∧ ∀ p ∈ query, p.2.2 = .required → p.1 ∈ qs.map (·.1) := by
  obtain ⟨h1, h2⟩ := of_decide_eq_true hc
  exact ⟨h.nodup h1, fun p hp hr => absurd hr (h2 p hp)⟩

theorem read_indices {is : List Nat} (h : ∀ i ∈ is, i < 2 ^ 64) :
    readBody .indices (some (.arr (is.map fun i => .str (decimal i)))) = some (.indices is) := by
  have : (is.map fun i => Json.str (decimal i)).mapM (fun
      | Json.str s => parseU64 s
      | _ => none) = some is := by
    induction is with
    | nil => rfl
    | cons i is ih =>
      rw [List.map_cons, List.mapM_cons, ih fun j hj => h j (by simp [hj])]
      simp only [parse_decimal (h i (by simp))]
      rfl
  show ((is.map fun i => Json.str (decimal i)).mapM (fun
      | Json.str s => parseU64 s
      | _ => none)).bind _ = _
  rw [this]
  rfl

/-- A submission of indices with one parameter in the path -/
theorem post_open {e : Endpoint} (he : ValidEndpoint e) {head tail : String} {s : List Char}
    {k : Kind} {a : Arg} {is : List Nat} (i : Nat) {route : Route} (hi : routes[i]? = some route)
    (hs : Plain s) (ha : k.read s = some a) (his : ∀ i ∈ is, i < 2 ^ 64)
    (hc : decide (framed head tail = true ∧ head.toList.head? = some 'e' ∧ route.method = .POST ∧
      route.segs = shape head tail ∧ route.params = [k] ∧ route.versioned = false ∧
      route.body = .indices ∧ ∀ p ∈ route.query, p.2.2 ≠ .required) = true) :
    serve (base e) (http_post e (path3 head s tail) (.arr (is.map fun i => .str (decimal i)))) =
      some { name := route.name, path := [a], body := .indices is } := by
  obtain ⟨h1, h2, h3, h4, h5, h6, h7, h8⟩ := of_decide_eq_true hc
  exact serve_open route (List.mem_of_getElem? hi) (built_open he rfl h1 h2 hs) h3 h4 h1 hs h5 ha
    (.nil _) ⟨by simp, fun p hp hr => absurd hr (h8 p hp)⟩ rfl (by rw [h6]; rfl)
    (by rw [h7]; exact read_indices his)

/-! ## Calls with a query -/

/-- A request to an operation: below a path, with a query that it reads -/
structure Sent (route : Route) (target : List Char) (r : Request) (qs : List (String × List Arg))
    (m : Method) (v : Option (List Char)) (b : Option Json) : Prop where
  built : ∃ ps, Built r target ps ∧ Reads route.query ps qs
  method : r.method = m
  version : r.version = v
  body : r.body = b

theorem Sent.start {route : Route} {t : List Char} {r : Request} (h : Built r t []) :
    Sent route t r [] r.method r.version r.body := ⟨⟨[], h, .nil _⟩, rfl, rfl, rfl⟩

theorem sent_get {route : Route} {e : Endpoint} (he : ValidEndpoint e) {path : String}
    (h : closed path = true) :
    Sent route (base e ++ path.toList) (http_get e path.toList) [] .GET none none :=
  .start (built_closed he rfl h)

theorem sent_post {route : Route} {e : Endpoint} (he : ValidEndpoint e) {path : String} {j : Json}
    {v : Option (List Char)} (h : closed path = true) :
    Sent route (base e ++ path.toList) { http_post e path.toList j with version := v } [] .POST v
      (some j) :=
  .start (built_closed he rfl h)

theorem sent_get_open {route : Route} {e : Endpoint} (he : ValidEndpoint e) {head tail : String}
    {s : List Char} (hs : Plain s) (hf : framed head tail = true)
    (hh : head.toList.head? = some 'e') :
    Sent route (base e ++ path3 head s tail) (http_get e (path3 head s tail)) [] .GET none none :=
  .start (built_open he rfl hf hh hs)

/-- Whether an operation knows a parameter -/
def knows (route : Route) (name : String) (kind : Kind) (mode : Mode) : Bool :=
  decide ((route.query.find? fun p => p.1.toList == name.toList) = some (name, kind, mode)) &&
    name.toList.all fun c => c.isAlphanum || c == '_'

theorem knows_find {route : Route} {name : String} {kind : Kind} {mode : Mode}
    (h : knows route name kind mode = true) :
    (route.query.find? fun p => p.1.toList == name.toList) = some (name, kind, mode) := by
  simp only [knows, Bool.and_eq_true, decide_eq_true_eq] at h
  exact h.1

theorem knows_plain {route : Route} {name : String} {kind : Kind} {mode : Mode}
    (h : knows route name kind mode = true) : Plain name.toList := by
  simp only [knows, Bool.and_eq_true] at h
  exact plain_of_all h.2

section
variable {route : Route} {t : List Char} {r : Request} {qs : List (String × List Arg)}
  {m : Method} {v : Option (List Char)} {b : Option Json}

theorem Sent.one (h : Sent route t r qs m v b) {name : String} {kind : Kind} (mode : Mode)
    {text : List Char} {a : Arg} (hk : knows route name kind mode = true) (hm : mode ≠ .list)
    (hp : Plain text) (hv : kind.read text = some a) :
    Sent route t (r.query name text) (qs ++ [(name, [a])]) m v b := by
  obtain ⟨⟨ps, hb, hr⟩, h1, h2, h3⟩ := h
  exact ⟨⟨_, hb.query (knows_plain hk) hp.light, hr.append (reads_one (knows_find hk) hm hv)⟩, h1, h2, h3⟩

theorem Sent.maybe (h : Sent route t r qs m v b) {name : String} {kind : Kind} (mode : Mode)
    {α : Type} {x : Option α} {text : α → List Char} {arg : α → Arg}
    (hk : knows route name kind mode = true) (hm : mode ≠ .list)
    (hp : ∀ a ∈ x, Plain (text a)) (hv : ∀ a ∈ x, kind.read (text a) = some (arg a)) :
    Sent route t (r.query? name (x.map text)) (qs ++ opt name (x.map arg)) m v b := by
  obtain ⟨⟨ps, hb, hr⟩, h1, h2, h3⟩ := h
  obtain ⟨e1, e2, e3⟩ := query?_fields r name (x.map text)
  refine ⟨⟨_, hb.query? (knows_plain hk) ?_, hr.append (reads_opt (knows_find hk) hm hv)⟩, e1.trans h1,
    e2.trans h2, e3.trans h3⟩
  intro s hs
  obtain ⟨a, ha, rfl⟩ := Option.map_eq_some_iff.1 hs
  exact (hp a ha).light

theorem Sent.list (h : Sent route t r qs m v b) {name : String} {kind : Kind}
    {α : Type} {xs : List α} {text : α → List Char} {arg : α → Arg}
    (hk : knows route name kind .list = true)
    (hp : ∀ a ∈ xs, Plain (text a)) (hv : ∀ a ∈ xs, kind.read (text a) = some (arg a)) :
    Sent route t (r.queryList name (xs.map text)) (qs ++ many name (xs.map arg)) m v b := by
  obtain ⟨⟨ps, hb, hr⟩, h1, h2, h3⟩ := h
  obtain ⟨e1, e2, e3⟩ := queryList_fields r name (xs.map text)
  refine ⟨⟨_, hb.queryList (knows_plain hk) ?_, hr.append (reads_list (knows_find hk) hp hv)⟩, e1.trans h1,
    e2.trans h2, e3.trans h3⟩
  intro s hs
  obtain ⟨a, ha, rfl⟩ := List.mem_map.1 hs
  exact hp a ha

/-- The parameters that an operation requires, all of them, once -/
def complete (route : Route) (names : List String) : Prop :=
  names.Nodup ∧ ∀ p ∈ route.query, p.2.2 = .required → p.1 ∈ names

theorem Sent.closed {e : Endpoint} {path : String} {w : Option Fork} {body : Body}
    (h : Sent route (base e ++ path.toList) r qs m v b) (i : Nat) (hi : routes[i]? = some route)
    (hn : complete route (qs.map (·.1))) (hv : readVersion v = some w)
    (hb : readBody route.body b = some body)
    (hc : decide (route.method = m ∧ route.segs = (split '/' path.toList).map .lit ∧
      route.params = [] ∧ w.isSome = route.versioned) = true) :
    serve (base e) r = some { name := route.name, path := [], query := qs, version := w, body } := by
  obtain ⟨h1, h2, h3, h4⟩ := of_decide_eq_true hc
  obtain ⟨⟨ps, hb', hr⟩, e1, e2, e3⟩ := h
  exact serve_closed route (List.mem_of_getElem? hi) hb' (h1.trans e1.symm) h2 h3 hr hn
    (e2 ▸ hv) h4 (e3 ▸ hb)

theorem Sent.open {e : Endpoint} {head tail : String} {s : List Char} {k : Kind} {a : Arg}
    {w : Option Fork} {body : Body}
    (h : Sent route (base e ++ path3 head s tail) r qs m v b) (i : Nat)
    (hi : routes[i]? = some route) (hs : Plain s) (ha : k.read s = some a)
    (hn : complete route (qs.map (·.1))) (hv : readVersion v = some w)
    (hb : readBody route.body b = some body)
    (hc : decide (framed head tail = true ∧ route.method = m ∧ route.segs = shape head tail ∧
      route.params = [k] ∧ w.isSome = route.versioned) = true) :
    serve (base e) r = some { name := route.name, path := [a], query := qs, version := w, body } := by
  obtain ⟨h1, h2, h3, h4, h5⟩ := of_decide_eq_true hc
  obtain ⟨⟨ps, hb', hr⟩, e1, e2, e3⟩ := h
  exact serve_open route (List.mem_of_getElem? hi) hb' (h2.trans e1.symm) h3 h1 hs h4 ha hr hn
    (e2 ▸ hv) h5 (e3 ▸ hb)

end

theorem complete_sublist {route : Route} {names : List String}
    (h : names.Sublist (route.query.map (·.1)))
    (hc : decide ((route.query.map (·.1)).Nodup ∧ ∀ p ∈ route.query, p.2.2 ≠ .required) = true) :
    complete route names := by
  obtain ⟨h1, h2⟩ := of_decide_eq_true hc
  exact ⟨h.nodup h1, fun p hp hr => absurd hr (h2 p hp)⟩

/-! ## What is served -/

theorem serve_some {b : List Char} {r : Request} {op : Operation} (h : serve b r = some op) :
    ∃ target path pairs route, after b r.url = some target ∧
      readTarget target = some (path, pairs) ∧ route ∈ routes ∧
      route.read r path pairs = some op := by
  unfold serve at h
  simp only [Option.bind_eq_bind, Option.bind_eq_some_iff] at h
  obtain ⟨target, h1, ⟨path, pairs⟩, h2, h3⟩ := h
  obtain ⟨route, h4, h5⟩ := List.exists_of_findSome?_eq_some h3
  exact ⟨target, path, pairs, route, h1, h2, h4, h5⟩

end Verif.Spec.Beacon
