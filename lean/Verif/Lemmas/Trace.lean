import Verif.Trace
import Verif.Spec.Trace

/-!
# The tracer computes `Spec.traced`

The tracer's three passes (collect artefacts, trace relations, report dangling links) are followed
by invariants; the outcome is `trace_eq`.
-/

set_option linter.unusedSimpArgs false

namespace Reqtrace

open Spec

/-! ## Folds -/

/-- A monadic loop whose body either fails with a static error or succeeds. -/
theorem foldlM_check {σ α ε : Type} (Inv : σ → Prop) (f : σ → α → Except ε σ) (p : α → Bool)
    (err : α → ε) (g : σ → α → σ)
    (h : ∀ s a, Inv s → f s a = if p a then .ok (g s a) else .error (err a))
    (hInv : ∀ s a, Inv s → Inv (g s a)) (l : List α) (s : σ) (hs : Inv s) :
    l.foldlM f s = match l.find? (fun a => !p a) with
      | none => .ok (l.foldl g s)
      | some a => .error (err a) := by
  induction l generalizing s with
  | nil => rfl
  | cons a t ih =>
    rw [List.foldlM_cons, h s a hs]
    cases hp : p a with
    | false => simp [hp, bind, Except.bind]
    | true =>
      simp only [if_true, bind, Except.bind]
      rw [ih _ (hInv s a hs)]
      simp [hp]

theorem foldlM_check_const {σ α ε : Type} (Inv : σ → Prop) (f : σ → α → Except ε σ) (p : α → Bool)
    (err : ε) (g : σ → α → σ)
    (h : ∀ s a, Inv s → f s a = if p a then .ok (g s a) else .error err)
    (hInv : ∀ s a, Inv s → Inv (g s a)) (l : List α) (s : σ) (hs : Inv s) :
    l.foldlM f s = if l.all p then .ok (l.foldl g s) else .error err := by
  rw [foldlM_check Inv f p (fun _ => err) g h hInv l s hs]
  cases hf : l.find? (fun a => !p a) with
  | none =>
    have : l.all p = true := by simpa [List.find?_eq_none] using hf
    simp [this]
  | some a =>
    have h1 := List.mem_of_find?_eq_some hf
    have h2 := List.find?_some hf
    have : l.all p = false := by
      rw [List.all_eq_false]; exact ⟨a, h1, by simpa using h2⟩
    simp [this]

/-! ## Ownership -/

theorem ids_sorted {art : Artefact} (h : ∀ k req, art.requirements.get k = some req → req.id = k) :
    (art.requirements.values.map (·.id)).Pairwise (fun a b => compare a b = .lt) := by
  have : art.requirements.values.map (·.id) = art.requirements.keys := by
    simp only [BMap.values, BMap.keys, List.map_map]
    apply List.map_congr_left
    rintro ⟨k, r⟩ he
    exact h k r ((BMap.get_eq_some_iff _ _ _).2 he)
  rw [this]; exact BMap.keys_sorted _

theorem owned_sorted {g : Graph} (hk : Keyed g) (a : ArtefactId) :
    ((owned g a).map (·.id)).Pairwise (fun a b => compare a b = .lt) := by
  unfold owned
  cases h : g.artefacts.get a with
  | none => simp
  | some art =>
    have h2 := ids_sorted (fun k req => hk.requirement a art h k req)
    rw [List.pairwise_map] at h2 ⊢
    exact h2.filter _

theorem nodup_of_sorted {l : List Str} (h : l.Pairwise (fun a b => compare a b = .lt)) :
    l.Nodup := by
  refine h.imp ?_
  rintro a b h rfl
  simp at h

/-- In a list without repeated ids, filtering by id is looking up by id. -/
theorem filter_id_eq_find {l : List Requirement} (h : (l.map (·.id)).Nodup) (id : RequirementId) :
    l.filter (fun r => r.id == id) = (l.find? (fun r => r.id == id)).toList := by
  induction l with
  | nil => rfl
  | cons a t ih =>
    simp only [List.map_cons, List.nodup_cons] at h
    by_cases ha : a.id = id
    · have hb : (a.id == id) = true := by simpa using ha
      have : t.filter (fun r => r.id == id) = [] := by
        rw [List.filter_eq_nil_iff]
        intro r hr he
        apply h.1
        rw [ha, ← (by simpa using he : r.id = id)]
        exact List.mem_map_of_mem hr
      simp [List.filter_cons, List.find?_cons, hb, this]
    · have hb : (a.id == id) = false := by simpa using ha
      simp only [List.filter_cons, List.find?_cons, hb]
      exact ih h.2

theorem mem_owned {g : Graph} (hk : Keyed g) (a : ArtefactId) (r : Requirement) :
    r ∈ owned g a ↔ Owns g a r := by
  unfold owned Owns Defines
  cases h : g.artefacts.get a with
  | none => simp
  | some art =>
    simp only [List.mem_filter, BMap.mem_values_iff, List.all_eq_true, Option.some.injEq,
      exists_eq_left']
    constructor
    · rintro ⟨⟨k, hr⟩, h2⟩
      have hid := hk.requirement a art h k r hr
      subst hid
      refine ⟨hr, ?_⟩
      rintro b r' hlt ⟨art', hb, hr'⟩ he
      have := h2 (b, art') ((BMap.get_eq_some_iff _ _ _).1 hb)
      simp [hlt, ← he, hr'] at this
    · rintro ⟨hr, h2⟩
      refine ⟨⟨_, hr⟩, ?_⟩
      rintro ⟨b, art'⟩ hb
      have hb := (BMap.get_eq_some_iff _ _ _).2 hb
      by_cases hlt : compare b a = .lt
      · cases hr' : art'.requirements.get r.id with
        | none => simp [hr']
        | some r' =>
          have hid := hk.requirement b art' hb _ _ hr'
          exact absurd hid (h2 b r' hlt ⟨art', hb, by rw [hid]; exact hr'⟩)
      · simp [hlt]

/-! ## Second pass: relations -/

/-- The tracer's index of artefacts is the one of the graph. -/
structure Idx (g : Graph) (t : Tracer) : Prop where
  arts : ∀ a, (t.tracedArtefacts.get a).map (·.artefact) = g.artefacts.get a
  byId : ∀ a ta, t.tracedArtefacts.get a = some ta → ∀ id,
    ta.requirementsById.get id = (owned g a).find? (fun r => r.id == id)
  cover : ∀ a ta, t.tracedArtefacts.get a = some ta → ∀ u,
    (ta.requirementsThatCover.get u).getD [] = (owned g a).flatMap (fun l =>
      (l.covers.filter (fun ref => ref.id == u)).map (fun ref => (l, ref)))

/-- The effect of one established coverage on the tracer. -/
def applyEvent (g : Graph) (rel : Relation) (t : Tracer) (e : Event) : Tracer :=
  { t with
    errors := t.errors ++ titleErrors g rel e
    tracedArtefacts := t.tracedArtefacts.modify e.lowerArt
      (fun a => { a with derived := a.derived.erase e.lower.id })
    invalidDependsLinks := if e.dir = .downwards
      then t.invalidDependsLinks.erase (e.upper.id, e.lower.id) else t.invalidDependsLinks
    invalidCoversLinks := if e.dir = .upwards
      then t.invalidCoversLinks.erase (e.upper.id, e.lower.id) else t.invalidCoversLinks }

theorem applyEvent_get (g : Graph) (rel : Relation) (t : Tracer) (e : Event) (a : ArtefactId) :
    (applyEvent g rel t e).tracedArtefacts.get a =
      if a = e.lowerArt then (t.tracedArtefacts.get a).map
        (fun a => { a with derived := a.derived.erase e.lower.id })
      else t.tracedArtefacts.get a := by
  simp only [applyEvent, BMap.get_modify]

theorem Idx.congr {g : Graph} {t t' : Tracer} (h : Idx g t)
    (he : ∀ a, (t'.tracedArtefacts.get a).map
        (fun ta => (ta.artefact, ta.requirementsById, ta.requirementsThatCover)) =
      (t.tracedArtefacts.get a).map
        (fun ta => (ta.artefact, ta.requirementsById, ta.requirementsThatCover))) : Idx g t' := by
  constructor
  · intro a
    rw [← h.arts a]
    have := congrArg (Option.map (·.1)) (he a)
    simpa [Option.map_map, Function.comp_def] using this
  · intro a ta hta id
    have h1 := he a
    rw [hta] at h1
    cases ht : t.tracedArtefacts.get a with
    | none => rw [ht] at h1; simp at h1
    | some ta' =>
      rw [ht] at h1; simp at h1
      rw [h1.2.1]; exact h.byId a ta' ht id
  · intro a ta hta id
    have h1 := he a
    rw [hta] at h1
    cases ht : t.tracedArtefacts.get a with
    | none => rw [ht] at h1; simp at h1
    | some ta' =>
      rw [ht] at h1; simp at h1
      rw [h1.2.2]; exact h.cover a ta' ht id

theorem Idx.applyEvent {g : Graph} {t : Tracer} (h : Idx g t) (rel : Relation) (e : Event) :
    Idx g (applyEvent g rel t e) := by
  apply h.congr
  intro a
  rw [applyEvent_get]
  split
  · simp [Option.map_map, Function.comp_def]
  · rfl

theorem Idx.applyEvents {g : Graph} {t : Tracer} (h : Idx g t) (rel : Relation) (es : List Event) :
    Idx g (es.foldl (Reqtrace.applyEvent g rel) t) := by
  induction es generalizing t with
  | nil => exact h
  | cons e es ih => exact ih (h.applyEvent rel e)

theorem Idx.get {g : Graph} {t : Tracer} (h : Idx g t) {a : ArtefactId} {art : Artefact}
    (ha : g.artefacts.get a = some art) :
    ∃ ta, t.tracedArtefacts.get a = some ta ∧ ta.artefact = art := by
  have := h.arts a
  rw [ha] at this
  simpa using this

/-- The effect of a list of coverages on the state within one upper requirement. -/
def RelState.apply (g : Graph) (rel : Relation) (s : RelState) (es : List Event) : RelState :=
  ⟨es.foldl (applyEvent g rel) s.tracer, s.covered ++ es.map Event.coverage,
    s.isCovered || !es.isEmpty⟩

theorem RelState.apply_nil (g : Graph) (rel : Relation) (s : RelState) : s.apply g rel [] = s := by
  simp [RelState.apply]

theorem RelState.apply_apply (g : Graph) (rel : Relation) (s : RelState) (es es' : List Event) :
    (s.apply g rel es).apply g rel es' = s.apply g rel (es ++ es') := by
  cases es <;> simp [RelState.apply, Bool.or_assoc]

theorem RelState.foldl_apply {α : Type} (g : Graph) (rel : Relation) (ev : α → List Event)
    (l : List α) (s : RelState) :
    l.foldl (fun s a => s.apply g rel (ev a)) s = s.apply g rel (l.flatMap ev) := by
  induction l generalizing s with
  | nil => simp [apply_nil]
  | cons a t ih => simp [ih, apply_apply]

/-- Whether artefact `a` exists. -/
def exist (g : Graph) (a : ArtefactId) : Bool := (g.artefacts.get a).isSome

theorem traceDependsLower_eq {g : Graph} (hk : Keyed g) (rel : Relation) (u : Requirement)
    (ref : Reference) (s : RelState) (a : ArtefactId) (h : Idx g s.tracer) :
    traceDependsLower u ref s a = if exist g a then
      .ok (s.apply g rel (((owned g a).filter (fun l => l.id == ref.id)).map
        fun l => ⟨a, u, l, ref, .downwards⟩)) else .error .traceLower := by
  unfold traceDependsLower exist
  have ha := h.arts a
  cases hg : s.tracer.tracedArtefacts.get a with
  | none => rw [hg] at ha; simp [← ha, orPanic, bind, Except.bind]
  | some ta =>
    rw [hg] at ha
    simp only [Option.map_some] at ha
    simp only [orPanic, bind, Except.bind, ← ha, Option.isSome_some, if_true]
    rw [h.byId a ta hg, filter_id_eq_find (nodup_of_sorted (owned_sorted hk a))]
    cases hf : (owned g a).find? (fun r => r.id == ref.id) with
    | none => simp [RelState.apply_nil, pure, Except.pure]
    | some l =>
      simp only [pure, Except.pure, Option.toList_some, List.map_cons, List.map_nil,
        RelState.apply, List.foldl_cons, List.foldl_nil, applyEvent, Event.coverage,
        List.isEmpty_cons, Bool.not_false, Bool.or_true, titleErrors]
      congr 3
      cases ref.title with
      | none => simp [needsTitle, ← ha]
      | some t =>
        simp only
        by_cases ht : l.title = some t
        · simp [ht]
        · simp [ht, Ne.symm ht]

theorem traceDepends_eq {g : Graph} (hk : Keyed g) (rel : Relation) (u : Requirement)
    (s : RelState) (h : Idx g s.tracer) :
    traceDepends rel u s = if u.depends.all (fun _ => rel.lower.all (exist g)) then
      .ok (s.apply g rel (downEvents g rel u)) else .error .traceLower := by
  unfold traceDepends downEvents
  rw [foldlM_check_const (fun s => Idx g s.tracer) _ (fun _ => rel.lower.all (exist g)) .traceLower
    (fun s ref => s.apply g rel (rel.lower.flatMap fun a =>
      ((owned g a).filter (fun l => l.id == ref.id)).map fun l => ⟨a, u, l, ref, .downwards⟩))
    _ _ _ _ h]
  · rw [RelState.foldl_apply]
  · intro s ref hs
    rw [foldlM_check_const (fun s => Idx g s.tracer) _ (exist g) .traceLower _
      (fun s a hs => traceDependsLower_eq hk rel u ref s a hs) _ _ _ hs]
    · rw [RelState.foldl_apply]
    · intro s a hs; exact hs.applyEvents rel _
  · intro s a hs; exact hs.applyEvents rel _

theorem traceCover_foldl {g : Graph} (rel : Relation) (upperArt : Artefact)
    (hu : g.artefacts.get rel.upper = some upperArt) (u : Requirement) (a : ArtefactId)
    (l : List (Requirement × Reference)) (s : RelState) :
    l.foldl (traceCover upperArt u a) s =
      s.apply g rel (l.map (fun e => ⟨a, u, e.1, e.2, .upwards⟩)) := by
  induction l generalizing s with
  | nil => simp [RelState.apply_nil]
  | cons e t ih =>
    rw [List.foldl_cons, ih, List.map_cons]
    have : traceCover upperArt u a s e = s.apply g rel [⟨a, u, e.1, e.2, .upwards⟩] := by
      unfold traceCover
      simp only [RelState.apply, List.foldl_cons, List.foldl_nil, applyEvent, Event.coverage,
        List.isEmpty_cons, Bool.not_false, Bool.or_true, titleErrors, List.map_cons, List.map_nil]
      congr 3
      cases e.2.title with
      | none => simp [needsTitle, hu]
      | some t =>
        simp only
        by_cases ht : u.title = some t
        · simp [ht]
        · simp [ht, Ne.symm ht]
    rw [this, RelState.apply_apply]
    rfl

theorem traceCoversLower_eq {g : Graph} (rel : Relation) (upperArt : Artefact)
    (hu : g.artefacts.get rel.upper = some upperArt) (u : Requirement) (s : RelState)
    (a : ArtefactId) (h : Idx g s.tracer) :
    traceCoversLower upperArt u s a = if exist g a then
      .ok (s.apply g rel ((owned g a).flatMap fun l =>
        (l.covers.filter (fun ref => ref.id == u.id)).map fun ref => ⟨a, u, l, ref, .upwards⟩))
      else .error .traceLower := by
  unfold traceCoversLower exist
  have ha := h.arts a
  cases hg : s.tracer.tracedArtefacts.get a with
  | none => rw [hg] at ha; simp [← ha, orPanic, bind, Except.bind]
  | some ta =>
    rw [hg] at ha
    simp only [Option.map_some] at ha
    simp only [orPanic, bind, Except.bind, ← ha, Option.isSome_some, if_true]
    have hc := h.cover a ta hg u.id
    have he : ((owned g a).flatMap fun l =>
        (l.covers.filter (fun ref => ref.id == u.id)).map
          fun ref => (⟨a, u, l, ref, .upwards⟩ : Event)) =
        ((ta.requirementsThatCover.get u.id).getD []).map
          (fun e => ⟨a, u, e.1, e.2, .upwards⟩) := by
      rw [hc, List.map_flatMap]
      simp [List.map_map, Function.comp_def]
    rw [he]
    cases hf : ta.requirementsThatCover.get u.id with
    | none => simp [RelState.apply_nil, pure, Except.pure]
    | some l =>
      simp only [pure, Except.pure, Option.getD_some]
      rw [traceCover_foldl rel upperArt hu]

/-- The effect of one upper requirement on the loop variables of `trace_relation`. -/
def RelAcc.apply (g : Graph) (rel : Relation) (acc : RelAcc) (u : Requirement) : RelAcc :=
  ⟨(reqEvents g rel u).foldl (applyEvent g rel) acc.tracer,
    acc.covered ++ (reqEvents g rel u).map Event.coverage,
    acc.uncovered ++ (if (reqEvents g rel u).isEmpty then [u.id] else []),
    acc.anyReqCovered || !(reqEvents g rel u).isEmpty⟩

theorem traceUpperReq_eq {g : Graph} (hk : Keyed g) (rel : Relation) (upperArt : Artefact)
    (hu : g.artefacts.get rel.upper = some upperArt) (acc : RelAcc) (u : Requirement)
    (h : Idx g acc.tracer) :
    traceUpperReq rel upperArt acc u = if rel.lower.all (exist g) then
      .ok (acc.apply g rel u) else .error .traceLower := by
  unfold traceUpperReq
  rw [traceDepends_eq hk rel u _ h]
  by_cases hl : rel.lower.all (exist g) = true
  · have : (u.depends.all fun _ => rel.lower.all (exist g)) = true := by simp [hl]
    rw [this]
    simp only [hl, if_true, bind, Except.bind]
    rw [foldlM_check_const (fun s => Idx g s.tracer) _ (exist g) .traceLower _
      (fun s a hs => traceCoversLower_eq rel upperArt hu u s a hs)
      (fun s a hs => hs.applyEvents rel _) _ _ (h.applyEvents rel _)]
    rw [RelState.foldl_apply, RelState.apply_apply]
    simp only [hl, if_true, pure, Except.pure, RelAcc.apply, RelState.apply]
    show _ = _
    have he : downEvents g rel u ++ (rel.lower.flatMap fun a => (owned g a).flatMap fun l =>
      (l.covers.filter (fun ref => ref.id == u.id)).map
        fun ref => (⟨a, u, l, ref, .upwards⟩ : Event)) = reqEvents g rel u := rfl
    rw [he]
    simp only [Bool.false_or]
    congr 2
    cases (reqEvents g rel u).isEmpty <;> simp
  · have hl : rel.lower.all (exist g) = false := by simpa using hl
    cases hd : u.depends with
    | nil =>
      simp only [List.all_nil, if_true, bind, Except.bind]
      rw [foldlM_check_const (fun s => Idx g s.tracer) _ (exist g) .traceLower _
        (fun s a hs => traceCoversLower_eq rel upperArt hu u s a hs)
        (fun s a hs => hs.applyEvents rel _) _ _ (h.applyEvents rel _)]
      simp [hl]
    | cons d ds => simp [hl, bind, Except.bind]

theorem RelAcc.foldl_apply (g : Graph) (rel : Relation) (us : List Requirement) (acc : RelAcc) :
    us.foldl (fun acc u => acc.apply g rel u) acc =
      ⟨(us.flatMap (reqEvents g rel)).foldl (applyEvent g rel) acc.tracer,
        acc.covered ++ (us.flatMap (reqEvents g rel)).map Event.coverage,
        acc.uncovered ++ (us.filter (fun u => (reqEvents g rel u).isEmpty)).map (·.id),
        acc.anyReqCovered || !(us.flatMap (reqEvents g rel)).isEmpty⟩ := by
  induction us generalizing acc with
  | nil => simp
  | cons u t ih =>
    rw [List.foldl_cons, ih]
    simp only [RelAcc.apply, List.flatMap_cons, List.foldl_append, List.map_append,
      List.append_assoc, List.filter_cons]
    congr 1
    · cases (reqEvents g rel u).isEmpty <;> simp
    · cases h : (reqEvents g rel u) <;> simp [Bool.or_assoc]

/-- The effect of one relation on the tracer. -/
def relApply (g : Graph) (t : Tracer) (rel : Relation) : Tracer :=
  let t' := (relEvents g rel).foldl (applyEvent g rel) t
  { t' with
    errors := t'.errors ++ (if (relEvents g rel).isEmpty then [.unusedRelation rel] else [])
    relations := t'.relations ++ [tracedRelation g rel] }

/-- The condition of `Spec.Traceable` for one relation. -/
def relOk (g : Graph) (rel : Relation) : Bool :=
  match g.artefacts.get rel.upper with
  | none => false
  | some art => art.requirements.values.isEmpty || rel.lower.all (exist g)

/-- Which panic an untraceable relation causes. -/
def relPanic (g : Graph) (rel : Relation) : Panic :=
  match g.artefacts.get rel.upper with
  | none => .traceUpper
  | some _ => .traceLower

theorem traceRelation_eq {g : Graph} (hk : Keyed g) (t : Tracer) (rel : Relation) (h : Idx g t) :
    traceRelation t rel = if relOk g rel then .ok (relApply g t rel)
      else .error (relPanic g rel) := by
  unfold traceRelation relOk relPanic
  have ha := h.arts rel.upper
  cases hg : t.tracedArtefacts.get rel.upper with
  | none => rw [hg] at ha; simp [← ha, orPanic, bind, Except.bind]
  | some ta =>
    rw [hg] at ha
    have ha : g.artefacts.get rel.upper = some ta.artefact := by rw [← ha]; rfl
    simp only [orPanic, bind, Except.bind, ha]
    rw [foldlM_check_const (fun acc => Idx g acc.tracer) _ (fun _ => rel.lower.all (exist g))
      .traceLower _ (fun acc u hs => traceUpperReq_eq hk rel ta.artefact ha acc u hs)
      (fun s a hs => hs.applyEvents rel _) _ _ h]
    have hall : (ta.artefact.requirements.values.all fun _ => rel.lower.all (exist g)) =
        (ta.artefact.requirements.values.isEmpty || rel.lower.all (exist g)) := by
      cases ta.artefact.requirements.values with
      | nil => simp
      | cons r rs =>
        simp only [List.all_cons, List.isEmpty_cons, Bool.false_or]
        cases rel.lower.all (exist g) <;> simp
    rw [hall]
    cases hb : (ta.artefact.requirements.values.isEmpty || rel.lower.all (exist g)) with
    | false => simp
    | true =>
      simp only [if_true, pure, Except.pure]
      rw [RelAcc.foldl_apply]
      simp only [relApply, tracedRelation, relEvents, uncovered, upperReqs, ha, List.nil_append,
        Bool.false_or]
      congr 2
      cases (List.flatMap (reqEvents g rel) ta.artefact.requirements.values).isEmpty <;> simp

theorem Idx.relApply {g : Graph} {t : Tracer} (h : Idx g t) (rel : Relation) :
    Idx g (relApply g t rel) :=
  (h.applyEvents rel (relEvents g rel)).congr (fun _ => rfl)

theorem traceRelations_eq {g : Graph} (hk : Keyed g) (rels : List Relation) (t : Tracer)
    (h : Idx g t) :
    rels.foldlM traceRelation t = match rels.find? (fun rel => !relOk g rel) with
      | none => .ok (rels.foldl (relApply g) t)
      | some rel => .error (relPanic g rel) := by
  rw [foldlM_check (fun t => Idx g t) _ (relOk g) (relPanic g) (relApply g)
    (fun t rel ht => traceRelation_eq hk t rel ht) (fun _ _ ht => ht.relApply _) rels t h]
  cases rels.find? (fun rel => !relOk g rel) <;> rfl

/-! ### The state after the second pass -/

theorem applyEvents_fields (g : Graph) (rel : Relation) (es : List Event) (t : Tracer) :
    (es.foldl (applyEvent g rel) t).errors = t.errors ++ es.flatMap (titleErrors g rel) ∧
    (es.foldl (applyEvent g rel) t).relations = t.relations ∧
    (es.foldl (applyEvent g rel) t).reqById = t.reqById := by
  induction es generalizing t with
  | nil => simp
  | cons e es ih =>
    obtain ⟨h1, h2, h3⟩ := ih (applyEvent g rel t e)
    refine ⟨?_, ?_, ?_⟩
    · rw [List.foldl_cons, h1]; simp [applyEvent]
    · rw [List.foldl_cons, h2]; simp [applyEvent]
    · rw [List.foldl_cons, h3]; simp [applyEvent]

theorem applyEvents_covers (g : Graph) (rel : Relation) (es : List Event) (t : Tracer)
    (k : RequirementId × RequirementId) :
    k ∈ BSet.toList (es.foldl (applyEvent g rel) t).invalidCoversLinks ↔
      k ∈ BSet.toList t.invalidCoversLinks ∧
      ¬ ∃ e ∈ es, e.dir = .upwards ∧ (e.upper.id, e.lower.id) = k := by
  induction es generalizing t with
  | nil => simp
  | cons e es ih =>
    rw [List.foldl_cons, ih]
    simp only [applyEvent]
    by_cases hd : e.dir = .upwards
    · simp only [hd, if_true, BSet.mem_erase, List.mem_cons]
      constructor
      · rintro ⟨⟨h1, h2⟩, h3⟩
        refine ⟨h2, ?_⟩
        rintro ⟨e', rfl | he', h4, h5⟩
        · exact h1 h5.symm
        · exact h3 ⟨e', he', h4, h5⟩
      · rintro ⟨h1, h2⟩
        exact ⟨⟨fun h => h2 ⟨e, .inl rfl, hd, h.symm⟩, h1⟩,
          fun ⟨e', h3, h4⟩ => h2 ⟨e', .inr h3, h4⟩⟩
    · simp only [hd, if_false, List.mem_cons]
      refine and_congr_right fun _ => not_congr ⟨?_, ?_⟩
      · rintro ⟨e', h1, h2⟩; exact ⟨e', .inr h1, h2⟩
      · rintro ⟨e', rfl | h1, h2⟩
        · exact absurd h2.1 hd
        · exact ⟨e', h1, h2⟩

theorem applyEvents_depends (g : Graph) (rel : Relation) (es : List Event) (t : Tracer)
    (k : RequirementId × RequirementId) :
    k ∈ BSet.toList (es.foldl (applyEvent g rel) t).invalidDependsLinks ↔
      k ∈ BSet.toList t.invalidDependsLinks ∧
      ¬ ∃ e ∈ es, e.dir = .downwards ∧ (e.upper.id, e.lower.id) = k := by
  induction es generalizing t with
  | nil => simp
  | cons e es ih =>
    rw [List.foldl_cons, ih]
    simp only [applyEvent]
    by_cases hd : e.dir = .downwards
    · simp only [hd, if_true, BSet.mem_erase, List.mem_cons]
      constructor
      · rintro ⟨⟨h1, h2⟩, h3⟩
        refine ⟨h2, ?_⟩
        rintro ⟨e', rfl | he', h4, h5⟩
        · exact h1 h5.symm
        · exact h3 ⟨e', he', h4, h5⟩
      · rintro ⟨h1, h2⟩
        exact ⟨⟨fun h => h2 ⟨e, .inl rfl, hd, h.symm⟩, h1⟩,
          fun ⟨e', h3, h4⟩ => h2 ⟨e', .inr h3, h4⟩⟩
    · simp only [hd, if_false, List.mem_cons]
      refine and_congr_right fun _ => not_congr ⟨?_, ?_⟩
      · rintro ⟨e', h1, h2⟩; exact ⟨e', .inr h1, h2⟩
      · rintro ⟨e', rfl | h1, h2⟩
        · exact absurd h2.1 hd
        · exact ⟨e', h1, h2⟩

/-- Membership in the derived set of artefact `a`; false for an unknown artefact. -/
def InDerived (t : Tracer) (a : ArtefactId) (id : RequirementId) : Prop :=
  ∃ ta, t.tracedArtefacts.get a = some ta ∧ id ∈ ta.derived.toList

theorem applyEvents_derived (g : Graph) (rel : Relation) (es : List Event) (t : Tracer)
    (a : ArtefactId) (id : RequirementId) :
    InDerived (es.foldl (applyEvent g rel) t) a id ↔
      InDerived t a id ∧ ¬ ∃ e ∈ es, e.lowerArt = a ∧ e.lower.id = id := by
  induction es generalizing t with
  | nil => simp
  | cons e es ih =>
    rw [List.foldl_cons, ih]
    have key : InDerived (applyEvent g rel t e) a id ↔
        InDerived t a id ∧ ¬ (e.lowerArt = a ∧ e.lower.id = id) := by
      unfold InDerived
      rw [applyEvent_get]
      by_cases ha : a = e.lowerArt
      · cases hg : t.tracedArtefacts.get a with
        | none => simp
        | some ta =>
          simp only [ha, if_true, Option.map_some, Option.some.injEq, exists_eq_left',
            BSet.mem_erase, true_and]
          constructor
          · rintro ⟨h1, h2⟩; exact ⟨h2, fun h => h1 h.symm⟩
          · rintro ⟨h1, h2⟩; exact ⟨fun h => h2 h.symm, h1⟩
      · simp only [ha, if_false]
        constructor
        · intro h; exact ⟨h, fun h' => ha h'.1.symm⟩
        · exact fun h => h.1
    rw [key]
    constructor
    · rintro ⟨⟨h1, h2⟩, h3⟩
      refine ⟨h1, ?_⟩
      rintro ⟨e', he', h4⟩
      rcases List.mem_cons.1 he' with rfl | he'
      · exact h2 h4
      · exact h3 ⟨e', he', h4⟩
    · rintro ⟨h1, h2⟩
      exact ⟨⟨h1, fun h => h2 ⟨e, by simp, h⟩⟩, fun ⟨e', h3, h4⟩ => h2 ⟨e', by simp [h3], h4⟩⟩

theorem relApplys_fields (g : Graph) (rels : List Relation) (t : Tracer) :
    (rels.foldl (relApply g) t).errors = t.errors ++ rels.flatMap (relationErrors g) ∧
    (rels.foldl (relApply g) t).relations = t.relations ++ rels.map (tracedRelation g) ∧
    (rels.foldl (relApply g) t).reqById = t.reqById := by
  induction rels generalizing t with
  | nil => simp
  | cons rel rels ih =>
    obtain ⟨h1, h2, h3⟩ := ih (relApply g t rel)
    obtain ⟨h4, h5, h6⟩ := applyEvents_fields g rel (relEvents g rel) t
    refine ⟨?_, ?_, ?_⟩
    · rw [List.foldl_cons, h1]; simp [relApply, h4, relationErrors]
    · rw [List.foldl_cons, h2]; simp [relApply, h5]
    · rw [List.foldl_cons, h3]; simp [relApply, h6]

theorem exists_flatMap {α β : Type} (f : α → List β) (l : List α) (a : α) (p : β → Prop) :
    (∃ e ∈ (a :: l).flatMap f, p e) ↔ (∃ e ∈ f a, p e) ∨ ∃ e ∈ l.flatMap f, p e := by
  simp only [List.flatMap_cons, List.mem_append]
  constructor
  · rintro ⟨e, h | h, hp⟩
    · exact .inl ⟨e, h, hp⟩
    · exact .inr ⟨e, h, hp⟩
  · rintro (⟨e, h, hp⟩ | ⟨e, h, hp⟩)
    · exact ⟨e, .inl h, hp⟩
    · exact ⟨e, .inr h, hp⟩

theorem relApplys_covers (g : Graph) (rels : List Relation) (t : Tracer)
    (k : RequirementId × RequirementId) :
    k ∈ BSet.toList (rels.foldl (relApply g) t).invalidCoversLinks ↔
      k ∈ BSet.toList t.invalidCoversLinks ∧
      ¬ ∃ e ∈ rels.flatMap (relEvents g), e.dir = .upwards ∧ (e.upper.id, e.lower.id) = k := by
  induction rels generalizing t with
  | nil => simp
  | cons rel rels ih =>
    rw [List.foldl_cons, ih, exists_flatMap, not_or, ← and_assoc]
    have := applyEvents_covers g rel (relEvents g rel) t k
    exact and_congr_left fun _ => this

theorem relApplys_depends (g : Graph) (rels : List Relation) (t : Tracer)
    (k : RequirementId × RequirementId) :
    k ∈ BSet.toList (rels.foldl (relApply g) t).invalidDependsLinks ↔
      k ∈ BSet.toList t.invalidDependsLinks ∧
      ¬ ∃ e ∈ rels.flatMap (relEvents g), e.dir = .downwards ∧ (e.upper.id, e.lower.id) = k := by
  induction rels generalizing t with
  | nil => simp
  | cons rel rels ih =>
    rw [List.foldl_cons, ih, exists_flatMap, not_or, ← and_assoc]
    have := applyEvents_depends g rel (relEvents g rel) t k
    exact and_congr_left fun _ => this

theorem relApplys_derived (g : Graph) (rels : List Relation) (t : Tracer)
    (a : ArtefactId) (id : RequirementId) :
    InDerived (rels.foldl (relApply g) t) a id ↔
      InDerived t a id ∧
      ¬ ∃ e ∈ rels.flatMap (relEvents g), e.lowerArt = a ∧ e.lower.id = id := by
  induction rels generalizing t with
  | nil => simp
  | cons rel rels ih =>
    rw [List.foldl_cons, ih, exists_flatMap, not_or, ← and_assoc]
    have := applyEvents_derived g rel (relEvents g rel) t a id
    exact and_congr_left fun _ => this

/-! ## First pass: artefacts -/

theorem pushCover_getD (m : BMap RequirementId (List (Requirement × Reference)))
    (r : Requirement) (cov : Reference) (u : RequirementId) :
    ((pushCover m r cov).get u).getD [] =
      (m.get u).getD [] ++ if cov.id == u then [(r, cov)] else [] := by
  unfold pushCover
  by_cases h : u = cov.id
  · subst h
    split <;> rename_i hm <;> simp [BMap.get_insert, hm]
  · have : (cov.id == u) = false := by simpa using Ne.symm h
    split <;> simp [BMap.get_insert, h, this]

theorem pushCovers_getD (r : Requirement) (covs : List Reference) (u : RequirementId)
    (m : BMap RequirementId (List (Requirement × Reference))) :
    ((covs.foldl (fun m cov => pushCover m r cov) m).get u).getD [] =
      (m.get u).getD [] ++ (covs.filter (fun ref => ref.id == u)).map (fun ref => (r, ref)) := by
  induction covs generalizing m with
  | nil => simp
  | cons c cs ih =>
    rw [List.foldl_cons, ih, pushCover_getD, List.filter_cons]
    split <;> simp

theorem mem_foldl_add {α κ : Type} [Ord κ] [Std.TransOrd κ] [Std.LawfulEqOrd κ] [DecidableEq κ]
    (f : α → κ) (l : List α) (s : BSet κ) (k : κ) :
    k ∈ BSet.toList (l.foldl (fun s a => BSet.add s (f a)) s) ↔
      k ∈ BSet.toList s ∨ ∃ a ∈ l, k = f a := by
  induction l generalizing s with
  | nil => simp
  | cons a t ih =>
    rw [List.foldl_cons, ih, BSet.mem_add]
    simp only [List.mem_cons]
    constructor
    · rintro ((h | h) | ⟨b, hb, h⟩)
      · exact .inr ⟨a, .inl rfl, h⟩
      · exact .inl h
      · exact .inr ⟨b, .inr hb, h⟩
    · rintro (h | ⟨b, rfl | hb, h⟩)
      · exact .inl (.inr h)
      · exact .inl (.inl h)
      · exact .inr ⟨b, hb, h⟩

/-- What the loop of `add_artefact` over `rs` does, starting in `s` and ending in `s'`. -/
structure Added (art : Artefact) (rs : List Requirement) (s s' : AddState) : Prop where
  reqById : ∀ id, s'.tracer.reqById.get id =
    (s.tracer.reqById.get id).or ((rs.find? (fun r => r.id == id)).map (fun r => (art.id, r)))
  errors : s'.tracer.errors = s.tracer.errors ++ rs.filterMap (fun r =>
    (s.tracer.reqById.get r.id).map (fun p => .duplicateRequirement p.2 r))
  arts : s'.tracer.tracedArtefacts = s.tracer.tracedArtefacts
  rels : s'.tracer.relations = s.tracer.relations
  byId : ∀ id, s'.requirementsById.get id =
    ((rs.filter (fun r => (s.tracer.reqById.get r.id).isNone)).find? (fun r => r.id == id)).or
      (s.requirementsById.get id)
  cover : ∀ u, (s'.requirementsThatCover.get u).getD [] =
    (s.requirementsThatCover.get u).getD [] ++
      (rs.filter (fun r => (s.tracer.reqById.get r.id).isNone)).flatMap (fun l =>
        (l.covers.filter (fun ref => ref.id == u)).map (fun ref => (l, ref)))
  derived : ∀ id, id ∈ s'.derived.toList ↔ id ∈ s.derived.toList ∨
    (art.ignoreDerivedRequirements = false ∧
      ∃ r ∈ rs.filter (fun r => (s.tracer.reqById.get r.id).isNone), r.id = id)
  covers : ∀ k, k ∈ BSet.toList s'.tracer.invalidCoversLinks ↔
    k ∈ BSet.toList s.tracer.invalidCoversLinks ∨
      ∃ r ∈ rs.filter (fun r => (s.tracer.reqById.get r.id).isNone),
        ∃ ref ∈ r.covers, k = (ref.id, r.id)
  depends : ∀ k, k ∈ BSet.toList s'.tracer.invalidDependsLinks ↔
    k ∈ BSet.toList s.tracer.invalidDependsLinks ∨
      ∃ r ∈ rs.filter (fun r => (s.tracer.reqById.get r.id).isNone),
        ∃ ref ∈ r.depends, k = (r.id, ref.id)

theorem addRequirements (art : Artefact) (rs : List Requirement) (h : (rs.map (·.id)).Nodup)
    (s : AddState) : Added art rs s (rs.foldl (addRequirement art) s) := by
  induction rs generalizing s with
  | nil => constructor <;> simp
  | cons r rs ih =>
    simp only [List.map_cons, List.nodup_cons] at h
    have ih := ih h.2 (addRequirement art s r)
    rw [List.foldl_cons]
    cases hg : s.tracer.reqById.get r.id with
    | some p =>
      have hs : addRequirement art s r = { s with tracer := { s.tracer with
          errors := s.tracer.errors ++ [.duplicateRequirement p.2 r] } } := by
        unfold addRequirement; rw [hg]
      rw [hs] at ih ⊢
      constructor
      · intro id
        rw [ih.reqById]
        by_cases hid : r.id = id
        · subst hid; simp [hg]
        · simp [List.find?_cons, hid]
      · rw [ih.errors]; simp [hg]
      · rw [ih.arts]
      · rw [ih.rels]
      · intro id; rw [ih.byId]; simp [List.filter_cons, hg]
      · intro id; rw [ih.cover]; simp [List.filter_cons, hg]
      · intro id; rw [ih.derived]; simp [List.filter_cons, hg]
      · intro id; rw [ih.covers]; simp [List.filter_cons, hg]
      · intro id; rw [ih.depends]; simp [List.filter_cons, hg]
    | none =>
      have hget : ∀ id, (addRequirement art s r).tracer.reqById.get id =
          if id = r.id then some (art.id, r) else s.tracer.reqById.get id := by
        intro id; unfold addRequirement; rw [hg]; simp [BMap.get_insert]
      have hne : ∀ r' ∈ rs, r'.id ≠ r.id := by
        intro r' hr' he; exact h.1 (he ▸ List.mem_map_of_mem hr')
      have hfil : rs.filter (fun r' => ((addRequirement art s r).tracer.reqById.get r'.id).isNone) =
          rs.filter (fun r' => (s.tracer.reqById.get r'.id).isNone) := by
        apply List.filter_congr
        intro r' hr'
        rw [hget]; simp [hne r' hr']
      have hcons : (r :: rs).filter (fun r' => (s.tracer.reqById.get r'.id).isNone) =
          r :: rs.filter (fun r' => (s.tracer.reqById.get r'.id).isNone) := by
        rw [List.filter_cons]; simp [hg]
      constructor
      · intro id
        rw [ih.reqById, hget]
        by_cases hid : r.id = id
        · subst hid; simp [hg, List.find?_cons]
        · simp [List.find?_cons, hid, Ne.symm hid]
      · rw [ih.errors]
        have : (addRequirement art s r).tracer.errors = s.tracer.errors := by
          unfold addRequirement; rw [hg]
        rw [this, List.filterMap_cons, hg]
        simp only [Option.map_none]
        congr 1
        have aux : ∀ l : List Requirement, (∀ r' ∈ l, r'.id ≠ r.id) →
            l.filterMap (fun r' => ((addRequirement art s r).tracer.reqById.get r'.id).map
              (fun p => Error.duplicateRequirement p.2 r')) =
            l.filterMap (fun r' => (s.tracer.reqById.get r'.id).map
              (fun p => Error.duplicateRequirement p.2 r')) := by
          intro l hl
          induction l with
          | nil => rfl
          | cons x t iht =>
            rw [List.filterMap_cons, List.filterMap_cons, iht (fun r' h' => hl r' (by simp [h'])),
              hget, if_neg (hl x (by simp))]
        exact aux rs hne
      · rw [ih.arts]; unfold addRequirement; rw [hg]
      · rw [ih.rels]; unfold addRequirement; rw [hg]
      · intro id
        rw [ih.byId, hfil, hcons]
        have : (addRequirement art s r).requirementsById.get id =
            if id = r.id then some r else s.requirementsById.get id := by
          unfold addRequirement; rw [hg]; simp [BMap.get_insert]
        rw [this, List.find?_cons]
        by_cases hid : r.id = id
        · subst hid
          have : (rs.filter (fun r' => (s.tracer.reqById.get r'.id).isNone)).find?
              (fun r' => r'.id == r.id) = none := by
            rw [List.find?_eq_none]
            intro r' hr'
            simpa using hne r' (List.mem_filter.1 hr').1
          simp [this]
        · have hb : (r.id == id) = false := by simpa using hid
          simp only [hb, if_neg (Ne.symm hid)]
      · intro u
        rw [ih.cover, hfil, hcons]
        have : ((addRequirement art s r).requirementsThatCover.get u).getD [] =
            (s.requirementsThatCover.get u).getD [] ++
              (r.covers.filter (fun ref => ref.id == u)).map (fun ref => (r, ref)) := by
          unfold addRequirement; rw [hg]; exact pushCovers_getD r r.covers u _
        rw [this]; simp
      · intro id
        rw [ih.derived, hfil, hcons]
        have : id ∈ (addRequirement art s r).derived.toList ↔ id ∈ s.derived.toList ∨
            (art.ignoreDerivedRequirements = false ∧ r.id = id) := by
          unfold addRequirement; rw [hg]
          cases art.ignoreDerivedRequirements with
          | true => simp
          | false => simp [BSet.mem_add]; constructor <;> rintro (h | h) <;> simp [h]
        rw [this]
        simp only [List.mem_cons]
        constructor
        · rintro ((h1 | ⟨h1, h2⟩) | ⟨h1, r', h2, h3⟩)
          · exact .inl h1
          · exact .inr ⟨h1, r, .inl rfl, h2⟩
          · exact .inr ⟨h1, r', .inr h2, h3⟩
        · rintro (h1 | ⟨h1, r', rfl | h2, h3⟩)
          · exact .inl (.inl h1)
          · exact .inl (.inr ⟨h1, h3⟩)
          · exact .inr ⟨h1, r', h2, h3⟩
      · intro k
        rw [ih.covers, hfil, hcons]
        have : k ∈ BSet.toList (addRequirement art s r).tracer.invalidCoversLinks ↔
            k ∈ BSet.toList s.tracer.invalidCoversLinks ∨ ∃ ref ∈ r.covers, k = (ref.id, r.id) := by
          unfold addRequirement; rw [hg]
          exact mem_foldl_add (fun ref : Reference => (ref.id, r.id)) _ _ _
        rw [this]
        simp only [List.mem_cons]
        constructor
        · rintro ((h1 | h1) | ⟨r', h2, h3⟩)
          · exact .inl h1
          · exact .inr ⟨r, .inl rfl, h1⟩
          · exact .inr ⟨r', .inr h2, h3⟩
        · rintro (h1 | ⟨r', rfl | h2, h3⟩)
          · exact .inl (.inl h1)
          · exact .inl (.inr h3)
          · exact .inr ⟨r', h2, h3⟩
      · intro k
        rw [ih.depends, hfil, hcons]
        have : k ∈ BSet.toList (addRequirement art s r).tracer.invalidDependsLinks ↔
            k ∈ BSet.toList s.tracer.invalidDependsLinks ∨
              ∃ ref ∈ r.depends, k = (r.id, ref.id) := by
          unfold addRequirement; rw [hg]
          exact mem_foldl_add (fun ref : Reference => (r.id, ref.id)) _ _ _
        rw [this]
        simp only [List.mem_cons]
        constructor
        · rintro ((h1 | h1) | ⟨r', h2, h3⟩)
          · exact .inl h1
          · exact .inr ⟨r, .inl rfl, h1⟩
          · exact .inr ⟨r', .inr h2, h3⟩
        · rintro (h1 | ⟨r', rfl | h2, h3⟩)
          · exact .inl (.inl h1)
          · exact .inl (.inr h3)
          · exact .inr ⟨r', h2, h3⟩

/-- The first definition of `id` among some artefacts. -/
def seen (pre : List (ArtefactId × Artefact)) (id : RequirementId) : Option Requirement :=
  pre.findSome? (fun e => e.2.requirements.get id)

/-- The duplicate errors of one artefact. -/
def dupErrorsOf (g : Graph) (e : ArtefactId × Artefact) : List Error :=
  e.2.requirements.values.filterMap fun r =>
    (g.artefacts.entries.findSome? (fun e' =>
      if compare e'.1 e.1 = .lt then e'.2.requirements.get r.id else none)).map
      (fun old => .duplicateRequirement old r)

theorem duplicateErrors_eq (g : Graph) :
    duplicateErrors g = g.artefacts.entries.flatMap (dupErrorsOf g) := rfl

section split
variable {g : Graph} {pre post : List (ArtefactId × Artefact)} {e : ArtefactId × Artefact}

theorem split_lt (h : g.artefacts.entries = pre ++ e :: post) :
    (∀ x ∈ pre, compare x.1 e.1 = .lt) ∧ ∀ x ∈ e :: post, compare x.1 e.1 ≠ .lt := by
  have hs := g.artefacts.sorted
  rw [h, List.pairwise_append, List.pairwise_cons] at hs
  obtain ⟨_, ⟨h2, _⟩, h4⟩ := hs
  refine ⟨fun x hx => h4 x hx e (by simp), ?_⟩
  intro x hx hlt
  rcases List.mem_cons.1 hx with rfl | hx
  · simp at hlt
  · have := Std.OrientedCmp.gt_of_lt (h2 x hx)
    rw [hlt] at this; cases this

theorem seen_split (h : g.artefacts.entries = pre ++ e :: post) (id : RequirementId) :
    g.artefacts.entries.findSome? (fun e' =>
      if compare e'.1 e.1 = .lt then e'.2.requirements.get id else none) = seen pre id := by
  obtain ⟨h1, h2⟩ := split_lt h
  rw [h, List.findSome?_append]
  have : (e :: post).findSome? (fun e' =>
      if compare e'.1 e.1 = .lt then e'.2.requirements.get id else none) = none := by
    rw [List.findSome?_eq_none_iff]
    intro x hx
    simp [h2 x hx]
  rw [this, Option.or_none]
  unfold seen
  generalize pre = l at h1
  induction l with
  | nil => rfl
  | cons x t ih =>
    simp only [List.findSome?_cons, h1 x (by simp), if_true]
    rw [ih (fun y hy => h1 y (by simp [hy]))]

theorem owned_split (h : g.artefacts.entries = pre ++ e :: post) :
    owned g e.1 = e.2.requirements.values.filter (fun r => (seen pre r.id).isNone) := by
  have hget : g.artefacts.get e.1 = some e.2 :=
    (BMap.get_eq_some_iff _ _ _).2 (by rw [h]; simp)
  unfold owned
  rw [hget]
  apply List.filter_congr
  intro r _
  rw [Bool.eq_iff_iff, Option.isNone_iff_eq_none, ← seen_split h, List.findSome?_eq_none_iff,
    List.all_eq_true]
  apply forall_congr'; intro x
  apply forall_congr'; intro hx
  by_cases hlt : compare x.1 e.1 = .lt
  · simp [hlt]
  · simp [hlt]

theorem dupErrorsOf_split (h : g.artefacts.entries = pre ++ e :: post) :
    dupErrorsOf g e = e.2.requirements.values.filterMap fun r =>
      (seen pre r.id).map (fun old => .duplicateRequirement old r) := by
  unfold dupErrorsOf
  congr 1
  funext r
  rw [seen_split h]

theorem find_values {art : Artefact}
    (h : ∀ k req, art.requirements.get k = some req → req.id = k) (id : RequirementId) :
    art.requirements.values.find? (fun r => r.id == id) = art.requirements.get id := by
  cases hg : art.requirements.get id with
  | none =>
    rw [List.find?_eq_none]
    intro r hr
    obtain ⟨k, hk⟩ := (BMap.mem_values_iff _ _).1 hr
    have := h k r hk
    subst this
    intro he
    rw [(by simpa using he : r.id = id), hg] at hk
    cases hk
  | some r =>
    cases hf : art.requirements.values.find? (fun r => r.id == id) with
    | none =>
      rw [List.find?_eq_none] at hf
      exact absurd (by simpa using h id r hg) (hf r ((BMap.mem_values_iff _ _).2 ⟨id, hg⟩))
    | some r' =>
      obtain ⟨k, hk⟩ := (BMap.mem_values_iff _ _).1 (List.mem_of_find?_eq_some hf)
      have h1 := h k r' hk
      have h2 : r'.id = id := by simpa using List.find?_some hf
      rw [← h2, h1, hk] at hg
      exact hg

end split

/-- The tracer after collecting the artefacts `pre` of the graph. -/
structure Collected (g : Graph) (pre : List (ArtefactId × Artefact)) (t : Tracer) : Prop where
  reqById : ∀ id, (t.reqById.get id).map (·.2) = seen pre id
  arts : ∀ a, (t.tracedArtefacts.get a).map (·.artefact) = BMap.getL a pre
  byId : ∀ a ta, t.tracedArtefacts.get a = some ta → ∀ id,
    ta.requirementsById.get id = (owned g a).find? (fun r => r.id == id)
  cover : ∀ a ta, t.tracedArtefacts.get a = some ta → ∀ u,
    (ta.requirementsThatCover.get u).getD [] = (owned g a).flatMap (fun l =>
      (l.covers.filter (fun ref => ref.id == u)).map (fun ref => (l, ref)))
  derived : ∀ a ta, t.tracedArtefacts.get a = some ta → ∀ id, id ∈ ta.derived.toList ↔
    ta.artefact.ignoreDerivedRequirements = false ∧ ∃ r ∈ owned g a, r.id = id
  errors : t.errors = pre.flatMap (dupErrorsOf g)
  rels : t.relations = []
  covers : ∀ k, k ∈ BSet.toList t.invalidCoversLinks ↔
    ∃ e ∈ pre, ∃ r ∈ owned g e.1, ∃ ref ∈ r.covers, k = (ref.id, r.id)
  depends : ∀ k, k ∈ BSet.toList t.invalidDependsLinks ↔
    ∃ e ∈ pre, ∃ r ∈ owned g e.1, ∃ ref ∈ r.depends, k = (r.id, ref.id)

theorem getL_append {κ ν : Type} [Ord κ] (k : κ) (l l' : List (κ × ν)) :
    BMap.getL k (l ++ l') = (BMap.getL k l).or (BMap.getL k l') := by
  induction l with
  | nil => simp [BMap.getL]
  | cons a t ih =>
    simp only [List.cons_append, BMap.getL]
    split
    · simp
    · exact ih

theorem Collected.step {g : Graph} (hk : Keyed g) {pre post : List (ArtefactId × Artefact)}
    {e : ArtefactId × Artefact} {t : Tracer} (hs : g.artefacts.entries = pre ++ e :: post)
    (h : Collected g pre t) : Collected g (pre ++ [e]) (addArtefact t e.2) := by
  have hget : g.artefacts.get e.1 = some e.2 :=
    (BMap.get_eq_some_iff _ _ _).2 (by rw [hs]; simp)
  have hid : e.2.id = e.1 := hk.artefact _ _ hget
  have hreq := hk.requirement _ _ hget
  obtain ⟨s0, hs0⟩ : ∃ s0 : AddState, s0 = ⟨t, .empty, .empty, .empty⟩ := ⟨_, rfl⟩
  have hA := addRequirements e.2 e.2.requirements.values (nodup_of_sorted (ids_sorted hreq)) s0
  have hown : e.2.requirements.values.filter (fun r => (t.reqById.get r.id).isNone) =
      owned g e.1 := by
    rw [owned_split hs]
    apply List.filter_congr
    intro r _
    rw [← h.reqById]; simp
  obtain ⟨a1, a2, a3, a4, a5, a6, a7, a8, a9⟩ := hA
  have hs1 : s0.tracer = t := by rw [hs0]
  have hs2 : s0.requirementsById = .empty := by rw [hs0]
  have hs3 : s0.requirementsThatCover = .empty := by rw [hs0]
  have hs4 : s0.derived = .empty := by rw [hs0]
  simp only [hs1, hs2, hs3, hs4, hown] at a1 a2 a3 a4 a5 a6 a7 a8 a9
  have htget : ∀ a, (addArtefact t e.2).tracedArtefacts.get a =
      if a = e.1 then (addArtefact t e.2).tracedArtefacts.get e.1
      else t.tracedArtefacts.get a := by
    intro a
    unfold addArtefact
    rw [← hs0]
    simp only [a3, BMap.get_insert, hid]
    by_cases ha : a = e.1 <;> simp [ha]
  have htget1 : ∃ ta, (addArtefact t e.2).tracedArtefacts.get e.1 = some ta ∧
      ta.artefact = e.2 ∧
      (∀ id, ta.requirementsById.get id = (owned g e.1).find? (fun r => r.id == id)) ∧
      (∀ u, (ta.requirementsThatCover.get u).getD [] = (owned g e.1).flatMap (fun l =>
        (l.covers.filter (fun ref => ref.id == u)).map (fun ref => (l, ref)))) ∧
      (∀ id, id ∈ ta.derived.toList ↔
        ta.artefact.ignoreDerivedRequirements = false ∧ ∃ r ∈ owned g e.1, r.id = id) := by
    refine ⟨{ artefact := e.2
              requirementsById := (e.2.requirements.values.foldl (addRequirement e.2) s0).requirementsById
              requirementsThatCover := (e.2.requirements.values.foldl (addRequirement e.2) s0).requirementsThatCover
              derived := (e.2.requirements.values.foldl (addRequirement e.2) s0).derived }, ?_, ?_⟩
    · unfold addArtefact
      simp only [BMap.get_insert, hid, if_true]
      rw [hs0]
    · refine ⟨rfl, ?_, ?_, ?_⟩
      · intro id; simp only [a5, BMap.get_empty, Option.or_none]
      · intro u; simp only [a6, BMap.get_empty, Option.getD_none, List.nil_append]
      · intro id; simp only [a7]
        constructor
        · rintro (h | h)
          · exact absurd h (BSet.mem_empty id)
          · exact h
        · exact .inr
  obtain ⟨ta, hta, hta1, hta2, hta3, hta4⟩ := htget1
  constructor
  · intro id
    have he : (addArtefact t e.2).reqById =
        (List.foldl (addRequirement e.2) s0 e.2.requirements.values).tracer.reqById := by
      unfold addArtefact; rw [← hs0]
    rw [he, a1, find_values hreq]
    unfold seen
    rw [List.findSome?_append]
    have := h.reqById id
    unfold seen at this
    rw [← this]
    cases t.reqById.get id with
    | some p => simp
    | none => cases hr : e.2.requirements.get id <;> simp [hr]
  · intro a
    rw [htget, getL_append]
    by_cases ha : a = e.1
    · subst ha
      have : BMap.getL e.1 pre = none := by
        rw [BMap.getL_eq_none_iff]
        intro v hv
        have := (split_lt hs).1 _ hv
        simp at this
      simp [hta, hta1, this, BMap.getL]
    · have hne := BMap.compare_ne_of_ne ha
      have : BMap.getL a [e] = none := by
        rw [BMap.getL_eq_none_iff]
        intro v hv
        simp at hv
        exact ha (by rw [← hv])
      simp only [ha, if_false, this, Option.or_none]
      exact h.arts a
  · intro a ta' h' id
    rw [htget] at h'
    by_cases ha : a = e.1
    · subst ha; rw [if_pos rfl, hta] at h'; cases h'; exact hta2 id
    · rw [if_neg ha] at h'; exact h.byId a ta' h' id
  · intro a ta' h' id
    rw [htget] at h'
    by_cases ha : a = e.1
    · subst ha; rw [if_pos rfl, hta] at h'; cases h'; exact hta3 id
    · rw [if_neg ha] at h'; exact h.cover a ta' h' id
  · intro a ta' h' id
    rw [htget] at h'
    by_cases ha : a = e.1
    · subst ha; rw [if_pos rfl, hta] at h'; cases h'; exact hta4 id
    · rw [if_neg ha] at h'; exact h.derived a ta' h' id
  · have he : (addArtefact t e.2).errors =
        (List.foldl (addRequirement e.2) s0 e.2.requirements.values).tracer.errors := by
      unfold addArtefact; rw [← hs0]
    rw [he, a2, h.errors, List.flatMap_append]
    simp only [List.flatMap_cons, List.flatMap_nil, List.append_nil, ← h.reqById, Option.map_map,
      Function.comp_def, dupErrorsOf_split hs]
  · have he : (addArtefact t e.2).relations =
        (List.foldl (addRequirement e.2) s0 e.2.requirements.values).tracer.relations := by
      unfold addArtefact; rw [← hs0]
    rw [he, a4]; exact h.rels
  · intro k
    have he : (addArtefact t e.2).invalidCoversLinks =
        (List.foldl (addRequirement e.2) s0 e.2.requirements.values).tracer.invalidCoversLinks := by
      unfold addArtefact; rw [← hs0]
    rw [he, a8, h.covers]
    simp only [List.mem_append, List.mem_singleton]
    constructor
    · rintro (⟨x, hx, h⟩ | h)
      · exact ⟨x, .inl hx, h⟩
      · exact ⟨e, .inr rfl, h⟩
    · rintro ⟨x, hx | rfl, h⟩
      · exact .inl ⟨x, hx, h⟩
      · exact .inr h
  · intro k
    have he : (addArtefact t e.2).invalidDependsLinks =
        (List.foldl (addRequirement e.2) s0 e.2.requirements.values).tracer.invalidDependsLinks := by
      unfold addArtefact; rw [← hs0]
    rw [he, a9, h.depends]
    simp only [List.mem_append, List.mem_singleton]
    constructor
    · rintro (⟨x, hx, h⟩ | h)
      · exact ⟨x, .inl hx, h⟩
      · exact ⟨e, .inr rfl, h⟩
    · rintro ⟨x, hx | rfl, h⟩
      · exact .inl ⟨x, hx, h⟩
      · exact .inr h

/-- The tracer after the first pass. -/
def collect (g : Graph) : Tracer := g.artefacts.values.foldl addArtefact Tracer.empty

theorem collected {g : Graph} (hk : Keyed g) : Collected g g.artefacts.entries (collect g) := by
  have aux : ∀ (post pre : List (ArtefactId × Artefact)) (t : Tracer),
      g.artefacts.entries = pre ++ post → Collected g pre t →
      Collected g g.artefacts.entries ((post.map Prod.snd).foldl addArtefact t) := by
    intro post
    induction post with
    | nil => intro pre t h hc; rw [h]; simpa using hc
    | cons e post ih =>
      intro pre t h hc
      simp only [List.map_cons, List.foldl_cons]
      exact ih (pre ++ [e]) _ (by rw [h]; simp) (hc.step hk h)
  apply aux g.artefacts.entries [] Tracer.empty rfl
  constructor <;> simp [Tracer.empty, seen, BMap.getL, BSet.mem_empty]

theorem Collected.idx {g : Graph} {t : Tracer} (h : Collected g g.artefacts.entries t) :
    Idx g t := ⟨h.arts, h.byId, h.cover⟩

/-! ## Third pass: dangling links -/

theorem validateUpwards_eq (g : Graph) (t : Tracer)
    (hr : ∀ id, (t.reqById.get id).map (·.2) = owner g id)
    (links : List (RequirementId × RequirementId))
    (hl : ∀ k ∈ links, ∃ r, owner g k.2 = some r ∧ ∃ ref ∈ r.covers, ref.id = k.1) :
    links.foldlM validateUpward t = .ok { t with errors := t.errors ++ (links.filterMap fun k =>
      (owner g k.2).bind fun l => (l.covers.find? (fun r => r.id == k.1)).map fun ref =>
        .coversUnknownRequirement l k.1 ref.location) } := by
  induction links generalizing t with
  | nil => simp [pure, Except.pure]
  | cons k ks ih =>
    obtain ⟨r, h1, ref, h2, h3⟩ := hl k (by simp)
    have hf : ∃ ref', r.covers.find? (fun r => r.id == k.1) = some ref' := by
      rw [← Option.isSome_iff_exists, List.find?_isSome]
      exact ⟨ref, h2, by simpa using h3⟩
    obtain ⟨ref', hf⟩ := hf
    have hg := hr k.2
    rw [h1] at hg
    cases hq : t.reqById.get k.2 with
    | none => rw [hq] at hg; simp at hg
    | some p =>
      rw [hq] at hg
      have hp : p.2 = r := by simpa using hg
      have hstep : validateUpward t k = .ok { t with errors := t.errors ++
          [.coversUnknownRequirement r k.1 ref'.location] } := by
        unfold validateUpward
        simp [hq, orPanic, bind, Except.bind, hp, hf, pure, Except.pure]
      rw [List.foldlM_cons, hstep]
      simp only [bind, Except.bind]
      rw [ih { t with errors := t.errors ++ [.coversUnknownRequirement r k.1 ref'.location] } hr
        (fun k' hk' => hl k' (by simp [hk']))]
      simp [h1, hf]

theorem validateDownwards_eq (g : Graph) (t : Tracer)
    (hr : ∀ id, (t.reqById.get id).map (·.2) = owner g id)
    (links : List (RequirementId × RequirementId))
    (hl : ∀ k ∈ links, ∃ r, owner g k.1 = some r ∧ ∃ ref ∈ r.depends, ref.id = k.2) :
    links.foldlM validateDownward t = .ok { t with errors := t.errors ++ (links.filterMap fun k =>
      (owner g k.1).bind fun l => (l.depends.find? (fun r => r.id == k.2)).map fun ref =>
        .dependOnUnknownRequirement l k.2 ref.location) } := by
  induction links generalizing t with
  | nil => simp [pure, Except.pure]
  | cons k ks ih =>
    obtain ⟨r, h1, ref, h2, h3⟩ := hl k (by simp)
    have hf : ∃ ref', r.depends.find? (fun r => r.id == k.2) = some ref' := by
      rw [← Option.isSome_iff_exists, List.find?_isSome]
      exact ⟨ref, h2, by simpa using h3⟩
    obtain ⟨ref', hf⟩ := hf
    have hg := hr k.1
    rw [h1] at hg
    cases hq : t.reqById.get k.1 with
    | none => rw [hq] at hg; simp at hg
    | some p =>
      rw [hq] at hg
      have hp : p.2 = r := by simpa using hg
      have hstep : validateDownward t k = .ok { t with errors := t.errors ++
          [.dependOnUnknownRequirement r k.2 ref'.location] } := by
        unfold validateDownward
        simp [hq, orPanic, bind, Except.bind, hp, hf, pure, Except.pure]
      rw [List.foldlM_cons, hstep]
      simp only [bind, Except.bind]
      rw [ih { t with errors := t.errors ++ [.dependOnUnknownRequirement r k.2 ref'.location] } hr
        (fun k' hk' => hl k' (by simp [hk']))]
      simp [h1, hf]

/-! ## All passes -/

theorem owner_eq_seen (g : Graph) (id : RequirementId) : owner g id = seen g.artefacts.entries id := by
  unfold owner seen BMap.values
  rw [List.findSome?_map]; rfl

theorem entries_split {g : Graph} {e : ArtefactId × Artefact} (h : e ∈ g.artefacts.entries) :
    ∃ pre post, g.artefacts.entries = pre ++ e :: post := List.append_of_mem h

/-- The owner lookup finds the owned requirement. -/
theorem owner_of_owned {g : Graph} (hk : Keyed g) {a : ArtefactId} {r : Requirement}
    (h : r ∈ owned g a) : owner g r.id = some r := by
  have ho := (mem_owned hk a r).1 h
  obtain ⟨⟨art, ha, hr⟩, _⟩ := ho
  obtain ⟨pre, post, hs⟩ := entries_split ((BMap.get_eq_some_iff _ _ _).1 ha)
  have h2 : r ∈ owned g ((a, art) : ArtefactId × Artefact).1 := h
  rw [owned_split hs, List.mem_filter] at h2
  rw [owner_eq_seen, hs]
  unfold seen
  rw [List.findSome?_append]
  have h3 := h2.2
  unfold seen at h3
  rw [Option.isNone_iff_eq_none] at h3
  rw [h3]
  simp [hr]

theorem exists_owner {g : Graph} (hk : Keyed g) {id : RequirementId} {r : Requirement}
    (h : owner g id = some r) : r.id = id ∧ ∃ a, r ∈ owned g a := by
  rw [owner_eq_seen] at h
  unfold seen at h
  obtain ⟨pre, e, post, hs, he, hpre⟩ := List.findSome?_eq_some_iff.1 h
  have hget : g.artefacts.get e.1 = some e.2 :=
    (BMap.get_eq_some_iff _ _ _).2 (by rw [hs]; simp)
  have hid := hk.requirement _ _ hget _ _ he
  refine ⟨hid, e.1, ?_⟩
  rw [owned_split hs, List.mem_filter]
  refine ⟨(BMap.mem_values_iff _ _).2 ⟨_, he⟩, ?_⟩
  rw [Option.isNone_iff_eq_none]
  unfold seen
  rw [List.findSome?_eq_none_iff, hid]
  exact hpre

/-- An id is owned by one artefact only. -/
theorem owned_unique {g : Graph} (hk : Keyed g) {a b : ArtefactId} {r s : Requirement}
    (hr : r ∈ owned g a) (hs : s ∈ owned g b) (he : r.id = s.id) : a = b ∧ r = s := by
  have h1 := owner_of_owned hk hr
  have h2 := owner_of_owned hk hs
  rw [he, h2] at h1
  have h1 := Option.some.inj h1
  subst h1
  refine ⟨?_, rfl⟩
  obtain ⟨d1, o1⟩ := (mem_owned hk a s).1 hr
  obtain ⟨d2, o2⟩ := (mem_owned hk b s).1 hs
  cases hc : compare a b with
  | eq => exact Std.LawfulEqOrd.eq_of_compare hc
  | lt => exact absurd rfl (o2 a s hc d1)
  | gt => exact absurd rfl (o1 b s (Std.OrientedCmp.lt_of_gt hc) d2)

theorem mem_ofList_unit {κ : Type} [Ord κ] [Std.TransOrd κ] [Std.LawfulEqOrd κ] [DecidableEq κ]
    (l : List (κ × Unit)) (k : κ) :
    k ∈ BSet.toList (BMap.ofList l) ↔ (k, ()) ∈ l := by
  have := mem_foldl_add (fun e : κ × Unit => e.1) l BMap.empty k
  have he : (BMap.ofList l) = l.foldl (fun s a => BSet.add s a.1) (BMap.empty : BSet κ) := rfl
  rw [he, this]
  constructor
  · rintro (h | ⟨⟨a, u⟩, ha, rfl⟩)
    · exact absurd h (BSet.mem_empty k)
    · exact ha
  · intro h; exact .inr ⟨_, h, rfl⟩

theorem mem_coverLinks (g : Graph) (k : RequirementId × RequirementId) :
    k ∈ coverLinks g ↔
      ∃ e ∈ g.artefacts.entries, ∃ r ∈ owned g e.1, ∃ ref ∈ r.covers, k = (ref.id, r.id) := by
  unfold coverLinks
  rw [mem_ofList_unit]
  simp only [List.mem_flatMap, List.mem_map, BMap.keys, Prod.mk.injEq, and_true]
  constructor
  · rintro ⟨r, ⟨a, ⟨e, he, rfl⟩, hr⟩, ref, href, h⟩
    exact ⟨e, he, r, hr, ref, href, h.symm⟩
  · rintro ⟨e, he, r, hr, ref, href, h⟩
    exact ⟨r, ⟨_, ⟨e, he, rfl⟩, hr⟩, ref, href, h.symm⟩

theorem mem_dependLinks (g : Graph) (k : RequirementId × RequirementId) :
    k ∈ dependLinks g ↔
      ∃ e ∈ g.artefacts.entries, ∃ r ∈ owned g e.1, ∃ ref ∈ r.depends, k = (r.id, ref.id) := by
  unfold dependLinks
  rw [mem_ofList_unit]
  simp only [List.mem_flatMap, List.mem_map, BMap.keys, Prod.mk.injEq, and_true]
  constructor
  · rintro ⟨r, ⟨a, ⟨e, he, rfl⟩, hr⟩, ref, href, h⟩
    exact ⟨e, he, r, hr, ref, href, h.symm⟩
  · rintro ⟨e, he, r, hr, ref, href, h⟩
    exact ⟨r, ⟨_, ⟨e, he, rfl⟩, hr⟩, ref, href, h.symm⟩

theorem linked_iff (g : Graph) (d : CoverageDirection) (k : RequirementId × RequirementId) :
    linked g d k = true ↔ ∃ e ∈ allEvents g, e.dir = d ∧ (e.upper.id, e.lower.id) = k := by
  unfold linked
  rw [List.any_eq_true]
  obtain ⟨k1, k2⟩ := k
  simp [and_assoc]

theorem relEvents_owned {g : Graph} {rel : Relation} {e : Event} (h : e ∈ relEvents g rel) :
    e.lower ∈ owned g e.lowerArt := by
  unfold relEvents reqEvents downEvents upEvents at h
  simp only [List.mem_flatMap, List.mem_append, List.mem_map, List.mem_filter] at h
  obtain ⟨u, _, ⟨ref, _, a, _, l, hl, rfl⟩ | ⟨a, _, l, hl, ref, _, rfl⟩⟩ := h
  · exact hl.1
  · exact hl

theorem get_ofList_map {α κ ν : Type} [Ord κ] [Std.TransOrd κ] [Std.LawfulEqOrd κ] [DecidableEq κ]
    (k : κ) (m : BMap κ ν) (f : κ → ν → α) :
    (BMap.ofList (m.entries.map (fun e => (e.1, f e.1 e.2)))).get k = (m.get k).map (f k) := by
  have aux : ∀ (l : List (κ × ν)) (acc : BMap κ α),
      l.Pairwise (fun a b => compare a.1 b.1 = .lt) →
      ((l.map (fun e => (e.1, f e.1 e.2))).foldl (fun m e => m.insert e.1 e.2) acc).get k =
        ((BMap.getL k l).map (f k)).or (acc.get k) := by
    intro l
    induction l with
    | nil => intro acc _; simp [BMap.getL]
    | cons e t ih =>
      intro acc hs
      rw [List.pairwise_cons] at hs
      simp only [List.map_cons, List.foldl_cons]
      rw [ih _ hs.2, BMap.get_insert]
      obtain ⟨k', v⟩ := e
      by_cases h : k = k'
      · subst h
        have : BMap.getL k t = none := by
          rw [BMap.getL_eq_none_iff]
          intro w hw
          have := hs.1 _ hw
          simp at this
        simp [this, BMap.getL]
      · have hne := BMap.compare_ne_of_ne h
        simp only [h, if_false]
        have : BMap.getL k ((k', v) :: t) = BMap.getL k t := by simp only [BMap.getL]
        rw [this]
  have := aux m.entries BMap.empty m.sorted
  rw [BMap.get_empty, Option.or_none] at this
  exact this

theorem sorted_pairs_ext {l₁ l₂ : List (RequirementId × RequirementId)}
    (h₁ : l₁.Pairwise (fun a b => compare a b = .lt))
    (h₂ : l₂.Pairwise (fun a b => compare a b = .lt)) (h : ∀ a, a ∈ l₁ ↔ a ∈ l₂) : l₁ = l₂ :=
  BMap.keys_ext h₁ h₂ h

/-- Tracing a traceable graph returns exactly what `Spec.traced` says; otherwise it panics at the
first relation that is not traceable. -/
theorem trace_eq {g : Graph} (hk : Keyed g) :
    trace g = match g.relations.find? (fun rel => !relOk g rel) with
      | none => .ok (traced g)
      | some rel => .error (relPanic g rel) := by
  have hc := collected hk
  have hi := hc.idx
  unfold trace Tracer.new
  simp only [bind, Except.bind]
  rw [show List.foldl addArtefact Tracer.empty g.artefacts.values = collect g from rfl]
  rw [traceRelations_eq hk g.relations (collect g) hi]
  cases hf : g.relations.find? (fun rel => !relOk g rel) with
  | some rel => rfl
  | none =>
    simp only
    obtain ⟨f1, f2, f3⟩ := relApplys_fields g g.relations (collect g)
    have fc := relApplys_covers g g.relations (collect g)
    have fd := relApplys_depends g g.relations (collect g)
    have fv := relApplys_derived g g.relations (collect g)
    have hi2 : Idx g (g.relations.foldl (relApply g) (collect g)) := by
      clear fc fd fv f1 f2 f3 hf
      generalize collect g = t at hi
      generalize g.relations = rels
      induction rels generalizing t with
      | nil => exact hi
      | cons r rs ih => exact ih _ (hi.relApply r)
    generalize g.relations.foldl (relApply g) (collect g) = t2 at *
    have hr : ∀ id, (t2.reqById.get id).map (·.2) = owner g id := by
      intro id; rw [f3, hc.reqById, owner_eq_seen]
    have hcl : t2.invalidCoversLinks.toList =
        (coverLinks g).filter (fun k => !linked g .upwards k) := by
      apply sorted_pairs_ext (BMap.keys_sorted _)
      · exact (BMap.keys_sorted _).filter _
      · intro k
        show k ∈ BSet.toList _ ↔ _
        rw [fc, hc.covers, List.mem_filter, mem_coverLinks]
        refine and_congr_right fun _ => ?_
        rw [Bool.not_eq_true', ← Bool.not_eq_true, linked_iff]; rfl
    have hdl : t2.invalidDependsLinks.toList =
        (dependLinks g).filter (fun k => !linked g .downwards k) := by
      apply sorted_pairs_ext (BMap.keys_sorted _)
      · exact (BMap.keys_sorted _).filter _
      · intro k
        show k ∈ BSet.toList _ ↔ _
        rw [fd, hc.depends, List.mem_filter, mem_dependLinks]
        refine and_congr_right fun _ => ?_
        rw [Bool.not_eq_true', ← Bool.not_eq_true, linked_iff]; rfl
    unfold validate validateUpwards validateDownwards
    rw [validateUpwards_eq g t2 hr _ ?_]
    · simp only [bind, Except.bind]
      rw [validateDownwards_eq g _ ?hr _ ?_]
      case hr => exact hr
      · simp only [pure, Except.pure, Tracer.data, traced]
        congr 2
        · apply BMap.ext_get
          intro a
          rw [BMap.get_mapValues]
          exact hi2.arts a
        · rw [f2, hc.rels]; rfl
        · apply BMap.ext_get
          intro a
          rw [BMap.get_mapValues]
          unfold derivedMap
          rw [get_ofList_map, ← hi2.arts a]
          cases hg : t2.tracedArtefacts.get a with
          | none => rfl
          | some ta =>
            have hga : g.artefacts.get a = some ta.artefact := by
              rw [← hi2.arts a, hg]; rfl
            simp only [Option.map_some, Option.some.injEq]
            apply BMap.keys_ext (BMap.keys_sorted _)
            · unfold derived
              split
              · exact .nil
              · exact (owned_sorted hk a).filter _
            · intro id
              have h1 : id ∈ ta.derived.toList ↔ InDerived t2 a id := by
                unfold InDerived; rw [hg]; simp
              show id ∈ ta.derived.toList ↔ _
              rw [h1, fv]
              have h2 : InDerived (collect g) a id ↔
                  ta.artefact.ignoreDerivedRequirements = false ∧ ∃ r ∈ owned g a, r.id = id := by
                obtain ⟨ta0, h3, h4⟩ := hi.get hga
                unfold InDerived
                rw [h3]
                simp only [Option.some.injEq, exists_eq_left']
                rw [hc.derived a ta0 h3, h4]
              rw [h2]
              unfold derived
              cases ta.artefact.ignoreDerivedRequirements with
              | true => simp
              | false =>
                simp only [Bool.false_eq_true, if_false, List.mem_filter, List.mem_map, true_and,
                  List.all_eq_true, bne_iff_ne, ne_eq]
                refine and_congr_right ?_
                rintro ⟨r, hr1, hr2⟩
                constructor
                · intro hn e he hid
                  apply hn
                  refine ⟨e, he, ?_, hid⟩
                  unfold allEvents at he
                  obtain ⟨rel, _, he⟩ := List.mem_flatMap.1 he
                  exact (owned_unique hk (relEvents_owned he) hr1 (by rw [hid, hr2])).1
                · rintro hn ⟨e, he, _, hid⟩
                  exact hn e he hid
        · rw [f1, hc.errors, hcl, hdl]
          simp only [List.append_assoc]; rfl
      · rw [hdl]
        intro k hkm
        obtain ⟨e, he, r, hr1, ref, href, rfl⟩ := (mem_dependLinks g k).1 (List.mem_filter.1 hkm).1
        exact ⟨r, owner_of_owned hk hr1, ref, href, rfl⟩
    · rw [hcl]
      intro k hkm
      obtain ⟨e, he, r, hr1, ref, href, rfl⟩ := (mem_coverLinks g k).1 (List.mem_filter.1 hkm).1
      exact ⟨r, owner_of_owned hk hr1, ref, href, rfl⟩

theorem relOk_iff (g : Graph) (rel : Relation) : relOk g rel = true ↔
    ∃ art, g.artefacts.get rel.upper = some art ∧
    (art.requirements.values ≠ [] → ∀ a ∈ rel.lower, (g.artefacts.get a).isSome) := by
  unfold relOk
  cases g.artefacts.get rel.upper with
  | none => simp
  | some art =>
    cases hv : art.requirements.values <;> simp [hv, exist]

theorem traceable_iff (g : Graph) :
    Traceable g ↔ g.relations.find? (fun rel => !relOk g rel) = none := by
  unfold Traceable
  rw [List.find?_eq_none]
  apply forall_congr'; intro rel
  apply forall_congr'; intro _
  rw [Bool.not_eq_true', Bool.not_eq_false, relOk_iff]

theorem trace_ok_iff {g : Graph} (hk : Keyed g) (tg : TracedGraph) :
    trace g = .ok tg ↔ Traceable g ∧ tg = traced g := by
  rw [trace_eq hk, traceable_iff]
  cases g.relations.find? (fun rel => !relOk g rel) with
  | none => simp [eq_comm]
  | some rel => simp

end Reqtrace
