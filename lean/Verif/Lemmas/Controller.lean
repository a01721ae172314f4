import Verif.Spec.Controller
import Verif.Lemmas.Aggregator

/-!
# Lemmas about the controller
-/

set_option linter.unusedSimpArgs false

namespace Reqtrace

open Spec

/-! ## Collecting the requirements of an artefact -/

/-- The error for `again`, if an earlier requirement has its id. -/
def dupOf (seen : List Requirement) (again : Requirement) : Option Error :=
  (seen.find? (fun r => r.id = again.id)).map (fun first => .duplicateRequirement first again)

theorem collect_spec (reqs : List Requirement) : ∀ (seen : List Requirement) (m : BMap RequirementId Requirement)
    (errs : List Error), (∀ id, m.get id = seen.find? (fun r => r.id = id)) →
    (∀ id, (collectRequirements reqs m errs).1.get id = (seen ++ reqs).find? (fun r => r.id = id)) ∧
    (collectRequirements reqs m errs).2 = errs ++ (List.range reqs.length).filterMap (fun i =>
      match reqs[i]? with
      | none => none
      | some again => dupOf (seen ++ reqs.take i) again) := by
  induction reqs with
  | nil => intro seen m errs h; simpa [collectRequirements] using h
  | cons r reqs ih =>
    intro seen m errs h
    have key : ∀ (m' : BMap RequirementId Requirement) (errs' : List Error) (o : Option Error),
        (∀ id, m'.get id = (seen ++ [r]).find? (fun r => r.id = id)) → dupOf seen r = o →
        errs' = errs ++ o.toList →
        (∀ id, (collectRequirements reqs m' errs').1.get id = (seen ++ r :: reqs).find? (fun r => r.id = id)) ∧
        (collectRequirements reqs m' errs').2 = errs ++ (List.range (r :: reqs).length).filterMap (fun i =>
          match (r :: reqs)[i]? with
          | none => none
          | some again => dupOf (seen ++ (r :: reqs).take i) again) := by
      intro m' errs' o hm ho he
      obtain ⟨h1, h2⟩ := ih (seen ++ [r]) m' errs' hm
      refine ⟨fun id => by rw [h1 id]; simp, ?_⟩
      rw [h2, he, List.length_cons, List.range_succ_eq_map, List.filterMap_cons, List.filterMap_map]
      simp only [List.getElem?_cons_zero, List.take_zero, List.append_nil, ho, Function.comp_def,
        List.getElem?_cons_succ, List.take_succ_cons, List.append_assoc, List.singleton_append]
      cases o <;> simp
    unfold collectRequirements
    cases hg : m.get r.id with
    | none =>
      simp only
      refine key _ _ none ?_ ?_ (by simp)
      · intro id
        rw [BMap.get_insert, List.find?_append, h id]
        by_cases hid : id = r.id
        · subst hid
          rw [if_pos rfl, ← h, hg]; simp
        · rw [if_neg hid]
          have : (List.find? (fun r => decide (r.id = id)) [r]) = none := by
            simp [Ne.symm hid]
          rw [this]; simp
      · unfold dupOf; rw [← h, hg]; rfl
    | some first =>
      simp only
      refine key _ _ (some (.duplicateRequirement first r)) ?_ ?_ (by simp)
      · intro id
        rw [List.find?_append, h id]
        by_cases hid : id = r.id
        · subst hid
          rw [← h, hg]; simp
        · have : (List.find? (fun r => decide (r.id = id)) [r]) = none := by
            simp [Ne.symm hid]
          rw [this]; simp
      · unfold dupOf; rw [← h, hg]; rfl

theorem collect_eq (reqs : List Requirement) (errs : List Error) :
    (∀ id, (collectRequirements reqs .empty errs).1.get id = reqs.find? (fun r => r.id = id)) ∧
    (collectRequirements reqs .empty errs).2 = errs ++ duplicates reqs := by
  have := collect_spec reqs [] .empty errs (by simp)
  simp only [List.nil_append] at this
  exact this

theorem parseFromConfig_ok {env : Env} {w : World} {ac : ArtefactConfig} {base : Path} {paths : List Path}
    {m : BMap RequirementId Requirement} {errs : List Error}
    (h : parseFromConfig env w ac base = .ok (paths, m, errs)) :
    ∃ reqs perrs, parseArtefact env w ac base = .ok (paths, reqs, perrs) ∧
      m = (collectRequirements reqs .empty perrs).1 ∧ errs = perrs ++ duplicates reqs := by
  unfold parseFromConfig at h
  cases hp : parseArtefact env w ac base with
  | error p => rw [hp] at h; cases h
  | ok v =>
    obtain ⟨paths', reqs, perrs⟩ := v
    rw [hp] at h
    cases h
    exact ⟨reqs, perrs, rfl, rfl, (collect_eq reqs perrs).2⟩

/-! ## Building the graph -/

theorem unrootLower_ok (as : List ArtefactId) : ∀ (m : BMap ArtefactId Bool),
    ((∀ a ∈ as, (m.get a).isSome) → ∃ m', unrootLower as m = .ok m') ∧
    ((¬ ∀ a ∈ as, (m.get a).isSome) → unrootLower as m = .error .ctrlUnknownArtefact) ∧
    ∀ m', unrootLower as m = .ok m' → ∀ k, m'.get k = if k ∈ as then some false else m.get k := by
  induction as with
  | nil => intro m; exact ⟨fun _ => ⟨m, rfl⟩, fun h => absurd (fun _ h => by cases h) h, by rintro _ ⟨⟩; simp⟩
  | cons a as ih =>
    intro m
    obtain ⟨h1, h2, h3⟩ := ih (m.insert a false)
    unfold unrootLower BMap.contains
    have hs : ∀ b ∈ as, (m.get a).isSome → ((m.insert a false).get b).isSome = (m.get b).isSome := by
      intro b _ ha
      rw [BMap.get_insert]; split
      · next h => subst h; simp [ha]
      · rfl
    refine ⟨?_, ?_, ?_⟩
    · intro h
      rw [if_pos (h a (List.mem_cons_self ..))]
      refine h1 fun b hb => ?_
      rw [hs b hb (h a (List.mem_cons_self ..))]
      exact h b (List.mem_cons_of_mem _ hb)
    · intro h
      split
      · next ha =>
        apply h2
        intro h'
        apply h
        intro b hb
        rcases List.mem_cons.1 hb with rfl | hb
        · exact ha
        · rw [← hs b hb ha]; exact h' b hb
      · rfl
    · intro m' hm k
      split at hm
      · rw [h3 m' hm k, BMap.get_insert]
        by_cases hk : k = a <;> by_cases hk' : k ∈ as <;> simp [hk, hk']
      · cases hm

theorem findRoots_ok (rels : List Relation) : ∀ (m : BMap ArtefactId Bool),
    ((∀ rel ∈ rels, (m.get rel.upper).isSome ∧ ∀ a ∈ rel.lower, (m.get a).isSome) → ∃ m', findRoots rels m = .ok m') ∧
    ((¬ ∀ rel ∈ rels, (m.get rel.upper).isSome ∧ ∀ a ∈ rel.lower, (m.get a).isSome) →
      findRoots rels m = .error .ctrlUnknownArtefact) ∧
    ∀ m', findRoots rels m = .ok m' → ∀ k, m'.get k = if (∃ rel ∈ rels, k ∈ rel.lower) then some false else m.get k := by
  induction rels with
  | nil => intro m; exact ⟨fun _ => ⟨m, rfl⟩, fun h => absurd (fun _ h => by cases h) h, by rintro _ ⟨⟩; simp⟩
  | cons rel rels ih =>
    intro m
    obtain ⟨l1, l2, l3⟩ := unrootLower_ok rel.lower m
    unfold findRoots BMap.contains
    by_cases hu : (m.get rel.upper).isSome
    rotate_left
    · rw [if_neg hu]
      refine ⟨fun h => absurd (h rel (List.mem_cons_self ..)).1 hu, fun _ => rfl, fun m' hm => by cases hm⟩
    · rw [if_pos hu]
      by_cases hl : ∀ a ∈ rel.lower, (m.get a).isSome
      rotate_left
      · rw [l2 hl]
        refine ⟨fun h => absurd (h rel (List.mem_cons_self ..)).2 hl, fun _ => rfl, fun m' hm => by cases hm⟩
      · obtain ⟨m1, hm1⟩ := l1 hl
        have h3 := l3 m1 hm1
        rw [hm1]
        obtain ⟨i1, i2, i3⟩ := ih m1
        have hs : ∀ k, (m1.get k).isSome = (m.get k).isSome := by
          intro k
          rw [h3 k]; split
          · next h => simp [hl k h]
          · rfl
        simp only [hs] at i1 i2
        refine ⟨fun h => i1 fun r hr => h r (List.mem_cons_of_mem _ hr), fun h => i2 fun h' => h fun r hr => ?_, ?_⟩
        · rcases List.mem_cons.1 hr with rfl | hr
          · exact ⟨hu, hl⟩
          · exact h' r hr
        · intro m' hm k
          rw [i3 m' hm k, h3 k]
          by_cases h1 : ∃ r ∈ rels, k ∈ r.lower <;> by_cases h2 : k ∈ rel.lower <;> simp_all

open Classical in
/-- The map that marks all configured artefacts as roots. -/
theorem allRoots_get (config : Config) (k : ArtefactId) :
    (BMap.ofList (config.artefacts.map (fun ac => (ac.id, true)))).get k =
      if Configured config k then some true else none := by
  by_cases h : Configured config k
  · rw [if_pos h]
    obtain ⟨ac, hac, rfl⟩ := h
    have : ((BMap.ofList (config.artefacts.map (fun ac => (ac.id, true)))).get ac.id).isSome :=
      (get_ofList_isSome _ _).2 ⟨true, List.mem_map.2 ⟨ac, hac, rfl⟩⟩
    obtain ⟨v, hv⟩ := Option.isSome_iff_exists.1 this
    have := get_ofList_mem hv
    obtain ⟨ac', _, h'⟩ := List.mem_map.1 this
    rw [hv]; exact congrArg some (congrArg Prod.snd h').symm
  · rw [if_neg h]
    cases hv : (BMap.ofList (config.artefacts.map (fun ac => (ac.id, true)))).get k with
    | none => rfl
    | some v =>
      obtain ⟨ac', h1, h'⟩ := List.mem_map.1 (get_ofList_mem hv)
      cases h'
      exact absurd ⟨ac', h1, rfl⟩ h

open Classical in
/-- The map of the roots, if all relations name configured artefacts. -/
theorem roots_ok (config : Config) :
    (RelationsConfigured config → ∃ m, findRoots config.relations
      (BMap.ofList (config.artefacts.map (fun ac => (ac.id, true)))) = .ok m ∧
      ∀ ac ∈ config.artefacts, ∃ b, m.get ac.id = some b ∧ (b = true ↔ IsRoot config ac.id)) ∧
    (¬ RelationsConfigured config → findRoots config.relations
      (BMap.ofList (config.artefacts.map (fun ac => (ac.id, true)))) = .error .ctrlUnknownArtefact) := by
  obtain ⟨h1, h2, h3⟩ := findRoots_ok config.relations (BMap.ofList (config.artefacts.map (fun ac => (ac.id, true))))
  have hs : ∀ k, ((BMap.ofList (config.artefacts.map (fun ac => (ac.id, true)))).get k).isSome ↔ Configured config k := by
    intro k; rw [allRoots_get]; split <;> simp_all
  constructor
  · intro h
    obtain ⟨m, hm⟩ := h1 fun rel hrel => ⟨(hs _).2 (h rel hrel).1, fun a ha => (hs _).2 ((h rel hrel).2 a ha)⟩
    refine ⟨m, hm, fun ac hac => ?_⟩
    rw [h3 m hm ac.id, allRoots_get, if_pos (show Configured config ac.id from ⟨ac, hac, rfl⟩)]
    by_cases hl : ∃ rel ∈ config.relations, ac.id ∈ rel.lower
    · rw [if_pos hl]
      refine ⟨false, rfl, by simp, fun hr => ?_⟩
      obtain ⟨rel, h4, h5⟩ := hl
      exact absurd h5 (hr rel h4)
    · rw [if_neg hl]
      exact ⟨true, rfl, fun _ rel hr hm => hl ⟨rel, hr, hm⟩, fun _ => rfl⟩
  · intro h
    exact h2 fun h' => h fun rel hrel => ⟨(hs _).1 (h' rel hrel).1, fun a ha => (hs _).1 ((h' rel hrel).2 a ha)⟩

theorem orPanic_ok {α : Type} {p : Panic} {o : Option α} {a : α} (h : orPanic p o = .ok a) : o = some a := by
  cases o with
  | none => cases h
  | some b => cases h; rfl

theorem makeArtefact_ok {env : Env} {w : World} {base : Path} {roots : BMap ArtefactId Bool} {ac : ArtefactConfig}
    {art : Artefact} (h : makeArtefact env w base roots ac = .ok art) :
    ∃ root files m errs, roots.get ac.id = some root ∧ parseFromConfig env w ac base = .ok (files, m, errs) ∧
      art = { id := ac.id, files, requirements := m,
              errors := if ac.referenceWithTitle.getD false then
                  errs ++ (m.values.filter (fun r => r.title.isNone)).map .requirementWithoutTitle
                else errs,
              ignoreDerivedRequirements := ac.ignoreDerivedRequirements.getD root,
              referenceWithTitle := ac.referenceWithTitle.getD false } := by
  unfold makeArtefact at h
  cases hr : orPanic .ctrlIsRoot (roots.get ac.id) with
  | error p => rw [hr] at h; cases h
  | ok root =>
    rw [hr] at h
    cases hp : parseFromConfig env w ac base with
    | error p =>
      rw [hp] at h; cases h
    | ok v =>
      obtain ⟨files, m, errs⟩ := v
      rw [hp] at h
      cases h
      exact ⟨root, files, m, errs, orPanic_ok hr, rfl, rfl⟩

theorem makeArtefacts_ok {env : Env} {w : World} {base : Path} {roots : BMap ArtefactId Bool}
    (acs : List ArtefactConfig) : ∀ (m m' : BMap ArtefactId Artefact),
    makeArtefacts env w base roots acs m = .ok m' →
    (∀ ac ∈ acs, ∃ art, makeArtefact env w base roots ac = .ok art) ∧
    ∀ a, (∃ pre ac post art, acs = pre ++ ac :: post ∧ (∀ b ∈ post, b.id ≠ ac.id) ∧ ac.id = a ∧
        makeArtefact env w base roots ac = .ok art ∧ m'.get a = some art) ∨
      ((∀ ac ∈ acs, ac.id ≠ a) ∧ m'.get a = m.get a) := by
  induction acs with
  | nil => rintro m _ ⟨⟩; exact ⟨by simp, fun a => .inr ⟨by simp, rfl⟩⟩
  | cons ac acs ih =>
    intro m m' h
    unfold makeArtefacts at h
    cases ha : makeArtefact env w base roots ac with
    | error p => rw [ha] at h; cases h
    | ok art =>
      rw [ha] at h
      obtain ⟨i1, i2⟩ := ih _ _ h
      constructor
      · intro b hb
        rcases List.mem_cons.1 hb with rfl | hb
        · exact ⟨art, ha⟩
        · exact i1 b hb
      · intro a
        rcases i2 a with ⟨pre, ac', post, art', rfl, h1, h2, h3, h4⟩ | ⟨h1, h2⟩
        · exact .inl ⟨ac :: pre, ac', post, art', rfl, h1, h2, h3, h4⟩
        · by_cases hid : ac.id = a
          · subst hid
            refine .inl ⟨[], ac, acs, art, rfl, h1, rfl, ha, ?_⟩
            rw [h2, BMap.get_insert, if_pos rfl]
          · refine .inr ⟨?_, ?_⟩
            · intro b hb
              rcases List.mem_cons.1 hb with rfl | hb
              · exact hid
              · exact h1 b hb
            · rw [h2, BMap.get_insert, if_neg (Ne.symm hid)]

theorem makeArtefacts_returns {env : Env} {w : World} {base : Path} {roots : BMap ArtefactId Bool}
    (acs : List ArtefactConfig) : ∀ (m : BMap ArtefactId Artefact),
    (∀ ac ∈ acs, ∃ art, makeArtefact env w base roots ac = .ok art) →
    ∃ m', makeArtefacts env w base roots acs m = .ok m' := by
  induction acs with
  | nil => intro m _; exact ⟨m, rfl⟩
  | cons ac acs ih =>
    intro m h
    obtain ⟨art, ha⟩ := h ac (List.mem_cons_self ..)
    unfold makeArtefacts
    rw [ha]
    exact ih _ fun b hb => h b (List.mem_cons_of_mem _ hb)

/-- What `Controller::new` returning means. -/
theorem new_ok {env : Env} {w : World} {config : Config} {base : Path} {c : Controller}
    (h : Controller.new env w config base = .ok c) :
    ∃ roots, findRoots config.relations (BMap.ofList (config.artefacts.map (fun ac => (ac.id, true)))) = .ok roots ∧
      makeArtefacts env w base roots config.artefacts .empty = .ok c.graph.artefacts ∧
      c.graph.relations = config.relations ∧ trace c.graph = .ok c.tracedGraph ∧
      c.baseDir = base ∧ c.jobs = config.jobs.getD .empty ∧ c.defaultJobs = config.defaultJobs.getD [] := by
  unfold Controller.new at h
  cases hr : findRoots config.relations (BMap.ofList (config.artefacts.map (fun ac => (ac.id, true)))) with
  | error p => rw [hr] at h; cases h
  | ok roots =>
    rw [hr] at h
    cases ha : makeArtefacts env w base roots config.artefacts .empty with
    | error p =>
      simp only [bind, Except.bind] at h
      rw [ha] at h; cases h
    | ok arts =>
      simp only [bind, Except.bind] at h
      rw [ha] at h
      simp only at h
      cases ht : trace { artefacts := arts, relations := config.relations } with
      | error p => rw [ht] at h; cases h
      | ok tg =>
        rw [ht] at h
        cases h
        exact ⟨roots, rfl, ha, rfl, ht, rfl, rfl, rfl⟩

/-- The artefacts of the graph are made from the last entries of their ids. -/
theorem new_artefact {env : Env} {w : World} {config : Config} {base : Path} {c : Controller}
    (h : Controller.new env w config base = .ok c) {a : ArtefactId} {art : Artefact}
    (ha : c.graph.artefacts.get a = some art) :
    ∃ ac root files m errs, LastEntry config ac ∧ ac.id = a ∧ (root = true ↔ IsRoot config ac.id) ∧
      parseFromConfig env w ac base = .ok (files, m, errs) ∧
      art = { id := ac.id, files, requirements := m,
              errors := if ac.referenceWithTitle.getD false then
                  errs ++ (m.values.filter (fun r => r.title.isNone)).map .requirementWithoutTitle
                else errs,
              ignoreDerivedRequirements := ac.ignoreDerivedRequirements.getD root,
              referenceWithTitle := ac.referenceWithTitle.getD false } := by
  obtain ⟨roots, h1, h2, -⟩ := new_ok h
  have hcfg : RelationsConfigured config := Classical.byContradiction fun hn => by
    rw [(roots_ok config).2 hn] at h1; cases h1
  obtain ⟨roots', r1, r2⟩ := (roots_ok config).1 hcfg
  rw [h1] at r1; cases r1
  obtain ⟨-, h3⟩ := makeArtefacts_ok _ _ _ h2
  rcases h3 a with ⟨pre, ac, post, art', h4, h5, rfl, h6, h7⟩ | ⟨_, h4⟩
  · rw [ha] at h7; cases h7
    obtain ⟨root, files, m, errs, m1, m2, m3⟩ := makeArtefact_ok h6
    obtain ⟨b, b1, b2⟩ := r2 ac (by rw [h4]; simp)
    rw [m1] at b1; cases b1
    exact ⟨ac, root, files, m, errs, ⟨pre, post, h4, h5⟩, rfl, b2, m2, m3⟩
  · rw [ha] at h4; cases h4

/-- Every configured id is the id of an artefact of the graph. -/
theorem new_configured {env : Env} {w : World} {config : Config} {base : Path} {c : Controller}
    (h : Controller.new env w config base = .ok c) (a : ArtefactId) :
    Configured config a ↔ ∃ art, c.graph.artefacts.get a = some art := by
  obtain ⟨roots, h1, h2, -⟩ := new_ok h
  obtain ⟨-, h3⟩ := makeArtefacts_ok _ _ _ h2
  rcases h3 a with ⟨pre, ac, post, art', h4, h5, rfl, h6, h7⟩ | ⟨h3, h4⟩
  · exact ⟨fun _ => ⟨art', h7⟩, fun _ => ⟨ac, by rw [h4]; simp, rfl⟩⟩
  · constructor
    · rintro ⟨ac, hac, e⟩; exact absurd e (h3 ac hac)
    · rintro ⟨art, ha⟩; rw [h4] at ha; cases ha

theorem new_relations {env : Env} {w : World} {config : Config} {base : Path} {c : Controller}
    (h : Controller.new env w config base = .ok c) : RelationsConfigured config := by
  obtain ⟨roots, h1, -⟩ := new_ok h
  exact Classical.byContradiction fun hn => by rw [(roots_ok config).2 hn] at h1; cases h1

/-! ## Paths -/

theorem joinParts_append (a b : List Str) (ha : a ≠ []) (hb : b ≠ []) :
    joinParts (a ++ b) = joinParts a ++ '/' :: joinParts b := by
  induction a with
  | nil => exact absurd rfl ha
  | cons s t ih =>
    cases t with
    | nil =>
      cases b with
      | nil => exact absurd rfl hb
      | cons u v => rfl
    | cons s' t' =>
      have := ih (by simp)
      show s ++ '/' :: joinParts ((s' :: t') ++ b) = (s ++ '/' :: joinParts (s' :: t')) ++ '/' :: joinParts b
      rw [this]; simp

theorem joinParts_ne_nil {l : List Str} {s : Str} (h : s ∈ l) (hs : s ≠ []) : joinParts l ≠ [] := by
  induction l with
  | nil => cases h
  | cons a t ih =>
    cases t with
    | nil => simp at h; subst h; exact hs
    | cons b u => simp [joinParts]

theorem splitOnChar_ne_nil (d : Char) (p : Str) : splitOnChar d p ≠ [] := by
  cases p with
  | nil => simp [splitOnChar]
  | cons c s =>
    unfold splitOnChar
    split
    · simp
    · split <;> simp

theorem joinParts_split (p : Str) : joinParts (splitOnChar '/' p) = p := by
  induction p with
  | nil => rfl
  | cons c s ih =>
    unfold splitOnChar
    split
    · next h =>
      have : c = '/' := by simpa using h
      subst this
      rw [show ([] : Str) :: splitOnChar '/' s = [[]] ++ splitOnChar '/' s from rfl,
        joinParts_append _ _ (by simp) (splitOnChar_ne_nil _ _), ih]
      rfl
    · split
      · next h => exact absurd h (splitOnChar_ne_nil _ _)
      · next h t he =>
        rw [he] at ih
        cases t with
        | nil => simp only [joinParts] at ih ⊢; rw [ih]
        | cons u v => simp only [joinParts, List.cons_append] at ih ⊢; rw [ih]

theorem dropWhile_split {α : Type} (f : α → Bool) (l : List α) :
    ∃ a b, l = a ++ b ∧ l.dropWhile f = b ∧ (∀ x t, b = x :: t → f x = false) := by
  refine ⟨l.takeWhile f, l.dropWhile f, (List.takeWhile_append_dropWhile).symm, rfl, ?_⟩
  intro x t h
  have := List.head?_dropWhile_not (p := f) (l := l)
  rw [h] at this
  simpa using this

/-- `trimBack` keeps a beginning of the list, and the last of what it keeps is not trimmable unless it is the only
one. -/
theorem trimBack_split (l : List Str) (h : l ≠ []) :
    ∃ more, l = trimBack l ++ more ∧ trimBack l ≠ [] ∧
      ∀ s t, trimBack l = s :: t → ∀ x, t.getLast? = some x → x ≠ [] := by
  cases l with
  | nil => exact absurd rfl h
  | cons a t =>
    obtain ⟨u, v, h1, h2, h3⟩ := dropWhile_split (fun s : Str => s == [] || s == ['.']) t.reverse
    refine ⟨u.reverse, ?_, by simp [trimBack], ?_⟩
    · unfold trimBack
      simp only [h2]
      have : t = v.reverse ++ u.reverse := by
        rw [← List.reverse_append, ← h1, List.reverse_reverse]
      rw [this]; simp
    · intro s t' he x hx
      unfold trimBack at he
      simp only [h2] at he
      cases he
      rw [List.getLast?_reverse] at hx
      cases v with
      | nil => cases hx
      | cons y ys =>
        cases hx
        have := h3 x ys rfl
        rintro rfl
        simp at this

/-- The parent of a path is a directory at the beginning of the path, or empty. -/
theorem parent_spec {p q : Path} (h : parent p = some q) : q = [] ∨ DirOf q p := by
  unfold parent at h
  obtain ⟨more, h1, h2, h3⟩ := trimBack_split _ (splitOnChar_ne_nil '/' p)
  have hp := joinParts_split p
  generalize splitOnChar '/' p = comps at *
  generalize trimBack comps = kept at *
  match kept, h2, h with
  | [s], _, h =>
    simp only at h
    split at h
    · cases h
    · cases h; exact .inl rfl
  | s :: s' :: t, _, h =>
    simp only at h
    obtain ⟨more', g1, g2, -⟩ := trimBack_split ((s :: s' :: t).dropLast) (by simp)
    -- the whole list starts with what is kept of the front, and more follows
    obtain ⟨x, hx⟩ : ∃ x, x = (s :: s' :: t).getLast (by simp) := ⟨_, rfl⟩
    have hxne : x ≠ [] := h3 s (s' :: t) rfl x (by
      rw [hx, List.getLast_cons (by simp), ← List.getLast?_eq_some_getLast])
    have hlast : (s :: s' :: t) = (s :: s' :: t).dropLast ++ [x] := by
      rw [hx]; exact (List.dropLast_concat_getLast (by simp)).symm
    generalize hup : trimBack ((s :: s' :: t).dropLast) = up at *
    have hc : comps = up ++ (more' ++ [x] ++ more) := by
      rw [h1, hlast, g1]; simp
    have hj : p = joinParts up ++ '/' :: joinParts (more' ++ [x] ++ more) := by
      rw [← hp, hc, joinParts_append _ _ g2 (by simp)]
    have hne : joinParts (more' ++ [x] ++ more) ≠ [] := joinParts_ne_nil (s := x) (by simp) hxne
    split at h
    · next he =>
      cases h
      refine .inr ⟨by simp, joinParts (more' ++ [x] ++ more), ?_, hne, .inl rfl⟩
      rw [hj, he]; rfl
    · cases h
      by_cases hz : joinParts up = []
      · exact .inl hz
      · exact .inr ⟨hz, _, hj, by simp, .inr rfl⟩

theorem Spec.DirOf.trans {a b c : Path} (h1 : DirOf a b) (h2 : DirOf b c) : DirOf a c := by
  obtain ⟨ha, r1, rfl, hr1, h⟩ := h1
  obtain ⟨_, r2, rfl, hr2, _⟩ := h2
  refine ⟨ha, r1 ++ r2, by simp, by simp [hr1], ?_⟩
  rcases h with h | h
  · exact .inl h
  · right
    cases r1 with
    | nil => exact absurd rfl hr1
    | cons x t => simpa using h

theorem ancestorsFrom_spec (fuel : Nat) : ∀ (p d : Path), d ∈ ancestorsFrom fuel p → (d = p ∧ p ≠ []) ∨ DirOf d p := by
  induction fuel with
  | zero => intro p d h; cases h
  | succ n ih =>
    intro p d h
    unfold ancestorsFrom at h
    split at h
    · cases h
    · next hp =>
      rcases List.mem_cons.1 h with rfl | h
      · exact .inl ⟨rfl, hp⟩
      · split at h
        · next q hq =>
          rcases parent_spec hq with rfl | hd
          · unfold ancestorsFrom at h
            cases n <;> simp at h
          · rcases ih q d h with ⟨rfl, _⟩ | h
            · exact .inr hd
            · exact .inr (h.trans hd)
        · cases h

theorem ancestors_dirOf {p q d : Path} (hq : parent p = some q) (hd : d ∈ ancestors q) : DirOf d p := by
  unfold ancestors at hd
  rw [List.mem_reverse] at hd
  rcases ancestorsFrom_spec _ q d hd with ⟨rfl, hne⟩ | h
  · rcases parent_spec hq with rfl | h
    · exact absurd rfl hne
    · exact h
  · rcases parent_spec hq with rfl | h'
    · obtain ⟨h1, r, h2, h3, _⟩ := h
      simp at h2; exact absurd h2.1 h1
    · exact h.trans h'

theorem target_eq (base file : Path) :
    (if isAbsolute file then file else joinPath base file) = target base file := by
  unfold target joinPath
  have habs : isAbsolute file = true ↔ file.head? = some '/' := by
    cases file with
    | nil => simp [isAbsolute]
    | cons c t =>
      by_cases h : c = '/'
      · subst h; simp [isAbsolute]
      · simp only [List.head?_cons, Option.some.injEq, h, iff_false]
        unfold isAbsolute; split
        · next h' => cases h'; exact absurd rfl h
        · simp
  by_cases h : file.head? = some '/'
  · rw [if_pos (habs.2 h), if_pos h]
  · rw [if_neg (fun h' => h (habs.1 h')), if_neg (fun h' => h (habs.1 h')), if_neg h]
    cases hb : base.getLast? with
    | none =>
      have : base = [] := List.getLast?_eq_none_iff.1 hb
      simp [this]
    | some x =>
      have hne : base ≠ [] := by rintro rfl; cases hb
      rw [if_neg hne]
      by_cases hx : x = '/'
      · subst hx; simp
      · have : ¬ some x = some '/' := by simpa using hx
        rw [if_neg this]
        split
        · next h => cases h
        · next h => cases h; exact absurd rfl hx
        · rfl

end Reqtrace
