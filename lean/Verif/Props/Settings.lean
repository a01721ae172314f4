import Verif.Spec.Settings
import Verif.Props.Jobs
import Verif.Props.Rerun
import Verif.Props.Input

/-!
# C156: what the settings of artefacts change
-/

namespace Reqtrace

open Spec

namespace Settings

/-- The requirements of all artefacts. -/
def bare (g : Graph) : BMap ArtefactId (BMap RequirementId Requirement) := g.artefacts.mapValues (·.requirements)

def ownedIn (m : BMap ArtefactId (BMap RequirementId Requirement)) (a : ArtefactId) : List Requirement :=
  match m.get a with
  | none => []
  | some rs => rs.values.filter fun r => m.entries.all fun e => !(compare e.1 a == .lt && (e.2.get r.id).isSome)

theorem owned_eq (g : Graph) (a : ArtefactId) : owned g a = ownedIn (bare g) a := by
  unfold owned ownedIn bare
  rw [BMap.get_mapValues]
  cases g.artefacts.get a with
  | none => rfl
  | some art =>
    simp only [Option.map_some, BMap.mapValues, List.all_map]
    rfl

theorem upperReqs_eq (g : Graph) (rel : Relation) : upperReqs g rel = (((bare g).get rel.upper).map (·.values)).getD [] := by
  unfold upperReqs bare
  rw [BMap.get_mapValues]
  cases g.artefacts.get rel.upper <;> rfl

variable {g g' : Graph} (hs : SameButSettings g g')
include hs

theorem bare_same : bare g' = bare g := by
  apply BMap.ext_get
  intro a
  unfold bare
  rw [BMap.get_mapValues, BMap.get_mapValues]
  exact hs.requirements a

theorem owned_same (a : ArtefactId) : owned g' a = owned g a := by
  rw [owned_eq, owned_eq, bare_same hs]

theorem upperReqs_same (rel : Relation) : upperReqs g' rel = upperReqs g rel := by
  rw [upperReqs_eq, upperReqs_eq, bare_same hs]

theorem reqEvents_same (rel : Relation) (u : Requirement) : reqEvents g' rel u = reqEvents g rel u := by
  unfold reqEvents downEvents upEvents
  simp only [owned_same hs]

theorem relEvents_same (rel : Relation) : relEvents g' rel = relEvents g rel := by
  unfold relEvents
  rw [upperReqs_same hs]
  exact flatMap_congr' fun u _ => reqEvents_same hs rel u

theorem allEvents_same : allEvents g' = allEvents g := by
  unfold allEvents
  rw [hs.relations]
  exact flatMap_congr' fun rel _ => relEvents_same hs rel

theorem keys_same : g'.artefacts.keys = g.artefacts.keys := by
  have h : ∀ g : Graph, g.artefacts.keys = (bare g).keys := fun g => by
    unfold bare BMap.keys BMap.mapValues
    simp
  rw [h, h, bare_same hs]

theorem owner_same (id : RequirementId) : owner g' id = owner g id := by
  have h : ∀ g : Graph, owner g id = (bare g).values.findSome? (fun rs => rs.get id) := fun g => by
    unfold owner bare BMap.values BMap.mapValues
    simp [List.findSome?_map, Function.comp_def]
  rw [h, h, bare_same hs]

theorem duplicateErrors_same : duplicateErrors g' = duplicateErrors g := by
  have h : ∀ g : Graph, duplicateErrors g = (bare g).entries.flatMap fun e => e.2.values.filterMap fun r =>
      ((bare g).entries.findSome? (fun e' => if compare e'.1 e.1 = .lt then e'.2.get r.id else none)).map
        (fun old => .duplicateRequirement old r) := fun g => by
    unfold duplicateErrors bare BMap.mapValues
    simp [List.flatMap_map, List.findSome?_map, Function.comp_def]
  rw [h, h, bare_same hs]

theorem links_same : coverLinks g' = coverLinks g ∧ dependLinks g' = dependLinks g := by
  unfold coverLinks dependLinks
  rw [keys_same hs, flatMap_congr' (g := owned g) fun a _ => owned_same hs a]
  exact ⟨rfl, rfl⟩

theorem dangling_same : danglingCovers g' = danglingCovers g ∧ danglingDepends g' = danglingDepends g := by
  unfold danglingCovers danglingDepends
  have hl : ∀ d, linked g' d = linked g d := by
    intro d; funext k
    unfold linked
    rw [allEvents_same hs]
  rw [(links_same hs).1, (links_same hs).2, hl, hl]
  simp only [owner_same hs, and_self]

theorem relationErrors_same (rel : Relation) : (relationErrors g' rel).filter (fun e => !isUntitled e) =
    (relationErrors g rel).filter (fun e => !isUntitled e) := by
  unfold relationErrors
  rw [relEvents_same hs, List.filter_append, List.filter_append, List.filter_flatMap, List.filter_flatMap]
  congr 1
  refine flatMap_congr' fun e _ => ?_
  unfold titleErrors
  split
  · rfl
  · split <;> split <;> rfl
  · rfl
  · split <;> split <;> rfl

theorem derived_same {a : ArtefactId} {art art' : Artefact} : (art'.ignoreDerivedRequirements = true → derived g' a art' = []) ∧
    (art'.ignoreDerivedRequirements = art.ignoreDerivedRequirements → derived g' a art' = derived g a art) := by
  unfold derived
  rw [owned_same hs, allEvents_same hs]
  exact ⟨fun h => by rw [h]; rfl, fun h => by rw [h]⟩

end Settings

/-- **C156** Settings of artefacts have no influence on coverage and on errors, except those about missing titles; which
requirements of an artefact are derived depends only on its own setting. -/
theorem C156_settings {g g' : Graph} {tg tg' : TracedGraph} (hk : Keyed g) (hk' : Keyed g') (hs : SameButSettings g g')
    (h : trace g = .ok tg) (h' : trace g' = .ok tg') :
    tg'.tracedRelations = tg.tracedRelations ∧
    tg'.errors.filter (fun e => !isUntitled e) = tg.errors.filter (fun e => !isUntitled e) ∧
    ∀ a art art', g.artefacts.get a = some art → g'.artefacts.get a = some art' →
      (art'.ignoreDerivedRequirements = true → tg'.derived.get a = some []) ∧
      (art'.ignoreDerivedRequirements = art.ignoreDerivedRequirements → tg'.derived.get a = tg.derived.get a) := by
  obtain ⟨_, rfl⟩ := (trace_ok_iff hk tg).1 h
  obtain ⟨_, rfl⟩ := (trace_ok_iff hk' tg').1 h'
  refine ⟨?_, ?_, ?_⟩
  · show g'.relations.map (tracedRelation g') = g.relations.map (tracedRelation g)
    rw [hs.relations]
    refine List.map_congr_left fun rel _ => ?_
    unfold tracedRelation uncovered
    rw [Settings.relEvents_same hs, Settings.upperReqs_same hs]
    simp only [Settings.reqEvents_same hs]
  · show (duplicateErrors g' ++ g'.relations.flatMap (relationErrors g') ++ danglingCovers g' ++ danglingDepends g').filter _ =
      (duplicateErrors g ++ g.relations.flatMap (relationErrors g) ++ danglingCovers g ++ danglingDepends g).filter _
    rw [hs.relations, Settings.duplicateErrors_same hs, (Settings.dangling_same hs).1, (Settings.dangling_same hs).2]
    simp only [List.filter_append, List.filter_flatMap]
    rw [flatMap_congr' fun rel _ => Settings.relationErrors_same hs rel]
  · intro a art art' ha ha'
    have hd : ∀ (g : Graph) (art : Artefact), g.artefacts.get a = some art → (traced g).derived.get a = some (derived g a art) := by
      intro g art ha
      show (derivedMap g).get a = _
      unfold derivedMap
      rw [get_ofList_map, ha]
      rfl
    rw [hd g art ha, hd g' art' ha']
    exact ⟨fun h => by rw [(Settings.derived_same (art := art) hs).1 h], fun h => by rw [(Settings.derived_same hs).2 h]⟩

/-- **C156** Where less is asked for, no error and no derived requirement is new. -/
theorem C156_laxer {g g' : Graph} {tg tg' : TracedGraph} (hk : Keyed g) (hk' : Keyed g') (hs : SameButSettings g g')
    (hl : LaxerGraph g g') (h : trace g = .ok tg) (h' : trace g' = .ok tg') :
    (∀ e, e ∈ tg'.errors → e ∈ tg.errors) ∧
    (∀ a d', tg'.derived.get a = some d' → ∃ d, tg.derived.get a = some d ∧ ∀ id, id ∈ d' → id ∈ d) ∧
    ((ParseProblem g'.artefacts → ParseProblem g.artefacts) → TraceProblem tg' → TraceProblem tg) := by
  obtain ⟨k1, k2, k3⟩ := C156_settings hk hk' hs h h'
  have back : ∀ a art', g'.artefacts.get a = some art' → ∃ art, g.artefacts.get a = some art := by
    intro a art' ha
    have := hs.requirements a
    rw [ha] at this
    cases hg : g.artefacts.get a with
    | none => rw [hg] at this; cases this
    | some art => exact ⟨art, rfl⟩
  have fwd : ∀ a art, g.artefacts.get a = some art → ∃ art', g'.artefacts.get a = some art' := by
    intro a art ha
    have := hs.requirements a
    rw [ha] at this
    cases hg : g'.artefacts.get a with
    | none => rw [hg] at this; cases this
    | some art => exact ⟨art, rfl⟩
  have herr : ∀ e, e ∈ tg'.errors → e ∈ tg.errors := by
    intro e he
    cases hu : isUntitled e with
    | false =>
      have : e ∈ tg'.errors.filter (fun e => !isUntitled e) := List.mem_filter.2 ⟨he, by simp [hu]⟩
      rw [k2] at this
      exact (List.mem_filter.1 this).1
    | true =>
      obtain ⟨_, rfl⟩ := (trace_ok_iff hk tg).1 h
      obtain ⟨_, rfl⟩ := (trace_ok_iff hk' tg').1 h'
      have needs : ∀ a, needsTitle g' a = true → needsTitle g a = true := by
        intro a
        unfold needsTitle
        intro hn
        cases ha' : g'.artefacts.get a with
        | none => rw [ha'] at hn; cases hn
        | some art' =>
          rw [ha'] at hn
          obtain ⟨art, ha⟩ := back a art' ha'
          rw [ha]
          exact hl.titles a art art' ha ha' hn
      have he : e ∈ duplicateErrors g' ++ g'.relations.flatMap (relationErrors g') ++ danglingCovers g' ++ danglingDepends g' := he
      show e ∈ duplicateErrors g ++ g.relations.flatMap (relationErrors g) ++ danglingCovers g ++ danglingDepends g
      rw [Settings.duplicateErrors_same hs, (Settings.dangling_same hs).1, (Settings.dangling_same hs).2, hs.relations] at he
      simp only [List.mem_append, List.mem_flatMap] at he ⊢
      rcases he with ((he | ⟨rel, hr, he⟩) | he) | he
      · exact .inl (.inl (.inl he))
      · refine .inl (.inl (.inr ⟨rel, hr, ?_⟩))
        unfold relationErrors at he ⊢
        rw [Settings.relEvents_same hs] at he
        rw [List.mem_append] at he ⊢
        refine he.imp ?_ (fun h => h)
        simp only [List.mem_flatMap]
        rintro ⟨ev, h1, h2⟩
        refine ⟨ev, h1, ?_⟩
        revert h2
        unfold titleErrors
        split
        · exact fun h => h
        · cases hn : needsTitle g' ev.lowerArt with
          | false => intro h; cases h
          | true => rw [needs _ hn]; exact fun h => h
        · exact fun h => h
        · cases hn : needsTitle g' rel.upper with
          | false => intro h; cases h
          | true => rw [needs _ hn]; exact fun h => h
      · exact .inl (.inr he)
      · exact .inr he
  have hder : ∀ a d', tg'.derived.get a = some d' → ∃ d, tg.derived.get a = some d ∧ ∀ id, id ∈ d' → id ∈ d := by
    intro a d' hd'
    have hkeys : ∃ art', g'.artefacts.get a = some art' := by
      obtain ⟨_, rfl⟩ := (trace_ok_iff hk' tg').1 h'
      have hd' : (derivedMap g').get a = some d' := hd'
      unfold derivedMap at hd'
      rw [get_ofList_map] at hd'
      cases ha : g'.artefacts.get a with
      | none => rw [ha] at hd'; cases hd'
      | some art => exact ⟨art, rfl⟩
    obtain ⟨art', ha'⟩ := hkeys
    obtain ⟨art, ha⟩ := back a art' ha'
    obtain ⟨k4, k5⟩ := k3 a art art' ha ha'
    have hd : ∃ d, tg.derived.get a = some d := by
      obtain ⟨_, rfl⟩ := (trace_ok_iff hk tg).1 h
      show ∃ d, (derivedMap g).get a = some d
      unfold derivedMap
      rw [get_ofList_map, ha]
      exact ⟨_, rfl⟩
    obtain ⟨d, hd⟩ := hd
    refine ⟨d, hd, ?_⟩
    cases hi : art'.ignoreDerivedRequirements with
    | true =>
      rw [k4 hi] at hd'
      cases hd'
      intro id h; cases h
    | false =>
      have hi0 : art.ignoreDerivedRequirements = false := by
        cases hx : art.ignoreDerivedRequirements with
        | false => rfl
        | true => rw [hl.derived a art art' ha ha' hx] at hi; cases hi
      rw [k5 (by rw [hi, hi0]), hd] at hd'
      cases hd'
      exact fun _ h => h
  refine ⟨herr, hder, fun hp => ?_⟩
  unfold TraceProblem
  rw [(C11_frame hk h).1, (C11_frame hk' h').1, k1]
  rintro (⟨e, he⟩ | hx | hx | ⟨a, d', id, h1, h2⟩)
  · exact .inl ⟨e, herr e he⟩
  · exact .inr (.inl (hp hx))
  · exact .inr (.inr (.inl hx))
  · obtain ⟨d, h3, h4⟩ := hder a d' h1
    exact .inr (.inr (.inr ⟨a, d, id, h3, h4 id h2⟩))

namespace Settings

section
variable {k : ArtefactConfig → ArtefactConfig} (hk : Resets k)
include hk

theorem parseArtefact_reset (env : Env) (w : World) (ac : ArtefactConfig) (base : Path) :
    parseArtefact env w (k ac) base = parseArtefact env w ac base := by
  unfold parseArtefact parseMultipleFiles parseSingleFile
  rw [hk.id, hk.paths, hk.parser]

theorem parseFromConfig_reset (env : Env) (w : World) (ac : ArtefactConfig) (base : Path) :
    parseFromConfig env w (k ac) base = parseFromConfig env w ac base := by
  unfold parseFromConfig
  rw [parseArtefact_reset hk]

theorem configured_reset (config : Config) (a : ArtefactId) : Configured (resetConfig k config) a ↔ Configured config a := by
  unfold Configured resetConfig
  simp only [List.mem_map]
  constructor
  · rintro ⟨_, ⟨ac, h, rfl⟩, e⟩
    exact ⟨ac, h, by rw [← e, hk.id]⟩
  · rintro ⟨ac, h, e⟩
    exact ⟨_, ⟨ac, h, rfl⟩, by rw [hk.id, e]⟩

theorem lastEntry_reset {config : Config} {ac : ArtefactConfig} (h : LastEntry config ac) : LastEntry (resetConfig k config) (k ac) := by
  obtain ⟨pre, post, e, hp⟩ := h
  refine ⟨pre.map k, post.map k, by unfold resetConfig; simp [e], ?_⟩
  intro b hb
  obtain ⟨x, hx, rfl⟩ := List.mem_map.1 hb
  rw [hk.id, hk.id]
  exact hp x hx

end

end Settings

/-- **C156** A project with other settings loads as before and has the same files and requirements; of the errors of reading
only those about missing titles may differ. -/
theorem C156_project {k : ArtefactConfig → ArtefactConfig} (hk : Resets k) {env : Env} {w : World} {config : Config} {base : Path}
    {c : Controller} (h : Controller.new env w config base = .ok c) :
    ∃ c', Controller.new env w (resetConfig k config) base = .ok c' ∧ SameButSettings c.graph c'.graph ∧
      c'.jobs = c.jobs ∧ c'.defaultJobs = c.defaultJobs ∧
      ∀ a art art', c.graph.artefacts.get a = some art → c'.graph.artefacts.get a = some art' → art'.files = art.files ∧
        ∃ errs, (∀ ac, LastEntry config ac → ac.id = a →
          art.errors = errs ++ (if ac.referenceWithTitle = some true then
            (art.requirements.values.filter (fun r => r.title = none)).map .requirementWithoutTitle else []) ∧
          art'.errors = errs ++ (if (k ac).referenceWithTitle = some true then
            (art.requirements.values.filter (fun r => r.title = none)).map .requirementWithoutTitle else [])) := by
  obtain ⟨hrc, hall⟩ := (C18_returns_iff env w config base).1 ⟨c, h⟩
  have hret : ∃ c', Controller.new env w (resetConfig k config) base = .ok c' := by
    rw [C18_returns_iff]
    constructor
    · intro rel hr
      obtain ⟨h1, h2⟩ := hrc rel hr
      exact ⟨(Settings.configured_reset hk config _).2 h1, fun b hb => (Settings.configured_reset hk config _).2 (h2 b hb)⟩
    · intro b hb
      obtain ⟨ac, hac, rfl⟩ := List.mem_map.1 hb
      rw [Settings.parseArtefact_reset hk]
      exact hall ac hac
  obtain ⟨c', h'⟩ := hret
  have both : ∀ a art art', c.graph.artefacts.get a = some art → c'.graph.artefacts.get a = some art' → art'.files = art.files ∧
      art'.requirements = art.requirements ∧
        ∃ errs, (∀ ac, LastEntry config ac → ac.id = a →
          art.errors = errs ++ (if ac.referenceWithTitle = some true then
            (art.requirements.values.filter (fun r => r.title = none)).map .requirementWithoutTitle else []) ∧
          art'.errors = errs ++ (if (k ac).referenceWithTitle = some true then
            (art.requirements.values.filter (fun r => r.title = none)).map .requirementWithoutTitle else [])) := by
    intro a art art' ha ha'
    obtain ⟨ac, errs, x1, x2, x3, -, x5⟩ := C20_appended h ha
    obtain ⟨bc, errs', y1, y2, y3, -, y5⟩ := C20_appended h' ha'
    cases lastEntry_unique y1 (Settings.lastEntry_reset hk x1) (by rw [y2, hk.id, x2])
    rw [Settings.parseFromConfig_reset hk, x3] at y3
    simp only [Except.ok.injEq, Prod.mk.injEq] at y3
    obtain ⟨z1, z2, rfl⟩ := y3
    refine ⟨z1.symm, z2.symm, errs, fun ac' h1 h2 => ?_⟩
    cases lastEntry_unique h1 x1 (by rw [h2, x2])
    rw [← z2] at y5
    exact ⟨x5, y5⟩
  have some_iff : ∀ a, (c'.graph.artefacts.get a).isSome = (c.graph.artefacts.get a).isSome := by
    intro a
    rw [Bool.eq_iff_iff, ← BMap.mem_keys_iff_isSome, ← BMap.mem_keys_iff_isSome, ← (C18_no_panic h).2.2.1, ← (C18_no_panic h').2.2.1]
    exact Settings.configured_reset hk config a
  refine ⟨c', h', ⟨by rw [(C18_no_panic h).2.1, (C18_no_panic h').2.1]; rfl, ?_⟩, ?_, ?_, fun a art art' ha ha' => ?_⟩
  · intro a
    have := some_iff a
    cases ha : c.graph.artefacts.get a with
    | none =>
      rw [ha] at this
      have : c'.graph.artefacts.get a = none := Option.isNone_iff_eq_none.1 (by rw [← Option.not_isSome, this]; rfl)
      rw [this]
    | some art =>
      rw [ha] at this
      obtain ⟨art', ha'⟩ := Option.isSome_iff_exists.1 this
      rw [ha', Option.map_some, Option.map_some, (both a art art' ha ha').2.1]
  · obtain ⟨g, -, rfl⟩ := (C82_controller env w config base c).1 h
    obtain ⟨g', -, rfl⟩ := (C82_controller env w _ base c').1 h'
    rfl
  · obtain ⟨g, -, rfl⟩ := (C82_controller env w config base c).1 h
    obtain ⟨g', -, rfl⟩ := (C82_controller env w _ base c').1 h'
    rfl
  · obtain ⟨x1, -, x2⟩ := both a art art' ha ha'
    exact ⟨x1, x2⟩

/-- **C156** Switching settings such that less is asked for takes no verdict from good to bad. -/
theorem C156_relaxed {k : ArtefactConfig → ArtefactConfig} (hk : Relaxes k) {env : Env} {w : World} {config : Config} {base : Path}
    {c c' : Controller} (h : Controller.new env w config base = .ok c) (h' : Controller.new env w (resetConfig k config) base = .ok c')
    (job : Job) : Detects c' job → Detects c job := by
  obtain ⟨c2, h2, hs, -, -, hb⟩ := C156_project hk.toResets h
  rw [h'] at h2
  cases h2
  have hp : ParseProblem c'.graph.artefacts → ParseProblem c.graph.artefacts := by
    rintro ⟨a, art', e, ha', he⟩
    have := hs.requirements a
    rw [ha'] at this
    cases ha : c.graph.artefacts.get a with
    | none => rw [ha] at this; cases this
    | some art =>
      obtain ⟨-, errs, hx⟩ := hb a art art' ha ha'
      obtain ⟨ac, y1, y2⟩ := lastEntry_exists (((C18_no_panic h).2.2.1 a).2 ((BMap.mem_keys_iff_isSome _ _).2 (by rw [ha]; rfl)))
      obtain ⟨z1, z2⟩ := hx ac y1 y2
      refine ⟨a, art, e, ha, ?_⟩
      rw [z2] at he
      rw [z1]
      rcases hk.titles ac with t | t
      · rw [t] at he; exact he
      · rw [if_neg t, List.append_nil] at he
        exact List.mem_append_left _ he
  have hl : LaxerGraph c.graph c'.graph := by
    constructor
    · intro a art art' ha ha' ht
      obtain ⟨ac, _, x1, x2, -, x4, -⟩ := C20_appended h ha
      obtain ⟨bc, _, y1, y2, -, y4, -⟩ := C20_appended h' ha'
      cases lastEntry_unique y1 (Settings.lastEntry_reset hk.toResets x1) (by rw [y2, hk.id, x2])
      rw [x4]
      rw [y4] at ht
      rcases hk.titles ac with t | t
      · rw [← t]; exact ht
      · exact absurd ht t
    · intro a art art' ha ha' ht
      obtain ⟨ac, x1, x2, x3, x4⟩ := C19_default_root h ha
      obtain ⟨bc, y1, y2, y3, y4⟩ := C19_default_root h' ha'
      cases lastEntry_unique y1 (Settings.lastEntry_reset hk.toResets x1) (by rw [y2, hk.id, x2])
      rcases hk.derived ac with t | t
      · cases hi : ac.ignoreDerivedRequirements with
        | none =>
          rw [y4 (by rw [t, hi])]
          exact (x4 hi).1 ht
        | some b =>
          rw [y3 b (by rw [t, hi]), ← x3 b hi]
          exact ht
      · exact y3 true t
  unfold Detects
  split
  · exact (C156_laxer (C18_consistent h).1 (C18_consistent h').1 hs hl (C18_no_panic h).1 (C18_no_panic h').1).2.2 hp
  · exact hp

/-- **C156** So if the reports can be written the exit code does not become worse. -/
theorem C156_exit {k : ArtefactConfig → ArtefactConfig} (hk : Relaxes k) {env : Env} {w : World} {opt opt' : Arguments} {config : Config}
    (hb : opt'.baseDir = opt.baseDir) (hj : opt'.jobs = opt.jobs)
    (hg : GoodConfig env w opt.configFile config) (hg' : GoodConfig env w opt'.configFile (resetConfig k config))
    (h : (Main.main env opt w).1 ≤ 1) (h' : (Main.main env opt' w).1 ≤ 1) :
    (Main.main env opt' w).1 ≤ (Main.main env opt w).1 := by
  obtain ⟨a0, a1, -⟩ := C28_exit_code_partial env opt w
  obtain ⟨b0, b1, -⟩ := C28_exit_code_partial env opt' w
  have e : ∀ n : Nat, n ≤ 1 → n = 0 ∨ n = 1 := by omega
  rcases e _ h with x | x <;> rcases e _ h' with y | y
  · rw [x, y]; exact Nat.le_refl _
  · exfalso
    obtain ⟨d, js, v, ⟨cfg, h1, h2, -, h3, -⟩, p2⟩ := a0.1 x
    obtain ⟨d', js', v', ⟨cfg', h1', h2', -, h3', -⟩, j, q2, q3, q4⟩ := b1.1 y
    cases GoodConfig_unique h1 hg
    cases GoodConfig_unique h1' hg'
    have r1 : requested (resetConfig k config) opt' = requested config opt := by unfold requested; rw [hj]; rfl
    rw [r1] at h3'
    rw [hb] at h2'
    exact p2 ⟨j, (h3.mem j).2 ((h3'.mem j).1 q2), q3, C156_relaxed hk h2 h2' j q4⟩
  · rw [x, y]; exact Nat.zero_le _
  · rw [x, y]; exact Nat.le_refl _

/-! ## Cases -/

namespace SettingsExample

open CtrlExample

def config : Config where
  version := some 0
  artefacts := [⟨c!"REQ", [c!"req.md"], .markdown, none, some true⟩, ⟨c!"DES", [c!"des.md"], .markdown, none, none⟩]
  relations := [⟨c!"REQ", [c!"DES"]⟩]
  jobs := some (BMap.ofList [(c!"trace", ⟨.trace, .gnuError, c!"-", none⟩)])
  defaultJobs := some [c!"trace"]

/-- No titles are required, and `DES` may have derived requirements. -/
def relax (ac : ArtefactConfig) : ArtefactConfig := { ac with
  ignoreDerivedRequirements := if ac.id = c!"DES" then some true else ac.ignoreDerivedRequirements
  referenceWithTitle := none }

theorem relaxes : Relaxes relax where
  id _ := rfl
  paths _ := rfl
  parser _ := rfl
  derived ac := by
    unfold relax
    split
    · exact .inr rfl
    · exact .inl rfl
  titles ac := .inr (by unfold relax; simp)

/-- The reference to `R1` has no title and `D2` is derived. -/
def w : World := world [(c!"requirements.toml", c!"..."), (c!"relaxed.toml", c!"."), (c!"p/req.md", c!"# R1: one\n"),
  (c!"p/des.md", c!"# D1: low\nCovers: R1\n# D2: own\n")]

def e : Env := { CtrlExample.env .nil config with
  tomlTree := fun b => .ok (ConfigRead.tree (if b = Utf8.encode c!"..." then config else resetConfig relax config)) }

/-- The project is red for two reasons, both of which are settings. -/
example : (Main.main e ⟨c!"relaxed.toml", c!"p", []⟩ w).1 ≤ (Main.main e ⟨c!"requirements.toml", c!"p", []⟩ w).1 ∧
    (Main.main e ⟨c!"requirements.toml", c!"p", []⟩ w).1 = 1 ∧ (Main.main e ⟨c!"relaxed.toml", c!"p", []⟩ w).1 = 0 := by
  have h1 : (Main.main e ⟨c!"requirements.toml", c!"p", []⟩ w).1 = 1 := by decide +kernel
  have h2 : (Main.main e ⟨c!"relaxed.toml", c!"p", []⟩ w).1 = 0 := by decide +kernel
  exact ⟨C156_exit (env := e) (w := w) (config := config) (opt := ⟨c!"requirements.toml", c!"p", []⟩) (opt' := ⟨c!"relaxed.toml", c!"p", []⟩)
    relaxes rfl rfl
    ⟨⟨Utf8.encode c!"...", none⟩, _, by decide +kernel, rfl, rfl, (C78_config _ _).1 rfl, fun v hv => by cases hv; rfl⟩
    ⟨⟨Utf8.encode c!".", none⟩, _, by decide +kernel, rfl, rfl, (C78_config _ _).1 rfl, fun v hv => by cases hv; rfl⟩
    (Nat.le_of_eq h1) (Nat.le_trans (Nat.le_of_eq h2) (Nat.zero_le 1)), h1, h2⟩

set_option synthInstance.maxSize 2000 in
set_option synthInstance.maxHeartbeats 200000 in
/-- What is found with the one and the other. -/
example : ((Controller.new e w config c!"p").toOption.map fun c => (c.tracedGraph.errors.map Error.display, c.tracedGraph.derived.entries)) =
      some ([c!"Requirement referenced without title R1 at p/des.md:2"], [(c!"DES", [c!"D2"]), (c!"REQ", [])]) ∧
    ((Controller.new e w (resetConfig relax config) c!"p").toOption.map fun c =>
      (c.tracedGraph.errors.map Error.display, c.tracedGraph.derived.entries)) = some ([], [(c!"DES", []), (c!"REQ", [])]) := by
  decide +kernel

end SettingsExample

end Reqtrace
