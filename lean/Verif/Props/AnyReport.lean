import Verif.Spec.AnyReport
import Verif.Props.ListText

/-!
# C172: from the texts of any project to the text of the report
-/

namespace Reqtrace

open Spec RustLayout GlobText

namespace AnyReport

open ProjectReport (gnuText_append about_ids flatMap_congr' values_mem values_sorted unknowns dangling_unknowns unknowns_sorted
  inOrder_unique)

/-- **C172** There is at most one such report. -/
theorem C172_determined {env : FmtEnv} {config : Config} {reqsOf : ArtefactId → List Requirement} {t t' : Str}
    (h : AnyReport env config reqsOf t) (h' : AnyReport env config reqsOf t') : t = t' := by
  obtain ⟨a, b, c, d, h1, h2, h3, h4, rfl⟩ := h
  obtain ⟨a', b', c', d', k1, k2, k3, k4, rfl⟩ := h'
  have : a = a' := funext fun x => inOrder_unique (h1 x) (k1 x)
  subst this
  cases inOrder_unique h2 k2
  cases inOrder_unique h3 k3
  cases inOrder_unique h4 k4
  rfl

/-- The dependencies on unknown requirements -/
def missing (g : Graph) : List (Requirement × Reference) :=
  ((dependLinks g).filter (fun k => !linked g .downwards k)).filterMap fun k =>
    (owner g k.1).bind fun l => (l.depends.find? (fun r => r.id == k.2)).map fun ref => (l, ref)

theorem dangling_missing (g : Graph) : danglingDepends g =
    (missing g).map fun x => .dependOnUnknownRequirement x.1 x.2.id x.2.location := by
  unfold danglingDepends missing
  rw [List.map_filterMap]
  congr 1
  funext k
  cases owner g k.1 with
  | none => rfl
  | some l =>
    simp only [Option.bind_some]
    cases h : l.depends.find? (fun r => r.id == k.2) with
    | none => rfl
    | some ref =>
      have := List.find?_some h
      simp only [beq_iff_eq] at this
      simp [this]

variable {g : Graph} {config : Config} {reqsOf : ArtefactId → List Requirement}

theorem missing_sorted (hk : Keyed g) : (missing g).Pairwise fun x y => compare (x.1.id, x.2.id) (y.1.id, y.2.id) = .lt := by
  unfold missing
  rw [List.pairwise_filterMap]
  have hs : (dependLinks g).Pairwise fun a b => compare a b = .lt := BMap.keys_sorted _
  refine (hs.filter _).imp ?_
  have key : ∀ (k : RequirementId × RequirementId) (x : Requirement × Reference),
      ((owner g k.1).bind fun l => (l.depends.find? (fun r => r.id == k.2)).map fun ref => (l, ref)) = some x →
      (x.1.id, x.2.id) = k := by
    intro k x h
    obtain ⟨l, h1, h2⟩ := Option.bind_eq_some_iff.1 h
    obtain ⟨ref, h3, rfl⟩ := Option.map_eq_some_iff.1 h2
    have h4 := List.find?_some h3
    simp only [beq_iff_eq] at h4
    exact Prod.ext (exists_owner hk h1).1 h4
  intro a b hab x hx y hy
  rw [key a x hx, key b y hy]
  exact hab

/-- The requirements of an artefact, in the order of their ids -/
def held (g : Graph) (a : ArtefactId) : List Requirement :=
  match g.artefacts.get a with
  | none => []
  | some art => art.requirements.values

theorem mem_held (hk : Keyed g) (a : ArtefactId) (r : Requirement) : r ∈ held g a ↔ Defines g a r := by
  unfold held
  cases h : g.artefacts.get a with
  | none =>
    refine ⟨nofun, ?_⟩
    rintro ⟨art, h1, -⟩
    rw [h] at h1
    cases h1
  | some art => exact values_mem hk h r

section
variable (hk : Keyed g) (hm : TextProject.Mirror g config fun a r => r ∈ reqsOf a)
  (hu : ∀ a b r s, r ∈ reqsOf a → s ∈ reqsOf b → r.id = s.id → a = b)
include hk hm hu

theorem unknowns_mem (x : Requirement × Reference) : x ∈ unknowns g ↔ NamesNoUpper config reqsOf x := by
  unfold unknowns
  rw [List.mem_filterMap]
  constructor
  · rintro ⟨k, h1, h2⟩
    rw [List.mem_filter, mem_coverLinks, Bool.not_eq_true', ← Bool.not_eq_true, linked_iff] at h1
    obtain ⟨⟨en, _, r, hr, ref, href, rfl⟩, hnl⟩ := h1
    simp only [owner_of_owned hk hr, Option.bind_some] at h2
    obtain ⟨m, h3, rfl⟩ := Option.map_eq_some_iff.1 h2
    obtain ⟨h4, before, after, h5, h6⟩ := List.find?_eq_some_iff_append.1 h3
    simp only [beq_iff_eq] at h4
    have ho := (mem_owned hk _ _).1 hr
    refine ⟨en.1, (hm.defines _ _).1 ho.1, ⟨before, after, h5, fun m' hm' e => ?_⟩, ?_⟩
    · have := h6 m' hm'
      simp [e, h4] at this
    · rintro ⟨rel, k1, k2, u, k3, k4⟩
      refine hnl ⟨⟨en.1, u, r, m, .upwards⟩, (mem_allEvents hk _).2 ⟨rel, hm.relations ▸ k1, ?_⟩, rfl, ?_⟩
      · exact .up ((hm.defines _ _).2 k3) k2 ho (by rw [h5]; simp) k4.symm
      · simp only [k4, h4]
  · rintro ⟨a, hr, ⟨before, after, h1, h2⟩, h3⟩
    have ho := (hm.owns hu _ _).2 hr
    have ho' : x.1 ∈ owned g a := (mem_owned hk _ _).2 ho
    obtain ⟨art, ha, -⟩ := ho.1
    refine ⟨(x.2.id, x.1.id), ?_, ?_⟩
    · rw [List.mem_filter, mem_coverLinks, Bool.not_eq_true', ← Bool.not_eq_true, linked_iff]
      refine ⟨⟨(a, art), (BMap.get_eq_some_iff _ _ _).1 ha, x.1, ho', x.2, by rw [h1]; simp, rfl⟩, ?_⟩
      rintro ⟨e, h4, -, h5⟩
      obtain ⟨rel, k1, k2⟩ := (mem_allEvents hk e).1 h4
      obtain ⟨k3, k4, k5, -⟩ := (hm.linked hu rel _ _ _).1 ⟨_, _, k2⟩
      injection h5 with h5 h6
      cases hu _ _ _ _ k5 hr h6
      exact h3 ⟨rel, hm.relations ▸ k1, k3, _, k4, h5⟩
    · simp only [owner_of_owned hk ho', Option.bind_some]
      rw [show x.1.covers.find? (fun r => r.id == x.2.id) = some x.2 from
        List.find?_eq_some_iff_append.2 ⟨by simp, before, after, h1, fun m hm => by simp [h2 m hm]⟩]
      rfl

theorem missing_mem (x : Requirement × Reference) : x ∈ missing g ↔ NamesNoLower config reqsOf x := by
  unfold missing
  rw [List.mem_filterMap]
  constructor
  · rintro ⟨k, h1, h2⟩
    rw [List.mem_filter, mem_dependLinks, Bool.not_eq_true', ← Bool.not_eq_true, linked_iff] at h1
    obtain ⟨⟨en, _, r, hr, ref, href, rfl⟩, hnl⟩ := h1
    simp only [owner_of_owned hk hr, Option.bind_some] at h2
    obtain ⟨m, h3, rfl⟩ := Option.map_eq_some_iff.1 h2
    obtain ⟨h4, before, after, h5, h6⟩ := List.find?_eq_some_iff_append.1 h3
    simp only [beq_iff_eq] at h4
    have ho := (mem_owned hk _ _).1 hr
    refine ⟨en.1, (hm.defines _ _).1 ho.1, ⟨before, after, h5, fun m' hm' e => ?_⟩, ?_⟩
    · have := h6 m' hm'
      simp [e, h4] at this
    · rintro ⟨rel, k1, k2, b, k3, l, k4, k5⟩
      refine hnl ⟨⟨b, r, l, m, .downwards⟩, (mem_allEvents hk _).2 ⟨rel, hm.relations ▸ k1, ?_⟩, rfl, ?_⟩
      · exact .down (k2 ▸ ho.1) k3 ((hm.owns hu _ _).2 k4) (by rw [h5]; simp) k5.symm
      · simp only [k5, h4]
  · rintro ⟨a, hr, ⟨before, after, h1, h2⟩, h3⟩
    have ho := (hm.owns hu _ _).2 hr
    have ho' : x.1 ∈ owned g a := (mem_owned hk _ _).2 ho
    obtain ⟨art, ha, -⟩ := ho.1
    refine ⟨(x.1.id, x.2.id), ?_, ?_⟩
    · rw [List.mem_filter, mem_dependLinks, Bool.not_eq_true', ← Bool.not_eq_true, linked_iff]
      refine ⟨⟨(a, art), (BMap.get_eq_some_iff _ _ _).1 ha, x.1, ho', x.2, by rw [h1]; simp, rfl⟩, ?_⟩
      rintro ⟨e, h4, -, h5⟩
      obtain ⟨rel, k1, k2⟩ := (mem_allEvents hk e).1 h4
      obtain ⟨k3, k4, k5, -⟩ := (hm.linked hu rel _ _ _).1 ⟨_, _, k2⟩
      injection h5 with h5 h6
      exact h3 ⟨rel, hm.relations ▸ k1, hu _ _ _ _ k4 hr h5, _, k3, _, k5, h6⟩
    · simp only [owner_of_owned hk ho', Option.bind_some]
      rw [show x.1.depends.find? (fun r => r.id == x.2.id) = some x.2 from
        List.find?_eq_some_iff_append.2 ⟨by simp, before, after, h1, fun m hm => by simp [h2 m hm]⟩]
      rfl

theorem owned_held (a : ArtefactId) : owned g a = held g a := by
  have h1 : ∀ r ∈ held g a, r ∈ owned g a := fun r hr =>
    (mem_owned hk _ _).2 ((hm.owns hu _ _).2 ((hm.defines _ _).1 ((mem_held hk a r).1 hr)))
  unfold owned held at h1 ⊢
  cases h : g.artefacts.get a with
  | none => rfl
  | some art =>
    rw [h] at h1
    exact List.filter_eq_self.2 fun r hr => (List.mem_filter.1 (h1 r hr)).2

theorem events_held (rel : Relation) (u : Requirement) : reqEvents g rel u =
    (u.depends.flatMap fun ref => rel.lower.flatMap fun a =>
      ((held g a).filter (fun l => l.id = ref.id)).map fun l => ⟨a, u, l, ref, .downwards⟩) ++
    rel.lower.flatMap fun a => (held g a).flatMap fun l =>
      (l.covers.filter (fun ref => ref.id = u.id)).map fun ref => ⟨a, u, l, ref, .upwards⟩ := by
  unfold reqEvents downEvents upEvents
  simp only [owned_held hk hm hu]
  have (x y : Str) : (x == y) = decide (x = y) := by rw [Bool.eq_iff_iff]; simp
  simp only [this]

theorem none_held (rel : Relation) (u : Requirement) :
    (reqEvents g rel u).isEmpty = true ↔ ¬ CoveredAlong (fun a r => r ∈ held g a) rel u := by
  rw [events_held hk hm hu, List.isEmpty_iff, List.append_eq_nil_iff]
  simp only [List.flatMap_eq_nil_iff, List.map_eq_nil_iff, List.filter_eq_nil_iff, decide_eq_true_eq]
  constructor
  · rintro ⟨h1, h2⟩ ⟨a, ha, l, hl, ⟨ref, k1, k2⟩ | ⟨ref, k1, k2⟩⟩
    · exact h2 a ha l hl ref k1 k2
    · exact h1 ref k1 a ha l hl k2.symm
  · intro h
    exact ⟨fun ref k1 a ha l hl k2 => h ⟨a, ha, l, hl, .inr ⟨ref, k1, k2.symm⟩⟩,
      fun a ha l hl ref k1 k2 => h ⟨a, ha, l, hl, .inl ⟨ref, k1, k2⟩⟩⟩

omit hk hu in
theorem needs_held (ho : (config.artefacts.map (·.id)).Nodup) (a : ArtefactId) :
    needsTitle g a = true ↔ AsksTitles config a := by
  unfold needsTitle AsksTitles
  constructor
  · cases h : g.artefacts.get a with
    | none => exact nofun
    | some art =>
      intro ht
      obtain ⟨ac, h1, h2⟩ := hm.configured _ _ h
      obtain ⟨art', h3, h4, -⟩ := hm.settings ac h1
      rw [h2, h] at h3
      cases h3
      exact ⟨ac, (TextProject.last ho).1 h1, h2, h4.1 ht⟩
  · rintro ⟨ac, h1, rfl, h2⟩
    obtain ⟨art, h3, h4, -⟩ := hm.settings ac ((TextProject.last ho).2 h1)
    rw [h3]
    exact h4.2 h2

theorem titles_held (ho : (config.artefacts.map (·.id)).Nodup) (env : FmtEnv) (rel : Relation) :
    ((relEvents g rel).flatMap (titleErrors g rel)).flatMap (gnuLines env) = titlesAlong env config (held g) rel := by
  unfold relEvents titlesAlong
  show (((held g rel.upper).flatMap (reqEvents g rel)).flatMap _).flatMap _ = _
  rw [List.flatMap_assoc, List.flatMap_assoc]
  refine flatMap_congr' fun u _ => ?_
  rw [events_held hk hm hu, List.flatMap_append]
  simp only [List.flatMap_assoc, List.flatMap_map]
  congr 1
  · refine flatMap_congr' fun ref _ => flatMap_congr' fun a _ => flatMap_congr' fun l _ => ?_
    unfold titleErrors referenceLines
    cases ref.title with
    | none =>
      simp only [needs_held hm ho]
      split
      · rfl
      · rfl
    | some t =>
      simp only
      split
      · rfl
      · simp [gnuLines]
  · refine flatMap_congr' fun a _ => flatMap_congr' fun l _ => flatMap_congr' fun ref _ => ?_
    unfold titleErrors referenceLines
    cases ref.title with
    | none =>
      simp only [needs_held hm ho]
      split
      · rfl
      · rfl
    | some t =>
      simp only
      split
      · rfl
      · simp [gnuLines]

theorem uncovered_held (rel : Relation) : uncovered g rel =
    ((held g rel.upper).filter fun u => ¬ CoveredAlong (fun a r => r ∈ held g a) rel u).map (·.id) := by
  unfold uncovered
  show List.map _ (List.filter _ (held g rel.upper)) = _
  congr 1
  refine List.filter_congr fun u _ => ?_
  rw [Bool.eq_iff_iff, none_held hk hm hu, decide_eq_true_eq]

theorem derived_held {ac : ArtefactConfig} {art : Artefact} (hl : LastEntry config ac)
    (ha : g.artefacts.get ac.id = some art) : derived g ac.id art =
    ((held g ac.id).filter fun l => MustCover config ac ∧
      ¬ ∃ rel ∈ config.relations, ac.id ∈ rel.lower ∧ ∃ u ∈ held g rel.upper, Linked u l).map (·.id) := by
  obtain ⟨art', h1, -, h2⟩ := hm.settings ac hl
  rw [ha] at h1
  cases h1
  unfold derived
  cases hi : art.ignoreDerivedRequirements with
  | true =>
    rw [if_pos rfl, List.filter_eq_nil_iff.2 (fun l _ => ?_)]
    · rfl
    · simp only [decide_eq_true_eq]
      exact fun h => by rw [h2.2 h.1] at hi; cases hi
  | false =>
    rw [if_neg Bool.false_ne_true, owned_held hk hm hu, List.filter_map]
    congr 1
    refine List.filter_congr fun l hl' => ?_
    have hR := (hm.defines _ _).1 ((mem_held hk _ _).1 hl')
    rw [Function.comp_apply, Bool.eq_iff_iff, List.all_eq_true, decide_eq_true_eq]
    simp only [bne_iff_ne]
    constructor
    · intro h
      refine ⟨h2.1 hi, ?_⟩
      rintro ⟨rel, k1, k2, u, k3, k4⟩
      obtain ⟨ref, d, k5⟩ := (hm.linked hu rel ac.id u l).2 ⟨k2, (hm.defines _ _).1 ((mem_held hk _ _).1 k3), hR, k4⟩
      exact h ⟨_, u, l, ref, d⟩ ((mem_allEvents hk _).2 ⟨rel, hm.relations ▸ k1, k5⟩) rfl
    · rintro ⟨-, h⟩ e he hid
      obtain ⟨rel, k1, k2⟩ := (mem_allEvents hk e).1 he
      obtain ⟨k3, k4, k5, k6⟩ := (hm.linked hu rel _ _ _).1 ⟨_, _, k2⟩
      have e1 := hu _ _ _ _ k5 hR hid
      rw [e1] at k5 k3
      rw [hm.inj k5 hR hid] at k6
      exact h ⟨rel, hm.relations ▸ k1, k3, _, (mem_held hk _ _).2 ((hm.defines _ _).2 k4), k6⟩

omit hm hu in
theorem about_held (a : ArtefactId) (what : Str) (p : Requirement → Bool) :
    gnuAbout g a what (((held g a).filter p).map (·.id)) =
      ((held g a).filter p).map fun r => (placeText r.location, r.id ++ what) := by
  cases h : g.artefacts.get a with
  | none =>
    have : held g a = [] := by unfold held; rw [h]
    rw [this]
    rfl
  | some art =>
    refine about_ids h _ _ fun r hr => ?_
    obtain ⟨art', h1, h2⟩ := (mem_held hk a r).1 (List.mem_filter.1 hr).1
    rw [h] at h1
    cases h1
    exact h2

omit hk hu in
/-- The entries of the configuration, in the order of the artefacts of the graph -/
theorem entries_config {β : Type} (ho : (config.artefacts.map (·.id)).Nodup) {f : ArtefactId × Artefact → List β}
    {f' : ArtefactConfig → List β} (hf : ∀ ac ∈ config.artefacts, ∀ art, g.artefacts.get ac.id = some art → f (ac.id, art) = f' ac) :
    ∃ arts, InOrder ArtefactConfig.id (· ∈ config.artefacts) arts ∧ g.artefacts.entries.flatMap f = arts.flatMap f' := by
  have key : ∀ l : List (ArtefactId × Artefact), (∀ e ∈ l, e ∈ g.artefacts.entries) →
      ∃ arts : List ArtefactConfig, arts.map (·.id) = l.map (·.1) ∧ (∀ ac ∈ arts, ac ∈ config.artefacts) ∧
        l.flatMap f = arts.flatMap f' := by
    intro l
    induction l with
    | nil => exact fun _ => ⟨[], rfl, nofun, rfl⟩
    | cons e l ih =>
      intro hl
      obtain ⟨arts, h1, h2, h3⟩ := ih fun x hx => hl x (List.mem_cons_of_mem _ hx)
      have ha := (BMap.get_eq_some_iff _ _ _).2 (hl e List.mem_cons_self)
      obtain ⟨ac, h4, h5⟩ := hm.configured _ _ ha
      have h6 := (TextProject.last ho).1 h4
      refine ⟨ac :: arts, by rw [List.map_cons, List.map_cons, h1, h5], ?_, ?_⟩
      · intro x hx
        rcases List.mem_cons.1 hx with rfl | hx
        · exact h6
        · exact h2 x hx
      · rw [List.flatMap_cons, List.flatMap_cons, h3, ← hf ac h6 e.2 (by rw [h5]; exact ha), h5]
  obtain ⟨arts, h1, h2, h3⟩ := key _ fun _ h => h
  refine ⟨arts, ⟨fun ac => ⟨h2 ac, fun h => ?_⟩, ?_⟩, h3⟩
  · obtain ⟨art, h4, -⟩ := hm.settings ac ((TextProject.last ho).2 h)
    have h5 : ac.id ∈ g.artefacts.entries.map (·.1) := List.mem_map.2 ⟨_, (BMap.get_eq_some_iff _ _ _).1 h4, rfl⟩
    rw [← h1] at h5
    obtain ⟨bc, h6, h7⟩ := List.mem_map.1 h5
    have : bc = ac := by
      by_cases hab : bc = ac
      · exact hab
      · rw [List.Nodup, List.pairwise_map] at ho
        rcases ListText.pairwise_two ho (h2 bc h6) h hab with k | k
        · exact absurd h7 k
        · exact absurd h7.symm k
    rwa [← this]
  · have := g.artefacts.keys_sorted
    rw [BMap.keys, ← h1, List.pairwise_map] at this
    exact this

/-- The report on the graph that is read is the one on the project. -/
theorem any_report (ho : (config.artefacts.map (·.id)).Nodup) (he : errorsOf g.artefacts = []) (env : FmtEnv) :
    AnyReport env config reqsOf (gnuReport env g) := by
  have hder : ∀ ac ∈ config.artefacts, ∀ art, g.artefacts.get ac.id = some art →
      c!"## " ++ ac.id ++ c!"\n" ++ gnuText (gnuAbout g ac.id c!" Derived" (derived g ac.id art)) =
      c!"## " ++ ac.id ++ c!"\n" ++
        gnuText (((held g ac.id).filter fun l => MustCover config ac ∧
          ¬ ∃ rel ∈ config.relations, ac.id ∈ rel.lower ∧ ∃ u ∈ held g rel.upper, Linked u l).map fun l =>
            (placeText l.location, l.id ++ c!" Derived")) := by
    intro ac hac art ha
    rw [derived_held hk hm hu ((TextProject.last ho).2 hac) ha, about_held hk]
  obtain ⟨arts, ha, hd⟩ := entries_config hm ho
    (f := fun e => c!"## " ++ e.1 ++ c!"\n" ++ gnuText (gnuAbout g e.1 c!" Derived" (derived g e.1 e.2)))
    (f' := fun ac => c!"## " ++ ac.id ++ c!"\n" ++
        gnuText (((held g ac.id).filter fun l => MustCover config ac ∧
          ¬ ∃ rel ∈ config.relations, ac.id ∈ rel.lower ∧ ∃ u ∈ held g rel.upper, Linked u l).map fun l =>
            (placeText l.location, l.id ++ c!" Derived"))) hder
  refine ⟨held g, arts, unknowns g, missing g, fun a => ⟨fun r => (mem_held hk a r).trans (hm.defines a r), ?_⟩, ha,
    ⟨unknowns_mem hk hm hu, unknowns_sorted hk⟩, ⟨missing_mem hk hm hu, missing_sorted hk⟩, ?_⟩
  · unfold held
    cases h : g.artefacts.get a with
    | none => exact .nil
    | some art => exact values_sorted hk h
  have hdup : duplicateErrors g = [] := by
    refine List.eq_nil_iff_forall_not_mem.2 fun e he => ?_
    obtain ⟨first, again, -, a, b, h1, h2, h3, h4⟩ := (mem_duplicateErrors hk e).1 he
    have := hu a b _ _ ((hm.defines _ _).1 h1.1) ((hm.defines _ _).1 h2) h3.symm
    subst this
    rw [Std.ReflCmp.compare_self (cmp := compare)] at h4
    cases h4
  have hrel : (g.relations.flatMap (relationErrors g)).flatMap (gnuLines env) =
      config.relations.flatMap fun rel => titlesAlong env config (held g) rel ++
        if ∀ u ∈ held g rel.upper, ¬ CoveredAlong (fun a r => r ∈ held g a) rel u then
          [(c!"Error in config file", c!"UnusedRelation(Relation { upper: " ++ quotedId env rel.upper ++
            c!", lower: [" ++ List.intercalate c!", " (rel.lower.map (quotedId env)) ++ c!"] })")]
        else [] := by
    rw [List.flatMap_assoc, hm.relations]
    refine flatMap_congr' fun rel _ => ?_
    unfold relationErrors
    rw [List.flatMap_append, titles_held hk hm hu ho]
    congr 1
    have hn : (relEvents g rel).isEmpty = true ↔ ∀ u ∈ held g rel.upper, ¬ CoveredAlong (fun a r => r ∈ held g a) rel u := by
      unfold relEvents
      rw [List.isEmpty_iff, List.flatMap_eq_nil_iff]
      exact forall_congr' fun u => forall_congr' fun _ => by rw [← none_held hk hm hu, List.isEmpty_iff]
    by_cases h : (relEvents g rel).isEmpty = true
    · rw [if_pos h, if_pos (hn.1 h)]
      simp [gnuLines]
    · rw [if_neg h, if_neg fun k => h (hn.2 k)]
      rfl
  have htr : (traced g).errors.flatMap (gnuLines env) =
      (config.relations.flatMap fun rel => titlesAlong env config (held g) rel ++
        if ∀ u ∈ held g rel.upper, ¬ CoveredAlong (fun a r => r ∈ held g a) rel u then
          [(c!"Error in config file", c!"UnusedRelation(Relation { upper: " ++ quotedId env rel.upper ++
            c!", lower: [" ++ List.intercalate c!", " (rel.lower.map (quotedId env)) ++ c!"] })")]
        else []) ++
      ((unknowns g).map fun x => (placeText x.2.location, x.1.id ++ c!" Covers unknown requirement " ++ x.2.id)) ++
      ((missing g).map fun x => (placeText x.2.location, x.1.id ++ c!" Depends on unknown requirement " ++ x.2.id)) := by
    show (duplicateErrors g ++ g.relations.flatMap (relationErrors g) ++ danglingCovers g ++ danglingDepends g).flatMap
      (gnuLines env) = _
    rw [hdup, dangling_unknowns, dangling_missing, List.nil_append, List.flatMap_append, List.flatMap_append, hrel,
      List.flatMap_map, List.flatMap_map]
    congr 1
    · congr 1
      exact List.map_eq_flatMap.symm
    · exact List.map_eq_flatMap.symm
  unfold gnuReport
  rw [he, htr, gnuText_append, gnuText_append, hd, hm.relations]
  have hunc : (config.relations.flatMap fun rel =>
      c!"## " ++ relationText rel ++ c!"\n" ++ gnuText (gnuAbout g rel.upper c!" Uncovered" (uncovered g rel))) =
      config.relations.flatMap fun rel => c!"## " ++ relationText rel ++ c!"\n" ++
        gnuText (((held g rel.upper).filter fun u => ¬ CoveredAlong (fun a r => r ∈ held g a) rel u).map fun u =>
          (placeText u.location, u.id ++ c!" Uncovered")) :=
    flatMap_congr' fun rel _ => by rw [uncovered_held hk hm hu, about_held hk]
  rw [hunc]
  simp only [List.append_assoc, List.flatMap_nil]
  rfl

end

variable {env : Env} {w : World} {opt : Arguments} {there : Path → Prop}

theorem no_errors {base : Path} {R : ArtefactId → Requirement → Prop} (hh : AllHold env w config base R) {c : Controller}
    (hn : Controller.new env w config base = .ok c) (hm : TextProject.Mirror c.graph config R) :
    errorsOf c.graph.artefacts = [] := by
  refine List.flatMap_eq_nil_iff.2 fun e hm' => ?_
  have ha := (BMap.get_eq_some_iff _ _ _).2 hm'
  obtain ⟨ac, hl, hid⟩ := hm.configured _ _ ha
  rw [← hid] at ha
  obtain ⟨reqs, h1, -⟩ := hh.files ac hl
  exact (C68_no_errors_iff hn hl ha).1.2 ⟨reqs, h1⟩

theorem any_output (hs : ReadsRust env.syn) (hg : env.os.GlobWorks w there)
    (h : Spec.TextProject env w opt there config reqsOf) (he : EachOnce config reqsOf) {c : Controller}
    (hn : Controller.new env w config opt.baseDir = .ok c) {job : Job} (hq : job.query = .trace)
    (hf : job.format = .gnuError) :
    ∃ text, AnyReport env.fmt config reqsOf text ∧ outputOf env c job = Utf8.encode text := by
  obtain ⟨k1, k2⟩ := ListText.each_unique h he
  have hh := TextProject.holds_once hs hg h k1 he.titles
  obtain ⟨-, hm⟩ := TextProject.mirror hh hn
  refine ⟨_, any_report (C18_consistent hn).1 hm k2 h.once (no_errors hh hn hm) env.fmt, ?_⟩
  obtain ⟨_, _, _, _, h2, _⟩ := new_ok hn
  unfold outputOf
  rw [if_pos hq, hf, C85_gnu (C18_consistent hn).1 h2]
  rfl

/-- **C172** Of any project whose texts are well formed and in which no id is there twice, a run leaves exactly this
report. -/
theorem C172_file (ht : env.ReadsToml) (hs : ReadsRust env.syn) (hg : env.os.GlobWorks w there)
    (h : Spec.TextProject env w opt there config reqsOf) (he : EachOnce config reqsOf) (hm : (Main.main env opt w).1 ≤ 1)
    {job : Job} (hq : job.query = .trace) (hf : job.format = .gnuError) (ho : job.file ≠ c!"-")
    (hw : WritesLast env opt config job) :
    ∃ text, AnyReport env.fmt config reqsOf text ∧
      (Main.main env opt w).2.files (env.os.resolve (target opt.baseDir job.file)) = some (Utf8.encode text) := by
  obtain ⟨c, js, hn, hj, hd⟩ := ProjectReport.jobs_done (TextProject.good ht h) hm
  obtain ⟨pre, post, hp, hl⟩ := hw
  cases hj.unique hp
  have hb : c.baseDir = opt.baseDir := by
    obtain ⟨g, -, e⟩ := (C82_controller ..).1 hn
    rw [e]
  obtain ⟨text, h1, h2⟩ := any_output hs hg h he hn hq hf
  refine ⟨text, h1, ?_⟩
  rw [← h2, ← hb]
  exact C66_last hd ho (by rw [hb]; exact hl)

/-- **C172** The same on the standard output. -/
theorem C172_stdout (ht : env.ReadsToml) (hs : ReadsRust env.syn) (hg : env.os.GlobWorks w there)
    (h : Spec.TextProject env w opt there config reqsOf) (he : EachOnce config reqsOf) (hm : (Main.main env opt w).1 ≤ 1)
    {job : Job} (hq : job.query = .trace) (hf : job.format = .gnuError) (ho : job.file = c!"-")
    (hw : JobsOf (config.jobs.getD .empty) (requested config opt) [job]) :
    ∃ text, AnyReport env.fmt config reqsOf text ∧
      (Main.main env opt w).2.stdout = w.stdout ++ Utf8.encode text := by
  obtain ⟨c, js, hn, hj, hd⟩ := ProjectReport.jobs_done (TextProject.good ht h) hm
  cases hj.unique hw
  obtain ⟨text, h1, h2⟩ := any_output hs hg h he hn hq hf
  refine ⟨text, h1, ?_⟩
  rw [← h2, C66_stdout hd]
  simp [ho]

end AnyReport

namespace AnyReportExample

open CtrlExample (world args)
open TwoLayersExample (reqs upper e_toml e_rust)
open TextProjectExample (e listing code issues)
open AnyReport

/-- A requirement that covers something that there is not -/
def md : Str := c!"# REQ_A: title a\n\nCovers:\n* I_9: none\n* I_1: The first issue\n\n# REQ_B: title b\n"

/-- A wrong title, and a dependency on something that there is not -/
def text : Str := c!"The first issue\n\n=> REQ_A: title b\n=> REQ_C\n"

def issue : Requirement := ⟨c!"I_1", some c!"The first issue", ⟨c!"p/I_1.md", none⟩, [],
  [⟨c!"REQ_A", some c!"title b", ⟨c!"p/I_1.md", some (.line 3)⟩⟩, ⟨c!"REQ_C", none, ⟨c!"p/I_1.md", some (.line 4)⟩⟩], [], .empty⟩

def reqA : Requirement := ⟨c!"REQ_A", some c!"title a", ⟨c!"p/req.md", some (.line 1)⟩,
  [⟨c!"I_9", some c!"none", ⟨c!"p/req.md", some (.line 4)⟩⟩, ⟨c!"I_1", some c!"The first issue", ⟨c!"p/req.md", some (.line 5)⟩⟩],
  [], [], .empty⟩

def reqB : Requirement := ⟨c!"REQ_B", some c!"title b", ⟨c!"p/req.md", some (.line 7)⟩, [], [], [], .empty⟩

def reqsOf (a : ArtefactId) : List Requirement :=
  if a == c!"ISSUES" then [issue] else if a == c!"REQ" then [reqA, reqB]
  else if a == c!"CODE" then [CodeTreeExample.f, CodeTreeExample.g] else []

def job (out : Path) : Job := ⟨.trace, .gnuError, out, none⟩

/-- With a relation along which nothing is covered -/
def config (out : Path) : Config := { TextProjectExample.config with
  relations := TextProjectExample.config.relations ++ [⟨c!"CODE", [c!"ISSUES", c!"REQ"]⟩]
  jobs := some (BMap.ofList [(c!"trace", job out)]) }

def w (out : Path) : World := world [(c!"requirements.toml", TomlText.written (config out)), (c!"p/I_1.md", text),
  (c!"p/req.md", md), (c!"p/src/b.rs", CodeTreeExample.b), (c!"p/src/x/c.rs", CodeTreeExample.c)]

theorem tree (out : Path) : MarkedTree e (w out) (· ∈ listing) args.baseDir code CodeTreeExample.items where
  directory := GlobExample.proper_p
  patterns := CodeTreeExample.project.patterns
  once := CodeTreeExample.project.once
  disjoint := CodeTreeExample.project.disjoint
  files := fun x hx => by
    obtain ⟨t, fo, h1, h2⟩ := CodeTreeExample.project.files x hx
    refine ⟨t, fo, _, ?_, h2⟩
    rw [← h1]
    rcases CodeTreeExample.meant x hx with rfl | rfl <;> rfl

theorem project (out : Path) : Spec.TextProject e (w out) args (· ∈ listing) (config out) reqsOf where
  text := ⟨TomlText.written (config out), rfl,
    C162_written (config out) (fun v h => by cases h; decide) (fun m h => by cases h; exact fun hm => by cases List.mem_singleton.1 (hm : _ ∈ [c!"trace"]))⟩
  version := fun v h => by cases h; rfl
  once := TextProjectExample.project.once
  says := fun ac hac => by
    simp only [config, TextProjectExample.config, List.mem_cons, List.not_mem_nil, or_false] at hac
    rcases hac with rfl | rfl | rfl
    · exact .document (p := c!"I_1.md") (reqs := [issue]) (by decide) rfl
        ⟨text, rfl, (C81_file ..).1 (by decide +kernel)⟩
    · exact .document (p := c!"req.md") (reqs := [reqA, reqB]) (by decide) rfl
        ⟨md, rfl, (C81_file ..).1 (by decide +kernel)⟩
    · exact .code (fs := [c!"p/src/b.rs", c!"p/src/x/c.rs"]) rfl (tree out) (by decide) fun f => by
        exact .trans (by simp) (CodeTreeExample.meant_iff f).symm
  only := fun a h => by
    unfold reqsOf at h
    split at h
    · rename_i h1
      exact ⟨issues, List.mem_cons_self, (eq_of_beq h1).symm⟩
    · split at h
      · rename_i h1
        exact ⟨upper, List.mem_cons_of_mem _ List.mem_cons_self, (eq_of_beq h1).symm⟩
      · split at h
        · rename_i h1
          exact ⟨code, List.mem_cons_of_mem _ (List.mem_cons_of_mem _ List.mem_cons_self), (eq_of_beq h1).symm⟩
        · cases h rfl

theorem each (out : Path) : EachOnce (config out) reqsOf where
  ids := by
    show (([issues, upper, code].flatMap fun ac => reqsOf ac.id).map (·.id)).Nodup
    decide
  titles := by
    show ∀ ac ∈ [issues, upper, code], ac.referenceWithTitle = some true → ∀ r ∈ reqsOf ac.id, r.title ≠ none
    decide

def reportText : Str := c!"# Parsing Errors
# Tracing Errors
p/I_1.md:3: REQ_A depended with wrong title. Expected \"title a\", actual \"title b\"
p/req.md:1: note: Defined here
Error in config file: UnusedRelation(Relation { upper: ArtefactId(\"CODE\"), lower: [ArtefactId(\"ISSUES\"), ArtefactId(\"REQ\")] })
p/req.md:4: REQ_A Covers unknown requirement I_9
p/I_1.md:4: I_1 Depends on unknown requirement REQ_C
# Uncovered Requirement
## ISSUES => [REQ]
## REQ => [CODE]
## CODE => [ISSUES, REQ]
p/src/b.rs:1:3: f Uncovered
p/src/x/c.rs:1:11: m::g Uncovered
Derived Requirement
## CODE
## ISSUES
p/I_1.md: I_1 Derived
## REQ
p/req.md:7: REQ_B Derived
"

theorem requirement_cases {a : ArtefactId} {r : Requirement} (h : r ∈ reqsOf a) :
    (a = c!"ISSUES" ∧ r = issue) ∨ (a = c!"REQ" ∧ r = reqA) ∨ (a = c!"REQ" ∧ r = reqB) ∨
    (a = c!"CODE" ∧ r = CodeTreeExample.f) ∨ (a = c!"CODE" ∧ r = CodeTreeExample.g) := by
  unfold reqsOf at h
  split at h
  · rename_i h1
    exact .inl ⟨eq_of_beq h1, List.mem_singleton.1 h⟩
  · split at h
    · rename_i h1
      rcases List.mem_cons.1 h with h | h
      · exact .inr (.inl ⟨eq_of_beq h1, h⟩)
      · exact .inr (.inr (.inl ⟨eq_of_beq h1, List.mem_singleton.1 h⟩))
    · split at h
      · rename_i h1
        rcases List.mem_cons.1 h with h | h
        · exact .inr (.inr (.inr (.inl ⟨eq_of_beq h1, h⟩)))
        · exact .inr (.inr (.inr (.inr ⟨eq_of_beq h1, List.mem_singleton.1 h⟩)))
      · cases h

theorem first_mem {l : List Reference} {x : Reference} (h : FirstOf l x) : x ∈ l := by
  obtain ⟨b, a, rfl, -⟩ := h
  simp

def noUpper : List (Requirement × Reference) := [(reqA, ⟨c!"I_9", some c!"none", ⟨c!"p/req.md", some (.line 4)⟩⟩)]

def noLower : List (Requirement × Reference) := [(issue, ⟨c!"REQ_C", none, ⟨c!"p/I_1.md", some (.line 4)⟩⟩)]

theorem in_order (a : ArtefactId) : InOrder Requirement.id (· ∈ reqsOf a) (reqsOf a) := by
  refine ⟨fun r => Iff.rfl, ?_⟩
  unfold reqsOf
  split
  · decide
  · split
    · decide
    · split <;> decide

theorem arts_order (out : Path) : InOrder ArtefactConfig.id (· ∈ (config out).artefacts) [code, issues, upper] := by
  refine ⟨fun ac => ?_, by decide⟩
  simp only [config, TextProjectExample.config, List.mem_cons, List.not_mem_nil, or_false]
  constructor <;> rintro (h | h | h) <;> simp [h]

theorem noUpper_order (out : Path) : InOrder (fun x : Requirement × Reference => (x.2.id, x.1.id))
    (NamesNoUpper (config out) reqsOf) noUpper := by
  refine ⟨?_, by decide⟩
  rintro ⟨r, ref⟩
  constructor
  · intro h
    cases List.mem_singleton.1 h
    exact ⟨c!"REQ", by decide, ⟨[], _, rfl, nofun⟩, by
      show ¬ ∃ rel ∈ (config c!"-").relations, _
      decide⟩
  · rintro ⟨a, h1, h2, h3⟩
    have h2 := first_mem h2
    rcases requirement_cases h1 with ⟨rfl, rfl⟩ | ⟨rfl, rfl⟩ | ⟨rfl, rfl⟩ | ⟨rfl, rfl⟩ | ⟨rfl, rfl⟩
    · cases h2
    · rcases List.mem_cons.1 h2 with rfl | h2
      · exact List.mem_singleton.2 rfl
      · cases List.mem_singleton.1 h2
        exact (h3 ⟨⟨c!"ISSUES", [c!"REQ"]⟩, List.mem_cons_self, by decide, issue, by decide, rfl⟩).elim
    · cases h2
    · cases List.mem_singleton.1 h2
      exact (h3 ⟨⟨c!"REQ", [c!"CODE"]⟩, List.mem_cons_of_mem _ List.mem_cons_self, by decide, reqA, by decide, rfl⟩).elim
    · cases List.mem_singleton.1 h2
      exact (h3 ⟨⟨c!"REQ", [c!"CODE"]⟩, List.mem_cons_of_mem _ List.mem_cons_self, by decide, reqB, by decide, rfl⟩).elim

theorem noLower_order (out : Path) : InOrder (fun x : Requirement × Reference => (x.1.id, x.2.id))
    (NamesNoLower (config out) reqsOf) noLower := by
  refine ⟨?_, by decide⟩
  rintro ⟨r, ref⟩
  constructor
  · intro h
    cases List.mem_singleton.1 h
    exact ⟨c!"ISSUES", by decide, ⟨[_], [], rfl, by decide⟩, by
      show ¬ ∃ rel ∈ (config c!"-").relations, _
      decide⟩
  · rintro ⟨a, h1, h2, h3⟩
    have h2 := first_mem h2
    rcases requirement_cases h1 with ⟨rfl, rfl⟩ | ⟨rfl, rfl⟩ | ⟨rfl, rfl⟩ | ⟨rfl, rfl⟩ | ⟨rfl, rfl⟩
    · rcases List.mem_cons.1 h2 with rfl | h2
      · exact (h3 ⟨⟨c!"ISSUES", [c!"REQ"]⟩, List.mem_cons_self, rfl, c!"REQ", by decide, reqA, by decide, rfl⟩).elim
      · cases List.mem_singleton.1 h2
        exact List.mem_singleton.2 rfl
    all_goals cases h2

/-- The report that the specification asks for -/
theorem specified {out : Path} (ho : out = c!"-" ∨ out = c!"report") : AnyReport e.fmt (config out) reqsOf reportText := by
  refine ⟨reqsOf, [code, issues, upper], noUpper, noLower, in_order, arts_order out, noUpper_order out, noLower_order out, ?_⟩
  rcases ho with rfl | rfl <;> decide +kernel

/-- The report in a file and on the standard output -/
example : (Main.main e args (w c!"report")).2.files c!"p/report" = some (Utf8.encode reportText) := by
  obtain ⟨t, h1, h2⟩ := C172_file (env := e) e_toml e_rust (CodeTreeExample.e_works _) (project c!"report")
    (each c!"report") (by decide +kernel) (job := job c!"report") rfl rfl (by decide) ⟨[], [], .cons rfl .nil, nofun⟩
  have := C172_determined (specified (.inr rfl)) h1
  subst this
  rwa [show e.os.resolve (target args.baseDir (job c!"report").file) = c!"p/report" by decide +kernel] at h2

example : (Main.main e args (w c!"-")).2.stdout = Utf8.encode reportText := by
  obtain ⟨t, h1, h2⟩ := C172_stdout (env := e) e_toml e_rust (CodeTreeExample.e_works _) (project c!"-")
    (each c!"-") (by decide +kernel) (job := job c!"-") rfl rfl rfl (.cons rfl .nil)
  have := C172_determined (specified (.inl rfl)) h1
  subst this
  exact h2

end AnyReportExample

end Reqtrace
