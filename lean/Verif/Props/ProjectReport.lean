import Verif.Spec.ProjectReport
import Verif.Props.CodeTree
import Verif.Props.Output
import Verif.Props.Whole

/-!
# C169: the report on a project with requirements in a Markdown document and marks in Rust code
-/

namespace Reqtrace

open Spec RustLayout

namespace ProjectReport

theorem inOrder_unique {α κ : Type} [Ord κ] [Std.TransOrd κ] [Std.LawfulEqOrd κ] {key : α → κ} {P : α → Prop}
    {l l' : List α} (h : InOrder key P l) (h' : InOrder key P l') : l = l' := by
  refine BMap.sorted_ext (r := fun a b => compare (key a) (key b) = .lt) ?_ ?_ h.2 h'.2 (fun a => (h.1 a).trans (h'.1 a).symm)
  · intro a h
    rw [Std.ReflCmp.compare_self (cmp := compare)] at h
    cases h
  · intro a b h1 h2
    have := Std.TransCmp.lt_trans h1 h2
    rw [Std.ReflCmp.compare_self (cmp := compare)] at this
    cases this

/-- **C169** There is one such report. -/
theorem C169_determined {env : FmtEnv} {upper code : ArtefactConfig} {R I : Requirement → Prop} {t t' : Str}
    (h : ProjectReport env upper code R I t) (h' : ProjectReport env upper code R I t') : t = t' := by
  obtain ⟨a, b, c, h1, h2, h3, rfl⟩ := h
  obtain ⟨a', b', c', k1, k2, k3, rfl⟩ := h'
  cases inOrder_unique h1 k1
  cases inOrder_unique h2 k2
  cases inOrder_unique h3 k3
  rfl

theorem gnuText_append (a b : List GnuLine) : gnuText (a ++ b) = gnuText a ++ gnuText b := List.flatMap_append ..

theorem about_ids {g : Graph} {a : ArtefactId} {art : Artefact} (ha : g.artefacts.get a = some art) (what : Str)
    (l : List Requirement) (hl : ∀ r ∈ l, art.requirements.get r.id = some r) :
    gnuAbout g a what (l.map (·.id)) = l.map fun r => (placeText r.location, r.id ++ what) := by
  unfold gnuAbout
  induction l with
  | nil => rfl
  | cons r l ih =>
    rw [List.map_cons, List.flatMap_cons, ih (fun s hs => hl s (List.mem_cons_of_mem _ hs)), ha]
    simp [hl r List.mem_cons_self]

theorem flatMap_congr' {α β : Type} {f f' : α → List β} {l : List α} (h : ∀ a ∈ l, f a = f' a) : l.flatMap f = l.flatMap f' := by
  induction l with
  | nil => rfl
  | cons a l ih =>
    rw [List.flatMap_cons, List.flatMap_cons, h a List.mem_cons_self, ih fun b hb => h b (List.mem_cons_of_mem _ hb)]

theorem two_entries {g : Graph} {u k : ArtefactId} {au ak : Artefact} (hu : g.artefacts.get u = some au)
    (hk : g.artefacts.get k = some ak) (hne : u ≠ k) (ho : ∀ a art, g.artefacts.get a = some art → a = u ∨ a = k) :
    g.artefacts.entries = if compare u k = .lt then [(u, au), (k, ak)] else [(k, ak), (u, au)] := by
  have hm : ∀ e, e ∈ g.artefacts.entries ↔ e = (u, au) ∨ e = (k, ak) := by
    rintro ⟨a, art⟩
    rw [← BMap.get_eq_some_iff]
    constructor
    · intro h
      rcases ho a art h with rfl | rfl
      · rw [hu] at h
        cases h
        exact .inl rfl
      · rw [hk] at h
        cases h
        exact .inr rfl
    · rintro (h | h) <;> cases h <;> assumption
  refine BMap.sorted_ext (α := ArtefactId × Artefact) (r := fun a b => compare a.1 b.1 = .lt) ?_ ?_ g.artefacts.sorted ?_ ?_
  · intro a h
    rw [Std.ReflCmp.compare_self (cmp := compare)] at h
    cases h
  · intro a b h1 h2
    have := Std.TransCmp.lt_trans h1 h2
    rw [Std.ReflCmp.compare_self (cmp := compare)] at this
    cases this
  · split
    · simpa
    · rename_i hc
      have : compare k u = .lt := by
        cases h : compare u k with
        | lt => exact absurd h hc
        | eq => exact absurd (Std.LawfulEqCmp.eq_of_compare h) hne
        | gt => exact Std.OrientedCmp.lt_of_gt h
      simpa
  · intro e
    rw [hm]
    split
    · simp
    · simp [or_comm]

section
variable {g : Graph} {upper code : ArtefactConfig} {reqs items : List Requirement} {es : List Entry} {au ak : Artefact}

theorem values_mem (hk : Keyed g) {a : ArtefactId} {art : Artefact} (ha : g.artefacts.get a = some art) (r : Requirement) :
    r ∈ art.requirements.values ↔ Defines g a r := by
  rw [BMap.mem_values_iff]
  constructor
  · rintro ⟨k, h⟩
    have := hk.requirement _ _ ha _ _ h
    subst this
    exact ⟨art, ha, h⟩
  · rintro ⟨art', h1, h2⟩
    rw [ha] at h1
    cases h1
    exact ⟨_, h2⟩

theorem values_sorted (hk : Keyed g) {a : ArtefactId} {art : Artefact} (ha : g.artefacts.get a = some art) :
    art.requirements.values.Pairwise fun r s => compare r.id s.id = .lt := by
  have := ids_sorted (fun k req h => hk.requirement _ _ ha k req h)
  rwa [List.pairwise_map] at this

/-- The marks for unknown requirements -/
def unknowns (g : Graph) : List (Requirement × Reference) :=
  ((coverLinks g).filter (fun k => !linked g .upwards k)).filterMap fun k =>
    (owner g k.2).bind fun l => (l.covers.find? (fun r => r.id == k.1)).map fun ref => (l, ref)

theorem dangling_unknowns (g : Graph) : danglingCovers g =
    (unknowns g).map fun x => .coversUnknownRequirement x.1 x.2.id x.2.location := by
  unfold danglingCovers unknowns
  rw [List.map_filterMap]
  congr 1
  funext k
  cases owner g k.2 with
  | none => rfl
  | some l =>
    simp only [Option.bind_some]
    cases h : l.covers.find? (fun r => r.id == k.1) with
    | none => rfl
    | some ref =>
      have := List.find?_some h
      simp only [beq_iff_eq] at this
      simp [this]

theorem unknowns_sorted (hk : Keyed g) : (unknowns g).Pairwise fun x y => compare (x.2.id, x.1.id) (y.2.id, y.1.id) = .lt := by
  unfold unknowns
  rw [List.pairwise_filterMap]
  have hs : (coverLinks g).Pairwise fun a b => compare a b = .lt := BMap.keys_sorted _
  refine (hs.filter _).imp ?_
  have key : ∀ (k : RequirementId × RequirementId) (x : Requirement × Reference),
      ((owner g k.2).bind fun l => (l.covers.find? (fun r => r.id == k.1)).map fun ref => (l, ref)) = some x →
      (x.2.id, x.1.id) = k := by
    intro k x h
    obtain ⟨l, h1, h2⟩ := Option.bind_eq_some_iff.1 h
    obtain ⟨ref, h3, rfl⟩ := Option.map_eq_some_iff.1 h2
    have h4 := List.find?_some h3
    simp only [beq_iff_eq] at h4
    exact Prod.ext h4 (exists_owner hk h1).1
  intro a b hab x hx y hy
  rw [key a x hx, key b y hy]
  exact hab

theorem unknowns_mem (hk : Keyed g) {named : Bool} (sh : TwoLayers.Shape g upper.id code.id named reqs es items)
    (x : Requirement × Reference) : x ∈ unknowns g ↔ NamesNothing (· ∈ reqs) (· ∈ items) x := by
  have hrel : ⟨upper.id, [code.id]⟩ ∈ g.relations := by rw [sh.relations]; exact List.mem_singleton.2 rfl
  have hev : ∀ e, e ∈ allEvents g ↔ e.dir = .upwards ∧ e.lowerArt = code.id ∧ e.upper ∈ reqs ∧ e.lower ∈ items ∧
      e.ref ∈ e.lower.covers ∧ e.ref.id = e.upper.id := by
    intro e
    rw [mem_allEvents hk]
    constructor
    · rintro ⟨rel, h1, h2⟩
      exact (sh.establishes h1 _ _ _ _ _).1 h2
    · intro h
      exact ⟨_, hrel, (sh.establishes hrel _ _ _ _ _).2 h⟩
  unfold unknowns
  rw [List.mem_filterMap]
  constructor
  · rintro ⟨k, h1, h2⟩
    rw [List.mem_filter, mem_coverLinks, Bool.not_eq_true', ← Bool.not_eq_true, linked_iff] at h1
    obtain ⟨⟨en, _, r, hr, ref, href, rfl⟩, hnl⟩ := h1
    simp only [owner_of_owned hk hr, Option.bind_some] at h2
    obtain ⟨m, h3, rfl⟩ := Option.map_eq_some_iff.1 h2
    obtain ⟨h4, before, after, h5, h6⟩ := List.find?_eq_some_iff_append.1 h3
    simp only [beq_iff_eq] at h4
    have hi : r ∈ items := by
      have hd := ((mem_owned hk _ _).1 hr).1
      rcases sh.only _ _ hd with e | e
      · rw [e] at hd
        rw [(sh.plain r ((sh.above r).1 hd)).1] at href
        cases href
      · rw [e] at hd
        exact (sh.below r).1 hd
    refine ⟨hi, ⟨before, after, h5, fun m' hm' e => ?_⟩, fun s hs e => ?_⟩
    · have := h6 m' hm'
      simp [e, h4] at this
    · exact hnl ⟨⟨code.id, s, r, ref, .upwards⟩, (hev _).2 ⟨rfl, rfl, hs, hi, href, h4.symm.trans e.symm⟩, rfl,
        by simp [e, h4]⟩
  · rintro ⟨hi, ⟨before, after, h1, h2⟩, h3⟩
    have hd := (sh.below x.1).2 hi
    have ho : x.1 ∈ owned g code.id := (mem_owned hk _ _).2 (defines_owner sh.unique hd)
    obtain ⟨art, ha, -⟩ := hd
    refine ⟨(x.2.id, x.1.id), ?_, ?_⟩
    · rw [List.mem_filter, mem_coverLinks, Bool.not_eq_true', ← Bool.not_eq_true, linked_iff]
      refine ⟨⟨(code.id, art), (BMap.get_eq_some_iff _ _ _).1 ha, x.1, ho, x.2, by rw [h1]; simp, rfl⟩, ?_⟩
      rintro ⟨e, h4, -, h5⟩
      obtain ⟨-, -, h6, -⟩ := (hev e).1 h4
      injection h5 with h5 _
      exact h3 _ h6 h5
    · simp only [owner_of_owned hk ho, Option.bind_some]
      rw [show x.1.covers.find? (fun r => r.id == x.2.id) = some x.2 from
        List.find?_eq_some_iff_append.2 ⟨by simp, before, after, h1, fun m hm => by simp [h2 m hm]⟩]
      rfl

/-- The report on a graph of two artefacts. -/
theorem report_text (env : FmtEnv) (hk : Keyed g)
    (sh : TwoLayers.Shape g upper.id code.id (upper.referenceWithTitle == some true) reqs es items)
    (hu : g.artefacts.get upper.id = some au) (hc : g.artefacts.get code.id = some ak)
    (ho : ∀ a art, g.artefacts.get a = some art → a = upper.id ∨ a = code.id)
    (eu : au.errors = []) (ek : ak.errors = [])
    (hi : ak.ignoreDerivedRequirements = true ↔ code.ignoreDerivedRequirements = some true) :
    ProjectReport env upper code (· ∈ reqs) (· ∈ items) (gnuReport env g) := by
  have hent := two_entries hu hc sh.different ho
  have hum : ∀ r, r ∈ au.requirements.values ↔ r ∈ reqs := fun r => (values_mem hk hu r).trans (sh.above r)
  have hkm : ∀ r, r ∈ ak.requirements.values ↔ r ∈ items := fun r => (values_mem hk hc r).trans (sh.below r)
  have hown : owned g code.id = ak.requirements.values := by
    have h1 : ∀ r ∈ ak.requirements.values, r ∈ owned g code.id := fun r hr =>
      (mem_owned hk _ _).2 (defines_owner sh.unique ((values_mem hk hc r).1 hr))
    unfold owned at h1 ⊢
    rw [hc] at h1 ⊢
    exact List.filter_eq_self.2 fun r hr => (List.mem_filter.1 (h1 r hr)).2
  have hupp : upperReqs g ⟨upper.id, [code.id]⟩ = au.requirements.values := by
    unfold upperReqs
    rw [hu]
  have hreq : ∀ r ∈ au.requirements.values, reqEvents g ⟨upper.id, [code.id]⟩ r =
      ak.requirements.values.flatMap fun l =>
        (l.covers.filter (fun m => m.id = r.id)).map fun ref => ⟨code.id, r, l, ref, .upwards⟩ := by
    intro r hr
    unfold reqEvents downEvents upEvents
    rw [(sh.plain r ((hum r).1 hr)).2]
    have hbeq : ∀ l : Requirement, l.covers.filter (fun ref => ref.id == r.id) = l.covers.filter (fun m => m.id = r.id) :=
      fun l => List.filter_congr fun m _ => by rw [Bool.eq_iff_iff]; simp
    simp [hown, hbeq]
  have hrel : relEvents g ⟨upper.id, [code.id]⟩ = au.requirements.values.flatMap fun r =>
      ak.requirements.values.flatMap fun l =>
        (l.covers.filter (fun m => m.id = r.id)).map fun ref => ⟨code.id, r, l, ref, .upwards⟩ := by
    unfold relEvents
    rw [hupp]
    exact flatMap_congr' hreq
  refine ⟨au.requirements.values, ak.requirements.values, unknowns g, ⟨hum, values_sorted hk hu⟩,
    ⟨hkm, values_sorted hk hc⟩, ⟨unknowns_mem hk sh, unknowns_sorted hk⟩, ?_⟩
  have herr : errorsOf g.artefacts = [] := by
    unfold errorsOf
    rw [hent]
    split <;> simp [eu, ek]
  have hdup : duplicateErrors g = [] := by
    refine List.eq_nil_iff_forall_not_mem.2 fun e he => ?_
    obtain ⟨first, again, -, a, b, h1, h2, h3, h4⟩ := (mem_duplicateErrors hk e).1 he
    have := sh.unique a b _ _ h1.1 h2 h3.symm
    subst this
    rw [Std.ReflCmp.compare_self (cmp := compare)] at h4
    cases h4
  have hdep : danglingDepends g = [] := by
    refine List.eq_nil_iff_forall_not_mem.2 fun e he => ?_
    obtain ⟨req, up, ref, -, ⟨a, h1⟩, h2, -⟩ := (mem_danglingDepends hk e).1 he
    have h2 := List.mem_of_find?_eq_some h2
    rcases sh.only _ _ h1.1 with rfl | rfl
    · rw [(sh.plain _ ((sh.above _).1 h1.1)).2] at h2
      cases h2
    · rw [(sh.marked _ ((sh.below _).1 h1.1)).1] at h2
      cases h2
  have hneed : needsTitle g upper.id = (upper.referenceWithTitle == some true) := by
    obtain ⟨art, h1, h2, -⟩ := sh.upper
    unfold needsTitle
    rw [h1, ← h2]
  have htit : ((relEvents g ⟨upper.id, [code.id]⟩).flatMap (titleErrors g ⟨upper.id, [code.id]⟩)).flatMap (gnuLines env) =
      au.requirements.values.flatMap fun r => ak.requirements.values.flatMap fun i =>
        (i.covers.filter fun m => m.id = r.id).flatMap (titleLines env upper r) := by
    rw [hrel]
    simp only [List.flatMap_assoc, List.flatMap_map]
    refine flatMap_congr' fun r _ => flatMap_congr' fun i _ => flatMap_congr' fun m _ => ?_
    unfold titleErrors titleLines
    cases m.title with
    | none =>
      simp only [hneed, beq_iff_eq]
      split
      · rfl
      · rfl
    | some t =>
      simp only
      split
      · rfl
      · rfl
  have hnone : (relEvents g ⟨upper.id, [code.id]⟩).isEmpty = true ↔
      ∀ i ∈ ak.requirements.values, ∀ m ∈ i.covers, ∀ r ∈ au.requirements.values, m.id ≠ r.id := by
    rw [hrel, List.isEmpty_iff]
    simp only [List.flatMap_eq_nil_iff, List.map_eq_nil_iff, List.filter_eq_nil_iff, decide_eq_true_eq]
    exact ⟨fun h i hi m hm r hr => h r hr i hi m hm, fun h r hr i hi m hm => h i hi m hm r hr⟩
  have hunc : uncovered g ⟨upper.id, [code.id]⟩ =
      (au.requirements.values.filter fun r => ∀ i ∈ ak.requirements.values, ∀ m ∈ i.covers, m.id ≠ r.id).map (·.id) := by
    unfold uncovered
    rw [hupp]
    congr 1
    refine List.filter_congr fun r hr => ?_
    rw [hreq r hr, Bool.eq_iff_iff, List.isEmpty_iff, decide_eq_true_eq]
    simp only [List.flatMap_eq_nil_iff, List.map_eq_nil_iff, List.filter_eq_nil_iff, decide_eq_true_eq]
  have hderu : derived g upper.id au = [] := by
    obtain ⟨art, h1, -, h2⟩ := sh.upper
    rw [hu] at h1
    cases h1
    unfold derived
    rw [h2]
    rfl
  have hderk : derived g code.id ak = (ak.requirements.values.filter fun i => code.ignoreDerivedRequirements ≠ some true ∧
        ∀ m ∈ i.covers, ∀ r ∈ au.requirements.values, m.id ≠ r.id).map (·.id) := by
    unfold derived
    by_cases hb : ak.ignoreDerivedRequirements = true
    · rw [if_pos hb, List.filter_eq_nil_iff.2 (fun i _ => by simp [hi.1 hb])]
      rfl
    · rw [if_neg hb, hown, List.filter_map]
      congr 1
      refine List.filter_congr fun i hi' => ?_
      have hall : allEvents g = relEvents g ⟨upper.id, [code.id]⟩ := by
        unfold allEvents
        rw [sh.relations]
        simp
      rw [Function.comp_apply, hall, hrel, Bool.eq_iff_iff, List.all_eq_true, decide_eq_true_eq]
      simp only [List.mem_flatMap, List.mem_map, List.mem_filter, decide_eq_true_eq, bne_iff_ne]
      constructor
      · intro h
        exact ⟨fun hc => hb (hi.2 hc), fun m hm r hr e => h _ ⟨r, hr, i, hi', m, ⟨hm, e⟩, rfl⟩ rfl⟩
      · rintro ⟨-, h⟩ e ⟨r, hr, l, hl, m, ⟨hm, he⟩, rfl⟩ hid
        have : l = i := TwoLayers.nodup_inj sh.itemIds ((hkm l).1 hl) ((hkm i).1 hi') hid
        subst this
        exact h m hm r hr he
  have hget : ∀ {a art}, g.artefacts.get a = some art → ∀ r ∈ art.requirements.values, art.requirements.get r.id = some r := by
    intro a art ha r hr
    obtain ⟨art', h1, h2⟩ := (values_mem hk ha r).1 hr
    rw [ha] at h1
    cases h1
    exact h2
  have hau : gnuAbout g upper.id c!" Uncovered" (uncovered g ⟨upper.id, [code.id]⟩) =
      (au.requirements.values.filter fun r => ∀ i ∈ ak.requirements.values, ∀ m ∈ i.covers, m.id ≠ r.id).map fun r =>
        (placeText r.location, r.id ++ c!" Uncovered") := by
    rw [hunc]
    exact about_ids hu _ _ fun r hr => hget hu r (List.mem_filter.1 hr).1
  have hak : gnuAbout g code.id c!" Derived" (derived g code.id ak) =
      (ak.requirements.values.filter fun i => code.ignoreDerivedRequirements ≠ some true ∧
        ∀ m ∈ i.covers, ∀ r ∈ au.requirements.values, m.id ≠ r.id).map fun i => (placeText i.location, i.id ++ c!" Derived") := by
    rw [hderk]
    exact about_ids hc _ _ fun r hr => hget hc r (List.mem_filter.1 hr).1
  have htr : (traced g).errors.flatMap (gnuLines env) = (au.requirements.values.flatMap fun r =>
      ak.requirements.values.flatMap fun i => (i.covers.filter fun m => m.id = r.id).flatMap (titleLines env upper r)) ++
      (if ∀ i ∈ ak.requirements.values, ∀ m ∈ i.covers, ∀ r ∈ au.requirements.values, m.id ≠ r.id then
        gnuLines env (.unusedRelation ⟨upper.id, [code.id]⟩) else []) ++
      ((unknowns g).map fun x => (placeText x.2.location, x.1.id ++ c!" Covers unknown requirement " ++ x.2.id)) := by
    show (duplicateErrors g ++ g.relations.flatMap (relationErrors g) ++ danglingCovers g ++ danglingDepends g).flatMap
      (gnuLines env) = _
    rw [hdup, hdep, sh.relations, dangling_unknowns]
    simp only [List.nil_append, List.append_nil, List.flatMap_append, List.flatMap_cons, List.flatMap_nil]
    congr 1
    · unfold relationErrors
      rw [List.flatMap_append, htit]
      congr 1
      by_cases hn : (relEvents g ⟨upper.id, [code.id]⟩).isEmpty = true
      · rw [if_pos hn, if_pos (hnone.1 hn)]
        simp
      · rw [if_neg hn, if_neg (fun h => hn (hnone.2 h))]
        rfl
    · rw [List.flatMap_map]
      exact List.map_eq_flatMap.symm
  unfold gnuReport
  rw [herr, htr, sh.relations, hent, gnuText_append, gnuText_append]
  simp only [List.flatMap_cons, List.flatMap_nil, List.append_nil, hau]
  generalize gnuText (List.map _ (unknowns g)) = C
  generalize gnuText (List.flatMap _ au.requirements.values) = A
  generalize gnuText (List.map _ (List.filter _ au.requirements.values)) = D
  have hun : gnuText (if ∀ i ∈ ak.requirements.values, ∀ m ∈ i.covers, ∀ r ∈ au.requirements.values, m.id ≠ r.id then
        gnuLines env (.unusedRelation ⟨upper.id, [code.id]⟩) else []) =
      if ∀ i ∈ ak.requirements.values, ∀ m ∈ i.covers, ∀ r ∈ au.requirements.values, m.id ≠ r.id then
        c!"Error in config file: UnusedRelation(Relation { upper: " ++ quotedId env upper.id ++ c!", lower: [" ++
          quotedId env code.id ++ c!"] })\n" else [] := by
    split
    · simp [gnuText, gnuLines, List.intercalate]
    · rfl
  rw [hun]
  by_cases hlt : compare upper.id code.id = .lt
  · simp only [if_pos hlt, List.flatMap_cons, List.flatMap_nil, List.append_nil, hak, hderu]
    generalize gnuText (List.map _ (List.filter _ ak.requirements.values)) = E
    simp [gnuText, gnuAbout, relationText, List.intercalate, List.intersperse]
  · simp only [if_neg hlt, List.flatMap_cons, List.flatMap_nil, List.append_nil, hak, hderu]
    generalize gnuText (List.map _ (List.filter _ ak.requirements.values)) = E
    simp [gnuText, gnuAbout, relationText, List.intercalate, List.intersperse]

end

/-- A run that ends with 0 or 1 has done all jobs. -/
theorem jobs_done {env : Env} {opt : Arguments} {w : World} {config : Config} (hg : GoodConfig env w opt.configFile config)
    (hm : (Main.main env opt w).1 ≤ 1) : ∃ c js, Controller.new env w config opt.baseDir = .ok c ∧
      JobsOf (config.jobs.getD .empty) (requested config opt) js ∧ Done env c js w (Main.main env opt w).2 := by
  rcases main_cases env opt w with ⟨hb, e, h⟩ | ⟨cfg, hg', ⟨p, hn, h⟩ | ⟨c, hn, ⟨hq, h⟩ | ⟨hq, r, w', hr, h⟩⟩⟩
  · exact (not_good_and_bad hg hb).elim
  · rw [h] at hm
    exact absurd hm (by decide : ¬ 101 ≤ 1)
  · rw [h] at hm
    exact absurd hm (by decide : ¬ 2 ≤ 1)
  · cases GoodConfig_unique hg' hg
    have hjobs : c.jobs = config.jobs.getD .empty := by
      obtain ⟨_, _, _, _, _, _, h, _⟩ := new_ok hn; exact h
    have : ∃ s, r = .ok s ∧ (Main.main env opt w).2 = w' := by
      rw [h] at hm ⊢
      cases r with
      | ok s => cases s <;> exact ⟨_, rfl, rfl⟩
      | err e => exact absurd hm (by decide : ¬ 2 ≤ 1)
      | panic p => exact absurd hm (by decide : ¬ 101 ≤ 1)
    obtain ⟨s, rfl, h2⟩ := this
    rw [h2]
    rcases runJobsByName_cases env c (requested config opt) w with ⟨pre, n, post, h5, h6, h7, h8⟩ | ⟨js', h5, h6⟩
    · rw [hr] at h8; cases h8
    · rw [hr] at h6
      exact ⟨c, js', hn, by rw [← hjobs]; exact h5, (runEach_ok js' h6.symm).1⟩

variable {env : Env} {w : World} {opt : Arguments} {config : Config} {upper code : ArtefactConfig}
  {reqs items : List Requirement} {es : List Entry}

theorem report_of (hs : ReadsRust env.syn) (h : TwoLayers env w opt config upper code reqs es items) {c : Controller}
    (hn : Controller.new env w config opt.baseDir = .ok c) :
    ProjectReport env.fmt upper code (· ∈ reqs) (· ∈ items) (gnuReport env.fmt c.graph) := by
  obtain ⟨-, sh⟩ := TwoLayers.shape hs h hn
  have hcfg : ∀ ac, LastEntry config ac → ∃ art, c.graph.artefacts.get ac.id = some art := by
    rintro ac ⟨pre, post, e, _⟩
    exact (new_configured hn ac.id).1 ⟨ac, by rw [e]; simp, rfl⟩
  have hlu := TwoLayers.last_upper h
  have hlk := TwoLayers.last_code h
  obtain ⟨au, hau⟩ := hcfg _ hlu
  obtain ⟨ak, hak⟩ := hcfg _ hlk
  refine report_text env.fmt (C18_consistent hn).1 sh hau hak ?_ ((C68_no_errors_iff hn hlu hau).1.2 ⟨_, TwoLayers.clean_upper h⟩)
    ((C68_no_errors_iff hn hlk hak).1.2 ⟨_, TwoLayers.clean_code hs h⟩) ?_
  · intro a art ha
    obtain ⟨ac, hm, rfl⟩ := (new_configured hn a).2 ⟨art, ha⟩
    rcases h.artefacts with e | e <;> rw [e] at hm <;> simp at hm <;> rcases hm with rfl | rfl <;> simp
  · obtain ⟨ac, h1, h2, h3, h4⟩ := C19_default_root hn hak
    have : ac = code := by
      rcases TwoLayers.last_only h h1 with e | e
      · subst e
        exact absurd h2 h.different
      · exact e
    subst this
    cases hi : ac.ignoreDerivedRequirements with
    | some b => simp [h3 b hi]
    | none =>
      simp only [h4 hi, reduceCtorEq, iff_false]
      intro hr
      exact hr ⟨upper.id, [ac.id]⟩ (by rw [h.relations]; exact List.mem_singleton.2 rfl) (List.mem_singleton.2 rfl)

theorem output_of (hs : ReadsRust env.syn) (h : TwoLayers env w opt config upper code reqs es items) {c : Controller}
    (hn : Controller.new env w config opt.baseDir = .ok c) {job : Job} (hq : job.query = .trace)
    (hf : job.format = .gnuError) :
    ∃ text, ProjectReport env.fmt upper code (· ∈ reqs) (· ∈ items) text ∧ outputOf env c job = Utf8.encode text := by
  refine ⟨_, report_of hs h hn, ?_⟩
  obtain ⟨_, _, _, _, h2, _⟩ := new_ok hn
  unfold outputOf
  rw [if_pos hq, hf, C85_gnu (C18_consistent hn).1 h2]
  rfl

/-- **C169** Of a project with requirements in Markdown and marks in code, a run leaves exactly this report. -/
theorem C169_file (ht : env.ReadsToml) (hs : ReadsRust env.syn)
    (h : TwoLayers env w opt config upper code reqs es items) (hm : (Main.main env opt w).1 ≤ 1) {job : Job}
    (hq : job.query = .trace) (hf : job.format = .gnuError) (ho : job.file ≠ c!"-") (hw : WritesLast env opt config job) :
    ∃ text, ProjectReport env.fmt upper code (· ∈ reqs) (· ∈ items) text ∧
      (Main.main env opt w).2.files (env.os.resolve (target opt.baseDir job.file)) = some (Utf8.encode text) := by
  obtain ⟨c, js, hn, hj, hd⟩ := jobs_done (TwoLayers.good ht h) hm
  obtain ⟨pre, post, hp, hl⟩ := hw
  cases hj.unique hp
  have hb : c.baseDir = opt.baseDir := by
    obtain ⟨g, -, e⟩ := (C82_controller ..).1 hn
    rw [e]
  obtain ⟨text, h1, h2⟩ := output_of hs h hn hq hf
  refine ⟨text, h1, ?_⟩
  rw [← h2, ← hb]
  exact C66_last hd ho (by rw [hb]; exact hl)

/-- **C169** The same on the standard output. -/
theorem C169_stdout (ht : env.ReadsToml) (hs : ReadsRust env.syn)
    (h : TwoLayers env w opt config upper code reqs es items) (hm : (Main.main env opt w).1 ≤ 1) {job : Job}
    (hq : job.query = .trace) (hf : job.format = .gnuError) (ho : job.file = c!"-")
    (hw : JobsOf (config.jobs.getD .empty) (requested config opt) [job]) :
    ∃ text, ProjectReport env.fmt upper code (· ∈ reqs) (· ∈ items) text ∧
      (Main.main env opt w).2.stdout = w.stdout ++ Utf8.encode text := by
  obtain ⟨c, js, hn, hj, hd⟩ := jobs_done (TwoLayers.good ht h) hm
  cases hj.unique hw
  obtain ⟨text, h1, h2⟩ := output_of hs h hn hq hf
  refine ⟨text, h1, ?_⟩
  rw [← h2, C66_stdout hd]
  simp [ho]

theorem report_congr {env : FmtEnv} {upper code : ArtefactConfig} {R I J : Requirement → Prop} {t : Str}
    (h : ProjectReport env upper code R I t) (hi : ∀ i, I i ↔ J i) : ProjectReport env upper code R J t := by
  have : I = J := funext fun i => propext (hi i)
  rwa [← this]

/-- **C169** The same for the Rust files of a directory tree, in a file or on the standard output. -/
theorem C169_tree {there : Path → Prop} {marks : Path → List Entry} {items : Path → List Requirement} (ht : env.ReadsToml)
    (hs : ReadsRust env.syn) (hg : env.os.GlobWorks w there)
    (h : CodeTree env w opt there config upper code reqs marks items) (hm : (Main.main env opt w).1 ≤ 1) {job : Job}
    (hq : job.query = .trace) (hf : job.format = .gnuError) :
    ∃ text, ProjectReport env.fmt upper code (· ∈ reqs) (fun i => ∃ f, IsMeant there opt.baseDir code f ∧ i ∈ items f) text ∧
      (job.file ≠ c!"-" → WritesLast env opt config job →
        (Main.main env opt w).2.files (env.os.resolve (target opt.baseDir job.file)) = some (Utf8.encode text)) ∧
      (job.file = c!"-" → JobsOf (config.jobs.getD .empty) (requested config opt) [job] →
        (Main.main env opt w).2.stdout = w.stdout ++ Utf8.encode text) := by
  obtain ⟨fs, h1, h2⟩ := CodeTree.flat hg h
  obtain ⟨c, -, hn, -⟩ := jobs_done (TwoLayers.good ht h2) hm
  have hr := report_of hs h2 hn
  refine ⟨_, report_congr hr fun i => ?_, fun ho hw => ?_, fun ho hw => ?_⟩
  · rw [List.mem_flatMap]
    exact exists_congr fun f => and_congr_left fun _ => h1 f
  · obtain ⟨text, h3, h4⟩ := C169_file ht hs h2 hm hq hf ho hw
    rw [h4, C169_determined h3 hr]
  · obtain ⟨text, h3, h4⟩ := C169_stdout ht hs h2 hm hq hf ho hw
    rw [h4, C169_determined h3 hr]

end ProjectReport

namespace ProjectReportExample

open CtrlExample TwoLayersExample ProjectReport

/-- A wrong title, a mark for nothing, twice, and a requirement without a mark -/
def rs : Str := c!"fn f() { requirement_covered!(REQ_B, \"title x\"); }
fn g() { requirement_covered!(REQ_C, \"title c\"); requirement_covered!(REQ_C, \"title c\"); }
"

def forest : Rs.Forest :=
  .item (.fn c!"f") 1 3 (.mac (mark 1 9 c!"REQ_B" c!"title x") .nil)
  (.item (.fn c!"g") 2 3 (.mac (mark 2 9 c!"REQ_C" c!"title c") (.mac (mark 2 49 c!"REQ_C" c!"title c") .nil)) .nil)

def marks1 : List Entry := [⟨[c!"f"], some (at_ 1 3), ⟨c!"REQ_B", some c!"title x", at_ 1 9⟩⟩,
  ⟨[c!"g"], some (at_ 2 3), ⟨c!"REQ_C", some c!"title c", at_ 2 9⟩⟩, ⟨[c!"g"], some (at_ 2 3), ⟨c!"REQ_C", some c!"title c", at_ 2 49⟩⟩]

def f : Requirement := ⟨c!"f", none, at_ 1 3, [⟨c!"REQ_B", some c!"title x", at_ 1 9⟩], [], [], .empty⟩
def g : Requirement := ⟨c!"g", none, at_ 2 3, [⟨c!"REQ_C", some c!"title c", at_ 2 9⟩, ⟨c!"REQ_C", some c!"title c", at_ 2 49⟩], [], [], .empty⟩

theorem grouped : Grouped [f, g] marks1 := by
  refine ⟨[(f, marks1.take 1), (g, marks1.drop 1)], rfl, rfl, ?_, ?_⟩
  · intro x hx
    simp only [List.mem_cons, List.not_mem_nil, or_false] at hx
    rcases hx with rfl | rfl
    · refine ⟨rfl, fun y hy => ?_, ⟨_, _, rfl, rfl⟩, rfl, rfl, rfl, rfl⟩
      cases List.mem_singleton.1 hy
      exact .one _
    · refine ⟨rfl, fun y hy => ?_, ⟨_, _, rfl, rfl⟩, rfl, rfl, rfl, rfl⟩
      simp only [marks1, List.drop_one, List.tail_cons, List.mem_cons, List.not_mem_nil, or_false] at hy
      rcases hy with rfl | rfl <;> exact .one _
  · intro a r s b h
    match a with
    | [] => cases h; decide
    | [_] => cases h
    | _ :: _ :: a =>
      have := congrArg List.length h
      simp at this

theorem all : AllMarks e.syn.debug c!"p/a.rs" (occs c!"p/a.rs" [] none forest) marks1 [] :=
  .good (o := ⟨_, _, mark 1 9 c!"REQ_B" c!"title x"⟩) rfl (.inr (.inr ⟨_, _, _, _, rfl, rfl, rfl, ⟨by decide, by decide, by decide⟩, rfl⟩)) <|
  .good (o := ⟨_, _, mark 2 9 c!"REQ_C" c!"title c"⟩) rfl (.inr (.inr ⟨_, _, _, _, rfl, rfl, rfl, ⟨by decide, by decide, by decide⟩, rfl⟩)) <|
  .good (o := ⟨_, _, mark 2 49 c!"REQ_C" c!"title c"⟩) rfl (.inr (.inr ⟨_, _, _, _, rfl, rfl, rfl, ⟨by decide, by decide, by decide⟩, rfl⟩))
    .nil

/-- The report to the standard output, or to a file -/
def job (out : Path) : Job := ⟨.trace, .gnuError, out, none⟩

def config (out : Path) : Config := { TwoLayersExample.config with jobs := some (BMap.ofList [(c!"trace", job out)]) }

def w (out : Path) : World :=
  world [(c!"requirements.toml", TomlText.written (config out)), (c!"p/req.md", md), (c!"p/a.rs", rs)]

def report : Str := c!"# Parsing Errors
# Tracing Errors
p/a.rs:1:9: REQ_B covered with wrong title. Expected \"title b\", actual \"title x\"
p/req.md:3: note: Defined here
p/a.rs:2:9: g Covers unknown requirement REQ_C
# Uncovered Requirement
## REQ => [CODE]
p/req.md:1: REQ_A Uncovered
Derived Requirement
## CODE
p/a.rs:2:3: g Derived
## REQ
"

theorem isReport : ProjectReport e.fmt upper TwoLayersExample.code (· ∈ reqs) (· ∈ [f, g]) report := by
  refine ⟨reqs, [f, g], [(g, ⟨c!"REQ_C", some c!"title c", at_ 2 9⟩)], ⟨fun _ => Iff.rfl, by decide⟩, ⟨fun _ => Iff.rfl, by decide⟩,
    ⟨fun x => ⟨fun hx => ?_, ?_⟩, List.pairwise_singleton _ _⟩, by decide +kernel⟩
  · cases List.mem_singleton.1 hx
    exact ⟨by decide, ⟨[], [⟨c!"REQ_C", some c!"title c", at_ 2 49⟩], rfl, by decide⟩, by decide⟩
  · rintro ⟨h1, ⟨before, after, h2, h3⟩, h4⟩
    obtain ⟨i, m⟩ := x
    simp only [List.mem_cons, List.not_mem_nil, or_false] at h1
    rcases h1 with rfl | rfl
    · match before with
      | [] => cases h2; exact absurd rfl (h4 (MovedExample.heading c!"p/req.md" c!"REQ_B" c!"title b" 3) (by decide))
      | _ :: before => have := congrArg List.length h2; simp [f] at this
    · match before with
      | [] => cases h2; exact List.mem_singleton.2 rfl
      | [_] => cases h2; exact (h3 ⟨c!"REQ_C", some c!"title c", at_ 2 9⟩ (List.mem_singleton.2 rfl) rfl).elim
      | _ :: _ :: before => have := congrArg List.length h2; simp [g] at this

theorem project (out : Path) (h1 : e.os.openFile (w out) c!"requirements.toml" = .ok ⟨Utf8.encode (TomlText.written (config out)), none⟩)
    (h2 : e.os.openFile (w out) c!"p/req.md" = .ok ⟨Utf8.encode md, none⟩)
    (h3 : e.os.openFile (w out) c!"p/a.rs" = .ok ⟨Utf8.encode rs, none⟩)
    (h4 : e.os.glob (w out) c!"p/a.rs" = .ok [.ok c!"p/a.rs"]) :
    TwoLayers e (w out) args (config out) upper TwoLayersExample.code reqs marks1 [f, g] where
  text := ⟨TomlText.written (config out), h1,
    C162_written (config out) (fun v h => by cases h; decide) (fun m h => by cases h; show _ ∉ [c!"trace"]; decide)⟩
  version := fun v h => by cases h; rfl
  artefacts := .inl rfl
  relations := rfl
  different := by decide
  markdown := rfl
  rust := rfl
  top := by decide
  document := ⟨c!"req.md", rfl, md, h2, (C81_file ..).1 (by decide +kernel)⟩
  ids := by decide
  plain := by decide
  titles := by decide
  files := ⟨[c!"p/a.rs"], .inl ⟨rfl, by decide, .cons (fs := [c!"p/a.rs"]) h4 .nil⟩,
    .cons (text := rs) (f := forest) h3 ((RustText.C164_reader ..).1 (by decide +kernel)) all grouped .nil⟩
  itemIds := by decide
  untitled := by decide
  apart := by decide

set_option maxRecDepth 100000 in
/-- The report in a file and on the standard output -/
example : (Main.main e args (w c!"out.txt")).2.files c!"p/out.txt" = some (Utf8.encode report) ∧
    (Main.main e args (w c!"-")).2.stdout = Utf8.encode report := by
  obtain ⟨t, h1, h2⟩ := C169_file (env := e) e_toml e_rust
    (project c!"out.txt" (by decide +kernel) (by decide +kernel) (by decide +kernel) (by decide +kernel)) (by decide +kernel)
    (job := job c!"out.txt") rfl rfl (by decide) ⟨[], [], .cons (by decide +kernel) .nil, fun _ h => by cases h⟩
  obtain ⟨t', k1, k2⟩ := C169_stdout (env := e) e_toml e_rust
    (project c!"-" (by decide +kernel) (by decide +kernel) (by decide +kernel) (by decide +kernel)) (by decide +kernel)
    (job := job c!"-") rfl rfl rfl (.cons (by decide +kernel) .nil)
  have e1 := C169_determined h1 isReport
  have e2 := C169_determined k1 isReport
  rw [e1] at h2
  rw [e2] at k2
  exact ⟨h2, k2⟩

/-- The report on the files of a directory: nothing to report -/
def nothing : Str := c!"# Parsing Errors
# Tracing Errors
# Uncovered Requirement
## REQ => [CODE]
Derived Requirement
## CODE
## REQ
"

theorem isNothing : ProjectReport CodeTreeExample.e.fmt upper CodeTreeExample.code (· ∈ reqs)
    (fun i => ∃ f, IsMeant (· ∈ CodeTreeExample.listing) args.baseDir CodeTreeExample.code f ∧ i ∈ CodeTreeExample.items f) nothing := by
  have hi : ∀ i, i ∈ [CodeTreeExample.f, CodeTreeExample.g] ↔
      ∃ f, IsMeant (· ∈ CodeTreeExample.listing) args.baseDir CodeTreeExample.code f ∧ i ∈ CodeTreeExample.items f := by
    intro i
    simp only [CodeTreeExample.meant_iff, List.mem_cons, List.not_mem_nil, or_false]
    constructor
    · rintro (rfl | rfl)
      · exact ⟨_, .inl rfl, List.mem_singleton.2 rfl⟩
      · exact ⟨_, .inr rfl, List.mem_singleton.2 rfl⟩
    · rintro ⟨x, rfl | rfl, h⟩
      · exact .inl (List.mem_singleton.1 h)
      · exact .inr (List.mem_singleton.1 h)
  refine report_congr (I := (· ∈ [CodeTreeExample.f, CodeTreeExample.g])) ?_ hi
  refine ⟨reqs, [CodeTreeExample.f, CodeTreeExample.g], [], ⟨fun _ => Iff.rfl, by decide⟩, ⟨fun _ => Iff.rfl, by decide⟩,
    ⟨fun x => ⟨fun hx => (by cases hx), ?_⟩, .nil⟩, by decide +kernel⟩
  rintro ⟨h1, ⟨before, after, h2, -⟩, h4⟩
  obtain ⟨i, m⟩ := x
  simp only [List.mem_cons, List.not_mem_nil, or_false] at h1
  rcases h1 with rfl | rfl <;> match before with
    | [] => cases h2; exact absurd h4 (by decide)
    | _ :: before => have := congrArg List.length h2; simp [CodeTreeExample.f, CodeTreeExample.g] at this

set_option maxRecDepth 100000 in
example : (Main.main CodeTreeExample.e args (CodeTreeExample.w CodeTreeExample.c)).2.stdout = Utf8.encode nothing := by
  obtain ⟨t, h1, -, h2⟩ := C169_tree (env := CodeTreeExample.e) e_toml e_rust (CodeTreeExample.e_works _)
    CodeTreeExample.project (by decide +kernel) (job := job c!"-") rfl rfl
  have h2 := h2 rfl (.cons (by decide +kernel) .nil)
  rw [C169_determined h1 isNothing] at h2
  exact h2

end ProjectReportExample

end Reqtrace
