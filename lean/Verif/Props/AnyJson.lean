import Verif.Spec.AnyJson
import Verif.Props.AnyMarkdown

/-!
# C174: from the texts of any project to the result of a trace in JSON
-/

namespace Reqtrace

open Spec RustLayout GlobText

namespace AnyJson

open AnyReport AnyMarkdown JsonOut JsonProof
open ProjectReport (flatMap_congr' values_mem values_sorted unknowns dangling_unknowns unknowns_sorted inOrder_unique)

/-- At most one value meets the schema. -/
def One (P : Schema) : Prop := ∀ i j, P i → P j → i = j

theorem Only.one {P : Schema} {v : Json} (h : Only P v) : One P := fun i j hi hj => by rw [(h i).1 hi, (h j).1 hj]

theorem one_fields {ps : List (Str × Schema)} (h : ∀ p ∈ ps, One p.2) {is js : List (Str × Json)} (hi : Fields ps is)
    (hj : Fields ps js) : is = js := by
  induction hi generalizing js with
  | nil => cases hj; rfl
  | cons h1 h2 ih =>
    cases hj with
    | cons k1 k2 =>
      rw [h _ List.mem_cons_self _ _ h1 k1, ih (fun p hp => h p (List.mem_cons_of_mem _ hp)) k2]

theorem one_items {ps : List Schema} (h : ∀ p ∈ ps, One p) {is js : List Json} (hi : Items ps is) (hj : Items ps js) :
    is = js := by
  induction hi generalizing js with
  | nil => cases hj; rfl
  | cons h1 h2 ih =>
    cases hj with
    | cons k1 k2 =>
      rw [h _ List.mem_cons_self _ _ h1 k1, ih (fun p hp => h p (List.mem_cons_of_mem _ hp)) k2]

theorem one_object {ps : List (Str × Schema)} (h : ∀ p ∈ ps, One p.2) : One (Object ps) := by
  rintro _ _ ⟨is, rfl, hi⟩ ⟨js, rfl, hj⟩
  rw [one_fields h hi hj]

theorem one_tuple {ps : List Schema} (h : ∀ p ∈ ps, One p) : One (Tuple ps) := by
  rintro _ _ ⟨is, rfl, hi⟩ ⟨js, rfl, hj⟩
  rw [one_items h hi hj]

theorem one_listOf {α : Type} {P : α → Schema} (h : ∀ a, One (P a)) (l : List α) : One (ListOf P l) := by
  refine one_tuple fun p hp => ?_
  obtain ⟨a, -, rfl⟩ := List.mem_map.1 hp
  exact h a

theorem one_text (s : Str) : One (Text s) := Only.one (only_text s)

theorem one_art (config : Config) (reqs : ArtefactId → List Requirement) (files : ArtefactId → List Path)
    (ac : ArtefactConfig) : One (AnyArt config reqs files ac) := by
  refine one_object fun p hp => ?_
  simp only [List.mem_cons, List.not_mem_nil, or_false] at hp
  rcases hp with rfl | rfl | rfl | rfl | rfl | rfl
  · exact one_text _
  · exact one_listOf one_text _
  · exact Only.one (only_truth _)
  · exact Only.one (only_truth _)
  · refine one_object fun p hp => ?_
    obtain ⟨r, -, rfl⟩ := List.mem_map.1 hp
    exact Only.one (only_req r)
  · exact one_tuple nofun

theorem one_covering (d : Str) (u l : Requirement) (ref : Reference) : One (AnyCovering d u l ref) := by
  refine one_object fun p hp => ?_
  simp only [List.mem_cons, List.not_mem_nil, or_false] at hp
  rcases hp with rfl | rfl | rfl | rfl
  · exact one_text _
  · exact one_text _
  · exact Only.one (only_place _)
  · exact one_text _

theorem one_rel (reqs : ArtefactId → List Requirement) (rel : Relation) : One (AnyRel reqs rel) := by
  refine one_object fun p hp => ?_
  simp only [List.mem_cons, List.not_mem_nil, or_false] at hp
  rcases hp with rfl | rfl | rfl | rfl
  · exact one_text _
  · exact one_listOf one_text _
  · refine one_tuple fun p hp => ?_
    unfold coverings at hp
    obtain ⟨u, -, h⟩ := List.mem_flatMap.1 hp
    rcases List.mem_append.1 h with h | h
    · obtain ⟨ref, -, h⟩ := List.mem_flatMap.1 h
      obtain ⟨a, -, h⟩ := List.mem_flatMap.1 h
      obtain ⟨l, -, rfl⟩ := List.mem_map.1 h
      exact one_covering _ _ _ _
    · obtain ⟨a, -, h⟩ := List.mem_flatMap.1 h
      obtain ⟨l, -, h⟩ := List.mem_flatMap.1 h
      obtain ⟨ref, -, rfl⟩ := List.mem_map.1 h
      exact one_covering _ _ _ _
  · exact one_listOf (P := fun u : Requirement => Text u.id) (fun u => one_text _) _

theorem one_trace (config : Config) (reqs : ArtefactId → List Requirement) (arts : List ArtefactConfig)
    (up down : List (Requirement × Reference)) (files : ArtefactId → List Path) :
    One (AnyTrace config reqs arts up down files) := by
  refine one_object fun p hp => ?_
  simp only [List.mem_cons, List.not_mem_nil, or_false] at hp
  rcases hp with rfl | rfl
  · exact Only.one (only_number _)
  refine one_object fun p hp => ?_
  simp only [List.mem_cons, List.not_mem_nil, or_false] at hp
  rcases hp with rfl | rfl | rfl | rfl
  · refine one_object fun p hp => ?_
    obtain ⟨ac, -, rfl⟩ := List.mem_map.1 hp
    exact one_art _ _ _ _
  · exact one_listOf (one_rel reqs) _
  · refine one_object fun p hp => ?_
    obtain ⟨ac, -, rfl⟩ := List.mem_map.1 hp
    exact one_listOf (P := fun u : Requirement => Text u.id) (fun u => one_text _) _
  · exact one_listOf (fun e => Only.one (only_err e)) _

/-- **C174** There is at most one such result. -/
theorem C174_determined {env : Env} {w : World} {base : Path} {config : Config} {reqsOf : ArtefactId → List Requirement}
    {t t' : Str} (h : Spec.AnyJson env w base config reqsOf t) (h' : Spec.AnyJson env w base config reqsOf t') : t = t' := by
  obtain ⟨a, b, c, d, f, j, h1, h2, h3, h4, h5, h6, h7⟩ := h
  obtain ⟨a', b', c', d', f', j', k1, k2, k3, k4, k5, k6, k7⟩ := h'
  have : a = a' := funext fun x => inOrder_unique (h1 x) (k1 x)
  subst this
  cases inOrder_unique h2 k2
  cases inOrder_unique h3 k3
  cases inOrder_unique h4 k4
  have hf : AnyTrace config a b c d f = AnyTrace config a b c d f' := by
    unfold AnyTrace
    rw [List.map_congr_left fun ac hac => ?_]
    unfold AnyArt
    rw [filesOf_unique (h5 ac ((h2.1 ac).1 hac)) (k5 ac ((h2.1 ac).1 hac))]
  rw [hf] at h6
  cases one_trace _ _ _ _ _ _ _ _ h6 k6
  exact shows_unique h7 k7

variable {g : Graph} {config : Config} {reqsOf : ArtefactId → List Requirement}

/-- The files of an artefact -/
def filesIn (g : Graph) (a : ArtefactId) : List Path :=
  match g.artefacts.get a with
  | none => []
  | some art => art.files

section
variable (hk : Keyed g) (hm : TextProject.Mirror g config fun a r => r ∈ reqsOf a)
  (hu : ∀ a b r s, r ∈ reqsOf a → s ∈ reqsOf b → r.id = s.id → a = b)
include hk hm hu

theorem rel_held (rel : Relation) : JsonOut.Rel g rel = AnyRel (held g) rel := by
  have h1 : (relEvents g rel).map Covering = coverings (held g) rel := by
    unfold relEvents coverings
    show ((held g rel.upper).flatMap (reqEvents g rel)).map _ = _
    rw [List.map_flatMap]
    refine flatMap_congr' fun u _ => ?_
    rw [events_held hk hm hu, List.map_append]
    simp only [List.map_flatMap, List.map_map]
    rfl
  have h2 : (uncovered g rel).map Text = (openAlong (held g) rel).map fun u => Text u.id := by
    have h3 : uncovered g rel = (openAlong (held g) rel).map (·.id) := uncovered_held hk hm hu rel
    rw [h3, List.map_map]
    rfl
  unfold JsonOut.Rel AnyRel relationFields ListOf
  rw [h1, h2]
  rfl

omit hu in
theorem art_held {ac : ArtefactConfig} {art : Artefact} (hl : LastEntry config ac)
    (ha : g.artefacts.get ac.id = some art) (he : art.errors = []) :
    Art art = AnyArt config (held g) (filesIn g) ac := by
  obtain ⟨art', h1, h2, h3⟩ := hm.settings ac hl
  rw [ha] at h1
  cases h1
  have h4 : art.requirements.entries.map (fun e => (e.1, Req e.2)) = (held g ac.id).map fun r => (r.id, Req r) := by
    have : held g ac.id = art.requirements.values := by unfold held; rw [ha]
    rw [this]
    unfold BMap.values
    rw [List.map_map]
    refine List.map_congr_left fun e hm' => ?_
    show _ = (e.2.id, Req e.2)
    rw [hk.requirement _ _ ha _ _ ((BMap.get_eq_some_iff _ _ _).2 hm')]
  have h5 : filesIn g ac.id = art.files := by unfold filesIn; rw [ha]
  have h6 : art.ignoreDerivedRequirements = decide (¬ MustCover config ac) := by
    rw [Bool.eq_iff_iff, decide_eq_true_eq, ← h3, Bool.not_eq_false]
  have h7 : art.referenceWithTitle = decide (ac.referenceWithTitle = some true) := by
    rw [Bool.eq_iff_iff, decide_eq_true_eq, h2]
  unfold Art AnyArt MapOf
  rw [h4, h5, h6, h7, he, hk.artefact _ _ ha]
  rfl

/-- The result on the graph that is read is the one on the project. -/
theorem any_json (ho : (config.artefacts.map (·.id)).Nodup) (he : errorsOf g.artefacts = []) :
    ∃ arts, InOrder ArtefactConfig.id (· ∈ config.artefacts) arts ∧
      JsonOut.Trace g = AnyTrace config (held g) arts (unknowns g) (missing g) (filesIn g) := by
  have h0 : ∀ a art, g.artefacts.get a = some art → art.errors = [] := fun a art h =>
    List.flatMap_eq_nil_iff.1 he _ ((BMap.get_eq_some_iff _ _ _).1 h)
  obtain ⟨arts, ha, h1⟩ := entries_config hm ho (f := fun e => [(e.1, Art e.2)])
    (f' := fun ac => [(ac.id, AnyArt config (held g) (filesIn g) ac)]) (by
    intro ac hac art hg
    rw [art_held hk hm ((TextProject.last ho).2 hac) hg (h0 _ _ hg)])
  obtain ⟨arts', ha', h2⟩ := entries_config hm ho (f := fun e => [(e.1, ListOf Text (derived g e.1 e.2))])
    (f' := fun ac => [(ac.id, Tuple ((freeOf config (held g) ac).map fun l => Text l.id))]) (by
    intro ac hac art hg
    have h1 : derived g ac.id art = (freeOf config (held g) ac).map (·.id) :=
      derived_held hk hm hu ((TextProject.last ho).2 hac) hg
    show [(ac.id, ListOf Text (derived g ac.id art))] = _
    unfold ListOf
    rw [h1, List.map_map]
    rfl)
  cases inOrder_unique ha ha'
  refine ⟨arts, ha, ?_⟩
  rw [← List.map_eq_flatMap, ← List.map_eq_flatMap] at h1 h2
  unfold JsonOut.Trace AnyTrace MapOf
  rw [h1, h2, errors_held hk hm hu ho, hm.relations, show JsonOut.Rel g = AnyRel (held g) from funext (rel_held hk hm hu)]

end

variable {env : Env} {w : World} {opt : Arguments} {there : Path → Prop}

theorem json_output (hs : ReadsRust env.syn) (hg : env.os.GlobWorks w there)
    (h : Spec.TextProject env w opt there config reqsOf) (he : EachOnce config reqsOf) {c : Controller}
    (hn : Controller.new env w config opt.baseDir = .ok c) {job : Job} (hq : job.query = .trace)
    (hf : job.format = .json) :
    ∃ text, Spec.AnyJson env w opt.baseDir config reqsOf text ∧ outputOf env c job = Utf8.encode text := by
  obtain ⟨k1, k2⟩ := ListText.each_unique h he
  have hh := TextProject.holds_once hs hg h k1 he.titles
  obtain ⟨-, hm⟩ := TextProject.mirror hh hn
  obtain ⟨hk, hr⟩ := C18_consistent hn
  obtain ⟨t, ht⟩ := (C85_determined hk hr env.fmt .trace .json).2.2 nofun
  cases ht with
  | @json j _ hj ht =>
    obtain ⟨arts, ha, e⟩ := any_json hk hm k2 h.once (no_errors hh hn hm)
    refine ⟨t, ⟨held c.graph, arts, unknowns c.graph, missing c.graph, filesIn c.graph, j,
      fun a => ⟨fun r => (mem_held hk a r).trans (hm.defines a r), held_sorted hk a⟩, ha,
      ⟨unknowns_mem hk hm k2, unknowns_sorted hk⟩, ⟨missing_mem hk hm k2, missing_sorted hk⟩, ?_, e ▸ hj, ht⟩, ?_⟩
    · intro ac hac
      have hl := (TextProject.last h.once).2 hac
      obtain ⟨reqs, h1, -⟩ := hh.files ac hl
      obtain ⟨fs, h2, -⟩ := h1.files
      obtain ⟨art, h3, -⟩ := hm.settings ac hl
      have h4 : filesIn c.graph ac.id = fs := by
        unfold filesIn
        rw [h3]
        exact ((C69_files hn hl h3).1 fs h2).1
      rw [h4]
      exact h2
    · obtain ⟨_, _, _, _, h2, _⟩ := new_ok hn
      unfold outputOf
      rw [if_pos hq, hf, (C85_json hk h2 env.fmt t).2 ⟨j, hj, ht⟩]
      rfl

/-- **C174** Of any project whose texts are well formed and in which no id is there twice, a run leaves exactly this
result. -/
theorem C174_file (ht : env.ReadsToml) (hs : ReadsRust env.syn) (hg : env.os.GlobWorks w there)
    (h : Spec.TextProject env w opt there config reqsOf) (he : EachOnce config reqsOf) (hm : (Main.main env opt w).1 ≤ 1)
    {job : Job} (hq : job.query = .trace) (hf : job.format = .json) (ho : job.file ≠ c!"-")
    (hw : WritesLast env opt config job) :
    ∃ text, Spec.AnyJson env w opt.baseDir config reqsOf text ∧
      (Main.main env opt w).2.files (env.os.resolve (target opt.baseDir job.file)) = some (Utf8.encode text) := by
  obtain ⟨c, js, hn, hj, hd⟩ := ProjectReport.jobs_done (TextProject.good ht h) hm
  obtain ⟨pre, post, hp, hl⟩ := hw
  cases hj.unique hp
  have hb : c.baseDir = opt.baseDir := by
    obtain ⟨g, -, e⟩ := (C82_controller ..).1 hn
    rw [e]
  obtain ⟨text, h1, h2⟩ := json_output hs hg h he hn hq hf
  refine ⟨text, h1, ?_⟩
  rw [← h2, ← hb]
  exact C66_last hd ho (by rw [hb]; exact hl)

/-- **C174** The same on the standard output. -/
theorem C174_stdout (ht : env.ReadsToml) (hs : ReadsRust env.syn) (hg : env.os.GlobWorks w there)
    (h : Spec.TextProject env w opt there config reqsOf) (he : EachOnce config reqsOf) (hm : (Main.main env opt w).1 ≤ 1)
    {job : Job} (hq : job.query = .trace) (hf : job.format = .json) (ho : job.file = c!"-")
    (hw : JobsOf (config.jobs.getD .empty) (requested config opt) [job]) :
    ∃ text, Spec.AnyJson env w opt.baseDir config reqsOf text ∧
      (Main.main env opt w).2.stdout = w.stdout ++ Utf8.encode text := by
  obtain ⟨c, js, hn, hj, hd⟩ := ProjectReport.jobs_done (TextProject.good ht h) hm
  cases hj.unique hw
  obtain ⟨text, h1, h2⟩ := json_output hs hg h he hn hq hf
  refine ⟨text, h1, ?_⟩
  rw [← h2, C66_stdout hd]
  simp [ho]

end AnyJson

namespace AnyJsonExample

open CtrlExample (world args)
open TwoLayersExample (upper e_toml e_rust)
open TextProjectExample (e listing code issues)
open AnyReportExample (issue reqA reqB reqsOf md text first_mem requirement_cases)
open AnyJson

def job (out : Path) : Job := ⟨.trace, .json, out, none⟩

/-- The project of the report in the form of compiler errors, with another format -/
def config (out : Path) : Config := { AnyReportExample.config out with jobs := some (BMap.ofList [(c!"trace", job out)]) }

def w (out : Path) : World := world [(c!"requirements.toml", TomlText.written (config out)), (c!"p/I_1.md", text),
  (c!"p/req.md", md), (c!"p/src/b.rs", CodeTreeExample.b), (c!"p/src/x/c.rs", CodeTreeExample.c)]

theorem tree (out : Path) : MarkedTree e (w out) (· ∈ listing) args.baseDir code CodeTreeExample.items where
  directory := GlobExample.proper_p
  patterns := CodeTreeExample.project.patterns
  once := CodeTreeExample.project.once
  disjoint := CodeTreeExample.project.disjoint
  files := fun x hx => by
    obtain ⟨t, fo, h1, h2⟩ := CodeTreeExample.project.files x hx
    refine ⟨t, fo, _, ?_, h2⟩
    rw [← h1]
    rcases CodeTreeExample.meant x hx with rfl | rfl <;> rfl

theorem project (out : Path) : Spec.TextProject e (w out) args (· ∈ listing) (config out) reqsOf where
  text := ⟨TomlText.written (config out), rfl,
    C162_written (config out) (fun v h => by cases h; decide) (fun m h => by cases h; exact fun hm => by cases List.mem_singleton.1 (hm : _ ∈ [c!"trace"]))⟩
  version := fun v h => by cases h; rfl
  once := TextProjectExample.project.once
  says := fun ac hac => by
    simp only [config, AnyReportExample.config, TextProjectExample.config, List.mem_cons, List.not_mem_nil, or_false] at hac
    rcases hac with rfl | rfl | rfl
    · exact .document (p := c!"I_1.md") (reqs := [issue]) (by decide) rfl
        ⟨text, rfl, (C81_file ..).1 (by decide +kernel)⟩
    · exact .document (p := c!"req.md") (reqs := [reqA, reqB]) (by decide) rfl
        ⟨md, rfl, (C81_file ..).1 (by decide +kernel)⟩
    · exact .code (fs := [c!"p/src/b.rs", c!"p/src/x/c.rs"]) rfl (tree out) (by decide) fun f => by
        exact .trans (by simp) (CodeTreeExample.meant_iff f).symm
  only := (AnyReportExample.project out).only

theorem each (out : Path) : EachOnce (config out) reqsOf where
  ids := (AnyReportExample.each out).ids
  titles := (AnyReportExample.each out).titles

def part1 : Str := c!"{
  \"version\": 0,
  \"trace\": {
    \"artefacts\": {
      \"CODE\": {
        \"id\": \"CODE\",
        \"files\": [
          \"p/src/b.rs\",
          \"p/src/x/c.rs\"
        ],
        \"ignore_derived_requirements\": false,
        \"reference_with_title\": false,
        \"requirements\": {
          \"f\": {
            \"id\": \"f\",
            \"title\": null,
            \"location\": {
              \"file\": \"p/src/b.rs\",
              \"location_in_file\": {
                \"LineAndColumn\": [
                  1,
                  3
                ]
              }
            },
            \"covers\": [
              {
                \"id\": \"REQ_A\",
                \"title\": \"title a\",
                \"location\": {
                  \"file\": \"p/src/b.rs\",
                  \"location_in_file\": {
                    \"LineAndColumn\": [
                      1,
                      9
                    ]
                  }
                }
              }
            ],
            \"depends\": [],
            \"tags\": [],
            \"attributes\": {}
          },
          \"m::g\": {
            \"id\": \"m::g\",
            \"title\": null,
            \"location\": {
              \"file\": \"p/src/x/c.rs\",
              \"location_in_file\": {
                \"LineAndColumn\": [
                  1,
                  11
                ]
              }
            },
            \"covers\": [
              {
                \"id\": \"REQ_B\",
                \"title\": \"title b\",
                \"location\": {
                  \"file\": \"p/src/x/c.rs\",
                  \"location_in_file\": {
                    \"LineAndColumn\": [
                      1,
                      17
                    ]
                  }
                }
              }
            ],
            \"depends\": [],
            \"tags\": [],
"

def part2 : Str := c!"            \"attributes\": {}
          }
        },
        \"errors\": []
      },
      \"ISSUES\": {
        \"id\": \"ISSUES\",
        \"files\": [
          \"p/I_1.md\"
        ],
        \"ignore_derived_requirements\": false,
        \"reference_with_title\": false,
        \"requirements\": {
          \"I_1\": {
            \"id\": \"I_1\",
            \"title\": \"The first issue\",
            \"location\": {
              \"file\": \"p/I_1.md\",
              \"location_in_file\": null
            },
            \"covers\": [],
            \"depends\": [
              {
                \"id\": \"REQ_A\",
                \"title\": \"title b\",
                \"location\": {
                  \"file\": \"p/I_1.md\",
                  \"location_in_file\": {
                    \"Line\": 3
                  }
                }
              },
              {
                \"id\": \"REQ_C\",
                \"title\": null,
                \"location\": {
                  \"file\": \"p/I_1.md\",
                  \"location_in_file\": {
                    \"Line\": 4
                  }
                }
              }
            ],
            \"tags\": [],
            \"attributes\": {}
          }
        },
        \"errors\": []
      },
      \"REQ\": {
        \"id\": \"REQ\",
        \"files\": [
          \"p/req.md\"
        ],
        \"ignore_derived_requirements\": false,
        \"reference_with_title\": true,
        \"requirements\": {
          \"REQ_A\": {
            \"id\": \"REQ_A\",
            \"title\": \"title a\",
            \"location\": {
              \"file\": \"p/req.md\",
              \"location_in_file\": {
                \"Line\": 1
              }
            },
            \"covers\": [
              {
                \"id\": \"I_9\",
                \"title\": \"none\",
                \"location\": {
                  \"file\": \"p/req.md\",
"

def part3 : Str := c!"                  \"location_in_file\": {
                    \"Line\": 4
                  }
                }
              },
              {
                \"id\": \"I_1\",
                \"title\": \"The first issue\",
                \"location\": {
                  \"file\": \"p/req.md\",
                  \"location_in_file\": {
                    \"Line\": 5
                  }
                }
              }
            ],
            \"depends\": [],
            \"tags\": [],
            \"attributes\": {}
          },
          \"REQ_B\": {
            \"id\": \"REQ_B\",
            \"title\": \"title b\",
            \"location\": {
              \"file\": \"p/req.md\",
              \"location_in_file\": {
                \"Line\": 7
              }
            },
            \"covers\": [],
            \"depends\": [],
            \"tags\": [],
            \"attributes\": {}
          }
        },
        \"errors\": []
      }
    },
    \"traced_relations\": [
      {
        \"upper\": \"ISSUES\",
        \"lower\": [
          \"REQ\"
        ],
        \"covered\": [
          {
            \"upper\": \"I_1\",
            \"lower\": \"REQ_A\",
            \"location\": {
              \"file\": \"p/I_1.md\",
              \"location_in_file\": {
                \"Line\": 3
              }
            },
            \"direction\": \"Downwards\"
          },
          {
            \"upper\": \"I_1\",
            \"lower\": \"REQ_A\",
            \"location\": {
              \"file\": \"p/req.md\",
              \"location_in_file\": {
                \"Line\": 5
              }
            },
            \"direction\": \"Upwards\"
          }
        ],
        \"uncovered\": []
      },
      {
        \"upper\": \"REQ\",
        \"lower\": [
          \"CODE\"
        ],
        \"covered\": [
          {
            \"upper\": \"REQ_A\",
            \"lower\": \"f\",
            \"location\": {
"

def part4 : Str := c!"              \"file\": \"p/src/b.rs\",
              \"location_in_file\": {
                \"LineAndColumn\": [
                  1,
                  9
                ]
              }
            },
            \"direction\": \"Upwards\"
          },
          {
            \"upper\": \"REQ_B\",
            \"lower\": \"m::g\",
            \"location\": {
              \"file\": \"p/src/x/c.rs\",
              \"location_in_file\": {
                \"LineAndColumn\": [
                  1,
                  17
                ]
              }
            },
            \"direction\": \"Upwards\"
          }
        ],
        \"uncovered\": []
      },
      {
        \"upper\": \"CODE\",
        \"lower\": [
          \"ISSUES\",
          \"REQ\"
        ],
        \"covered\": [],
        \"uncovered\": [
          \"f\",
          \"m::g\"
        ]
      }
    ],
    \"derived\": {
      \"CODE\": [],
      \"ISSUES\": [
        \"I_1\"
      ],
      \"REQ\": [
        \"REQ_B\"
      ]
    },
    \"errors\": [
      {
        \"DependWithWrongTitle\": {
          \"upper\": {
            \"id\": \"I_1\",
            \"title\": \"The first issue\",
            \"location\": {
              \"file\": \"p/I_1.md\",
              \"location_in_file\": null
            },
            \"covers\": [],
            \"depends\": [
              {
                \"id\": \"REQ_A\",
                \"title\": \"title b\",
                \"location\": {
                  \"file\": \"p/I_1.md\",
                  \"location_in_file\": {
                    \"Line\": 3
                  }
                }
              },
              {
                \"id\": \"REQ_C\",
                \"title\": null,
                \"location\": {
                  \"file\": \"p/I_1.md\",
                  \"location_in_file\": {
                    \"Line\": 4
                  }
                }
              }
"

def part5 : Str := c!"            ],
            \"tags\": [],
            \"attributes\": {}
          },
          \"lower\": {
            \"id\": \"REQ_A\",
            \"title\": \"title a\",
            \"location\": {
              \"file\": \"p/req.md\",
              \"location_in_file\": {
                \"Line\": 1
              }
            },
            \"covers\": [
              {
                \"id\": \"I_9\",
                \"title\": \"none\",
                \"location\": {
                  \"file\": \"p/req.md\",
                  \"location_in_file\": {
                    \"Line\": 4
                  }
                }
              },
              {
                \"id\": \"I_1\",
                \"title\": \"The first issue\",
                \"location\": {
                  \"file\": \"p/req.md\",
                  \"location_in_file\": {
                    \"Line\": 5
                  }
                }
              }
            ],
            \"depends\": [],
            \"tags\": [],
            \"attributes\": {}
          },
          \"wrong_title\": \"title b\",
          \"location\": {
            \"file\": \"p/I_1.md\",
            \"location_in_file\": {
              \"Line\": 3
            }
          }
        }
      },
      {
        \"UnusedRelation\": {
          \"upper\": \"CODE\",
          \"lower\": [
            \"ISSUES\",
            \"REQ\"
          ]
        }
      },
      {
        \"CoversUnknownRequirement\": [
          {
            \"id\": \"REQ_A\",
            \"title\": \"title a\",
            \"location\": {
              \"file\": \"p/req.md\",
              \"location_in_file\": {
                \"Line\": 1
              }
            },
            \"covers\": [
              {
                \"id\": \"I_9\",
                \"title\": \"none\",
                \"location\": {
                  \"file\": \"p/req.md\",
                  \"location_in_file\": {
"

def part6 : Str := c!"                    \"Line\": 4
                  }
                }
              },
              {
                \"id\": \"I_1\",
                \"title\": \"The first issue\",
                \"location\": {
                  \"file\": \"p/req.md\",
                  \"location_in_file\": {
                    \"Line\": 5
                  }
                }
              }
            ],
            \"depends\": [],
            \"tags\": [],
            \"attributes\": {}
          },
          \"I_9\",
          {
            \"file\": \"p/req.md\",
            \"location_in_file\": {
              \"Line\": 4
            }
          }
        ]
      },
      {
        \"DependOnUnknownRequirement\": [
          {
            \"id\": \"I_1\",
            \"title\": \"The first issue\",
            \"location\": {
              \"file\": \"p/I_1.md\",
              \"location_in_file\": null
            },
            \"covers\": [],
            \"depends\": [
              {
                \"id\": \"REQ_A\",
                \"title\": \"title b\",
                \"location\": {
                  \"file\": \"p/I_1.md\",
                  \"location_in_file\": {
                    \"Line\": 3
                  }
                }
              },
              {
                \"id\": \"REQ_C\",
                \"title\": null,
                \"location\": {
                  \"file\": \"p/I_1.md\",
                  \"location_in_file\": {
                    \"Line\": 4
                  }
                }
              }
            ],
            \"tags\": [],
            \"attributes\": {}
          },
          \"REQ_C\",
          {
            \"file\": \"p/I_1.md\",
            \"location_in_file\": {
              \"Line\": 4
            }
          }
        ]
      }
    ]
  }
}"

def resultText : Str := part1 ++ part2 ++ part3 ++ part4 ++ part5 ++ part6

theorem same {x y : List UInt8} (h : x.isEqv y (· == ·) = true) : x = y := by
  induction x generalizing y with
  | nil => cases y with
    | nil => rfl
    | cons b y => cases h
  | cons a x ih => cases y with
    | nil => cases h
    | cons b y =>
      simp only [List.isEqv, Bool.and_eq_true, beq_iff_eq] at h
      rw [h.1, ih h.2]

/-- The result in a file and on the standard output -/
example : Spec.AnyJson e (w c!"report") args.baseDir (config c!"report") reqsOf resultText ∧
    (Main.main e args (w c!"report")).2.files c!"p/report" = some (Utf8.encode resultText) := by
  obtain ⟨t, h1, h2⟩ := C174_file (env := e) e_toml e_rust (CodeTreeExample.e_works _) (project c!"report")
    (each c!"report") (by decide +kernel) (job := job c!"report") rfl rfl (by decide) ⟨[], [], .cons rfl .nil, nofun⟩
  rw [show e.os.resolve (target args.baseDir (job c!"report").file) = c!"p/report" by decide +kernel] at h2
  have h3 : ((Main.main e args (w c!"report")).2.files c!"p/report").getD [] = Utf8.encode resultText := same (by decide +kernel)
  rw [h2] at h3
  have := Utf8.encode_injective (s := t) h3
  subst this
  exact ⟨h1, h2⟩

example : Spec.AnyJson e (w c!"-") args.baseDir (config c!"-") reqsOf resultText ∧
    (Main.main e args (w c!"-")).2.stdout = Utf8.encode resultText := by
  obtain ⟨t, h1, h2⟩ := C174_stdout (env := e) e_toml e_rust (CodeTreeExample.e_works _) (project c!"-")
    (each c!"-") (by decide +kernel) (job := job c!"-") rfl rfl rfl (.cons rfl .nil)
  have h3 : (Main.main e args (w c!"-")).2.stdout = Utf8.encode resultText := same (by decide +kernel)
  have := Utf8.encode_injective (s := t) (h2.symm.trans h3)
  subst this
  exact ⟨h1, h3⟩

end AnyJsonExample

end Reqtrace
