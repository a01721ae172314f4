import Verif.Lemmas.Json
import Verif.Props.Formatters

/-!
# C52, C65: JSON exports can be read
-/

set_option linter.unusedSimpArgs false

namespace Reqtrace

open Json JsonRead Spec
open Spec.JsonText (PositionFits RequirementFits)

theorem plain_relation (r : Relation) : ∀ m ∈ ofRelation r, m.2.Plain := by
  intro m hm
  simp only [ofRelation, List.mem_cons, List.not_mem_nil, or_false] at hm
  rcases hm with rfl | rfl
  · exact .str _
  · exact plain_vec fun _ => .str _

theorem plain_error (e : Error) : (ofError e).Plain := by
  cases e with
  | emptyGraph => exact .str _
  | unusedRelation rel =>
    refine .obj ?_
    intro m hm
    rw [List.mem_singleton.1 hm]
    exact .obj (plain_relation rel)
  | _ =>
    refine .obj ?_
    intro m hm
    rw [List.mem_singleton.1 hm]
    first
    | exact .str _
    | exact plain_requirement _
    | (refine .arr ?_
       intro v hv
       simp only [List.mem_cons, List.not_mem_nil, or_false] at hv
       rcases hv with rfl | rfl | rfl <;> first | exact .str _ | exact plain_requirement _ | exact plain_location _)
    | (refine .arr ?_
       intro v hv
       simp only [List.mem_cons, List.not_mem_nil, or_false] at hv
       rcases hv with rfl | rfl <;> first | exact .str _ | exact plain_requirement _ | exact plain_location _)
    | (refine .obj ?_
       intro v hv
       simp only [List.mem_cons, List.not_mem_nil, or_false] at hv
       rcases hv with rfl | rfl | rfl | rfl <;>
        first | exact .str _ | exact plain_requirement _ | exact plain_location _)
    | (refine .obj ?_
       intro v hv
       simp only [List.mem_cons, List.not_mem_nil, or_false] at hv
       rcases hv with rfl | rfl <;> first | exact .str _ | exact plain_requirement _ | exact plain_location _)

theorem plain_export (reqs : List Requirement) (errs : List Error) :
    (Json.obj [(c!"version", .num 0), (c!"requirements", .arr (reqs.map ofRequirement)),
      (c!"errors", .arr (errs.map ofError))]).Plain := by
  refine .obj ?_
  intro m hm
  simp only [List.mem_cons, List.not_mem_nil, or_false] at hm
  rcases hm with rfl | rfl | rfl
  · exact .num _
  · exact plain_vec plain_requirement
  · exact plain_vec plain_error

/-! ## C52 -/

/-- **C52 as listed**: an export is read as a Json artefact and gives the requirements. -/
def C52_statement : Prop :=
  ∀ env errText g, (∀ r ∈ requirementsOf g.artefacts, RequirementFits r) →
    ∃ reqs, fromReader errText ⟨(Fmt.requirements env g .json).text, none⟩ = .ok reqs ∧
      reqs.Perm (requirementsOf g.artefacts)

/-- No export can be imported: an object is written and an array is expected. -/
theorem C52_never (env : FmtEnv) (errText : Str) (g : Graph) :
    ∃ e, fromReader errText ⟨(Fmt.requirements env g .json).text, none⟩ = .error e := by
  obtain ⟨reqs, errs, h, _⟩ := C51_export env g
  refine ⟨errText, ?_⟩
  unfold fromReader
  simp only [h, Out.put]
  rw [document_pretty (plain_export reqs errs)]
  rfl

/-- C52 is false as listed, even for the graph without artefacts. -/
theorem C52_false : ¬ C52_statement := by
  intro h
  obtain ⟨reqs, h1, _⟩ := h FmtEnv.example [] ⟨BMap.empty, []⟩ (by intro r hr; cases hr)
  obtain ⟨e, h2⟩ := C52_never FmtEnv.example [] ⟨BMap.empty, []⟩
  rw [h1] at h2
  cases h2

/-- **C52** The export holds a JSON array, in the member `requirements`, that can be imported: written to a file of
its own it gives the requirements. -/
theorem C52_member_partial (env : FmtEnv) (errText : Str) (g : Graph)
    (hfit : ∀ r ∈ requirementsOf g.artefacts, RequirementFits r) :
    ∃ ms member reqs, document (Fmt.requirements env g .json).text = some (.obj ms) ∧
      ms.lookup c!"requirements" = some member ∧
      (∀ i, fromReader errText ⟨Json.pretty i member, none⟩ = .ok reqs) ∧
      reqs.Perm (requirementsOf g.artefacts) := by
  obtain ⟨reqs, errs, h, hperm, _⟩ := C51_export env g
  refine ⟨[(c!"version", .num 0), (c!"requirements", .arr (reqs.map ofRequirement)),
    (c!"errors", .arr (errs.map ofError))], .arr (reqs.map ofRequirement), reqs, ?_, ?_, ?_, hperm⟩
  · rw [h]; exact document_pretty (plain_export reqs errs) 0
  · rfl
  · intro i
    unfold fromReader
    simp only
    rw [document_pretty (show (Json.arr (reqs.map ofRequirement)).Plain from plain_vec plain_requirement) i]
    simp only [Option.bind_some, toVec]
    rw [all_map fun r hr => toRequirement_of (hfit r (hperm.mem_iff.1 hr))]

/-- The example graph: its requirements fit, and the array is read back. -/
example : (∀ r ∈ requirementsOf Example.graph.artefacts, RequirementFits r) ∧
    fromReader [] ⟨c!"[ {\"id\": \"A\\u0042\\n\", \"location\": [\"f\", {\"Line\": 3}], \"covers\": [],
      \"depends\": [], \"tags\": [], \"other\": [1e5, {}], \"attributes\": {\"x\": \"1\", \"x\": \"2\"}}]\n", none⟩ =
      .ok [{ id := c!"AB\n", title := none, location := ⟨c!"f", some (.line 3)⟩, covers := [], depends := [],
             tags := [], attributes := BMap.ofList [(c!"x", c!"2")] }] := by
  constructor
  · have h : ∀ r ∈ requirementsOf Example.graph.artefacts, r.location.locationInFile = some (.line 0) ∧
        (∀ c ∈ r.covers ++ r.depends, ∃ n, n < 10 ∧ c.location.locationInFile = some (.line n)) := by
      decide +kernel
    intro r hr
    obtain ⟨h1, h2⟩ := h r hr
    have hp : ∀ p : Option LocationInFile, (∃ n, n < 10 ∧ p = some (.line n)) → PositionFits p := by
      rintro p ⟨n, hn, rfl⟩
      show n ≤ usizeMax
      unfold usizeMax; omega
    exact ⟨hp _ ⟨0, by omega, h1⟩, fun c hc => hp _ (h2 c (List.mem_append_left _ hc)),
      fun c hc => hp _ (h2 c (List.mem_append_right _ hc))⟩
  · decide +kernel

/-! ## C65: exports lose nothing -/

theorem inj_opt {α : Type} {f : α → Json} (hf : ∀ a b, f a = f b → a = b) (hn : ∀ a, f a ≠ .null) :
    ∀ a b, opt f a = opt f b → a = b := by
  intro a b h
  cases a <;> cases b
  · rfl
  · exact absurd h.symm (hn _)
  · exact absurd h (hn _)
  · exact congrArg some (hf _ _ h)

theorem inj_map {α β : Type} {f : α → β} (hf : ∀ a b, f a = f b → a = b) :
    ∀ a b : List α, a.map f = b.map f → a = b := by
  intro a
  induction a with
  | nil => intro b h; cases b with
    | nil => rfl
    | cons _ _ => cases h
  | cons x a ih => intro b h; cases b with
    | nil => cases h
    | cons y b =>
      rw [List.map_cons, List.map_cons, List.cons.injEq] at h
      rw [hf _ _ h.1, ih b h.2]

theorem inj_vec {α : Type} {f : α → Json} (hf : ∀ a b, f a = f b → a = b) :
    ∀ a b, vec f a = vec f b → a = b := by
  intro a b h
  unfold vec at h
  injection h with h
  exact inj_map hf _ _ h

theorem inj_bmap {α : Type} {f : α → Json} (hf : ∀ a b, f a = f b → a = b) :
    ∀ a b : BMap Str α, Json.map f a = Json.map f b → a = b := by
  intro a b h
  unfold Json.map at h
  injection h with h
  have : a.entries = b.entries := by
    refine inj_map ?_ _ _ h
    rintro ⟨k, v⟩ ⟨k', v'⟩ h
    simp only [Prod.mk.injEq] at h
    rw [h.1, hf _ _ h.2]
  cases a; cases b; cases this; rfl

theorem inj_locationInFile : ∀ a b, ofLocationInFile a = ofLocationInFile b → a = b := by
  intro a b h
  cases a <;> cases b <;> simp [ofLocationInFile] at h ⊢ <;> first | exact h | rfl

theorem inj_location : ∀ a b, ofLocation a = ofLocation b → a = b := by
  rintro ⟨f, p⟩ ⟨f', p'⟩ h
  simp only [ofLocation, Json.obj.injEq, List.cons.injEq, Prod.mk.injEq, true_and, and_true, Json.str.injEq] at h
  rw [h.1, inj_opt inj_locationInFile (by intro a; cases a <;> exact fun h => nomatch h) _ _ h.2]

theorem inj_str : ∀ a b, Json.str a = Json.str b → a = b := fun _ _ h => Json.str.inj h

theorem inj_opt_str : ∀ a b, opt .str a = opt .str b → a = b := inj_opt inj_str (fun _ h => nomatch h)

theorem inj_reference : ∀ a b, ofReference a = ofReference b → a = b := by
  rintro ⟨i, t, l⟩ ⟨i', t', l'⟩ h
  simp only [ofReference, Json.obj.injEq, List.cons.injEq, Prod.mk.injEq, true_and, and_true, Json.str.injEq] at h
  rw [h.1, inj_opt_str _ _ h.2.1, inj_location _ _ h.2.2]

theorem inj_requirement : ∀ a b, ofRequirement a = ofRequirement b → a = b := by
  rintro ⟨i, t, l, c, d, g, a⟩ ⟨i', t', l', c', d', g', a'⟩ h
  simp only [ofRequirement, Json.obj.injEq, List.cons.injEq, Prod.mk.injEq, true_and, and_true, Json.str.injEq] at h
  obtain ⟨h1, h2, h3, h4, h5, h6, h7⟩ := h
  rw [h1, inj_opt_str _ _ h2, inj_location _ _ h3, inj_vec inj_reference _ _ h4, inj_vec inj_reference _ _ h5,
    inj_vec inj_str _ _ h6, inj_bmap inj_str _ _ h7]

theorem inj_relation : ∀ a b, ofRelation a = ofRelation b → a = b := by
  rintro ⟨u, l⟩ ⟨u', l'⟩ h
  simp only [ofRelation, List.cons.injEq, Prod.mk.injEq, true_and, and_true, Json.str.injEq] at h
  rw [h.1, inj_vec inj_str _ _ h.2]

/-- The name of the variant. -/
def variantOf : Json → Str
  | .obj ((k, _) :: _) => k
  | .str s => s
  | _ => []

theorem inj_error : ∀ a b, ofError a = ofError b → a = b := by
  intro a b h
  cases a <;> cases b <;> first
    | exact absurd (congrArg variantOf h) (by simp only [ofError, variantOf]; decide)
    | rfl
    | (simp only [ofError, Json.obj.injEq, Json.arr.injEq, Json.str.injEq, List.cons.injEq, Prod.mk.injEq, true_and,
        and_true] at h
       first
       | rw [h]
       | rw [h.1, h.2]
       | rw [inj_requirement _ _ h]
       | rw [inj_relation _ _ h]
       | rw [inj_location _ _ h.1, h.2]
       | rw [inj_requirement _ _ h.1, inj_requirement _ _ h.2]
       | rw [inj_requirement _ _ h.1, inj_location _ _ h.2]
       | rw [inj_location _ _ h.1, h.2.1, h.2.2]
       | rw [inj_requirement _ _ h.1, h.2.1, inj_location _ _ h.2.2]
       | rw [inj_requirement _ _ h.1, inj_requirement _ _ h.2.1, h.2.2.1, inj_location _ _ h.2.2.2])

theorem inj_bool : ∀ a b, Json.bool a = Json.bool b → a = b := fun _ _ h => Json.bool.inj h

theorem inj_artefact : ∀ a b, ofArtefact a = ofArtefact b → a = b := by
  rintro ⟨i, f, d, t, r, e⟩ ⟨i', f', d', t', r', e'⟩ h
  simp only [ofArtefact, Json.obj.injEq, List.cons.injEq, Prod.mk.injEq, true_and, and_true, Json.str.injEq,
    Json.bool.injEq] at h
  obtain ⟨h1, h2, h3, h4, h5, h6⟩ := h
  rw [h1, inj_vec inj_str _ _ h2, h3, h4, inj_bmap inj_requirement _ _ h5, inj_vec inj_error _ _ h6]

theorem inj_direction : ∀ a b, ofDirection a = ofDirection b → a = b := by
  intro a b h
  cases a <;> cases b <;> first | rfl | exact absurd (congrArg variantOf h) (by simp only [ofDirection, variantOf]; decide)

theorem inj_coverage : ∀ a b, ofCoverage a = ofCoverage b → a = b := by
  rintro ⟨u, l, p, d⟩ ⟨u', l', p', d'⟩ h
  simp only [ofCoverage, Json.obj.injEq, List.cons.injEq, Prod.mk.injEq, true_and, and_true, Json.str.injEq] at h
  rw [h.1, h.2.1, inj_location _ _ h.2.2.1, inj_direction _ _ h.2.2.2]

theorem inj_tracedRelation : ∀ a b, ofTracedRelation a = ofTracedRelation b → a = b := by
  rintro ⟨⟨u, l⟩, c, n⟩ ⟨⟨u', l'⟩, c', n'⟩ h
  simp only [ofTracedRelation, ofRelation, List.cons_append, List.nil_append, Json.obj.injEq, List.cons.injEq,
    Prod.mk.injEq, true_and, and_true, Json.str.injEq] at h
  rw [h.1, inj_vec inj_str _ _ h.2.1, inj_vec inj_coverage _ _ h.2.2.1, inj_vec inj_str _ _ h.2.2.2]

theorem inj_tracedGraph : ∀ a b, ofTracedGraph a = ofTracedGraph b → a = b := by
  rintro ⟨a, t, d, e⟩ ⟨a', t', d', e'⟩ h
  simp only [ofTracedGraph, Json.obj.injEq, List.cons.injEq, Prod.mk.injEq, true_and, and_true] at h
  rw [inj_bmap inj_artefact _ _ h.1, inj_vec inj_tracedRelation _ _ h.2.1, inj_bmap (inj_vec inj_str) _ _ h.2.2.1,
    inj_vec inj_error _ _ h.2.2.2]

theorem plain_tracedGraph (tg : TracedGraph) : (ofTracedGraph tg).Plain := by
  have hart : ∀ a, (ofArtefact a).Plain := by
    intro a
    refine .obj ?_
    intro m hm
    simp only [List.mem_cons, List.not_mem_nil, or_false] at hm
    rcases hm with rfl | rfl | rfl | rfl | rfl | rfl
    · exact .str _
    · exact plain_vec fun _ => .str _
    · exact .bool _
    · exact .bool _
    · exact plain_map plain_requirement
    · exact plain_vec plain_error
  have hcov : ∀ c, (ofCoverage c).Plain := by
    intro c
    refine .obj ?_
    intro m hm
    simp only [List.mem_cons, List.not_mem_nil, or_false] at hm
    rcases hm with rfl | rfl | rfl | rfl
    · exact .str _
    · exact .str _
    · exact plain_location _
    · cases c.direction <;> exact .str _
  have hrel : ∀ r, (ofTracedRelation r).Plain := by
    intro r
    refine .obj ?_
    intro m hm
    rcases List.mem_append.1 hm with hm | hm
    · exact plain_relation _ m hm
    · simp only [List.mem_cons, List.not_mem_nil, or_false] at hm
      rcases hm with rfl | rfl
      · exact plain_vec hcov
      · exact plain_vec fun _ => .str _
  refine .obj ?_
  intro m hm
  simp only [List.mem_cons, List.not_mem_nil, or_false] at hm
  rcases hm with rfl | rfl | rfl | rfl
  · exact plain_map hart
  · exact plain_vec hrel
  · exact plain_map fun _ => plain_vec fun _ => .str _
  · exact plain_vec plain_error

/-- **C65** The JSON export of a trace determines the traced graph. -/
theorem C65_trace (env : FmtEnv) (a b : TracedGraph)
    (h : (Fmt.tracing env a .json).text = (Fmt.tracing env b .json).text) : a = b := by
  have hp : ∀ tg : TracedGraph, (Serialize.traceJson tg).Plain := by
    intro tg
    refine .obj ?_
    intro m hm
    simp only [List.mem_cons, List.not_mem_nil, or_false] at hm
    rcases hm with rfl | rfl
    · exact .num _
    · exact plain_tracedGraph tg
  have h1 : document (pretty 0 (Serialize.traceJson a)) = document (pretty 0 (Serialize.traceJson b)) :=
    congrArg document h
  rw [document_pretty (hp a), document_pretty (hp b), Option.some.injEq] at h1
  unfold Serialize.traceJson at h1
  simp only [Json.obj.injEq, List.cons.injEq, Prod.mk.injEq, true_and, and_true] at h1
  exact inj_tracedGraph _ _ h1

/-- **C65** The JSON export of a parse determines the requirements and the errors. -/
theorem C65_parse (env : FmtEnv) (a b : Graph)
    (h : (Fmt.requirements env a .json).text = (Fmt.requirements env b .json).text) :
    (requirementsOf a.artefacts).Perm (requirementsOf b.artefacts) ∧
    (errorsOf a.artefacts).Perm (errorsOf b.artefacts) := by
  obtain ⟨r1, e1, h1, p1, _, _, q1, _⟩ := C51_export env a
  obtain ⟨r2, e2, h2, p2, _, _, q2, _⟩ := C51_export env b
  rw [h1, h2] at h
  have h3 := congrArg document h
  simp only [Out.put] at h3
  rw [document_pretty (plain_export r1 e1), document_pretty (plain_export r2 e2), Option.some.injEq] at h3
  simp only [Json.obj.injEq, List.cons.injEq, Prod.mk.injEq, true_and, and_true, Json.arr.injEq] at h3
  have h4 := inj_map inj_requirement _ _ h3.1
  have h5 := inj_map inj_error _ _ h3.2
  subst h4 h5
  exact ⟨p1.symm.trans p2, q1.symm.trans q2⟩

/-- Texts that would be confused without escapes are told apart. -/
example : Json.pretty 0 (.arr [.str c!"a\", \"b"]) = c!"[\n  \"a\\\", \\\"b\"\n]" ∧
    Json.pretty 0 (.arr [.str c!"a", .str c!"b"]) = c!"[\n  \"a\",\n  \"b\"\n]" := by
  decide +kernel

end Reqtrace
