import Verif.ConfigRead
import Verif.Props.JsonRead
import Verif.Lemmas.Json
import Verif.Spec.Config

/-!
# Properties C78 and C79: what the configuration file says
-/

namespace Reqtrace

namespace ConfigRead

open JsonRead Spec.JsonText Spec.ConfigText

theorem toBool_iff : ReadsAs toBool IsBool := by
  intro j b
  unfold toBool IsBool
  cases j <;> simp

theorem toU32_iff : ReadsAs toU32 IsVersion := by
  intro j n
  unfold toU32 IsVersion
  cases j with
  | num k =>
    have : u32Max = 4294967295 := rfl
    rw [this]
    simp only [Json.num.injEq]
    split
    · simp only [Option.some.injEq]
      constructor
      · rintro rfl; exact ⟨rfl, by omega⟩
      · exact fun h => h.1
    · constructor
      · intro h; cases h
      · rintro ⟨rfl, h⟩; omega
  | _ => simp

theorem unitVariant_iff : ∀ (j : Json) (s : Str), unitVariant j = some s ↔ Named s j := by
  intro j s
  constructor
  · intro h
    unfold unitVariant at h
    split at h <;> cases h
    · exact .text
    · exact .table
  · intro h
    cases h <;> rfl

/-- An enum read by name. -/
theorem variant_iff {α : Type} {f : Str → Option α} {j : Json} {a : α} :
    (unitVariant j).bind f = some a ↔ ∃ s, Named s j ∧ f s = some a := by
  rw [Option.bind_eq_some_iff]
  exact exists_congr fun s => and_congr (unitVariant_iff j s) Iff.rfl

theorem toParser_iff : ReadsAs toParser IsParser := by
  intro j p
  unfold toParser
  simp only [Option.bind_eq_bind]
  rw [variant_iff]
  constructor
  · rintro ⟨s, hs, h⟩
    split at h
    · next h1 => subst h1; cases h; exact .markdown hs
    · split at h
      · next h1 => subst h1; cases h; exact .rust hs
      · split at h
        · next h1 => subst h1; cases h; exact .monoRequirement hs
        · split at h
          · next h1 => subst h1; cases h; exact .json hs
          · cases h
  · intro h
    cases h with
    | markdown h => exact ⟨_, h, rfl⟩
    | rust h => exact ⟨_, h, rfl⟩
    | monoRequirement h => exact ⟨_, h, rfl⟩
    | json h => exact ⟨_, h, rfl⟩

theorem toQuery_iff : ReadsAs toQuery IsQuery := by
  intro j p
  unfold toQuery
  simp only [Option.bind_eq_bind]
  rw [variant_iff]
  constructor
  · rintro ⟨s, hs, h⟩
    split at h
    · next h1 => subst h1; cases h; exact .parse hs
    · split at h
      · next h1 => subst h1; cases h; exact .trace hs
      · cases h
  · intro h
    cases h with
    | parse h => exact ⟨_, h, rfl⟩
    | trace h => exact ⟨_, h, rfl⟩

theorem toFormat_iff : ReadsAs toFormat IsFormat := by
  intro j p
  constructor
  · intro h
    unfold toFormat at h
    split at h
    · split at h
      · next h1 => subst h1; cases h; exact .templateFile
      · split at h
        · next h1 => subst h1; cases h; exact .templateString
        · cases h
    · simp only [Option.bind_eq_bind] at h
      rw [variant_iff] at h
      obtain ⟨s, hs, h⟩ := h
      split at h
      · next h1 => subst h1; cases h; exact .gnuError hs
      · split at h
        · next h1 => subst h1; cases h; exact .json hs
        · split at h
          · next h1 => subst h1; cases h; exact .markdown hs
          · split at h
            · next h1 => subst h1; cases h; exact .tags hs
            · cases h
  · intro h
    cases h with
    | gnuError h => cases h <;> rfl
    | json h => cases h <;> rfl
    | markdown h => cases h <;> rfl
    | tags h => cases h <;> rfl
    | templateFile => rfl
    | templateString => rfl

theorem getLast_ofList {α : Type} (kvs : List (Str × α)) (k : Str) : (BMap.ofList kvs).get k =
    ((kvs.filter (fun e => e.1 = k)).getLast?).map Prod.snd := by
  rw [get_ofList, ← List.head?_filter, List.filter_reverse, List.head?_reverse]
  congr 3

theorem toTable_iff {α : Type} {f : Json → Option α} {P : Json → α → Prop} (h : ReadsAs f P) :
    ReadsAs (toTable f) (IsTable P) := by
  intro j m
  unfold toTable IsTable
  cases j with
  | obj ms =>
    simp only [Option.bind_eq_bind, Option.bind_eq_some_iff, Json.obj.injEq, Option.pure_def, Option.some.injEq]
    constructor
    · rintro ⟨vs, h1, rfl⟩
      exact ⟨ms, vs, rfl, (all_iff h _ _).1 h1, fun k => getLast_ofList _ k⟩
    · rintro ⟨ms, vs, rfl, h1, h2⟩
      refine ⟨vs, (all_iff h _ _).2 h1, ?_⟩
      apply BMap.ext_get
      intro k
      rw [getLast_ofList, h2]
  | _ => simp

theorem toArtefactConfig_iff : ReadsAs toArtefactConfig IsArtefactConfig := by
  intro j a
  have hn : [c!"id", c!"paths", c!"parser", c!"ignore_derived_requirements", c!"reference_with_title"].Nodup := by decide
  unfold toArtefactConfig IsArtefactConfig
  simp only [Option.bind_eq_bind, Option.bind_eq_some_iff, Option.pure_def, Option.some.injEq]
  constructor
  · rintro ⟨f, hf, a, h1, b, h2, c, h3, d, h4, e, h5, rfl⟩
    exact ⟨(get_iff hf hn (by simp) (required_iff toStr_iff) _).1 h1,
      (get_iff hf hn (by simp) (required_iff (toVec_iff toStr_iff)) _).1 h2,
      (get_iff hf hn (by simp) (required_iff toParser_iff) _).1 h3,
      (get_iff hf hn (by simp) (toOpt_iff toBool_iff rfl) _).1 h4,
      (get_iff hf hn (by simp) (toOpt_iff toBool_iff rfl) _).1 h5⟩
  · rintro ⟨h1, h2, h3, h4, h5⟩
    obtain ⟨f, hf, _⟩ := fields_complete hn (by simp) (j := j) (by
      intro n hn
      simp only [List.mem_cons, List.not_mem_nil, or_false] at hn
      rcases hn with rfl | rfl | rfl | rfl | rfl
      · exact get_field h1
      · exact get_field h2
      · exact get_field h3
      · exact get_field h4
      · exact get_field h5)
    exact ⟨f, hf, _, (get_iff hf hn (by simp) (required_iff toStr_iff) _).2 h1, _,
      (get_iff hf hn (by simp) (required_iff (toVec_iff toStr_iff)) _).2 h2, _,
      (get_iff hf hn (by simp) (required_iff toParser_iff) _).2 h3, _,
      (get_iff hf hn (by simp) (toOpt_iff toBool_iff rfl) _).2 h4, _,
      (get_iff hf hn (by simp) (toOpt_iff toBool_iff rfl) _).2 h5, rfl⟩

theorem toRelation_iff : ReadsAs toRelation IsRelation := by
  intro j a
  have hn : [c!"upper", c!"lower"].Nodup := by decide
  unfold toRelation IsRelation
  simp only [Option.bind_eq_bind, Option.bind_eq_some_iff, Option.pure_def, Option.some.injEq]
  constructor
  · rintro ⟨f, hf, a, h1, b, h2, rfl⟩
    exact ⟨(get_iff hf hn (by simp) (required_iff toStr_iff) _).1 h1,
      (get_iff hf hn (by simp) (required_iff (toVec_iff toStr_iff)) _).1 h2⟩
  · rintro ⟨h1, h2⟩
    obtain ⟨f, hf, _⟩ := fields_complete hn (by simp) (j := j) (by
      intro n hn
      simp only [List.mem_cons, List.not_mem_nil, or_false] at hn
      rcases hn with rfl | rfl
      · exact get_field h1
      · exact get_field h2)
    exact ⟨f, hf, _, (get_iff hf hn (by simp) (required_iff toStr_iff) _).2 h1, _,
      (get_iff hf hn (by simp) (required_iff (toVec_iff toStr_iff)) _).2 h2, rfl⟩

theorem toJob_iff : ReadsAs toJob IsJob := by
  intro j a
  have hn : [c!"query", c!"format", c!"file", c!"set_return_code"].Nodup := by decide
  unfold toJob IsJob
  simp only [Option.bind_eq_bind, Option.bind_eq_some_iff, Option.pure_def, Option.some.injEq]
  constructor
  · rintro ⟨f, hf, a, h1, b, h2, c, h3, d, h4, rfl⟩
    exact ⟨(get_iff hf hn (by simp) (required_iff toQuery_iff) _).1 h1,
      (get_iff hf hn (by simp) (required_iff toFormat_iff) _).1 h2,
      (get_iff hf hn (by simp) (required_iff toStr_iff) _).1 h3,
      (get_iff hf hn (by simp) (toOpt_iff toBool_iff rfl) _).1 h4⟩
  · rintro ⟨h1, h2, h3, h4⟩
    obtain ⟨f, hf, _⟩ := fields_complete hn (by simp) (j := j) (by
      intro n hn
      simp only [List.mem_cons, List.not_mem_nil, or_false] at hn
      rcases hn with rfl | rfl | rfl | rfl
      · exact get_field h1
      · exact get_field h2
      · exact get_field h3
      · exact get_field h4)
    exact ⟨f, hf, _, (get_iff hf hn (by simp) (required_iff toQuery_iff) _).2 h1, _,
      (get_iff hf hn (by simp) (required_iff toFormat_iff) _).2 h2, _,
      (get_iff hf hn (by simp) (required_iff toStr_iff) _).2 h3, _,
      (get_iff hf hn (by simp) (toOpt_iff toBool_iff rfl) _).2 h4, rfl⟩

end ConfigRead

open JsonRead Spec.JsonText Spec.ConfigText ConfigRead in
/-- **C78** A document is taken as a configuration exactly if it is one, and then as the configuration that it says. -/
theorem C78_config (j : Json) (c : Config) : toConfig j = some c ↔ IsConfig j c := by
  have hn : [c!"version", c!"artefacts", c!"relations", c!"jobs", c!"default_jobs"].Nodup := by decide
  unfold toConfig IsConfig
  simp only [Option.bind_eq_bind, Option.bind_eq_some_iff, Option.pure_def, Option.some.injEq]
  constructor
  · rintro ⟨f, hf, a, h1, b, h2, c, h3, d, h4, e, h5, rfl⟩
    exact ⟨(get_iff hf hn (by simp) (toOpt_iff toU32_iff rfl) _).1 h1,
      (get_iff hf hn (by simp) (required_iff (toVec_iff toArtefactConfig_iff)) _).1 h2,
      (get_iff hf hn (by simp) (required_iff (toVec_iff toRelation_iff)) _).1 h3,
      (get_iff hf hn (by simp) (toOpt_iff (toTable_iff toJob_iff) rfl) _).1 h4,
      (get_iff hf hn (by simp) (toOpt_iff (toVec_iff toStr_iff) rfl) _).1 h5⟩
  · rintro ⟨h1, h2, h3, h4, h5⟩
    obtain ⟨f, hf, _⟩ := fields_complete hn (by simp) (j := j) (by
      intro n hn
      simp only [List.mem_cons, List.not_mem_nil, or_false] at hn
      rcases hn with rfl | rfl | rfl | rfl | rfl
      · exact get_field h1
      · exact get_field h2
      · exact get_field h3
      · exact get_field h4
      · exact get_field h5)
    exact ⟨f, hf, _, (get_iff hf hn (by simp) (toOpt_iff toU32_iff rfl) _).2 h1, _,
      (get_iff hf hn (by simp) (required_iff (toVec_iff toArtefactConfig_iff)) _).2 h2, _,
      (get_iff hf hn (by simp) (required_iff (toVec_iff toRelation_iff)) _).2 h3, _,
      (get_iff hf hn (by simp) (toOpt_iff (toTable_iff toJob_iff) rfl) _).2 h4, _,
      (get_iff hf hn (by simp) (toOpt_iff (toVec_iff toStr_iff) rfl) _).2 h5, rfl⟩

/-! ## C79 -/

namespace ConfigRead

open JsonRead Spec.JsonText Spec.ConfigText

theorem get_required {β : Type} {names : List Str} {ms : List (Str × Json)} {n : Str} {P : Json → β → Prop} {b : β}
    (h : Get names (.obj ms) n (Required P) b) : ∃ v, (n, v) ∈ ms ∧ P v b := by
  obtain ⟨v, hf, j, rfl, hp⟩ := h
  cases hf with
  | member _ _ => exact ⟨j, by simp, hp⟩

theorem field_unique {names : List Str} {ms : List (Str × Json)} {n : Str} {v : Option Json} {w : Json}
    (h : Field names (.obj ms) n v) (hm : (n, w) ∈ ms) : v = some w := by
  cases h with
  | missing h => exact absurd rfl (h _ hm)
  | member h1 h2 =>
    rcases List.mem_append.1 hm with h | h
    · exact absurd rfl (h1 _ h)
    · rcases List.mem_cons.1 h with h | h
      · cases h; rfl
      · exact absurd rfl (h2 _ h)

theorem each_mem {α : Type} {P : Json → α → Prop} {js : List Json} {as : List α} (h : Each P js as) {j : Json}
    (hj : j ∈ js) : ∃ a, P j a := by
  induction h with
  | nil => cases hj
  | cons h1 _ ih =>
    rcases List.mem_cons.1 hj with rfl | hj
    · exact ⟨_, h1⟩
    · exact ih hj

end ConfigRead

open ConfigRead Spec.ConfigText in
/-- **C79** in full: a name that is no setting is refused, in each table. -/
def C79_statement : Prop := ∀ (ms : List (Str × Json)) (t : List (Str × Json)) (names : List Str), Table ms t names →
  (∃ e ∈ t, e.1 ∉ names) → toConfig (.obj ms) = none

open ConfigRead Spec.ConfigText in
/-- A misspelled `set_return_code` is ignored, so the job sets the return code. -/
theorem C79_false : ¬ C79_statement := by
  intro h
  let t : List (Str × Json) := [(c!"query", .str c!"Trace"), (c!"format", .str c!"Json"), (c!"file", .str c!"-"),
    (c!"set_retrun_code", .bool false)]
  have := h [(c!"artefacts", .arr []), (c!"relations", .arr []), (c!"jobs", .obj [(c!"x", .obj t)])] t _
    (.job (List.mem_cons_of_mem _ (List.mem_cons_of_mem _ (List.mem_cons_self ..))) (List.mem_cons_self ..))
    ⟨(c!"set_retrun_code", .bool false), by simp [t], by decide⟩
  have h2 : (toConfig (.obj [(c!"artefacts", .arr []), (c!"relations", .arr []), (c!"jobs", .obj [(c!"x", .obj t)])])).isSome
      = true := by decide +kernel
  rw [this] at h2
  cases h2

open ConfigRead Spec.ConfigText Spec.JsonText in
/-- **C79** What holds: each table must have all its mandatory settings, so that one of them misspelled is reported. -/
theorem C79_mandatory_partial (ms t : List (Str × Json)) (names : List Str) (ht : Table ms t names) (n : Str)
    (hn : n ∈ mandatory names) (hmiss : ∀ e ∈ t, e.1 ≠ n) : toConfig (.obj ms) = none := by
  rw [Option.eq_none_iff_forall_ne_some]
  intro c hc
  obtain ⟨h1, h2, h3, h4, h5⟩ := (C78_config _ _).1 hc
  cases ht with
  | top =>
    have : mandatory [c!"version", c!"artefacts", c!"relations", c!"jobs", c!"default_jobs"] =
      [c!"artefacts", c!"relations"] := by decide
    rw [this] at hn
    simp only [List.mem_cons, List.not_mem_nil, or_false] at hn
    rcases hn with rfl | rfl
    · obtain ⟨v, hv, _⟩ := get_required h2; exact hmiss _ hv rfl
    · obtain ⟨v, hv, _⟩ := get_required h3; exact hmiss _ hv rfl
  | artefact hms hvs =>
    obtain ⟨v, hv, hp⟩ := h2
    rw [field_unique hv hms] at hp
    obtain ⟨_, hj, js, hjs, he⟩ := hp
    cases hj; cases hjs
    obtain ⟨a, g1, g2, g3, _⟩ := each_mem he hvs
    have : mandatory [c!"id", c!"paths", c!"parser", c!"ignore_derived_requirements", c!"reference_with_title"] =
      [c!"id", c!"paths", c!"parser"] := by decide
    rw [this] at hn
    simp only [List.mem_cons, List.not_mem_nil, or_false] at hn
    rcases hn with rfl | rfl | rfl
    · obtain ⟨v, hv, _⟩ := get_required g1; exact hmiss _ hv rfl
    · obtain ⟨v, hv, _⟩ := get_required g2; exact hmiss _ hv rfl
    · obtain ⟨v, hv, _⟩ := get_required g3; exact hmiss _ hv rfl
  | relation hms hvs =>
    obtain ⟨v, hv, hp⟩ := h3
    rw [field_unique hv hms] at hp
    obtain ⟨_, hj, js, hjs, he⟩ := hp
    cases hj; cases hjs
    obtain ⟨a, g1, g2⟩ := each_mem he hvs
    have : mandatory [c!"upper", c!"lower"] = [c!"upper", c!"lower"] := by decide
    rw [this] at hn
    simp only [List.mem_cons, List.not_mem_nil, or_false] at hn
    rcases hn with rfl | rfl
    · obtain ⟨v, hv, _⟩ := get_required g1; exact hmiss _ hv rfl
    · obtain ⟨v, hv, _⟩ := get_required g2; exact hmiss _ hv rfl
  | job hms hvs =>
    obtain ⟨v, hv, hp⟩ := h4
    rw [field_unique hv hms] at hp
    generalize c.jobs = o at hp
    cases hp with
    | some hp =>
      obtain ⟨js, as, hjs, he, _⟩ := hp
      cases hjs
      obtain ⟨a, g1, g2, g3, _⟩ := each_mem he (List.mem_map_of_mem hvs)
      have : mandatory [c!"query", c!"format", c!"file", c!"set_return_code"] = [c!"query", c!"format", c!"file"] := by decide
      rw [this] at hn
      simp only [List.mem_cons, List.not_mem_nil, or_false] at hn
      rcases hn with rfl | rfl | rfl
      · obtain ⟨v, hv, _⟩ := get_required g1; exact hmiss _ hv rfl
      · obtain ⟨v, hv, _⟩ := get_required g2; exact hmiss _ hv rfl
      · obtain ⟨v, hv, _⟩ := get_required g3; exact hmiss _ hv rfl

namespace ConfigRead

open JsonRead Spec.ConfigText



theorem lookup_middle {a b : List (Str × Json)} {e : Str × Json} {n : Str} (h : n ≠ e.1) :
    (a ++ e :: b).lookup n = (a ++ b).lookup n := by
  induction a with
  | nil =>
    obtain ⟨k, v⟩ := e
    have : (n == k) = false := by simpa using h
    simp [List.lookup, this]
  | cons x a ih =>
    obtain ⟨k, v⟩ := x
    simp only [List.cons_append, List.lookup, ih]

theorem fields_skip {names : List Str} {a b : List (Str × Json)} {e : Str × Json} (h : e.1 ∉ names) :
    (fields names (.obj (a ++ e :: b)) = none ∧ fields names (.obj (a ++ b)) = none) ∨
    ∃ f f', fields names (.obj (a ++ e :: b)) = some f' ∧ fields names (.obj (a ++ b)) = some f ∧
      ∀ n ∈ names, f' n = f n := by
  have hc : names.all (fun n => (((a ++ e :: b).map Prod.fst).filter (· == n)).length ≤ 1) =
      names.all (fun n => (((a ++ b).map Prod.fst).filter (· == n)).length ≤ 1) := by
    apply Bool.eq_iff_iff.2
    simp only [List.all_eq_true]
    refine forall_congr' fun n => forall_congr' fun hn => ?_
    have : (e.1 == n) = false := by
      simp
      rintro rfl
      exact h hn
    simp [List.filter_cons, this]
  simp only [fields]
  rw [hc]
  split
  · exact .inr ⟨_, _, rfl, rfl, fun n hn => lookup_middle (by rintro rfl; exact h hn)⟩
  · exact .inl ⟨rfl, rfl⟩

theorem fields_replace {names : List Str} {p q : List (Str × Json)} {k : Str} {v v' : Json} :
    (fields names (.obj (p ++ (k, v') :: q)) = none ∧ fields names (.obj (p ++ (k, v) :: q)) = none) ∨
    ∃ f f', fields names (.obj (p ++ (k, v') :: q)) = some f' ∧ fields names (.obj (p ++ (k, v) :: q)) = some f ∧
      (∀ n, n ≠ k → f' n = f n) ∧ (f' k = f k ∨ (f' k = some v' ∧ f k = some v)) := by
  have hc : (p ++ (k, v') :: q).map Prod.fst = (p ++ (k, v) :: q).map Prod.fst := by simp
  simp only [fields]
  rw [hc]
  split
  · refine .inr ⟨_, _, rfl, rfl, fun n hn => ?_, ?_⟩
    · rw [lookup_middle (e := (k, v')) hn, lookup_middle (e := (k, v)) hn]
    · rename_i hall
      clear hc hall
      induction p with
      | nil => exact .inr (by simp)
      | cons x p ih =>
        obtain ⟨k', w⟩ := x
        simp only [List.cons_append, List.lookup]
        split
        · exact .inl rfl
        · exact ih
  · exact .inl ⟨rfl, rfl⟩

theorem all_replace {α : Type} {f : Json → Option α} {xs ys : List Json} {v v' : Json} (h : f v' = f v) :
    JsonRead.all f (xs ++ v' :: ys) = JsonRead.all f (xs ++ v :: ys) := by
  induction xs with
  | nil => simp only [List.nil_append, JsonRead.all, h]
  | cons x xs ih => simp only [List.cons_append, JsonRead.all, ih]

theorem toArtefactConfig_skip {a b : List (Str × Json)} {e : Str × Json}
    (h : e.1 ∉ [c!"id", c!"paths", c!"parser", c!"ignore_derived_requirements", c!"reference_with_title"]) :
    toArtefactConfig (.obj (a ++ e :: b)) = toArtefactConfig (.obj (a ++ b)) := by
  unfold toArtefactConfig
  rcases fields_skip (a := a) (b := b) h with ⟨h1, h2⟩ | ⟨f, f', h1, h2, h3⟩
  · rw [h1, h2]
  · rw [h1, h2]
    simp only [Option.bind_eq_bind, Option.bind_some]
    rw [h3 c!"id" (by simp), h3 c!"paths" (by simp), h3 c!"parser" (by simp),
      h3 c!"ignore_derived_requirements" (by simp), h3 c!"reference_with_title" (by simp)]

theorem toRelation_skip {a b : List (Str × Json)} {e : Str × Json} (h : e.1 ∉ [c!"upper", c!"lower"]) :
    toRelation (.obj (a ++ e :: b)) = toRelation (.obj (a ++ b)) := by
  unfold toRelation
  rcases fields_skip (a := a) (b := b) h with ⟨h1, h2⟩ | ⟨f, f', h1, h2, h3⟩
  · rw [h1, h2]
  · rw [h1, h2]
    simp only [Option.bind_eq_bind, Option.bind_some]
    rw [h3 c!"upper" (by simp), h3 c!"lower" (by simp)]

theorem toJob_skip {a b : List (Str × Json)} {e : Str × Json}
    (h : e.1 ∉ [c!"query", c!"format", c!"file", c!"set_return_code"]) :
    toJob (.obj (a ++ e :: b)) = toJob (.obj (a ++ b)) := by
  unfold toJob
  rcases fields_skip (a := a) (b := b) h with ⟨h1, h2⟩ | ⟨f, f', h1, h2, h3⟩
  · rw [h1, h2]
  · rw [h1, h2]
    simp only [Option.bind_eq_bind, Option.bind_some]
    rw [h3 c!"query" (by simp), h3 c!"format" (by simp), h3 c!"file" (by simp), h3 c!"set_return_code" (by simp)]

end ConfigRead

open ConfigRead JsonRead Spec.ConfigText in
/-- **C79** What happens instead: a name that is no setting is ignored, in each table. -/
theorem C79_ignored_partial (j j' : Json) (h : WithUnknown j j') : toConfig j' = toConfig j := by
  cases h with
  | @top a b e h =>
    unfold toConfig
    rcases fields_skip (a := a) (b := b) h with ⟨h1, h2⟩ | ⟨f, f', h1, h2, h3⟩
    · rw [h1, h2]
    · rw [h1, h2]
      simp only [Option.bind_eq_bind, Option.bind_some]
      rw [h3 c!"version" (by simp), h3 c!"artefacts" (by simp), h3 c!"relations" (by simp), h3 c!"jobs" (by simp),
        h3 c!"default_jobs" (by simp)]
  | @artefact p q xs ys a b e h =>
    unfold toConfig
    rcases fields_replace (names := [c!"version", c!"artefacts", c!"relations", c!"jobs", c!"default_jobs"]) (p := p)
      (q := q) (k := c!"artefacts") (v := .arr (xs ++ .obj (a ++ b) :: ys)) (v' := .arr (xs ++ .obj (a ++ e :: b) :: ys))
      with ⟨h1, h2⟩ | ⟨f, f', h1, h2, h3, h4⟩
    · rw [h1, h2]
    · rw [h1, h2]
      have h5 : required (toVec toArtefactConfig) (f' c!"artefacts") = required (toVec toArtefactConfig) (f c!"artefacts") := by
        rcases h4 with h4 | ⟨h4, h4'⟩
        · rw [h4]
        · rw [h4, h4']
          simp only [required, Option.bind_some, toVec]
          exact all_replace (toArtefactConfig_skip h)
      simp only [Option.bind_eq_bind, Option.bind_some]
      rw [h3 c!"version" (by decide), h5, h3 c!"relations" (by decide), h3 c!"jobs" (by decide),
        h3 c!"default_jobs" (by decide)]
  | @relation p q xs ys a b e h =>
    unfold toConfig
    rcases fields_replace (names := [c!"version", c!"artefacts", c!"relations", c!"jobs", c!"default_jobs"]) (p := p)
      (q := q) (k := c!"relations") (v := .arr (xs ++ .obj (a ++ b) :: ys)) (v' := .arr (xs ++ .obj (a ++ e :: b) :: ys))
      with ⟨h1, h2⟩ | ⟨f, f', h1, h2, h3, h4⟩
    · rw [h1, h2]
    · rw [h1, h2]
      have h5 : required (toVec toRelation) (f' c!"relations") = required (toVec toRelation) (f c!"relations") := by
        rcases h4 with h4 | ⟨h4, h4'⟩
        · rw [h4]
        · rw [h4, h4']
          simp only [required, Option.bind_some, toVec]
          exact all_replace (toRelation_skip h)
      simp only [Option.bind_eq_bind, Option.bind_some]
      rw [h3 c!"version" (by decide), h3 c!"artefacts" (by decide), h5, h3 c!"jobs" (by decide),
        h3 c!"default_jobs" (by decide)]
  | @job p q xs ys k a b e h =>
    unfold toConfig
    rcases fields_replace (names := [c!"version", c!"artefacts", c!"relations", c!"jobs", c!"default_jobs"]) (p := p)
      (q := q) (k := c!"jobs") (v := .obj (xs ++ (k, .obj (a ++ b)) :: ys)) (v' := .obj (xs ++ (k, .obj (a ++ e :: b)) :: ys))
      with ⟨h1, h2⟩ | ⟨f, f', h1, h2, h3, h4⟩
    · rw [h1, h2]
    · rw [h1, h2]
      have h5 : toOpt (toTable toJob) (f' c!"jobs") = toOpt (toTable toJob) (f c!"jobs") := by
        rcases h4 with h4 | ⟨h4, h4'⟩
        · rw [h4]
        · rw [h4, h4']
          simp only [toOpt, toTable, List.map_append, List.map_cons]
          rw [all_replace (toJob_skip h)]
      simp only [Option.bind_eq_bind, Option.bind_some]
      rw [h3 c!"version" (by decide), h3 c!"artefacts" (by decide), h3 c!"relations" (by decide), h5,
        h3 c!"default_jobs" (by decide)]

open ConfigRead Spec.ConfigText in
/-- A misspelled setting of a job. -/
example : WithUnknown
      (.obj ([(c!"artefacts", .arr []), (c!"relations", .arr [])] ++ (c!"jobs", .obj ([] ++ (c!"x", .obj
        ([(c!"query", .str c!"Trace"), (c!"format", .str c!"Json"), (c!"file", .str c!"-")] ++ [])) :: [])) :: []))
      (.obj ([(c!"artefacts", .arr []), (c!"relations", .arr [])] ++ (c!"jobs", .obj ([] ++ (c!"x", .obj
        ([(c!"query", .str c!"Trace"), (c!"format", .str c!"Json"), (c!"file", .str c!"-")] ++
          (c!"set_retrun_code", .bool false) :: [])) :: [])) :: [])) ∧
    (toConfig (.obj [(c!"artefacts", .arr []), (c!"relations", .arr []), (c!"jobs", .obj [(c!"x", .obj
      [(c!"query", .str c!"Trace"), (c!"format", .str c!"Json"), (c!"file", .str c!"-"),
        (c!"set_retrun_code", .bool false)])])])).map (fun c => c.jobs.map (fun js => js.entries)) =
      some (some [(c!"x", { query := .trace, format := .json, file := c!"-", setReturnCode := none })]) :=
  ⟨.job (by decide), by decide +kernel⟩

namespace ConfigRead

/-! ## Example: `requirements.toml` of the project itself -/

namespace Example

def artefactTree (id path parser : Str) (more : List (Str × Json)) : Json :=
  .obj ([(c!"id", .str id), (c!"paths", .arr [.str path]), (c!"parser", .str parser)] ++ more)

def relationTree (upper : Str) (lower : List Str) : Json := .obj [(c!"upper", .str upper), (c!"lower", .arr (lower.map .str))]

def jobTree (query format file : Str) (more : List (Str × Json)) : Json :=
  .obj ([(c!"query", .str query), (c!"format", .str format), (c!"file", .str file)] ++ more)

def ownTree : Json := .obj [
  (c!"default_jobs", .arr [.str c!"check", .str c!"tmx", .str c!"tags"]),
  (c!"artefacts", .arr [
    artefactTree c!"readme" c!"README.md" c!"MonoRequirement" [(c!"ignore_derived_requirements", .bool true)],
    artefactTree c!"requirements" c!"doc/requirements/REQUIREMENTS.md" c!"Markdown" [(c!"ignore_derived_requirements", .bool true)],
    artefactTree c!"architecture" c!"doc/requirements/ARCHITECTURE.md" c!"Markdown" [],
    artefactTree c!"code" c!"src/**/*.rs" c!"Rust" []]),
  (c!"relations", .arr [
    relationTree c!"readme" [c!"requirements"],
    relationTree c!"requirements" [c!"architecture"],
    relationTree c!"architecture" [c!"code"]]),
  (c!"jobs", .obj [
    (c!"tags", jobTree c!"Parse" c!"Tags" c!".tags" [(c!"set_return_code", .bool false)]),
    (c!"check", jobTree c!"Trace" c!"GnuError" c!"-" [])])]

def ownConfig : Config where
  version := none
  artefacts := [
    ⟨c!"readme", [c!"README.md"], .monoRequirement, some true, none⟩,
    ⟨c!"requirements", [c!"doc/requirements/REQUIREMENTS.md"], .markdown, some true, none⟩,
    ⟨c!"architecture", [c!"doc/requirements/ARCHITECTURE.md"], .markdown, none, none⟩,
    ⟨c!"code", [c!"src/**/*.rs"], .rust, none, none⟩]
  relations := [⟨c!"readme", [c!"requirements"]⟩, ⟨c!"requirements", [c!"architecture"]⟩, ⟨c!"architecture", [c!"code"]⟩]
  jobs := some (BMap.ofList [(c!"check", ⟨.trace, .gnuError, c!"-", none⟩), (c!"tags", ⟨.parse, .tags, c!".tags", some false⟩)])
  defaultJobs := some [c!"check", c!"tmx", c!"tags"]

example : toConfig ownTree = some ownConfig := by rfl

/-- Without `relations` the file is refused, and with a version that has more than 32 bits. -/
example : (toConfig (.obj [(c!"artefacts", .arr [])])).isNone ∧
    (toConfig (.obj [(c!"artefacts", .arr []), (c!"relations", .arr []), (c!"version", .num (2^32))])).isNone ∧
    (toConfig (.obj [(c!"artefacts", .arr []), (c!"relations", .arr []), (c!"version", .num 7)])).isSome := by decide +kernel

end Example

open JsonRead in
theorem all_map' {α : Type} {f : Json → Option α} {g : α → Json} (h : ∀ a, f (g a) = some a) :
    ∀ l : List α, all f (l.map g) = some l
  | [] => rfl
  | a :: l => by simp [all, h a, all_map' h l]

open JsonRead in
theorem toVec_strs (l : List Str) : toVec toStr (.arr (l.map .str)) = some l := all_map' (g := .str) (fun _ => rfl) l

theorem unzip_zip {α β : Type} : ∀ l : List (α × β), (l.map Prod.fst).zip (l.map Prod.snd) = l
  | [] => rfl
  | _ :: l => congrArg _ (unzip_zip l)

open JsonRead in
/-- **C78** Every configuration can be written: the document with exactly its settings says it.  (The version is a
number of 32 bits.) -/
theorem C78_written (c : Config) (hv : ∀ v, c.version = some v → v ≤ u32Max) : toConfig (tree c) = some c := by
  obtain ⟨version, artefacts, relations, jobs, defaultJobs⟩ := c
  unfold tree
  extract_lets opt parser query format artefact relation job
  have hp : ∀ p, toParser (parser p) = some p := by intro p; cases p <;> rfl
  have hq : ∀ p, toQuery (query p) = some p := by intro p; cases p <;> rfl
  have hf : ∀ p, toFormat (format p) = some p := by intro p; cases p <;> rfl
  have ha : ∀ a, toArtefactConfig (artefact a) = some a := by
    rintro ⟨id, paths, p, i, r⟩
    have : toArtefactConfig (artefact ⟨id, paths, p, i, r⟩) = (do
      let ps ← toVec toStr (.arr (paths.map .str))
      let q ← toParser (parser p)
      return ⟨id, ps, q, i, r⟩) := by
      cases i <;> cases r <;> rfl
    rw [this, toVec_strs, hp]; rfl
  have hr : ∀ a, toRelation (relation a) = some a := by
    rintro ⟨u, l⟩
    have : toRelation (relation ⟨u, l⟩) = (do
      let ps ← toVec toStr (.arr (l.map .str))
      return ⟨u, ps⟩) := rfl
    rw [this, toVec_strs]; rfl
  have hj : ∀ a, toJob (job a) = some a := by
    rintro ⟨q, f, p, s⟩
    have : toJob (job ⟨q, f, p, s⟩) = (do
      let q ← toQuery (query q)
      let f ← toFormat (format f)
      return ⟨q, f, p, s⟩) := by cases s <;> rfl
    rw [this, hq, hf]; rfl
  have hjs : ∀ m : BMap Str Job, toTable toJob (.obj (m.entries.map fun e => (e.1, job e.2))) = some m := by
    intro m
    have h1 : (m.entries.map fun e => (e.1, job e.2)).map Prod.snd = (m.entries.map Prod.snd).map job := by
      rw [List.map_map, List.map_map]; rfl
    have h2 : (m.entries.map fun e => (e.1, job e.2)).map Prod.fst = m.entries.map Prod.fst := by
      rw [List.map_map]; rfl
    show ((all toJob ((m.entries.map fun e => (e.1, job e.2)).map Prod.snd)).bind fun vs =>
      some (BMap.ofList (((m.entries.map fun e => (e.1, job e.2)).map Prod.fst).zip vs))) = some m
    rw [h1, h2, all_map' hj]
    show some (BMap.ofList ((m.entries.map Prod.fst).zip (m.entries.map Prod.snd))) = some m
    rw [show (m.entries.map Prod.fst).zip (m.entries.map Prod.snd) = m.entries from unzip_zip _, ofList_entries]
  have hu : ∀ v, version = some v → toU32 (.num v) = some v := fun v h => if_pos (hv v h)
  have : toConfig (.obj (opt c!"version" .num version ++ [(c!"artefacts", .arr (artefacts.map artefact)),
    (c!"relations", .arr (relations.map relation))] ++
    opt c!"jobs" (fun m => .obj (m.entries.map fun e => (e.1, job e.2))) jobs ++
    opt c!"default_jobs" (fun l => .arr (l.map .str)) defaultJobs)) = (do
      let v ← toOpt toU32 (version.map .num)
      let as ← toVec toArtefactConfig (.arr (artefacts.map artefact))
      let rs ← toVec toRelation (.arr (relations.map relation))
      let js ← toOpt (toTable toJob) (jobs.map fun m => .obj (m.entries.map fun e => (e.1, job e.2)))
      let ds ← toOpt (toVec toStr) (defaultJobs.map fun l => .arr (l.map .str))
      return ⟨v, as, rs, js, ds⟩) := by
    cases version <;> cases jobs <;> cases defaultJobs <;> rfl
  rw [this, show toVec toArtefactConfig (.arr (artefacts.map artefact)) = _ from all_map' ha _,
    show toVec toRelation (.arr (relations.map relation)) = _ from all_map' hr _,
    show toOpt toU32 (version.map .num) = some version from by
      cases version with
      | none => rfl
      | some v => show (toU32 _).map some = _; rw [hu v rfl]; rfl,
    show toOpt (toTable toJob) _ = some jobs from by
      cases jobs with
      | none => rfl
      | some v => show (toTable toJob _).map some = _; rw [hjs]; rfl,
    show toOpt (toVec toStr) _ = some defaultJobs from by
      cases defaultJobs with
      | none => rfl
      | some v => show (toVec toStr _).map some = _; rw [toVec_strs]; rfl]
  rfl
example : toConfig (tree Example.ownConfig) = some Example.ownConfig := C78_written _ (by decide)

end ConfigRead

end Reqtrace
