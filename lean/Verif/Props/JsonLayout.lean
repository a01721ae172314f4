import Verif.Spec.JsonLayout
import Verif.Props.RustText
import Verif.Props.JsonRead

/-!
# C165: the layout of JSON artefacts
-/

namespace Reqtrace

open Spec

namespace JsonLayout

open Spec.JsonText

/-! ## The relation -/

theorem members_names {ms ms' : List (Str × Json)} (h : SameMembers ms ms') : ms'.map Prod.fst = ms.map Prod.fst := by
  induction ms generalizing ms' with
  | nil => cases h; rfl
  | cons m ms ih => cases h with | cons _ h => simp only [List.map_cons, ih h]

theorem members_perm {xs ns : List (Str × Json)} (h : SameMembers xs ns) {ms : List (Str × Json)} (hp : ns.Perm ms) :
    ∃ xs', xs.Perm xs' ∧ SameMembers xs' ms := by
  induction hp generalizing xs with
  | nil => exact ⟨xs, .refl _, h⟩
  | cons m _ ih =>
    cases h with
    | cons h1 h2 =>
      obtain ⟨xs', h3, h4⟩ := ih h2
      exact ⟨_, h3.cons _, .cons h1 h4⟩
  | swap a b l =>
    cases h with
    | cons h1 h2 =>
      cases h2 with
      | cons h2 h3 => exact ⟨_, .swap _ _ _, .cons h2 (.cons h1 h3)⟩
  | trans _ _ ih1 ih2 =>
    obtain ⟨xs', h3, h4⟩ := ih1 h
    obtain ⟨xs'', h5, h6⟩ := ih2 h4
    exact ⟨xs'', h3.trans h5, h6⟩

mutual
theorem same_symm : {v v' : Json} → Same v v' → Same v' v
  | _, _, .refl _ => .refl _
  | _, _, .array h => .array (items_symm h)
  | _, _, .object h1 h2 h3 => by
    have h4 := members_symm h3
    obtain ⟨xs, h5, h6⟩ := members_perm h4 h2.symm
    refine .object ?_ h5 h6
    rw [members_names h3]
    exact (h2.map _).nodup_iff.1 h1
theorem items_symm : {vs vs' : List Json} → SameItems vs vs' → SameItems vs' vs
  | _, _, .nil => .nil
  | _, _, .cons h hs => .cons (same_symm h) (items_symm hs)
theorem members_symm : {ms ms' : List (Str × Json)} → SameMembers ms ms' → SameMembers ms' ms
  | _, _, .nil => .nil
  | _, _, .cons h hs => .cons (same_symm h) (members_symm hs)
end

/-! ## What is the same means the same -/

/-- A meaning that does not depend on the order of members. -/
def Respects {α : Type} (P : Json → α → Prop) : Prop := ∀ v v' a, Same v v' → P v a → P v' a

theorem text_respects : Respects IsText := by
  intro v v' s h hs
  cases hs
  cases h
  exact rfl

theorem position_respects : Respects IsPosition := by
  have one : ∀ {k : Str} {v : Json} {j : Json}, Same (.obj [(k, v)]) j → ∃ v', j = .obj [(k, v')] ∧ Same v v' := by
    intro k v j h
    cases h with
    | refl => exact ⟨v, rfl, .refl _⟩
    | object _ h2 h3 =>
      cases List.singleton_perm.1 h2
      cases h3 with
      | cons h3 h4 => cases h4; exact ⟨_, rfl, h3⟩
  intro v v' a h ha
  cases ha with
  | line hn => obtain ⟨_, rfl, h'⟩ := one h; cases h'; exact .line hn
  | lineAndColumn hn hk =>
    obtain ⟨_, rfl, h'⟩ := one h
    clear h
    cases h' with
    | refl => exact .lineAndColumn hn hk
    | array h =>
      cases h with
      | cons h1 h =>
        cases h with
        | cons h2 h => cases h; cases h1; cases h2; exact .lineAndColumn hn hk
  | string => obtain ⟨_, rfl, h'⟩ := one h; cases h'; exact .string

theorem array_respects {α : Type} {P : Json → α → Prop} (hP : Respects P) : Respects (IsArray P) := by
  have each : ∀ {vs vs' : List Json} {as : List α}, SameItems vs vs' → Each P vs as → Each P vs' as := by
    intro vs vs' as h he
    induction he generalizing vs' with
    | nil => cases h; exact .nil
    | cons h1 _ ih => cases h with | cons h2 h3 => exact .cons (hP _ _ _ h2 h1) (ih h3)
  rintro v v' as h ⟨js, rfl, he⟩
  cases h with
  | refl => exact ⟨js, rfl, he⟩
  | array h => exact ⟨_, rfl, each h he⟩

theorem short_perm {α : Type} {l l' : List α} (h : l.Perm l') (hl : l.length ≤ 1) : l = l' := by
  match l, hl with
  | [], _ => exact (List.nil_perm.1 h).symm
  | [a], _ => exact (List.singleton_perm.1 h).symm ▸ rfl

theorem nodup_filter {β : Type} {kvs : List (Str × β)} (h : (kvs.map Prod.fst).Nodup) (k : Str) :
    (kvs.filter (fun e => e.1 = k)).length ≤ 1 := by
  induction kvs with
  | nil => simp
  | cons e kvs ih =>
    rw [List.map_cons, List.nodup_cons] at h
    by_cases he : e.1 = k
    · have : kvs.filter (fun e => e.1 = k) = [] := by
        rw [List.filter_eq_nil_iff]
        intro x hx hk
        refine h.1 (List.mem_map.2 ⟨x, hx, ?_⟩)
        have : x.1 = k := by simpa using hk
        rw [this, he]
      rw [List.filter_cons_of_pos (by simpa using he), this]
      simp
    · rw [List.filter_cons_of_neg (by simpa using he)]
      exact ih h.2

theorem map_respects : Respects IsMap := by
  rintro v v' m h ⟨kvs, rfl, hm⟩
  have key : ∀ j, j = Json.obj (kvs.map fun e => (e.1, .str e.2)) → Same j v' → IsMap v' m := by
    intro j hj h
    cases h with
    | refl => exact ⟨kvs, hj, hm⟩
    | array => cases hj
    | @object ms ns ms' h1 h2 h3 =>
      cases hj
      have text : Json → Str := fun j => match j with | .str s => s | _ => []
      let back : Str × Json → Str × Str := fun e => (e.1, match e.2 with | .str s => s | _ => [])
      have hn : ∀ e ∈ ns, e = ((back e).1, Json.str (back e).2) := by
        intro e he
        obtain ⟨x, _, rfl⟩ := List.mem_map.1 (h2.mem_iff.2 he)
        rfl
      have hns : ∀ {ns ms' : List (Str × Json)}, SameMembers ns ms' → (∀ e ∈ ns, e = ((back e).1, Json.str (back e).2)) →
          ms' = (ns.map back).map fun e => (e.1, .str e.2) := by
        intro ns
        induction ns with
        | nil => intro ms' h _; cases h; rfl
        | cons e ns ih =>
          intro ms' h hb
          cases h with
          | @cons k v v' _ ms' hv h =>
            rw [ih h fun e he => hb e (.tail _ he)]
            have := hb _ (.head _)
            have hv' : v = .str (back (k, v)).2 := congrArg Prod.snd this
            rw [hv'] at hv
            cases hv
            simp only [List.map_cons]
            rw [← hv']
      have hp : kvs.Perm (ns.map back) := by
        have := h2.map back
        rw [List.map_map] at this
        have e : back ∘ (fun e : Str × Str => (e.1, Json.str e.2)) = id := by funext x; rfl
        rwa [e, List.map_id] at this
      refine ⟨ns.map back, by rw [hns h3 hn], fun k => ?_⟩
      rw [hm k]
      rw [List.map_map] at h1
      have h1' : (kvs.map Prod.fst).Nodup := h1
      rw [short_perm (hp.filter (fun e => decide (e.1 = k))) (nodup_filter h1' k)]
  exact key _ rfl h

theorem member_of {ms ms' : List (Str × Json)} (h : SameMembers ms ms') {n : Str} {v : Json} (hm : (n, v) ∈ ms) :
    ∃ v', (n, v') ∈ ms' ∧ Same v v' := by
  induction ms generalizing ms' with
  | nil => cases hm
  | cons e ms ih =>
    cases h with
    | @cons k w w' _ ms' hw h =>
      rcases List.mem_cons.1 hm with hm | hm
      · cases hm; exact ⟨w', .head _, hw⟩
      · obtain ⟨v', h1, h2⟩ := ih h hm
        exact ⟨v', .tail _ h1, h2⟩

theorem field_same {names : List Str} {j j' : Json} {n : Str} {v : Option Json} (h : Same j j') (hf : Field names j n v) :
    ∃ v', Field names j' n v' ∧ (v = none ∧ v' = none ∨ ∃ x x', v = some x ∧ v' = some x' ∧ Same x x') := by
  have refl : ∀ v : Option Json, v = none ∧ v = none ∨ ∃ x x', v = some x ∧ v = some x' ∧ Same x x' := by
    intro v
    cases v with
    | none => exact .inl ⟨rfl, rfl⟩
    | some x => exact .inr ⟨x, x, rfl, rfl, .refl _⟩
  cases h with
  | refl => exact ⟨v, hf, refl v⟩
  | @array vs vs' h =>
    cases hf with
    | @item _ i _ x hl hi hv =>
      have hlen : ∀ {vs vs' : List Json}, SameItems vs vs' → vs'.length = vs.length := by
        intro vs
        induction vs with
        | nil => intro vs' h; cases h; rfl
        | cons v vs ih => intro vs' h; cases h with | cons _ h => simp [ih h]
      have hget : ∀ {vs vs' : List Json} {i : Nat} {x : Json}, SameItems vs vs' → vs[i]? = some x →
          ∃ x', vs'[i]? = some x' ∧ Same x x' := by
        intro vs
        induction vs with
        | nil => intro vs' i x _ h; simp at h
        | cons v vs ih =>
          intro vs' i x h hi
          cases h with
          | @cons _ v' _ vs' hv h =>
            cases i with
            | zero => simp at hi; subst hi; exact ⟨v', by simp, hv⟩
            | succ i => simpa using ih h (by simpa using hi)
      obtain ⟨x', h1, h2⟩ := hget h hv
      exact ⟨some x', .item (by rw [hlen h, hl]) hi h1, .inr ⟨x, x', rfl, rfl, h2⟩⟩
  | @object ms ns ms' h1 h2 h3 =>
    have hn := members_names h3
    cases hf with
    | missing hm =>
      refine ⟨none, .missing fun m hm' he => ?_, .inl ⟨rfl, rfl⟩⟩
      have : n ∈ ms'.map Prod.fst := List.mem_map.2 ⟨m, hm', he⟩
      rw [hn] at this
      obtain ⟨x, hx, hxn⟩ := List.mem_map.1 this
      exact hm x (h2.mem_iff.2 hx) hxn
    | @member a _ x b ha hb =>
      obtain ⟨x', h4, h5⟩ := member_of h3 (h2.mem_iff.1 (List.mem_append.2 (.inr (.head b))) : (n, x) ∈ ns)
      obtain ⟨a', b', rfl⟩ := List.append_of_mem h4
      have hd : ((a' ++ (n, x') :: b').map Prod.fst).Nodup := by
        rw [hn]
        exact (h2.map _).nodup_iff.1 h1
      rw [List.map_append, List.map_cons, List.nodup_append] at hd
      obtain ⟨_, hd2, hd3⟩ := hd
      rw [List.nodup_cons] at hd2
      refine ⟨some x', .member (fun m hm he => ?_) (fun m hm he => ?_), .inr ⟨x, x', rfl, rfl, h5⟩⟩
      · exact hd3 m.1 (List.mem_map.2 ⟨m, hm, rfl⟩) n (.head _) he
      · exact hd2.1 (List.mem_map.2 ⟨m, hm, he⟩)

theorem get_required {α : Type} {P : Json → α → Prop} (hP : Respects P) {names : List Str} {j j' : Json} {n : Str} {a : α}
    (h : Same j j') (hg : Get names j n (Required P) a) : Get names j' n (Required P) a := by
  obtain ⟨v, hf, x, rfl, hx⟩ := hg
  obtain ⟨v', hf', ⟨h1, -⟩ | ⟨y, y', h1, rfl, h2⟩⟩ := field_same h hf
  · cases h1
  · cases h1
    exact ⟨_, hf', y', rfl, hP _ _ _ h2 hx⟩

theorem get_optional {α : Type} {P : Json → α → Prop} (hP : Respects P) {names : List Str} {j j' : Json} {n : Str}
    {a : Option α} (h : Same j j') (hg : Get names j n (Optional P) a) : Get names j' n (Optional P) a := by
  obtain ⟨v, hf, hx⟩ := hg
  obtain ⟨v', hf', ⟨rfl, rfl⟩ | ⟨y, y', rfl, rfl, h2⟩⟩ := field_same h hf
  · exact ⟨_, hf', hx⟩
  · refine ⟨_, hf', ?_⟩
    cases hx with
    | null => cases h2; exact .null
    | some hx => exact .some (hP _ _ _ h2 hx)

theorem location_respects : Respects IsLocation := fun _ _ _ h ⟨h1, h2⟩ =>
  ⟨get_required text_respects h h1, get_optional position_respects h h2⟩

theorem reference_respects : Respects IsReference := fun _ _ _ h ⟨h1, h2, h3⟩ =>
  ⟨get_required text_respects h h1, get_optional text_respects h h2, get_required location_respects h h3⟩

theorem requirement_respects : Respects IsRequirement := fun _ _ _ h ⟨h1, h2, h3, h4, h5, h6, h7⟩ =>
  ⟨get_required text_respects h h1, get_optional text_respects h h2, get_required location_respects h h3,
   get_required (array_respects reference_respects) h h4, get_required (array_respects reference_respects) h h5,
   get_required (array_respects text_respects) h h6, get_required map_respects h h7⟩

/-! ## Files -/

theorem jsonFile_rewritten {t t' : Str} (h : Rewritten t t') (reqs : List Requirement) :
    JsonFile ⟨Utf8.encode t, none⟩ reqs ↔ JsonFile ⟨Utf8.encode t', none⟩ reqs := by
  have key : ∀ {t t' : Str} {v v' : Json}, Document t v → Document t' v' → Same v v' →
      JsonFile ⟨Utf8.encode t, none⟩ reqs → JsonFile ⟨Utf8.encode t', none⟩ reqs := by
    rintro t t' v v' h1 h2 h3 ⟨t1, v1, e, h4, h5⟩
    have : t1 = t := (Utf8.encode_injective (by simpa using e)).symm
    subst this
    have : v1 = v := by
      have a := (JsonRead.document_iff _ _).2 h4
      have b := (JsonRead.document_iff _ _).2 h1
      rw [a] at b
      exact Option.some.inj b
    subst this
    exact ⟨t', v', rfl, h2, array_respects requirement_respects _ _ _ h3 h5⟩
  obtain ⟨v, v', h1, h2, h3⟩ := h
  exact ⟨key h1 h2 h3, key h2 h1 (same_symm h3)⟩

theorem fromReader_iff (errText t : Str) (reqs : List Requirement) :
    JsonRead.fromReader errText ⟨t, none⟩ = .ok reqs ↔ JsonFile ⟨Utf8.encode t, none⟩ reqs := by
  rw [C77_accepted]
  constructor
  · rintro ⟨-, v, h⟩
    exact ⟨t, v, rfl, h⟩
  · rintro ⟨t', v, e, h⟩
    have : t' = t := (Utf8.encode_injective (by simpa using e)).symm
    subst this
    exact ⟨rfl, v, h⟩

/-- **C165** White space, escapes and the order of the members make no difference to the requirements a JSON file gives,
nor to whether it is accepted. -/
theorem C165_file (errText : Str) {t t' : Str} (h : Rewritten t t') (reqs : List Requirement) :
    JsonRead.fromReader errText ⟨t, none⟩ = .ok reqs ↔ JsonRead.fromReader errText ⟨t', none⟩ = .ok reqs := by
  rw [fromReader_iff, fromReader_iff]
  exact jsonFile_rewritten h reqs

/-- **C165** So a file with such a text says the same, places included. -/
theorem C165_path {env : Env} {w w' : World} {p q : Path} {t t' : Str}
    (ho : env.os.openFile w p = .ok ⟨Utf8.encode t, none⟩) (ho' : env.os.openFile w' q = .ok ⟨Utf8.encode t', none⟩)
    (h : Rewritten t t') (reqs : List Requirement) :
    PathMeans env w .json p reqs [] ↔ PathMeans env w' .json q reqs [] := by
  have key : ∀ {w : World} {p : Path} {t : Str}, env.os.openFile w p = .ok ⟨Utf8.encode t, none⟩ →
      (PathMeans env w .json p reqs [] ↔ JsonFile ⟨Utf8.encode t, none⟩ reqs) := by
    intro w p t ho
    constructor
    · intro hm
      cases hm with
      | opened h hm =>
        rw [ho] at h
        cases h
        cases hm with
        | json h => exact h
    · intro h
      exact .opened ho (.json h)
  rw [key ho, key ho', jsonFile_rewritten h]

theorem file_rewritten {env : Env} {w w' : World} {parser : ArtefactParser} {p q : Path}
    (h : FileRewritten env w w' parser p q) : PathRenamed id env w w' parser p q := by
  cases h with
  | same ho hn hm => exact RustText.file_same ho hn hm
  | json ho ho' hj hr =>
    have h1 : PathMeans env w .json p _ [] := .opened ho (.json hj)
    exact RustText.path_same h1 ((C165_path ho ho' hr _).1 h1) rfl rfl

/-- **C165** The layout of JSON artefacts does not matter for what is found, but for the places. -/
theorem C165_project {env : Env} {w w' : World} {base base' : Path} {config config' : Config}
    (hm : ProjectFilewise (FileRewritten env w w') env w w' base base' config config') {c : Controller}
    (h : Controller.new env w config base = .ok c) :
    ∃ c', Controller.new env w' config' base' = .ok c' ∧ ArtefactsRenamed id c.graph.artefacts c'.graph.artefacts ∧
      ResultRenamed id c.tracedGraph c'.tracedGraph :=
  C150_project (RustText.filewise_same (fun _ _ _ => file_rewritten) hm) h

/-- **C165** The layout of JSON artefacts does not matter for the exit status. -/
theorem C165_exit {env : Env} {w w' : World} {opt opt' : Arguments} {config config' : Config}
    (hm : ProjectFilewise (FileRewritten env w w') env w w' opt.baseDir opt'.baseDir config config')
    (hj : opt.jobs = opt'.jobs) (hg : GoodConfig env w opt.configFile config)
    (hg' : GoodConfig env w' opt'.configFile config') (h : (Main.main env opt w).1 ≤ 1)
    (h' : (Main.main env opt' w').1 ≤ 1) : (Main.main env opt w).1 = (Main.main env opt' w').1 :=
  C150_exit (RustText.filewise_same (fun _ _ _ => file_rewritten) hm) hj hg hg' h h'

/-! ## Members with other names -/

theorem field_iff {names : List Str} {ms : List (Str × Json)} {n : Str} {x : Option Json} :
    Field names (.obj ms) n x ↔ ms.filter (fun m => m.1 = n) = (x.map (fun v => (n, v))).toList := by
  constructor
  · intro h
    cases h with
    | missing h =>
      simp only [Option.map_none, Option.toList_none, List.filter_eq_nil_iff, decide_eq_true_eq]
      exact h
    | @member a _ v b ha hb =>
      have ha' : a.filter (fun m => m.1 = n) = [] := by
        simp only [List.filter_eq_nil_iff, decide_eq_true_eq]; exact ha
      have hb' : b.filter (fun m => m.1 = n) = [] := by
        simp only [List.filter_eq_nil_iff, decide_eq_true_eq]; exact hb
      rw [List.filter_append, ha', List.filter_cons_of_pos (by simp), hb']
      rfl
  · intro h
    cases x with
    | none =>
      simp only [Option.map_none, Option.toList_none, List.filter_eq_nil_iff, decide_eq_true_eq] at h
      exact .missing h
    | some v =>
      simp only [Option.map_some, Option.toList_some] at h
      obtain ⟨a, b, rfl, h1, -, h3⟩ := List.filter_eq_cons_iff.1 h
      simp only [List.filter_eq_nil_iff, decide_eq_true_eq] at h1 h3
      exact .member h1 h3

theorem field_unknown {names : List Str} {a b : List (Str × Json)} {k : Str} {v : Json} {n : Str} (hn : n ≠ k)
    {x : Option Json} : Field names (.obj (a ++ (k, v) :: b)) n x ↔ Field names (.obj (a ++ b)) n x := by
  rw [field_iff, field_iff, List.filter_append, List.filter_cons_of_neg (by simpa using Ne.symm hn), ← List.filter_append]

theorem get_unknown {β : Type} {names : List Str} {a b : List (Str × Json)} {k : Str} {v : Json} {n : Str} (hn : n ≠ k)
    {P : Option Json → β → Prop} {x : β} : Get names (.obj (a ++ (k, v) :: b)) n P x ↔ Get names (.obj (a ++ b)) n P x := by
  unfold Get
  simp only [field_unknown hn]

/-- **C165** Members with other names than the fields of requirements, references and locations do not matter. -/
theorem C165_unknown (a b : List (Str × Json)) (k : Str) (v : Json) :
    (k ∉ requirementNames → ∀ r, IsRequirement (.obj (a ++ (k, v) :: b)) r ↔ IsRequirement (.obj (a ++ b)) r) ∧
    (k ∉ referenceNames → ∀ r, IsReference (.obj (a ++ (k, v) :: b)) r ↔ IsReference (.obj (a ++ b)) r) ∧
    (k ∉ locationNames → ∀ l, IsLocation (.obj (a ++ (k, v) :: b)) l ↔ IsLocation (.obj (a ++ b)) l) := by
  refine ⟨fun hk r => ?_, fun hk r => ?_, fun hk l => ?_⟩
  · simp only [requirementNames, List.mem_cons, List.not_mem_nil, or_false, not_or] at hk
    obtain ⟨h1, h2, h3, h4, h5, h6, h7⟩ := hk
    unfold JsonText.IsRequirement
    simp only [get_unknown (Ne.symm h1), get_unknown (Ne.symm h2), get_unknown (Ne.symm h3), get_unknown (Ne.symm h4),
      get_unknown (Ne.symm h5), get_unknown (Ne.symm h6), get_unknown (Ne.symm h7)]
  · simp only [referenceNames, List.mem_cons, List.not_mem_nil, or_false, not_or] at hk
    obtain ⟨h1, h2, h3⟩ := hk
    unfold JsonText.IsReference
    simp only [get_unknown (Ne.symm h1), get_unknown (Ne.symm h2), get_unknown (Ne.symm h3)]
  · simp only [locationNames, List.mem_cons, List.not_mem_nil, or_false, not_or] at hk
    obtain ⟨h1, h2⟩ := hk
    unfold JsonText.IsLocation
    simp only [get_unknown (Ne.symm h1), get_unknown (Ne.symm h2)]

theorem fromReader_some {errText t : Str} {v : Json} (h : Document t v) (reqs : List Requirement) :
    JsonRead.fromReader errText ⟨t, none⟩ = .ok reqs ↔ IsArray IsRequirement v reqs := by
  rw [C77_accepted]
  constructor
  · rintro ⟨-, v', h1, h2⟩
    have a := (JsonRead.document_iff _ _).2 h1
    have b := (JsonRead.document_iff _ _).2 h
    rw [a] at b
    cases b
    exact h2
  · exact fun h' => ⟨rfl, v, h, h'⟩

theorem each_middle {R : Json → Requirement → Prop} {x y : Json} (h : ∀ r, R x r ↔ R y r) (l l' : List Json) :
    ∀ rs, Each R (l ++ x :: l') rs → Each R (l ++ y :: l') rs := by
  induction l with
  | nil =>
    intro rs hp
    cases hp with
    | cons hx hp => exact .cons ((h _).1 hx) hp
  | cons a l ih =>
    intro rs hp
    cases hp with
    | cons hx hp => exact .cons hx (ih _ hp)

/-- **C165** In a file with a further member in one of the requirements, with a name that requirements do not have, the
member makes no difference. -/
theorem C165_member (errText : Str) {t t' : Str} {l l' : List Json} {a b : List (Str × Json)} {k : Str} {v : Json}
    (hk : k ∉ requirementNames) (h : Document t (.arr (l ++ .obj (a ++ (k, v) :: b) :: l')))
    (h' : Document t' (.arr (l ++ .obj (a ++ b) :: l'))) (reqs : List Requirement) :
    JsonRead.fromReader errText ⟨t, none⟩ = .ok reqs ↔ JsonRead.fromReader errText ⟨t', none⟩ = .ok reqs := by
  rw [fromReader_some h, fromReader_some h']
  have hi := (C165_unknown a b k v).1 hk
  constructor
  · rintro ⟨js, e, h⟩
    cases e
    exact ⟨_, rfl, each_middle hi l l' _ h⟩
  · rintro ⟨js, e, h⟩
    cases e
    exact ⟨_, rfl, each_middle (fun r => (hi r).symm) l l' _ h⟩

end JsonLayout

namespace JsonLayoutExample

open CtrlExample JsonLayout Spec.JsonText

/-- A requirement as an export writes it, -/
def plain : Str := c!"[
  {
    \"id\": \"LOW_A\",
    \"title\": null,
    \"location\": {\"file\": \"low.txt\", \"location_in_file\": {\"LineAndColumn\": [3, 4]}},
    \"covers\": [{\"id\": \"REQ_A\", \"title\": null, \"location\": {\"file\": \"low.txt\", \"location_in_file\": null}}],
    \"depends\": [],
    \"tags\": [],
    \"attributes\": {\"Comment\": \"c\", \"Note\": \"n\"}
  }
]
"

/-- and as another tool does. -/
def dense : Str := c!"[{\"attributes\":{\"Note\":\"\\u006e\",\"Comment\":\"c\"},\"covers\":[{\"id\":\"REQ_A\",\"location\":{\"location_in_file\":null,\"file\":\"low.txt\"},\"title\":null}],\"depends\":[],\"id\":\"LOW_A\",\"location\":{\"file\":\"low.txt\",\"location_in_file\":{\"LineAndColumn\":[3,4]}},\"tags\":[],\"title\":null}]"

def refLocation : List (Str × Json) := [(c!"file", .str c!"low.txt"), (c!"location_in_file", .null)]
def reqLocation : Json := .obj [(c!"file", .str c!"low.txt"),
  (c!"location_in_file", .obj [(c!"LineAndColumn", .arr [.num 3, .num 4])])]
def reference : List (Str × Json) := [(c!"id", .str c!"REQ_A"), (c!"title", .null), (c!"location", .obj refLocation)]
def reference' : List (Str × Json) := [(c!"id", .str c!"REQ_A"), (c!"location", .obj refLocation.reverse), (c!"title", .null)]
def attributes : List (Str × Json) := [(c!"Comment", .str c!"c"), (c!"Note", .str c!"n")]
def members : List (Str × Json) := [(c!"id", .str c!"LOW_A"), (c!"title", .null), (c!"location", reqLocation),
  (c!"covers", .arr [.obj reference]), (c!"depends", .arr []), (c!"tags", .arr []), (c!"attributes", .obj attributes)]
def sorted : List (Str × Json) := [(c!"attributes", .obj attributes), (c!"covers", .arr [.obj reference]), (c!"depends", .arr []),
  (c!"id", .str c!"LOW_A"), (c!"location", reqLocation), (c!"tags", .arr []), (c!"title", .null)]
def members' : List (Str × Json) := [(c!"attributes", .obj attributes.reverse), (c!"covers", .arr [.obj reference']), (c!"depends", .arr []),
  (c!"id", .str c!"LOW_A"), (c!"location", reqLocation), (c!"tags", .arr []), (c!"title", .null)]

theorem attributes_same : Same (.obj attributes) (.obj attributes.reverse) :=
  .object (ns := attributes.reverse) (by decide) (List.reverse_perm _).symm (.cons (.refl _) (.cons (.refl _) .nil))

theorem reference_same : Same (.obj reference) (.obj reference') := by
  refine .object (ns := [(c!"id", .str c!"REQ_A"), (c!"location", .obj refLocation), (c!"title", .null)]) (by decide)
    (.cons _ (.swap _ _ _)) (.cons (.refl _) (.cons ?_ (.cons (.refl _) .nil)))
  exact .object (ns := refLocation.reverse) (by decide) (List.reverse_perm _).symm (.cons (.refl _) (.cons (.refl _) .nil))

set_option maxRecDepth 100000 in
theorem plain_dense : Rewritten plain dense := by
  refine ⟨.arr [.obj members], .arr [.obj members'], (JsonRead.document_iff _ _).1 (by with_unfolding_all rfl),
    (JsonRead.document_iff _ _).1 (by with_unfolding_all rfl), .array (.cons ?_ .nil)⟩
  have hp : members.Perm sorted := by
    refine .trans (List.perm_append_comm (l₁ := members.take 6) (l₂ := members.drop 6)) (.cons _ ?_)
    refine .trans (List.perm_append_comm (l₁ := members.take 3) (l₂ := (members.drop 3).take 3)) (.cons _ (.cons _ ?_))
    exact .trans (List.perm_append_comm (l₁ := [_]) (l₂ := (members.take 3))) (.cons _ (.trans (.swap _ _ _) (.cons _ (.swap _ _ _))))
  exact .object (ns := sorted) (by decide +kernel) hp (.cons attributes_same (.cons (.array (.cons reference_same .nil))
    (.cons (.refl _) (.cons (.refl _) (.cons (.refl _) (.cons (.refl _) (.cons (.refl _) .nil)))))))

def req : Requirement :=
  { id := c!"LOW_A", title := none, location := ⟨c!"low.txt", some (.lineAndColumn 3 4)⟩,
    covers := [⟨c!"REQ_A", none, ⟨c!"low.txt", none⟩⟩], depends := [], tags := [],
    attributes := BMap.ofList [(c!"Comment", c!"c"), (c!"Note", c!"n")] }

theorem plain_says : JsonFile ⟨Utf8.encode plain, none⟩ [req] := by
  obtain ⟨-, v, h1, h2⟩ := (C77_accepted c!"e" { text := plain, failure := none } [req]).1 (by decide +kernel)
  exact ⟨plain, v, rfl, h1, h2⟩

/-- The requirement with a further member -/
def more : Str := c!"[{\"attributes\":{\"Note\":\"n\",\"Comment\":\"c\"},\"covers\":[{\"id\":\"REQ_A\",\"location\":{\"location_in_file\":null,\"file\":\"low.txt\"},\"title\":null}],\"since\":[1,{}],\"depends\":[],\"id\":\"LOW_A\",\"location\":{\"file\":\"low.txt\",\"location_in_file\":{\"LineAndColumn\":[3,4]}},\"tags\":[],\"title\":null}]"

set_option maxRecDepth 100000 in
example : JsonRead.fromReader c!"e" ⟨more, none⟩ = .ok [req] :=
  (C165_member c!"e" (l := []) (l' := []) (a := members'.take 2) (b := members'.drop 2) (k := c!"since")
    (v := .arr [.num 1, .obj []]) (by decide) ((JsonRead.document_iff _ _).1 (by with_unfolding_all rfl))
    ((JsonRead.document_iff dense _).1 (by with_unfolding_all rfl)) [req]).2
    ((C165_file c!"e" plain_dense [req]).1 (by decide +kernel))

/-- Reordering the members of an object with a name twice could change which one counts. -/
example : JsonRead.toMap (.obj [(c!"a", .str c!"1"), (c!"a", .str c!"2")]) ≠
    JsonRead.toMap (.obj [(c!"a", .str c!"2"), (c!"a", .str c!"1")]) := by decide +kernel

def conf : Config := { config with
  artefacts := [requirements, ⟨c!"LOW", [c!"low.json"], .json, none, none⟩], relations := [⟨c!"REQ", [c!"LOW"]⟩] }

def e : Env := env .nil conf

def withJson (t : Str) : List (Path × Str) := [
  (c!"p/req.md", c!"# REQ_A: title a\n# REQ_A: again\n# REQ_B: title b\n"), (c!"p/low.json", t), (c!"requirements.toml", c!"...")]

theorem project_rewritten : ProjectFilewise (FileRewritten e (world (withJson plain)) (world (withJson dense))) e
    (world (withJson plain)) (world (withJson dense)) c!"p" c!"p" conf conf := by
  refine ⟨rfl, rfl, rfl, .cons ⟨rfl, rfl, rfl, rfl, [c!"p/req.md"], [c!"p/req.md"], ?_, ?_, ?_⟩ <|
    .cons ⟨rfl, rfl, rfl, rfl, [c!"p/low.json"], [c!"p/low.json"], ?_, ?_, ?_⟩ .nil⟩
  · exact .inr ⟨by decide, c!"req.md", rfl, by decide⟩
  · exact .inr ⟨by decide, c!"req.md", rfl, by decide⟩
  · obtain ⟨_, _, _, _, h, _⟩ := C150_markdown (f := RenamedExample.f) (env := e) RenamedExample.markdown_renamed
    exact .cons (.same (by decide +kernel) (fun h => by cases h) (.opened (by decide +kernel) h)) .nil
  · exact .inr ⟨by decide, c!"low.json", rfl, by decide⟩
  · exact .inr ⟨by decide, c!"low.json", rfl, by decide⟩
  · exact .cons (.json (by decide +kernel) (by decide +kernel) plain_says plain_dense) .nil

example : (Main.main e args (world (withJson plain))).1 = 1 ∧ (Main.main e args (world (withJson dense))).1 = 1 ∧
    (Controller.new e (world (withJson dense)) conf c!"p").toOption.map (fun c => c.tracedGraph.tracedRelations.map coverTriples) =
      some [[(c!"REQ_A", c!"LOW_A", .upwards)]] := by decide +kernel

end JsonLayoutExample

end Reqtrace
