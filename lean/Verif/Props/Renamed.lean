import Verif.Props.Moved
import Verif.Props.Meta2
import Verif.Props.Reimport
import Verif.Spec.Renamed

/-!
# C150: other ids for the requirements, in all texts
-/

namespace Reqtrace

open Spec

/-! ## Lists -/

namespace Ren

theorem pairs_length {α β : Type} {P : α → β → Prop} {as : List α} {bs : List β} (h : Pairs P as bs) :
    as.length = bs.length := by
  induction h with
  | nil => rfl
  | cons _ _ ih => simp [ih]

theorem pairs_append {α β : Type} {P : α → β → Prop} {as cs : List α} {bs ds : List β} (h : Pairs P as bs)
    (h' : Pairs P cs ds) : Pairs P (as ++ cs) (bs ++ ds) := by
  induction h with
  | nil => exact h'
  | cons h1 _ ih => exact .cons h1 ih

theorem pairs_map_eq {α β γ : Type} {P : α → β → Prop} {f : α → γ} {g : β → γ} (hP : ∀ a b, P a b → g b = f a)
    {as : List α} {bs : List β} (h : Pairs P as bs) : bs.map g = as.map f := by
  induction h with
  | nil => rfl
  | cons h1 _ ih => simp [hP _ _ h1, ih]

theorem pairs_filter {α β : Type} {P : α → β → Prop} {p : α → Bool} {q : β → Bool} (hP : ∀ a b, P a b → q b = p a)
    {as : List α} {bs : List β} (h : Pairs P as bs) : Pairs P (as.filter p) (bs.filter q) := by
  induction h with
  | nil => exact .nil
  | @cons a b _ _ h1 _ ih =>
    rw [List.filter_cons, List.filter_cons, hP _ _ h1]
    split
    · exact .cons h1 ih
    · exact ih

theorem pairs_getLast {α β : Type} {P : α → β → Prop} {as : List α} {bs : List β} (h : Pairs P as bs) :
    (as.getLast? = none ∧ bs.getLast? = none) ∨ ∃ a b, as.getLast? = some a ∧ bs.getLast? = some b ∧ P a b := by
  induction h with
  | nil => exact .inl ⟨rfl, rfl⟩
  | @cons a b as bs h1 h2 ih =>
    right
    rw [List.getLast?_cons, List.getLast?_cons]
    rcases ih with ⟨e1, e2⟩ | ⟨x, y, e1, e2, h⟩
    · exact ⟨a, b, by rw [e1]; rfl, by rw [e2]; rfl, h1⟩
    · exact ⟨x, y, by rw [e1]; rfl, by rw [e2]; rfl, h⟩

theorem pairs_mono {α β : Type} {P Q : α → β → Prop} (hPQ : ∀ a b, P a b → Q a b) {as : List α} {bs : List β}
    (h : Pairs P as bs) : Pairs Q as bs := by
  induction h with
  | nil => exact .nil
  | cons h1 _ ih => exact .cons (hPQ _ _ h1) ih

variable {f : RequirementId → RequirementId}

theorem refs_forget {rs rs' : List Reference} (h : Pairs (RefRenamed f) rs rs') :
    rs'.map (moveRef nowhere) = (rs.map (renamedRef f)).map (moveRef nowhere) := by
  rw [List.map_map]
  exact pairs_map_eq (fun a b h => by
    obtain ⟨i, t, l⟩ := a; obtain ⟨i', t', l'⟩ := b
    obtain ⟨h1, h2⟩ := h
    simp only at h1 h2
    subst h1 h2
    rfl) h

/-! ## Markdown -/

theorem lastOf_renamed {as as' : List Attr} (h : Pairs (AttrRenamed f) as as') (name : Str) :
    (lastOf as name = none ∧ lastOf as' name = none) ∨
      ∃ v v', lastOf as name = some v ∧ lastOf as' name = some v' ∧ ValueRenamed f v v' := by
  have := pairs_getLast (pairs_filter (p := fun a => a.name = name) (q := fun a => a.name = name)
    (fun a b h => by simp [h.1]) h)
  unfold lastOf
  rcases this with ⟨e1, e2⟩ | ⟨x, y, e1, e2, h⟩
  · exact .inl ⟨by rw [e1]; rfl, by rw [e2]; rfl⟩
  · exact .inr ⟨x.value, y.value, by rw [e1]; rfl, by rw [e2]; rfl, h.2⟩

theorem given_renamed {as as' : List Attr} (h : Pairs (AttrRenamed f) as as') (name : Str) :
    alreadyGiven as' name = alreadyGiven as name := by
  unfold alreadyGiven
  rcases lastOf_renamed h name with ⟨e1, e2⟩ | ⟨v, v', e1, e2, h⟩
  · rw [e1, e2]
  · rw [e1, e2]
    cases h with
    | text => rfl
    | @refs rs rs' h =>
      have := pairs_length h
      cases rs <;> cases rs' <;> simp_all

theorem repeated_renamed (p q : Path) (id : Str) {as as' : List Attr} (h : Pairs (AttrRenamed f) as as') :
    ∀ {before before' : List Attr}, Pairs (AttrRenamed f) before before' →
    (repeated q (f id) before' as').map forgetError =
      (repeated p id before as).map (fun e => forgetError (renamedProblem f e)) := by
  induction h with
  | nil => intro _ _ _; rfl
  | @cons a a' as as' h1 _ ih =>
    intro before before' hb
    unfold repeated
    rw [List.map_append, List.map_append, ih (pairs_append hb (.cons h1 .nil)), h1.1, given_renamed hb]
    congr 1
    split <;> rfl

theorem cut_renamed (p q : Path) {c c' : Cut} (h : SameCut c c') :
    (cutError q c').map forgetError = (cutError p c).map (fun e => forgetError (renamedProblem f e)) := by
  cases h <;> rfl

theorem sectionErrors_renamed (p q : Path) {ss ss' : List Section} (h : Pairs (SectionRenamed f) ss ss') :
    (ss'.flatMap (Section.errors q)).map forgetError =
      (ss.flatMap (Section.errors p)).map (fun e => forgetError (renamedProblem f e)) := by
  induction h with
  | nil => rfl
  | cons h1 _ ih =>
    rw [List.flatMap_cons, List.flatMap_cons, List.map_append, List.map_append, ih]
    congr 1
    unfold Section.errors
    rw [List.map_append, List.map_append, cut_renamed p q h1.cut, h1.id, repeated_renamed p q _ h1.attrs .nil]

theorem documentErrors_renamed (p q : Path) (failure : Option Str) {ss ss' : List Section}
    (h : Pairs (SectionRenamed f) ss ss') : (documentErrors q failure ss').map forgetError =
      (documentErrors p failure ss).map (fun e => forgetError (renamedProblem f e)) := by
  unfold documentErrors
  rw [List.map_append, List.map_append, sectionErrors_renamed p q h]
  congr 1
  cases failure <;> rfl

theorem kept_renamed (failure : Option Str) {ss ss' : List Section} (h : Pairs (SectionRenamed f) ss ss') :
    Pairs (SectionRenamed f) (kept failure ss) (kept failure ss') := by
  induction h with
  | nil => exact .nil
  | @cons a b _ _ h1 h2 ih =>
    cases h2 with
    | nil =>
      unfold kept
      have hc := h1.cut
      clear ih
      have : ∀ {c c' : Cut}, SameCut c c' →
          Pairs (SectionRenamed f) (match failure, c with | none, .no => [a] | _, _ => [])
            (match failure, c' with | none, .no => [b] | _, _ => []) := by
        intro c c' h
        cases h <;> cases failure <;> first | exact .nil | exact .cons h1 .nil
      exact this hc
    | cons h3 h4 => exact .cons h1 ih

theorem requirement_renamed {p q : Path} {s s' : Section} (h : SectionRenamed f s s') {r r' : Requirement}
    (hr : IsRequirement p s r) (hr' : IsRequirement q s' r') : forgetReq r' = forgetReq (renamed f r) := by
  obtain ⟨a1, a2, a3, a4, a5, a6, a7⟩ := hr
  obtain ⟨b1, b2, b3, b4, b5, b6, b7⟩ := hr'
  have hrefs : ∀ name, (match lastOf s'.attrs name with | some (.refs rs) => rs | _ => []).map (moveRef nowhere) =
      ((match lastOf s.attrs name with | some (.refs rs) => rs | _ => []).map (renamedRef f)).map (moveRef nowhere) := by
    intro name
    rcases lastOf_renamed h.attrs name with ⟨e1, e2⟩ | ⟨v, v', e1, e2, h⟩
    · rw [e1, e2]; rfl
    · rw [e1, e2]
      cases h with
      | text => rfl
      | refs h => exact refs_forget h
  have hattrs : r'.attributes = r.attributes := by
    apply BMap.ext_get
    intro a
    rw [a7, b7]
    rcases lastOf_renamed h.attrs a with ⟨e1, e2⟩ | ⟨v, v', e1, e2, h⟩
    · rw [e1, e2]
    · rw [e1, e2]
      cases h <;> rfl
  obtain ⟨i, t, l, cs, ds, tags, attrs⟩ := r
  obtain ⟨i', t', l', cs', ds', tags', attrs'⟩ := r'
  simp only at a1 a2 a3 a4 a5 a6 b1 b2 b3 b4 b5 b6 hattrs
  subst a1 a2 a3 a6 b1 b2 b3 b6 hattrs
  simp only [forgetReq, renamed, Requirement.mk.injEq, h.id, h.title, true_and, and_true]
  rw [a4, a5, b4, b5]
  exact ⟨rfl, hrefs _, hrefs _⟩

theorem requirements_renamed {p q : Path} {ss ss' : List Section} (h : Pairs (SectionRenamed f) ss ss') :
    ∀ {rs rs' : List Requirement}, AreRequirements p ss rs → AreRequirements q ss' rs' →
    rs'.map forgetReq = rs.map (fun r => forgetReq (renamed f r)) := by
  induction h with
  | nil => intro rs rs' h h'; cases h; cases h'; rfl
  | cons h1 _ ih =>
    intro rs rs' h h'
    cases h with
    | cons a b =>
      cases h' with
      | cons a' b' => simp [requirement_renamed h1 a a', ih b b']

end Ren

/-- **C150** Markdown: if section by section only the names are others, the file says the same with the other names. -/
theorem C150_markdown {f : RequirementId → RequirementId} {env : Env} {p q : Path} {file file' : File}
    (h : MarkdownRenamed f env.U p q file file') : ∃ reqs errs reqs' errs', FileMeans env p file .markdown reqs errs ∧
      FileMeans env q file' .markdown reqs' errs' ∧ SaysRenamed f reqs errs reqs' errs' := by
  obtain ⟨text, text', failure, ls, ls', ss, ss', h1, h2, h3, h4, h5, h6, h7, h8, h9⟩ := h
  obtain ⟨rs, -, a⟩ := C76_complete env.U ⟨text, failure⟩ p ls ss h3 h5 h7
  obtain ⟨rs', -, a'⟩ := C76_complete env.U ⟨text', failure⟩ q ls' ss' h4 h6 h8
  exact ⟨rs, _, rs', _, .markdown h1 h3 h5 h7 a, .markdown h2 h4 h6 h8 a',
    Ren.requirements_renamed (Ren.kept_renamed failure h9) a a', Ren.documentErrors_renamed p q failure h9⟩

/-! ## Rust -/

namespace Ren

variable {f : RequirementId → RequirementId}

/-- The same entry with other names. -/
structure EntryRenamed (f : RequirementId → RequirementId) (e e' : Entry) : Prop where
  inside : ∃ name, Joined e.names name ∧ Joined e'.names (f name)
  items : e.loc.isSome ∧ e'.loc.isSome
  ref : RefRenamed f e.ref e'.ref

theorem marks_renamed (debug : List Rs.Tok → Str) (p q : Path) {os os' : List Occ} (h : Pairs (OccRenamed f debug) os os') :
    ∃ es errs es' errs', AllMarks debug p os es errs ∧ AllMarks debug q os' es' errs' ∧ Pairs (EntryRenamed f) es es' ∧
      errs'.map forgetError = errs.map (fun e => forgetError (renamedProblem f e)) := by
  induction h with
  | nil => exact ⟨[], [], [], [], .nil, .nil, .nil, rfl⟩
  | @cons o o' os os' h1 _ ih =>
    obtain ⟨es, errs, es', errs', a, b, c, d⟩ := ih
    by_cases hm : IsMark o.mac
    · have hm' := h1.mark.1 hm
      rcases h1.reads hm with ⟨id, title, r, r'⟩ | ⟨l, cl, l', cl', msg, r, r'⟩
      · exact ⟨_, _, _, _, .good hm r a, .good hm' r' b, .cons ⟨h1.inside hm, h1.items hm, rfl, rfl⟩ c, d⟩
      · exact ⟨_, _, _, _, .bad hm r a, .bad hm' r' b, c, by simp [d, forgetError, renamedProblem, renamedError, nowhere]⟩
    · exact ⟨_, _, _, _, .other hm a, .other (fun h => hm (h1.mark.2 h)) b, c, d⟩

theorem joined_unique {ns : List Str} {s t : Str} (h : Joined ns s) (h' : Joined ns t) : s = t := by
  induction h generalizing t with
  | nil => cases h'; rfl
  | one => cases h'; rfl
  | cons n _ ih => cases h' with | cons _ h' => rw [ih h']

theorem pairs_split {α β : Type} {P : α → β → Prop} {as cs : List α} {bs : List β} (h : Pairs P (as ++ cs) bs) :
    ∃ b1 b2, bs = b1 ++ b2 ∧ Pairs P as b1 ∧ Pairs P cs b2 := by
  induction as generalizing bs with
  | nil => exact ⟨[], bs, rfl, .nil, h⟩
  | cons a as ih =>
    cases h with
    | cons h1 h2 =>
      obtain ⟨b1, b2, rfl, h3, h4⟩ := ih h2
      exact ⟨_ :: b1, b2, rfl, .cons h1 h3, h4⟩

theorem run_renamed {r : Requirement} {run run' : List Entry} (h : IsRun r run) (hp : Pairs (EntryRenamed f) run run') :
    ∃ r', IsRun r' run' ∧ r'.id = f r.id ∧ forgetReq r' = forgetReq (renamed f r) := by
  obtain ⟨h1, h2, ⟨e, rest, rfl, h3⟩, h4, h5, h6, h7⟩ := h
  have hrefs : run'.map (fun x => moveRef nowhere x.ref) =
      (e :: rest).map (fun x => moveRef nowhere (renamedRef f x.ref)) :=
    pairs_map_eq (fun a b h => by
      obtain ⟨_, _, i, t, l⟩ := a; obtain ⟨_, _, i', t', l'⟩ := b
      obtain ⟨h1, h2⟩ := h.ref
      simp only at h1 h2
      subst h1 h2
      rfl) hp
  have hn : ∀ x ∈ run', Joined x.names (f r.id) := by
    intro x hx
    obtain ⟨y, hy, hxy⟩ := Reimport.pairs_right hp x hx
    obtain ⟨name, a, b⟩ := hxy.inside
    rw [joined_unique (h2 y hy) a]
    exact b
  cases hp with
  | @cons _ e' _ rest' hh ht =>
    obtain ⟨loc, hl⟩ := Option.isSome_iff_exists.1 hh.items.2
    refine ⟨⟨f r.id, none, loc, (e' :: rest').map Entry.ref, [], [], .empty⟩,
      ⟨rfl, hn, ⟨e', rest', rfl, hl⟩, rfl, rfl, rfl, rfl⟩, rfl, ?_⟩
    obtain ⟨i, t, l, cs, ds, tags, attrs⟩ := r
    simp only at h1 h4 h5 h6 h7
    subst h1 h4 h5 h6 h7
    simp only [forgetReq, renamed, Requirement.mk.injEq, true_and, and_true, List.map_map]
    exact ⟨rfl, hrefs, rfl⟩

theorem groups_renamed : ∀ {gs : List (Requirement × List Entry)} {es' : List Entry}, (∀ g ∈ gs, IsRun g.1 g.2) →
    Pairs (EntryRenamed f) (gs.map Prod.snd).flatten es' →
    ∃ gs' : List (Requirement × List Entry), (gs'.map Prod.snd).flatten = es' ∧ (∀ g ∈ gs', IsRun g.1 g.2) ∧
      (gs'.map Prod.fst).map (·.id) = (gs.map Prod.fst).map (fun r => f r.id) ∧
      (gs'.map Prod.fst).map forgetReq = (gs.map Prod.fst).map (fun r => forgetReq (renamed f r)) := by
  intro gs
  induction gs with
  | nil => intro es' _ h; cases h; exact ⟨[], rfl, by simp, rfl, rfl⟩
  | cons g gs ih =>
    intro es' hr h
    rw [List.map_cons, List.flatten_cons] at h
    obtain ⟨b1, b2, rfl, h1, h2⟩ := pairs_split h
    obtain ⟨gs', h3, h4, h5, h6⟩ := ih (fun g hg => hr g (List.mem_cons_of_mem _ hg)) h2
    obtain ⟨r', h7, h8, h9⟩ := run_renamed (hr g List.mem_cons_self) h1
    refine ⟨(r', b1) :: gs', by simp [h3], ?_, by simp only [List.map_cons, h8, h5], by simp only [List.map_cons, h9, h6]⟩
    intro x hx
    rcases List.mem_cons.1 hx with rfl | hx
    · exact h7
    · exact h4 x hx

theorem grouped_renamed (hf : ∀ a b, f a = f b → a = b) {es es' : List Entry} (h : Pairs (EntryRenamed f) es es')
    {reqs : List Requirement} (hg : Grouped reqs es) :
    ∃ reqs', Grouped reqs' es' ∧ reqs'.map forgetReq = reqs.map (fun r => forgetReq (renamed f r)) := by
  obtain ⟨gs, rfl, rfl, h1, h2⟩ := hg
  obtain ⟨gs', h3, h4, h5, h6⟩ := groups_renamed h1 h
  refine ⟨gs'.map Prod.fst, ⟨gs', rfl, h3, h4, ?_⟩, h6⟩
  intro a r s b he
  rw [he] at h5
  generalize gs.map Prod.fst = reqs at h2 h5
  rw [List.map_append] at h5
  obtain ⟨a0, t0, rfl, -, h7⟩ := List.map_eq_append_iff.1 h5.symm
  cases t0 with
  | nil => simp at h7
  | cons r0 t0 =>
    cases t0 with
    | nil => simp at h7
    | cons s0 b0 =>
      simp only [List.map_cons, List.cons.injEq] at h7
      intro e
      apply h2 a0 r0 s0 b0 rfl
      apply hf
      rw [h7.1, h7.2.1, e]

theorem grouped_exists (es : List Entry) (h : ∀ e ∈ es, e.loc.isSome) : ∃ reqs, Grouped reqs es := by
  have : ∀ (es : List Entry) (rs : List Requirement), (∀ e ∈ es, e.loc.isSome) → ∃ reqs, es.foldlM Rs.add rs = .ok reqs := by
    intro es
    induction es with
    | nil => intro rs _; exact ⟨rs, rfl⟩
    | cons e es ih =>
      intro rs h
      obtain ⟨loc, hl⟩ := Option.isSome_iff_exists.1 (h e List.mem_cons_self)
      have : ∃ rs', Rs.add rs e = .ok rs' := by
        unfold Rs.add
        rw [hl]
        repeat' split
        all_goals first | exact ⟨_, rfl⟩ | simp_all
      obtain ⟨rs', h1⟩ := this
      obtain ⟨reqs, h2⟩ := ih rs' (fun e he => h e (List.mem_cons_of_mem _ he))
      exact ⟨reqs, by rw [List.foldlM_cons, h1]; exact h2⟩
  obtain ⟨reqs, hr⟩ := this es [] h
  exact ⟨reqs, (Rs.grouped_iff es reqs).1 hr⟩

end Ren

/-- **C150** Rust: if macro call by macro call only the names are others, the file says the same with the other names. -/
theorem C150_rust {f : RequirementId → RequirementId} (hf : ∀ a b, f a = f b → a = b) {env : Env} {p q : Path}
    {file file' : File} (h : RustRenamed f env.syn p q file file') :
    ∃ reqs errs reqs' errs', FileMeans env p file .rust reqs errs ∧ FileMeans env q file' .rust reqs' errs' ∧
      SaysRenamed f reqs errs reqs' errs' := by
  obtain ⟨text, text', forest, forest', rfl, rfl, h1, h2, h3⟩ := h
  obtain ⟨es, errs, es', errs', h4, h5, h6, h7⟩ := Ren.marks_renamed env.syn.debug p q h3
  obtain ⟨reqs, h8⟩ := Ren.grouped_exists es (fun e he => by
    obtain ⟨e', _, h⟩ := Reimport.pairs_left h6 e he
    exact h.items.1)
  obtain ⟨reqs', h9, h10⟩ := Ren.grouped_renamed hf h6 h8
  exact ⟨reqs, errs, reqs', errs', .rust (.all _) (.marks rfl h1 h4 h8), .rust (.all _) (.marks rfl h2 h5 h9), h10, h7⟩

/-- **C150** Mono-requirements: if the file is called after the other name and its references have the other names, it says
the same with the other names. -/
theorem C150_mono {f : RequirementId → RequirementId} {env : Env} {p q : Path} {file file' : File}
    (h : MonoRenamed f env.U p q file file') : ∃ reqs errs reqs' errs',
      FileMeans env p file .monoRequirement reqs errs ∧ FileMeans env q file' .monoRequirement reqs' errs' ∧
      SaysRenamed f reqs errs reqs' errs' := by
  obtain ⟨text, text', ls, ls', refs, refs', name, name', stem, rfl, rfl, h1, h2, h3, h4, h5, h6, h7, h8, h9, h10⟩ := h
  refine ⟨_, _, _, _, .mono rfl h1 h4 h7 h9, .mono rfl h2 h5 h8 h10, ?_, rfl⟩
  simp only [List.map_cons, List.map_nil, List.cons.injEq, and_true, forgetReq, renamed, Requirement.mk.injEq, h3, true_and]
  exact ⟨rfl, Ren.refs_forget h6⟩

/-- **C150** JSON: if requirement by requirement only the names are others, the file says the same with the other names. -/
theorem C150_json {f : RequirementId → RequirementId} {env : Env} {p q : Path} {file file' : File}
    (h : JsonRenamed f file file') : ∃ reqs errs reqs' errs', FileMeans env p file .json reqs errs ∧
      FileMeans env q file' .json reqs' errs' ∧ SaysRenamed f reqs errs reqs' errs' := by
  obtain ⟨reqs, reqs', h1, h2, h3⟩ := h
  exact ⟨reqs, [], reqs', [], .json h1, .json h2, h3, rfl⟩

theorem renamed_unaffected {f : RequirementId → RequirementId} {r : Requirement} (h : Unaffected f r) : renamed f r = r := by
  obtain ⟨i, t, l, cs, ds, tags, attrs⟩ := r
  have h2 := h.2
  simp only [List.mem_append] at h2
  have hm : ∀ rs : List Reference, (∀ x ∈ rs, f x.id = x.id) → rs.map (renamedRef f) = rs := by
    intro rs hrs
    refine (List.map_congr_left (g := id) fun x hx => ?_).trans (List.map_id _)
    simp [renamedRef, hrs x hx]
  simp only [renamed, Requirement.mk.injEq, true_and, and_true]
  exact ⟨h.1, hm _ fun x hx => h2 x (.inl hx), hm _ fun x hx => h2 x (.inr hx)⟩

theorem fileErrors_kinds {env : Env} {p : Path} {file : File} {parser : ArtefactParser} {reqs : List Requirement}
    {errs : List Error} (h : FileMeans env p file parser reqs errs) : ∀ e ∈ errs,
      (∃ l m, e = .format l m) ∨ (∃ l a id, e = .duplicateAttribute l a id) ∨ (∃ q m, e = .io q m) ∨ ∃ m, e = .config m := by
  intro e he
  cases h with
  | @markdown text failure ls ss _ _ _ _ _ _ =>
    unfold documentErrors at he
    rcases List.mem_append.1 he with he | he
    · obtain ⟨s, -, hs⟩ := List.mem_flatMap.1 he
      unfold Section.errors at hs
      rcases List.mem_append.1 hs with hs | hs
      · have : ∀ (as before : List Attr), e ∈ repeated p s.id before as → ∃ l a id, e = .duplicateAttribute l a id := by
          intro as
          induction as with
          | nil => intro _ h; cases h
          | cons a as ih =>
            intro before h
            unfold repeated at h
            rcases List.mem_append.1 h with h | h
            · split at h
              · exact ⟨_, _, _, List.mem_singleton.1 h⟩
              · cases h
            · exact ih _ h
        exact .inr (.inl (this _ _ hs))
      · unfold cutError at hs
        split at hs
        · exact .inl ⟨_, _, List.mem_singleton.1 hs⟩
        · cases hs
    · cases failure with
      | none => cases he
      | some m => exact .inr (.inr (.inl ⟨_, _, List.mem_singleton.1 he⟩))
  | mono => cases he
  | monoNoName => exact .inr (.inr (.inr ⟨_, List.mem_singleton.1 he⟩))
  | rust _ h =>
    cases h with
    | unreadable => exact .inr (.inr (.inl ⟨_, _, List.mem_singleton.1 he⟩))
    | syntaxError => exact .inl ⟨_, _, List.mem_singleton.1 he⟩
    | marks _ _ hm hg =>
      left
      clear hg
      generalize occs p [] none _ = os at hm
      induction hm with
      | nil => cases he
      | other _ _ ih => exact ih he
      | good _ _ _ ih => exact ih he
      | bad _ _ _ ih =>
        rcases List.mem_cons.1 he with rfl | he
        · exact ⟨_, _, rfl⟩
        · exact ih he
  | json => cases he
  | jsonWrong => exact .inl ⟨_, _, List.mem_singleton.1 he⟩

/-- **C150** A file says the same with the other names if only the names in it are others, or if there is nothing in it to
change. -/
theorem C150_file {f : RequirementId → RequirementId} (hf : ∀ a b, f a = f b → a = b) {env : Env} {parser : ArtefactParser}
    {p q : Path} {file file' : File} (h : FileRenamed f env p q file file' parser) :
    ∃ reqs errs reqs' errs', FileMeans env p file parser reqs errs ∧ FileMeans env q file' parser reqs' errs' ∧
      SaysRenamed f reqs errs reqs' errs' := by
  cases h with
  | markdown h => exact C150_markdown h
  | rust h => exact C150_rust hf h
  | mono h => exact C150_mono h
  | json h => exact C150_json h
  | @same _ reqs errs he hn hm h1 h2 =>
    subst he
    have hn' : SameName parser q p := fun hp => by
      obtain ⟨name, a, b⟩ := hn hp
      exact ⟨name, b, a⟩
    refine ⟨reqs, errs, _, _, hm, C132_file env parser file q p hn' hm, ?_, ?_⟩
    · rw [forgetReqs_in]
      exact List.map_congr_left fun r hr => by rw [renamed_unaffected (h1 r hr)]
    · rw [forgetErrors_in]
      refine List.map_congr_left fun e he => ?_
      rcases fileErrors_kinds hm e he with ⟨l, m, rfl⟩ | ⟨l, a, id, rfl⟩ | ⟨q, m, rfl⟩ | ⟨m, rfl⟩
      · rfl
      · simp only [renamedProblem, h2 l a id he]
      · rfl
      · rfl

/-- **C150** So does a path, if the files can be opened or both cannot for the same reason. -/
theorem C150_path {f : RequirementId → RequirementId} (hf : ∀ a b, f a = f b → a = b) {env : Env} {w w' : World}
    {parser : ArtefactParser} {p q : Path}
    (h : (∃ file file', env.os.openFile w p = .ok file ∧ env.os.openFile w' q = .ok file' ∧
        FileRenamed f env p q file file' parser) ∨
      ∃ e, env.os.openFile w p = .error e ∧ env.os.openFile w' q = .error e) :
    PathRenamed f env w w' parser p q := by
  rcases h with ⟨file, file', h1, h2, h3⟩ | ⟨e, h1, h2⟩
  · obtain ⟨reqs, errs, reqs', errs', h4, h5, h6⟩ := C150_file hf h3
    exact ⟨_, _, _, _, .opened h1 h4, .opened h2 h5, h6⟩
  · exact ⟨_, _, _, _, .closed h1, .closed h2, rfl, rfl⟩

/-! ## A project -/

namespace Ren

variable {f : RequirementId → RequirementId}

theorem says_append {a b a' b' : List Requirement} {e d e' d' : List Error} (h : SaysRenamed f a e a' e')
    (h' : SaysRenamed f b d b' d') : SaysRenamed f (a ++ b) (e ++ d) (a' ++ b') (e' ++ d') := by
  unfold SaysRenamed
  rw [List.map_append, List.map_append, List.map_append, List.map_append, h.1, h.2, h'.1, h'.2]
  exact ⟨rfl, rfl⟩

theorem paths_renamed {env : Env} {w w' : World} {parser : ArtefactParser} {fs fs' : List Path}
    (h : Pairs (PathRenamed f env w w' parser) fs fs') : ∃ reqs errs reqs' errs', PathsMean env w parser fs reqs errs ∧
      PathsMean env w' parser fs' reqs' errs' ∧ SaysRenamed f reqs errs reqs' errs' := by
  induction h with
  | nil => exact ⟨[], [], [], [], .nil, .nil, rfl, rfl⟩
  | cons h1 _ ih =>
    obtain ⟨a, e, a', e', h2, h3, h4⟩ := h1
    obtain ⟨b, d, b', d', h5, h6, h7⟩ := ih
    exact ⟨_, _, _, _, .cons h2 h5, .cons h3 h6, says_append h4 h7⟩

theorem artefact_parsed {env : Env} {w w' : World} {base base' : Path} {ac ac' : ArtefactConfig}
    (h : ArtefactTextsRenamed f env w w' base base' ac ac') : ∃ fs reqs errs fs' reqs' errs',
      parseArtefact env w ac base = .ok (fs, reqs, errs) ∧ parseArtefact env w' ac' base' = .ok (fs', reqs', errs') ∧
      SaysRenamed f reqs errs reqs' errs' := by
  obtain ⟨fs, fs', h1, h2, h3⟩ := h.files
  obtain ⟨reqs, errs, reqs', errs', h4, h5, h6⟩ := paths_renamed h3
  exact ⟨fs, reqs, errs, fs', reqs', errs', parseArtefact_iff.2 (.files h1 h4),
    parseArtefact_iff.2 (.files h2 (h.parser ▸ h5)), h6⟩

/-- The first requirement with an id, after a change of the ids. -/
theorem find_map {φ : RequirementId → RequirementId} (hφ : ∀ a b, φ a = φ b → a = b) {h : Requirement → Requirement}
    (hid : ∀ r, (h r).id = φ r.id) (id : RequirementId) (l : List Requirement) :
    (l.map h).find? (fun r => r.id = φ id) = (l.find? (fun r => r.id = id)).map h := by
  rw [List.find?_map]
  congr 1
  refine congrArg (fun p => l.find? p) (funext fun r => ?_)
  simp only [Function.comp_apply, hid]
  exact decide_eq_decide.2 ⟨hφ _ _, fun e => by rw [e]⟩

theorem duplicates_map {φ : RequirementId → RequirementId} (hφ : ∀ a b, φ a = φ b → a = b) {h : Requirement → Requirement}
    (hid : ∀ r, (h r).id = φ r.id) {k : Error → Error}
    (hk : ∀ a b, k (.duplicateRequirement a b) = .duplicateRequirement (h a) (h b)) (l : List Requirement) :
    duplicates (l.map h) = (duplicates l).map k := by
  unfold duplicates
  rw [List.length_map, List.map_filterMap]
  refine congrArg (fun p => (List.range l.length).filterMap p) (funext fun i => ?_)
  rw [List.getElem?_map]
  cases l[i]? with
  | none => rfl
  | some again =>
    simp only [Option.map_some]
    rw [← List.map_take, hid, find_map hφ hid]
    cases (l.take i).find? _ with
    | none => rfl
    | some first => simp [hk]

/-- Nothing else than `f` of an id is found. -/
theorem find_none {h : Requirement → Requirement} (hid : ∀ r, (h r).id = f r.id) {k : RequirementId} {l : List Requirement}
    {r' : Requirement} (hr : (l.map h).find? (fun r => r.id = k) = some r') : ∃ id, k = f id := by
  have h1 := List.find?_some hr
  obtain ⟨r, -, rfl⟩ := List.mem_map.1 (List.mem_of_find?_eq_some hr)
  rw [hid] at h1
  exact ⟨r.id, (by simpa using h1 : f r.id = k).symm⟩

theorem collect_renamed (hf : ∀ a b, f a = f b → a = b) {reqs reqs' : List Requirement} {errs errs' : List Error}
    (h : SaysRenamed f reqs errs reqs' errs') :
    (∀ k, ((collectRequirements reqs' .empty errs').1.get (f k)).map forgetReq =
      ((collectRequirements reqs .empty errs).1.get k).map (fun r => forgetReq (renamed f r))) ∧
    (∀ k' r', (collectRequirements reqs' .empty errs').1.get k' = some r' → ∃ k, k' = f k) ∧
    (collectRequirements reqs' .empty errs').2.map forgetError =
      (collectRequirements reqs .empty errs).2.map (fun e => forgetError (renamedProblem f e)) := by
  obtain ⟨c1, c2⟩ := collect_eq reqs errs
  obtain ⟨d1, d2⟩ := collect_eq reqs' errs'
  have hb : ∀ k, (reqs'.find? (fun r => r.id = k)).map forgetReq = (reqs'.map forgetReq).find? (fun r => r.id = k) :=
    fun k => (find_map (φ := fun x => x) (fun _ _ e => e) (h := forgetReq) (fun _ => rfl) k reqs').symm
  refine ⟨fun k => ?_, fun k' r' hr => ?_, ?_⟩
  · rw [d1, c1, hb, h.1, find_map hf (h := fun r => forgetReq (renamed f r)) (fun _ => rfl)]
  · rw [d1] at hr
    have := hb k'
    rw [hr, h.1] at this
    exact find_none (h := fun r => forgetReq (renamed f r)) (fun _ => rfl) this.symm
  · rw [c2, d2, List.map_append, List.map_append, h.2,
      ← duplicates_map (φ := fun x => x) (fun _ _ e => e) (h := forgetReq) (fun _ => rfl) (fun _ _ => rfl),
      ← duplicates_map hf (h := fun r => forgetReq (renamed f r)) (fun _ => rfl) (fun _ _ => rfl), h.1]

theorem values_ids {m : BMap RequirementId Requirement} (hm : ∀ k r, m.get k = some r → r.id = k) :
    (m.values.map (·.id)).Nodup := by
  have : m.values.map (·.id) = m.keys := by
    simp only [BMap.values, BMap.keys, List.map_map]
    apply List.map_congr_left
    rintro ⟨k, r⟩ he
    exact hm k r ((BMap.get_eq_some_iff _ _ _).2 he)
  rw [this]
  exact BMap.keys_nodup m

theorem untitled_renamed (hf : ∀ a b, f a = f b → a = b) {m m' : BMap RequirementId Requirement}
    (hk : ∀ k r, m.get k = some r → r.id = k) (hk' : ∀ k r, m'.get k = some r → r.id = k)
    (h1 : ∀ k, (m'.get (f k)).map forgetReq = (m.get k).map (fun r => forgetReq (renamed f r)))
    (h2 : ∀ k' r', m'.get k' = some r' → ∃ k, k' = f k) :
    (((m'.values.filter (fun r => r.title.isNone)).map Error.requirementWithoutTitle).map forgetError).Perm
      (((m.values.filter (fun r => r.title.isNone)).map Error.requirementWithoutTitle).map
        (fun e => forgetError (renamedProblem f e))) := by
  rw [List.map_map, List.map_map]
  have : ((m'.values.filter (fun r => r.title.isNone)).map forgetReq).Perm
      ((m.values.filter (fun r => r.title.isNone)).map (fun r => forgetReq (renamed f r))) := by
    refine Meta.perm_of_keys (·.id) ?_ ?_ ?_
    · rw [List.map_map]
      exact ((values_ids hk').sublist ((List.filter_sublist).map _))
    · rw [List.map_map]
      have := Meta.nodup_map hf ((values_ids hk).sublist ((List.filter_sublist (p := fun r => r.title.isNone)).map _))
      rw [List.map_map] at this
      exact this
    · intro x
      simp only [List.mem_map, List.mem_filter, BMap.mem_values_iff]
      constructor
      · rintro ⟨r', ⟨⟨k', hr'⟩, ht⟩, rfl⟩
        obtain ⟨k, rfl⟩ := h2 k' r' hr'
        have := h1 k
        rw [hr'] at this
        cases hr : m.get k with
        | none => rw [hr] at this; cases this
        | some r =>
          rw [hr] at this
          simp only [Option.map_some, Option.some.injEq] at this
          refine ⟨r, ⟨⟨k, hr⟩, ?_⟩, this.symm⟩
          have ht' := congrArg Requirement.title this
          simp only [forgetReq, renamed] at ht'
          rw [← ht']; exact ht
      · rintro ⟨r, ⟨⟨k, hr⟩, ht⟩, rfl⟩
        have := h1 k
        rw [hr] at this
        cases hr' : m'.get (f k) with
        | none => rw [hr'] at this; cases this
        | some r' =>
          rw [hr'] at this
          simp only [Option.map_some, Option.some.injEq] at this
          refine ⟨r', ⟨⟨_, hr'⟩, ?_⟩, this⟩
          have ht' := congrArg Requirement.title this
          simp only [forgetReq, renamed] at ht'
          rw [ht']; exact ht
  have := this.map Error.requirementWithoutTitle
  rw [List.map_map, List.map_map] at this
  exact this

theorem makeArtefact_renamed (hf : ∀ a b, f a = f b → a = b) {env : Env} {w w' : World} {base base' : Path}
    {ac ac' : ArtefactConfig} {roots : BMap ArtefactId Bool} (hm : ArtefactTextsRenamed f env w w' base base' ac ac')
    {a a' : Artefact} (h : makeArtefact env w base roots ac = .ok a) (h' : makeArtefact env w' base' roots ac' = .ok a') :
    ArtefactRenamed f a a' := by
  obtain ⟨fs, reqs, errs, fs', reqs', errs', p1, p2, hs⟩ := artefact_parsed hm
  unfold makeArtefact at h h'
  rw [← hm.id, ← hm.ignore, ← hm.titles] at h'
  cases hr : roots.get ac.id with
  | none => rw [hr] at h; cases h
  | some root =>
    rw [hr] at h h'
    simp only [orPanic, bind, Except.bind, parseFromConfig] at h h'
    rw [p1] at h
    rw [p2] at h'
    simp only [pure, Except.pure, Except.ok.injEq] at h h'
    obtain ⟨c1, c2, c3⟩ := collect_renamed hf hs
    have hkey : ∀ (l : List Requirement) (e : List Error) (k : RequirementId) (r : Requirement),
        (collectRequirements l .empty e).1.get k = some r → r.id = k := by
      intro l e k r hg
      rw [(collect_eq l e).1] at hg
      simpa using List.find?_some hg
    subst h h'
    refine ⟨rfl, rfl, rfl, ?_, ?_, ?_⟩
    · intro k r hg
      simp only at hg ⊢
      have := c1 k
      rw [hg] at this
      cases hg' : (collectRequirements reqs' .empty errs').1.get (f k) with
      | none => rw [hg'] at this; cases this
      | some r' => rw [hg'] at this; exact ⟨r', rfl, by simpa using this⟩
    · intro k' r' hg
      simp only at hg ⊢
      obtain ⟨k, rfl⟩ := c2 k' r' hg
      have := c1 k
      rw [hg] at this
      cases hg' : (collectRequirements reqs .empty errs).1.get k with
      | none => rw [hg'] at this; cases this
      | some r => exact ⟨k, r, rfl, hg'⟩
    · simp only
      split
      · rw [List.map_append, List.map_append, c3]
        exact (untitled_renamed hf (hkey _ _) (hkey _ _) c1 c2).append_left _
      · rw [c3]

theorem makeArtefacts_renamed (hf : ∀ a b, f a = f b → a = b) {env : Env} {w w' : World} {base base' : Path}
    {acs acs' : List ArtefactConfig} {roots : BMap ArtefactId Bool}
    (hm : Pairs (ArtefactTextsRenamed f env w w' base base') acs acs') :
    ∀ {m m' m1 m1' : BMap ArtefactId Artefact}, ArtefactsRenamed f m m' →
    makeArtefacts env w base roots acs m = .ok m1 → makeArtefacts env w' base' roots acs' m' = .ok m1' →
    ArtefactsRenamed f m1 m1' := by
  induction hm with
  | nil => intro m m' m1 m1' he h h'; cases h; cases h'; exact he
  | @cons ac ac' acs acs' ha _ ih =>
    intro m m' m1 m1' he h h'
    simp only [makeArtefacts, bind, Except.bind] at h h'
    cases hp : makeArtefact env w base roots ac with
    | error e => rw [hp] at h; cases h
    | ok a =>
      cases hp' : makeArtefact env w' base' roots ac' with
      | error e => rw [hp'] at h'; cases h'
      | ok a' =>
        rw [hp] at h
        rw [hp'] at h'
        refine ih ?_ h h'
        intro x
        rw [BMap.get_insert, BMap.get_insert, ha.id]
        split
        · exact .inr ⟨a, a', rfl, rfl, makeArtefact_renamed hf ha hp hp'⟩
        · exact he x

theorem renamed_ids {env : Env} {w w' : World} {base base' : Path} {acs acs' : List ArtefactConfig}
    (hm : Pairs (ArtefactTextsRenamed f env w w' base base') acs acs') :
    acs'.map (fun ac => (ac.id, true)) = acs.map (fun ac => (ac.id, true)) :=
  pairs_map_eq (fun a b h => by rw [h.id]) hm

theorem forget_renamed (r : Requirement) : forgetReq (renamed f r) = renamed f (forgetReq r) := by
  simp [forgetReq, renamed, moveRef, renamedRef, Function.comp_def]

theorem repaint_renamed (e : Error) :
    repaintError nowhere forgetReq (renamedError f e) = renamedError f (repaintError nowhere forgetReq e) := by
  cases e <;> simp [repaintError, renamedError, forget_renamed]

/-- An artefact with nothing about the places. -/
def bare (a : Artefact) : Artefact :=
  { a with files := [], errors := [], requirements := a.requirements.mapValues forgetReq }

def bareGraph (g : Graph) : Graph := { g with artefacts := g.artefacts.mapValues bare }

theorem bare_redoes : RepaintsArtefact forgetReq bare := ⟨fun _ => rfl, fun _ => rfl, fun _ => rfl, fun _ => rfl⟩

theorem bare_keyed {g : Graph} (hk : Keyed g) : Keyed (bareGraph g) := by
  constructor
  · intro a art h
    simp only [bareGraph, BMap.get_mapValues, Option.map_eq_some_iff] at h
    obtain ⟨art0, h, rfl⟩ := h
    exact hk.artefact a art0 h
  · intro a art h k r hr
    simp only [bareGraph, BMap.get_mapValues, Option.map_eq_some_iff] at h
    obtain ⟨art0, h, rfl⟩ := h
    simp only [bare, BMap.get_mapValues, Option.map_eq_some_iff] at hr
    obtain ⟨r0, hr, rfl⟩ := hr
    exact hk.requirement a art0 h k r0 hr

theorem bare_renames (hf : ∀ a b, f a = f b → a = b) {g g' : Graph} (hk : Keyed g)
    (hr : g'.relations = g.relations) (h : ArtefactsRenamed f g.artefacts g'.artefacts) :
    Renames f (bareGraph g) (bareGraph g') := by
  refine ⟨hf, hr, ?_, ?_⟩
  · intro a ha
    simp only [bareGraph, BMap.get_mapValues, Option.map_eq_none_iff] at ha ⊢
    rcases h a with ⟨_, h'⟩ | ⟨art, art', h', _⟩
    · exact h'
    · rw [ha] at h'; cases h'
  · intro a art ha
    simp only [bareGraph, BMap.get_mapValues, Option.map_eq_some_iff] at ha ⊢
    obtain ⟨art0, ha, rfl⟩ := ha
    rcases h a with ⟨h', _⟩ | ⟨art1, art', h1, h2, h3⟩
    · rw [ha] at h'; cases h'
    · rw [ha] at h1
      cases h1
      refine ⟨(bare art').requirements, ⟨art', h2, ?_⟩, ?_⟩
      · simp only [bare, h3.id, h3.ignore, h3.titles]
      · intro k r'
        simp only [bare, BMap.get_mapValues, Option.map_eq_some_iff]
        constructor
        · rintro ⟨r1, g1, rfl⟩
          obtain ⟨k0, r0, rfl, g0⟩ := h3.back k r1 g1
          obtain ⟨r2, g2, e2⟩ := h3.there k0 r0 g0
          rw [g1] at g2
          cases g2
          have hid := hk.requirement a art0 ha k0 r0 g0
          subst hid
          exact ⟨forgetReq r0, ⟨r0, g0, rfl⟩, rfl, e2.trans (forget_renamed r0)⟩
        · rintro ⟨r, ⟨r0, g0, rfl⟩, rfl, rfl⟩
          obtain ⟨r2, g2, e2⟩ := h3.there _ r0 g0
          exact ⟨r2, g2, e2.trans (forget_renamed r0)⟩

end Ren

/-- **C150** Tracing: if the artefacts are the same with other names, so are the results, the places and the order aside. -/
theorem C150_trace {f : RequirementId → RequirementId} (hf : ∀ a b, f a = f b → a = b) {g g' : Graph} (hk : Keyed g)
    (hk' : Keyed g') (hr : g'.relations = g.relations) (h : ArtefactsRenamed f g.artefacts g'.artefacts) {tg tg' : TracedGraph}
    (ht : trace g = .ok tg) (ht' : trace g' = .ok tg') : ResultRenamed f tg tg' := by
  have b := C131_places nowhere forgetReq Ren.bare forget_repaints Ren.bare_redoes g
  have b' := C131_places nowhere forgetReq Ren.bare forget_repaints Ren.bare_redoes g'
  rw [ht] at b
  rw [ht'] at b'
  obtain ⟨tg2, c0, c1, c2, c3, c4⟩ := C116_rename (Ren.bare_keyed hk) (Ren.bare_keyed hk') (Ren.bare_renames hf hk hr h) b
  have : tg2 = repaintTraced nowhere forgetReq Ren.bare tg' := by
    have := c0.symm.trans b'
    exact Except.ok.inj this
  subst this
  have ha : tg.artefacts = g.artefacts := (C11_frame hk ht).1
  have ha' : tg'.artefacts = g'.artefacts := (C11_frame hk' ht').1
  refine ⟨by rw [ha, ha']; exact h, by simpa [repaintTraced] using c1, ?_, c3, ?_⟩
  · intro i tr tr' hi hi'
    obtain ⟨d1, d2, d3⟩ := c2 i { tr with covered := tr.covered.map (moveCoverage nowhere) }
      { tr' with covered := tr'.covered.map (moveCoverage nowhere) }
      (by simp only [repaintTraced, List.getElem?_map, hi]; rfl) (by simp only [repaintTraced, List.getElem?_map, hi']; rfl)
    refine ⟨d1, ?_, d3⟩
    have := d2.map (fun c : Coverage => (c.upper, c.lower, c.direction))
    simpa [coverTriples, List.map_map, Function.comp_def, moveCoverage, renamedCoverage] using this
  · simp only [repaintTraced, List.map_map] at c4
    refine c4.trans (List.Perm.of_eq (List.map_congr_left fun e _ => ?_))
    exact (Ren.repaint_renamed e).symm

/-- **C150** The program finds the same in a project in which all requirements have other names, no two the same: the same
relations, coverage, uncovered and derived requirements and errors, with the other names, in another order. -/
theorem C150_project {f : RequirementId → RequirementId} {env : Env} {w w' : World} {base base' : Path}
    {config config' : Config} (hm : ProjectRenamed f env w w' base base' config config') {c : Controller}
    (h : Controller.new env w config base = .ok c) :
    ∃ c', Controller.new env w' config' base' = .ok c' ∧ ArtefactsRenamed f c.graph.artefacts c'.graph.artefacts ∧
      ResultRenamed f c.tracedGraph c'.tracedGraph := by
  have hret : ∃ c', Controller.new env w' config' base' = .ok c' := by
    obtain ⟨h1, -⟩ := (C18_returns_iff env w config base).1 ⟨c, h⟩
    have hc : ∀ a, Configured config a → Configured config' a := by
      rintro a ⟨ac, hac, rfl⟩
      obtain ⟨ac', hac', hh⟩ := Reimport.pairs_left hm.artefacts ac hac
      exact ⟨ac', hac', hh.id.symm⟩
    refine (C18_returns_iff env w' config' base').2 ⟨fun rel hrel => ?_, fun ac' hac' => ?_⟩
    · rw [← hm.relations] at hrel
      exact ⟨hc _ (h1 rel hrel).1, fun a ha => hc _ ((h1 rel hrel).2 a ha)⟩
    · obtain ⟨ac, -, hh⟩ := Reimport.pairs_right hm.artefacts ac' hac'
      obtain ⟨_, _, _, fs', reqs', errs', _, h2, _⟩ := Ren.artefact_parsed hh
      exact ⟨_, h2⟩
  obtain ⟨c', h'⟩ := hret
  obtain ⟨roots, r1, r2, r3, r4, -⟩ := new_ok h
  obtain ⟨roots', s1, s2, s3, s4, -⟩ := new_ok h'
  have hroots : roots' = roots := by
    rw [← hm.relations, Ren.renamed_ids hm.artefacts, r1] at s1
    exact (Except.ok.inj s1).symm
  subst hroots
  have ha := Ren.makeArtefacts_renamed hm.injective hm.artefacts (fun a => .inl ⟨rfl, rfl⟩) r2 s2
  exact ⟨c', h', ha, C150_trace hm.injective (C18_consistent h).1 (C18_consistent h').1
    (by rw [r3, s3, hm.relations]) ha r4 s4⟩

theorem parseProblem_renamed {f : RequirementId → RequirementId} {m m' : BMap ArtefactId Artefact}
    (h : ArtefactsRenamed f m m') : ParseProblem m' ↔ ParseProblem m := by
  have key : ∀ {a a' : Artefact}, ArtefactRenamed f a a' → ((∃ e, e ∈ a'.errors) ↔ ∃ e, e ∈ a.errors) := by
    intro a a' h
    have := h.errors.length_eq
    rw [List.length_map, List.length_map] at this
    cases h1 : a.errors <;> cases h2 : a'.errors <;> simp_all
  constructor
  · rintro ⟨a, art', e, h1, h2⟩
    rcases h a with ⟨_, h3⟩ | ⟨art, art1, h3, h4, h5⟩
    · rw [h1] at h3; cases h3
    · rw [h1] at h4
      cases h4
      obtain ⟨e', he⟩ := (key h5).1 ⟨e, h2⟩
      exact ⟨a, art, e', h3, he⟩
  · rintro ⟨a, art, e, h1, h2⟩
    rcases h a with ⟨h3, _⟩ | ⟨art1, art', h3, h4, h5⟩
    · rw [h1] at h3; cases h3
    · rw [h1] at h3
      cases h3
      obtain ⟨e', he⟩ := (key h5).2 ⟨e, h2⟩
      exact ⟨a, art', e', h4, he⟩

/-- **C150** The jobs of the project with other names find fault exactly as before. -/
theorem C150_verdict {f : RequirementId → RequirementId} {c c' : Controller}
    (hg : ArtefactsRenamed f c.graph.artefacts c'.graph.artefacts) (ht : ResultRenamed f c.tracedGraph c'.tracedGraph)
    (job : Job) : Detects c' job ↔ Detects c job := by
  have some_iff : ∀ {α β : Type} {l : List α} {l' : List β}, l'.length = l.length → ((∃ x, x ∈ l') ↔ ∃ x, x ∈ l) := by
    intro α β l l' h
    cases l <;> cases l' <;> simp_all
  unfold Detects
  split
  · unfold TraceProblem
    refine or_congr ?_ (or_congr (parseProblem_renamed ht.artefacts) (or_congr ?_ ?_))
    · have := ht.errors.length_eq
      rw [List.length_map, List.length_map] at this
      exact some_iff this
    · have hl := ht.length
      have step : ∀ i (hi : i < c.tracedGraph.tracedRelations.length) (hi' : i < c'.tracedGraph.tracedRelations.length),
          (∃ r, r ∈ c'.tracedGraph.tracedRelations[i].uncovered) ↔ ∃ r, r ∈ c.tracedGraph.tracedRelations[i].uncovered := by
        intro i hi hi'
        have := (ht.relations i _ _ (List.getElem?_eq_getElem hi) (List.getElem?_eq_getElem hi')).2.2.length_eq
        rw [List.length_map] at this
        exact some_iff this
      constructor
      · rintro ⟨tr, h1, h2⟩
        obtain ⟨i, hi, rfl⟩ := List.getElem_of_mem h1
        exact ⟨_, List.getElem_mem (hl ▸ hi), (step i (hl ▸ hi) hi).1 h2⟩
      · rintro ⟨tr, h1, h2⟩
        obtain ⟨i, hi, rfl⟩ := List.getElem_of_mem h1
        exact ⟨_, List.getElem_mem (hl.symm ▸ hi), (step i hi (hl.symm ▸ hi)).2 h2⟩
    · constructor
      · rintro ⟨a, d', r, h1, h2⟩
        rcases ht.derived a with ⟨_, h3⟩ | ⟨d, d1, h3, h4, h5⟩
        · rw [h1] at h3; cases h3
        · rw [h1] at h4
          cases h4
          obtain ⟨r0, h6, -⟩ := List.mem_map.1 (h5.mem_iff.1 h2)
          exact ⟨a, d, r0, h3, h6⟩
      · rintro ⟨a, d, r, h1, h2⟩
        rcases ht.derived a with ⟨h3, _⟩ | ⟨d1, d', h3, h4, h5⟩
        · rw [h1] at h3; cases h3
        · rw [h1] at h3
          cases h3
          exact ⟨a, d', f r, h4, h5.mem_iff.2 (List.mem_map_of_mem h2)⟩
  · exact parseProblem_renamed hg

/-- **C150** If all reports can be written, the exit code for the project with other names is the same. -/
theorem C150_exit {f : RequirementId → RequirementId} {env : Env} {w w' : World} {opt opt' : Arguments}
    {config config' : Config} (hm : ProjectRenamed f env w w' opt.baseDir opt'.baseDir config config')
    (hj : opt.jobs = opt'.jobs) (hg : GoodConfig env w opt.configFile config)
    (hg' : GoodConfig env w' opt'.configFile config') (h : (Main.main env opt w).1 ≤ 1)
    (h' : (Main.main env opt' w').1 ≤ 1) : (Main.main env opt w).1 = (Main.main env opt' w').1 := by
  have key : ∀ {c c' js js' v v'}, AllRun env opt w c js v → AllRun env opt' w' c' js' v' →
      (Detected c' js' ↔ Detected c js) := by
    rintro c c' js js' v v' ⟨cfg, h1, h2, -, h3, -⟩ ⟨cfg', h1', h2', -, h3', -⟩
    cases GoodConfig_unique h1 hg
    cases GoodConfig_unique h1' hg'
    obtain ⟨c'', h4, h5, h6⟩ := C150_project hm h2
    rw [h2'] at h4
    cases h4
    have hr : requested config' opt' = requested config opt := by
      unfold requested; rw [hj, hm.defaultJobs]
    rw [hr, ← hm.jobs] at h3'
    have hmem : ∀ j, j ∈ js' ↔ j ∈ js := fun j => (h3'.mem j).trans (h3.mem j).symm
    unfold Detected
    simp only [hmem, C150_verdict h5 h6]
  obtain ⟨a0, a1, -⟩ := C28_exit_code_partial env opt w
  obtain ⟨b0, b1, -⟩ := C28_exit_code_partial env opt' w'
  have e : ∀ n : Nat, n ≤ 1 → n = 0 ∨ n = 1 := by omega
  rcases e _ h with x | x <;> rcases e _ h' with y | y
  · rw [x, y]
  · obtain ⟨c, js, v, p1, p2⟩ := a0.1 x
    obtain ⟨c', js', v', q1, q2⟩ := b1.1 y
    exact absurd ((key p1 q1).1 q2) p2
  · obtain ⟨c, js, v, p1, p2⟩ := a1.1 x
    obtain ⟨c', js', v', q1, q2⟩ := b0.1 y
    exact absurd ((key p1 q1).2 p2) q2
  · rw [x, y]

namespace RenamedExample

open CtrlExample

/-- `REQ_A` and `ZZ` exchange their names. -/
def f (s : RequirementId) : RequirementId := if s = c!"REQ_A" then c!"ZZ" else if s = c!"ZZ" then c!"REQ_A" else s

theorem f_injective : ∀ a b, f a = f b → a = b := by
  intro a b h
  unfold f at h
  repeat' split at h
  all_goals simp_all

/-- The Rust file, with the other name in the first mark. -/
def forest : Rs.Forest :=
  .item (.mod c!"m") 1 4
    (.item (.fn c!"f") 2 7
      (.node
        (.mac (RustExample.mark 3 [RustExample.ident c!"ZZ" 3 29, RustExample.lit c!"," 3 31, RustExample.lit c!"\"title a\"" 3 33])
        (.mac ⟨[c!"println"], 4, 8, []⟩
        (.mac (RustExample.mark 5 [])
        (.mac (RustExample.mark 6 [RustExample.ident c!"REQ_B" 6 29]) .nil)))) .nil)
    (.item (.impl c!"S" (some (false, c!"T"))) 8 15
      (.item (.implMethod c!"g") 8 22 (.mac (RustExample.mark 8 [RustExample.lit c!"\"REQ_C\"" 8 54]) .nil) .nil) .nil)) .nil

def e : Env := { env RustExample.file config with
  syn := ⟨fun t => .ok (if t = c!"new" then forest else RustExample.file), fun _ => c!"[..]"⟩ }

def newFiles : List (Path × Str) := [
  (c!"p/req.md", c!"# ZZ: title a\n# ZZ: again\n# REQ_B: title b\n"),
  (c!"p/a.rs", c!"new"), (c!"p/Issue1.txt", []), (c!"/tags", c!"old\n"), (c!"requirements.toml", c!"...")]

theorem markdown_renamed : MarkdownRenamed f .ascii c!"p/req.md" c!"p/req.md"
    ⟨Utf8.encode c!"# REQ_A: title a\n# REQ_A: again\n# REQ_B: title b\n", none⟩
    ⟨Utf8.encode c!"# ZZ: title a\n# ZZ: again\n# REQ_B: title b\n", none⟩ := by
  have doc : ∀ {h1 h2 h3 i1 i2 i3 t1 t2 t3 : Str}, ReqHeading .ascii h1 1 i1 t1 → ReqHeading .ascii h2 1 i2 t2 →
      ReqHeading .ascii h3 1 i3 t3 → Document .ascii c!"p/req.md" [h1, h2, h3]
        [⟨1, i1, t1, [], .no⟩, ⟨2, i2, t2, [], .no⟩, ⟨3, i3, t3, [], .no⟩] := by
    intro h1 h2 h3 i1 i2 i3 t1 t2 t3 a b c
    have one : ∀ {n : Nat}, Body .ascii c!"p/req.md" n [] [] .no := .attrs (.inl (.inl rfl)) (.nil _)
    exact ⟨[], _, rfl, by simp, .inr ⟨_, _, _, _, _, rfl, a⟩,
      .cons (body := []) (rest := [h2, h3]) a (by simp) (.inr ⟨_, _, _, _, _, rfl, b⟩) one <|
      .cons (body := []) (rest := [h3]) b (by simp) (.inr ⟨_, _, _, _, _, rfl, c⟩) one <|
      .cons (body := []) (rest := []) c (by simp) (.inl rfl) one (.nil _)⟩
  have a1 : ReqHeading .ascii c!"# REQ_A: title a\n" 1 c!"REQ_A" c!"title a" :=
    heading_of (p := (['#'], c!"REQ_A", c!"title a")) (by decide +kernel) (by decide +kernel)
  have a2 : ReqHeading .ascii c!"# REQ_A: again\n" 1 c!"REQ_A" c!"again" :=
    heading_of (p := (['#'], c!"REQ_A", c!"again")) (by decide +kernel) (by decide +kernel)
  have a3 : ReqHeading .ascii c!"# REQ_B: title b\n" 1 c!"REQ_B" c!"title b" :=
    heading_of (p := (['#'], c!"REQ_B", c!"title b")) (by decide +kernel) (by decide +kernel)
  have b1 : ReqHeading .ascii c!"# ZZ: title a\n" 1 c!"ZZ" c!"title a" :=
    heading_of (p := (['#'], c!"ZZ", c!"title a")) (by decide +kernel) (by decide +kernel)
  have b2 : ReqHeading .ascii c!"# ZZ: again\n" 1 c!"ZZ" c!"again" :=
    heading_of (p := (['#'], c!"ZZ", c!"again")) (by decide +kernel) (by decide +kernel)
  exact ⟨_, _, none, _, _, _, _, .all _, .all _,
    not_tail_of_whole (.inr (by decide +kernel)), not_tail_of_whole (.inr (by decide +kernel)),
    lines_iff.2 (by decide +kernel), lines_iff.2 (by decide +kernel), doc a1 a2 a3, doc b1 b2 a3,
    .cons ⟨by decide +kernel, rfl, .nil, .no⟩ <| .cons ⟨by decide +kernel, rfl, .nil, .no⟩ <|
    .cons ⟨by decide +kernel, rfl, .nil, .no⟩ .nil⟩

theorem rust_renamed : RustRenamed f e.syn c!"p/a.rs" c!"p/a.rs" ⟨Utf8.encode c!"...", none⟩ ⟨Utf8.encode c!"new", none⟩ := by
  refine ⟨_, _, RustExample.file, forest, rfl, rfl, by decide +kernel, by decide +kernel, ?_⟩
  have mf : ∃ name, Joined [c!"m", c!"f"] name ∧ Joined [c!"m", c!"f"] (f name) :=
    ⟨_, .cons c!"m" (.one c!"f"), .cons c!"m" (.one c!"f")⟩
  have mg : ∃ name, Joined [c!"m", c!"(S as T)", c!"g"] name ∧ Joined [c!"m", c!"(S as T)", c!"g"] (f name) :=
    ⟨_, .cons c!"m" (.cons c!"(S as T)" (.one c!"g")), .cons c!"m" (.cons c!"(S as T)" (.one c!"g"))⟩
  refine .cons ⟨.rfl, fun _ => mf, fun _ => ⟨rfl, rfl⟩, fun _ => .inl ⟨c!"REQ_A", some c!"title a",
      .inr (.inr ⟨_, _, _, _, rfl, rfl, rfl, ⟨rfl, rfl, by decide +kernel⟩, rfl⟩),
      .inr (.inr ⟨_, _, _, _, rfl, rfl, rfl, ⟨rfl, rfl, by decide +kernel⟩, rfl⟩)⟩⟩ <|
    .cons ⟨.rfl, fun h => absurd h (by simp [IsMark]), fun h => absurd h (by simp [IsMark]), fun h => absurd h (by simp [IsMark])⟩ <|
    .cons ⟨.rfl, fun _ => mf, fun _ => ⟨rfl, rfl⟩, fun _ => .inr ⟨_, _, _, _, _, .nothing rfl, .nothing rfl⟩⟩ <|
    .cons ⟨.rfl, fun _ => mf, fun _ => ⟨rfl, rfl⟩, fun _ => .inl ⟨c!"REQ_B", none, .inl ⟨_, rfl, rfl, rfl, rfl⟩,
      .inl ⟨_, rfl, rfl, rfl, rfl⟩⟩⟩ <|
    .cons ⟨.rfl, fun _ => mg, fun _ => ⟨rfl, rfl⟩, fun _ => .inl ⟨c!"REQ_C", none,
      .inr (.inl ⟨_, rfl, rfl, ⟨rfl, rfl, by decide +kernel⟩, rfl⟩),
      .inr (.inl ⟨_, rfl, rfl, ⟨rfl, rfl, by decide +kernel⟩, rfl⟩)⟩⟩ .nil

theorem project_renamed : ProjectRenamed f e (world files) (world newFiles) c!"p" c!"p" config config := by
  refine ⟨f_injective, rfl, rfl, rfl, .cons ⟨rfl, rfl, rfl, rfl, [c!"p/req.md"], [c!"p/req.md"], ?_, ?_, ?_⟩ <|
    .cons ⟨rfl, rfl, rfl, rfl, [c!"p/a.rs", c!"/src/b.rs"], [c!"p/a.rs", c!"/src/b.rs"], ?_, ?_, ?_⟩ <|
    .cons ⟨rfl, rfl, rfl, rfl, [c!"p/Issue1.txt"], [c!"p/Issue1.txt"], ?_, ?_, ?_⟩ .nil⟩
  · exact .inr ⟨by decide, c!"req.md", rfl, by decide⟩
  · exact .inr ⟨by decide, c!"req.md", rfl, by decide⟩
  · exact .cons (C150_path f_injective (.inl ⟨_, _, by decide +kernel, by decide +kernel, .markdown markdown_renamed⟩)) .nil
  · exact .inl ⟨rfl, by decide, .cons (fs := [c!"p/a.rs"]) (by decide +kernel) <| .cons (fs := [c!"/src/b.rs"]) (by decide +kernel) .nil⟩
  · exact .inl ⟨rfl, by decide, .cons (fs := [c!"p/a.rs"]) (by decide +kernel) <| .cons (fs := [c!"/src/b.rs"]) (by decide +kernel) .nil⟩
  · exact .cons (C150_path f_injective (.inl ⟨_, _, by decide +kernel, by decide +kernel, .rust rust_renamed⟩)) <|
      .cons (C150_path f_injective (.inr ⟨c!"not found", by decide +kernel, by decide +kernel⟩)) .nil
  · exact .inr ⟨by decide, c!"Issue1.txt", rfl, by decide⟩
  · exact .inr ⟨by decide, c!"Issue1.txt", rfl, by decide⟩
  · exact .cons (C150_path f_injective (.inl ⟨⟨[], none⟩, ⟨[], none⟩, by decide +kernel, by decide +kernel,
      .same (reqs := [⟨c!"Issue1", none, ⟨c!"p/Issue1.txt", none⟩, [], [], [], .empty⟩]) (errs := []) rfl
        (fun _ => ⟨c!"Issue1.txt", fileName_iff.1 (by decide +kernel), fileName_iff.1 (by decide +kernel)⟩)
        ((C81_file ..).1 (by decide +kernel)) (fun r hr => by
          simp at hr; subst hr; exact ⟨by decide +kernel, by simp⟩) (by simp)⟩)) .nil

/-- The errors of the artefacts, what is covered, and what is not. -/
def found (c : PanicM Controller) :
    Option (List (List Error) × List (List (RequirementId × RequirementId × CoverageDirection)) × Nat) :=
  c.toOption.map fun c => (c.graph.artefacts.values.map (·.errors), c.tracedGraph.tracedRelations.map coverTriples,
    c.tracedGraph.errors.length)

set_option synthInstance.maxSize 2000 in
set_option synthInstance.maxHeartbeats 200000 in
/-- The example with the other name: the same results with the other name, in another order. -/
example : found (Controller.new e (world files) config c!"p") = some ([[.format (.newWithLineAndColumn c!"p/a.rs" 5 8) c!"requirement_covered!() has no arguments",
      .io c!"/src/b.rs" c!"not found"], [.requirementWithoutTitle
      ⟨c!"Issue1", none, ⟨c!"p/Issue1.txt", none⟩, [], [], [], .empty⟩],
      [.duplicateRequirement (MovedExample.heading c!"p/req.md" c!"REQ_A" c!"title a" 1)
        (MovedExample.heading c!"p/req.md" c!"REQ_A" c!"again" 2)]],
      [[(c!"REQ_A", c!"m::f", .upwards), (c!"REQ_B", c!"m::f", .upwards)]], 2) ∧
    found (Controller.new e (world newFiles) config c!"p") = some ([[.format (.newWithLineAndColumn c!"p/a.rs" 5 8) c!"requirement_covered!() has no arguments",
      .io c!"/src/b.rs" c!"not found"], [.requirementWithoutTitle
      ⟨c!"Issue1", none, ⟨c!"p/Issue1.txt", none⟩, [], [], [], .empty⟩],
      [.duplicateRequirement (MovedExample.heading c!"p/req.md" c!"ZZ" c!"title a" 1)
        (MovedExample.heading c!"p/req.md" c!"ZZ" c!"again" 2)]],
      [[(c!"REQ_B", c!"m::f", .upwards), (c!"ZZ", c!"m::f", .upwards)]], 2) := by
  decide +kernel

example : (Main.main e args (world files)).1 = 1 ∧ (Main.main e args (world newFiles)).1 = 1 := by decide +kernel

end RenamedExample

end Reqtrace
