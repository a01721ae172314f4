import Verif.Props.Renamed
import Verif.Props.Edited
import Verif.Spec.Reworded

/-!
# C167: the same in other words
-/

namespace Reqtrace

open Spec

namespace Reword

/-! ## Markdown -/

/-- Both are texts, or the same references at any places. -/
inductive ValueSim : Value → Value → Prop
  | text (s t) : ValueSim (.text s) (.text t)
  | refs {rs rs'} : rs'.map (moveRef nowhere) = rs.map (moveRef nowhere) → ValueSim (.refs rs) (.refs rs')

def AttrSim (a a' : Attr) : Prop := a'.name = a.name ∧ ValueSim a.value a'.value

structure SectionSim (s s' : Section) : Prop where
  id : s'.id = s.id
  title : s'.title = s.title
  attrs : Pairs AttrSim s.attrs s'.attrs
  cut : SameCut s.cut s'.cut

theorem refs_shift (k k' : Nat) (rs : List Reference) :
    (rs.map (shiftRef k')).map (moveRef nowhere) = (rs.map (shiftRef k)).map (moveRef nowhere) := by
  rw [List.map_map, List.map_map]; rfl

theorem attrs_shift (k k' : Nat) (as : List Attr) : Pairs AttrSim (as.map (shiftAttr k)) (as.map (shiftAttr k')) := by
  induction as with
  | nil => exact .nil
  | cons a as ih =>
    refine .cons ⟨rfl, ?_⟩ ih
    obtain ⟨l, n, v⟩ := a
    cases v with
    | text s => exact .text _ _
    | refs rs => exact .refs (refs_shift k k' rs)

theorem cut_shift (k k' : Nat) (c : Cut) : SameCut (shiftCut k c) (shiftCut k' c) := by
  cases c with
  | no => exact .no
  | heading => exact .heading
  | wrong n what => exact .wrong _ _ _

theorem refList_both (U : Unicode) (p : Path) {l a v : Str} {items : List Str} (h1 : AttrLine l a v)
    (h2 : a = c!"Covers" ∨ a = c!"Depends") (h3 : ∀ m ∈ items, m.head? ≠ some '#' ∧ ∃ id t, RefLine U m id t) (n n' : Nat) :
    ∃ rs rs', RefList U p n l items a rs ∧ RefList U p n' l items a rs' ∧
      rs'.map (moveRef nowhere) = rs.map (moveRef nowhere) := by
  obtain ⟨more, h7⟩ := Md.refItems_exist U p (0 + 1) items h3
  obtain ⟨ids, h8⟩ := Md.partIds_exist (splitOnChar ',' (trim v))
  have hr : RefList U p 0 l items a _ :=
    ⟨v, trim v, _, ids, more, h1, h2, trimsTo_iff.2 rfl, Md.parts_exist _, h8, h7, rfl⟩
  have a1 := shift_refList n hr
  have a2 := shift_refList n' hr
  rw [Nat.zero_add] at a1 a2
  exact ⟨_, _, a1, a2, refs_shift _ _ _⟩

theorem attrs_reworded {U : Unicode} (p : Path) {ls ls' : List Str} (h : AttrsReworded U ls ls') : ∀ n n' : Nat,
    ∃ as cut as' cut', Attrs U p n ls as cut ∧ Attrs U p n' ls' as' cut' ∧ Pairs AttrSim as as' ∧ SameCut cut cut' := by
  induction h with
  | same ls =>
    intro n n'
    obtain ⟨as, cut, h⟩ := Md.attrs_exist U p _ 0 ls (Nat.le_refl _)
    have a1 := shift_attrs n h
    have a2 := shift_attrs n' h
    rw [Nat.zero_add] at a1 a2
    exact ⟨_, _, _, _, a1, a2, attrs_shift _ _ _, cut_shift _ _ _⟩
  | blank _ ih =>
    intro n n'
    obtain ⟨as, cut, as', cut', a1, a2, a3⟩ := ih (n + 1) n'
    exact ⟨_, _, _, _, .skip a1, a2, a3⟩
  | blank' _ ih =>
    intro n n'
    obtain ⟨as, cut, as', cut', a1, a2, a3⟩ := ih n (n' + 1)
    exact ⟨_, _, _, _, a1, .skip a2, a3⟩
  | @text l l' a v v' more more' rest rest' h1 h2 h3 h4 h5 h6 h7 _ ih =>
    intro n n'
    obtain ⟨as, cut, as', cut', a1, a2, a3, a4⟩ := ih (n + 1 + more.length) (n' + 1 + more'.length)
    exact ⟨_, _, _, _, .text h1 h3 h4 (fun m hm => h5 m (by simp [hm])) h6 a1,
      .text h2 h3 h4 (fun m hm => h5 m (by simp [hm])) h7 a2, .cons ⟨rfl, .text _ _⟩ a3, a4⟩
  | @refs l a v items b b' rest rest' h1 h2 h3 h4 h5 _ ih =>
    intro n n'
    obtain ⟨as, cut, as', cut', a1, a2, a3, a4⟩ := ih (n + 1 + items.length + 1) (n' + 1 + items.length + 1)
    obtain ⟨rs, rs', r1, r2, r3⟩ := refList_both U p h1 h2 h3 n n'
    exact ⟨_, _, _, _, .refsBlank r1 h4 a1, .refsBlank r2 h5 a2, .cons ⟨rfl, .refs r3⟩ a3, a4⟩

theorem body_reworded {U : Unicode} (p : Path) {ls ls' : List Str} (h : BodyReworded U ls ls') : ∀ n n' : Nat,
    ∃ as cut as' cut', Body U p n ls as cut ∧ Body U p n' ls' as' cut' ∧ Pairs AttrSim as as' ∧ SameCut cut cut' := by
  induction h with
  | same ls =>
    intro n n'
    obtain ⟨as, cut, h⟩ := Md.body_exists U p 0 ls
    have a1 := shift_body n h
    have a2 := shift_body n' h
    rw [Nat.zero_add] at a1 a2
    exact ⟨_, _, _, _, a1, a2, attrs_shift _ _ _, cut_shift _ _ _⟩
  | blank _ ih =>
    intro n n'
    obtain ⟨as, cut, as', cut', a1, a2, a3⟩ := ih (n + 1) n'
    exact ⟨_, _, _, _, .skip a1, a2, a3⟩
  | blank' _ ih =>
    intro n n'
    obtain ⟨as, cut, as', cut', a1, a2, a3⟩ := ih n (n' + 1)
    exact ⟨_, _, _, _, a1, .skip a2, a3⟩
  | attrs h1 h2 h3 =>
    intro n n'
    obtain ⟨as, cut, as', cut', a1, a2, a3, a4⟩ := attrs_reworded p h3 n n'
    exact ⟨_, _, _, _, .attrs h1 a1, .attrs h2 a2, a3, a4⟩
  | @prose l l' more more' rest rest' h1 h2 h3 h4 h5 =>
    intro n n'
    obtain ⟨as, cut, as', cut', a1, a2, a3, a4⟩ := attrs_reworded p h5 (n + 1 + more.length) (n' + 1 + more'.length)
    exact ⟨_, _, _, _,
      .prose h1.notEmpty (h1.noHeading _ (by simp)) h1.noAttr (fun m hm => h1.noHeading m (by simp [hm])) h1.noAttrs h3 a1,
      .prose h2.notEmpty (h2.noHeading _ (by simp)) h2.noAttr (fun m hm => h2.noHeading m (by simp [hm])) h2.noAttrs h4 a2,
      .cons ⟨rfl, .text _ _⟩ a3, a4⟩

theorem sections_reworded {U : Unicode} (p : Path) {ls ls' : List Str} (h : SectionsReworded U ls ls') :
    (Ends U ls ∧ Ends U ls') ∧ ∀ n n' : Nat, ∃ ss ss', Sections U p n ls ss ∧ Sections U p n' ls' ss' ∧
      Pairs SectionSim ss ss' := by
  induction h with
  | nil => exact ⟨⟨.inl rfl, .inl rfl⟩, fun n n' => ⟨[], [], .nil _, .nil _, .nil⟩⟩
  | @cons h h' level level' id title body body' rest rest' h1 h2 h3 h4 _ ih =>
    obtain ⟨⟨e1, e2⟩, ih⟩ := ih
    refine ⟨⟨.inr ⟨_, _, _, _, _, rfl, h1⟩, .inr ⟨_, _, _, _, _, rfl, h2⟩⟩, fun n n' => ?_⟩
    obtain ⟨ss, ss', s1, s2, s3⟩ := ih (n + 1 + body.length) (n' + 1 + body'.length)
    obtain ⟨as, cut, as', cut', a1, a2, a3, a4⟩ := body_reworded p h4 (n + 1) (n' + 1)
    exact ⟨_, _, .cons h1 (fun l hl => h3 l (by simp [hl])) e1 a1 s1, .cons h2 (fun l hl => h3 l (by simp [hl])) e2 a2 s2,
      .cons ⟨rfl, rfl, a3, a4⟩ s3⟩

theorem document_reworded {U : Unicode} (p : Path) {ls ls' : List Str} (h : DocumentReworded U ls ls') :
    ∃ ss ss', Document U p ls ss ∧ Document U p ls' ss' ∧ Pairs SectionSim ss ss' := by
  obtain ⟨pre, pre', rest, rest', rfl, rfl, h1, h2⟩ := h
  obtain ⟨⟨e1, e2⟩, h3⟩ := sections_reworded p h2
  obtain ⟨ss, ss', s1, s2, s3⟩ := h3 (pre.length + 1) (pre'.length + 1)
  exact ⟨ss, ss', ⟨pre, rest, rfl, fun l hl => h1 l (by simp [hl]), e1, s1⟩,
    ⟨pre', rest', rfl, fun l hl => h1 l (by simp [hl]), e2, s2⟩, s3⟩

theorem lastOf_sim {as as' : List Attr} (h : Pairs AttrSim as as') (name : Str) :
    (lastOf as name = none ∧ lastOf as' name = none) ∨
      ∃ v v', lastOf as name = some v ∧ lastOf as' name = some v' ∧ ValueSim v v' := by
  have := Ren.pairs_getLast (Ren.pairs_filter (p := fun a => a.name = name) (q := fun a => a.name = name)
    (fun a b h => by simp [h.1]) h)
  unfold lastOf
  rcases this with ⟨e1, e2⟩ | ⟨x, y, e1, e2, h⟩
  · exact .inl ⟨by rw [e1]; rfl, by rw [e2]; rfl⟩
  · exact .inr ⟨x.value, y.value, by rw [e1]; rfl, by rw [e2]; rfl, h.2⟩

theorem given_sim {as as' : List Attr} (h : Pairs AttrSim as as') (name : Str) :
    alreadyGiven as' name = alreadyGiven as name := by
  unfold alreadyGiven
  rcases lastOf_sim h name with ⟨e1, e2⟩ | ⟨v, v', e1, e2, h⟩
  · rw [e1, e2]
  · rw [e1, e2]
    cases h with
    | text => rfl
    | @refs rs rs' h =>
      have := congrArg List.length h
      rw [List.length_map, List.length_map] at this
      cases rs <;> cases rs' <;> simp_all

theorem repeated_sim (p q : Path) (id : Str) {as as' : List Attr} (h : Pairs AttrSim as as') :
    ∀ {before before' : List Attr}, Pairs AttrSim before before' →
    (repeated q id before' as').map forgetError = (repeated p id before as).map forgetError := by
  induction h with
  | nil => intro _ _ _; rfl
  | @cons a a' as as' h1 _ ih =>
    intro before before' hb
    unfold repeated
    rw [List.map_append, List.map_append, ih (Ren.pairs_append hb (.cons h1 .nil)), h1.1, given_sim hb]
    congr 1
    split <;> rfl

theorem cut_sim (p q : Path) {c c' : Cut} (h : SameCut c c') :
    (cutError q c').map forgetError = (cutError p c).map forgetError := by
  cases h <;> rfl

theorem documentErrors_sim (p q : Path) (failure : Option Str) {ss ss' : List Section} (h : Pairs SectionSim ss ss') :
    (documentErrors q failure ss').map forgetError = (documentErrors p failure ss).map forgetError := by
  unfold documentErrors
  rw [List.map_append, List.map_append]
  congr 1
  · induction h with
    | nil => rfl
    | cons h1 _ ih =>
      rw [List.flatMap_cons, List.flatMap_cons, List.map_append, List.map_append, ih]
      congr 1
      unfold Section.errors
      rw [List.map_append, List.map_append, cut_sim p q h1.cut, h1.id, repeated_sim p q _ h1.attrs .nil]
  · cases failure <;> rfl

theorem kept_sim (failure : Option Str) {ss ss' : List Section} (h : Pairs SectionSim ss ss') :
    Pairs SectionSim (kept failure ss) (kept failure ss') := by
  induction h with
  | nil => exact .nil
  | @cons a b _ _ h1 h2 ih =>
    cases h2 with
    | nil =>
      unfold kept
      have hc := h1.cut
      clear ih
      have : ∀ {c c' : Cut}, SameCut c c' →
          Pairs SectionSim (match failure, c with | none, .no => [a] | _, _ => [])
            (match failure, c' with | none, .no => [b] | _, _ => []) := by
        intro c c' h
        cases h <;> cases failure <;> first | exact .nil | exact .cons h1 .nil
      exact this hc
    | cons h3 h4 => exact .cons h1 ih

theorem requirement_sim {p q : Path} {s s' : Section} (h : SectionSim s s') {r r' : Requirement}
    (hr : IsRequirement p s r) (hr' : IsRequirement q s' r') : gistOf r' = gistOf r := by
  obtain ⟨a1, a2, a3, a4, a5, a6, a7⟩ := hr
  obtain ⟨b1, b2, b3, b4, b5, b6, b7⟩ := hr'
  have hrefs : ∀ name, (match lastOf s'.attrs name with | some (.refs rs) => rs | _ => []).map (moveRef nowhere) =
      (match lastOf s.attrs name with | some (.refs rs) => rs | _ => []).map (moveRef nowhere) := by
    intro name
    rcases lastOf_sim h.attrs name with ⟨e1, e2⟩ | ⟨v, v', e1, e2, h⟩
    · rw [e1, e2]
    · rw [e1, e2]
      cases h with
      | text => rfl
      | refs h => exact h
  unfold gistOf
  simp only [Requirement.mk.injEq, a1, a2, b1, b2, h.id, h.title, true_and, and_true, a4, a5, b4, b5]
  exact ⟨rfl, hrefs _, hrefs _⟩

theorem requirements_sim {p q : Path} {ss ss' : List Section} (h : Pairs SectionSim ss ss') :
    ∀ {rs rs' : List Requirement}, AreRequirements p ss rs → AreRequirements q ss' rs' →
    rs'.map gistOf = rs.map gistOf := by
  induction h with
  | nil => intro rs rs' h h'; cases h; cases h'; rfl
  | cons h1 _ ih =>
    intro rs rs' h h'
    cases h with
    | cons a b =>
      cases h' with
      | cons a' b' => simp [requirement_sim h1 a a', ih b b']

theorem empty_of_map {α β : Type} {f : α → β} {as bs : List α} (h : bs.map f = as.map f) : bs = [] ↔ as = [] := by
  cases as <;> cases bs <;> simp_all

theorem gist_of_forget {reqs reqs' : List Requirement}
    (h : reqs'.map forgetReq = reqs.map (fun r => forgetReq (renamed (fun id => id) r))) :
    reqs'.map gistOf = reqs.map gistOf := by
  have h5 : ∀ r, gistOf (forgetReq r) = gistOf r := by
    intro r
    simp [gistOf, forgetReq, moveRef, nowhere, Function.comp_def]
  have h6 : ∀ r, renamed (fun id => id) r = r := fun r => renamed_unaffected ⟨rfl, fun _ _ => rfl⟩
  have := congrArg (List.map gistOf) h
  simpa [List.map_map, Function.comp_def, h5, h6] using this

/-! ## A project -/

/-- An artefact as far as it counts. -/
def sketch (a : Artefact) : Artefact :=
  { a with files := [], requirements := a.requirements.mapValues gistOf,
           errors := if a.errors = [] then [] else [.config []] }

theorem paths_mean {env : Env} {w w' : World} {parser : ArtefactParser} {fs fs' : List Path}
    (h : Pairs (PathReworded env w w' parser) fs fs') : ∀ {reqs : List Requirement} {errs : List Error},
    PathsMean env w parser fs reqs errs → ∃ reqs' errs', PathsMean env w' parser fs' reqs' errs' ∧
      reqs'.map gistOf = reqs.map gistOf ∧ (errs' = [] ↔ errs = []) := by
  induction h with
  | nil => intro reqs errs h; cases h; exact ⟨[], [], .nil, rfl, Iff.rfl⟩
  | @cons p q ps qs h1 _ ih =>
    intro reqs errs h
    cases h with
    | @cons _ _ r rs e es h2 h3 =>
      obtain ⟨rs', es', h4, h5, h6⟩ := ih h3
      obtain ⟨r0, e0, r', e', m1, m2, m3, m4⟩ := h1
      obtain ⟨rfl, rfl⟩ := pathMeans_unique h2 m1
      exact ⟨_, _, .cons m2 h4, by simp [m3, h5], by simp [m4, h6]⟩

theorem artefact_mean {env : Env} {w w' : World} {base base' : Path} {ac ac' : ArtefactConfig}
    (hm : ArtefactReworded env w w' base base' ac ac') {fs : List Path} {reqs : List Requirement} {errs : List Error}
    (h : parseArtefact env w ac base = .ok (fs, reqs, errs)) :
    ∃ fs' reqs' errs', parseArtefact env w' ac' base' = .ok (fs', reqs', errs') ∧
      reqs'.map gistOf = reqs.map gistOf ∧ (errs' = [] ↔ errs = []) := by
  obtain ⟨gs, gs', h1, h2, h3⟩ := hm.files
  obtain ⟨h4, h5⟩ := (parseArtefact_filesOf h1 _).1 h
  cases h5
  obtain ⟨reqs', errs', h6, h7, h8⟩ := paths_mean h3 ((pathsMean_iff _ _ _).2 ⟨h4, rfl, rfl⟩)
  exact ⟨gs', reqs', errs', parseArtefact_iff.2 (.files h2 (hm.parser ▸ h6)), h7, h8⟩

theorem collect_gist (reqs : List Requirement) : ∀ (reqs' : List Requirement) (m m' : BMap RequirementId Requirement)
    (errs errs' : List Error), reqs'.map gistOf = reqs.map gistOf → m'.mapValues gistOf = m.mapValues gistOf →
    (errs' = [] ↔ errs = []) →
    (collectRequirements reqs' m' errs').1.mapValues gistOf = (collectRequirements reqs m errs).1.mapValues gistOf ∧
      ((collectRequirements reqs' m' errs').2 = [] ↔ (collectRequirements reqs m errs).2 = []) := by
  induction reqs with
  | nil =>
    intro reqs' m m' errs errs' h1 h2 h3
    obtain rfl : reqs' = [] := by simpa using h1
    exact ⟨h2, h3⟩
  | cons r reqs ih =>
    intro reqs' m m' errs errs' h1 h2 h3
    cases reqs' with
    | nil => cases h1
    | cons r' reqs' =>
      simp only [List.map_cons, List.cons.injEq] at h1
      have hid : r'.id = r.id := congrArg (·.id) h1.1
      have hget := congrArg (fun x : BMap RequirementId Requirement => x.get r.id) h2
      simp only [BMap.get_mapValues] at hget
      simp only [collectRequirements]
      rw [hid]
      cases hm : m.get r.id with
      | none =>
        rw [hm] at hget
        cases hm' : m'.get r.id with
        | some x => rw [hm'] at hget; cases hget
        | none => exact ih _ _ _ _ _ h1.2 (by rw [BMap.mapValues_insert, BMap.mapValues_insert, h2, h1.1]) h3
      | some first =>
        rw [hm] at hget
        cases hm' : m'.get r.id with
        | none => rw [hm'] at hget; cases hget
        | some x => exact ih _ _ _ _ _ h1.2 h2 (by simp)

theorem untitled_gist (m m' : BMap RequirementId Requirement) (h : m'.mapValues gistOf = m.mapValues gistOf) :
    (m'.values.filter (fun r => r.title.isNone)).map Error.requirementWithoutTitle = [] ↔
      (m.values.filter (fun r => r.title.isNone)).map Error.requirementWithoutTitle = [] := by
  have := congrArg (fun x : BMap RequirementId Requirement => (x.values.filter (fun r => r.title.isNone)).length) h
  simp only [BMap.values_mapValues, List.filter_map, List.length_map] at this
  rw [List.map_eq_nil_iff, List.map_eq_nil_iff, ← List.length_eq_zero_iff, ← List.length_eq_zero_iff]
  exact ⟨fun h => this.symm.trans h, fun h => this.trans h⟩

theorem makeArtefact_reworded {env : Env} {w w' : World} {base base' : Path} {ac ac' : ArtefactConfig}
    {roots : BMap ArtefactId Bool} (hm : ArtefactReworded env w w' base base' ac ac') {a : Artefact}
    (h : makeArtefact env w base roots ac = .ok a) :
    ∃ a', makeArtefact env w' base' roots ac' = .ok a' ∧ sketch a' = sketch a := by
  unfold makeArtefact at h ⊢
  rw [← hm.id, ← hm.ignore, ← hm.titles]
  cases hr : roots.get ac.id with
  | none => rw [hr] at h; cases h
  | some root =>
    rw [hr] at h
    simp only [orPanic, bind, Except.bind, parseFromConfig] at h ⊢
    cases hp : parseArtefact env w ac base with
    | error e => rw [hp] at h; cases h
    | ok x =>
      obtain ⟨fs, reqs, errs⟩ := x
      obtain ⟨fs', reqs', errs', h1, h3, h4⟩ := artefact_mean hm hp
      rw [hp] at h
      rw [h1]
      simp only [pure, Except.pure, Except.ok.injEq] at h ⊢
      refine ⟨_, rfl, ?_⟩
      subst h
      obtain ⟨c1, c2⟩ := collect_gist reqs reqs' .empty .empty errs errs' h3 rfl h4
      unfold sketch
      simp only [Artefact.mk.injEq, true_and, c1]
      split
      · simp only [List.append_eq_nil_iff, c2, untitled_gist _ _ c1]
      · simp only [c2]

theorem makeArtefacts_reworded {env : Env} {w w' : World} {base base' : Path} {acs acs' : List ArtefactConfig}
    {roots : BMap ArtefactId Bool} (hm : Pairs (ArtefactReworded env w w' base base') acs acs') :
    ∀ {m m' m1 : BMap ArtefactId Artefact}, m'.mapValues sketch = m.mapValues sketch →
    makeArtefacts env w base roots acs m = .ok m1 →
    ∃ m1', makeArtefacts env w' base' roots acs' m' = .ok m1' ∧ m1'.mapValues sketch = m1.mapValues sketch := by
  induction hm with
  | nil => intro m m' m1 he h; cases h; exact ⟨m', rfl, he⟩
  | @cons ac ac' acs acs' ha _ ih =>
    intro m m' m1 he h
    simp only [makeArtefacts, bind, Except.bind] at h ⊢
    cases hp : makeArtefact env w base roots ac with
    | error e => rw [hp] at h; cases h
    | ok a =>
      obtain ⟨a', h1, h2⟩ := makeArtefact_reworded ha hp
      rw [hp] at h
      rw [h1]
      refine ih ?_ h
      rw [BMap.mapValues_insert, BMap.mapValues_insert, he, h2, ha.id]

theorem gist_repaints : Repaints nowhere gistOf := ⟨fun _ => rfl, fun _ => rfl, fun _ => rfl, fun _ => rfl⟩
theorem sketch_redoes : RepaintsArtefact gistOf sketch := ⟨fun _ => rfl, fun _ => rfl, fun _ => rfl, fun _ => rfl⟩

theorem hasErrors_sketch (m : BMap ArtefactId Artefact) (a : ArtefactId) :
    HasErrors (m.mapValues sketch) a ↔ HasErrors m a := by
  unfold HasErrors
  rw [BMap.get_mapValues]
  cases m.get a with
  | none => simp
  | some art =>
    simp only [Option.map_some, Option.some.injEq, exists_eq_left', exists_and_left, sketch]
    cases art.errors <;> simp

theorem trace_reworded {rels : List Relation} {m m' : BMap ArtefactId Artefact}
    (h : m'.mapValues sketch = m.mapValues sketch) {tg : TracedGraph} (ht : trace ⟨m, rels⟩ = .ok tg) :
    ∃ tg', trace ⟨m', rels⟩ = .ok tg' ∧ SameVerdicts tg tg' := by
  have h1 := C131_places nowhere gistOf sketch gist_repaints sketch_redoes ⟨m, rels⟩
  have h2 := C131_places nowhere gistOf sketch gist_repaints sketch_redoes ⟨m', rels⟩
  simp only [h] at h2
  simp only [h2, ht] at h1
  cases ht' : trace ⟨m', rels⟩ with
  | error e => rw [ht'] at h1; cases h1
  | ok tg' =>
    rw [ht'] at h1
    simp only [Except.map, Except.ok.injEq, repaintTraced, TracedGraph.mk.injEq] at h1
    refine ⟨tg', rfl, ?_, h1.2.2.1, h1.2.2.2, fun a => ?_⟩
    · have := congrArg (List.map fun tr : TracedRelation => (tr.relation, coverTriples tr, tr.uncovered)) h1.2.1
      simpa [List.map_map, Function.comp_def, moveCoverage, coverTriples] using this
    · rw [← hasErrors_sketch, h1.1, hasErrors_sketch]

theorem reworded_ids {env : Env} {w w' : World} {base base' : Path} {acs acs' : List ArtefactConfig}
    (hm : Pairs (ArtefactReworded env w w' base base') acs acs') :
    acs.map (fun ac => (ac.id, true)) = acs'.map (fun ac => (ac.id, true)) := by
  induction hm with
  | nil => rfl
  | cons h _ ih => simp [h.id, ih]

end Reword

open Reword

/-- **C167** Two Markdown files that are the same in other words have the same requirements as far as it counts, and the one
has errors if and only if the other one has. -/
theorem C167_markdown {env : Env} {w w' : World} {p : Path} {file file' : File} (ho : env.os.openFile w p = .ok file)
    (ho' : env.os.openFile w' p = .ok file') (h : MarkdownReworded env.U file file') :
    PathReworded env w w' .markdown p p := by
  obtain ⟨text, text', ls, ls', rfl, rfl, h3, h4, h5, h6, h7⟩ := h
  obtain ⟨ss, ss', d1, d2, d3⟩ := document_reworded p h7
  obtain ⟨rs, -, a⟩ := C76_complete env.U ⟨text, none⟩ p ls ss h3 h5 d1
  obtain ⟨rs', -, a'⟩ := C76_complete env.U ⟨text', none⟩ p ls' ss' h4 h6 d2
  exact ⟨rs, _, rs', _, .opened ho (.markdown (.all _) h3 h5 d1 a),
    .opened ho' (.markdown (.all _) h4 h6 d2 a'), requirements_sim (kept_sim none d3) a a',
    empty_of_map (documentErrors_sim p p none d3)⟩

/-- **C167** So have two Rust files with the same coverage marks. -/
theorem C167_rust {env : Env} {w w' : World} {p q : Path} {file file' : File} (ho : env.os.openFile w p = .ok file)
    (ho' : env.os.openFile w' q = .ok file') (h : RustReworded env.syn p q file file') :
    PathReworded env w w' .rust p q := by
  obtain ⟨text, text', forest, forest', es, errs, es', errs', rfl, rfl, h1, h2, h4, h5, h6, h7⟩ := h
  have h6' : Pairs (Ren.EntryRenamed (fun id => id)) es es' :=
    Ren.pairs_mono (fun a b h => ⟨h.inside, h.items, h.id, h.title⟩) h6
  obtain ⟨reqs, h8⟩ := Ren.grouped_exists es (fun e he => by
    obtain ⟨e', _, h⟩ := Reimport.pairs_left h6 e he
    exact h.items.1)
  obtain ⟨reqs', h9, h10⟩ := Ren.grouped_renamed (fun a b h => h) h6' h8
  exact ⟨reqs, errs, reqs', errs', .opened ho (.rust (.all _) (.marks rfl h1 h4 h8)),
    .opened ho' (.rust (.all _) (.marks rfl h2 h5 h9)), gist_of_forget h10, h7⟩

/-- **C167** So have two JSON files with the same requirements as far as it counts. -/
theorem C167_json {env : Env} {w w' : World} {p q : Path} {file file' : File} {reqs reqs' : List Requirement}
    (ho : env.os.openFile w p = .ok file) (ho' : env.os.openFile w' q = .ok file') (h : JsonFile file reqs)
    (h' : JsonFile file' reqs') (hg : reqs'.map gistOf = reqs.map gistOf) : PathReworded env w w' .json p q :=
  ⟨reqs, [], reqs', [], .opened ho (.json h), .opened ho' (.json h'), hg, Iff.rfl⟩

/-- **C167** And so have two files that say the same but for the places. -/
theorem C167_moved {env : Env} {w w' : World} {parser : ArtefactParser} {p q : Path}
    (h : PathRenamed (fun id => id) env w w' parser p q) : PathReworded env w w' parser p q := by
  obtain ⟨reqs, errs, reqs', errs', h1, h2, h3, h4⟩ := h
  refine ⟨reqs, errs, reqs', errs', h1, h2, ?_, ?_⟩
  · exact gist_of_forget h3
  · have := congrArg List.length h4
    rw [List.length_map, List.length_map] at this
    rw [← List.length_eq_zero_iff, ← List.length_eq_zero_iff, this]

/-- **C167** In a project that is the same in other words the same is found: the same coverage, uncovered and derived
requirements, the same errors of tracing, and errors in the files of the same artefacts. -/
theorem C167_project {env : Env} {w w' : World} {base base' : Path} {config config' : Config}
    (hm : ProjectReworded env w w' base base' config config') {c : Controller}
    (h : Controller.new env w config base = .ok c) :
    ∃ c', Controller.new env w' config' base' = .ok c' ∧ SameVerdicts c.tracedGraph c'.tracedGraph := by
  obtain ⟨roots, h1, h2, h3, h4, h5, h6, h7⟩ := new_ok h
  obtain ⟨m', g1, g2⟩ := makeArtefacts_reworded hm.artefacts rfl h2
  have h4' : trace ⟨c.graph.artefacts, config'.relations⟩ = .ok c.tracedGraph := by
    rw [← hm.relations, ← h3]; exact h4
  obtain ⟨tg', g3, g4⟩ := trace_reworded g2 h4'
  refine ⟨⟨base', ⟨m', config'.relations⟩, tg', config'.jobs.getD .empty, config'.defaultJobs.getD []⟩, ?_, g4⟩
  unfold Controller.new
  rw [← hm.relations, ← reworded_ids hm.artefacts, h1]
  simp only [bind, Except.bind, g1]
  rw [hm.relations, g3]
  rfl

/-- **C167** A job finds fault with both projects or with none. -/
theorem C167_verdict {env : Env} {w w' : World} {base base' : Path} {config config' : Config} {c c' : Controller}
    (h : Controller.new env w config base = .ok c) (h' : Controller.new env w' config' base' = .ok c')
    (ht : SameVerdicts c.tracedGraph c'.tracedGraph) (job : Job) : Detects c' job ↔ Detects c job := by
  have hart : c.tracedGraph.artefacts = c.graph.artefacts := (C11_frame (C18_consistent h).1 (C18_no_panic h).1).1
  have hart' : c'.tracedGraph.artefacts = c'.graph.artefacts := (C11_frame (C18_consistent h').1 (C18_no_panic h').1).1
  have hp : ParseProblem c'.tracedGraph.artefacts ↔ ParseProblem c.tracedGraph.artefacts := by
    have := ht.artefacts
    unfold ParseProblem
    unfold HasErrors at this
    exact exists_congr this
  unfold Detects
  split
  · unfold TraceProblem
    refine or_congr ?_ (or_congr hp (or_congr ?_ ?_))
    · have := empty_of_map ht.errors
      cases h1 : c.tracedGraph.errors <;> cases h2 : c'.tracedGraph.errors <;> simp [h1, h2] at this ⊢
    · have hu : ∀ tg : TracedGraph, (∃ tr ∈ tg.tracedRelations, ∃ r, r ∈ tr.uncovered) ↔
          ∃ x ∈ tg.tracedRelations.map (fun tr => (tr.relation, coverTriples tr, tr.uncovered)), ∃ r, r ∈ x.2.2 := by
        intro tg
        constructor
        · rintro ⟨tr, h1, h2⟩
          exact ⟨_, List.mem_map_of_mem h1, h2⟩
        · rintro ⟨x, h1, h2⟩
          obtain ⟨tr, h3, rfl⟩ := List.mem_map.1 h1
          exact ⟨tr, h3, h2⟩
      rw [hu, hu, ht.relations]
    · rw [ht.derived]
  · rw [← hart, ← hart', hp]

/-- **C167** If the reports can be written, the exit code for both projects is the same. -/
theorem C167_exit {env : Env} {w w' : World} {opt opt' : Arguments} {config config' : Config}
    (hm : ProjectReworded env w w' opt.baseDir opt'.baseDir config config') (hj : opt.jobs = opt'.jobs)
    (hg : GoodConfig env w opt.configFile config) (hg' : GoodConfig env w' opt'.configFile config')
    (h : (Main.main env opt w).1 ≤ 1) (h' : (Main.main env opt' w').1 ≤ 1) :
    (Main.main env opt w).1 = (Main.main env opt' w').1 := by
  have key : ∀ {c c' js js' v v'}, AllRun env opt w c js v → AllRun env opt' w' c' js' v' →
      (Detected c' js' ↔ Detected c js) := by
    rintro c c' js js' v v' ⟨cfg, h1, h2, -, h3, -⟩ ⟨cfg', h1', h2', -, h3', -⟩
    cases GoodConfig_unique h1 hg
    cases GoodConfig_unique h1' hg'
    obtain ⟨c'', h4, h5⟩ := C167_project hm h2
    rw [h2'] at h4
    cases h4
    have hr : requested config' opt' = requested config opt := by
      unfold requested; rw [hj, hm.defaultJobs]
    rw [hr, ← hm.jobs] at h3'
    have hmem : ∀ j, j ∈ js' ↔ j ∈ js := fun j => (h3'.mem j).trans (h3.mem j).symm
    unfold Detected
    simp only [hmem, C167_verdict h2 h2' h5]
  obtain ⟨a0, a1, -⟩ := C28_exit_code_partial env opt w
  obtain ⟨b0, b1, -⟩ := C28_exit_code_partial env opt' w'
  have e : ∀ n : Nat, n ≤ 1 → n = 0 ∨ n = 1 := by omega
  rcases e _ h with x | x <;> rcases e _ h' with y | y
  · rw [x, y]
  · obtain ⟨c, js, v, p1, p2⟩ := a0.1 x
    obtain ⟨c', js', v', q1, q2⟩ := b1.1 y
    exact absurd ((key p1 q1).1 q2) p2
  · obtain ⟨c, js, v, p1, p2⟩ := a1.1 x
    obtain ⟨c', js', v', q1, q2⟩ := b0.1 y
    exact absurd ((key p1 q1).2 p2) q2
  · rw [x, y]

namespace RewordedExample

open CtrlExample

/-- Another introduction, another description, another note and another empty line. -/
def before : Str := c!"Intro\n# DES_A: d\nOld text.\n\nNote: old\nCovers:\n* REQ_A\n\n# DES_B: e\nCovers: REQ_B\n"
def after : Str := c!"Other intro\nin two lines\n## DES_A: d\n\nNew text\nNote: it is longer\n\nNote: new\nand more\nCovers:\n* REQ_A\n \n\n# DES_B: e\nCovers: REQ_B\n"

def config : Config := { EditedExample.config with jobs := CtrlExample.config.jobs, defaultJobs := CtrlExample.config.defaultJobs }
def e : Env := env .nil config

def first : World := world [(c!"p/req.md", EditedExample.reqs), (c!"p/des.md", before), (c!"requirements.toml", c!"...")]
def second : World := world [(c!"p/req.md", EditedExample.reqs), (c!"p/des.md", after), (c!"requirements.toml", c!"...")]

theorem tail_lf {t : Str} (h : t.getLast? = some '\n') : ¬ OneByteTail t := by
  rintro ⟨pre, c, he, hc, -⟩
  have : t.getLast? = some c := by rw [he]; simp
  exact hc (by rw [h] at this; exact (Option.some.inj this).symm)

theorem attrs : AttrsReworded .ascii [c!"Note: old\n", c!"Covers:\n", c!"* REQ_A\n", c!"\n"]
    [c!"Note: new\n", c!"and more\n", c!"Covers:\n", c!"* REQ_A\n", c!" \n", c!"\n"] := by
  have a1 : AttrLine c!"Note: old\n" c!"Note" c!"old" := DocExample.attr (SectionsExample.line (by decide)) (by decide +kernel)
  have a2 : AttrLine c!"Note: new\n" c!"Note" c!"new" := DocExample.attr (SectionsExample.line (by decide)) (by decide +kernel)
  have a3 : AttrLine c!"Covers:\n" c!"Covers" [] := DocExample.attr (SectionsExample.line (by decide)) (by decide +kernel)
  refine .text (more := []) (more' := [c!"and more\n"]) a1 a2 (by decide) (by decide) ?_ (.inr ⟨_, _, _, _, rfl, a3⟩)
    (.inr ⟨_, _, _, _, rfl, a3⟩) (.refs (items := [c!"* REQ_A\n"]) (b := c!"\n") (b' := c!" \n") (rest := []) a3 (.inl rfl) ?_ ?_ ?_
    (.blank' (.same [])))
  · intro m hm
    simp only [List.nil_append, List.mem_singleton] at hm
    subst hm
    exact ⟨by decide, DocExample.noAttr (SectionsExample.line (by decide)) (by decide +kernel)⟩
  · intro m hm
    simp only [List.mem_singleton] at hm
    subst hm
    exact ⟨by decide, _, _, (Md.refParts_iff (DocExample.attr.isLine (SectionsExample.line (by decide)))).1
      (show Md.refParts .ascii c!"* REQ_A\n" = some (c!"REQ_A", none) by decide +kernel)⟩
  · intro c hc; simp at hc; subst hc; decide
  · intro c hc; simp at hc; rcases hc with rfl | rfl <;> decide

theorem sections : SectionsReworded .ascii [c!"# DES_A: d\n", c!"Old text.\n", c!"\n", c!"Note: old\n", c!"Covers:\n",
      c!"* REQ_A\n", c!"\n", c!"# DES_B: e\n", c!"Covers: REQ_B\n"]
    [c!"## DES_A: d\n", c!"\n", c!"New text\n", c!"Note: it is longer\n", c!"\n", c!"Note: new\n", c!"and more\n", c!"Covers:\n",
      c!"* REQ_A\n", c!" \n", c!"\n", c!"# DES_B: e\n", c!"Covers: REQ_B\n"] := by
  have a1 : AttrLine c!"Note: old\n" c!"Note" c!"old" := DocExample.attr (SectionsExample.line (by decide)) (by decide +kernel)
  have a2 : AttrLine c!"Note: new\n" c!"Note" c!"new" := DocExample.attr (SectionsExample.line (by decide)) (by decide +kernel)
  refine .cons (level := 1) (level' := 2) (id := c!"DES_A") (title := c!"d")
    (body := [c!"Old text.\n", c!"\n", c!"Note: old\n", c!"Covers:\n", c!"* REQ_A\n", c!"\n"])
    (body' := [c!"\n", c!"New text\n", c!"Note: it is longer\n", c!"\n", c!"Note: new\n", c!"and more\n", c!"Covers:\n",
      c!"* REQ_A\n", c!" \n", c!"\n"])
    (DocExample.head (raw := c!"d") (SectionsExample.line (by decide)) (by decide +kernel)) ?_ ?_
    (.blank' (.prose (more := [c!"\n"]) (more' := [c!"Note: it is longer\n", c!"\n"]) ⟨by decide, ?_, ?_, ?_⟩ ⟨by decide, ?_, ?_, ?_⟩
      (.inr ⟨⟨_, _, _, _, rfl, a1⟩, rfl⟩) (.inr ⟨⟨_, _, _, _, rfl, a2⟩, rfl⟩) attrs))
    (.cons (level := 1) (level' := 1) (id := c!"DES_B") (title := c!"e") (body := [c!"Covers: REQ_B\n"]) (body' := [c!"Covers: REQ_B\n"])
      (rest := []) (rest' := []) (DocExample.head (raw := c!"e") (SectionsExample.line (by decide)) (by decide +kernel))
      (DocExample.head (raw := c!"e") (SectionsExample.line (by decide)) (by decide +kernel)) ?_ (.same _) .nil)
  · exact (Md.reqParts_heading (DocExample.attr.isLine (SectionsExample.line (by decide)))
      (show Md.reqParts .ascii c!"## DES_A: d\n" = some (c!"##", c!"DES_A", c!"d") by decide +kernel)).2
  · intro l hl
    refine DocExample.noHead (SectionsExample.line ?_) ?_
    · revert l; decide
    · revert l; decide +kernel
  · decide
  · exact DocExample.noAttr (SectionsExample.line (by decide)) (by decide +kernel)
  · exact ⟨by simp, trivial⟩
  · decide
  · exact DocExample.noAttr (SectionsExample.line (by decide)) (by decide +kernel)
  · exact ⟨by simp, by simp, trivial⟩
  · intro l hl
    refine DocExample.noHead (SectionsExample.line ?_) ?_
    · revert l; decide
    · revert l; decide +kernel

theorem reworded : PathReworded e first second .markdown c!"p/des.md" c!"p/des.md" := by
  refine C167_markdown (file := ⟨Utf8.encode before, none⟩) (file' := ⟨Utf8.encode after, none⟩) (by decide +kernel)
    (by decide +kernel) ⟨before, after, _, _, rfl, rfl, tail_lf (by decide), tail_lf (by decide), lines_iff.2 rfl, lines_iff.2 rfl,
      [c!"Intro\n"], [c!"Other intro\n", c!"in two lines\n"], _, _, ?_, ?_, ?_, sections⟩
  · decide +kernel
  · decide +kernel
  · intro l hl
    refine DocExample.noHead (SectionsExample.line ?_) ?_
    · revert l; decide
    · revert l; decide +kernel

/-- The project in other words. -/
theorem project : ProjectReworded e first second c!"p" c!"p" config config := by
  refine ⟨rfl, rfl, rfl, .cons ⟨rfl, rfl, rfl, rfl, [c!"p/req.md"], [c!"p/req.md"], .inr ⟨by decide, c!"req.md", rfl, by decide⟩,
    .inr ⟨by decide, c!"req.md", rfl, by decide⟩, .cons ?_ .nil⟩ (.cons ⟨rfl, rfl, rfl, rfl, [c!"p/des.md"], [c!"p/des.md"],
    .inr ⟨by decide, c!"des.md", rfl, by decide⟩, .inr ⟨by decide, c!"des.md", rfl, by decide⟩, .cons reworded .nil⟩ .nil)⟩
  obtain ⟨ss, hd⟩ := C76_exists e.U c!"p/req.md" (splitLines EditedExample.reqs)
  obtain ⟨rs, -, a⟩ := C76_complete e.U ⟨EditedExample.reqs, none⟩ c!"p/req.md" _ ss (tail_lf (by decide))
    (lines_iff.2 rfl) hd
  have hm : FileMeans e c!"p/req.md" ⟨Utf8.encode EditedExample.reqs, none⟩ .markdown rs _ :=
    .markdown (.all _) (tail_lf (by decide)) (lines_iff.2 rfl) hd a
  exact ⟨rs, _, rs, _, .opened (by decide +kernel) hm, .opened (by decide +kernel) hm, rfl, Iff.rfl⟩

set_option synthInstance.maxSize 2000 in
set_option synthInstance.maxHeartbeats 200000 in
/-- The descriptions and notes are others; what is found is the same. -/
example : ((Controller.new e first config c!"p").toOption.map fun c =>
      (c.graph.artefacts.values.map (fun a => a.requirements.values.map (fun r => r.attributes.values)),
        c.tracedGraph.tracedRelations.map (·.uncovered), c.tracedGraph.errors)) =
      some ([[[c!"Old text.\n\n", c!"old"], []], [[], []]], [[]], []) ∧
    ((Controller.new e second config c!"p").toOption.map fun c =>
      (c.graph.artefacts.values.map (fun a => a.requirements.values.map (fun r => r.attributes.values)),
        c.tracedGraph.tracedRelations.map (·.uncovered), c.tracedGraph.errors)) =
      some ([[[c!"New text\nNote: it is longer\n\n", c!"newand more\n"], []], [[], []]], [[]], []) := by
  decide +kernel

/-- Both programs end with the same exit code. -/
example : (Main.main e ⟨c!"requirements.toml", c!"p", []⟩ first).1 = 0 ∧
    (Main.main e ⟨c!"requirements.toml", c!"p", []⟩ second).1 = 0 := by
  decide +kernel

/-- A paragraph that starts like an attribute is no description: here it takes a reference away. -/
example : ((Controller.new e (world [(c!"p/req.md", EditedExample.reqs),
      (c!"p/des.md", c!"# DES_A: d\nText\n\nCovers: REQ_B\n\nCovers: REQ_A\n# DES_B: e\nCovers: REQ_B\n")])
      config c!"p").toOption.map fun c => c.graph.artefacts.values.map (·.errors)) =
    some [[.duplicateAttribute (lineOf c!"p/des.md" 6) c!"Covers" c!"DES_A"], []] := by
  decide +kernel

end RewordedExample

end Reqtrace
