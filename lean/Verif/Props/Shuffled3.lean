import Verif.Props.Shuffled2

/-!
# C136: the order of files and of what stands in them
-/

namespace Reqtrace

open Spec

theorem Spec.SameInOrder.append {a a' b b' : List Requirement} {e e' f f' : List Error} (h : SameInOrder a a' e e')
    (h' : SameInOrder b b' f f') : SameInOrder (a ++ b) (a' ++ b') (e ++ f) (e' ++ f') := by
  unfold SameInOrder
  simp only [List.map_append]
  exact ⟨h.1.append h'.1, h.2.append h'.2⟩

theorem fileShuffled_mean {env : Env} {w w' : World} {p q : Path} {parser : ArtefactParser}
    (h : FileShuffled env w w' p q parser) {reqs : List Requirement} {errs : List Error}
    (hm : PathMeans env w parser p reqs errs) :
    ∃ reqs' errs', PathMeans env w' parser q reqs' errs' ∧ SameInOrder reqs reqs' errs errs' := by
  cases h with
  | same ho hn =>
    obtain ⟨reqs', errs', h1, h2, h3⟩ := sameFiles_mean (SameFiles.cons ho hn .nil) (.cons hm .nil)
    cases h1 with
    | @cons _ _ r rs e es h4 h5 =>
      cases h5
      simp only [List.append_nil] at h2 h3
      exact ⟨r, e, h4, .of_eq h2.symm, .of_eq h3.symm⟩
  | @sections t t' bs bs' h1 h2 h3 h4 h5 =>
    cases hm with
    | closed hc => rw [h1] at hc; cases hc
    | @opened file _ _ hc hf =>
      rw [h1] at hc
      cases hc
      rw [← C81_file] at hf
      simp only [fileResult, File.lines_encode] at hf
      obtain ⟨rs', es', g1, g2⟩ := C134_sections_partial env.U t t' p bs bs' h3 h4 h5 hf
      refine ⟨rs'.map (reqInFile q), es'.map (errorInFile q), .opened h2 ?_, ?_⟩
      · rw [← C81_file]
        simp only [fileResult, File.lines_encode]
        rw [Md.parse_in q env.U ⟨t', none⟩ p, g1]
        rfl
      · have e1 := forgetReqs_in .markdown q rs'
        rw [show reqsInFile .markdown q rs' = rs'.map (reqInFile q) from rfl] at e1
        exact ⟨by rw [e1]; exact g2.1, by rw [forgetErrors_in]; exact g2.2⟩
  | @code t t' fs fs' h1 h2 h3 h4 h5 h6 =>
    cases hm with
    | closed hc => rw [h1] at hc; cases hc
    | @opened file _ _ hc hf =>
      rw [h1] at hc
      cases hc
      rw [← C81_file] at hf
      simp only [fileResult, (File.whole_ok _ _).2 rfl] at hf
      obtain ⟨rs', es', g1, g2⟩ := C135_items_partial env.syn t t' p q fs fs' h3 h4 h5 h6 hf
      refine ⟨rs', es', .opened h2 ?_, g2⟩
      rw [← C81_file]
      simp only [fileResult, (File.whole_ok _ _).2 rfl]
      exact g1

theorem filesShuffled_mean {env : Env} {w w' : World} {parser : ArtefactParser} {fs gs : List Path}
    (h : FilesShuffled env w w' parser fs gs) : ∀ {reqs : List Requirement} {errs : List Error},
    PathsMean env w parser fs reqs errs →
    ∃ reqs' errs', PathsMean env w' parser gs reqs' errs' ∧ SameInOrder reqs reqs' errs errs' := by
  induction h with
  | nil => intro reqs errs h; cases h; exact ⟨[], [], .nil, .refl _, .refl _⟩
  | cons h1 _ ih =>
    intro reqs errs h
    cases h with
    | cons h3 h4 =>
      obtain ⟨r', e', a1, a2⟩ := fileShuffled_mean h1 h3
      obtain ⟨rs', es', b1, b2⟩ := ih h4
      exact ⟨_, _, .cons a1 b1, Spec.SameInOrder.append a2 b2⟩

theorem pathsMean_perm {env : Env} {w : World} {parser : ArtefactParser} {fs gs : List Path} (h : fs.Perm gs)
    {reqs : List Requirement} {errs : List Error} (hm : PathsMean env w parser fs reqs errs) :
    ∃ reqs' errs', PathsMean env w parser gs reqs' errs' ∧ reqs.Perm reqs' ∧ errs.Perm errs' := by
  obtain ⟨h1, rfl, rfl⟩ := (pathsMean_iff fs _ _).1 hm
  exact ⟨_, _, (pathsMean_iff gs _ _).2 ⟨fun p hp => h1 p (h.mem_iff.2 hp), rfl, rfl⟩, h.flatMap_right _, h.flatMap_right _⟩

/-! ## Code in other files -/

open Rs in
theorem rustFile_means {env : Env} {w : World} {p : Path} {t : Str} {f : Forest}
    (ho : env.os.openFile w p = .ok ⟨Utf8.encode t, none⟩) (ht : env.syn.parseFile t = .ok f) (reqs : List Requirement)
    (errs : List Error) : PathMeans env w .rust p reqs errs ↔ Says env.syn.debug p f reqs errs := by
  constructor
  · intro h
    cases h with
    | closed hc => rw [ho] at hc; cases hc
    | @opened file _ _ hc hf =>
      rw [ho] at hc
      cases hc
      rw [← C81_file] at hf
      simp only [fileResult, (File.whole_ok _ _).2 rfl] at hf
      exact parse_marks rfl ht hf
  · rintro ⟨es, h1, h2⟩
    refine .opened ho ?_
    rw [← C81_file]
    simp only [fileResult, (File.whole_ok _ _).2 rfl]
    exact (C80_rust ..).2 (.marks rfl ht h1 h2)

open Rs in
theorem samePieces_refl (debug : List Tok → Str) (fs : List Forest) : SamePieces debug fs fs := by
  have key : ∀ f : Forest, SameCode debug f f := by
    intro f
    induction f with
    | nil => exact .nil
    | mac m f ih => exact .mac ⟨rfl, rfl, fun _ _ => rfl⟩ ih
    | item i l c inner f ih1 ih2 => exact .item ih1 ih2
    | node inner f ih1 ih2 => exact .node ih1 ih2
  induction fs with
  | nil => exact .nil
  | cons f fs ih => exact .cons (key f) ih

open Rs in
theorem pieces_split2 {debug : List Tok → Str} {path : Path} {fs gs : List Forest} :
    ∀ {outs : List (List Requirement × List Error)}, Pieces debug path (fs ++ gs) outs →
    ∃ o1 o2, outs = o1 ++ o2 ∧ Pieces debug path fs o1 ∧ Pieces debug path gs o2 := by
  induction fs with
  | nil => intro outs h; exact ⟨[], outs, rfl, .nil, h⟩
  | cons f fs ih =>
    intro outs h
    cases h with
    | cons h1 h2 =>
      obtain ⟨o1, o2, rfl, h3, h4⟩ := ih h2
      exact ⟨_ :: o1, o2, rfl, .cons h1 h3, h4⟩

open Rs in
theorem pieces_append2 {debug : List Tok → Str} {path : Path} {fs gs : List Forest}
    {o1 o2 : List (List Requirement × List Error)} (h : Pieces debug path fs o1) (h' : Pieces debug path gs o2) :
    Pieces debug path (fs ++ gs) (o1 ++ o2) := by
  induction h with
  | nil => exact h'
  | cons h1 _ ih => exact .cons h1 ih

open Rs in
theorem own_append {fs gs : List Forest} (h : OwnNames (fs ++ gs)) : OwnNames fs ∧ OwnNames gs :=
  ⟨(List.pairwise_append.1 h).1, (List.pairwise_append.1 h).2.1⟩

open Rs in
/-- What several files say is what the code of all of them says, as if it were in one file `q`. -/
theorem codeFiles_say {env : Env} {w : World} {fs : List Path} {fss : List (List Forest)} (h : CodeFiles env w fs fss)
    (q : Path) : OwnNames fss.flatten → ∀ {reqs : List Requirement} {errs : List Error},
    PathsMean env w .rust fs reqs errs → ∃ outs, Pieces env.syn.debug q fss.flatten outs ∧
      (outs.flatMap Prod.fst).map forgetReq = reqs.map forgetReq ∧
      (outs.flatMap Prod.snd).map forgetError = errs.map forgetError := by
  induction h with
  | nil => intro _ reqs errs h; cases h; exact ⟨[], .nil, rfl, rfl⟩
  | @cons p ps t gs gss h1 h2 _ ih =>
    intro ho reqs errs h
    cases h with
    | cons h3 h4 =>
      rw [List.flatten_cons] at ho
      obtain ⟨o1, o2⟩ := own_append ho
      obtain ⟨outs, a1, rfl, rfl⟩ := Rs.pieces_split o1 ((rustFile_means h1 h2 _ _).1 h3)
      obtain ⟨outs', b1, b2, b3⟩ := samePieces_say (q := q) (samePieces_refl _ _) a1
      obtain ⟨outs2, c1, c2, c3⟩ := ih o2 h4
      refine ⟨outs' ++ outs2, pieces_append2 b1 c1, ?_, ?_⟩
      · rw [List.flatMap_append, List.map_append, List.map_append, b2, c2]
      · rw [List.flatMap_append, List.map_append, List.map_append, b3, c3]

open Rs in
/-- And the other way round. -/
theorem codeFiles_mean {env : Env} {w : World} {fs : List Path} {fss : List (List Forest)} (h : CodeFiles env w fs fss)
    (q : Path) : OwnNames fss.flatten → ∀ {outs : List (List Requirement × List Error)},
    Pieces env.syn.debug q fss.flatten outs → ∃ reqs errs, PathsMean env w .rust fs reqs errs ∧
      (outs.flatMap Prod.fst).map forgetReq = reqs.map forgetReq ∧
      (outs.flatMap Prod.snd).map forgetError = errs.map forgetError := by
  induction h with
  | nil => intro _ outs h; cases h; exact ⟨[], [], .nil, rfl, rfl⟩
  | @cons p ps t gs gss h1 h2 _ ih =>
    intro ho outs h
    rw [List.flatten_cons] at ho h
    obtain ⟨o1, o2⟩ := own_append ho
    obtain ⟨outs1, outs2, rfl, h3, h4⟩ := pieces_split2 h
    obtain ⟨outs', b1, b2, b3⟩ := samePieces_say (q := p) (samePieces_refl _ _) h3
    obtain ⟨reqs, errs, c1, c2, c3⟩ := ih o2 h4
    refine ⟨_, _, .cons ((rustFile_means h1 h2 _ _).2 (pieces_append o1 b1)) c1, ?_, ?_⟩
    · rw [List.flatMap_append, List.map_append, List.map_append, b2, c2]
    · rw [List.flatMap_append, List.map_append, List.map_append, b3, c3]

open Rs in
/-- **C143** Pieces of code that are moved to other files say the same there, but for places and order. -/
theorem C143_moved {env : Env} {w w' : World} {fs fs' : List Path} {fss fss' : List (List Forest)}
    (h : CodeFiles env w fs fss) (h' : CodeFiles env w' fs' fss')
    (hr : CodeReordered env.syn.debug fss.flatten fss'.flatten) (ho : OwnNames fss.flatten) {reqs : List Requirement}
    {errs : List Error} (hm : PathsMean env w .rust fs reqs errs) :
    ∃ reqs' errs', PathsMean env w' .rust fs' reqs' errs' ∧ SameInOrder reqs reqs' errs errs' := by
  obtain ⟨gs, h1, h2⟩ := hr
  obtain ⟨outs, h3, h4, h5⟩ := codeFiles_say h [] ho hm
  obtain ⟨outs1, h6, h7⟩ := pieces_perm h1 h3
  obtain ⟨outs2, h8, h9, h10⟩ := samePieces_say (q := []) h2 h6
  have hog : OwnNames gs := (h1.pairwise_iff (fun h id a b => h id b a)).1 ho
  obtain ⟨reqs', errs', g1, g2, g3⟩ := codeFiles_mean h' [] (samePieces_own h2 hog) h8
  refine ⟨reqs', errs', g1, ?_, ?_⟩
  · rw [← h4, ← g2, h9]; exact (h7.flatMap_right _).map _
  · rw [← h5, ← g3, h10]; exact (h7.flatMap_right _).map _

theorem artefactShuffled_mean {env : Env} {w w' : World} {base base' : Path} {ac ac' : ArtefactConfig}
    (hm : ArtefactShuffled env w w' base base' ac ac') {fs : List Path} {reqs : List Requirement} {errs : List Error}
    (h : parseArtefact env w ac base = .ok (fs, reqs, errs)) :
    ∃ fs' reqs' errs', parseArtefact env w' ac' base' = .ok (fs', reqs', errs') ∧ SameInOrder reqs reqs' errs errs' := by
  obtain ⟨f1, f2, h1, h2, h3⟩ := hm.files
  obtain ⟨h4, h5⟩ := (parseArtefact_filesOf h1 _).1 h
  cases h5
  have hm1 := (pathsMean_iff _ _ _).2 ⟨h4, rfl, rfl⟩
  suffices hs : ∃ reqs' errs', PathsMean env w' ac.parser f2 reqs' errs' ∧ SameInOrder _ reqs' _ errs' by
    obtain ⟨reqs', errs', h6, h7⟩ := hs
    exact ⟨f2, reqs', errs', parseArtefact_iff.2 (.files h2 (hm.parser ▸ h6)), h7⟩
  generalize ac.parser = parser at h3 hm1
  cases h3 with
  | order h3 hp =>
    obtain ⟨reqs', errs', h6, h7⟩ := filesShuffled_mean h3 hm1
    obtain ⟨reqs2, errs2, h8, h9, h10⟩ := pathsMean_perm hp h6
    exact ⟨reqs2, errs2, h8, h7.1.trans (h9.map _), h7.2.trans (h10.map _)⟩
  | spread a1 a2 a3 a4 => exact C143_moved a1 a2 a3 a4 hm1

/-! ## An artefact -/

/-- An id is given twice. -/
def HasDuplicate (a : Artefact) : Prop := ∃ r r', Error.duplicateRequirement r r' ∈ a.errors

/-- The same artefact but for places and order. -/
def SameArtefact (a a' : Artefact) : Prop :=
  onlyRequirements a = onlyRequirements a' ∧ (a.errors.map forgetError).Perm (a'.errors.map forgetError)

theorem find_perm {xs ys : List Requirement} (h : xs.Perm ys) (hn : (xs.map (·.id)).Nodup) (id : Str) :
    xs.find? (fun r => r.id = id) = ys.find? (fun r => r.id = id) := by
  induction h with
  | nil => rfl
  | cons x _ ih =>
    simp only [List.map_cons, List.nodup_cons] at hn
    simp only [List.find?_cons]
    split
    · rfl
    · exact ih hn.2
  | swap x y l =>
    simp only [List.map_cons, List.nodup_cons, List.mem_cons, not_or] at hn
    simp only [List.find?_cons]
    by_cases hx : x.id = id <;> by_cases hy : y.id = id
    · exact absurd (hy.trans hx.symm) hn.1.1
    · simp [hx, hy]
    · simp [hx, hy]
    · simp [hx, hy]
  | trans h1 _ ih1 ih2 => rw [ih1 hn, ih2 ((h1.map _).nodup hn)]

theorem collect_shuffled {reqs reqs' : List Requirement} {errs errs' : List Error} (h : SameInOrder reqs reqs' errs errs')
    (hn : (reqs.map (·.id)).Nodup) :
    (collectRequirements reqs .empty errs).1.mapValues forgetReq = (collectRequirements reqs' .empty errs').1.mapValues forgetReq ∧
    (collectRequirements reqs .empty errs).2 = errs ∧ (collectRequirements reqs' .empty errs').2 = errs' := by
  have hids : ∀ rs : List Requirement, (rs.map forgetReq).map (·.id) = rs.map (·.id) := fun rs => by
    simp [List.map_map, Function.comp_def, forgetReq]
  have hn' : (reqs'.map (·.id)).Nodup := by
    rw [← hids]
    exact (h.1.map _).nodup (by rw [hids]; exact hn)
  obtain ⟨h1, h2⟩ := collect_eq reqs errs
  obtain ⟨h1', h2'⟩ := collect_eq reqs' errs'
  rw [(duplicates_nil_iff _).2 hn, List.append_nil] at h2
  rw [(duplicates_nil_iff _).2 hn', List.append_nil] at h2'
  refine ⟨?_, h2, h2'⟩
  apply BMap.ext_get
  intro id
  rw [BMap.get_mapValues, BMap.get_mapValues, h1, h1']
  have hf : ∀ rs : List Requirement, (rs.find? (fun r => r.id = id)).map forgetReq =
      (rs.map forgetReq).find? (fun r => r.id = id) := fun rs => by
    rw [List.find?_map]; rfl
  rw [hf, hf]
  exact find_perm h.1 (by rw [hids]; exact hn) id

theorem makeArtefact_shuffled {env : Env} {w w' : World} {base base' : Path} {ac ac' : ArtefactConfig}
    {roots : BMap ArtefactId Bool} (hm : ArtefactShuffled env w w' base base' ac ac') {a : Artefact}
    (h : makeArtefact env w base roots ac = .ok a) :
    ∃ a', makeArtefact env w' base' roots ac' = .ok a' ∧ (SameArtefact a a' ∨ HasDuplicate a ∧ HasDuplicate a') := by
  unfold makeArtefact at h ⊢
  rw [← hm.id, ← hm.ignore, ← hm.titles]
  cases hr : roots.get ac.id with
  | none => rw [hr] at h; cases h
  | some root =>
    rw [hr] at h
    simp only [orPanic, bind, Except.bind, parseFromConfig] at h ⊢
    cases hp : parseArtefact env w ac base with
    | error e => rw [hp] at h; cases h
    | ok x =>
      obtain ⟨fs, reqs, errs⟩ := x
      obtain ⟨fs', reqs', errs', h1, h2⟩ := artefactShuffled_mean hm hp
      rw [hp] at h
      rw [h1]
      simp only [pure, Except.pure, Except.ok.injEq] at h ⊢
      refine ⟨_, rfl, ?_⟩
      subst h
      by_cases hn : (reqs.map (·.id)).Nodup
      · obtain ⟨c1, c2, c3⟩ := collect_shuffled h2 hn
        refine .inl ⟨?_, ?_⟩
        · unfold onlyRequirements forgetArtefact
          simp only [Artefact.mk.injEq, true_and, and_true]
          exact c1
        · simp only [c2, c3]
          split
          · rw [List.map_append, List.map_append, untitled_forget, untitled_forget, c1]
            exact h2.2.append_right _
          · exact h2.2
      · have key : ∀ (rs : List Requirement) (es : List Error), ¬ (rs.map (·.id)).Nodup →
            ∃ r r', Error.duplicateRequirement r r' ∈ (collectRequirements rs .empty es).2 := by
          intro rs es hnd
          rw [(collect_eq rs es).2]
          cases hd : duplicates rs with
          | nil => exact absurd ((duplicates_nil_iff rs).1 hd) hnd
          | cons e ds =>
            have hmem : e ∈ duplicates rs := by rw [hd]; simp
            have hshape : ∃ r r', e = .duplicateRequirement r r' := by
              unfold duplicates at hmem
              obtain ⟨i, -, h4⟩ := List.mem_filterMap.1 hmem
              split at h4
              · cases h4
              · obtain ⟨f, -, rfl⟩ := Option.map_eq_some_iff.1 h4
                exact ⟨_, _, rfl⟩
            obtain ⟨r, r', rfl⟩ := hshape
            exact ⟨r, r', by simp⟩
        have hn' : ¬ (reqs'.map (·.id)).Nodup := by
          intro hn'
          apply hn
          have hids : ∀ rs : List Requirement, (rs.map forgetReq).map (·.id) = rs.map (·.id) := fun rs => by
            simp [List.map_map, Function.comp_def, forgetReq]
          rw [← hids]
          exact (h2.1.map _).symm.nodup (by rw [hids]; exact hn')
        refine .inr ⟨?_, ?_⟩
        · obtain ⟨r, r', hd⟩ := key reqs errs hn
          refine ⟨r, r', ?_⟩
          simp only
          split
          · exact List.mem_append_left _ hd
          · exact hd
        · obtain ⟨r, r', hd⟩ := key reqs' errs' hn'
          refine ⟨r, r', ?_⟩
          simp only
          split
          · exact List.mem_append_left _ hd
          · exact hd

/-! ## All artefacts -/

/-- The same artefacts but for places and order, or artefacts with duplicates in both. -/
def MapsAlike (m m' : BMap ArtefactId Artefact) : Prop :=
  ∀ id, match m.get id, m'.get id with
    | none, none => True
    | some a, some a' => SameArtefact a a' ∨ HasDuplicate a ∧ HasDuplicate a'
    | _, _ => False

theorem makeArtefacts_shuffled {env : Env} {w w' : World} {base base' : Path} {acs acs' : List ArtefactConfig}
    {roots : BMap ArtefactId Bool} (hm : ArtefactsShuffled env w w' base base' acs acs') :
    ∀ {m m' m1 : BMap ArtefactId Artefact}, MapsAlike m m' → makeArtefacts env w base roots acs m = .ok m1 →
    ∃ m1', makeArtefacts env w' base' roots acs' m' = .ok m1' ∧ MapsAlike m1 m1' := by
  induction hm with
  | nil => intro m m' m1 he h; cases h; exact ⟨m', rfl, he⟩
  | @cons ac ac' acs acs' ha _ ih =>
    intro m m' m1 he h
    simp only [makeArtefacts, bind, Except.bind] at h ⊢
    cases hp : makeArtefact env w base roots ac with
    | error e => rw [hp] at h; cases h
    | ok a =>
      obtain ⟨a', h1, h2⟩ := makeArtefact_shuffled ha hp
      rw [hp] at h
      rw [h1]
      refine ih ?_ h
      intro id
      rw [BMap.get_insert, BMap.get_insert, ← ha.id]
      by_cases hi : id = ac.id
      · rw [if_pos hi, if_pos hi]; exact h2
      · rw [if_neg hi, if_neg hi]; exact he id

theorem mapsAlike_same {m m' : BMap ArtefactId Artefact} (h : MapsAlike m m')
    (hd : ∀ id a, m.get id = some a → ¬ HasDuplicate a) :
    m.mapValues onlyRequirements = m'.mapValues onlyRequirements ∧
    ∀ id a a', m.get id = some a → m'.get id = some a' → (a.errors.map forgetError).Perm (a'.errors.map forgetError) := by
  constructor
  · apply BMap.ext_get
    intro id
    rw [BMap.get_mapValues, BMap.get_mapValues]
    have := h id
    cases h1 : m.get id with
    | none =>
      cases h2 : m'.get id with
      | none => rfl
      | some a' => rw [h1, h2] at this; exact this.elim
    | some a =>
      cases h2 : m'.get id with
      | none => rw [h1, h2] at this; exact this.elim
      | some a' =>
        rw [h1, h2] at this
        rcases this with this | this
        · simp [this.1]
        · exact absurd this.1 (hd id _ h1)
  · intro id a a' h1 h2
    have := h id
    rw [h1, h2] at this
    rcases this with this | this
    · exact this.2
    · exact absurd this.1 (hd id _ h1)

theorem mapsAlike_problem {m m' : BMap ArtefactId Artefact} (h : MapsAlike m m') : ParseProblem m ↔ ParseProblem m' := by
  have key : ∀ id a a', m.get id = some a → m'.get id = some a' → ((∃ e, e ∈ a.errors) ↔ ∃ e, e ∈ a'.errors) := by
    intro id a a' h1 h2
    have := h id
    rw [h1, h2] at this
    rcases this with this | ⟨⟨r, s, h3⟩, ⟨r', s', h4⟩⟩
    · have hl := this.2.length_eq
      simp only [List.length_map] at hl
      cases e1 : a.errors <;> cases e2 : a'.errors <;> simp [e1, e2] at hl ⊢
    · exact ⟨fun _ => ⟨_, h4⟩, fun _ => ⟨_, h3⟩⟩
  unfold ParseProblem
  constructor
  · rintro ⟨id, a, e, h1, h2⟩
    have := h id
    rw [h1] at this
    cases h3 : m'.get id with
    | none => rw [h3] at this; exact this.elim
    | some a' =>
      obtain ⟨e', h4⟩ := (key id a a' h1 h3).1 ⟨e, h2⟩
      exact ⟨id, a', e', h3, h4⟩
  · rintro ⟨id, a', e, h1, h2⟩
    have := h id
    rw [h1] at this
    cases h3 : m.get id with
    | none => rw [h3] at this; exact this.elim
    | some a =>
      obtain ⟨e', h4⟩ := (key id a a' h3 h1).2 ⟨e, h2⟩
      exact ⟨id, a, e', h3, h4⟩

theorem only_redoes : RepaintsArtefact forgetReq onlyRequirements := ⟨fun _ => rfl, fun _ => rfl, fun _ => rfl, fun _ => rfl⟩

/-- **C131** Graphs with the same requirements but for the places have the same results but for the places, whatever files and
errors their artefacts have. -/
theorem C131_requirements {g g' : Graph} (hr : g.relations = g'.relations)
    (ha : g.artefacts.mapValues onlyRequirements = g'.artefacts.mapValues onlyRequirements)
    {tg : TracedGraph} (ht : trace g = .ok tg) : ∃ tg', trace g' = .ok tg' ∧ SameTrace tg tg' := by
  have h1 := C131_places nowhere forgetReq onlyRequirements forget_repaints only_redoes g
  have h2 := C131_places nowhere forgetReq onlyRequirements forget_repaints only_redoes g'
  rw [ha, hr, h2, ht] at h1
  cases ht' : trace g' with
  | error e => rw [ht'] at h1; cases h1
  | ok tg' =>
    rw [ht'] at h1
    simp only [Except.map, Except.ok.injEq, repaintTraced, TracedGraph.mk.injEq] at h1
    refine ⟨tg', rfl, h1.1.symm, ?_, h1.2.2.1.symm, h1.2.2.2.symm⟩
    have := congrArg (List.map fun tr : TracedRelation =>
      (tr.relation, tr.covered.map (fun c => (c.upper, c.lower, c.direction)), tr.uncovered)) h1.2.1
    simpa [List.map_map, Function.comp_def, moveCoverage] using this.symm

theorem shuffled_ids {env : Env} {w w' : World} {base base' : Path} {acs acs' : List ArtefactConfig}
    (hm : ArtefactsShuffled env w w' base base' acs acs') :
    acs.map (fun ac => (ac.id, true)) = acs'.map (fun ac => (ac.id, true)) := by
  induction hm with
  | nil => rfl
  | cons h _ ih => simp [h.id, ih]

theorem mapsAlike_empty : MapsAlike .empty .empty := fun id => by
  have : (BMap.empty : BMap ArtefactId Artefact).get id = none := rfl
  rw [this]; trivial

/-- **C136** The program finds the same in a project with files, sections of Markdown files or items of Rust files in another
order, if no artefact has duplicate requirements. -/
theorem C136_project {env : Env} {w w' : World} {base base' : Path} {config config' : Config}
    (hm : ProjectShuffled env w w' base base' config config') {c : Controller}
    (h : Controller.new env w config base = .ok c) (hd : NoDuplicates c.graph) :
    ∃ c', Controller.new env w' config' base' = .ok c' ∧ SameGraph c.graph c'.graph ∧ SameTrace c.tracedGraph c'.tracedGraph := by
  unfold Controller.new at h ⊢
  rw [← hm.relations, ← shuffled_ids hm.artefacts]
  simp only [bind, Except.bind] at h ⊢
  cases hr : findRoots config.relations (BMap.ofList (config.artefacts.map (fun ac => (ac.id, true)))) with
  | error e => rw [hr] at h; cases h
  | ok roots =>
    rw [hr] at h
    simp only at h ⊢
    cases ha : makeArtefacts env w base roots config.artefacts .empty with
    | error e => rw [ha] at h; cases h
    | ok m =>
      obtain ⟨m', h1, h2⟩ := makeArtefacts_shuffled hm.artefacts mapsAlike_empty ha
      rw [ha] at h
      rw [h1]
      simp only at h ⊢
      cases ht : trace ⟨m, config.relations⟩ with
      | error e => rw [ht] at h; cases h
      | ok tg =>
        rw [ht] at h
        cases h
        obtain ⟨h5, h6⟩ := mapsAlike_same h2 (fun id a hg ⟨r, r', hr⟩ => hd id a hg r r' hr)
        obtain ⟨tg', h3, h4⟩ := C131_requirements (g := ⟨m, config.relations⟩) (g' := ⟨m', config.relations⟩) rfl h5 ht
        rw [h3]
        exact ⟨_, rfl, ⟨rfl, h5, h6⟩, h4⟩

/-- **C136** The jobs of a project with things in another order find fault exactly as before, also if there are duplicates. -/
theorem C136_verdict {env : Env} {w w' : World} {base base' : Path} {config config' : Config}
    (hm : ProjectShuffled env w w' base base' config config') {c c' : Controller}
    (h : Controller.new env w config base = .ok c) (h' : Controller.new env w' config' base' = .ok c') (job : Job) :
    Detects c' job ↔ Detects c job := by
  have halike : MapsAlike c.graph.artefacts c'.graph.artefacts := by
    have g := h
    have g' := h'
    unfold Controller.new at g g'
    rw [← hm.relations, ← shuffled_ids hm.artefacts] at g'
    simp only [bind, Except.bind] at g g'
    cases hr : findRoots config.relations (BMap.ofList (config.artefacts.map (fun ac => (ac.id, true)))) with
    | error e => rw [hr] at g; cases g
    | ok roots =>
      rw [hr] at g g'
      simp only at g g'
      cases ha : makeArtefacts env w base roots config.artefacts .empty with
      | error e => rw [ha] at g; cases g
      | ok m =>
        obtain ⟨m', h1, h2⟩ := makeArtefacts_shuffled hm.artefacts mapsAlike_empty ha
        rw [ha] at g
        rw [h1] at g'
        simp only at g g'
        cases ht : trace ⟨m, config.relations⟩ with
        | error e => rw [ht] at g; cases g
        | ok tg =>
          rw [ht] at g
          cases ht' : trace ⟨m', config.relations⟩ with
          | error e => rw [ht'] at g'; cases g'
          | ok tg' =>
            rw [ht'] at g'
            cases g
            cases g'
            exact h2
  have hpp := mapsAlike_problem halike
  have hart : c.tracedGraph.artefacts = c.graph.artefacts := 
    (C11_frame (C18_consistent h).1 (C18_no_panic h).1).1
  have hart' : c'.tracedGraph.artefacts = c'.graph.artefacts := 
    (C11_frame (C18_consistent h').1 (C18_no_panic h').1).1
  unfold Detects
  split
  · by_cases hd : NoDuplicates c.graph
    · obtain ⟨c2, h2, -, ht⟩ := C136_project hm h hd
      rw [h'] at h2
      cases h2
      unfold TraceProblem
      refine or_congr ?_ (or_congr ?_ (or_congr ?_ ?_))
      · have := congrArg (· = []) ht.2.2.2
        simp only [List.map_eq_nil_iff, eq_iff_iff] at this
        cases h1 : c.tracedGraph.errors <;> cases h2 : c'.tracedGraph.errors <;> simp [h1, h2] at this ⊢
      · rw [hart, hart', hpp]
      · have hu : ∀ tg : TracedGraph, (∃ tr ∈ tg.tracedRelations, ∃ r, r ∈ tr.uncovered) ↔
            ∃ x ∈ tg.tracedRelations.map (fun tr => (tr.relation,
              tr.covered.map (fun c => (c.upper, c.lower, c.direction)), tr.uncovered)), ∃ r, r ∈ x.2.2 := by
          intro tg
          constructor
          · rintro ⟨tr, h1, h2⟩
            exact ⟨_, List.mem_map_of_mem h1, h2⟩
          · rintro ⟨x, h1, h2⟩
            obtain ⟨tr, h3, rfl⟩ := List.mem_map.1 h1
            exact ⟨tr, h3, h2⟩
        rw [hu, hu, ht.2.1]
      · rw [ht.2.2.1]
    · have hp : ParseProblem c.graph.artefacts := by
        unfold NoDuplicates at hd
        refine Classical.byContradiction fun hn => hd ?_
        intro id a hg r r' hr
        exact hn ⟨id, a, _, hg, hr⟩
      have hp' := hpp.1 hp
      rw [← hart] at hp
      rw [← hart'] at hp'
      exact ⟨fun _ => .inr (.inl hp), fun _ => .inr (.inl hp')⟩
  · exact hpp.symm

/-- **C136** If all reports can be written, the exit code for the project with things in another order is the same. -/
theorem C136_exit {env : Env} {w w' : World} {opt opt' : Arguments} {config config' : Config}
    (hm : ProjectShuffled env w w' opt.baseDir opt'.baseDir config config') (hj : opt.jobs = opt'.jobs)
    (hg : GoodConfig env w opt.configFile config) (hg' : GoodConfig env w' opt'.configFile config')
    (h : (Main.main env opt w).1 ≤ 1) (h' : (Main.main env opt' w').1 ≤ 1) :
    (Main.main env opt w).1 = (Main.main env opt' w').1 := by
  have key : ∀ {c c' js js' v v'}, AllRun env opt w c js v → AllRun env opt' w' c' js' v' →
      (Detected c' js' ↔ Detected c js) := by
    rintro c c' js js' v v' ⟨cfg, h1, h2, -, h3, -⟩ ⟨cfg', h1', h2', -, h3', -⟩
    cases GoodConfig_unique h1 hg
    cases GoodConfig_unique h1' hg'
    have hr : requested config' opt' = requested config opt := by
      unfold requested; rw [hj, hm.defaultJobs]
    rw [hr, ← hm.jobs] at h3'
    have hmem : ∀ j, j ∈ js' ↔ j ∈ js := fun j => (h3'.mem j).trans (h3.mem j).symm
    unfold Detected
    simp only [hmem, C136_verdict hm h2 h2']
  obtain ⟨a0, a1, -⟩ := C28_exit_code_partial env opt w
  obtain ⟨b0, b1, -⟩ := C28_exit_code_partial env opt' w'
  have e : ∀ n : Nat, n ≤ 1 → n = 0 ∨ n = 1 := by omega
  rcases e _ h with x | x <;> rcases e _ h' with y | y
  · rw [x, y]
  · obtain ⟨c, js, v, p1, p2⟩ := a0.1 x
    obtain ⟨c', js', v', q1, q2⟩ := b1.1 y
    exact absurd ((key p1 q1).1 q2) p2
  · obtain ⟨c, js, v, p1, p2⟩ := a1.1 x
    obtain ⟨c', js', v', q1, q2⟩ := b0.1 y
    exact absurd ((key p1 q1).2 p2) q2
  · rw [x, y]

namespace ShuffledExample

open CtrlExample Rs

/-- The items of the third file of `ItemsExample`, and one more, in two other files. -/
def left : List Forest := [ItemsExample.item c!"g" c!"C" 1]
def right : List Forest := [ItemsExample.broken 1, ItemsExample.item c!"k" c!"REQ_B" 4, ItemsExample.item c!"f" c!"A" 7]

/-- The third file of `ItemsExample`, the same in another order, and a file with one item. -/
def syn : Syn where
  parseFile t := .ok (allAfter (if t = c!"3" then ItemsExample.three else if t = c!"4" then ItemsExample.four else
    if t = c!"6" then left else if t = c!"7" then right else [ItemsExample.item c!"k" c!"REQ_B" 1]))
  debug _ := c!"?"

def code : ArtefactConfig := ⟨c!"CODE", [c!"a.rs", c!"b.rs"], .rust, none, none⟩
def before : Config := { config with artefacts := [requirements, code, issue] }
def later : Config := { config with artefacts := [requirements, { code with paths := [c!"b.rs", c!"a.rs"] }, issue] }

/-- Two configuration files. -/
def e : Env := { env .nil config with
  syn := syn
  tomlTree := fun t => .ok (ConfigRead.tree (if t = Utf8.encode c!"1" then before else later)) }

def files : List (Path × Str) := [(c!"p/req.md", SectionsExample.one), (c!"p/a.rs", c!"3"), (c!"p/b.rs", c!"5"),
  (c!"p/Issue1.txt", []), (c!"requirements.toml", c!"1")]
def shuffled : List (Path × Str) := [(c!"p/req.md", SectionsExample.two), (c!"p/a.rs", c!"4"), (c!"p/b.rs", c!"5"),
  (c!"p/Issue1.txt", []), (c!"requirements.toml", c!"2")]

/-- A project with the sections of a document, the items of a file and the files of an artefact in another order. -/
theorem project_shuffled : ProjectShuffled e (world files) (world shuffled) c!"p" c!"p" before later := by
  refine ⟨rfl, rfl, rfl, .cons ⟨rfl, rfl, rfl, rfl, [c!"p/req.md"], [c!"p/req.md"], ?_, ?_, .order (gs := [c!"p/req.md"]) ?_ (.refl _)⟩ <|
    .cons ⟨rfl, rfl, rfl, rfl, [c!"p/a.rs", c!"p/b.rs"], [c!"p/b.rs", c!"p/a.rs"], ?_, ?_,
      .order (gs := [c!"p/a.rs", c!"p/b.rs"]) ?_ (.swap ..)⟩ <|
    .cons ⟨rfl, rfl, rfl, rfl, [c!"p/Issue1.txt"], [c!"p/Issue1.txt"], ?_, ?_,
      .order (gs := [c!"p/Issue1.txt"]) ?_ (.refl _)⟩ .nil⟩
  · exact .inr ⟨by decide, c!"req.md", rfl, by decide⟩
  · exact .inr ⟨by decide, c!"req.md", rfl, by decide⟩
  · exact .cons (.sections (by decide +kernel) (by decide +kernel) SectionsExample.reordered.1 SectionsExample.uncut.1
      SectionsExample.uncut.2) .nil
  · exact .inl ⟨rfl, by decide, .cons (fs := [c!"p/a.rs"]) (by decide +kernel) <| .cons (fs := [c!"p/b.rs"]) (by decide +kernel) .nil⟩
  · exact .inl ⟨rfl, by decide, .cons (fs := [c!"p/b.rs"]) (by decide +kernel) <| .cons (fs := [c!"p/a.rs"]) (by decide +kernel) .nil⟩
  · exact .cons (.code (t := c!"3") (t' := c!"4") (by decide +kernel) (by decide +kernel) rfl rfl ItemsExample.reordered.2
      ItemsExample.own) <| .cons (.same (by decide +kernel) (fun h => by cases h)) .nil
  · exact .inr ⟨by decide, c!"Issue1.txt", rfl, by decide⟩
  · exact .inr ⟨by decide, c!"Issue1.txt", rfl, by decide⟩
  · refine .cons (.same (by decide +kernel) (fun _ => ⟨c!"Issue1.txt", ?_, ?_⟩)) .nil <;> exact fileName_iff.1 (by decide +kernel)

/-- The ids of the requirements of the artefacts, how many errors there are, and which requirements are not covered. -/
def found (c : PanicM Controller) : Option (List (List Str × Nat) × List (List RequirementId)) :=
  c.toOption.map fun c => (c.graph.artefacts.values.map (fun a => (a.requirements.keys, a.errors.length)),
    c.tracedGraph.tracedRelations.map (·.uncovered))

example : found (Controller.new e (world files) before c!"p") =
      some ([([c!"f", c!"g", c!"k"], 1), ([c!"Issue1"], 1), ([c!"REQ_A", c!"REQ_B", c!"REQ_C"], 1)], [[c!"REQ_A", c!"REQ_C"]]) ∧
    found (Controller.new e (world shuffled) later c!"p") =
      some ([([c!"f", c!"g", c!"k"], 1), ([c!"Issue1"], 1), ([c!"REQ_A", c!"REQ_B", c!"REQ_C"], 1)], [[c!"REQ_A", c!"REQ_C"]]) := by
  constructor <;> decide +kernel

theorem no_duplicates {c : Controller} (h : Controller.new e (world files) before c!"p" = .ok c) : NoDuplicates c.graph := by
  intro id a ha r r' hr
  have key : ((Controller.new e (world files) before c!"p").toOption.map fun c =>
      c.graph.artefacts.values.all fun a => a.errors.all fun e => match e with | .duplicateRequirement .. => false | _ => true) =
      some true := by decide +kernel
  rw [h] at key
  simp only [Except.toOption, Option.map_some, Option.some.injEq, List.all_eq_true] at key
  exact absurd (key a ((BMap.mem_values_iff ..).2 ⟨id, ha⟩) _ hr) (by simp)

/-- Two functions are moved from one file to the other. -/
def spread : List (Path × Str) := [(c!"p/req.md", SectionsExample.one), (c!"p/a.rs", c!"6"), (c!"p/b.rs", c!"7"),
  (c!"p/Issue1.txt", []), (c!"requirements.toml", c!"1")]

theorem code_spread : CodeFiles e (world files) [c!"p/a.rs", c!"p/b.rs"] [ItemsExample.three, [ItemsExample.item c!"k" c!"REQ_B" 1]] ∧
    CodeFiles e (world spread) [c!"p/a.rs", c!"p/b.rs"] [left, right] ∧
    CodeReordered e.syn.debug [ItemsExample.three, [ItemsExample.item c!"k" c!"REQ_B" 1]].flatten [left, right].flatten ∧
    OwnNames [ItemsExample.three, [ItemsExample.item c!"k" c!"REQ_B" 1]].flatten := by
  refine ⟨.cons (t := c!"3") (by decide +kernel) rfl <| .cons (t := c!"5") (by decide +kernel) rfl .nil,
    .cons (t := c!"6") (by decide +kernel) rfl <| .cons (t := c!"7") (by decide +kernel) rfl .nil,
    ⟨[ItemsExample.item c!"g" c!"C" 7, ItemsExample.broken 4, ItemsExample.item c!"k" c!"REQ_B" 1, ItemsExample.item c!"f" c!"A" 1],
      ?_, .cons (.item (.mac ⟨rfl, rfl, fun _ _ => rfl⟩ .nil) .nil) <| .cons (.item (.mac ⟨rfl, rfl, fun _ _ => rfl⟩ .nil) .nil) <|
        .cons (.item (.mac ⟨rfl, rfl, fun _ _ => rfl⟩ .nil) .nil) <| .cons (.item (.mac ⟨rfl, rfl, fun _ _ => rfl⟩ .nil) .nil) .nil⟩, ?_⟩
  · show ([_, _, _, _] : List Forest).Perm _
    exact .trans (.cons _ (.swap ..)) <| .trans (.swap ..) <| .cons _ <| .trans (.swap ..) <| .cons _ (.swap ..)
  · show List.Pairwise _ [_, _, _, _]
    have hm : ∀ {name id s : Str} {l : Nat}, MarkedBy (ItemsExample.item name id l) s → s = name := ItemsExample.marked
    have hb : ∀ {s : Str} {l : Nat}, MarkedBy (ItemsExample.broken l) s → s = c!"h" := ItemsExample.marked_broken
    refine .cons ?_ <| .cons ?_ <| .cons ?_ <| .cons (by simp) .nil <;> intro x hx id h1 h2 <;>
      simp only [List.mem_cons, List.not_mem_nil, or_false] at hx
    · rcases hx with rfl | rfl | rfl
      · exact absurd ((hm h1).symm.trans (hb h2)) (by decide)
      · exact absurd ((hm h1).symm.trans (hm h2)) (by decide)
      · exact absurd ((hm h1).symm.trans (hm h2)) (by decide)
    · rcases hx with rfl | rfl
      · exact absurd ((hb h1).symm.trans (hm h2)) (by decide)
      · exact absurd ((hb h1).symm.trans (hm h2)) (by decide)
    · subst hx
      exact absurd ((hm h1).symm.trans (hm h2)) (by decide)

/-- The project with functions in another file. -/
theorem project_spread : ProjectShuffled e (world files) (world spread) c!"p" c!"p" before before := by
  refine ⟨rfl, rfl, rfl, .cons ⟨rfl, rfl, rfl, rfl, [c!"p/req.md"], [c!"p/req.md"], ?_, ?_, .order (gs := [c!"p/req.md"]) ?_ (.refl _)⟩ <|
    .cons ⟨rfl, rfl, rfl, rfl, [c!"p/a.rs", c!"p/b.rs"], [c!"p/a.rs", c!"p/b.rs"], ?_, ?_,
      .spread code_spread.1 code_spread.2.1 code_spread.2.2.1 code_spread.2.2.2⟩ <|
    .cons ⟨rfl, rfl, rfl, rfl, [c!"p/Issue1.txt"], [c!"p/Issue1.txt"], ?_, ?_,
      .order (gs := [c!"p/Issue1.txt"]) ?_ (.refl _)⟩ .nil⟩
  · exact .inr ⟨by decide, c!"req.md", rfl, by decide⟩
  · exact .inr ⟨by decide, c!"req.md", rfl, by decide⟩
  · exact .cons (.same (by decide +kernel) (fun h => by cases h)) .nil
  · exact .inl ⟨rfl, by decide, .cons (fs := [c!"p/a.rs"]) (by decide +kernel) <| .cons (fs := [c!"p/b.rs"]) (by decide +kernel) .nil⟩
  · exact .inl ⟨rfl, by decide, .cons (fs := [c!"p/a.rs"]) (by decide +kernel) <| .cons (fs := [c!"p/b.rs"]) (by decide +kernel) .nil⟩
  · exact .inr ⟨by decide, c!"Issue1.txt", rfl, by decide⟩
  · exact .inr ⟨by decide, c!"Issue1.txt", rfl, by decide⟩
  · refine .cons (.same (by decide +kernel) (fun _ => ⟨c!"Issue1.txt", ?_, ?_⟩)) .nil <;> exact fileName_iff.1 (by decide +kernel)

example : found (Controller.new e (world spread) before c!"p") =
    some ([([c!"f", c!"g", c!"k"], 1), ([c!"Issue1"], 1), ([c!"REQ_A", c!"REQ_B", c!"REQ_C"], 1)], [[c!"REQ_A", c!"REQ_C"]]) := by
  decide +kernel

/-- The two configurations, and the exit codes. -/
example : GoodConfig e (world files) args.configFile before ∧ GoodConfig e (world shuffled) args.configFile later ∧
    (Main.main e args (world files)).1 = 1 ∧ (Main.main e args (world shuffled)).1 = 1 := by
  refine ⟨⟨⟨Utf8.encode c!"1", none⟩, _, by decide +kernel, rfl, rfl, (C78_config _ _).1 rfl, fun v hv => by cases hv; rfl⟩,
    ⟨⟨Utf8.encode c!"2", none⟩, _, by decide +kernel, rfl, rfl, (C78_config _ _).1 rfl, fun v hv => by cases hv; rfl⟩, ?_, ?_⟩ <;>
  decide +kernel

end ShuffledExample

end Reqtrace
