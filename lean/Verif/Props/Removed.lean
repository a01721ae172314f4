import Verif.Props.Edited
import Verif.Props.Shuffled3
import Verif.Props.Meta2
import Verif.Spec.Removed

/-!
# C145: a requirement that is taken out
-/

namespace Reqtrace

open Spec

/-! ## A file -/

theorem ends_append {U : Unicode} {a b : List Str} (ha : Ends U a) (hb : Ends U b) : Ends U (a ++ b) := by
  rcases ha with rfl | ⟨h, t, level, id, title, rfl, hh⟩
  · exact hb
  · exact .inr ⟨h, t ++ b, level, id, title, rfl, hh⟩

theorem sections_append {U : Unicode} {path : Path} {n : Nat} {ls rest : List Str} {ss s2 : List Section}
    (hs : Sections U path n ls ss) (he : Ends U rest) (h2 : Sections U path (n + ls.length) rest s2) :
    Sections U path n (ls ++ rest) (ss ++ s2) := by
  induction hs with
  | nil n => exact h2
  | @cons n g level id title body tail as cut ss h1 h3 h4 h5 h6 ih =>
    have e1 : g :: (body ++ tail) ++ rest = g :: (body ++ (tail ++ rest)) := by simp
    have e2 : n + (g :: (body ++ tail)).length = n + 1 + body.length + tail.length := by simp; omega
    rw [e2] at h2
    rw [e1]
    exact .cons h1 h3 (ends_append h4 he) h5 (ih h2)

theorem document_append {U : Unicode} {path : Path} {pre rest : List Str} {s1 s2 : List Section}
    (hd : Document U path pre s1) (he : Ends U rest) (h2 : Sections U path (pre.length + 1) rest s2) :
    Document U path (pre ++ rest) (s1 ++ s2) := by
  obtain ⟨a, b, rfl, h1, h3, h4⟩ := hd
  refine ⟨a, b ++ rest, by simp, h1, ends_append h3 he, sections_append h4 he ?_⟩
  rw [show a.length + 1 + b.length = (a ++ b).length + 1 by simp; omega]
  exact h2

theorem whole_of_flatten {ls : List Str} (h : ∀ l ∈ ls, l.getLast? = some '\n') : WholeLines ls.flatten := by
  induction ls with
  | nil => exact .inl rfl
  | cons l ls ih =>
    refine .inr ?_
    rw [List.flatten_cons, List.getLast?_append, h l (by simp)]
    rcases ih (fun l hl => h l (by simp [hl])) with h' | h'
    · simp [h']
    · simp [h']

/-- What is at the end of the text decides whether there is a single character there. -/
theorem tail_removed {text text' : Str} {pre mid post : List Str} (hm : mid ≠ []) (h1 : Lines text (pre ++ (mid ++ post)))
    (h2 : Lines text' (pre ++ post)) (ht : ¬ OneByteTail text) : ¬ OneByteTail text' := by
  have e1 := lines_iff.1 h1
  have e2 := lines_iff.1 h2
  obtain ⟨f1, -, f3⟩ := splitLines_spec text
  have f1' := (splitLines_spec text').1
  rw [← e1] at f1 f3
  rw [← e2] at f1'
  cases hp : post with
  | nil =>
    subst hp
    rw [List.append_nil] at f1' f1 f3
    rw [← f1']
    refine not_tail_of_whole (whole_of_flatten fun l hl => f3 l ?_)
    rw [List.dropLast_append_of_ne_nil hm]
    exact List.mem_append.2 (.inl hl)
  | cons x xs =>
    have hne : post ≠ [] := by rw [hp]; simp
    rw [← List.append_assoc, List.dropLast_append_of_ne_nil hne] at f3
    have w1 : WholeLines (pre ++ mid).flatten := whole_of_flatten fun l hl => f3 l (List.mem_append.2 (.inl hl))
    have w2 : WholeLines pre.flatten := whole_of_flatten fun l hl => f3 l (by simp [hl])
    rw [← List.append_assoc, List.flatten_append] at f1
    rw [List.flatten_append] at f1'
    rw [← f1, oneByteTail_append w1] at ht
    rw [← f1', oneByteTail_append w2]
    exact ht

/-- **C145** A section that is taken out takes only its own requirement and errors with it: those of all other sections are
the same, but for the places of those below. -/
theorem C145_file {env : Env} {w w' : World} {p : Path} {s : Section} (h : SectionRemoved env w w' p s)
    {old : Requirement} (ho : IsRequirement p s old)
    {reqs : List Requirement} {errs : List Error} (hp : PathMeans env w .markdown p reqs errs) :
    ∃ a b b' e1 e2 e2', reqs = a ++ old :: b ∧ errs = e1 ++ (s.errors p ++ e2) ∧
      PathMeans env w' .markdown p (a ++ b') (e1 ++ e2') ∧
      b.map forgetReq = b'.map forgetReq ∧ e2.map forgetError = e2'.map forgetError := by
  obtain ⟨o1, o2, l1, l2, n1, hh, nb, he, b1, hpost⟩ := h
  rename_i text text' pre h body post level
  obtain ⟨line, id, title, as, cut⟩ := s
  simp only at n1 hh b1 hpost
  subst n1
  have ht : ¬ OneByteTail text := by
    cases hp with
    | closed hc => rw [o1] at hc; cases hc
    | opened hc hp =>
      rw [o1] at hc; cases hc
      cases hp with
      | markdown k1 k2 k3 k4 k5 =>
        rw [readLines_iff, File.lines_encode] at k1
        cases k1
        exact k2
  have ht' : ¬ OneByteTail text' := tail_removed (mid := h :: body) (by simp) (by simpa using l1) l2 ht
  obtain ⟨s1, hs1⟩ := C76_exists env.U p pre
  obtain ⟨s0, hs0⟩ := Md.sections_exist env.U p _ 0 post (Nat.le_refl _) he
  have hline : ∀ l ∈ post, IsLine l := by
    intro l hl
    exact ((splitLines_spec text).2.1 l (by rw [← lines_iff.1 l1]; simp [hl])).1
  obtain ⟨r0, -⟩ := Md.sections_run hs0 hline none
  generalize (Md.run env.U p 0 post none).reqs ++ (Md.finish none p (Md.run env.U p 0 post none).cur).1 = rs0 at r0
  have shifted : ∀ k, Sections env.U p k post (s0.map (shiftSection k)) := by
    intro k
    have := shift_sections k hs0
    rwa [Nat.zero_add] at this
  have empty : s0 = [] → post = [] := by
    intro e
    subst e
    cases hs0
    rfl
  have d1 : Document env.U p (pre ++ h :: (body ++ post))
      (s1 ++ ⟨pre.length + 1, id, title, as, cut⟩ :: s0.map (shiftSection (pre.length + 2 + body.length))) :=
    document_append hs1 (.inr ⟨h, _, level, id, title, rfl, hh⟩) (.cons hh nb he b1 (shifted _))
  have d2 : Document env.U p (pre ++ post) (s1 ++ s0.map (shiftSection (pre.length + 1))) :=
    document_append hs1 he (shifted _)
  have kept1 : kept none (s1 ++ ⟨pre.length + 1, id, title, as, cut⟩ :: s0.map (shiftSection (pre.length + 2 + body.length))) =
      s1 ++ ⟨pre.length + 1, id, title, as, cut⟩ :: (kept none s0).map (shiftSection (pre.length + 2 + body.length)) := by
    rw [kept_append _ _ _ (by simp)]
    cases hs : s0 with
    | nil =>
      have := (hpost (empty hs)).1
      simp [kept, this]
    | cons t ts =>
      rw [← shift_kept]
      rfl
  have kept2 : kept none (s1 ++ s0.map (shiftSection (pre.length + 1))) =
      s1 ++ (kept none s0).map (shiftSection (pre.length + 1)) := by
    cases hs : s0 with
    | nil =>
      have := (hpost (empty hs)).2 s1 hs1
      simp [kept, this]
    | cons t ts => rw [kept_append _ _ _ (by simp), shift_kept]
  obtain ⟨rs, -, hrs⟩ := C76_complete env.U ⟨text, none⟩ p _ _ ht l1 d1
  simp only at hrs
  rw [kept1] at hrs
  obtain ⟨ra, rb, rfl, ha, hb⟩ := areRequirements_split hrs
  have m1 : PathMeans env w .markdown p (ra ++ old :: rs0.map (shiftReq (pre.length + 2 + body.length))) _ :=
    .opened o1 (.markdown (.all text) ht l1 d1 (by
      rw [kept1]
      exact areRequirements_append ha (.cons ho (shift_areRequirements _ r0))))
  have m2 : PathMeans env w' .markdown p (ra ++ rs0.map (shiftReq (pre.length + 1))) _ :=
    .opened o2 (.markdown (.all text') ht' l2 d2 (by
      rw [kept2]
      exact areRequirements_append ha (shift_areRequirements _ r0)))
  obtain ⟨rfl, rfl⟩ := pathMeans_unique hp m1
  rw [documentErrors_none, List.flatMap_append, List.flatMap_map] at m2
  rw [documentErrors_none, List.flatMap_append, List.flatMap_cons, List.flatMap_map]
  refine ⟨ra, _, _, s1.flatMap (Section.errors p), _, _, rfl, rfl, m2, ?_, ?_⟩
  · rw [Md.forgetReqs_shift, Md.forgetReqs_shift]
  · simp only [shift_errors, ← List.map_flatMap, Md.forgetErrors_shift]

/-! ## In a project -/

/-- What a file, or several, say before and after. -/
def Lessens (old : Requirement) (rs rs' : List Requirement) : Prop :=
  ∃ a b b', rs = a ++ old :: b ∧ rs' = a ++ b' ∧ b.map forgetReq = b'.map forgetReq

/-- Each of the errors was there before. -/
def NoneNew (es es' : List Error) : Prop := ∀ e' ∈ es', ∃ e ∈ es, forgetError e = forgetError e'

theorem noneNew_append {a a' b b' : List Error} (h1 : NoneNew a a') (h2 : NoneNew b b') : NoneNew (a ++ b) (a' ++ b') := by
  intro e he
  rcases List.mem_append.1 he with he | he
  · obtain ⟨x, h3, h4⟩ := h1 e he; exact ⟨x, List.mem_append.2 (.inl h3), h4⟩
  · obtain ⟨x, h3, h4⟩ := h2 e he; exact ⟨x, List.mem_append.2 (.inr h3), h4⟩

theorem noneNew_refl (a : List Error) : NoneNew a a := fun e he => ⟨e, he, rfl⟩

theorem noneNew_forget {a a' : List Error} (h : a.map forgetError = a'.map forgetError) : NoneNew a a' := by
  intro e he
  have : forgetError e ∈ a.map forgetError := h ▸ List.mem_map_of_mem he
  simpa using this

open Rs in
theorem ownNames_without {debug : List Tok → Str} {f g h h' : Forest} (ho : OwnNames [f, g, h]) (hs : SameCode debug h h') :
    OwnNames [f, .nil, h'] := by
  obtain ⟨-, n2, -⟩ := ownNames_three ho
  have hm : ∀ id, MarkedBy h' id → MarkedBy h id := sameOccs_marked (sameCode_occs hs [] [] [] none none rfl)
  have hnil : ∀ id, ¬ MarkedBy .nil id := by rintro id ⟨o, h, _⟩; cases h
  unfold OwnNames
  simp only [List.pairwise_cons, List.mem_cons, List.not_mem_nil, or_false, forall_eq_or_imp, forall_eq, List.Pairwise.nil,
    and_true, false_imp_iff, implies_true]
  exact ⟨⟨fun id _ => hnil id, fun id h1 h2 => n2 id h1 (hm id h2)⟩, fun id h1 => absurd h1 (hnil id)⟩

open Rs in
theorem says_nil (debug : List Tok → Str) (p : Path) : Says debug p .nil [] [] :=
  ⟨[], .nil, ⟨[], rfl, rfl, by simp, by intro a r s b hab; simp at hab⟩⟩

open Rs in
/-- A Rust file with a piece taken out. -/
theorem code_reduced {env : Env} {w w' : World} {p : Path} {t t' : Str} {f g h h' : Forest} {es : List Entry}
    {old : Requirement} (ho : env.os.openFile w p = .ok ⟨Utf8.encode t, none⟩)
    (ho' : env.os.openFile w' p = .ok ⟨Utf8.encode t', none⟩) (hf : env.syn.parseFile t = .ok (after f (after g h)))
    (hf' : env.syn.parseFile t' = .ok (after f h')) (hs : SameCode env.syn.debug h h') (hn : OwnNames [f, g, h])
    (hm : AllMarks env.syn.debug p (occs p [] none g) es []) (hr : IsRun old es)
    {reqs : List Requirement} {errs : List Error} (hp : PathMeans env w .rust p reqs errs) :
    ∃ reqs' errs', PathMeans env w' .rust p reqs' errs' ∧ Lessens old reqs reqs' ∧ NoneNew errs errs' := by
  obtain ⟨r1, r2, r3, e1, e2, e3, rfl, rfl, s1, s2, s3⟩ := (code_three ho hf hn).1 hp
  obtain ⟨r3', e3', s3', hr3, he3⟩ := sameCode_says (q := p) hs s3
  have h1 := (code_three ho hf hn).2 ⟨r1, [old], r3, e1, [], e3, rfl, rfl, s1, ⟨es, hm, grouped_run hr⟩, s3⟩
  obtain ⟨h2, h3⟩ := pathMeans_unique hp h1
  refine ⟨r1 ++ r3', e1 ++ e3', (code_three (g := .nil) ho' hf' (ownNames_without hn hs)).2
    ⟨r1, [], r3', e1, [], e3', rfl, rfl, s1, says_nil _ _, s3'⟩, ⟨r1, r3, r3', h2, rfl, hr3.symm⟩, ?_⟩
  rw [h3]
  exact noneNew_append (noneNew_refl _) (noneNew_forget he3.symm)

open Rs in
/-- A Rust file with a piece put in. -/
theorem code_inserted {env : Env} {w w' : World} {p : Path} {t t' : Str} {f g h h' : Forest} {es : List Entry}
    {n : Requirement} (ho : env.os.openFile w p = .ok ⟨Utf8.encode t, none⟩)
    (ho' : env.os.openFile w' p = .ok ⟨Utf8.encode t', none⟩) (hf : env.syn.parseFile t = .ok (after f (after g h)))
    (hf' : env.syn.parseFile t' = .ok (after f h')) (hs : SameCode env.syn.debug h h') (hn : OwnNames [f, g, h])
    (hm : AllMarks env.syn.debug p (occs p [] none g) es []) (hr : IsRun n es)
    {reqs : List Requirement} {errs : List Error} (hp : PathMeans env w' .rust p reqs errs) :
    ∃ reqs' errs', PathMeans env w .rust p reqs' errs' := by
  obtain ⟨r1, r2, r3, e1, e2, e3, rfl, rfl, s1, s2, s3⟩ := (code_three (g := .nil) ho' hf' (ownNames_without hn hs)).1 hp
  obtain ⟨r3', e3', s3', -, -⟩ := sameCode_says (q := p) (sameCode_symm hs) s3
  exact ⟨_, _, (code_three ho hf hn).2 ⟨r1, [n], r3', e1, [], e3', rfl, rfl, s1, ⟨es, hm, grouped_run hr⟩, s3'⟩⟩

theorem file_reduced {env : Env} {w w' : World} {p : Path} {parser : ArtefactParser} {old : Requirement}
    (h : FileReduced env w w' p parser old) {reqs : List Requirement} {errs : List Error}
    (hp : PathMeans env w parser p reqs errs) :
    ∃ reqs' errs', PathMeans env w' parser p reqs' errs' ∧ Lessens old reqs reqs' ∧ NoneNew errs errs' := by
  cases h with
  | «section» h1 h2 =>
    obtain ⟨a, b, b', e1, e2, e2', rfl, rfl, h4, h5, h6⟩ := C145_file h1 h2 hp
    refine ⟨_, _, h4, ⟨a, b, b', rfl, rfl, h5⟩, noneNew_append (noneNew_refl _) ?_⟩
    intro e he
    obtain ⟨x, hx, h7⟩ := noneNew_forget h6 e he
    exact ⟨x, List.mem_append.2 (.inr hx), h7⟩
  | code h1 h2 h3 h4 h5 h6 h7 h8 => exact code_reduced h1 h2 h3 h4 h5 h6 h7 h8 hp

theorem paths_reduced {env : Env} {w w' : World} {parser : ArtefactParser} {p : Path} {old : Requirement} {post : List Path}
    (h : FileReduced env w w' p parser old) : ∀ {pre : List Path} {reqs : List Requirement} {errs : List Error},
    (∀ q ∈ pre ++ post, SameFile env w w' q) → PathsMean env w parser (pre ++ p :: post) reqs errs →
    ∃ reqs' errs', PathsMean env w' parser (pre ++ p :: post) reqs' errs' ∧ Lessens old reqs reqs' ∧ NoneNew errs errs'
  | [], reqs, errs, hs, hp => by
    cases hp with
    | @cons _ _ r rs e es h1 h2 =>
      obtain ⟨reqs', errs', h3, ⟨a, b, b', rfl, rfl, h4⟩, h5⟩ := file_reduced h h1
      exact ⟨_, _, PathsMean.cons h3 (paths_same h2 (fun q hq => hs q (by simp [hq]))),
        ⟨a, b ++ rs, b' ++ rs, by simp, by simp, by simp [h4]⟩, noneNew_append h5 (noneNew_refl _)⟩
  | q :: pre, reqs, errs, hs, hp => by
    cases hp with
    | @cons _ _ r rs e es h1 h2 =>
      obtain ⟨reqs', errs', h3, ⟨a, b, b', rfl, rfl, h4⟩, h5⟩ :=
        paths_reduced h (pre := pre) (fun q hq => hs q (by simp at hq ⊢; exact .inr hq)) h2
      exact ⟨_, _, PathsMean.cons (pathMeans_same (hs q (by simp)) h1) h3, ⟨r ++ a, b, b', by simp, by simp, h4⟩,
        noneNew_append (noneNew_refl _) h5⟩

theorem duplicates_forget {rs rs' : List Requirement} (h : rs.map forgetReq = rs'.map forgetReq) :
    NoneNew (duplicates rs) (duplicates rs') := by
  intro e he
  obtain ⟨i, h1, h2⟩ := List.mem_filterMap.1 he
  cases hi : rs'[i]? with
  | none => rw [hi] at h2; cases h2
  | some r' =>
    rw [hi] at h2
    simp only [Option.map_eq_some_iff] at h2
    obtain ⟨f', h2, rfl⟩ := h2
    have h3 : (rs.map forgetReq)[i]? = some (forgetReq r') := by rw [h]; simp [hi]
    simp only [List.getElem?_map, Option.map_eq_some_iff] at h3
    obtain ⟨r, h3, h4⟩ := h3
    have h5 : (forgetReq r).id = (forgetReq r').id := congrArg Requirement.id h4
    replace h5 : r.id = r'.id := h5
    have h6 := find_forget (b := rs.take i) (b' := rs'.take i) (by rw [List.map_take, List.map_take, h]) r'.id
    rw [h2] at h6
    simp only [Option.map_some, Option.map_eq_some_iff] at h6
    obtain ⟨f, h6, h7⟩ := h6
    refine ⟨.duplicateRequirement f r, mem_duplicates.2 ⟨i, h3, by rw [h5]; exact h6⟩, ?_⟩
    simp only [forgetError, h4, h7]

theorem lessens_duplicates {old : Requirement} {rs rs' : List Requirement} (h : Lessens old rs rs')
    (hf : ∀ first again, Error.duplicateRequirement first again ∈ duplicates rs → first.id ≠ old.id) :
    NoneNew (duplicates rs) (duplicates rs') := by
  obtain ⟨a, b, b', rfl, rfl, h⟩ := h
  have h1 := (collect_grows (e := []) (fresh_of_no_duplicate hf)).1
  rw [(collect_eq ..).2, (collect_eq ..).2] at h1
  rw [List.nil_append, List.nil_append] at h1
  rw [h1]
  exact duplicates_forget (by rw [List.map_append, List.map_append, h])

theorem lessens_collect {old : Requirement} {rs rs' : List Requirement} (h : Lessens old rs rs')
    (hf : ∀ first again, Error.duplicateRequirement first again ∈ duplicates rs → first.id ≠ old.id) (e e' : List Error) :
    (collectRequirements rs .empty e).1.get old.id = some old ∧
    ∀ k, ((collectRequirements rs' .empty e').1.get k).map forgetReq =
      if k = old.id then none else ((collectRequirements rs .empty e).1.get k).map forgetReq := by
  obtain ⟨a, b, b', rfl, rfl, h⟩ := h
  have hfresh := fresh_of_no_duplicate hf
  have h1 := (collect_grows (e := e) hfresh).2
  refine ⟨by rw [h1, if_pos rfl], fun k => ?_⟩
  rw [h1, (collect_eq ..).1, (collect_eq ..).1]
  have h2 := find_forget (b := a ++ b) (b' := a ++ b') (by rw [List.map_append, List.map_append, h]) k
  rw [← h2]
  by_cases hk : k = old.id
  · rw [if_pos hk, hk, List.find?_eq_none.2 (fun r hr => by simpa using hfresh r hr)]
    rfl
  · rw [if_neg hk, if_neg hk]

theorem makeArtefact_reduced {env : Env} {w w' : World} (hg : SameMatches env w w') {base : Path} {ac : ArtefactConfig}
    {roots : BMap ArtefactId Bool} {old : Requirement} {pre post : List Path} {p : Path}
    (hf : FilesOf env w ac base (pre ++ p :: post))
    (hp : FileReduced env w w' p ac.parser old) (hs : ∀ q ∈ pre ++ post, SameFile env w w' q) {a : Artefact}
    (h : makeArtefact env w base roots ac = .ok a)
    (hd : ∀ fs reqs errs, parseArtefact env w ac base = .ok (fs, reqs, errs) →
      ∀ first again, Error.duplicateRequirement first again ∈ duplicates reqs → first.id ≠ old.id) :
    ∃ a', makeArtefact env w' base roots ac = .ok a' ∧ a'.id = a.id ∧
      a'.ignoreDerivedRequirements = a.ignoreDerivedRequirements ∧ a'.referenceWithTitle = a.referenceWithTitle ∧
      NoneNew a.errors a'.errors ∧ a.requirements.get old.id = some old ∧
      (∀ k, (a'.requirements.get k).map forgetReq = if k = old.id then none else (a.requirements.get k).map forgetReq) ∧
      ∀ k r, a'.requirements.get k = some r → r.id = k := by
  obtain ⟨root, files, m, errs, h1, h2, rfl⟩ := makeArtefact_ok h
  obtain ⟨reqs, perrs, h3, rfl, h5⟩ := parseFromConfig_ok h2
  have h6 : PathsMean env w ac.parser (pre ++ p :: post) reqs perrs ∧ files = pre ++ p :: post := by
    obtain ⟨a1, a2⟩ := (parseArtefact_filesOf hf _).1 h3
    simp only [Prod.mk.injEq] at a2
    exact ⟨(pathsMean_iff _ _ _).2 ⟨a1, a2.2.1, a2.2.2⟩, a2.1⟩
  obtain ⟨h6, rfl⟩ := h6
  obtain ⟨reqs', errs', h7, h8, h8'⟩ := paths_reduced hp hs h6
  have h9 := parseArtefact_iff.2 (.files (filesOf_same hg hf) h7)
  have hdup := hd _ _ _ h3
  obtain ⟨c1, c2⟩ := lessens_collect h8 hdup perrs errs'
  unfold makeArtefact parseFromConfig
  rw [h1, h9]
  simp only [orPanic, bind, Except.bind, pure, Except.pure]
  refine ⟨_, rfl, rfl, rfl, rfl, ?_, c1, c2, fun k r hr => ?_⟩
  · have base : NoneNew errs (collectRequirements reqs' .empty errs').2 := by
      rw [(collect_eq ..).2, h5]
      exact noneNew_append h8' (lessens_duplicates h8 hdup)
    cases hb : ac.referenceWithTitle with
    | none => simpa using base
    | some b =>
      cases b with
      | false => simpa using base
      | true =>
        simp only [Option.getD_some, if_true]
        refine noneNew_append base ?_
        intro e he
        obtain ⟨r, hr, rfl⟩ := List.mem_map.1 he
        rw [List.mem_filter, BMap.mem_values_iff] at hr
        obtain ⟨⟨k, hk⟩, hr⟩ := hr
        have := c2 k
        rw [hk] at this
        by_cases ek : k = old.id
        · rw [if_pos ek] at this; cases this
        · rw [if_neg ek] at this
          simp only [Option.map_some] at this
          obtain ⟨r0, h10, h11⟩ := Option.map_eq_some_iff.1 this.symm
          have ht : (forgetReq r0).title = (forgetReq r).title := congrArg Requirement.title h11
          replace ht : r0.title = r.title := ht
          refine ⟨.requirementWithoutTitle r0, List.mem_map_of_mem (List.mem_filter.2 ⟨?_, ?_⟩), ?_⟩
          · exact (BMap.mem_values_iff ..).2 ⟨k, h10⟩
          · rw [ht]; exact hr
          · simp only [forgetError, h11]
  · simp only [(collect_eq ..).1] at hr
    simpa using List.find?_some hr

theorem project_reduced {env : Env} {w w' : World} {base : Path} {config : Config} {x : ArtefactId} {old : Requirement}
    (hm : ProjectReduced env w w' base config x old) {c : Controller}
    (h : Controller.new env w config base = .ok c)
    (hd : ∀ ac, LastEntry config ac → ac.id = x → ∀ fs reqs errs, parseArtefact env w ac base = .ok (fs, reqs, errs) →
      ∀ first again, Error.duplicateRequirement first again ∈ duplicates reqs → first.id ≠ old.id) :
    ∃ c', Controller.new env w' config base = .ok c' ∧ GraphReduced c.graph c'.graph x old ∧ c'.jobs = c.jobs := by
  obtain ⟨before, ac, aft, pre, p, post, e1, rfl, e3, e4, e5, e6, e7⟩ := hm.artefact
  obtain ⟨roots, h1, h2, h3, h4, h5, h6, h7⟩ := new_ok h
  obtain ⟨hk, hr⟩ := C18_consistent h
  have hsame : ∀ b ∈ before ++ aft, makeArtefact env w' base roots b = makeArtefact env w base roots b := by
    intro b hb
    unfold makeArtefact parseFromConfig
    rw [parseArtefact_congr hm.matching (e7 b hb)]
  rw [e1] at h2
  obtain ⟨art, g1, g2, g3⟩ := makeArtefacts_one e3 hsame h2
  obtain ⟨art', g4, g5, g6, g7, g8, g8', g8'', g9⟩ := makeArtefact_reduced hm.matching e4 e5 e6 g1 (hd ac ⟨before, aft, e1, e3⟩ rfl)
  obtain ⟨m', k1, k2⟩ := g3 _ g4
  have hadd : GraphReduced c.graph ⟨m', config.relations⟩ ac.id old :=
    ⟨h3.symm, fun a ha => by simp only; rw [k2, if_neg ha],
      ⟨art, art', g2, by simp only; rw [k2, if_pos rfl], g5, g6, g7, g8, g8', g8''⟩⟩
  have hk' : Keyed ⟨m', config.relations⟩ := by
    constructor
    · intro a b hb
      simp only [k2] at hb
      by_cases ha : a = ac.id
      · rw [if_pos ha] at hb
        cases hb
        rw [g5, ha]
        exact hk.artefact _ art g2
      · rw [if_neg ha] at hb
        exact hk.artefact _ _ hb
    · intro a b hb k r hr
      simp only [k2] at hb
      by_cases ha : a = ac.id
      · rw [if_pos ha] at hb
        cases hb
        exact g9 k r hr
      · rw [if_neg ha] at hb
        exact hk.requirement _ _ hb _ _ hr
  have hr' : RelationsExist ⟨m', config.relations⟩ := by
    have key : ∀ a, (∃ art, c.graph.artefacts.get a = some art) → ∃ art, m'.get a = some art := by
      intro a ha
      rw [k2]
      by_cases e : a = ac.id
      · rw [if_pos e]; exact ⟨_, rfl⟩
      · rw [if_neg e]; exact ha
    intro rel hrel
    simp only [← h3] at hrel
    exact ⟨key _ (hr rel hrel).1, fun a ha => key a ((hr rel hrel).2 a ha)⟩
  obtain ⟨tg', ht'⟩ := C10_no_panic hk' hr'
  refine ⟨⟨base, ⟨m', config.relations⟩, tg', config.jobs.getD .empty, config.defaultJobs.getD []⟩, ?_, hadd, h6.symm⟩
  unfold Controller.new
  rw [h1]
  simp only [bind, Except.bind]
  rw [e1, k1]
  simp only
  rw [ht']
  rfl

/-- **C145** The project without a section, or mark, is the project before without that requirement, but for places in the
same artefact. -/
theorem C145_project {env : Env} {w w' : World} {base : Path} {config : Config} {x : ArtefactId} {old : Requirement}
    (hm : ProjectReduced env w w' base config x old) {c : Controller}
    (h : Controller.new env w config base = .ok c)
    (hd : ∀ art, c.graph.artefacts.get x = some art → ∀ first again, Error.duplicateRequirement first again ∈ art.errors →
      first.id ≠ old.id) :
    ∃ c', Controller.new env w' config base = .ok c' ∧ GraphReduced c.graph c'.graph x old ∧ c'.jobs = c.jobs := by
  refine project_reduced hm h fun ac hl hx fs reqs errs hp f s hfs => ?_
  have hc : ∃ art, c.graph.artefacts.get x = some art := by
    obtain ⟨pre, post, e, -⟩ := hl
    exact (new_configured h x).1 ⟨ac, by rw [e]; simp, hx⟩
  obtain ⟨art, ha⟩ := hc
  refine hd art ha f s ?_
  obtain ⟨ac', root, files, m, errs', hl', hid, -, hp', rfl⟩ := new_artefact h ha
  have := lastEntry_unique hl' hl (hid.trans hx.symm)
  subst this
  obtain ⟨reqs', perrs, h1, -, rfl⟩ := parseFromConfig_ok hp'
  rw [hp] at h1; cases h1
  simp only
  split
  · exact List.mem_append.2 (.inl (List.mem_append.2 (.inr hfs)))
  · exact List.mem_append.2 (.inr hfs)

/-! ## What tracing finds -/

/-- The graph without the requirement. -/
def without (g : Graph) (x : ArtefactId) (art : Artefact) (id : RequirementId) : Graph :=
  ⟨g.artefacts.insert x { art with requirements := art.requirements.erase id }, g.relations⟩

theorem without_adds {g : Graph} (hk : Keyed g) {x : ArtefactId} {old : Requirement} {art : Artefact}
    (ha : g.artefacts.get x = some art) (ho : art.requirements.get old.id = some old) (hu : OnlyOne g x old) :
    AddsRequirement (without g x art old.id) g x old := by
  refine ⟨rfl, fun a hx => ?_, ⟨{ art with requirements := art.requirements.erase old.id }, art.requirements, ?_, ?_, ?_⟩, ?_⟩
  · simp only [without, BMap.get_insert, if_neg hx]
  · simp only [without, BMap.get_insert, if_pos]
  · exact ha
  · intro k
    simp only [BMap.get_erase]
    by_cases e : k = old.id
    · rw [if_pos e, e]; exact ho
    · rw [if_neg e, if_neg e]
  · rintro a r ⟨b, h1, h2⟩ e
    simp only [without, BMap.get_insert] at h1
    by_cases ex : a = x
    · rw [if_pos ex] at h1
      cases h1
      simp only [BMap.get_erase, if_pos e] at h2
      cases h2
    · rw [if_neg ex] at h1
      exact ex (hu a r ⟨b, h1, h2⟩ e)

theorem without_keyed {g : Graph} (hk : Keyed g) {x : ArtefactId} {id : RequirementId} {art : Artefact}
    (ha : g.artefacts.get x = some art) : Keyed (without g x art id) := by
  constructor
  · intro a b hb
    simp only [without, BMap.get_insert] at hb
    by_cases ex : a = x
    · rw [if_pos ex] at hb; cases hb; rw [ex]; exact hk.artefact _ art ha
    · rw [if_neg ex] at hb; exact hk.artefact _ _ hb
  · intro a b hb k r hr
    simp only [without, BMap.get_insert] at hb
    by_cases ex : a = x
    · rw [if_pos ex] at hb; cases hb
      simp only [BMap.get_erase] at hr
      split at hr
      · cases hr
      · exact hk.requirement _ _ ha _ _ hr
    · rw [if_neg ex] at hb; exact hk.requirement _ _ hb _ _ hr

theorem without_exist {g : Graph} (hr : RelationsExist g) {x : ArtefactId} {id : RequirementId} {art : Artefact} :
    RelationsExist (without g x art id) := by
  have key : ∀ a, (∃ b, g.artefacts.get a = some b) → ∃ b, (without g x art id).artefacts.get a = some b := by
    intro a h
    simp only [without, BMap.get_insert]
    split
    · exact ⟨_, rfl⟩
    · exact h
  exact fun rel hrel => ⟨key _ (hr rel hrel).1, fun a h => key a ((hr rel hrel).2 a h)⟩

theorem establishes_upper {g : Graph} {rel : Relation} {a : ArtefactId} {u l : Requirement} {ref : Reference}
    {d : CoverageDirection} (h : Establishes g rel a u l ref d) : Defines g rel.upper u := by
  cases h <;> assumption

theorem first_of {l : List Reference} {id : RequirementId} (h : ∃ ref ∈ l, ref.id = id) :
    ∃ pre ref post, l = pre ++ ref :: post ∧ ref.id = id ∧ ∀ r ∈ pre, r.id ≠ id := by
  induction l with
  | nil => obtain ⟨_, h, _⟩ := h; cases h
  | cons x l ih =>
    by_cases hx : x.id = id
    · exact ⟨[], x, l, rfl, hx, by simp⟩
    · obtain ⟨ref, h1, h2⟩ := h
      rcases List.mem_cons.1 h1 with rfl | h1
      · exact absurd h2 hx
      · obtain ⟨pre, r, post, rfl, e2, e3⟩ := ih ⟨ref, h1, h2⟩
        refine ⟨x :: pre, r, post, rfl, e2, fun y hy => ?_⟩
        rcases List.mem_cons.1 hy with rfl | hy
        · exact hx
        · exact e3 y hy

theorem coversUnknown_iff {g : Graph} (hk : Keyed g) {tg : TracedGraph} (h : trace g = .ok tg) (id up : RequirementId) :
    CoversUnknown tg id up ↔ (∃ a r, Owns g a r ∧ r.id = id ∧ ∃ ref ∈ r.covers, ref.id = up) ∧
      ¬ ∃ tr ∈ tg.tracedRelations, Covers tr up id .upwards := by
  constructor
  · rintro ⟨r, loc, h1, rfl⟩
    obtain ⟨⟨a, h2⟩, ⟨pre, ref, post, h3, h4, -⟩, h5⟩ := (C04_covers_unknown hk h ..).1 h1
    refine ⟨⟨a, r, h2, rfl, ref, by rw [h3]; simp, h4⟩, ?_⟩
    rintro ⟨tr, h6, c, h7, h8, h9, h10⟩
    exact h5 tr h6 c h7 ⟨h10, h8, h9⟩
  · rintro ⟨⟨a, r, h2, rfl, h3⟩, h5⟩
    obtain ⟨pre, ref, post, e1, e2, e3⟩ := first_of h3
    refine ⟨r, ref.location, (C04_covers_unknown hk h ..).2 ⟨⟨a, h2⟩, ⟨pre, ref, post, e1, e2, rfl, e3⟩, ?_⟩, rfl⟩
    rintro tr h6 c h7 ⟨h8, h9, h10⟩
    exact h5 ⟨tr, h6, c, h7, h9, h10, h8⟩

theorem dependsOnUnknown_iff {g : Graph} (hk : Keyed g) {tg : TracedGraph} (h : trace g = .ok tg) (id low : RequirementId) :
    DependsOnUnknown tg id low ↔ (∃ a r, Owns g a r ∧ r.id = id ∧ ∃ ref ∈ r.depends, ref.id = low) ∧
      ¬ ∃ tr ∈ tg.tracedRelations, Covers tr id low .downwards := by
  constructor
  · rintro ⟨r, loc, h1, rfl⟩
    obtain ⟨⟨a, h2⟩, ⟨pre, ref, post, h3, h4, -⟩, h5⟩ := (C05_depends_unknown hk h ..).1 h1
    refine ⟨⟨a, r, h2, rfl, ref, by rw [h3]; simp, h4⟩, ?_⟩
    rintro ⟨tr, h6, c, h7, h8, h9, h10⟩
    exact h5 tr h6 c h7 ⟨h10, h8, h9⟩
  · rintro ⟨⟨a, r, h2, rfl, h3⟩, h5⟩
    obtain ⟨pre, ref, post, e1, e2, e3⟩ := first_of h3
    refine ⟨r, ref.location, (C05_depends_unknown hk h ..).2 ⟨⟨a, h2⟩, ⟨pre, ref, post, e1, e2, rfl, e3⟩, ?_⟩, rfl⟩
    rintro tr h6 c h7 ⟨h8, h9, h10⟩
    exact h5 ⟨tr, h6, c, h7, h9, h10, h8⟩

section
variable {g0 g : Graph} {x : ArtefactId} {old : Requirement} (ha : AddsRequirement g0 g x old)
include ha

theorem less_establishes (rel : Relation) (a : ArtefactId) (u l : Requirement) (ref : Reference) (d : CoverageDirection) :
    Establishes g0 rel a u l ref d ↔ Establishes g rel a u l ref d ∧ u.id ≠ old.id ∧ l.id ≠ old.id := by
  constructor
  · intro h
    refine ⟨(ha.establishes ..).1 h, ?_⟩
    cases h with
    | down h1 h2 h3 h4 h5 => exact ⟨ha.fresh _ _ h1, ha.fresh _ _ h3.1⟩
    | up h1 h2 h3 h4 h5 => exact ⟨ha.fresh _ _ h1, ha.fresh _ _ h3.1⟩
  · rintro ⟨h, h1, h2⟩
    rcases (ha.establishes ..).2 h with h | rfl | rfl
    · exact h
    · exact absurd rfl h1
    · exact absurd rfl h2

theorem less_defines (a : ArtefactId) (r : Requirement) : Defines g0 a r ↔ Defines g a r ∧ r.id ≠ old.id := by
  rw [ha.defines]
  constructor
  · exact fun h => ⟨.inl h, ha.fresh _ _ h⟩
  · rintro ⟨h | ⟨-, rfl⟩, h2⟩
    · exact h
    · exact absurd rfl h2

theorem less_owns (a : ArtefactId) (r : Requirement) : Owns g0 a r ↔ Owns g a r ∧ r.id ≠ old.id := by
  rw [ha.owns]
  constructor
  · exact fun h => ⟨.inl h, ha.fresh _ _ h.1⟩
  · rintro ⟨h | ⟨-, rfl⟩, h2⟩
    · exact h
    · exact absurd rfl h2

variable (hk0 : Keyed g0) (hk : Keyed g) {tg0 tg : TracedGraph} (h0 : trace g0 = .ok tg0) (h : trace g = .ok tg)
include hk0 hk h0 h

theorem less_covers {i : Nat} {tr tr0 : TracedRelation} (hi : tg.tracedRelations[i]? = some tr)
    (hi0 : tg0.tracedRelations[i]? = some tr0) (up low : RequirementId) (d : CoverageDirection) :
    Covers tr0 up low d ↔ Covers tr up low d ∧ up ≠ old.id ∧ low ≠ old.id := by
  constructor
  · rintro ⟨c, hc, rfl, rfl, rfl⟩
    obtain ⟨rel, a, u, l, ref, e1, e2, e3⟩ := (C01_coverage_exact hk0 h0 hi0 c).1 hc
    obtain ⟨e2, e4, e5⟩ := (less_establishes ha ..).1 e2
    refine ⟨⟨c, (C01_coverage_exact hk h hi c).2 ⟨rel, a, u, l, ref, by rw [ha.relations]; exact e1, e2, e3⟩, rfl, rfl, rfl⟩, ?_⟩
    rw [e3]
    exact ⟨e4, e5⟩
  · rintro ⟨⟨c, hc, rfl, rfl, rfl⟩, e4, e5⟩
    obtain ⟨rel, a, u, l, ref, e1, e2, e3⟩ := (C01_coverage_exact hk h hi c).1 hc
    rw [e3] at e4 e5
    exact ⟨c, (C01_coverage_exact hk0 h0 hi0 c).2
      ⟨rel, a, u, l, ref, by rw [← ha.relations]; exact e1, (less_establishes ha ..).2 ⟨e2, e4, e5⟩, e3⟩, rfl, rfl, rfl⟩

theorem less_relations : tg0.tracedRelations.map (·.relation) = tg.tracedRelations.map (·.relation) := by
  rw [(C11_frame hk0 h0).2.2, (C11_frame hk h).2.2, ha.relations]

/-- The traced relation at the same position. -/
theorem less_at {i : Nat} {tr : TracedRelation} (hi : tg.tracedRelations[i]? = some tr) :
    ∃ tr0, tg0.tracedRelations[i]? = some tr0 ∧ tr0.relation = tr.relation := by
  have h1 := congrArg (·[i]?) (less_relations ha hk0 hk h0 h)
  simp only [List.getElem?_map, hi, Option.map_some, Option.map_eq_some_iff] at h1
  exact h1

theorem less_at' {i : Nat} {tr0 : TracedRelation} (hi : tg0.tracedRelations[i]? = some tr0) :
    ∃ tr, tg.tracedRelations[i]? = some tr ∧ tr.relation = tr0.relation := by
  have h1 := congrArg (·[i]?) (less_relations ha hk0 hk h0 h).symm
  simp only [List.getElem?_map, hi, Option.map_some, Option.map_eq_some_iff] at h1
  exact h1

/-- There is a coverage along some relation. -/
theorem less_some (up low : RequirementId) (d : CoverageDirection) :
    (∃ tr0 ∈ tg0.tracedRelations, Covers tr0 up low d) ↔
      (∃ tr ∈ tg.tracedRelations, Covers tr up low d) ∧ up ≠ old.id ∧ low ≠ old.id := by
  constructor
  · rintro ⟨tr0, h1, h2⟩
    obtain ⟨i, hi⟩ := List.getElem?_of_mem h1
    obtain ⟨tr, hi', -⟩ := less_at' ha hk0 hk h0 h hi
    obtain ⟨h3, h4⟩ := (less_covers ha hk0 hk h0 h hi' hi ..).1 h2
    exact ⟨⟨tr, List.mem_of_getElem? hi', h3⟩, h4⟩
  · rintro ⟨⟨tr, h1, h2⟩, h4⟩
    obtain ⟨i, hi⟩ := List.getElem?_of_mem h1
    obtain ⟨tr0, hi', -⟩ := less_at ha hk0 hk h0 h hi
    exact ⟨tr0, List.mem_of_getElem? hi', (less_covers ha hk0 hk h0 h hi hi' ..).2 ⟨h2, h4⟩⟩

theorem less_unknown (id : RequirementId) :
    (CoversUnknown tg0 id = fun up => id ≠ old.id ∧
      (CoversUnknown tg id up ∨ up = old.id ∧ ∃ a r, Owns g a r ∧ r.id = id ∧ ∃ ref ∈ r.covers, ref.id = old.id)) ∧
    (DependsOnUnknown tg0 id = fun low => id ≠ old.id ∧
      (DependsOnUnknown tg id low ∨ low = old.id ∧ ∃ a r, Owns g a r ∧ r.id = id ∧ ∃ ref ∈ r.depends, ref.id = old.id)) := by
  have hl := less_some ha hk0 hk h0 h
  have hown : ∀ P : Requirement → Prop, (∃ a r, Owns g0 a r ∧ r.id = id ∧ P r) ↔ (∃ a r, Owns g a r ∧ r.id = id ∧ P r) ∧ id ≠ old.id := by
    intro P
    constructor
    · rintro ⟨a, r, h1, rfl, h3⟩
      obtain ⟨h1, h2⟩ := (less_owns ha ..).1 h1
      exact ⟨⟨a, r, h1, rfl, h3⟩, h2⟩
    · rintro ⟨⟨a, r, h1, rfl, h3⟩, h2⟩
      exact ⟨a, r, (less_owns ha ..).2 ⟨h1, h2⟩, rfl, h3⟩
  constructor
  · funext up
    rw [eq_iff_iff, coversUnknown_iff hk0 h0, coversUnknown_iff hk h, hl, hown]
    constructor
    · rintro ⟨⟨e1, e2⟩, e3⟩
      refine ⟨e2, ?_⟩
      by_cases hu : up = old.id
      · subst hu; exact .inr ⟨rfl, e1⟩
      · exact .inl ⟨e1, fun hc => e3 ⟨hc, hu, e2⟩⟩
    · rintro ⟨e2, ⟨e1, e3⟩ | ⟨rfl, e1⟩⟩
      · exact ⟨⟨e1, e2⟩, fun hc => e3 hc.1⟩
      · exact ⟨⟨e1, e2⟩, fun hc => hc.2.1 rfl⟩
  · funext low
    rw [eq_iff_iff, dependsOnUnknown_iff hk0 h0, dependsOnUnknown_iff hk h, hl, hown]
    constructor
    · rintro ⟨⟨e1, e2⟩, e3⟩
      refine ⟨e2, ?_⟩
      by_cases hu : low = old.id
      · subst hu; exact .inr ⟨rfl, e1⟩
      · exact .inl ⟨e1, fun hc => e3 ⟨hc, e2, hu⟩⟩
    · rintro ⟨e2, ⟨e1, e3⟩ | ⟨rfl, e1⟩⟩
      · exact ⟨⟨e1, e2⟩, fun hc => e3 hc.1⟩
      · exact ⟨⟨e1, e2⟩, fun hc => hc.2.2 rfl⟩

theorem trace_less : TraceReduced g tg tg0 old := by
  refine ⟨less_relations ha hk0 hk h0 h, fun i tr tr0 hi hi0 => less_covers ha hk0 hk h0 h hi hi0, ?_, ?_, ?_, ?_⟩
  · intro i tr tr0 hi hi0 id
    obtain ⟨art0, a1, -, a2⟩ := C02_uncovered_complement hk0 h0 (List.mem_of_getElem? hi0)
    obtain ⟨art, b1, -, b2⟩ := C02_uncovered_complement hk h (List.mem_of_getElem? hi)
    obtain ⟨tr1, hi1, hrel⟩ := less_at ha hk0 hk h0 h hi
    rw [hi0] at hi1; cases hi1
    rw [hrel] at a1
    have key : (∃ r, art0.requirements.get id = some r) ↔ (∃ r, art.requirements.get id = some r) ∧ id ≠ old.id := by
      constructor
      · rintro ⟨r, hr⟩
        have e : r.id = id := hk0.requirement _ _ a1 _ _ hr
        subst e
        obtain ⟨⟨art', c1, c2⟩, c3⟩ := (less_defines ha _ r).1 ⟨art0, a1, hr⟩
        rw [b1] at c1; cases c1
        exact ⟨⟨r, c2⟩, c3⟩
      · rintro ⟨⟨r, hr⟩, hne⟩
        have e : r.id = id := hk.requirement _ _ b1 _ _ hr
        subst e
        obtain ⟨art', c1, c2⟩ := (less_defines ha _ r).2 ⟨⟨art, b1, hr⟩, hne⟩
        rw [a1] at c1; cases c1
        exact ⟨r, c2⟩
    rw [a2, b2, key]
    have hc := less_covers ha hk0 hk h0 h hi hi0
    constructor
    · rintro ⟨⟨c1, c2⟩, c3⟩
      refine ⟨c2, ?_⟩
      have hall : ∀ low d, Covers tr id low d → low = old.id := by
        intro low d hcov
        refine Classical.byContradiction fun hne => ?_
        obtain ⟨c, d1, d2, -, -⟩ := (hc id low d).2 ⟨hcov, c2, hne⟩
        exact c3 c d1 d2
      by_cases hn : ∃ d, Covers tr id old.id d
      · exact .inr ⟨hn, hall⟩
      · refine .inl ⟨c1, fun c hcm e => hn ⟨c.direction, ?_⟩⟩
        have := hall c.lower c.direction ⟨c, hcm, e, rfl, rfl⟩
        exact ⟨c, hcm, e, this, rfl⟩
    · rintro ⟨c2, ⟨c1, c3⟩ | ⟨⟨d, c, d1, d2, d3, d4⟩, c3⟩⟩
      · refine ⟨⟨c1, c2⟩, fun c hcm e => ?_⟩
        obtain ⟨⟨c', e1, e2, -, -⟩, -⟩ := (hc id c.lower c.direction).1 ⟨c, hcm, e, rfl, rfl⟩
        exact c3 c' e1 e2
      · refine ⟨⟨?_, c2⟩, fun c hcm e => ?_⟩
        · obtain ⟨rel, a, u, l, ref, e1, e2, e3⟩ := (C01_coverage_exact hk h hi c).1 d1
          have hrel' := congrArg (·[i]?) (C11_frame hk h).2.2
          simp only [List.getElem?_map, hi, Option.map_some] at hrel'
          rw [e1] at hrel'
          cases hrel'
          have hu : Defines g tr.relation.upper u := establishes_upper e2
          obtain ⟨art', f1, f2⟩ := hu
          rw [b1] at f1; cases f1
          have : u.id = id := by rw [← d2, e3]
          exact ⟨u, this ▸ f2⟩
        · obtain ⟨e1, e2, e3⟩ := (hc id c.lower c.direction).1 ⟨c, hcm, e, rfl, rfl⟩
          exact e3 (c3 _ _ e1)
  · intro a
    have hsome : (tg0.derived.get a).isSome = (tg.derived.get a).isSome := by
      rw [Bool.eq_iff_iff, ← BMap.mem_keys_iff_isSome, ← BMap.mem_keys_iff_isSome, (C11_frame hk0 h0).2.1, (C11_frame hk h).2.1,
        BMap.mem_keys_iff_isSome, BMap.mem_keys_iff_isSome]
      by_cases e : a = x
      · obtain ⟨art, reqs, k1, k2, -⟩ := ha.here
        rw [e, k1, k2]; rfl
      · rw [ha.others a e]
    refine ⟨hsome, fun d d0 hd hd0 id => ?_⟩
    have hart : ∃ art, g.artefacts.get a = some art := by
      have : a ∈ tg.derived.keys := by rw [BMap.mem_keys_iff_isSome, hd]; rfl
      rw [(C11_frame hk h).2.1, BMap.mem_keys_iff_isSome] at this
      exact Option.isSome_iff_exists.1 this
    have hart0 : ∃ art, g0.artefacts.get a = some art := by
      have : a ∈ tg0.derived.keys := by rw [BMap.mem_keys_iff_isSome, hd0]; rfl
      rw [(C11_frame hk0 h0).2.1, BMap.mem_keys_iff_isSome] at this
      exact Option.isSome_iff_exists.1 this
    obtain ⟨art, hart⟩ := hart
    obtain ⟨art0, hart0⟩ := hart0
    have hset := ha.settings hart0 hart
    obtain ⟨d', k1, -, k2⟩ := C03_derived_exact hk h hart
    rw [hd] at k1; cases k1
    obtain ⟨d', k1, -, k3⟩ := C03_derived_exact hk0 h0 hart0
    rw [hd0] at k1; cases k1
    have hown : (∃ r, Owns g0 a r ∧ r.id = id) ↔ (∃ r, Owns g a r ∧ r.id = id) ∧ id ≠ old.id := by
      constructor
      · rintro ⟨r, h1, rfl⟩
        obtain ⟨h1, h2⟩ := (less_owns ha ..).1 h1
        exact ⟨⟨r, h1, rfl⟩, h2⟩
      · rintro ⟨⟨r, h1, rfl⟩, h2⟩
        exact ⟨r, (less_owns ha ..).2 ⟨h1, h2⟩, rfl⟩
    have hl := less_some ha hk0 hk h0 h
    rw [k2, k3, hown, ← hset]
    constructor
    · rintro ⟨e1, ⟨e2, e3⟩, e4⟩
      refine ⟨e3, ?_⟩
      have hall : ∀ tr ∈ tg.tracedRelations, ∀ up dir, Covers tr up id dir → up = old.id := by
        intro tr htr up dir hcov
        refine Classical.byContradiction fun hne => ?_
        obtain ⟨tr0, f1, c, f2, f3, f4, f5⟩ := (hl up id dir).2 ⟨⟨tr, htr, hcov⟩, hne, e3⟩
        exact e4 tr0 f1 c f2 f4
      by_cases hn : ∃ tr ∈ tg.tracedRelations, ∃ dir, Covers tr old.id id dir
      · exact .inr ⟨⟨art, hart, by rw [← e1, hset]⟩, e2, hn, hall⟩
      · refine .inl ⟨e1, e2, fun tr htr c hc e => hn ⟨tr, htr, c.direction, c, hc, ?_, e, rfl⟩⟩
        exact hall tr htr c.upper c.direction ⟨c, hc, rfl, e, rfl⟩
    · rintro ⟨e3, ⟨e1, e2, e4⟩ | ⟨⟨art1, e0, e1⟩, e2, e4, e5⟩⟩
      · refine ⟨e1, ⟨e2, e3⟩, fun tr0 htr c hc e => ?_⟩
        obtain ⟨⟨tr, f1, c', f2, -, f4, -⟩, -⟩ := (hl c.upper id c.direction).1 ⟨tr0, htr, c, hc, rfl, e, rfl⟩
        exact e4 tr f1 c' f2 f4
      · rw [hart] at e0; cases e0
        refine ⟨by rw [hset] at e1 ⊢; exact e1, ⟨e2, e3⟩, fun tr0 htr c hc e => ?_⟩
        obtain ⟨⟨tr, f1, f2⟩, f3, -⟩ := (hl c.upper id c.direction).1 ⟨tr0, htr, c, hc, rfl, e, rfl⟩
        exact f3 (e5 tr f1 _ _ f2)
  · exact fun id up => iff_of_eq (congrFun (less_unknown ha hk0 hk h0 h id).1 up)
  · exact fun id low => iff_of_eq (congrFun (less_unknown ha hk0 hk h0 h id).2 low)

end

/-- The same coverages, but for the places. -/
theorem covers_congr {tr tr' : TracedRelation}
    (h : tr.covered.map (fun c => (c.upper, c.lower, c.direction)) = tr'.covered.map (fun c => (c.upper, c.lower, c.direction)))
    (up low : RequirementId) (d : CoverageDirection) : Covers tr up low d ↔ Covers tr' up low d := by
  have key : ∀ tr : TracedRelation, Covers tr up low d ↔ (up, low, d) ∈ tr.covered.map (fun c => (c.upper, c.lower, c.direction)) := by
    intro tr
    simp [Covers]
  rw [key, key, h]

theorem sameTrace_reduced {g : Graph} {tg tg0 tg' : TracedGraph} {old : Requirement} (h : TraceReduced g tg tg0 old)
    (hs : SameTrace tg0 tg') : TraceReduced g tg tg' old := by
  obtain ⟨-, h2, h3, h4⟩ := hs
  have hat : ∀ {i : Nat} {tr' : TracedRelation}, tg'.tracedRelations[i]? = some tr' → ∃ tr0, tg0.tracedRelations[i]? = some tr0 ∧
      tr0.relation = tr'.relation ∧ tr0.uncovered = tr'.uncovered ∧
      ∀ up low d, Covers tr0 up low d ↔ Covers tr' up low d := by
    intro i tr' hi
    have h5 := congrArg (·[i]?) h2
    simp only [List.getElem?_map, hi, Option.map_some, Option.map_eq_some_iff, Prod.mk.injEq] at h5
    obtain ⟨tr0, e1, e2, e3, e4⟩ := h5
    exact ⟨tr0, e1, e2, e4, covers_congr e3⟩
  have herr : ∀ P : Error → Prop, (∃ e ∈ tg'.errors, P (repaintError nowhere forgetReq e)) ↔
      ∃ e ∈ tg0.errors, P (repaintError nowhere forgetReq e) := by
    intro P
    have key : ∀ es : List Error, (∃ e ∈ es, P (repaintError nowhere forgetReq e)) ↔
        ∃ e ∈ es.map (repaintError nowhere forgetReq), P e := by
      intro es
      constructor
      · rintro ⟨e, h1, h2⟩; exact ⟨_, List.mem_map_of_mem h1, h2⟩
      · rintro ⟨_, h1, h2⟩
        obtain ⟨e, h3, rfl⟩ := List.mem_map.1 h1
        exact ⟨e, h3, h2⟩
    rw [key, key, h4]
  have hcov : ∀ id up, CoversUnknown tg' id up ↔ CoversUnknown tg0 id up := by
    intro id up
    have key : ∀ tg : TracedGraph, CoversUnknown tg id up ↔
        ∃ e ∈ tg.errors, ∃ r loc, repaintError nowhere forgetReq e = .coversUnknownRequirement r up loc ∧ r.id = id := by
      intro tg
      constructor
      · rintro ⟨r, loc, h1, h2⟩
        exact ⟨_, h1, _, _, rfl, h2⟩
      · rintro ⟨e, h1, r, loc, h2, h3⟩
        cases e <;> simp only [repaintError, reduceCtorEq, Error.coversUnknownRequirement.injEq] at h2
        obtain ⟨rfl, rfl, -⟩ := h2
        exact ⟨_, _, h1, h3⟩
    rw [key, key]
    exact herr (fun e => ∃ r loc, e = .coversUnknownRequirement r up loc ∧ r.id = id)
  have hdep : ∀ id up, DependsOnUnknown tg' id up ↔ DependsOnUnknown tg0 id up := by
    intro id up
    have key : ∀ tg : TracedGraph, DependsOnUnknown tg id up ↔
        ∃ e ∈ tg.errors, ∃ r loc, repaintError nowhere forgetReq e = .dependOnUnknownRequirement r up loc ∧ r.id = id := by
      intro tg
      constructor
      · rintro ⟨r, loc, h1, h2⟩
        exact ⟨_, h1, _, _, rfl, h2⟩
      · rintro ⟨e, h1, r, loc, h2, h3⟩
        cases e <;> simp only [repaintError, reduceCtorEq, Error.dependOnUnknownRequirement.injEq] at h2
        obtain ⟨rfl, rfl, -⟩ := h2
        exact ⟨_, _, h1, h3⟩
    rw [key, key]
    exact herr (fun e => ∃ r loc, e = .dependOnUnknownRequirement r up loc ∧ r.id = id)
  refine ⟨?_, ?_, ?_, ?_, ?_, ?_⟩
  · rw [← h.relations]
    have := congrArg (List.map Prod.fst) h2
    rw [List.map_map, List.map_map] at this
    exact this.symm
  · intro i tr tr' hi hi' up low d
    obtain ⟨tr0, e1, -, -, e4⟩ := hat hi'
    rw [← e4]
    exact h.covered i tr tr0 hi e1 up low d
  · intro i tr tr' hi hi' id
    obtain ⟨tr0, e1, -, e3, -⟩ := hat hi'
    rw [← e3]
    exact h.uncovered i tr tr0 hi e1 id
  · rw [← h3]; exact h.derived
  · intro id up; rw [hcov]; exact h.covers id up
  · intro id up; rw [hdep]; exact h.depends id up

theorem reduced_same {g g' : Graph} {x : ArtefactId} {old : Requirement} (h : GraphReduced g g' x old) :
    ∃ art, g.artefacts.get x = some art ∧ art.requirements.get old.id = some old ∧
      (without g x art old.id).relations = g'.relations ∧
      (without g x art old.id).artefacts.mapValues onlyRequirements = g'.artefacts.mapValues onlyRequirements := by
  obtain ⟨art, art', h1, h2, h3, h4, h5, -, h6, h7⟩ := h.artefact
  refine ⟨art, h1, h6, h.relations.symm, BMap.ext_get fun a => ?_⟩
  rw [BMap.get_mapValues, BMap.get_mapValues]
  simp only [without, BMap.get_insert]
  by_cases e : a = x
  · rw [if_pos e, e, h2]
    simp only [Option.map_some, Option.some.injEq, onlyRequirements, forgetArtefact, Artefact.mk.injEq, h3, h4, h5, true_and,
      and_true]
    refine BMap.ext_get fun k => ?_
    rw [BMap.get_mapValues, BMap.get_mapValues, BMap.get_erase, h7]
    split <;> rfl
  · rw [if_neg e, h.others a e]

/-- The three graphs: with the requirement, without it, and with the others at other places. -/
theorem reduced_traces {g g' : Graph} {x : ArtefactId} {old : Requirement} (h : GraphReduced g g' x old) (hk : Keyed g)
    (hr : RelationsExist g) (hu : OnlyOne g x old) {tg' : TracedGraph} (ht' : trace g' = .ok tg') :
    ∃ g0 tg0, AddsRequirement g0 g x old ∧ Keyed g0 ∧ trace g0 = .ok tg0 ∧ SameTrace tg0 tg' := by
  obtain ⟨art, h1, h2, h3, h4⟩ := reduced_same h
  obtain ⟨tg0, h0⟩ := C10_no_panic (without_keyed hk h1) (without_exist hr (x := x) (id := old.id) (art := art))
  obtain ⟨tg1, h5, h6⟩ := C131_requirements h3 h4 h0
  rw [ht'] at h5; cases h5
  exact ⟨_, tg0, without_adds hk h1 h2 hu, without_keyed hk h1, h0, h6⟩

/-- **C145** What tracing finds when a requirement is taken out, by what it found before: the coverages of and by it are gone,
what only it covered is uncovered, what covered only it is derived, and the references to it lead to an unknown requirement;
everything else is as before. -/
theorem C145_trace {env : Env} {w w' : World} {base : Path} {config : Config} {x : ArtefactId} {old : Requirement}
    (hm : ProjectReduced env w w' base config x old) {c : Controller}
    (h : Controller.new env w config base = .ok c)
    (hd : ∀ art, c.graph.artefacts.get x = some art → ∀ first again, Error.duplicateRequirement first again ∈ art.errors →
      first.id ≠ old.id) (hu : OnlyOne c.graph x old) :
    ∃ c', Controller.new env w' config base = .ok c' ∧ TraceReduced c.graph c.tracedGraph c'.tracedGraph old := by
  obtain ⟨c', h', hg, -⟩ := C145_project hm h hd
  obtain ⟨hk, hr⟩ := C18_consistent h
  obtain ⟨g0, tg0, e1, e2, e3, e4⟩ := reduced_traces hg hk hr hu (C18_no_panic h').1
  exact ⟨c', h', sameTrace_reduced (trace_less e1 e2 hk e3 (C18_no_panic h).1) e4⟩

theorem sound_less {g0 g : Graph} {x : ArtefactId} {old : Requirement} (ha : AddsRequirement g0 g x old) (hs : Sound g) :
    Sound g0 ∧ FullyCovered g0 ∧ NothingDerived g0 ↔ Dispensable g old := by
  obtain ⟨art, reqs, k1, k2, k3⟩ := ha.here
  have hold : Defines g x old := (ha.defines x old).2 (.inr ⟨rfl, rfl⟩)
  have hid : ∀ {a r}, Defines g a r → (r.id ≠ old.id ↔ r ≠ old) := by
    intro a r hr
    constructor
    · rintro h1 rfl; exact h1 rfl
    · intro h1 e
      rcases (ha.defines a r).1 hr with h2 | ⟨-, h2⟩
      · exact ha.fresh a r h2 e
      · exact h1 h2
  have hest : ∀ {rel a u l ref d}, Establishes g0 rel a u l ref d ↔ Establishes g rel a u l ref d ∧ u ≠ old ∧ l ≠ old := by
    intro rel a u l ref d
    rw [less_establishes ha]
    constructor
    · rintro ⟨h1, h2, h3⟩
      exact ⟨h1, fun e => h2 (by rw [e]), fun e => h3 (by rw [e])⟩
    · rintro ⟨h1, h2, h3⟩
      have hl : ∃ b, Defines g b l := by cases h1 with | down _ _ h _ _ => exact ⟨_, h.1⟩ | up _ _ h _ _ => exact ⟨_, h.1⟩
      obtain ⟨b, hl⟩ := hl
      exact ⟨h1, (hid (establishes_upper h1)).2 h2, (hid hl).2 h3⟩
  have hset : ∀ {a art0 art}, g0.artefacts.get a = some art0 → g.artefacts.get a = some art →
      art.ignoreDerivedRequirements = art0.ignoreDerivedRequirements ∧ art.referenceWithTitle = art0.referenceWithTitle := by
    intro a art0 art1 h1 h2
    by_cases e : a = x
    · subst e
      rw [k1] at h1; rw [k2] at h2; cases h1; cases h2
      exact ⟨rfl, rfl⟩
    · rw [ha.others a e, h1] at h2; cases h2; exact ⟨rfl, rfl⟩
  have hart : ∀ {a art}, g.artefacts.get a = some art → ∃ art0, g0.artefacts.get a = some art0 := by
    intro a art1 h1
    by_cases e : a = x
    · exact ⟨art, e ▸ k1⟩
    · exact ⟨art1, by rw [← ha.others a e]; exact h1⟩
  have hart' : ∀ {a art0}, g0.artefacts.get a = some art0 → ∃ art, g.artefacts.get a = some art := by
    intro a art1 h1
    by_cases e : a = x
    · exact ⟨_, e ▸ k2⟩
    · exact ⟨art1, by rw [ha.others a e]; exact h1⟩
  constructor
  · rintro ⟨h1, h2, h3⟩
    refine ⟨?_, ?_, ?_, ?_⟩
    · intro a r hr hne ref href e
      have hr0 := (less_defines ha a r).2 ⟨hr, (hid hr).2 hne⟩
      rcases List.mem_append.1 href with href | href
      · obtain ⟨rel, -, u, hu⟩ := h1.covers a r hr0 ref href
        cases hu with
        | up f1 _ _ _ f5 => exact ha.fresh _ _ f1 (f5.symm.trans e)
      · obtain ⟨rel, -, -, b, l, hl⟩ := h1.depends a r hr0 ref href
        cases hl with
        | down _ _ f3 _ f5 => exact ha.fresh _ _ f3.1 (f5.symm.trans e)
    · intro rel hrel
      obtain ⟨a, u, l, ref, d, h4⟩ := h1.used rel (ha.relations ▸ hrel)
      exact ⟨a, u, l, ref, d, hest.1 h4⟩
    · intro rel hrel u hu hne
      obtain ⟨a, l, ref, d, h4⟩ := h2 rel (ha.relations ▸ hrel) u ((less_defines ha ..).2 ⟨hu, (hid hu).2 hne⟩)
      obtain ⟨h5, -, h6⟩ := hest.1 h4
      exact ⟨a, l, ref, d, h5, h6⟩
    · intro a art1 hart1 hig l hl hne
      obtain ⟨art0, h4⟩ := hart hart1
      obtain ⟨rel, hrel, u, ref, d, h5⟩ := h3 a art0 h4 ((hset h4 hart1).1 ▸ hig) l ((less_owns ha ..).2 ⟨hl, (hid hl.1).2 hne⟩)
      obtain ⟨h6, h7, -⟩ := hest.1 h5
      exact ⟨rel, by rw [ha.relations]; exact hrel, u, ref, d, h6, h7⟩
  · intro hd
    refine ⟨⟨?_, ?_, ?_, ?_, ?_⟩, ?_, ?_⟩
    · intro a b r s hr hs' e
      exact hs.unique a b r s ((less_defines ha ..).1 hr).1 ((less_defines ha ..).1 hs').1 e
    · intro rel hrel
      obtain ⟨a, u, l, ref, d, h4, h5⟩ := hd.relations rel (ha.relations ▸ hrel)
      exact ⟨a, u, l, ref, d, hest.2 ⟨h4, h5⟩⟩
    · intro a l hl ref href
      obtain ⟨hl, hne⟩ := (less_defines ha ..).1 hl
      have hne := (hid hl).1 hne
      obtain ⟨rel, hrel, u, h4⟩ := hs.covers a l hl ref href
      refine ⟨rel, ha.relations ▸ hrel, u, hest.2 ⟨h4, ?_, hne⟩⟩
      rintro rfl
      have := hd.references a l hl hne ref (List.mem_append.2 (.inl href))
      cases h4 with
      | up _ _ _ _ f5 => exact this f5
    · intro a u hu ref href
      obtain ⟨hu, hne⟩ := (less_defines ha ..).1 hu
      have hne := (hid hu).1 hne
      obtain ⟨rel, hrel, e1, b, l, h4⟩ := hs.depends a u hu ref href
      refine ⟨rel, ha.relations ▸ hrel, e1, b, l, hest.2 ⟨h4, hne, ?_⟩⟩
      rintro rfl
      have := hd.references a u hu hne ref (List.mem_append.2 (.inr href))
      cases h4 with
      | down _ _ _ _ f5 => exact this f5
    · intro rel hrel a u l ref d h4
      rcases hs.titles rel (by rw [ha.relations]; exact hrel) a u l ref d (hest.1 h4).1 with h5 | ⟨h5, h6⟩
      · exact .inl h5
      · refine .inr ⟨h5, fun art0 h7 => ?_⟩
        obtain ⟨art1, h8⟩ := hart' h7
        rw [← (hset h7 h8).2]
        exact h6 art1 h8
    · intro rel hrel u hu
      obtain ⟨hu, hne⟩ := (less_defines ha ..).1 hu
      have hne := (hid hu).1 hne
      obtain ⟨a, l, ref, d, h4, h5⟩ := hd.uppers rel (by rw [ha.relations]; exact hrel) u hu hne
      exact ⟨a, l, ref, d, hest.2 ⟨h4, hne, h5⟩⟩
    · intro a art0 h7 hig l hl
      obtain ⟨hl, hne⟩ := (less_owns ha ..).1 hl
      have hne := (hid hl.1).1 hne
      obtain ⟨art1, h8⟩ := hart' h7
      obtain ⟨rel, hrel, u, ref, d, h4, h5⟩ := hd.lowers a art1 h8 ((hset h7 h8).1.symm ▸ hig) l hl hne
      exact ⟨rel, ha.relations ▸ hrel, u, ref, d, hest.2 ⟨h4, h5, hne⟩⟩

/-- **C145** In a project without fault, a requirement can be taken out without a fault exactly if nothing depends on it: no
reference leads to it, every relation is still used, and whatever it covers or is covered by has another coverage. -/
theorem C145_green {env : Env} {w w' : World} {base : Path} {config : Config} {x : ArtefactId} {old : Requirement}
    (hm : ProjectReduced env w w' base config x old) {c : Controller}
    (h : Controller.new env w config base = .ok c) (hc : ¬ TraceProblem c.tracedGraph) :
    ∃ c', Controller.new env w' config base = .ok c' ∧ (¬ TraceProblem c'.tracedGraph ↔ Dispensable c.graph old) := by
  obtain ⟨p1, p2, -, -⟩ := (problem_iff h).1 hc
  have hd : ∀ art, c.graph.artefacts.get x = some art → ∀ first again, Error.duplicateRequirement first again ∈ art.errors →
      first.id ≠ old.id := fun art ha f s hfs => absurd ⟨x, art, _, ha, hfs⟩ p1
  obtain ⟨c', h', hg, -⟩ := C145_project hm h hd
  obtain ⟨hk, hr⟩ := C18_consistent h
  obtain ⟨art, art', a1, a2, -, -, -, a3, a4, -⟩ := hg.artefact
  have hu : OnlyOne c.graph x old := fun a r hr e => p2.unique a x r old hr ⟨art, a1, a4⟩ e
  have ht' := (C18_no_panic h').1
  have hk' := (C18_consistent h').1
  obtain ⟨g0, tg0, e1, e2, e3, -, e4, e5, e6⟩ := reduced_traces hg hk hr hu ht'
  refine ⟨c', h', ?_⟩
  have q1 : ¬ ParseProblem c'.graph.artefacts := by
    rintro ⟨a, b, e, b1, b2⟩
    by_cases ex : a = x
    · subst ex
      rw [a2] at b1; cases b1
      obtain ⟨e0, b3, -⟩ := a3 e b2
      exact p1 ⟨a, art, e0, a1, b3⟩
    · rw [hg.others a ex] at b1
      exact p1 ⟨a, b, e, b1, b2⟩
  rw [problem_iff h', ← sound_less e1 p2, ← C67_no_errors_iff hk' ht', ← C67_covered_iff hk' ht', ← C67_derived_iff hk' ht',
    ← C67_no_errors_iff e2 e3, ← C67_covered_iff e2 e3, ← C67_derived_iff e2 e3, ← e5]
  have r1 : c'.tracedGraph.errors = [] ↔ tg0.errors = [] := by
    have := congrArg List.length e6
    rw [List.length_map, List.length_map] at this
    rw [← List.length_eq_zero_iff, ← List.length_eq_zero_iff, this]
  have r2 : (∀ tr ∈ c'.tracedGraph.tracedRelations, tr.uncovered = []) ↔ ∀ tr ∈ tg0.tracedRelations, tr.uncovered = [] := by
    have key : ∀ trs : List TracedRelation, (∀ tr ∈ trs, tr.uncovered = []) ↔
        ∀ t ∈ trs.map (fun tr => (tr.relation, tr.covered.map (fun c => (c.upper, c.lower, c.direction)), tr.uncovered)), t.2.2 = [] := by
      intro trs; simp
    rw [key, key, e4]
  rw [r1, r2]
  exact and_iff_right q1

namespace RemovedExample

open EditedExample

/-- Two sections, of which the first one is taken out; the last line says what the second one covers. -/
def two (last : Str) : Str := c!"Intro\n# DES_A: d\nCovers: REQ_A\n# DES_B: e\n" ++ last
def one (last : Str) : Str := c!"Intro\n# DES_B: e\n" ++ last

def oldWorld (last : Str) : World := CtrlExample.world [(c!"p/req.md", reqs), (c!"p/des.md", two last)]
def newWorld (last : Str) : World := CtrlExample.world [(c!"p/req.md", reqs), (c!"p/des.md", one last)]

def both : Str := c!"Covers: REQ_B, REQ_A\n"
def only : Str := c!"Covers: REQ_B\n"

theorem removed {last : Str} (hl : last = both ∨ last = only) :
    SectionRemoved e (oldWorld last) (newWorld last) c!"p/des.md" old := by
  have a1 : AttrLine c!"Covers: REQ_A\n" c!"Covers" c!"REQ_A" := DocExample.attr (SectionsExample.line (by decide)) (by decide +kernel)
  have hlines : Lines (two last) ([c!"Intro\n"] ++ c!"# DES_A: d\n" :: ([c!"Covers: REQ_A\n"] ++ [c!"# DES_B: e\n", last])) ∧
      Lines (one last) ([c!"Intro\n"] ++ [c!"# DES_B: e\n", last]) ∧
      e.os.openFile (oldWorld last) c!"p/des.md" = .ok ⟨Utf8.encode (two last), none⟩ ∧
      e.os.openFile (newWorld last) c!"p/des.md" = .ok ⟨Utf8.encode (one last), none⟩ := by
    rw [lines_iff, lines_iff]
    rcases hl with rfl | rfl <;> decide +kernel
  obtain ⟨l1, l2, o1, o2⟩ := hlines
  refine .removed (level := 1) o1 o2 l1 l2 rfl ?_ ?_ ?_ ?_ ?_
  · exact DocExample.head (raw := c!"d") (SectionsExample.line (by decide)) (by decide +kernel)
  · intro l hl
    refine DocExample.noHead (SectionsExample.line ?_) ?_
    · revert l; decide
    · revert l; decide +kernel
  · exact .inr ⟨_, _, 1, _, _, rfl, DocExample.head (id := c!"DES_B") (raw := c!"e") (SectionsExample.line (by decide)) (by decide +kernel)⟩
  · refine .attrs (.inr ⟨_, _, _, _, rfl, a1⟩) (.refs (items := []) (rest := []) ?_ (.inl rfl) (.nil _))
    exact ⟨_, c!"REQ_A", [c!"REQ_A"], [c!"REQ_A"], [], a1, .inl rfl, trimsTo_iff.2 (by decide +kernel), .one _ (by decide),
      .id (trimsTo_iff.2 (by decide +kernel)) (by decide) .nil, .nil _, rfl⟩
  · intro h; cases h

theorem project {last : Str} (hl : last = both ∨ last = only) :
    ProjectReduced e (oldWorld last) (newWorld last) c!"p" config c!"DES" oldReq := by
  refine ⟨fun p => rfl, [requirements], design, [], [], c!"p/des.md", [], rfl, rfl, by simp, ?_, ?_, by simp, ?_⟩
  · exact .inr ⟨by decide, c!"des.md", rfl, by decide⟩
  · refine .section (removed hl) ⟨rfl, rfl, rfl, rfl, rfl, rfl, fun a => ?_⟩
    by_cases h : a = c!"Covers"
    · subst h; rfl
    · have : lastOf old.attrs a = none := by simp [lastOf, old, Ne.symm h]
      rw [this]; rfl
  · simp only [List.append_nil, List.mem_singleton, forall_eq]
    rintro fs (⟨h, -⟩ | ⟨-, p, h, rfl⟩) q hq
    · cases h
    · cases h
      rw [List.mem_singleton.1 hq]
      unfold SameFile
      rcases hl with rfl | rfl <;> decide +kernel

/-- Uncovered and derived ids and the number of errors. -/
def found (w : World) : Option (List (List RequirementId) × List (List RequirementId) × Nat) :=
  (Controller.new e w config c!"p").toOption.map fun c =>
    (c.tracedGraph.tracedRelations.map (·.uncovered), c.tracedGraph.derived.values, c.tracedGraph.errors.length)

/-- Nothing is wrong before; it is afterwards exactly if the other section does not cover `REQ_A`. -/
example : found (oldWorld both) = some ([[]], [[], []], 0) ∧ found (newWorld both) = some ([[]], [[], []], 0) ∧
    found (oldWorld only) = some ([[]], [[], []], 0) ∧ found (newWorld only) = some ([[c!"REQ_A"]], [[], []], 0) := by
  refine ⟨?_, ?_, ?_, ?_⟩ <;> decide +kernel

def green (w : World) : Bool :=
  match Controller.new e w config c!"p" with
  | .error _ => false
  | .ok c => c.tracedGraph.errors.isEmpty && c.tracedGraph.artefacts.values.all (·.errors.isEmpty) &&
      c.tracedGraph.tracedRelations.all (·.uncovered.isEmpty) && c.tracedGraph.derived.values.all (·.isEmpty)

theorem green_iff {w : World} {c : Controller} (h : Controller.new e w config c!"p" = .ok c) (hg : green w = true) :
    ¬ TraceProblem c.tracedGraph := by
  unfold green at hg
  rw [h] at hg
  simp only [Bool.and_eq_true, List.isEmpty_iff, List.all_eq_true] at hg
  obtain ⟨⟨⟨h1, h2⟩, h3⟩, h4⟩ := hg
  rintro (⟨x, hx⟩ | ⟨a, art, x, ha, hx⟩ | ⟨tr, htr, r, hr⟩ | ⟨a, ids, r, ha, hr⟩)
  · rw [h1] at hx; cases hx
  · rw [h2 art ((BMap.mem_values_iff ..).2 ⟨a, ha⟩)] at hx; cases hx
  · rw [h3 tr htr] at hr; cases hr
  · rw [h4 ids ((BMap.mem_values_iff ..).2 ⟨a, ha⟩)] at hr; cases hr

/-- The hypotheses of `C145_green` hold, with either answer. -/
example : (∃ c, Controller.new e (oldWorld both) config c!"p" = .ok c ∧ ¬ TraceProblem c.tracedGraph ∧ Dispensable c.graph oldReq) ∧
    ∃ c, Controller.new e (oldWorld only) config c!"p" = .ok c ∧ ¬ TraceProblem c.tracedGraph ∧ ¬ Dispensable c.graph oldReq := by
  have key : (green (oldWorld both) = true ∧ green (newWorld both) = true) ∧ green (oldWorld only) = true ∧
      found (newWorld only) = some ([[c!"REQ_A"]], [[], []], 0) := by refine ⟨⟨?_, ?_⟩, ?_, ?_⟩ <;> decide +kernel
  obtain ⟨⟨k1, k2⟩, k3, k4⟩ := key
  constructor
  · cases h : Controller.new e (oldWorld both) config c!"p" with
    | error x => unfold green at k1; rw [h] at k1; cases k1
    | ok c =>
      have hc := green_iff h k1
      obtain ⟨c', h', hd⟩ := C145_green (project (.inl rfl)) h hc
      exact ⟨c, rfl, hc, hd.1 (green_iff h' k2)⟩
  · cases h : Controller.new e (oldWorld only) config c!"p" with
    | error x => unfold green at k3; rw [h] at k3; cases k3
    | ok c =>
      have hc := green_iff h k3
      obtain ⟨c', h', hd⟩ := C145_green (project (.inr rfl)) h hc
      refine ⟨c, rfl, hc, fun hdis => hd.2 hdis (.inr (.inr (.inl ?_)))⟩
      unfold found at k4
      rw [h'] at k4
      simp only [Except.toOption, Option.map_some, Option.some.injEq, Prod.mk.injEq] at k4
      have : [c!"REQ_A"] ∈ c'.tracedGraph.tracedRelations.map (·.uncovered) := by rw [k4.1]; simp
      obtain ⟨tr, htr, e⟩ := List.mem_map.1 this
      exact ⟨tr, htr, c!"REQ_A", by rw [e]; simp⟩

/-! The function in the middle of a Rust file is taken out. -/

open Rs in
def codeSyn : Syn where
  parseFile t := .ok (after (ItemsExample.item c!"f" c!"REQ_A" 1) (if t = c!"1"
    then after (ItemsExample.item c!"g" c!"REQ_B" 4) (ItemsExample.item c!"h" c!"REQ_C" 7)
    else ItemsExample.item c!"h" c!"REQ_C" 4))
  debug tokens := tokens.flatMap fun t => natStr t.line

def codeEnv : Env := { e with syn := codeSyn }
def codeWorld (t : Str) : World := CtrlExample.world [(c!"p/a.rs", t)]

def gone : Requirement := ⟨c!"g", none, ⟨c!"p/a.rs", some (.lineAndColumn 4 3)⟩,
  [⟨c!"REQ_B", none, ⟨c!"p/a.rs", some (.lineAndColumn 5 8)⟩⟩], [], [], .empty⟩

theorem code_removed : FileReduced codeEnv (codeWorld c!"1") (codeWorld c!"2") c!"p/a.rs" .rust gone := by
  refine .code (t := c!"1") (t' := c!"2") (f := ItemsExample.item c!"f" c!"REQ_A" 1) (g := ItemsExample.item c!"g" c!"REQ_B" 4)
    (h := ItemsExample.item c!"h" c!"REQ_C" 7) (h' := ItemsExample.item c!"h" c!"REQ_C" 4)
    (es := [⟨[c!"g"], some ⟨c!"p/a.rs", some (.lineAndColumn 4 3)⟩, ⟨c!"REQ_B", none, ⟨c!"p/a.rs", some (.lineAndColumn 5 8)⟩⟩⟩])
    (by decide +kernel) (by decide +kernel) rfl rfl ?_ ?_ (.good rfl (.inl ⟨_, rfl, rfl, rfl, rfl⟩) .nil)
    ⟨rfl, ?_, ⟨_, _, rfl, rfl⟩, rfl, rfl, rfl, rfl⟩
  · exact .item (.mac ⟨rfl, rfl, fun _ h => absurd h (by decide)⟩ .nil) .nil
  · refine .cons ?_ (.cons ?_ (.cons (by simp) .nil))
    · intro g hg id h1 h2
      simp only [List.mem_cons, List.not_mem_nil, or_false] at hg
      rcases hg with rfl | rfl <;> exact absurd ((ItemsExample.marked h1).symm.trans (ItemsExample.marked h2)) (by decide)
    · intro g hg id h1 h2
      rw [List.mem_singleton.1 hg] at h2
      exact absurd ((ItemsExample.marked h1).symm.trans (ItemsExample.marked h2)) (by decide)
  · simp only [List.mem_singleton, forall_eq]
    exact .one _

/-- The function below is found at another line, and nothing else is different. -/
example : (fileResult codeEnv .rust ⟨Utf8.encode c!"1", none⟩ c!"p/a.rs").map (fun x => x.1.map fun r => (r.id, r.location.locationInFile)) =
      .ok [(c!"f", some (.lineAndColumn 1 3)), (c!"g", some (.lineAndColumn 4 3)), (c!"h", some (.lineAndColumn 7 3))] ∧
    (fileResult codeEnv .rust ⟨Utf8.encode c!"2", none⟩ c!"p/a.rs").map (fun x => x.1.map fun r => (r.id, r.location.locationInFile)) =
      .ok [(c!"f", some (.lineAndColumn 1 3)), (c!"h", some (.lineAndColumn 4 3))] := by
  refine ⟨?_, ?_⟩ <;> decide +kernel

end RemovedExample

end Reqtrace
