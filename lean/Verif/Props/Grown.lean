import Verif.Props.Shuffled3
import Verif.Props.Meta2
import Verif.Props.Rerun
import Verif.Spec.Grown

/-!
# C137 and C138: one thing more in a file
-/

namespace Reqtrace

open Spec

namespace Md

theorem run_body_cur (U : Unicode) (path : Path) (ls : List Str) (n : Nat) (q : State × Requirement)
    (h : ∀ l ∈ ls, reqParts U l = none) : ∃ q', (run U path n ls (some q)).cur = some q' := by
  induction ls generalizing n q with
  | nil => exact ⟨q, rfl⟩
  | cons l ls ih =>
    rw [run_some (h l (by simp))]
    exact ih _ _ (fun l hl => h l (by simp [hl]))

/-- Each section gives one requirement, if that of the last one is not lost. -/
theorem sections_count {U : Unicode} {path : Path} {n : Nat} {ls : List Str} {ss : List Section}
    (h : Sections U path n ls ss) (hl : ∀ l ∈ ls, IsLine l) (cur : Option (State × Requirement)) :
    (run U path n ls cur).reqs.length + (flush (run U path n ls cur).cur).length = (flush cur).length + ss.length := by
  induction h generalizing cur with
  | nil n => simp [run]
  | @cons n h level id title body rest as cut ss h1 h2 h3 h4 h5 ih =>
    obtain ⟨raw, hp, -⟩ := heading_reqParts h1
    have hb : ∀ l ∈ body, reqParts U l = none := fun l hm => (reqParts_none_iff (hl l (by simp [hm]))).2 (h2 l hm)
    rw [run_req hp]
    simp only
    rw [run_append, run_body_reqs U path body _ _ hb]
    obtain ⟨q', hq⟩ := run_body_cur U path body (n + 1) (.lookForDesc, newReq (.newWithLineNo path n) id raw) hb
    rw [hq]
    have := ih (fun l hm => hl l (by simp [hm])) (some q')
    have hone : (flush (some q')).length = 1 := rfl
    rw [hone] at this
    simp only [List.nil_append, List.length_append, List.length_cons] at this ⊢
    omega

/-- What follows whole lines and begins with a heading. -/
theorem parse_after (U : Unicode) (path : Path) {pre post : Str} {l : Str} {ls : List Str} {level : Nat} {id title : Str}
    (hw : WholeLines pre) (hlp : Lines post (l :: ls)) (hh : ReqHeading U l level id title) (ht : ¬ OneByteTail post) :
    Md.parse U ⟨pre ++ post, none⟩ path = (Md.parse U ⟨post, none⟩ path).map (fun out =>
      ((run U path 1 (splitLines pre) none).reqs ++ flush (run U path 1 (splitLines pre) none).cur ++
        out.1.map (shiftReq (splitLines pre).length),
       (run U path 1 (splitLines pre) none).errs ++ out.2.map (shiftErr (splitLines pre).length))) := by
  have hlp := lines_iff.1 hlp
  obtain ⟨raw, hraw, -⟩ := heading_reqParts hh
  rw [parse_run U ⟨post, none⟩ path ht, parse_run U ⟨pre ++ post, none⟩ path (fun h => ht ((oneByteTail_append hw).1 h))]
  simp only [splitLines_append _ _ hw, run_append, ← hlp]
  rw [run_heading U path l _ ls (1 + (splitLines pre).length) _ hraw]
  have hs' : run U path (1 + (splitLines pre).length) (l :: ls) none = ⟨_, _, _⟩ :=
    shift_run U path (splitLines pre).length 1 (l :: ls) none
  simp only [hs', shift_finish]
  simp [Except.map]

theorem areRequirements_length {path : Path} {ss : List Section} {rs : List Requirement} (h : AreRequirements path ss rs) :
    rs.length = ss.length := by
  induction h with
  | nil => rfl
  | cons _ _ ih => simp [ih]

/-- A document of which nothing is lost: it gives what it gives before a further heading. -/
theorem nothing_lost (U : Unicode) (path : Path) {t : Str} {ls : List Str} {ss : List Section} (hw : WholeLines t)
    (hl : Lines t ls) (hd : Document U path ls ss) (hk : kept none ss = ss) :
    Md.parse U ⟨t, none⟩ path = .ok ((run U path 1 (splitLines t) none).reqs ++ flush (run U path 1 (splitLines t) none).cur,
      (run U path 1 (splitLines t) none).errs) := by
  have ht := not_tail_of_whole hw
  obtain ⟨rs, h1, h2⟩ := C76_complete U ⟨t, none⟩ path ls ss ht hl hd
  have hlen := areRequirements_length h2
  rw [parse_run U ⟨t, none⟩ path ht] at h1 ⊢
  simp only [Except.ok.injEq, Prod.mk.injEq] at h1 ⊢
  have hls := lines_iff.1 hl
  have hcount : (run U path 1 (splitLines t) none).reqs.length + (flush (run U path 1 (splitLines t) none).cur).length = ss.length := by
    obtain ⟨pre, rest, he, a1, a2, a3⟩ := hd
    have hline : ∀ l ∈ ls, IsLine l := fun l hm => ((splitLines_spec _).2.1 l (hls ▸ hm)).1
    rw [← hls, he, run_append, run_idle U path 1 pre (fun l hm =>
      (reqParts_none_iff (hline l (by rw [he]; simp [hm]))).2 (a1 l hm))]
    simp only [List.nil_append]
    rw [Nat.add_comm 1 pre.length]
    have := sections_count a3 (fun l hm => hline l (by rw [he]; simp [hm])) none
    simpa [flush] using this
  rw [show kept (Source.mk t none).failure ss = ss from hk] at hlen
  rw [← h1.1, List.length_append] at hlen
  generalize run U path 1 (splitLines t) none = o at *
  obtain ⟨r, e, cur⟩ := o
  cases cur with
  | none => simp [finish, flush]
  | some q =>
    obtain ⟨st, x⟩ := q
    simp only [finish, flush] at *
    split at hlen
    · simp at hlen hcount; omega
    · rename_i hst
      rw [if_neg hst]
      simp

end Md

open Md in
/-- A Markdown file with something more at its end. -/
theorem section_grows {env : Env} {w w' : World} {p : Path} {t s : Str} {ls : List Str} {ss : List Section} {h : Str}
    {body : List Str} {level : Nat} {id title : Str} {n : Requirement}
    (ho : env.os.openFile w p = .ok ⟨Utf8.encode t, none⟩) (ho' : env.os.openFile w' p = .ok ⟨Utf8.encode (t ++ s), none⟩)
    (hw : WholeLines t) (hl : Lines t ls) (hd : Document env.U p ls ss) (hk : kept none ss = ss)
    (hls : Lines s (h :: body)) (hh : ReqHeading env.U h level id title)
    (hn : FileMeans env p ⟨Utf8.encode s, none⟩ .markdown [n] [])
    {reqs : List Requirement} {errs : List Error} (hp : PathMeans env w .markdown p reqs errs) :
    PathMeans env w' .markdown p (reqs ++ [shiftReq ls.length n]) errs := by
  cases hp with
  | closed hc => rw [ho] at hc; cases hc
  | opened hc hf =>
    rw [ho] at hc
    cases hc
    rw [← C81_file] at hf hn
    simp only [fileResult, File.lines_encode] at hf hn
    refine .opened ho' ?_
    rw [← C81_file]
    simp only [fileResult, File.lines_encode]
    have ht : ¬ OneByteTail s := fun ht => (C30_panics_iff_partial env.U ⟨s, none⟩ p).2 ht ⟨_, hn⟩
    rw [parse_after env.U p hw hls hh ht, hn, ← lines_iff.1 hl]
    rw [nothing_lost env.U p hw hl hd hk, ← lines_iff.1 hl] at hf
    simp only [Except.ok.injEq, Prod.mk.injEq] at hf
    obtain ⟨rfl, rfl⟩ := hf
    simp [Except.map]

open Rs in
/-- A Rust file with something more at its end. -/
theorem code_grows {env : Env} {w w' : World} {p : Path} {t t' : Str} {f g : Forest} {es : List Entry} {n : Requirement}
    (ho : env.os.openFile w p = .ok ⟨Utf8.encode t, none⟩) (ho' : env.os.openFile w' p = .ok ⟨Utf8.encode t', none⟩)
    (hf : env.syn.parseFile t = .ok f) (hf' : env.syn.parseFile t' = .ok (after f g))
    (hn : ∀ id, MarkedBy f id → ¬ MarkedBy g id) (hm : AllMarks env.syn.debug p (occs p [] none g) es []) (hr : IsRun n es)
    {reqs : List Requirement} {errs : List Error} (hp : PathMeans env w .rust p reqs errs) :
    PathMeans env w' .rust p (reqs ++ [n]) errs := by
  cases hp with
  | closed hc => rw [ho] at hc; cases hc
  | opened hc hp =>
    rw [ho] at hc
    cases hc
    rw [← C81_file] at hp
    simp only [fileResult, (File.whole_ok _ _).2 rfl] at hp
    obtain ⟨en, h1, h2⟩ := parse_marks rfl hf hp
    refine .opened ho' (.rust (.all t') (.marks rfl hf' ?_ (grouped_append (apart_of hn h1 hm) h2 ?_)))
    · rw [occs_after]
      have := allMarks_append h1 hm
      rwa [List.append_nil] at this
    · refine ⟨[(n, es)], rfl, by simp, by simpa using hr, ?_⟩
      intro a r s b hab
      have := congrArg List.length hab
      simp at this
      omega

theorem file_grows {env : Env} {w w' : World} {p : Path} {parser : ArtefactParser} {n : Requirement}
    (h : FileGrows env w w' p parser n) {reqs : List Requirement} {errs : List Error}
    (hp : PathMeans env w parser p reqs errs) : PathMeans env w' parser p (reqs ++ [n]) errs := by
  cases h with
  | «section» h1 h2 h3 h4 h5 h6 h7 h8 h9 => exact section_grows h1 h2 h3 h4 h5 h6 h7 h8 h9 hp
  | code h1 h2 h3 h4 h5 h6 h7 => exact code_grows h1 h2 h3 h4 h5 h6 h7 hp

theorem pathMeans_same {env : Env} {w w' : World} {parser : ArtefactParser} {p : Path} (h : SameFile env w w' p)
    {reqs : List Requirement} {errs : List Error} (hp : PathMeans env w parser p reqs errs) :
    PathMeans env w' parser p reqs errs := by
  unfold SameFile at h
  cases hp with
  | closed hc => exact .closed (h ▸ hc)
  | opened hc hf => exact .opened (h ▸ hc) hf

theorem paths_same {env : Env} {w w' : World} {parser : ArtefactParser} {ps : List Path} {reqs : List Requirement}
    {errs : List Error} (hp : PathsMean env w parser ps reqs errs) : (∀ p ∈ ps, SameFile env w w' p) →
    PathsMean env w' parser ps reqs errs := by
  induction hp with
  | nil => exact fun _ => .nil
  | cons h1 _ ih => exact fun h => .cons (pathMeans_same (h _ (by simp)) h1) (ih (fun p hp => h p (by simp [hp])))

theorem paths_grow {env : Env} {w w' : World} {parser : ArtefactParser} {p : Path} {n : Requirement} {post : List Path}
    (h : FileGrows env w w' p parser n) : ∀ {pre : List Path} {reqs : List Requirement} {errs : List Error},
    (∀ q ∈ pre ++ post, SameFile env w w' q) → PathsMean env w parser (pre ++ p :: post) reqs errs →
    ∃ a b, reqs = a ++ b ∧ PathsMean env w' parser (pre ++ p :: post) (a ++ n :: b) errs
  | [], reqs, errs, hs, hp => by
    cases hp with
    | @cons _ _ r rs e es h1 h2 =>
      refine ⟨r, rs, rfl, ?_⟩
      have := PathsMean.cons (file_grows h h1) (paths_same h2 (fun q hq => hs q (by simp [hq])))
      simpa using this
  | q :: pre, reqs, errs, hs, hp => by
    cases hp with
    | @cons _ _ r rs e es h1 h2 =>
      obtain ⟨a, b, rfl, h3⟩ := paths_grow h (pre := pre) (fun q hq => hs q (by simp at hq ⊢; exact .inr hq)) h2
      refine ⟨r ++ a, b, by simp, ?_⟩
      have := PathsMean.cons (pathMeans_same (hs q (by simp)) h1) h3
      simpa using this

/-! ## An artefact -/

theorem collect_append (a b : List Requirement) (m : BMap RequirementId Requirement) (e : List Error) :
    collectRequirements (a ++ b) m e = collectRequirements b (collectRequirements a m e).1 (collectRequirements a m e).2 := by
  induction a generalizing m e with
  | nil => rfl
  | cons r a ih =>
    have hu : ∀ l, collectRequirements (r :: l) m e = match m.get r.id with
      | some first => collectRequirements l m (e ++ [.duplicateRequirement first r])
      | none => collectRequirements l (m.insert r.id r) e := fun _ => rfl
    rw [List.cons_append, hu, hu]
    cases m.get r.id with
    | some first => exact ih ..
    | none => exact ih ..

theorem collect_more {n : Requirement} (b : List Requirement) : ∀ {m m' : BMap RequirementId Requirement} {e : List Error},
    (∀ k, m'.get k = if k = n.id then some n else m.get k) → (∀ r ∈ b, r.id ≠ n.id) →
    (collectRequirements b m' e).2 = (collectRequirements b m e).2 ∧
    ∀ k, (collectRequirements b m' e).1.get k = if k = n.id then some n else (collectRequirements b m e).1.get k := by
  induction b with
  | nil => intro m m' e h _; exact ⟨rfl, h⟩
  | cons r b ih =>
    intro m m' e h hb
    have hr := hb r (by simp)
    have hb' : ∀ r ∈ b, r.id ≠ n.id := fun r h => hb r (by simp [h])
    have hg : m'.get r.id = m.get r.id := by rw [h, if_neg hr]
    unfold collectRequirements
    rw [hg]
    cases m.get r.id with
    | some first => exact ih h hb'
    | none =>
      refine ih (fun k => ?_) hb'
      rw [BMap.get_insert, BMap.get_insert, h]
      by_cases hk : k = r.id
      · rw [if_pos hk, if_pos hk, if_neg (hk ▸ hr)]
      · rw [if_neg hk, if_neg hk]

theorem collect_grows {n : Requirement} {a b : List Requirement} {e : List Error} (h : ∀ r ∈ a ++ b, r.id ≠ n.id) :
    (collectRequirements (a ++ n :: b) .empty e).2 = (collectRequirements (a ++ b) .empty e).2 ∧
    ∀ k, (collectRequirements (a ++ n :: b) .empty e).1.get k =
      if k = n.id then some n else (collectRequirements (a ++ b) .empty e).1.get k := by
  rw [collect_append, collect_append]
  have hno : (collectRequirements a .empty e).1.get n.id = none := by
    rw [(collect_eq a e).1, List.find?_eq_none]
    intro r hr
    simpa using h r (by simp [hr])
  have hu : ∀ m e', m.get n.id = none → collectRequirements (n :: b) m e' = collectRequirements b (m.insert n.id n) e' := by
    intro m e' hm
    rw [show collectRequirements (n :: b) m e' = match m.get n.id with
      | some first => collectRequirements b m (e' ++ [.duplicateRequirement first n])
      | none => collectRequirements b (m.insert n.id n) e' from rfl, hm]
  rw [hu _ _ hno]
  exact collect_more b (fun k => by rw [BMap.get_insert]) (fun r hr => h r (by simp [hr]))

theorem insertL_filter {κ ν : Type} [Ord κ] [Std.TransOrd κ] [Std.LawfulEqOrd κ] {k : κ} {v : ν} {p : ν → Bool} (hp : p v = false)
    (l : List (κ × ν)) (hk : ∀ e ∈ l, e.1 ≠ k) :
    ((BMap.insertL k v l).map Prod.snd).filter p = (l.map Prod.snd).filter p := by
  induction l with
  | nil => simp [BMap.insertL, hp]
  | cons e l ih =>
    obtain ⟨k', v'⟩ := e
    unfold BMap.insertL
    split
    · simp [hp]
    · rename_i hc
      exact absurd (Std.LawfulEqOrd.eq_of_compare hc).symm (hk (k', v') (by simp))
    · simp only [List.map_cons, List.filter_cons, ih (fun e he => hk e (by simp [he]))]

theorem values_grow {m m' : BMap RequirementId Requirement} {n : Requirement} {p : Requirement → Bool} (hp : p n = false)
    (hn : m.get n.id = none) (h : ∀ k, m'.get k = if k = n.id then some n else m.get k) :
    m'.values.filter p = m.values.filter p := by
  have : m' = m.insert n.id n := BMap.ext_get (fun k => by rw [h, BMap.get_insert])
  rw [this]
  refine insertL_filter hp _ (fun e he hk => ?_)
  have : m.get e.1 = some e.2 := (BMap.get_eq_some_iff ..).2 he
  rw [hk, hn] at this
  cases this

theorem filesOf_same {env : Env} {w w' : World} (hg : SameMatches env w w') {ac : ArtefactConfig} {base : Path} {fs : List Path}
    (h : FilesOf env w ac base fs) : FilesOf env w' ac base fs := by
  rcases h with ⟨h1, h2, h3⟩ | h
  · refine .inl ⟨h1, h2, ?_⟩
    have := (globPaths_ok env w base _ _).2 h3
    rw [← globPaths_same hg] at this
    exact (globPaths_ok env w' base _ _).1 this
  · exact .inr h

theorem makeArtefact_grows {env : Env} {w w' : World} (hg : SameMatches env w w') {base : Path} {ac : ArtefactConfig}
    {roots : BMap ArtefactId Bool} {n : Requirement} {pre post : List Path} {p : Path}
    (ht : ac.referenceWithTitle = some true → n.title ≠ none) (hf : FilesOf env w ac base (pre ++ p :: post))
    (hp : FileGrows env w w' p ac.parser n) (hs : ∀ q ∈ pre ++ post, SameFile env w w' q) {a : Artefact}
    (h : makeArtefact env w base roots ac = .ok a) (hn : a.requirements.get n.id = none) :
    ∃ reqs, makeArtefact env w' base roots ac = .ok { a with requirements := reqs } ∧
      ∀ k, reqs.get k = if k = n.id then some n else a.requirements.get k := by
  obtain ⟨root, files, m, errs, h1, h2, rfl⟩ := makeArtefact_ok h
  obtain ⟨reqs, perrs, h3, rfl, h5⟩ := parseFromConfig_ok h2
  have h6 : PathsMean env w ac.parser (pre ++ p :: post) reqs perrs ∧ files = pre ++ p :: post := by
    obtain ⟨a1, a2⟩ := (parseArtefact_filesOf hf _).1 h3
    simp only [Prod.mk.injEq] at a2
    exact ⟨(pathsMean_iff _ _ _).2 ⟨a1, a2.2.1, a2.2.2⟩, a2.1⟩
  obtain ⟨h6, rfl⟩ := h6
  obtain ⟨x, y, rfl, h7⟩ := paths_grow hp hs h6
  have h8 := parseArtefact_iff.2 (.files (filesOf_same hg hf) h7)
  simp only at hn
  have hfresh : ∀ r ∈ x ++ y, r.id ≠ n.id := by
    intro r hr he
    rw [(collect_eq ..).1, List.find?_eq_none] at hn
    exact hn r hr (by simp [he])
  obtain ⟨h9, h10⟩ := collect_grows (e := perrs) hfresh
  refine ⟨(collectRequirements (x ++ n :: y) .empty perrs).1, ?_, h10⟩
  have h11 : errs = (collectRequirements (x ++ y) .empty perrs).2 := by rw [h5]; exact (collect_eq ..).2.symm
  subst h11
  unfold makeArtefact parseFromConfig
  rw [h1, h8]
  simp only [orPanic, bind, Except.bind, pure, Except.pure, Except.ok.injEq, Artefact.mk.injEq, true_and, and_true]
  cases hb : ac.referenceWithTitle with
  | none => simpa using h9
  | some b =>
    cases b with
    | false => simpa using h9
    | true =>
      simp only [Option.getD_some, if_true]
      rw [h9, values_grow (p := fun r => r.title.isNone) _ hn h10]
      have := ht hb
      cases hx : n.title with
      | none => exact absurd hx this
      | some v => rfl

/-! ## The project -/

theorem makeArtefacts_append {env : Env} {w : World} {base : Path} {roots : BMap ArtefactId Bool} (xs ys : List ArtefactConfig)
    (m : BMap ArtefactId Artefact) : makeArtefacts env w base roots (xs ++ ys) m =
      (makeArtefacts env w base roots xs m).bind (makeArtefacts env w base roots ys) := by
  induction xs generalizing m with
  | nil => rfl
  | cons ac xs ih =>
    rw [List.cons_append, makeArtefacts, makeArtefacts]
    cases makeArtefact env w base roots ac with
    | error e => rfl
    | ok a => exact ih _

theorem makeArtefacts_congr {env : Env} {w w' : World} {base : Path} {roots : BMap ArtefactId Bool} (xs : List ArtefactConfig)
    (h : ∀ ac ∈ xs, makeArtefact env w' base roots ac = makeArtefact env w base roots ac) (m : BMap ArtefactId Artefact) :
    makeArtefacts env w' base roots xs m = makeArtefacts env w base roots xs m := by
  induction xs generalizing m with
  | nil => rfl
  | cons ac xs ih =>
    rw [makeArtefacts, makeArtefacts, h ac (by simp)]
    cases makeArtefact env w base roots ac with
    | error e => rfl
    | ok a => exact ih (fun ac hac => h ac (by simp [hac])) _

theorem makeArtefacts_other {env : Env} {w : World} {base : Path} {roots : BMap ArtefactId Bool} {x : ArtefactId} {a' : Artefact}
    (xs : List ArtefactConfig) (hx : ∀ b ∈ xs, b.id ≠ x) : ∀ {m m' m1 : BMap ArtefactId Artefact},
    (∀ k, m'.get k = if k = x then some a' else m.get k) → makeArtefacts env w base roots xs m = .ok m1 →
    m1.get x = m.get x ∧ ∃ m1', makeArtefacts env w base roots xs m' = .ok m1' ∧ ∀ k, m1'.get k = if k = x then some a' else m1.get k := by
  induction xs with
  | nil => intro m m' m1 h h1; cases h1; exact ⟨rfl, m', rfl, h⟩
  | cons ac xs ih =>
    intro m m' m1 h h1
    rw [makeArtefacts] at h1 ⊢
    cases ha : makeArtefact env w base roots ac with
    | error e => rw [ha] at h1; cases h1
    | ok a =>
      rw [ha] at h1
      have hne := hx ac (by simp)
      obtain ⟨g1, g2⟩ := ih (fun b hb => hx b (by simp [hb])) (m := m.insert ac.id a) (m' := m'.insert ac.id a) (fun k => by
        rw [BMap.get_insert, BMap.get_insert, h]
        by_cases hk : k = ac.id
        · rw [if_pos hk, if_pos hk, if_neg (hk ▸ hne)]
        · rw [if_neg hk, if_neg hk]) h1
      exact ⟨by rw [g1, BMap.get_insert, if_neg hne.symm], g2⟩

/-- **C137** One more section at the end of a Markdown file, or one more marked item at the end of a Rust file, is one more
requirement of the artefact; nothing else in the graph changes. -/
theorem C137_project {env : Env} {w w' : World} {base : Path} {config : Config} {x : ArtefactId} {n : Requirement}
    (hm : ProjectGrows env w w' base config x n) {c : Controller} (h : Controller.new env w config base = .ok c)
    (hn : ∀ a r, Defines c.graph a r → r.id ≠ n.id) :
    ∃ c', Controller.new env w' config base = .ok c' ∧ AddsRequirement c.graph c'.graph x n ∧ c'.jobs = c.jobs := by
  obtain ⟨before, ac, aft, pre, p, post, e1, rfl, e3, e4, e5, e6, e7, e8⟩ := hm.artefact
  obtain ⟨roots, h1, h2, h3, h4, h5, h6, h7⟩ := new_ok h
  obtain ⟨hk, hr⟩ := C18_consistent h
  have hsame : ∀ b ∈ before ++ aft, makeArtefact env w' base roots b = makeArtefact env w base roots b := by
    intro b hb
    unfold makeArtefact parseFromConfig
    rw [parseArtefact_congr hm.matching (e8 b hb)]
  have key : ∃ m', makeArtefacts env w' base roots config.artefacts .empty = .ok m' ∧
      ∃ art reqs, c.graph.artefacts.get ac.id = some art ∧ (∀ k, m'.get k =
        if k = ac.id then some { art with requirements := reqs } else c.graph.artefacts.get k) ∧
        ∀ k, reqs.get k = if k = n.id then some n else art.requirements.get k := by
    rw [e1, makeArtefacts_append] at h2 ⊢
    rw [makeArtefacts_congr before (fun b hb => hsame b (by simp [hb]))]
    cases hb : makeArtefacts env w base roots before .empty with
    | error e => rw [hb] at h2; cases h2
    | ok m =>
      rw [hb] at h2
      simp only [Except.bind] at h2 ⊢
      rw [makeArtefacts] at h2 ⊢
      cases ha : makeArtefact env w base roots ac with
      | error e => rw [ha] at h2; cases h2
      | ok a =>
        rw [ha] at h2
        have h2' : makeArtefacts env w base roots aft (m.insert ac.id a) = .ok c.graph.artefacts := h2
        obtain ⟨g1, -⟩ := makeArtefacts_other aft e3 (a' := a) (m' := m.insert ac.id a) (fun k => by
          rw [BMap.get_insert]
          by_cases hk : k = ac.id
          · rw [if_pos hk, if_pos hk]
          · rw [if_neg hk, if_neg hk]) h2'
        rw [BMap.get_insert, if_pos rfl] at g1
        have hno : a.requirements.get n.id = none := by
          cases hx : a.requirements.get n.id with
          | none => rfl
          | some r =>
            have hid := hk.requirement _ _ g1 _ _ hx
            exact absurd hid (hn ac.id r ⟨a, g1, hid.symm ▸ hx⟩)
        obtain ⟨reqs, g2, g3⟩ := makeArtefact_grows hm.matching e4 e5 e6 e7 ha hno
        rw [g2]
        obtain ⟨-, m1', g4, g5⟩ := makeArtefacts_other aft e3 (a' := { a with requirements := reqs })
          (m' := m.insert ac.id { a with requirements := reqs }) (fun k => by
            rw [BMap.get_insert, BMap.get_insert]
            by_cases hk : k = ac.id
            · rw [if_pos hk, if_pos hk]
            · rw [if_neg hk, if_neg hk, if_neg hk]) h2'
        refine ⟨m1', ?_, a, reqs, g1, g5, g3⟩
        show makeArtefacts env w' base roots aft _ = _
        rw [makeArtefacts_congr aft (fun b hb => hsame b (by simp [hb]))]
        exact g4
  obtain ⟨m', g1, art, reqs, g2, g3, g4⟩ := key
  have hadd : AddsRequirement c.graph ⟨m', config.relations⟩ ac.id n :=
    ⟨h3.symm, fun a ha => by simp only; rw [g3, if_neg ha], ⟨art, reqs, g2, by simp only; rw [g3, if_pos rfl], g4⟩, hn⟩
  have hk' : Keyed ⟨m', config.relations⟩ := by
    constructor
    · intro a b hb
      simp only [g3] at hb
      by_cases ha : a = ac.id
      · rw [if_pos ha] at hb
        cases hb
        subst ha
        exact (hk.artefact _ art g2 :)
      · rw [if_neg ha] at hb
        exact hk.artefact _ _ hb
    · intro a b hb k r hr
      simp only [g3] at hb
      by_cases ha : a = ac.id
      · rw [if_pos ha] at hb
        cases hb
        simp only [g4] at hr
        by_cases hkn : k = n.id
        · rw [if_pos hkn] at hr
          cases hr
          exact hkn.symm
        · rw [if_neg hkn] at hr
          exact hk.requirement _ _ g2 _ _ hr
      · rw [if_neg ha] at hb
        exact hk.requirement _ _ hb _ _ hr
  obtain ⟨tg', ht'⟩ := C10_no_panic hk' (hadd.relationsExist hr)
  refine ⟨⟨base, ⟨m', config.relations⟩, tg', config.jobs.getD .empty, config.defaultJobs.getD []⟩, ?_, hadd, h6.symm⟩
  unfold Controller.new
  rw [h1]
  simp only [bind, Except.bind]
  rw [g1]
  simp only
  rw [ht']
  rfl

/-! ## What follows for the result -/

section
variable {g g' : Graph} {x : ArtefactId} {n : Requirement} (ha : AddsRequirement g g' x n)
include ha

/-- A new requirement of the upper artefact that nothing refers to is not covered. -/
theorem adds_uncovered (hd : n.depends = []) (hr : ∀ a r, Defines g a r → ∀ ref ∈ r.covers, ref.id ≠ n.id)
    (hs : ∀ ref ∈ n.covers, ref.id ≠ n.id) (rel : Relation) :
    ∀ a l ref d, ¬ Establishes g' rel a n l ref d := by
  intro a l ref d h
  cases h with
  | down h1 h2 h3 h4 h5 => rw [hd] at h4; cases h4
  | up h1 h2 h3 h4 h5 =>
    rcases (ha.defines ..).1 h3.1 with h | ⟨-, rfl⟩
    · exact hr _ _ h _ h4 h5
    · exact hs _ h4 h5

theorem adds_errors : ParseProblem g'.artefacts ↔ ParseProblem g.artefacts := by
  obtain ⟨art, reqs, h1, h2, h3⟩ := ha.here
  constructor
  · rintro ⟨a, b, e, h, he⟩
    by_cases hx : a = x
    · subst hx
      rw [h2] at h; cases h
      exact ⟨a, art, e, h1, he⟩
    · rw [ha.others a hx] at h
      exact ⟨a, b, e, h, he⟩
  · rintro ⟨a, b, e, h, he⟩
    by_cases hx : a = x
    · subst hx
      rw [h1] at h; cases h
      exact ⟨a, _, e, h2, he⟩
    · rw [← ha.others a hx] at h
      exact ⟨a, b, e, h, he⟩

theorem adds_setting {a : ArtefactId} : (∀ art, g'.artefacts.get a = some art → art.referenceWithTitle = false) ↔
    ∀ art, g.artefacts.get a = some art → art.referenceWithTitle = false := by
  obtain ⟨art, reqs, h1, h2, h3⟩ := ha.here
  by_cases hx : a = x
  · subst hx
    rw [h1, h2]
    simp
  · rw [ha.others a hx]

/-- One more mark makes a project clean, of which all but one requirement was covered, exactly if it marks that
requirement, and marks it rightly. -/
theorem adds_clean {rel : Relation} {u : Requirement} (hc : CleanBut g rel u) (hx : ∀ rel ∈ g.relations, rel.upper ≠ x) :
    (Sound g' ∧ FullyCovered g' ∧ NothingDerived g') ↔
      RightMark g x n ∧ x ∈ rel.lower ∧ ∃ ref ∈ n.covers, ref.id = u.id := by
  have hd : ∀ rel ∈ g.relations, ∀ u, Defines g' rel.upper u ↔ Defines g rel.upper u := by
    intro rel hrel u
    rw [ha.defines]
    exact ⟨fun h => h.resolve_right (fun h => hx rel hrel h.1), .inl⟩
  have hown : ∀ a, Owns g' a n → a = x := by
    intro a h
    rcases (ha.owns ..).1 h with h | h
    · exact absurd rfl (ha.fresh _ _ h.1)
    · exact h.1
  have hnew : Owns g' x n := (ha.owns ..).2 (.inr ⟨rfl, rfl⟩)
  have hdep : ∀ a v, Defines g a v → ∀ ref ∈ v.depends, ref.id ≠ n.id := by
    intro a v hv ref href e
    obtain ⟨rel, -, -, b, l, h⟩ := hc.depends a v hv ref href
    cases h with
    | down h1 h2 h3 h4 h5 => exact ha.fresh _ _ h3.1 (h5.symm.trans e)
  constructor
  · rintro ⟨h1, h2, h3⟩
    refine ⟨⟨?_, ?_, ?_⟩, ?_⟩
    · intro ref href
      obtain ⟨rel, hrel, v, h⟩ := h1.covers x n hnew.1 ref href
      rw [ha.relations] at hrel
      cases h with
      | up g1 g2 g3 g4 g5 => exact ⟨rel, hrel, g2, v, (hd rel hrel v).1 g1, g5⟩
    · intro ref href rel hrel hlow v hv hid
      have := h1.titles rel (ha.relations ▸ hrel) x v n ref .upwards (.up ((hd rel hrel v).2 hv) hlow hnew href hid)
      rcases this with h | ⟨h, h'⟩
      · exact .inl h
      · exact .inr ⟨h, (adds_setting ha).1 h'⟩
    · cases hn : n.depends with
      | nil => rfl
      | cons ref l =>
        obtain ⟨rel, hrel, h, -⟩ := h1.depends x n hnew.1 ref (by rw [hn]; simp)
        exact absurd h (hx rel (ha.relations ▸ hrel))
    · obtain ⟨a, l, ref, d, h⟩ := h2 rel (ha.relations ▸ hc.relation) u ((hd rel hc.relation u).2 hc.upper)
      rcases (ha.establishes ..).2 h with h' | h' | h'
      · exact absurd h' (hc.missing _ _ _ _)
      · exact absurd (h' ▸ rfl) (ha.fresh _ _ hc.upper)
      · subst h'
        cases h with
        | down g1 g2 g3 g4 g5 => exact absurd g5 (hdep _ _ hc.upper _ g4)
        | up g1 g2 g3 g4 g5 => exact ⟨hown a g3 ▸ g2, ref, g4, g5⟩
  · rintro ⟨hm, hlow, ref0, href0, hid0⟩
    have hcov : Establishes g' rel x u n ref0 .upwards :=
      .up ((hd rel hc.relation u).2 hc.upper) hlow hnew href0 hid0
    have hest : ∀ rel a u l ref d, Establishes g rel a u l ref d → Establishes g' rel a u l ref d :=
      fun rel a u l ref d => (ha.establishes ..).1
    refine ⟨⟨?_, ?_, ?_, ?_, ?_⟩, ?_, ?_⟩
    · intro a b r s hr hs e
      rcases (ha.defines ..).1 hr with hr | ⟨rfl, rfl⟩
      · rcases (ha.defines ..).1 hs with hs | ⟨rfl, rfl⟩
        · exact hc.unique a b r s hr hs e
        · exact absurd e (ha.fresh _ _ hr)
      · rcases (ha.defines ..).1 hs with hs | ⟨rfl, rfl⟩
        · exact absurd e.symm (ha.fresh _ _ hs)
        · rfl
    · intro rel' hrel
      rw [ha.relations] at hrel
      by_cases he : rel' = rel
      · exact he ▸ ⟨_, _, _, _, _, hcov⟩
      · obtain ⟨a, v, l, ref, d, h⟩ := hc.used rel' hrel he
        exact ⟨a, v, l, ref, d, hest _ _ _ _ _ _ h⟩
    · intro a l hl ref href
      rw [ha.relations]
      rcases (ha.defines ..).1 hl with hl | ⟨rfl, rfl⟩
      · obtain ⟨rel', h1, v, h⟩ := hc.covers a l hl ref href
        exact ⟨rel', h1, v, hest _ _ _ _ _ _ h⟩
      · obtain ⟨rel', h1, h2, v, h3, h4⟩ := hm.leads ref href
        exact ⟨rel', h1, v, .up ((hd rel' h1 v).2 h3) h2 hnew href h4⟩
    · intro a v hv ref href
      rw [ha.relations]
      rcases (ha.defines ..).1 hv with hv | ⟨rfl, rfl⟩
      · obtain ⟨rel', h1, h2, b, l, h⟩ := hc.depends a v hv ref href
        exact ⟨rel', h1, h2, b, l, hest _ _ _ _ _ _ h⟩
      · rw [hm.depends] at href; cases href
    · intro rel' hrel a v l ref d h
      rw [ha.relations] at hrel
      rw [adds_setting ha]
      rcases (ha.establishes ..).2 h with h' | h' | h'
      · exact hc.titles rel' hrel a v l ref d h'
      · subst h'
        cases h with
        | down g1 => exact absurd rfl (ha.fresh _ _ ((hd rel' hrel _).1 g1))
        | up g1 => exact absurd rfl (ha.fresh _ _ ((hd rel' hrel _).1 g1))
      · subst h'
        cases h with
        | down g1 g2 g3 g4 g5 => exact absurd g5 (hdep _ _ ((hd rel' hrel _).1 g1) _ g4)
        | up g1 g2 g3 g4 g5 => exact hm.titles ref g4 rel' hrel (hown a g3 ▸ g2) v ((hd rel' hrel _).1 g1) g5
    · intro rel' hrel v hv
      rw [ha.relations] at hrel
      rw [hd rel' hrel] at hv
      by_cases he : rel' ≠ rel ∨ v ≠ u
      · obtain ⟨a, l, ref, d, h⟩ := hc.covered rel' hrel v hv he
        exact ⟨a, l, ref, d, hest _ _ _ _ _ _ h⟩
      · have h1 : rel' = rel := Classical.byContradiction fun h => he (.inl h)
        have h2 : v = u := Classical.byContradiction fun h => he (.inr h)
        subst h1; subst h2
        exact ⟨_, _, _, _, hcov⟩
    · intro a art hart hig l hl
      rw [ha.relations]
      rcases (ha.owns ..).1 hl with hl | ⟨rfl, rfl⟩
      · have hart' : ∃ art', g.artefacts.get a = some art' := by
          obtain ⟨art', h, -⟩ := hl.1
          exact ⟨art', h⟩
        obtain ⟨art', hart'⟩ := hart'
        obtain ⟨rel', h1, v, ref, d, h⟩ := hc.derived a art' hart' (by rw [← ha.settings hart' hart]; exact hig) l hl
        exact ⟨rel', h1, v, ref, d, hest _ _ _ _ _ _ h⟩
      · exact ⟨rel, hc.relation, u, ref0, .upwards, hcov⟩

end

theorem problem_iff {env : Env} {w : World} {config : Config} {base : Path} {c : Controller}
    (h : Controller.new env w config base = .ok c) :
    ¬ TraceProblem c.tracedGraph ↔ ¬ ParseProblem c.graph.artefacts ∧ Sound c.graph ∧ FullyCovered c.graph ∧ NothingDerived c.graph := by
  rw [traceProblem_iff h, cleanInput_iff h]
  rfl

/-- **C137** A new section of an upper artefact, to which nothing refers and that depends on nothing, is listed as not
covered, so a job that traces finds fault. -/
theorem C137_uncovered {env : Env} {w w' : World} {base : Path} {config : Config} {x : ArtefactId} {n : Requirement}
    (hm : ProjectGrows env w w' base config x n) {c : Controller} (h : Controller.new env w config base = .ok c)
    (hn : ∀ a r, Defines c.graph a r → r.id ≠ n.id) (hd : n.depends = [])
    (hr : ∀ a r, Defines c.graph a r → ∀ ref ∈ r.covers, ref.id ≠ n.id) (hs : ∀ ref ∈ n.covers, ref.id ≠ n.id) :
    ∃ c', Controller.new env w' config base = .ok c' ∧
      (∀ (i : Nat) (tr : TracedRelation), c'.tracedGraph.tracedRelations[i]? = some tr → tr.relation.upper = x →
        n.id ∈ tr.uncovered) ∧
      ((∃ rel ∈ config.relations, rel.upper = x) → TraceProblem c'.tracedGraph) := by
  obtain ⟨c', h', ha, -⟩ := C137_project hm h hn
  have hk' := (C18_consistent h').1
  have ht' := (C18_no_panic h').1
  have hno := adds_uncovered ha hd hr hs
  have hdef : Defines c'.graph x n := (ha.defines ..).2 (.inr ⟨rfl, rfl⟩)
  refine ⟨c', h', ?_, ?_⟩
  · rintro i tr hi rfl
    obtain ⟨art, h1, -, h2⟩ := C02_uncovered_complement hk' ht' (List.mem_of_getElem? hi)
    obtain ⟨art', h3, h4⟩ := hdef
    rw [h1] at h3; cases h3
    refine (h2 n.id).2 ⟨⟨n, h4⟩, fun cv hcv e => ?_⟩
    obtain ⟨rel, a, u, l, ref, -, h5, h6⟩ := (C01_coverage_exact hk' ht' hi cv).1 hcv
    have hu : u.id = n.id := by rw [← e, h6]
    have : ∀ d, Establishes c'.graph rel a u l ref d → Defines c'.graph rel.upper u := by
      intro d h; cases h <;> assumption
    have := this _ h5
    rcases (ha.defines ..).1 this with h7 | ⟨-, rfl⟩
    · exact hn _ _ h7 hu
    · exact hno _ _ _ _ _ h5
  · rintro ⟨rel, hrel, rfl⟩
    refine Classical.byContradiction fun hp => ?_
    obtain ⟨-, -, h3, -⟩ := (problem_iff h').1 hp
    obtain ⟨a, l, ref, d, h4⟩ := h3 rel (by rw [(C18_no_panic h').2.1]; exact hrel) n hdef
    exact hno _ _ _ _ _ h4

/-- **C138** One more mark makes a project green, of which all but one requirement was covered along one relation, exactly
if it marks that requirement, and marks it rightly. -/
theorem C138_green {env : Env} {w w' : World} {base : Path} {config : Config} {x : ArtefactId} {n : Requirement}
    (hm : ProjectGrows env w w' base config x n) {c : Controller} (h : Controller.new env w config base = .ok c)
    (hn : ∀ a r, Defines c.graph a r → r.id ≠ n.id) (hp : ¬ ParseProblem c.graph.artefacts)
    {rel : Relation} {u : Requirement} (hc : CleanBut c.graph rel u) (hx : ∀ rel ∈ config.relations, rel.upper ≠ x) :
    TraceProblem c.tracedGraph ∧ ∃ c', Controller.new env w' config base = .ok c' ∧
      (¬ TraceProblem c'.tracedGraph ↔ RightMark c.graph x n ∧ x ∈ rel.lower ∧ ∃ ref ∈ n.covers, ref.id = u.id) := by
  obtain ⟨c', h', ha, -⟩ := C137_project hm h hn
  rw [← (C18_no_panic h).2.1] at hx
  refine ⟨Classical.byContradiction fun hno => ?_, c', h', ?_⟩
  · obtain ⟨-, -, h3, -⟩ := (problem_iff h).1 hno
    obtain ⟨a, l, ref, d, h4⟩ := h3 rel hc.relation u hc.upper
    exact hc.missing _ _ _ _ h4
  · rw [problem_iff h', adds_errors ha, adds_clean ha hc hx]
    exact ⟨fun h => h.2, fun h => ⟨hp, h⟩⟩

/-- A clean project with a new section in an artefact above one relation, and below none that asks for coverage, is clean
but for that section. -/
theorem adds_cleanBut {g g' : Graph} {x : ArtefactId} {n : Requirement} (ha : AddsRequirement g g' x n) (hs : Sound g)
    (hf : FullyCovered g) (hn : NothingDerived g) (hc : n.covers = []) (hd : n.depends = []) {rel : Relation}
    (hrel : rel ∈ g.relations) (hx : rel.upper = x) (hone : ∀ rel' ∈ g.relations, rel'.upper = x → rel' = rel)
    (hi : ∀ art, g.artefacts.get x = some art → art.ignoreDerivedRequirements = true) : CleanBut g' rel n := by
  have hest : ∀ rel a u l ref d, Establishes g rel a u l ref d → Establishes g' rel a u l ref d :=
    fun rel a u l ref d => (ha.establishes ..).1
  have hnor : ∀ a r, Defines g a r → ∀ ref ∈ r.covers, ref.id ≠ n.id := by
    intro a r hr ref href e
    obtain ⟨rel, -, u, h⟩ := hs.covers a r hr ref href
    cases h with
    | up h1 h2 h3 h4 h5 => exact ha.fresh _ _ h1 (h5.symm.trans e)
  have hno := adds_uncovered ha hd hnor (by rw [hc]; simp)
  have hlow : ∀ rel a u ref d, ¬ Establishes g' rel a u n ref d := by
    intro rel a u ref d h
    cases h with
    | up h1 h2 h3 h4 h5 => rw [hc] at h4; cases h4
    | down h1 h2 h3 h4 h5 =>
      rcases (ha.defines ..).1 h1 with h1 | ⟨-, rfl⟩
      · obtain ⟨rel', -, -, b, l, h⟩ := hs.depends _ _ h1 _ h4
        cases h with
        | down g1 g2 g3 g4 g5 => exact ha.fresh _ _ g3.1 (g5.symm.trans h5)
      · rw [hd] at h4; cases h4
  have hold : ∀ rel a u l ref d, Establishes g' rel a u l ref d → Establishes g rel a u l ref d := by
    intro rel a u l ref d h
    rcases (ha.establishes ..).2 h with h' | rfl | rfl
    · exact h'
    · exact absurd h (hno _ _ _ _ _)
    · exact absurd h (hlow _ _ _ _ _)
  refine ⟨?_, ?_, ?_, ?_, ?_, ?_, ?_, ha.relations ▸ hrel, (ha.defines ..).2 (.inr ⟨hx, rfl⟩), hno rel⟩
  · intro a b r s hr hs' e
    rcases (ha.defines ..).1 hr with hr | ⟨rfl, rfl⟩
    · rcases (ha.defines ..).1 hs' with hs' | ⟨rfl, rfl⟩
      · exact hs.unique a b r s hr hs' e
      · exact absurd e (ha.fresh _ _ hr)
    · rcases (ha.defines ..).1 hs' with hs' | ⟨rfl, rfl⟩
      · exact absurd e.symm (ha.fresh _ _ hs')
      · rfl
  · intro rel' hrel' _
    rw [ha.relations] at hrel'
    obtain ⟨a, v, l, ref, d, h⟩ := hs.used rel' hrel'
    exact ⟨a, v, l, ref, d, hest _ _ _ _ _ _ h⟩
  · intro a l hl ref href
    rw [ha.relations]
    rcases (ha.defines ..).1 hl with hl | ⟨rfl, rfl⟩
    · obtain ⟨rel', h1, v, h⟩ := hs.covers a l hl ref href
      exact ⟨rel', h1, v, hest _ _ _ _ _ _ h⟩
    · rw [hc] at href; cases href
  · intro a v hv ref href
    rw [ha.relations]
    rcases (ha.defines ..).1 hv with hv | ⟨rfl, rfl⟩
    · obtain ⟨rel', h1, h2, b, l, h⟩ := hs.depends a v hv ref href
      exact ⟨rel', h1, h2, b, l, hest _ _ _ _ _ _ h⟩
    · rw [hd] at href; cases href
  · intro rel' hrel' a v l ref d h
    rw [ha.relations] at hrel'
    rw [adds_setting ha]
    exact hs.titles rel' hrel' a v l ref d (hold _ _ _ _ _ _ h)
  · intro rel' hrel' v hv he
    rw [ha.relations] at hrel'
    rcases (ha.defines ..).1 hv with hv | ⟨h1, rfl⟩
    · obtain ⟨a, l, ref, d, h⟩ := hf rel' hrel' v hv
      exact ⟨a, l, ref, d, hest _ _ _ _ _ _ h⟩
    · exact absurd rfl (he.resolve_left fun h => h (hone rel' hrel' h1))
  · intro a art hart hig l hl
    rw [ha.relations]
    obtain ⟨art', hart'⟩ : ∃ art', g.artefacts.get a = some art' := by
      rcases (ha.owns ..).1 hl with hl | ⟨rfl, rfl⟩
      · obtain ⟨art', h, -⟩ := hl.1
        exact ⟨art', h⟩
      · obtain ⟨art', reqs, h, -⟩ := ha.here
        exact ⟨art', h⟩
    rw [ha.settings hart' hart] at hig
    rcases (ha.owns ..).1 hl with hl | ⟨rfl, rfl⟩
    · obtain ⟨rel', h1, v, ref, d, h⟩ := hn a art' hart' hig l hl
      exact ⟨rel', h1, v, ref, d, hest _ _ _ _ _ _ h⟩
    · rw [hi art' hart'] at hig; cases hig

/-- **C138** A green project gets a new section and then a new mark: after the section it is not green, and after the mark
it is again, exactly if the mark is a right one of that section. -/
theorem C138_section_then_mark {env : Env} {w w' w'' : World} {base : Path} {config : Config} {x y : ArtefactId}
    {s m : Requirement} (h1 : ProjectGrows env w w' base config x s) (h2 : ProjectGrows env w' w'' base config y m)
    {c : Controller} (h : Controller.new env w config base = .ok c) (hg : ¬ TraceProblem c.tracedGraph)
    (hs : ∀ a r, Defines c.graph a r → r.id ≠ s.id ∧ r.id ≠ m.id) (hsm : s.id ≠ m.id) (hc : s.covers = []) (hd : s.depends = [])
    {rel : Relation} (hrel : rel ∈ config.relations) (hx : rel.upper = x) (hone : ∀ rel' ∈ config.relations, rel'.upper = x → rel' = rel)
    (hi : ∀ art, c.graph.artefacts.get x = some art → art.ignoreDerivedRequirements = true)
    (hy : ∀ rel ∈ config.relations, rel.upper ≠ y) :
    ∃ c' c'', Controller.new env w' config base = .ok c' ∧ TraceProblem c'.tracedGraph ∧
      Controller.new env w'' config base = .ok c'' ∧
      (¬ TraceProblem c''.tracedGraph ↔ RightMark c'.graph y m ∧ y ∈ rel.lower ∧ ∃ ref ∈ m.covers, ref.id = s.id) := by
  obtain ⟨c', h', ha, -⟩ := C137_project h1 h (fun a r hr => (hs a r hr).1)
  obtain ⟨g1, g2, g3, g4⟩ := (problem_iff h).1 hg
  have hrels := (C18_no_panic h).2.1
  have hbut := adds_cleanBut ha g2 g3 g4 hc hd (hrels ▸ hrel) hx (hrels ▸ hone) hi
  obtain ⟨hp, c'', h'', hiff⟩ := C138_green h2 h' (fun a r hr => by
    rcases (ha.defines ..).1 hr with hr | ⟨-, rfl⟩
    · exact (hs a r hr).2
    · exact hsm) (by rw [adds_errors ha]; exact g1) hbut hy
  exact ⟨c', c'', h', hp, h'', hiff⟩

namespace GrownExample

open CtrlExample Rs

/-- A file with one marked function, and the same with one more. -/
def syn : Syn where
  parseFile t := .ok (if t = c!"1" then ItemsExample.item c!"f" c!"REQ_A" 1 else
    after (ItemsExample.item c!"f" c!"REQ_A" 1) (ItemsExample.item c!"g" c!"REQ_B" 4))
  debug _ := c!"?"

def requirements : ArtefactConfig := ⟨c!"REQ", [c!"req.md"], .markdown, some true, none⟩
def code : ArtefactConfig := ⟨c!"CODE", [c!"a.rs"], .rust, none, none⟩
def project : Config := ⟨none, [requirements, code], [⟨c!"REQ", [c!"CODE"]⟩], none, none⟩

def e : Env := { env .nil project with syn := syn }

def one : Str := c!"Intro\n# REQ_A: title a\n"
def more : Str := c!"# REQ_B: title b\nComment: x\n"

def first : World := world [(c!"p/req.md", one), (c!"p/a.rs", c!"1")]
def second : World := world [(c!"p/req.md", one ++ more), (c!"p/a.rs", c!"1")]
def third : World := world [(c!"p/req.md", one ++ more), (c!"p/a.rs", c!"2")]

def req : Requirement := ⟨c!"REQ_B", some c!"title b", ⟨c!"p/req.md", some (.line 1)⟩, [], [], [], .ofList [(c!"Comment", c!"x")]⟩
def mark : Requirement := ⟨c!"g", none, ⟨c!"p/a.rs", some (.lineAndColumn 4 3)⟩,
  [⟨c!"REQ_B", none, ⟨c!"p/a.rs", some (.lineAndColumn 5 8)⟩⟩], [], [], .empty⟩

theorem file_req : FileGrows e first second c!"p/req.md" .markdown (shiftReq 2 req) := by
  refine .section (t := one) (s := more) (ls := [c!"Intro\n", c!"# REQ_A: title a\n"])
    (ss := [⟨2, c!"REQ_A", c!"title a", [], .no⟩]) (h := c!"# REQ_B: title b\n") (body := [c!"Comment: x\n"])
    (by decide +kernel) (by decide +kernel) (.inr (by decide +kernel))
    (lines_iff.2 (by decide +kernel)) ?_ rfl (lines_iff.2 (by decide +kernel))
    (DocExample.head (id := c!"REQ_B") (raw := c!"title b") (SectionsExample.line (by decide)) (by decide +kernel))
    ((C81_file ..).1 (by decide +kernel))
  refine ⟨[c!"Intro\n"], [c!"# REQ_A: title a\n"], rfl, SectionsExample.intro_line, .inr ⟨_, _, 1, _, _, rfl,
    DocExample.head (id := c!"REQ_A") (raw := c!"title a") (SectionsExample.line (by decide)) (by decide +kernel)⟩, ?_⟩
  exact .cons (h := c!"# REQ_A: title a\n") (body := []) (rest := []) (DocExample.head (id := c!"REQ_A") (raw := c!"title a")
    (SectionsExample.line (by decide)) (by decide +kernel)) (by simp) (.inl rfl) (.attrs (.inl (.inl rfl)) (.nil _)) (.nil _)

theorem file_code : FileGrows e second third c!"p/a.rs" .rust mark := by
  refine .code (t := c!"1") (t' := c!"2") (f := ItemsExample.item c!"f" c!"REQ_A" 1) (g := ItemsExample.item c!"g" c!"REQ_B" 4)
    (es := [⟨[c!"g"], some ⟨c!"p/a.rs", some (.lineAndColumn 4 3)⟩, ⟨c!"REQ_B", none, ⟨c!"p/a.rs", some (.lineAndColumn 5 8)⟩⟩⟩])
    (by decide +kernel) (by decide +kernel) rfl rfl ?_ (.good rfl (.inl ⟨_, rfl, rfl, rfl, rfl⟩) .nil)
    ⟨rfl, ?_, ⟨_, _, rfl, rfl⟩, rfl, rfl, rfl, rfl⟩
  · intro id h1 h2
    exact absurd ((ItemsExample.marked h1).symm.trans (ItemsExample.marked h2)) (by decide)
  · simp only [List.mem_singleton, forall_eq]
    exact .one _

theorem grows_req : ProjectGrows e first second c!"p" project c!"REQ" (shiftReq 2 req) := by
  refine ⟨fun p => rfl, [], requirements, [code], [], c!"p/req.md", [], rfl, rfl, ?_, ?_, ?_, file_req, ?_, ?_⟩
  · simp only [List.mem_singleton, forall_eq]; decide
  · intro h; cases h
  · exact .inr ⟨by decide, c!"req.md", rfl, by decide⟩
  · simp
  · simp only [List.nil_append, List.mem_singleton, forall_eq]
    rintro fs (⟨-, -, h⟩ | ⟨h, -⟩) q hq
    · have h1 : globPaths e first c!"p" [c!"a.rs"] = .ok [c!"p/a.rs"] := by decide +kernel
      have h2 := (globPaths_ok ..).2 h
      rw [show code.paths = [c!"a.rs"] from rfl, h1] at h2
      cases h2
      rw [List.mem_singleton.1 hq]
      unfold SameFile
      decide +kernel
    · exact absurd rfl h

theorem grows_code : ProjectGrows e second third c!"p" project c!"CODE" mark := by
  refine ⟨fun p => rfl, [requirements], code, [], [], c!"p/a.rs", [], rfl, rfl, ?_, ?_, ?_, file_code, ?_, ?_⟩
  · simp
  · intro h; cases h
  · exact .inl ⟨rfl, by decide, .cons (fs := [c!"p/a.rs"]) (by decide +kernel) .nil⟩
  · simp
  · simp only [List.append_nil, List.mem_singleton, forall_eq]
    rintro fs (⟨h, -⟩ | ⟨-, p, h, rfl⟩) q hq
    · cases h
    · cases h
      rw [List.mem_singleton.1 hq]
      unfold SameFile
      decide +kernel

/-- Does tracing find fault? -/
def green (w : World) : Option Bool :=
  (Controller.new e w project c!"p").toOption.map fun c => c.tracedGraph.errors.isEmpty &&
    c.graph.artefacts.values.all (·.errors.isEmpty) && c.tracedGraph.tracedRelations.all (·.uncovered.isEmpty) &&
    c.tracedGraph.derived.values.all (·.isEmpty)

/-- The project is green, then it is not, then it is again. -/
example : green first = some true ∧ green second = some false ∧ green third = some true := by decide +kernel

/-- Tracing finds no fault at first. -/
theorem first_green {c : Controller} (h : Controller.new e first project c!"p" = .ok c) : ¬ TraceProblem c.tracedGraph := by
  have key : green first = some true := by decide +kernel
  rw [green, h] at key
  simp only [Except.toOption, Option.map_some, Option.some.injEq, Bool.and_eq_true, List.all_eq_true, List.isEmpty_iff] at key
  obtain ⟨⟨⟨k1, k2⟩, k3⟩, k4⟩ := key
  rw [← (C11_frame (C18_consistent h).1 (C18_no_panic h).1).1] at k2
  rintro (⟨x, hx⟩ | ⟨a, art, x, ha, hx⟩ | ⟨tr, htr, r, hr⟩ | ⟨a, ids, r, ha, hr⟩)
  · rw [k1] at hx; cases hx
  · rw [k2 art ((BMap.mem_values_iff ..).2 ⟨a, ha⟩)] at hx; cases hx
  · rw [k3 tr htr] at hr; cases hr
  · rw [k4 ids ((BMap.mem_values_iff ..).2 ⟨a, ha⟩)] at hr; cases hr

/-- The hypotheses of `C138_section_then_mark` hold for these three states of the project. -/
example : ∃ c c' c'', Controller.new e first project c!"p" = .ok c ∧ Controller.new e second project c!"p" = .ok c' ∧
    TraceProblem c'.tracedGraph ∧ Controller.new e third project c!"p" = .ok c'' ∧
      (¬ TraceProblem c''.tracedGraph ↔ RightMark c'.graph c!"CODE" mark ∧ c!"CODE" ∈ [c!"CODE"] ∧
        ∃ ref ∈ mark.covers, ref.id = c!"REQ_B") := by
  have key : (Controller.new e first project c!"p").toOption.map (fun c => c.graph.artefacts.entries.all fun a =>
      a.2.requirements.keys.all (fun k => k != c!"REQ_B" && k != c!"g") && (a.1 != c!"REQ" || a.2.ignoreDerivedRequirements)) =
      some true := by decide +kernel
  cases h : Controller.new e first project c!"p" with
  | error x => rw [h] at key; cases key
  | ok c =>
    rw [h] at key
    simp only [Except.toOption, Option.map_some, Option.some.injEq, List.all_eq_true, Bool.and_eq_true, bne_iff_ne,
      Bool.or_eq_true] at key
    have k1 : ∀ a r, Defines c.graph a r → r.id ≠ c!"REQ_B" ∧ r.id ≠ c!"g" := by
      rintro a r ⟨art, ha, hr⟩
      exact (key (a, art) ((BMap.get_eq_some_iff ..).1 ha)).1 r.id ((BMap.mem_keys_iff_isSome ..).2 (by rw [hr]; rfl))
    have k2 : ∀ art, c.graph.artefacts.get c!"REQ" = some art → art.ignoreDerivedRequirements = true := fun art ha =>
      (key (c!"REQ", art) ((BMap.get_eq_some_iff ..).1 ha)).2.resolve_left (fun h => h rfl)
    obtain ⟨c', c'', h1, h2, h3, h4⟩ := C138_section_then_mark grows_req grows_code h (first_green h) k1 (by decide) rfl rfl
      (rel := ⟨c!"REQ", [c!"CODE"]⟩) (by decide) rfl (fun rel hrel _ => List.mem_singleton.1 hrel) k2
      (fun rel hrel => by rw [List.mem_singleton.1 hrel]; decide)
    exact ⟨c, c', c'', rfl, h1, h2, h3, h4⟩

end GrownExample

end Reqtrace
