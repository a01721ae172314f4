import Verif.Props.Removed
import Verif.Props.Repaired
import Verif.Spec.Inserted

/-!
# C147: a section that is put in at any place
-/

namespace Reqtrace

open Spec

/-! ## The graph -/

section
variable {g g' : Graph} {x : ArtefactId} {n : Requirement} (ha : AddsRequirement g g' x n) (hs : Sound g)
include ha hs

/-- What refers to the new requirement is itself. -/
theorem inserted_upper {rel : Relation} {a : ArtefactId} {l : Requirement} {ref : Reference}
    (h : Establishes g' rel a n l ref .upwards) : rel.upper = x ∧ a = x ∧ l = n := by
  cases h with
  | up h1 h2 h3 h4 h5 =>
    have hup : rel.upper = x := by
      rcases (ha.defines ..).1 h1 with k | ⟨k, -⟩
      · exact absurd rfl (ha.fresh _ _ k)
      · exact k
    rcases (ha.owns ..).1 h3 with k | ⟨k1, k2⟩
    · obtain ⟨rel', -, u, k3⟩ := hs.covers _ _ k.1 _ h4
      cases k3 with
      | up m1 m2 m3 m4 m5 => exact absurd (m5.symm.trans h5) (ha.fresh _ _ m1)
    · exact ⟨hup, k1, k2⟩

theorem inserted_lower {rel : Relation} {a : ArtefactId} {u : Requirement} {ref : Reference}
    (h : Establishes g' rel a u n ref .downwards) : rel.upper = x ∧ a = x ∧ u = n := by
  cases h with
  | down h1 h2 h3 h4 h5 =>
    have hup : a = x := by
      rcases (ha.owns ..).1 h3 with k | ⟨k, -⟩
      · exact absurd rfl (ha.fresh _ _ k.1)
      · exact k
    rcases (ha.defines ..).1 h1 with k | ⟨k1, k2⟩
    · obtain ⟨rel', -, -, b, l, k3⟩ := hs.depends _ _ k _ h4
      cases k3 with
      | down m1 m2 m3 m4 m5 => exact absurd (m5.symm.trans h5) (ha.fresh _ _ m3.1)
    · exact ⟨k1, hup, k2⟩

theorem inserted_unique : ∀ a b r s, Defines g' a r → Defines g' b s → r.id = s.id → a = b := by
  intro a b r s hr hs' e
  rcases (ha.defines ..).1 hr with hr | ⟨rfl, rfl⟩
  · rcases (ha.defines ..).1 hs' with hs' | ⟨rfl, rfl⟩
    · exact hs.unique a b r s hr hs' e
    · exact absurd e (ha.fresh _ _ hr)
  · rcases (ha.defines ..).1 hs' with hs' | ⟨rfl, rfl⟩
    · exact absurd e.symm (ha.fresh _ _ hs')
    · rfl

/-- If all was well, then it is with one more requirement exactly if this one is right by itself. -/
theorem inserted_clean (hf : FullyCovered g) (hd : NothingDerived g) :
    Sound g' ∧ FullyCovered g' ∧ NothingDerived g' ↔ SelfStanding g' x n := by
  have hn : Defines g' x n := (ha.defines ..).2 (.inr ⟨rfl, rfl⟩)
  have hu' := inserted_unique ha hs
  have hest : ∀ rel a u l ref d, Establishes g rel a u l ref d → Establishes g' rel a u l ref d :=
    fun rel a u l ref d => (ha.establishes ..).1
  constructor
  · rintro ⟨h1, h2, h3⟩
    refine ⟨⟨?_, ?_, ?_, ?_⟩, ?_, ?_⟩
    · intro ref href
      obtain ⟨rel, hrel, v, h⟩ := h1.covers x n hn ref href
      cases h with
      | up k1 k2 k3 k4 k5 => exact ⟨rel, hrel, k2, v, k1, k5⟩
    · intro ref href rel hrel hlow v hv hid
      exact h1.titles rel hrel x v n ref .upwards (.up hv hlow (owns_unique hu' hn) href hid)
    · intro ref href
      obtain ⟨rel, hrel, h, b, l, h'⟩ := h1.depends x n hn ref href
      cases h' with
      | down k1 k2 k3 k4 k5 => exact ⟨rel, hrel, h, b, k2, l, k3.1, k5⟩
    · rintro ref href rel hrel rfl a hlow l hl hid
      exact h1.titles rel hrel a n l ref .downwards (.down hn hlow (owns_unique hu' hl) href hid)
    · rintro rel hrel rfl
      obtain ⟨a, l, ref, d, h⟩ := h2 rel hrel n hn
      cases d with
      | upwards =>
        obtain ⟨-, rfl, rfl⟩ := inserted_upper ha hs h
        cases h with
        | up k1 k2 k3 k4 k5 => exact .inl ⟨k2, ref, k4, k5⟩
      | downwards =>
        cases h with
        | down k1 k2 k3 k4 k5 => exact .inr ⟨rfl, rfl, ref, k4, a, k2, l, k3.1, k5⟩
    · intro art hart hig
      obtain ⟨rel, hrel, u, ref, d, h⟩ := h3 x art hart hig n (owns_unique hu' hn)
      cases d with
      | upwards =>
        cases h with
        | up k1 k2 k3 k4 k5 => exact ⟨rel, hrel, k2, .inl ⟨ref, k4, u, k1, k5⟩⟩
      | downwards =>
        obtain ⟨m1, -, rfl⟩ := inserted_lower ha hs h
        cases h with
        | down k1 k2 k3 k4 k5 => exact ⟨rel, hrel, k2, .inr ⟨m1, ref, k4, k5⟩⟩
  · rintro ⟨hm, hc, hi⟩
    refine ⟨⟨hu', ?_, ?_, ?_, ?_⟩, ?_, ?_⟩
    · intro rel hrel
      rw [ha.relations] at hrel
      obtain ⟨a, v, l, ref, d, h⟩ := hs.used rel hrel
      exact ⟨a, v, l, ref, d, hest _ _ _ _ _ _ h⟩
    · intro a l hl ref href
      rcases (ha.defines ..).1 hl with hl' | ⟨rfl, rfl⟩
      · obtain ⟨rel, h1, v, h⟩ := hs.covers a l hl' ref href
        exact ⟨rel, ha.relations ▸ h1, v, hest _ _ _ _ _ _ h⟩
      · obtain ⟨rel, h1, h2, v, h3, h4⟩ := hm.covers ref href
        exact ⟨rel, h1, v, .up h3 h2 (owns_unique hu' hn) href h4⟩
    · intro a v hv ref href
      rcases (ha.defines ..).1 hv with hv' | ⟨rfl, rfl⟩
      · obtain ⟨rel, h1, h2, b, l, h⟩ := hs.depends a v hv' ref href
        exact ⟨rel, ha.relations ▸ h1, h2, b, l, hest _ _ _ _ _ _ h⟩
      · obtain ⟨rel, h1, h2, b, h3, l, h4, h5⟩ := hm.depends ref href
        exact ⟨rel, h1, h2, b, l, .down (h2 ▸ hn) h3 (owns_unique hu' h4) href h5⟩
    · intro rel hrel a v l ref d h
      rcases (ha.establishes ..).2 h with h' | h'
      · have := hs.titles rel (ha.relations ▸ hrel) a v l ref d h'
        rw [adds_setting ha]
        exact this
      · cases h with
        | up k1 k2 k3 k4 k5 =>
          by_cases e : l = n
          · subst e
            have : a = x := hu' a x l l k3.1 hn rfl
            subst this
            exact hm.coverTitles ref k4 rel hrel k2 v k1 k5
          · have : v = n := h'.resolve_right e
            subst this
            exact absurd (inserted_upper ha hs (.up k1 k2 k3 k4 k5)).2.2 e
        | down k1 k2 k3 k4 k5 =>
          by_cases e : v = n
          · subst e
            have : rel.upper = x := hu' _ x v v k1 hn rfl
            exact hm.dependTitles ref k4 rel hrel this a k2 l k3.1 k5
          · have : l = n := h'.resolve_left e
            subst this
            exact absurd (inserted_lower ha hs (.down k1 k2 k3 k4 k5)).2.2 e
    · intro rel hrel v hv
      rcases (ha.defines ..).1 hv with hv' | ⟨rfl, rfl⟩
      · obtain ⟨a, l, ref, d, h⟩ := hf rel (ha.relations ▸ hrel) v hv'
        exact ⟨a, l, ref, d, hest _ _ _ _ _ _ h⟩
      · rcases hc rel hrel rfl with ⟨k1, ref, k2, k3⟩ | ⟨-, -, ref, k2, a, k3, l, k4, k5⟩
        · exact ⟨_, _, ref, .upwards, .up hv k1 (owns_unique hu' hn) k2 k3⟩
        · exact ⟨a, l, ref, .downwards, .down hv k3 (owns_unique hu' k4) k2 k5⟩
    · intro a art hart hig l hl
      rcases (ha.owns ..).1 hl with hl' | ⟨rfl, rfl⟩
      · obtain ⟨art', hart'⟩ : ∃ art', g.artefacts.get a = some art' := by
          obtain ⟨art', h, -⟩ := hl'.1
          exact ⟨art', h⟩
        obtain ⟨rel, h1, v, ref, d, h⟩ := hd a art' hart' (by rw [← ha.settings hart' hart]; exact hig) l hl'
        exact ⟨rel, ha.relations ▸ h1, v, ref, d, hest _ _ _ _ _ _ h⟩
      · obtain ⟨rel, hrel, k1, ⟨ref, k2, u, k3, k4⟩ | ⟨k2, ref, k3, k4⟩⟩ := hi art hart hig
        · exact ⟨rel, hrel, u, ref, .upwards, .up k3 k1 hl k2 k4⟩
        · exact ⟨rel, hrel, l, ref, .downwards, .down (k2 ▸ hn) k1 hl k3 k4⟩

end

/-! ## The files -/

theorem inserted_path {env : Env} {w w' : World} {p : Path} {parser : ArtefactParser} {n : Requirement}
    (h : FileReduced env w' w p parser n)
    (hw : parser = .markdown → ∀ text, env.os.openFile w' p = .ok ⟨Utf8.encode text, none⟩ → ¬ OneByteTail text)
    {reqs : List Requirement} {errs : List Error} (hp : PathMeans env w parser p reqs errs) :
    ∃ reqs' errs', PathMeans env w' parser p reqs' errs' := by
  cases h with
  | «section» h1 h2 =>
    obtain ⟨text, o1⟩ : ∃ text, env.os.openFile w' p = .ok ⟨Utf8.encode text, none⟩ := by
      obtain ⟨o1, -⟩ := h1
      exact ⟨_, o1⟩
    have ht := hw rfl _ o1
    have : ∃ v, fileResult env .markdown ⟨Utf8.encode text, none⟩ p = .ok v := by
      simp only [fileResult]
      refine Classical.byContradiction fun hno => ?_
      have := (C30_panics_iff_partial env.U _ p).1 hno
      rw [File.lines_encode] at this
      exact ht this
    obtain ⟨⟨r, es⟩, hv⟩ := this
    exact ⟨r, es, .opened o1 ((C81_file ..).1 hv)⟩
  | code h1 h2 h3 h4 h5 h6 h7 h8 => exact code_inserted h1 h2 h3 h4 h5 h6 h7 h8 hp

theorem inserted_paths {env : Env} {w w' : World} {parser : ArtefactParser} {p : Path} {n : Requirement} {post : List Path}
    (h : FileReduced env w' w p parser n)
    (hw : parser = .markdown → ∀ text, env.os.openFile w' p = .ok ⟨Utf8.encode text, none⟩ → ¬ OneByteTail text) :
    ∀ {pre : List Path} {reqs : List Requirement} {errs : List Error},
    (∀ q ∈ pre ++ post, SameFile env w' w q) → PathsMean env w parser (pre ++ p :: post) reqs errs →
    ∃ reqs' errs', PathsMean env w' parser (pre ++ p :: post) reqs' errs'
  | [], reqs, errs, hs, hp => by
    cases hp with
    | cons h1 h2 =>
      obtain ⟨_, _, h3⟩ := inserted_path h hw h1
      exact ⟨_, _, PathsMean.cons h3 (paths_same h2 (fun q hq => Eq.symm (hs q (by simp [hq]))))⟩
  | q :: pre, reqs, errs, hs, hp => by
    cases hp with
    | cons h1 h2 =>
      obtain ⟨_, _, h3⟩ := inserted_paths h hw (pre := pre) (fun q hq => hs q (by simp at hq ⊢; exact .inr hq)) h2
      exact ⟨_, _, PathsMean.cons (pathMeans_same (Eq.symm (hs q (by simp))) h1) h3⟩

theorem sameMatches_symm {env : Env} {w w' : World} (h : SameMatches env w w') : SameMatches env w' w := fun p => (h p).symm

theorem inserted_new {env : Env} {w w' : World} {base : Path} {config : Config} {x : ArtefactId} {n : Requirement}
    (hm : ProjectInserted env w w' base config x n) {c : Controller} (h : Controller.new env w config base = .ok c) :
    ∃ c', Controller.new env w' config base = .ok c' := by
  obtain ⟨h1, h2⟩ := (C18_returns_iff ..).1 ⟨c, h⟩
  refine (C18_returns_iff ..).2 ⟨h1, fun b hb => ?_⟩
  obtain ⟨before, ac, aft, pre, p, post, e1, rfl, e3, e4, e5, e6, e7⟩ := hm.less.artefact
  obtain ⟨v, hv⟩ := h2 b hb
  rw [e1] at hb
  simp only [List.mem_append, List.mem_cons] at hb
  by_cases e : b = ac
  · subst e
    have hf := filesOf_same hm.less.matching e4
    have h6 : ∃ reqs errs, PathsMean env w b.parser (pre ++ p :: post) reqs errs := by
      obtain ⟨a1, a2⟩ := (parseArtefact_filesOf hf _).1 hv
      exact ⟨_, _, (pathsMean_iff _ _ _).2 ⟨a1, rfl, rfl⟩⟩
    obtain ⟨reqs, errs, h6⟩ := h6
    obtain ⟨reqs', errs', h7⟩ := inserted_paths e5
      (fun hp text ho => hm.whole b _ p text ⟨before, aft, e1, e3⟩ rfl hp e4 (by simp) ho) e6 h6
    exact ⟨_, parseArtefact_iff.2 (.files e4 h7)⟩
  · have hb' : b ∈ before ++ aft := by
      rcases hb with hb | rfl | hb
      · exact List.mem_append.2 (.inl hb)
      · exact absurd rfl e
      · exact List.mem_append.2 (.inr hb)
    exact ⟨v, by rw [← hv]; exact (parseArtefact_congr hm.less.matching (e7 b hb')).symm⟩

theorem duplicates_first {rs : List Requirement} {f s : Requirement} (h : Error.duplicateRequirement f s ∈ duplicates rs) : f ∈ rs := by
  obtain ⟨i, -, h2⟩ := mem_duplicates.1 h
  exact List.mem_of_mem_take (List.mem_of_find?_eq_some h2)

/-- **C147** The project with a section, or mark, put in is the project before with that requirement, but for places in the
same artefact. -/
theorem C147_project {env : Env} {w w' : World} {base : Path} {config : Config} {x : ArtefactId} {n : Requirement}
    (hm : ProjectInserted env w w' base config x n) {c : Controller} (h : Controller.new env w config base = .ok c)
    (hn : ∀ a r, Defines c.graph a r → r.id ≠ n.id) :
    ∃ c', Controller.new env w' config base = .ok c' ∧ GraphReduced c'.graph c.graph x n ∧ OnlyOne c'.graph x n ∧
      c'.jobs = c.jobs := by
  obtain ⟨c', h'⟩ := inserted_new hm h
  have key := project_reduced hm.less h' fun ac hl hx fs reqs errs hp f s hfs => by
    obtain ⟨before, ac0, aft, pre, p, post, e1, e2, e3, e4, e5, e6, e7⟩ := hm.less.artefact
    have : ac0 = ac := lastEntry_unique ⟨before, aft, e1, e2 ▸ e3⟩ hl (e2.trans hx.symm)
    subst this
    have h6 : PathsMean env w' ac0.parser (pre ++ p :: post) reqs errs := by
      obtain ⟨a1, a2⟩ := (parseArtefact_filesOf e4 _).1 hp
      simp only [Prod.mk.injEq] at a2
      exact (pathsMean_iff _ _ _).2 ⟨a1, a2.2.1, a2.2.2⟩
    obtain ⟨reqs0, errs0, h7, ⟨a, b, b', rfl, rfl, h8⟩, -⟩ := paths_reduced e5 e6 h6
    have hc : ∃ art, c.graph.artefacts.get x = some art := (new_configured h x).1 ⟨ac0, by rw [e1]; simp, hx⟩
    obtain ⟨art, ha⟩ := hc
    have hfresh0 : ∀ r ∈ a ++ b', r.id ≠ n.id := by
      intro r hr e
      obtain ⟨ac', root, files, m, errs', hl', hid, -, hp', rfl⟩ := new_artefact h ha
      have := lastEntry_unique hl' hl (hid.trans hx.symm)
      subst this
      obtain ⟨reqs', perrs, k1, k2, -⟩ := parseFromConfig_ok hp'
      have k3 := parseArtefact_iff.2 (.files (filesOf_same hm.less.matching e4) h7)
      rw [k3] at k1; cases k1
      cases hf : (a ++ b').find? (fun r => r.id = n.id) with
      | none => exact List.find?_eq_none.1 hf r hr (by simp [e])
      | some r0 =>
        have k4 : r0.id = n.id := by simpa using List.find?_some hf
        refine hn x r0 ⟨_, ha, ?_⟩ k4
        simp only
        rw [k2, (collect_eq ..).1, k4]
        exact hf
    have hfresh : ∀ r ∈ a ++ b, r.id ≠ n.id := by
      intro r hr
      rcases List.mem_append.1 hr with hr | hr
      · exact hfresh0 r (by simp [hr])
      · have : forgetReq r ∈ b'.map forgetReq := h8 ▸ List.mem_map_of_mem hr
        obtain ⟨r', m1, m2⟩ := List.mem_map.1 this
        have m3 : (forgetReq r').id = (forgetReq r).id := congrArg Requirement.id m2
        replace m3 : r'.id = r.id := m3
        rw [← m3]
        exact hfresh0 r' (by simp [m1])
    have k1 := (collect_grows (e := []) hfresh).1
    rw [(collect_eq ..).2, (collect_eq ..).2, List.nil_append, List.nil_append] at k1
    rw [k1] at hfs
    exact hfresh f (duplicates_first hfs)
  obtain ⟨c0, h0, hg, hj⟩ := key
  rw [h] at h0; cases h0
  refine ⟨c', h', hg, ?_, hj.symm⟩
  intro a r hr e
  refine Classical.byContradiction fun hx => ?_
  refine hn a r ?_ e
  unfold Defines
  rw [hg.others a hx]
  exact hr

/-- **C147** What tracing finds with a section put in, by what it finds without: what was is still found, but for places, and
what was unknown, uncovered or derived without the new requirement is so no longer if the new one is referred to, covers it
or is covered by it. -/
theorem C147_trace {env : Env} {w w' : World} {base : Path} {config : Config} {x : ArtefactId} {n : Requirement}
    (hm : ProjectInserted env w w' base config x n) {c : Controller} (h : Controller.new env w config base = .ok c)
    (hn : ∀ a r, Defines c.graph a r → r.id ≠ n.id) :
    ∃ c', Controller.new env w' config base = .ok c' ∧ TraceReduced c'.graph c'.tracedGraph c.tracedGraph n := by
  obtain ⟨c', h', hg, hu, -⟩ := C147_project hm h hn
  obtain ⟨hk, hr⟩ := C18_consistent h'
  obtain ⟨g0, tg0, e1, e2, e3, e4⟩ := reduced_traces hg hk hr hu (C18_no_panic h).1
  exact ⟨c', h', sameTrace_reduced (trace_less e1 e2 hk e3 (C18_no_panic h').1) e4⟩

/-- **C147** A project without problem has none with a section put in exactly if the files can be read and understood with
it, all its references are right, and its own references give its coverage. -/
theorem C147_green {env : Env} {w w' : World} {base : Path} {config : Config} {x : ArtefactId} {n : Requirement}
    (hm : ProjectInserted env w w' base config x n) {c : Controller} (h : Controller.new env w config base = .ok c)
    (hn : ∀ a r, Defines c.graph a r → r.id ≠ n.id) (hc : ¬ TraceProblem c.tracedGraph) :
    ∃ c', Controller.new env w' config base = .ok c' ∧
      (¬ TraceProblem c'.tracedGraph ↔ ReadsClean env w' base config x ∧ SelfStanding c'.graph x n) := by
  obtain ⟨c', h', hg, hu, -⟩ := C147_project hm h hn
  obtain ⟨hk', hr'⟩ := C18_consistent h'
  obtain ⟨g0, tg0, e1, e2, e3, -, e4, e5, e6⟩ := reduced_traces hg hk' hr' hu (C18_no_panic h).1
  refine ⟨c', h', ?_⟩
  obtain ⟨p1, p2, p3, p4⟩ := (problem_iff h).1 hc
  have hk := (C18_consistent h).1
  have ht := (C18_no_panic h).1
  have hs0 : Sound g0 ∧ FullyCovered g0 ∧ NothingDerived g0 := by
    rw [← C67_no_errors_iff hk ht] at p2
    rw [← C67_covered_iff hk ht] at p3
    rw [← C67_derived_iff hk ht] at p4
    rw [← C67_no_errors_iff e2 e3, ← C67_covered_iff e2 e3, ← C67_derived_iff e2 e3]
    refine ⟨?_, ?_, by rw [e5]; exact p4⟩
    · have := congrArg List.length e6
      rw [List.length_map, List.length_map, p2] at this
      exact List.length_eq_zero_iff.1 (by simpa using this)
    · have key : ∀ trs : List TracedRelation, (∀ tr ∈ trs, tr.uncovered = []) ↔
          ∀ t ∈ trs.map (fun tr => (tr.relation, tr.covered.map (fun c => (c.upper, c.lower, c.direction)), tr.uncovered)), t.2.2 = [] := by
        intro trs; simp
      rw [key, e4, ← key]
      exact p3
  rw [problem_iff h', inserted_clean e1 hs0.1 hs0.2.1 hs0.2.2]
  have hpp : ¬ ParseProblem c'.graph.artefacts ↔ ReadsClean env w' base config x := by
    obtain ⟨before, ac, aft, pre, p, post, f1, rfl, f3, -⟩ := hm.less.artefact
    have hl : LastEntry config ac := ⟨before, aft, f1, f3⟩
    obtain ⟨art', art, g2, g1, -⟩ := hg.artefact
    have key := (C68_no_errors_iff h' hl g2).1
    constructor
    · intro hno
      have : art'.errors = [] := by
        cases he' : art'.errors with
        | nil => rfl
        | cons e es => exact absurd ⟨_, art', e, g2, by rw [he']; simp⟩ hno
      obtain ⟨reqs, hr⟩ := key.1 this
      exact ⟨ac, reqs, hl, rfl, hr⟩
    · rintro ⟨ac', reqs, hl', hid', hr⟩ ⟨a, art0, e, k1, k2⟩
      have := lastEntry_unique hl' hl hid'
      subst this
      by_cases ha : a = ac'.id
      · subst ha
        rw [g2] at k1; cases k1
        rw [key.2 ⟨reqs, hr⟩] at k2; cases k2
      · rw [← hg.others a ha] at k1
        exact p1 ⟨a, art0, e, k1, k2⟩
  rw [hpp]

namespace InsertedExample

open RemovedExample

/-- The example of the section that is taken out, the other way round. -/
theorem inserted : ProjectInserted EditedExample.e (newWorld both) (oldWorld both) c!"p" EditedExample.config c!"DES"
    EditedExample.oldReq := by
  refine ⟨project (.inl rfl), ?_⟩
  rintro ac fs p text ⟨pre, post, h1, h2⟩ hx - hf hp ho
  have hac : ac = EditedExample.design := by
    have : ac ∈ EditedExample.config.artefacts := by rw [h1]; simp
    simp only [EditedExample.config, List.mem_cons, List.not_mem_nil, or_false] at this
    rcases this with rfl | rfl
    · exact absurd hx (by decide)
    · rfl
  subst hac
  rcases hf with ⟨h, -⟩ | ⟨-, q, h, rfl⟩
  · cases h
  · cases h
    rw [List.mem_singleton.1 hp] at ho
    have key : EditedExample.e.os.openFile (oldWorld both) (EditedExample.design.paths.map (c!"p/" ++ ·)).head! =
        .ok ⟨Utf8.encode (two both), none⟩ := by decide +kernel
    have h3 : (⟨Utf8.encode (two both), none⟩ : File) = ⟨Utf8.encode text, none⟩ := by
      have : (Except.ok ⟨Utf8.encode (two both), none⟩ : Except Str File) = .ok ⟨Utf8.encode text, none⟩ := key.symm.trans ho
      exact Except.ok.inj this
    have h4 : text = two both := by
      have := congrArg File.lines h3
      rw [File.lines_encode, File.lines_encode] at this
      exact (congrArg Source.text this).symm
    subst h4
    rintro ⟨pre, c, he, hc, -⟩
    have : (two both).getLast? = some c := by rw [he]; simp
    exact hc (by simpa [two, both] using this.symm)

/-- The hypotheses of `C147_green` hold, and its right-hand side. -/
example : ∃ c c', Controller.new EditedExample.e (newWorld both) EditedExample.config c!"p" = .ok c ∧
    ¬ TraceProblem c.tracedGraph ∧ Controller.new EditedExample.e (oldWorld both) EditedExample.config c!"p" = .ok c' ∧
    ReadsClean EditedExample.e (oldWorld both) c!"p" EditedExample.config c!"DES" ∧
    SelfStanding c'.graph c!"DES" EditedExample.oldReq := by
  have key : (green (oldWorld both) = true ∧ green (newWorld both) = true) ∧
      (Controller.new EditedExample.e (newWorld both) EditedExample.config c!"p").toOption.map (fun c =>
        c.graph.artefacts.entries.all fun a => a.2.requirements.keys.all (fun k => k != c!"DES_A")) = some true := by
    refine ⟨⟨?_, ?_⟩, ?_⟩ <;> decide +kernel
  obtain ⟨⟨k1, k2⟩, k3⟩ := key
  cases h : Controller.new EditedExample.e (newWorld both) EditedExample.config c!"p" with
  | error x => rw [h] at k3; cases k3
  | ok c =>
    rw [h] at k3
    simp only [Except.toOption, Option.map_some, Option.some.injEq, List.all_eq_true, bne_iff_ne] at k3
    obtain ⟨c', h', hiff⟩ := C147_green inserted h (by
      rintro a r ⟨art, ha, hr⟩
      exact k3 (a, art) ((BMap.get_eq_some_iff ..).1 ha) r.id ((BMap.mem_keys_iff_isSome ..).2 (by rw [hr]; rfl))) (green_iff h k2)
    exact ⟨c, c', rfl, green_iff h k2, h', hiff.1 (green_iff h' k1)⟩

end InsertedExample

end Reqtrace
