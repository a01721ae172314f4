import Verif.Props.Titles
import Verif.Spec.Edited

/-!
# C141: a section that is written anew
-/

namespace Reqtrace

open Spec

/-! ## The same lines further down -/

def shiftValue (k : Nat) : Value → Value
  | .text s => .text s
  | .refs rs => .refs (rs.map (shiftRef k))

def shiftAttr (k : Nat) (a : Attr) : Attr := ⟨a.line + k, a.name, shiftValue k a.value⟩

def shiftCut (k : Nat) : Cut → Cut
  | .wrong n what => .wrong (n + k) what
  | c => c

def shiftSection (k : Nat) (s : Section) : Section :=
  ⟨s.line + k, s.id, s.title, s.attrs.map (shiftAttr k), shiftCut k s.cut⟩

theorem shift_refItems {U : Unicode} {path : Path} {n : Nat} {ls : List Str} {refs : List Reference} (k : Nat)
    (h : RefItems U path n ls refs) : RefItems U path (n + k) ls (refs.map (shiftRef k)) := by
  induction h with
  | nil n => exact .nil _
  | @cons n l ls id title refs h1 h2 _ ih =>
    rw [Nat.add_right_comm] at ih
    exact .cons h1 h2 ih

theorem shift_refList {U : Unicode} {path : Path} {n : Nat} {start : Str} {items : List Str} {name : Str} {refs : List Reference}
    (k : Nat) (h : RefList U path n start items name refs) : RefList U path (n + k) start items name (refs.map (shiftRef k)) := by
  obtain ⟨v, t, ps, ids, more, h1, h2, h3, h4, h5, h6, rfl⟩ := h
  have := shift_refItems k h6
  rw [Nat.add_right_comm] at this
  refine ⟨v, t, ps, ids, _, h1, h2, h3, h4, h5, this, ?_⟩
  rw [List.map_append, List.map_map]
  rfl

theorem shift_attrs {U : Unicode} {path : Path} {n : Nat} {ls : List Str} {as : List Attr} {cut : Cut} (k : Nat)
    (h : Attrs U path n ls as cut) : Attrs U path (n + k) ls (as.map (shiftAttr k)) (shiftCut k cut) := by
  induction h with
  | nil n => exact .nil _
  | heading n l ls h => exact .heading _ _ _ h
  | skip _ ih => rw [Nat.add_right_comm] at ih; exact .skip ih
  | wrong n l ls h1 h2 h3 => exact .wrong _ _ _ h1 h2 h3
  | @text n l a v more rest as cut h1 h2 h3 h4 h5 _ ih =>
    rw [show n + 1 + more.length + k = n + k + 1 + more.length by omega] at ih
    exact .text h1 h2 h3 h4 h5 ih
  | @refs n l a items refs rest as cut h1 h2 _ ih =>
    rw [show n + 1 + items.length + k = n + k + 1 + items.length by omega] at ih
    exact .refs (shift_refList k h1) h2 ih
  | @refsBlank n l a items refs b rest as cut h1 h2 _ ih =>
    rw [show n + 1 + items.length + 1 + k = n + k + 1 + items.length + 1 by omega] at ih
    exact .refsBlank (shift_refList k h1) h2 ih
  | @refsWrong n l a items refs b rest h1 h2 h3 h4 =>
    have := Attrs.refsWrong (rest := rest) (shift_refList k h1) h2 h3 h4
    rw [show n + k + 1 + items.length = n + 1 + items.length + k by omega] at this
    exact this

theorem shift_body {U : Unicode} {path : Path} {n : Nat} {ls : List Str} {as : List Attr} {cut : Cut} (k : Nat)
    (h : Body U path n ls as cut) : Body U path (n + k) ls (as.map (shiftAttr k)) (shiftCut k cut) := by
  induction h with
  | skip _ ih => rw [Nat.add_right_comm] at ih; exact .skip ih
  | attrs h1 h2 => exact .attrs h1 (shift_attrs k h2)
  | @prose n l more rest as cut h1 h2 h3 h4 h5 h6 h7 =>
    have := shift_attrs k h7
    rw [show n + 1 + more.length + k = n + k + 1 + more.length by omega] at this
    exact .prose h1 h2 h3 h4 h5 h6 this

theorem shift_sections {U : Unicode} {path : Path} {n : Nat} {ls : List Str} {ss : List Section} (k : Nat)
    (h : Sections U path n ls ss) : Sections U path (n + k) ls (ss.map (shiftSection k)) := by
  induction h with
  | nil n => exact .nil _
  | @cons n h level id title body rest as cut ss h1 h2 h3 h4 _ ih =>
    rw [show n + 1 + body.length + k = n + k + 1 + body.length by omega] at ih
    have h4 := shift_body k h4
    rw [Nat.add_right_comm] at h4
    exact .cons h1 h2 h3 h4 ih

theorem shift_lastOf (k : Nat) (as : List Attr) (name : Str) :
    lastOf (as.map (shiftAttr k)) name = (lastOf as name).map (shiftValue k) := by
  unfold lastOf
  rw [List.filter_map, List.getLast?_map, Option.map_map, Option.map_map]
  rfl

theorem shift_isRequirement {path : Path} {s : Section} {r : Requirement} (k : Nat) (h : IsRequirement path s r) :
    IsRequirement path (shiftSection k s) (shiftReq k r) := by
  refine ⟨h.id, h.title, ?_, ?_, ?_, h.tags, fun a => ?_⟩
  · simp only [shiftReq, shiftSection, h.location]; rfl
  · simp only [shiftReq, shiftSection, shift_lastOf, h.covers]
    cases lastOf s.attrs c!"Covers" with
    | none => rfl
    | some v => cases v <;> rfl
  · simp only [shiftReq, shiftSection, shift_lastOf, h.depends]
    cases lastOf s.attrs c!"Depends" with
    | none => rfl
    | some v => cases v <;> rfl
  · simp only [shiftReq, shiftSection, shift_lastOf, h.attributes]
    cases lastOf s.attrs a with
    | none => rfl
    | some v => cases v <;> rfl

theorem shift_areRequirements {path : Path} {ss : List Section} {rs : List Requirement} (k : Nat)
    (h : AreRequirements path ss rs) : AreRequirements path (ss.map (shiftSection k)) (rs.map (shiftReq k)) := by
  induction h with
  | nil => exact .nil
  | cons h _ ih => exact .cons (shift_isRequirement k h) ih

theorem shift_repeated (path : Path) (id : Str) (k : Nat) (as before : List Attr) :
    repeated path id (before.map (shiftAttr k)) (as.map (shiftAttr k)) = (repeated path id before as).map (shiftErr k) := by
  induction as generalizing before with
  | nil => rfl
  | cons a as ih =>
    have ha : alreadyGiven (before.map (shiftAttr k)) (shiftAttr k a).name = alreadyGiven before a.name := by
      unfold alreadyGiven
      rw [shift_lastOf]
      show (match (lastOf before a.name).map (shiftValue k) with
        | none => false | some (.text _) => true | some (.refs rs) => !rs.isEmpty) = _
      cases lastOf before a.name with
      | none => rfl
      | some v =>
        cases v with
        | text s => rfl
        | refs rs => cases rs <;> rfl
    rw [List.map_cons, repeated, repeated, ha, List.map_append]
    have := ih (before ++ [a])
    rw [List.map_append] at this
    rw [List.map_singleton] at this
    rw [this]
    congr 1
    split <;> rfl

theorem shift_errors (path : Path) (k : Nat) (s : Section) :
    (shiftSection k s).errors path = (s.errors path).map (shiftErr k) := by
  unfold Section.errors
  rw [List.map_append]
  have := shift_repeated path s.id k s.attrs []
  rw [List.map_nil] at this
  simp only [shiftSection, this]
  congr 1
  cases s.cut <;> rfl

theorem shift_kept (failure : Option Str) (k : Nat) (ss : List Section) :
    kept failure (ss.map (shiftSection k)) = (kept failure ss).map (shiftSection k) := by
  induction ss with
  | nil => rfl
  | cons s ss ih =>
    cases ss with
    | nil =>
      obtain ⟨a, b, c, d, cut⟩ := s
      cases failure <;> cases cut <;> rfl
    | cons s' ss =>
      simp only [List.map_cons, kept] at ih ⊢
      rw [ih]

/-! ## Where a section is among the others -/

theorem ends_head {U : Unicode} {pre : List Str} {h h' : Str} {a b : List Str} {level : Nat} {id title : Str}
    (hh' : ReqHeading U h' level id title) (he : Ends U (pre ++ h :: a)) : Ends U (pre ++ h' :: b) := by
  cases pre with
  | nil => exact .inr ⟨h', b, level, id, title, rfl, hh'⟩
  | cons x pre =>
    rcases he with he | ⟨y, t, l, i, ti, e, hx⟩
    · cases he
    · cases e
      exact .inr ⟨_, _, _, _, _, rfl, hx⟩

/-- The sections above do not depend on those below. -/
theorem sections_above {U : Unicode} {path : Path} {n : Nat} {ls : List Str} {ss : List Section} (hs : Sections U path n ls ss)
    {h : Str} {level : Nat} {id title : Str} (hh : ReqHeading U h level id title) :
    ∀ {pre post : List Str}, ls = pre ++ h :: post →
    ∃ s1, ∀ h' post' level' id' title' s2, ReqHeading U h' level' id' title' → Sections U path (n + pre.length) (h' :: post') s2 →
      Sections U path n (pre ++ h' :: post') (s1 ++ s2) := by
  induction hs with
  | nil n => intro pre post e; exact absurd (congrArg List.length e) (by simp)
  | @cons n g level0 id0 title0 body rest as cut ss h1 h2 h3 h4 h5 ih =>
    intro pre post e
    cases pre with
    | nil => exact ⟨[], fun h' post' _ _ _ s2 _ h => h⟩
    | cons a pre =>
      simp only [List.cons_append, List.cons.injEq] at e
      obtain ⟨rfl, e⟩ := e
      obtain ⟨pre', rfl, rfl⟩ := split_heading hh h2 e
      obtain ⟨s1, hs1⟩ := ih (pre := pre') (post := post) rfl
      refine ⟨⟨n, id0, title0, as, cut⟩ :: s1, fun h' post' level' id' title' s2 hh' hs2 => ?_⟩
      have e2 : n + (g :: (body ++ pre')).length = n + 1 + body.length + pre'.length := by simp; omega
      rw [e2] at hs2
      have := hs1 h' post' level' id' title' s2 hh' hs2
      have e3 : g :: (body ++ pre') ++ h' :: post' = g :: (body ++ (pre' ++ h' :: post')) := by simp
      rw [e3]
      exact .cons h1 h2 (ends_head hh' h3) h4 this

theorem document_above {U : Unicode} {path : Path} {pre post : List Str} {h : Str} {level : Nat} {id title : Str}
    (hh : ReqHeading U h level id title) :
    ∃ s1, ∀ h' post' level' id' title' s2, ReqHeading U h' level' id' title' → Sections U path (pre.length + 1) (h' :: post') s2 →
      Document U path (pre ++ h' :: post') (s1 ++ s2) := by
  obtain ⟨ss, a, rest, e, h1, h2, h3⟩ := C76_exists U path (pre ++ h :: post)
  obtain ⟨pre', rfl, rfl⟩ := split_heading hh h1 e.symm
  obtain ⟨s1, hs1⟩ := sections_above h3 hh (pre := pre') rfl
  refine ⟨s1, fun h' post' level' id' title' s2 hh' hs2 => ?_⟩
  refine ⟨a, pre' ++ h' :: post', by simp, h1, ends_head hh' h2, hs1 h' post' level' id' title' s2 hh' ?_⟩
  rw [show a.length + 1 + pre'.length = (a ++ pre').length + 1 by simp; omega]
  exact hs2

theorem kept_append (failure : Option Str) (a b : List Section) (hb : b ≠ []) : kept failure (a ++ b) = a ++ kept failure b := by
  induction a with
  | nil => rfl
  | cons s a ih =>
    cases hab : a ++ b with
    | nil => exact absurd (List.append_eq_nil_iff.1 hab).2 hb
    | cons t r =>
      rw [List.cons_append, hab, kept, ← hab, ih]
      rfl

theorem areRequirements_append {path : Path} {a b : List Section} {rs ts : List Requirement} (h1 : AreRequirements path a rs)
    (h2 : AreRequirements path b ts) : AreRequirements path (a ++ b) (rs ++ ts) := by
  induction h1 with
  | nil => exact h2
  | cons h _ ih => exact .cons h ih

theorem areRequirements_split {path : Path} {b : List Section} : ∀ {a : List Section} {rs : List Requirement},
    AreRequirements path (a ++ b) rs → ∃ ra rb, rs = ra ++ rb ∧ AreRequirements path a ra ∧ AreRequirements path b rb
  | [], rs, h => ⟨[], rs, rfl, .nil, h⟩
  | s :: a, rs, h => by
    cases h with
    | @cons _ r _ rs h1 h2 =>
      obtain ⟨ra, rb, rfl, h3, h4⟩ := areRequirements_split h2
      exact ⟨r :: ra, rb, rfl, .cons h1 h3, h4⟩

theorem documentErrors_none (path : Path) (ss : List Section) : documentErrors path none ss = ss.flatMap (Section.errors path) := by
  unfold documentErrors
  simp

/-- **C141** A section that is written anew, its id apart, changes only what it says itself: the requirements and errors of
all other sections are the same, but for the places of those below. -/
theorem C141_file {env : Env} {w w' : World} {p : Path} {s s' : Section} (h : SectionEdited env w w' p s s')
    {old new : Requirement} (ho : IsRequirement p s old) (hn : IsRequirement p s' new)
    {reqs : List Requirement} {errs : List Error} (hp : PathMeans env w .markdown p reqs errs) :
    ∃ a b b' e1 e2 e2', reqs = a ++ old :: b ∧ errs = e1 ++ (s.errors p ++ e2) ∧
      PathMeans env w' .markdown p (a ++ new :: b') (e1 ++ (s'.errors p ++ e2')) ∧
      b.map forgetReq = b'.map forgetReq ∧ e2.map forgetError = e2'.map forgetError := by
  obtain ⟨o1, o2, l1, l2, ht', n1, n2, hid, hh, hh', nb, nb', he, b1, b2, hpost⟩ := h
  rename_i text text' pre h h' body body' post level level'
  obtain ⟨line, id, title, as, cut⟩ := s
  obtain ⟨line', id', title', as', cut'⟩ := s'
  simp only at n1 n2 hid hh hh' b1 b2 hpost
  subst n1; subst n2; subst hid
  have ht : ¬ OneByteTail text := by
    cases hp with
    | closed hc => rw [o1] at hc; cases hc
    | opened hc hp =>
      rw [o1] at hc; cases hc
      cases hp with
      | markdown k1 k2 k3 k4 k5 =>
        rw [readLines_iff, File.lines_encode] at k1
        cases k1
        exact k2
  obtain ⟨s1, hs1⟩ := document_above (path := p) (pre := pre) (post := body ++ post) hh
  obtain ⟨s0, hs0⟩ := Md.sections_exist env.U p _ 0 post (Nat.le_refl _) he
  have hline : ∀ l ∈ post, IsLine l := by
    intro l hl
    exact ((splitLines_spec text).2.1 l (by rw [← lines_iff.1 l1]; simp [hl])).1
  obtain ⟨r0, -⟩ := Md.sections_run hs0 hline none
  generalize (Md.run env.U p 0 post none).reqs ++ (Md.finish none p (Md.run env.U p 0 post none).cur).1 = rs0 at r0
  have shifted : ∀ k, Sections env.U p k post (s0.map (shiftSection k)) := by
    intro k
    have := shift_sections k hs0
    rwa [Nat.zero_add] at this
  have docOf : ∀ {g : Str} {bd : List Str} {lv : Nat} {i t : Str} {at' : List Attr} {ct : Cut}, ReqHeading env.U g lv i t →
      (∀ l ∈ bd, NoHeading env.U l) → Body env.U p (pre.length + 2) bd at' ct →
      Document env.U p (pre ++ g :: (bd ++ post))
        (s1 ++ ⟨pre.length + 1, i, t, at', ct⟩ :: s0.map (shiftSection (pre.length + 2 + bd.length))) := by
    intro g bd lv i t at' ct k1 k2 k3
    exact hs1 g (bd ++ post) lv i t _ k1 (.cons k1 k2 he k3 (shifted _))
  have empty : s0 = [] → post = [] := by
    intro e
    subst e
    cases hs0
    rfl
  have keptOf : ∀ (s : Section) (k : Nat), (post = [] → s.cut = .no) → kept none (s1 ++ s :: s0.map (shiftSection k)) =
      s1 ++ s :: (kept none s0).map (shiftSection k) := by
    intro s k hc
    rw [kept_append _ _ _ (by simp)]
    cases hs : s0 with
    | nil =>
      have := hc (empty hs)
      simp [kept, this]
    | cons t ts =>
      rw [← shift_kept]
      rfl
  have d1 := docOf hh nb b1
  have d2 := docOf hh' nb' b2
  obtain ⟨rs, -, hrs⟩ := C76_complete env.U ⟨text, none⟩ p _ _ ht l1 d1
  rw [keptOf _ _ (fun e => (hpost e).1)] at hrs
  obtain ⟨ra, rb, rfl, ha, hb⟩ := areRequirements_split hrs
  have m1 : PathMeans env w .markdown p (ra ++ old :: rs0.map (shiftReq (pre.length + 2 + body.length))) _ :=
    .opened o1 (.markdown (.all text) ht l1 d1 (by
      rw [keptOf _ _ (fun e => (hpost e).1)]
      exact areRequirements_append ha (.cons ho (shift_areRequirements _ r0))))
  have m2 : PathMeans env w' .markdown p (ra ++ new :: rs0.map (shiftReq (pre.length + 2 + body'.length))) _ :=
    .opened o2 (.markdown (.all text') ht' l2 d2 (by
      rw [keptOf _ _ (fun e => (hpost e).2)]
      exact areRequirements_append ha (.cons hn (shift_areRequirements _ r0))))
  obtain ⟨rfl, rfl⟩ := pathMeans_unique hp m1
  rw [documentErrors_none, List.flatMap_append, List.flatMap_cons, List.flatMap_map] at m2 ⊢
  refine ⟨ra, _, _, s1.flatMap (Section.errors p), _, _, rfl, rfl, m2, ?_, ?_⟩
  · rw [Md.forgetReqs_shift, Md.forgetReqs_shift]
  · simp only [shift_errors, ← List.map_flatMap, Md.forgetErrors_shift]

/-! ## In a project -/

/-- What a file, or several, say before and after. -/
def Alike (old new : Requirement) (rs rs' : List Requirement) : Prop :=
  ∃ a b b', rs = a ++ old :: b ∧ rs' = a ++ new :: b' ∧ b.map forgetReq = b'.map forgetReq

open Rs in
theorem ownNames_three {f g h : Forest} (ho : OwnNames [f, g, h]) : (∀ id, MarkedBy f id → ¬ MarkedBy (after g h) id) ∧
    (∀ id, MarkedBy f id → ¬ MarkedBy h id) ∧ ∀ id, MarkedBy g id → ¬ MarkedBy h id := by
  unfold OwnNames at ho
  simp only [List.pairwise_cons, List.mem_cons, List.not_mem_nil, or_false, forall_eq_or_imp, forall_eq] at ho
  obtain ⟨⟨h1, h2⟩, h3, -⟩ := ho
  refine ⟨fun id hm hn => ?_, h2, h3⟩
  rcases markedBy_after.1 hn with hn | hn
  · exact h1 id hm hn
  · exact h2 id hm hn

open Rs in
/-- What a Rust file says in three pieces with names of their own. -/
theorem code_three {env : Env} {w : World} {p : Path} {t : Str} {f g h : Forest}
    (ho : env.os.openFile w p = .ok ⟨Utf8.encode t, none⟩) (hf : env.syn.parseFile t = .ok (after f (after g h)))
    (hn : OwnNames [f, g, h]) {reqs : List Requirement} {errs : List Error} :
    PathMeans env w .rust p reqs errs ↔ ∃ r1 r2 r3 e1 e2 e3, reqs = r1 ++ (r2 ++ r3) ∧ errs = e1 ++ (e2 ++ e3) ∧
      Says env.syn.debug p f r1 e1 ∧ Says env.syn.debug p g r2 e2 ∧ Says env.syn.debug p h r3 e3 := by
  obtain ⟨n1, n2, n3⟩ := ownNames_three hn
  constructor
  · intro hp
    cases hp with
    | closed hc => rw [ho] at hc; cases hc
    | opened hc hp =>
      rw [ho] at hc
      cases hc
      rw [← C81_file] at hp
      simp only [fileResult, (File.whole_ok _ _).2 rfl] at hp
      obtain ⟨en, h1, h2⟩ := parse_marks rfl hf hp
      rw [occs_after] at h1
      obtain ⟨es1, es2, errs1, errs2, rfl, rfl, h3, h4⟩ := allMarks_split h1
      obtain ⟨r1, r2, rfl, h5, h6⟩ := grouped_split (apart_of n1 h3 h4) h2
      rw [occs_after] at h4
      obtain ⟨es2, es3, errs2, errs3, rfl, rfl, h7, h8⟩ := allMarks_split h4
      obtain ⟨r2, r3, rfl, h9, h10⟩ := grouped_split (apart_of n3 h7 h8) h6
      exact ⟨_, _, _, _, _, _, rfl, rfl, ⟨_, h3, h5⟩, ⟨_, h7, h9⟩, ⟨_, h8, h10⟩⟩
  · rintro ⟨r1, r2, r3, e1, e2, e3, rfl, rfl, ⟨es1, a1, a2⟩, ⟨es2, b1, b2⟩, ⟨es3, c1, c2⟩⟩
    have h4 : AllMarks env.syn.debug p (occs p [] none (after g h)) (es2 ++ es3) (e2 ++ e3) := by
      rw [occs_after]; exact allMarks_append b1 c1
    refine .opened ho (.rust (.all t) (.marks rfl hf ?_ (grouped_append (apart_of n1 a1 h4) a2
      (grouped_append (apart_of n3 b1 c1) b2 c2))))
    rw [occs_after]
    exact allMarks_append a1 h4

theorem grouped_run {n : Requirement} {es : List Entry} (hr : IsRun n es) : Grouped [n] es := by
  refine ⟨[(n, es)], rfl, by simp, by simpa using hr, ?_⟩
  intro a r s b hab
  have := congrArg List.length hab
  simp at this
  omega

open Rs in
/-- **C141** A Rust file with a piece written anew. -/
theorem C141_code {env : Env} {w w' : World} {p : Path} {t t' : Str} {f g g' h h' : Forest} {es es' : List Entry}
    {es1 es1' : List Error} {old new : Requirement} (ho : env.os.openFile w p = .ok ⟨Utf8.encode t, none⟩)
    (ho' : env.os.openFile w' p = .ok ⟨Utf8.encode t', none⟩) (hf : env.syn.parseFile t = .ok (after f (after g h)))
    (hf' : env.syn.parseFile t' = .ok (after f (after g' h'))) (hs : SameCode env.syn.debug h h')
    (hn : OwnNames [f, g, h]) (hn' : OwnNames [f, g', h'])
    (hm : AllMarks env.syn.debug p (occs p [] none g) es es1) (hr : IsRun old es)
    (hm' : AllMarks env.syn.debug p (occs p [] none g') es' es1') (hr' : IsRun new es')
    {reqs : List Requirement} {errs : List Error} (hp : PathMeans env w .rust p reqs errs) :
    ∃ a b b' e1 e2 e2', reqs = a ++ old :: b ∧ errs = e1 ++ es1 ++ e2 ∧
      PathMeans env w' .rust p (a ++ new :: b') (e1 ++ es1' ++ e2') ∧ b.map forgetReq = b'.map forgetReq ∧
      e2.map forgetError = e2'.map forgetError := by
  obtain ⟨r1, r2, r3, e1, e2, e3, rfl, rfl, s1, s2, s3⟩ := (code_three ho hf hn).1 hp
  obtain ⟨r3', e3', s3', hr3, he3⟩ := sameCode_says (q := p) hs s3
  have h1 := (code_three ho hf hn).2 ⟨r1, [old], r3, e1, es1, e3, rfl, rfl, s1, ⟨es, hm, grouped_run hr⟩, s3⟩
  obtain ⟨h2, h3⟩ := pathMeans_unique hp h1
  refine ⟨r1, r3, r3', e1, e3, e3', h2, by rw [h3, List.append_assoc], ?_, hr3.symm, he3.symm⟩
  rw [List.append_assoc]
  exact (code_three ho' hf' hn').2 ⟨r1, [new], r3', e1, es1', e3', rfl, rfl, s1, ⟨es', hm', grouped_run hr'⟩, s3'⟩

theorem file_edited {env : Env} {w w' : World} {p : Path} {parser : ArtefactParser} {old new : Requirement}
    (h : FileEdited env w w' p parser old new) {reqs : List Requirement} {errs : List Error}
    (hp : PathMeans env w parser p reqs errs) : ∃ reqs' errs', PathMeans env w' parser p reqs' errs' ∧ Alike old new reqs reqs' := by
  cases h with
  | «section» h1 h2 h3 =>
    obtain ⟨a, b, b', e1, e2, e2', rfl, -, h4, h5, -⟩ := C141_file h1 h2 h3 hp
    exact ⟨_, _, h4, a, b, b', rfl, rfl, h5⟩
  | mono h1 h2 =>
    obtain ⟨rfl, rfl⟩ := pathMeans_unique hp h1
    exact ⟨_, _, h2, [], [], [], rfl, rfl, rfl⟩
  | code h1 h2 h3 h4 h5 h6 h7 h8 h9 h10 h11 =>
    obtain ⟨a, b, b', e1, e2, e2', rfl, -, h12, h13, -⟩ := C141_code h1 h2 h3 h4 h5 h6 h7 h8 h9 h10 h11 hp
    exact ⟨_, _, h12, a, b, b', rfl, rfl, h13⟩

theorem paths_edited {env : Env} {w w' : World} {parser : ArtefactParser} {p : Path} {old new : Requirement} {post : List Path}
    (h : FileEdited env w w' p parser old new) : ∀ {pre : List Path} {reqs : List Requirement} {errs : List Error},
    (∀ q ∈ pre ++ post, SameFile env w w' q) → PathsMean env w parser (pre ++ p :: post) reqs errs →
    ∃ reqs' errs', PathsMean env w' parser (pre ++ p :: post) reqs' errs' ∧ Alike old new reqs reqs'
  | [], reqs, errs, hs, hp => by
    cases hp with
    | @cons _ _ r rs e es h1 h2 =>
      obtain ⟨reqs', errs', h3, a, b, b', rfl, rfl, h4⟩ := file_edited h h1
      exact ⟨_, _, PathsMean.cons h3 (paths_same h2 (fun q hq => hs q (by simp [hq]))),
        a, b ++ rs, b' ++ rs, by simp, by simp, by simp [h4]⟩
  | q :: pre, reqs, errs, hs, hp => by
    cases hp with
    | @cons _ _ r rs e es h1 h2 =>
      obtain ⟨reqs', errs', h3, a, b, b', rfl, rfl, h4⟩ := paths_edited h (pre := pre) (fun q hq => hs q (by simp at hq ⊢; exact .inr hq)) h2
      exact ⟨_, _, PathsMean.cons (pathMeans_same (hs q (by simp)) h1) h3, r ++ a, b, b', by simp, by simp, h4⟩

theorem find_forget {b b' : List Requirement} (h : b.map forgetReq = b'.map forgetReq) (k : Str) :
    (b.find? (fun r => r.id = k)).map forgetReq = (b'.find? (fun r => r.id = k)).map forgetReq := by
  induction b generalizing b' with
  | nil =>
    cases b' with
    | nil => rfl
    | cons x b' => cases h
  | cons r b ih =>
    cases b' with
    | nil => cases h
    | cons r' b' =>
      simp only [List.map_cons, List.cons.injEq] at h
      have hid : (forgetReq r).id = (forgetReq r').id := congrArg Requirement.id h.1
      replace hid : r.id = r'.id := hid
      rw [List.find?_cons, List.find?_cons, hid]
      split
      · simp [h.1]
      · exact ih h.2

theorem collect_edited {old new : Requirement} (hid : new.id = old.id) {rs rs' : List Requirement} (h : Alike old new rs rs')
    (errs errs' : List Error) :
    Corresponds old new (collectRequirements rs .empty errs).1 (collectRequirements rs' .empty errs').1 := by
  intro k
  rw [(collect_eq ..).1, (collect_eq ..).1]
  obtain ⟨a, b, b', rfl, rfl, h⟩ := h
  rw [List.find?_append, List.find?_append, List.find?_cons, List.find?_cons, hid]
  cases a.find? (fun r => r.id = k) with
  | some r => simp [Rewritten]
  | none =>
    by_cases hk : old.id = k
    · simp [hk, Rewritten]
    · simp only [hk, decide_false, Option.none_or]
      have := find_forget h k
      cases hb : b.find? (fun r => r.id = k) with
      | none => rw [hb] at this; cases hb' : b'.find? (fun r => r.id = k) with
        | none => simp
        | some r => rw [hb'] at this; cases this
      | some r => rw [hb] at this; cases hb' : b'.find? (fun r => r.id = k) with
        | none => rw [hb'] at this; cases this
        | some r' =>
          rw [hb'] at this
          simp only [Option.map_some, Option.some.injEq] at this
          simp [Rewritten, this]

theorem makeArtefact_edited {env : Env} {w w' : World} (hg : SameMatches env w w') {base : Path} {ac : ArtefactConfig}
    {roots : BMap ArtefactId Bool} {old new : Requirement} (hid : new.id = old.id) {pre post : List Path} {p : Path}
    (hf : FilesOf env w ac base (pre ++ p :: post))
    (hp : FileEdited env w w' p ac.parser old new) (hs : ∀ q ∈ pre ++ post, SameFile env w w' q) {a : Artefact}
    (h : makeArtefact env w base roots ac = .ok a) :
    ∃ a', makeArtefact env w' base roots ac = .ok a' ∧ a'.id = a.id ∧
      a'.ignoreDerivedRequirements = a.ignoreDerivedRequirements ∧ a'.referenceWithTitle = a.referenceWithTitle ∧
      Corresponds old new a.requirements a'.requirements ∧
      ((∀ first again, Error.duplicateRequirement first again ∈ a.errors → first.id ≠ old.id) →
        a.requirements.get old.id = some old ∧ a'.requirements.get old.id = some new) ∧
      ∀ k r, a'.requirements.get k = some r → r.id = k := by
  obtain ⟨root, files, m, errs, h1, h2, rfl⟩ := makeArtefact_ok h
  obtain ⟨reqs, perrs, h3, rfl, h5⟩ := parseFromConfig_ok h2
  have h6 : PathsMean env w ac.parser (pre ++ p :: post) reqs perrs ∧ files = pre ++ p :: post := by
    obtain ⟨a1, a2⟩ := (parseArtefact_filesOf hf _).1 h3
    simp only [Prod.mk.injEq] at a2
    exact ⟨(pathsMean_iff _ _ _).2 ⟨a1, a2.2.1, a2.2.2⟩, a2.1⟩
  obtain ⟨h6, rfl⟩ := h6
  obtain ⟨reqs', errs', h7, h8⟩ := paths_edited hp hs h6
  have h9 := parseArtefact_iff.2 (.files (filesOf_same hg hf) h7)
  unfold makeArtefact parseFromConfig
  rw [h1, h9]
  simp only [orPanic, bind, Except.bind, pure, Except.pure]
  refine ⟨_, rfl, rfl, rfl, rfl, collect_edited hid h8 _ _, fun hd => ?_, fun k r hr => ?_⟩
  · obtain ⟨x, y, y', rfl, rfl, -⟩ := h8
    have hfresh : ∀ r ∈ x ++ y, r.id ≠ old.id := by
      refine fresh_of_no_duplicate fun f s hfs => hd f s ?_
      simp only [h5]
      split
      · exact List.mem_append.2 (.inl (List.mem_append.2 (.inr hfs)))
      · exact List.mem_append.2 (.inr hfs)
    simp only
    rw [(collect_eq ..).1, (collect_eq ..).1, List.find?_append, List.find?_append,
      List.find?_eq_none.2 (fun r hr => by simpa using hfresh r (by simp [hr]))]
    simp [hid]
  simp only [(collect_eq ..).1] at hr
  simpa using List.find?_some hr

/-- **C141** The project with a section written anew is the project before but for that requirement and for places in the
same artefact. -/
theorem C141_project {env : Env} {w w' : World} {base : Path} {config : Config} {x : ArtefactId} {old new : Requirement}
    (hm : ProjectEdited env w w' base config x old new) (hid : new.id = old.id) {c : Controller}
    (h : Controller.new env w config base = .ok c) :
    ∃ c', Controller.new env w' config base = .ok c' ∧ GraphRewritten c.graph c'.graph x old new ∧ c'.jobs = c.jobs := by
  obtain ⟨before, ac, aft, pre, p, post, e1, rfl, e3, e4, e5, e6, e7⟩ := hm.artefact
  obtain ⟨roots, h1, h2, h3, h4, h5, h6, h7⟩ := new_ok h
  obtain ⟨hk, hr⟩ := C18_consistent h
  have hsame : ∀ b ∈ before ++ aft, makeArtefact env w' base roots b = makeArtefact env w base roots b := by
    intro b hb
    unfold makeArtefact parseFromConfig
    rw [parseArtefact_congr hm.matching (e7 b hb)]
  rw [e1] at h2
  obtain ⟨art, g1, g2, g3⟩ := makeArtefacts_one e3 hsame h2
  obtain ⟨art', g4, g5, g6, g7, g8, g8', g9⟩ := makeArtefact_edited hm.matching hid e4 e5 e6 g1
  obtain ⟨m', k1, k2⟩ := g3 _ g4
  have hadd : GraphRewritten c.graph ⟨m', config.relations⟩ ac.id old new :=
    ⟨h3.symm, fun a ha => by simp only; rw [k2, if_neg ha], ⟨art, art', g2, by simp only; rw [k2, if_pos rfl], g6, g7, g8, g8'⟩⟩
  have hk' : Keyed ⟨m', config.relations⟩ := by
    constructor
    · intro a b hb
      simp only [k2] at hb
      by_cases ha : a = ac.id
      · rw [if_pos ha] at hb
        cases hb
        rw [g5, ha]
        exact hk.artefact _ art g2
      · rw [if_neg ha] at hb
        exact hk.artefact _ _ hb
    · intro a b hb k r hr
      simp only [k2] at hb
      by_cases ha : a = ac.id
      · rw [if_pos ha] at hb
        cases hb
        exact g9 k r hr
      · rw [if_neg ha] at hb
        exact hk.requirement _ _ hb _ _ hr
  have hr' : RelationsExist ⟨m', config.relations⟩ := by
    have key : ∀ a, (∃ art, c.graph.artefacts.get a = some art) → ∃ art, m'.get a = some art := by
      intro a ha
      rw [k2]
      by_cases e : a = ac.id
      · rw [if_pos e]; exact ⟨_, rfl⟩
      · rw [if_neg e]; exact ha
    intro rel hrel
    simp only [← h3] at hrel
    exact ⟨key _ (hr rel hrel).1, fun a ha => key a ((hr rel hrel).2 a ha)⟩
  obtain ⟨tg', ht'⟩ := C10_no_panic hk' hr'
  refine ⟨⟨base, ⟨m', config.relations⟩, tg', config.jobs.getD .empty, config.defaultJobs.getD []⟩, ?_, hadd, h6.symm⟩
  unfold Controller.new
  rw [h1]
  simp only [bind, Except.bind]
  rw [e1, k1]
  simp only
  rw [ht']
  rfl

theorem idsIn_refl (refs : List Reference) : IdsIn refs refs := fun ref h => ⟨ref, h, rfl⟩

theorem idsIn_forget {a b : List Reference} (h : a.map (moveRef nowhere) = b.map (moveRef nowhere)) : IdsIn a b := by
  intro ref href
  have : moveRef nowhere ref ∈ b.map (moveRef nowhere) := h ▸ List.mem_map_of_mem href
  obtain ⟨ref', h1, h2⟩ := List.mem_map.1 this
  have h3 : (moveRef nowhere ref').id = (moveRef nowhere ref).id := congrArg Reference.id h2
  exact ⟨ref', h1, h3⟩

theorem rewritten_more {g g' : Graph} {x : ArtefactId} {old new : Requirement} (h : GraphRewritten g g' x old new)
    (hc : IdsIn old.covers new.covers) (hd : IdsIn old.depends new.depends) : MoreReferences g g' := by
  obtain ⟨art, art', h1, h2, h3, h4, h5, -⟩ := h.artefact
  refine ⟨h.relations, fun a art0 ha => ?_, fun a ha => ?_⟩
  · by_cases e : a = x
    · subst e
      rw [h1] at ha; cases ha
      refine ⟨art', h2, h3, fun id r hr => ?_, fun id hn => (h5 id).1.1 hn⟩
      obtain ⟨r', hr', h6⟩ := (h5 id).2 r hr
      refine ⟨r', hr', ?_⟩
      rcases h6 with h6 | ⟨rfl, rfl⟩
      · exact ⟨idsIn_forget (congrArg Requirement.covers h6), idsIn_forget (congrArg Requirement.depends h6)⟩
      · exact ⟨hc, hd⟩
    · exact ⟨art0, by rw [h.others a e, ha], rfl, fun id r hr => ⟨r, hr, idsIn_refl _, idsIn_refl _⟩, fun id hn => hn⟩
  · by_cases e : a = x
    · subst e; rw [h1] at ha; cases ha
    · rw [h.others a e, ha]

theorem rewritten_less {g g' : Graph} {x : ArtefactId} {old new : Requirement} (h : GraphRewritten g g' x old new)
    (hc : IdsIn new.covers old.covers) (hd : IdsIn new.depends old.depends) : MoreReferences g' g := by
  obtain ⟨art, art', h1, h2, h3, h4, h5, -⟩ := h.artefact
  refine ⟨h.relations.symm, fun a art0 ha => ?_, fun a ha => ?_⟩
  · by_cases e : a = x
    · subst e
      rw [h2] at ha; cases ha
      refine ⟨art, h1, h3.symm, fun id r' hr' => ?_, fun id hn => (h5 id).1.2 hn⟩
      cases hr : art.requirements.get id with
      | none => rw [(h5 id).1.1 hr] at hr'; cases hr'
      | some r =>
        obtain ⟨r2, hr2, h6⟩ := (h5 id).2 r hr
        rw [hr'] at hr2; cases hr2
        refine ⟨r, rfl, ?_⟩
        rcases h6 with h6 | ⟨rfl, rfl⟩
        · exact ⟨idsIn_forget (congrArg Requirement.covers h6).symm, idsIn_forget (congrArg Requirement.depends h6).symm⟩
        · exact ⟨hc, hd⟩
    · rw [h.others a e] at ha
      exact ⟨art0, ha, rfl, fun id r hr => ⟨r, hr, idsIn_refl _, idsIn_refl _⟩, fun id hn => hn⟩
  · by_cases e : a = x
    · subst e; rw [h2] at ha; cases ha
    · rw [← h.others a e, ha]

/-- **C141** A section written anew that refers at least to all it referred to takes nothing away: what was covered is
covered, nothing becomes uncovered or derived. -/
theorem C141_more {env : Env} {w w' : World} {base : Path} {config : Config} {x : ArtefactId} {old new : Requirement}
    (hm : ProjectEdited env w w' base config x old new) (hid : new.id = old.id) (hc : IdsIn old.covers new.covers)
    (hd : IdsIn old.depends new.depends) {c : Controller} (h : Controller.new env w config base = .ok c) :
    ∃ c', Controller.new env w' config base = .ok c' ∧
      (∀ (i : Nat) (tr tr' : TracedRelation), c.tracedGraph.tracedRelations[i]? = some tr →
        c'.tracedGraph.tracedRelations[i]? = some tr' →
        (∀ cv ∈ tr.covered, ∃ cv' ∈ tr'.covered, cv'.upper = cv.upper ∧ cv'.lower = cv.lower ∧ cv'.direction = cv.direction) ∧
        ∀ id ∈ tr'.uncovered, id ∈ tr.uncovered) ∧
      ∀ a ids', c'.tracedGraph.derived.get a = some ids' →
        ∃ ids, c.tracedGraph.derived.get a = some ids ∧ ∀ id ∈ ids', id ∈ ids := by
  obtain ⟨c', h', hg, -⟩ := C141_project hm hid h
  obtain ⟨tg', t1, t2, t3⟩ := C73_references_help (C18_consistent h).1 (C18_consistent h').1 (rewritten_more hg hc hd) (C18_no_panic h).1
  rw [(C18_no_panic h').1] at t1
  cases t1
  exact ⟨c', h', t2, t3⟩

/-- **C141** A section written anew that refers to the same requirements as before, whatever else it says, changes nothing
about coverage, uncovered and derived requirements. -/
theorem C141_same {env : Env} {w w' : World} {base : Path} {config : Config} {x : ArtefactId} {old new : Requirement}
    (hm : ProjectEdited env w w' base config x old new) (hid : new.id = old.id) (hc : IdsIn old.covers new.covers)
    (hd : IdsIn old.depends new.depends) (hc' : IdsIn new.covers old.covers) (hd' : IdsIn new.depends old.depends)
    {c : Controller} (h : Controller.new env w config base = .ok c) :
    ∃ c', Controller.new env w' config base = .ok c' ∧
      c'.tracedGraph.tracedRelations.map (fun tr => (tr.relation, tr.uncovered)) =
        c.tracedGraph.tracedRelations.map (fun tr => (tr.relation, tr.uncovered)) ∧
      c'.tracedGraph.derived = c.tracedGraph.derived ∧
      ∀ (i : Nat) (tr tr' : TracedRelation), c.tracedGraph.tracedRelations[i]? = some tr →
        c'.tracedGraph.tracedRelations[i]? = some tr' → ∀ up low d,
        (∃ cv ∈ tr.covered, cv.upper = up ∧ cv.lower = low ∧ cv.direction = d) ↔
        (∃ cv ∈ tr'.covered, cv.upper = up ∧ cv.lower = low ∧ cv.direction = d) := by
  obtain ⟨c', h', hg, -⟩ := C141_project hm hid h
  exact ⟨c', h', C74_ids_only (C18_consistent h).1 (C18_consistent h').1 (rewritten_more hg hc hd) (rewritten_less hg hc' hd')
    (C18_no_panic h).1 (C18_no_panic h').1⟩

namespace EditedExample

open CtrlExample TitlesExample

/-- The first section before and after, and the second one, which moves down. -/
def before : Str := c!"Intro\n# DES_A: d\nCovers: REQ_A\n# DES_B: e\nCovers: REQ_B\n"
def after : Str := c!"Intro\n# DES_A: other\nComment: x\nCovers:\n* REQ_B\n* REQ_A\n\n# DES_B: e\nCovers: REQ_B\n"

def reqs : Str := c!"# REQ_A: a\n# REQ_B: b\n"
def requirements : ArtefactConfig := ⟨c!"REQ", [c!"req.md"], .markdown, none, none⟩
def design : ArtefactConfig := ⟨c!"DES", [c!"des.md"], .markdown, none, none⟩
def config : Config := ⟨none, [requirements, design], [⟨c!"REQ", [c!"DES"]⟩], none, none⟩
def e : Env := env .nil config

def first : World := world [(c!"p/req.md", reqs), (c!"p/des.md", before)]
def second : World := world [(c!"p/req.md", reqs), (c!"p/des.md", after)]

def at' (n : Nat) : Location := lineOf c!"p/des.md" n

def old : Section := ⟨2, c!"DES_A", c!"d", [⟨3, c!"Covers", .refs [⟨c!"REQ_A", none, at' 3⟩]⟩], .no⟩
def new : Section := ⟨2, c!"DES_A", c!"other", [⟨3, c!"Comment", .text c!"x"⟩,
  ⟨4, c!"Covers", .refs [⟨c!"REQ_B", none, at' 5⟩, ⟨c!"REQ_A", none, at' 6⟩]⟩], .no⟩

def oldReq : Requirement := ⟨c!"DES_A", some c!"d", at' 2, [⟨c!"REQ_A", none, at' 3⟩], [], [], .empty⟩
def newReq : Requirement := ⟨c!"DES_A", some c!"other", at' 2, [⟨c!"REQ_B", none, at' 5⟩, ⟨c!"REQ_A", none, at' 6⟩], [], [],
  .ofList [(c!"Comment", c!"x")]⟩

theorem edited : SectionEdited e first second c!"p/des.md" old new := by
  have a1 : AttrLine c!"Covers: REQ_A\n" c!"Covers" c!"REQ_A" := DocExample.attr (SectionsExample.line (by decide)) (by decide +kernel)
  have a2 : AttrLine c!"Comment: x\n" c!"Comment" c!"x" := DocExample.attr (SectionsExample.line (by decide)) (by decide +kernel)
  have a3 : AttrLine c!"Covers:\n" c!"Covers" [] := DocExample.attr (SectionsExample.line (by decide)) (by decide +kernel)
  have r1 : RefLine .ascii c!"* REQ_B\n" c!"REQ_B" none :=
    (Md.refParts_iff (DocExample.attr.isLine (SectionsExample.line (by decide)))).1 (by decide +kernel)
  have r2 : RefLine .ascii c!"* REQ_A\n" c!"REQ_A" none :=
    (Md.refParts_iff (DocExample.attr.isLine (SectionsExample.line (by decide)))).1 (by decide +kernel)
  refine .edited (text := before) (text' := after) (pre := [c!"Intro\n"]) (h := c!"# DES_A: d\n") (h' := c!"# DES_A: other\n")
    (body := [c!"Covers: REQ_A\n"]) (body' := [c!"Comment: x\n", c!"Covers:\n", c!"* REQ_B\n", c!"* REQ_A\n", c!"\n"])
    (post := [c!"# DES_B: e\n", c!"Covers: REQ_B\n"]) (level := 1) (level' := 1) (by decide +kernel) (by decide +kernel)
    (lines_iff.2 (by decide +kernel)) (lines_iff.2 (by decide +kernel)) ?_ rfl rfl rfl ?_ ?_ ?_ ?_ ?_ ?_ ?_ ?_
  · rintro ⟨pre, c, he, hc, -⟩
    have : after.getLast? = some c := by rw [he]; simp
    exact hc (by simpa [after] using this.symm)
  · exact DocExample.head (raw := c!"d") (SectionsExample.line (by decide)) (by decide +kernel)
  · exact DocExample.head (raw := c!"other") (SectionsExample.line (by decide)) (by decide +kernel)
  · intro l hl
    refine DocExample.noHead (SectionsExample.line ?_) ?_
    · revert l; decide
    · revert l; decide +kernel
  · intro l hl
    refine DocExample.noHead (SectionsExample.line ?_) ?_
    · revert l; decide
    · revert l; decide +kernel
  · exact .inr ⟨_, _, 1, _, _, rfl, DocExample.head (id := c!"DES_B") (raw := c!"e") (SectionsExample.line (by decide)) (by decide +kernel)⟩
  · refine .attrs (.inr ⟨_, _, _, _, rfl, a1⟩) (.refs (items := []) (rest := []) ?_ (.inl rfl) (.nil _))
    exact ⟨_, c!"REQ_A", [c!"REQ_A"], [c!"REQ_A"], [], a1, .inl rfl, trimsTo_iff.2 (by decide +kernel), .one _ (by decide),
      .id (trimsTo_iff.2 (by decide +kernel)) (by decide) .nil, .nil _, rfl⟩
  · refine .attrs (.inr ⟨_, _, _, _, rfl, a2⟩) (.text (more := []) a2 (by decide) (by decide) (by simp) (.inr ⟨_, _, _, _, rfl, a3⟩)
      (.refsBlank (items := [c!"* REQ_B\n", c!"* REQ_A\n"]) (rest := []) ?_ (fun c hc => by simp at hc; subst hc; decide) (.nil _)))
    exact ⟨_, [], [[]], [], [⟨c!"REQ_B", none, at' 5⟩, ⟨c!"REQ_A", none, at' 6⟩], a3, .inl rfl, trimsTo_iff.2 (by decide +kernel),
      .one _ (by decide), .blank (by simp [Blank]) .nil, .cons (by decide) r1 (.cons (by decide) r2 (.nil _)), rfl⟩
  · intro h; cases h

theorem file : FileEdited e first second c!"p/des.md" .markdown oldReq newReq := by
  refine .section edited ⟨rfl, rfl, rfl, rfl, rfl, rfl, fun a => ?_⟩ ⟨rfl, rfl, rfl, rfl, rfl, rfl, fun a => ?_⟩
  · by_cases h : a = c!"Covers"
    · subst h; rfl
    · have : lastOf old.attrs a = none := by simp [lastOf, old, Ne.symm h]
      rw [this]; rfl
  · by_cases h : a = c!"Covers"
    · subst h; rfl
    · by_cases h' : a = c!"Comment"
      · subst h'; rfl
      · have : lastOf new.attrs a = none := by simp [lastOf, new, Ne.symm h, Ne.symm h']
        rw [this]
        show newReq.attributes.get a = none
        have e1 : newReq.attributes = BMap.empty.insert c!"Comment" c!"x" := rfl
        rw [e1, BMap.get_insert, if_neg h']; rfl

theorem project : ProjectEdited e first second c!"p" config c!"DES" oldReq newReq := by
  refine ⟨fun p => rfl, [requirements], design, [], [], c!"p/des.md", [], rfl, rfl, by simp, ?_, file, by simp, ?_⟩
  · exact .inr ⟨by decide, c!"des.md", rfl, by decide⟩
  · simp only [List.append_nil, List.mem_singleton, forall_eq]
    rintro fs (⟨h, -⟩ | ⟨-, p, h, rfl⟩) q hq
    · cases h
    · cases h
      rw [List.mem_singleton.1 hq]
      unfold SameFile
      decide +kernel

/-- The hypotheses of `C141_more` hold, and what is read. -/
example : ∃ c c', Controller.new e first config c!"p" = .ok c ∧ Controller.new e second config c!"p" = .ok c' ∧
    GraphRewritten c.graph c'.graph c!"DES" oldReq newReq ∧ IdsIn oldReq.covers newReq.covers ∧ IdsIn oldReq.depends newReq.depends := by
  have key : (Controller.new e first config c!"p").toOption.isSome = true := by decide +kernel
  cases h : Controller.new e first config c!"p" with
  | error x => rw [h] at key; cases key
  | ok c =>
    obtain ⟨c', h1, h2, -⟩ := C141_project project rfl h
    refine ⟨c, c', rfl, h1, h2, ?_, ?_⟩
    · intro ref hr
      rw [List.mem_singleton.1 hr]
      exact ⟨⟨c!"REQ_A", none, at' 6⟩, by simp [newReq], rfl⟩
    · intro ref hr; cases hr

/-- The places of the coverages before and after: those of the section below move. -/
example : (Controller.new e first config c!"p").toOption.map (fun c => c.tracedGraph.tracedRelations.map fun tr =>
      tr.covered.map fun cv => (cv.upper, cv.lower, cv.location)) =
      some [[(c!"REQ_A", c!"DES_A", at' 3), (c!"REQ_B", c!"DES_B", at' 5)]] ∧
    (Controller.new e second config c!"p").toOption.map (fun c => c.tracedGraph.tracedRelations.map fun tr =>
      tr.covered.map fun cv => (cv.upper, cv.lower, cv.location)) =
      some [[(c!"REQ_A", c!"DES_A", at' 6), (c!"REQ_B", c!"DES_A", at' 5), (c!"REQ_B", c!"DES_B", at' 9)]] := by
  constructor <;> decide +kernel

end EditedExample

namespace EditedCodeExample

open Rs

/-- A function with two marks, the second one without arguments. -/
def longer (line : Nat) : Forest := .item (.fn c!"g") line 3 (.mac (RustExample.mark (line + 1)
  [RustExample.ident c!"REQ_C" (line + 1) 29]) (.mac (RustExample.mark (line + 2) []) .nil)) .nil

/-- In the second text the function in the middle is another one. -/
def syn : Syn where
  parseFile t := .ok (after (ItemsExample.item c!"f" c!"REQ_A" 1) (if t = c!"1"
    then after (ItemsExample.item c!"g" c!"REQ_B" 4) (ItemsExample.item c!"h" c!"REQ_C" 7)
    else after (longer 4) (ItemsExample.item c!"h" c!"REQ_C" 8)))
  debug _ := c!"?"

def e : Env := { CtrlExample.env .nil EditedExample.config with syn := syn }
def world (t : Str) : World := CtrlExample.world [(c!"p/a.rs", t)]

def req (id : Str) : Requirement := ⟨c!"g", none, ⟨c!"p/a.rs", some (.lineAndColumn 4 3)⟩,
  [⟨id, none, ⟨c!"p/a.rs", some (.lineAndColumn 5 8)⟩⟩], [], [], .empty⟩

theorem marked_longer {s : Str} {l : Nat} (h : MarkedBy (longer l) s) : s = c!"g" := by
  obtain ⟨o, ho, -, hj⟩ := h
  simp only [longer, occs, List.append_nil, List.nil_append, List.mem_cons, List.not_mem_nil, or_false] at ho
  rcases ho with rfl | rfl <;> (cases hj; rfl)

theorem own {g : Forest} (hg : ∀ s, MarkedBy g s → s = c!"g") (l : Nat) :
    OwnNames [ItemsExample.item c!"f" c!"REQ_A" 1, g, ItemsExample.item c!"h" c!"REQ_C" l] := by
  refine .cons ?_ (.cons ?_ (.cons (by simp) .nil))
  · intro x hx id h1 h2
    simp only [List.mem_cons, List.not_mem_nil, or_false] at hx
    rcases hx with rfl | rfl
    · exact absurd ((ItemsExample.marked h1).symm.trans (hg _ h2)) (by decide)
    · exact absurd ((ItemsExample.marked h1).symm.trans (ItemsExample.marked h2)) (by decide)
  · intro x hx id h1 h2
    rw [List.mem_singleton.1 hx] at h2
    exact absurd ((hg _ h1).symm.trans (ItemsExample.marked h2)) (by decide)

theorem edited : FileEdited e (world c!"1") (world c!"2") c!"p/a.rs" .rust (req c!"REQ_B") (req c!"REQ_C") := by
  refine .code (t := c!"1") (t' := c!"2") (f := ItemsExample.item c!"f" c!"REQ_A" 1) (g := ItemsExample.item c!"g" c!"REQ_B" 4)
    (g' := longer 4) (h := ItemsExample.item c!"h" c!"REQ_C" 7) (h' := ItemsExample.item c!"h" c!"REQ_C" 8)
    (es := [⟨[c!"g"], some ⟨c!"p/a.rs", some (.lineAndColumn 4 3)⟩, ⟨c!"REQ_B", none, ⟨c!"p/a.rs", some (.lineAndColumn 5 8)⟩⟩⟩])
    (es' := [⟨[c!"g"], some ⟨c!"p/a.rs", some (.lineAndColumn 4 3)⟩, ⟨c!"REQ_C", none, ⟨c!"p/a.rs", some (.lineAndColumn 5 8)⟩⟩⟩])
    (errs := []) (errs' := [.format ⟨c!"p/a.rs", some (.lineAndColumn 6 8)⟩ c!"requirement_covered!() has no arguments"])
    (by decide +kernel) (by decide +kernel) rfl rfl (.item (.mac ⟨rfl, rfl, fun _ _ => rfl⟩ .nil) .nil)
    (own (fun _ => ItemsExample.marked) _) (own (fun _ => marked_longer) _)
    (.good rfl (.inl ⟨_, rfl, rfl, rfl, rfl⟩) .nil) ⟨rfl, ?_, ⟨_, _, rfl, rfl⟩, rfl, rfl, rfl, rfl⟩
    (.good rfl (.inl ⟨_, rfl, rfl, rfl, rfl⟩) (.bad (line := 6) (column := 8) rfl (.nothing rfl) .nil))
    ⟨rfl, ?_, ⟨_, _, rfl, rfl⟩, rfl, rfl, rfl, rfl⟩ <;>
  · simp only [List.mem_singleton, forall_eq]
    exact .one _

end EditedCodeExample

end Reqtrace
