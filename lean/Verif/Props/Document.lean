import Verif.Props.Markdown2
import Verif.Spec.Document

/-!
# Property C76: the complete meaning of a Markdown document
-/

set_option linter.unusedSimpArgs false

namespace Reqtrace

open Spec Md

namespace Md

/-! ## Attributes of a requirement -/

theorem lastOf_nil (a : Str) : lastOf [] a = none := rfl

theorem lastOf_append (as : List Attr) (x : Attr) (a : Str) :
    lastOf (as ++ [x]) a = if x.name = a then some x.value else lastOf as a := by
  unfold lastOf
  by_cases h : x.name = a
  · simp [h]
  · simp [h]

/-- Lists of references are named `Covers` or `Depends`, texts are not. -/
def Fits (a : Str) : Value → Prop
  | .text _ => a ≠ c!"Covers" ∧ a ≠ c!"Depends"
  | .refs _ => a = c!"Covers" ∨ a = c!"Depends"

/-- All attributes have the right kind of value. -/
def Sorted (as : List Attr) : Prop := ∀ x ∈ as, Fits x.name x.value

theorem Sorted.lastOf {as : List Attr} (h : Sorted as) {a : Str} {v : Value} (hv : lastOf as a = some v) :
    Fits a v := by
  unfold Spec.lastOf at hv
  cases hx : (as.filter (fun a' => a'.name = a)).getLast? with
  | none => simp [hx] at hv
  | some x =>
    simp [hx] at hv
    have hm := List.mem_of_getLast? hx
    rw [List.mem_filter] at hm
    obtain ⟨h1, h2⟩ := hm
    have h2 : x.name = a := by simpa using h2
    have := h x h1
    rw [hv, h2] at this
    exact this

/-- The requirement is that of a section with these attributes. -/
def Rep (path : Path) (line : Nat) (id title : Str) (as : List Attr) (r : Requirement) : Prop :=
  IsRequirement path ⟨line, id, title, as, .no⟩ r ∧ Sorted as

theorem rep_given {path : Path} {line : Nat} {id title : Str} {as : List Attr} {r : Requirement}
    (h : Rep path line id title as r) (a : Str) : recorded r a = alreadyGiven as a := by
  obtain ⟨h, hs⟩ := h
  have hc := h.covers
  have hd := h.depends
  have ha := h.attributes a
  simp only at hc hd ha
  have hso := fun v => hs.lastOf (a := a) (v := v)
  unfold recorded alreadyGiven
  by_cases e1 : a = attrCovers
  · subst e1
    rw [if_pos rfl, hc]
    change (!(match lastOf as attrCovers with | some (.refs rs) => rs | _ => []).isEmpty) = _
    cases hv : lastOf as attrCovers with
    | none => rfl
    | some v =>
      cases v with
      | text s => exact absurd rfl (hso _ hv).1
      | refs rs => rfl
  · rw [if_neg e1]
    by_cases e2 : a = attrDepends
    · subst e2
      rw [if_pos rfl, hd]
      change (!(match lastOf as attrDepends with | some (.refs rs) => rs | _ => []).isEmpty) = _
      cases hv : lastOf as attrDepends with
      | none => rfl
      | some v =>
        cases v with
        | text s => exact absurd rfl (hso _ hv).2
        | refs rs => rfl
    · rw [if_neg e2]
      unfold BMap.contains
      rw [ha]
      cases hv : lastOf as a with
      | none => rfl
      | some v =>
        cases v with
        | text s => rfl
        | refs rs => exact (hso _ hv).elim (absurd · e1) (absurd · e2)

theorem rep_text {path : Path} {line : Nat} {id title : Str} {as : List Attr} {r : Requirement}
    (h : Rep path line id title as r) (n : Nat) (a v : Str) (h1 : a ≠ c!"Covers") (h2 : a ≠ c!"Depends") :
    Rep path line id title (as ++ [⟨n, a, .text v⟩]) { r with attributes := r.attributes.insert a v } := by
  obtain ⟨h, hs⟩ := h
  refine ⟨⟨h.id, h.title, h.location, ?_, ?_, h.tags, ?_⟩, ?_⟩
  · simp only [lastOf_append, if_neg h1]
    exact h.covers
  · simp only [lastOf_append, if_neg h2]
    exact h.depends
  · intro b
    simp only [lastOf_append, BMap.get_insert]
    by_cases hb : b = a
    · simp [hb]
    · have hb' : ¬ a = b := fun e => hb e.symm
      simp only [hb, hb', if_false]
      exact h.attributes b
  · intro x hx
    rcases List.mem_append.1 hx with hx | hx
    · exact hs x hx
    · simp at hx
      subst hx
      exact ⟨h1, h2⟩

theorem rep_refs {path : Path} {line : Nat} {id title : Str} {as : List Attr} {r : Requirement}
    (h : Rep path line id title as r) (n : Nat) (a : Str) (v : List Reference)
    (h1 : a = c!"Covers" ∨ a = c!"Depends") :
    Rep path line id title (as ++ [⟨n, a, .refs v⟩]) (commit (.collectRefLink a v) r) := by
  obtain ⟨h, hs⟩ := h
  have hne : c!"Depends" ≠ c!"Covers" := by decide
  have hne' : c!"Covers" ≠ c!"Depends" := by decide
  have hattr : ∀ b, r.attributes.get b = match lastOf (as ++ [⟨n, a, .refs v⟩]) b with
      | some (.text v) => some v
      | _ => none := by
    intro b
    rw [lastOf_append]
    by_cases hb : a = b
    · subst hb
      rw [if_pos rfl]
      have := h.attributes a
      rw [this]
      simp only
      cases hv : lastOf as a with
      | none => rfl
      | some w =>
        cases w with
        | text s =>
          obtain ⟨g1, g2⟩ := hs.lastOf hv
          exact h1.elim (absurd · g1) (absurd · g2)
        | refs rs => rfl
    · rw [if_neg hb]
      exact h.attributes b
  have hsort : Sorted (as ++ [⟨n, a, .refs v⟩]) := by
    intro x hx
    rcases List.mem_append.1 hx with hx | hx
    · exact hs x hx
    · simp at hx
      subst hx
      exact h1
  rcases h1 with rfl | rfl
  · refine ⟨⟨h.id, h.title, h.location, ?_, ?_, h.tags, hattr⟩, hsort⟩
    · simp only [lastOf_append]
      rfl
    · simp only [lastOf_append, if_neg hne']
      exact h.depends
  · refine ⟨⟨h.id, h.title, h.location, ?_, ?_, h.tags, hattr⟩, hsort⟩
    · simp only [lastOf_append, if_neg hne]
      exact h.covers
    · simp only [lastOf_append]
      rfl

/-! ## Pieces of a body -/

theorem run_idleState (U : Unicode) (path : Path) (ls : List Str) (n : Nat) (r : Requirement)
    (hl : ∀ l ∈ ls, IsLine l ∧ NoHeading U l) :
    run U path n ls (some (.lookForReq, r)) = ⟨[], [], some (.lookForReq, r)⟩ := by
  induction ls generalizing n with
  | nil => rfl
  | cons l ls ih =>
    have h := hl l (by simp)
    rw [run_some ((reqParts_none_iff h.1).2 h.2)]
    have hs : step U (.newWithLineNo path n) .lookForReq r l = (.lookForReq, r, []) := by
      unfold step
      split
      · rfl
      · split <;> rfl
    rw [hs]
    simp only [ih (n + 1) (fun x hx => hl x (by simp [hx])), List.append_nil]

theorem run_text (U : Unicode) (path : Path) (ls : List Str) (n : Nat) (r : Requirement) (a v : Str)
    (hl : ∀ l ∈ ls, IsLine l) (h : ∀ m ∈ ls, m.head? ≠ some '#' ∧ ∀ a v, ¬ AttrLine m a v) :
    run U path n ls (some (.collectTextAttr a v, r)) =
      ⟨[], [], some (.collectTextAttr a (v ++ ls.flatten), r)⟩ := by
  induction ls generalizing n v with
  | nil => simp [run]
  | cons l ls ih =>
    have hh := h l (by simp)
    rw [run_some (headless hh.1)]
    have hs : step U (.newWithLineNo path n) (.collectTextAttr a v) r l =
        (.collectTextAttr a (v ++ l), r, []) := by
      unfold step
      split
      · next h => subst h; rfl
      · rw [if_neg hh.1]
        have := (attrParts_none_iff (hl l (by simp))).2 hh.2
        unfold textStep
        simp [this]
    rw [hs]
    simp only [ih (n + 1) (v ++ l) (fun x hx => hl x (by simp [hx])) (fun x hx => h x (by simp [hx]))]
    simp

theorem run_refItems {U : Unicode} {path : Path} {ls : List Str} {n : Nat} {refs : List Reference}
    (h : RefItems U path n ls refs) (r : Requirement) (a : Str) (v : List Reference) (hl : ∀ l ∈ ls, IsLine l) :
    run U path n ls (some (.collectRefLink a v, r)) = ⟨[], [], some (.collectRefLink a (v ++ refs), r)⟩ := by
  induction h generalizing v with
  | nil n => simp [run]
  | @cons n l ls id title refs h1 h2 h3 ih =>
    rw [run_some (headless h1)]
    have hp := (refParts_iff (hl l (by simp))).2 h2
    have hnl : l ≠ ['\n'] := by
      rintro rfl
      obtain ⟨pre, s, e, ⟨hid, w, tail, g1, g2, g3, g4⟩, _⟩ := h2
      have hm : ∀ c ∈ id, c ∈ ['\n'] := by
        intro c hc
        rw [e, g3]
        simp [hc]
      have hw := hid.head_not_ws
      obtain ⟨c, t, rfl, -, -, -⟩ := hid
      have := hw c t rfl
      have hc := hm c (by simp)
      simp at hc
      subst hc
      exact absurd this.1 (by decide)
    have hs : step U (.newWithLineNo path n) (.collectRefLink a v) r l =
        (.collectRefLink a (v ++ [⟨id, title, lineOf path n⟩]), r, []) := by
      unfold step
      rw [if_neg hnl, if_neg h1]
      unfold textStep
      simp only [hp]
      rfl
    rw [hs]
    simp only [ih (v ++ [⟨id, title, lineOf path n⟩]) (fun x hx => hl x (by simp [hx]))]
    simp

theorem splitOnChar_parts {s : Str} {ps : List Str} (h : Parts s ps) : splitOnChar ',' s = ps := by
  have clean : ∀ (p : Str), ',' ∉ p → splitOnChar ',' p = [p] := by
    intro p hp
    induction p with
    | nil => rfl
    | cons c p ih =>
      have hc : ¬ c = ',' := fun e => hp (e ▸ List.mem_cons_self)
      rw [splitOnChar, ih (fun h => hp (List.mem_cons_of_mem _ h))]
      simp [hc]
  have more : ∀ (p s : Str), ',' ∉ p → splitOnChar ',' (p ++ ',' :: s) = p :: splitOnChar ',' s := by
    intro p s hp
    induction p with
    | nil => simp [splitOnChar]
    | cons c p ih =>
      have hc : ¬ c = ',' := fun e => hp (e ▸ List.mem_cons_self)
      rw [List.cons_append, splitOnChar, ih (fun h => hp (List.mem_cons_of_mem _ h))]
      simp [hc]
  induction h with
  | one p hp => exact clean p hp
  | more p hp _ ih => rw [more p _ hp, ih]

theorem parts_exist (s : Str) : Parts s (splitOnChar ',' s) := by
  induction s with
  | nil => exact .one [] (by simp)
  | cons c t ih =>
    rw [splitOnChar]
    by_cases hc : c = ','
    · subst hc
      simpa using Parts.more [] (by simp) ih
    · have hc' : ¬ ',' = c := fun e => hc e.symm
      simp only [beq_iff_eq, hc, if_false]
      generalize splitOnChar ',' t = ps at ih
      cases ih with
      | one p hp => exact .one _ (by simp [hc', hp])
      | more p hp h => exact Parts.more (c :: p) (by simp [hc', hp]) h

theorem trim_blank {s : Str} (h : Blank s) : trim s = [] := (trimsTo_iff.1 ⟨s, [], by simp, h, by simp [Blank], by simp, by simp⟩).symm

theorem blank_of_trim {s : Str} (h : trim s = []) : Blank s := by
  obtain ⟨a, b, e, ha, hb, -, -⟩ := trimsTo_iff.2 h.symm
  rw [e]
  intro c hc
  simp at hc
  exact hc.elim (ha c) (hb c)

theorem partIds_iff {ps ids : List Str} (h : PartIds ps ids) (loc : Location) :
    ps.filterMap (fun id => if trim id ≠ [] then some ({ id := trim id, title := none, location := loc } : Reference)
      else none) = ids.map (fun id => ⟨id, none, loc⟩) := by
  induction h with
  | nil => rfl
  | blank hb _ ih => rw [List.filterMap_cons, if_neg (by simp [trim_blank hb]), ih]
  | id ht hne _ ih =>
    have := trimsTo_iff.1 ht
    subst this
    simp only [List.filterMap_cons, if_pos hne, ih, List.map_cons]

theorem partIds_exist (ps : List Str) : ∃ ids, PartIds ps ids := by
  induction ps with
  | nil => exact ⟨_, .nil⟩
  | cons p ps ih =>
    obtain ⟨ids, ih⟩ := ih
    by_cases h : trim p = []
    · exact ⟨_, .blank (blank_of_trim h) ih⟩
    · exact ⟨_, .id (trimsTo_iff.2 rfl) h ih⟩

theorem shortRefs_eq {v t : Str} {ps ids : List Str} (h1 : TrimsTo v t) (h2 : Parts t ps) (h3 : PartIds ps ids)
    (loc : Location) : shortRefs loc v = ids.map (fun id => ⟨id, none, loc⟩) := by
  unfold shortRefs
  rw [← trimsTo_iff.1 h1, splitOnChar_parts h2, partIds_iff h3]

/-! ## The attributes -/

/-- The state expects an attribute, as far as the next line matters. -/
def Ready (st : State) (ls : List Str) : Prop :=
  st = .lookForAttr ∨ (st ≠ .lookForReq ∧ AtEnd ls) ∨
    ((st = .lookForDesc ∨ (∃ d, st = .collectDescNl d) ∨ ∃ a v, st = .collectTextAttr a v) ∧ AtAttr ls)

theorem step_ready (U : Unicode) (loc : Location) {st : State} (r : Requirement) {l a v : Str} {t : List Str}
    (hr : Ready st (l :: t)) (hl : IsLine l) (ha : AttrLine l a v) : step U loc st r l = attrStep loc st r a v := by
  have hh := attrLine_head ha
  have hp := (attrParts_iff hl).2 ha
  unfold step
  rw [if_neg hh.2, if_neg hh.1]
  unfold textStep
  rcases hr with rfl | ⟨-, h⟩ | ⟨h, -⟩
  · simp only [hp]
  · rcases h with h | ⟨l', t', h, h'⟩
    · cases h
    · cases h
      exact absurd h' hh.1
  · rcases h with rfl | ⟨d, rfl⟩ | ⟨a', v', rfl⟩ <;> simp only [hp]

/-- The result of running over lines with these attributes. -/
def Done (path : Path) (line : Nat) (id title : Str) (before as : List Attr) (cut : Cut) (o : Out) : Prop :=
  ∃ st r, o = ⟨[], repeated path id before as ++ cutError path cut, some (st, r)⟩ ∧
    Rep path line id title (before ++ as) (commit st r) ∧ (st = .lookForReq ↔ cut ≠ .no)

theorem run_first {U : Unicode} {path : Path} {n : Nat} {l a v : Str} {rest : List Str} {st : State} {r : Requirement}
    (hr : Ready st (l :: rest)) (hl : IsLine l) (ha : AttrLine l a v) :
    run U path n (l :: rest) (some (st, r)) =
      let o := run U path (n + 1) rest (some (attrState (lineOf path n) a v, commit st r))
      ⟨o.reqs, (if recorded (commit st r) a then [.duplicateAttribute (lineOf path n) a r.id] else []) ++ o.errs,
        o.cur⟩ := by
  rw [run_some (headless (attrLine_head ha).1), step_ready U _ r hr hl ha]
  rfl

theorem done_cons {path : Path} {line : Nat} {id title : Str} {before as : List Attr} {cut : Cut} {o : Out}
    {x : Attr} {r : Requirement} {b : Bool} (h : Done path line id title (before ++ [x]) as cut o) (hid : r.id = id)
    (hb : b = alreadyGiven before x.name) :
    Done path line id title before (x :: as) cut ⟨o.reqs,
      (if b then [.duplicateAttribute (lineOf path x.line) x.name r.id] else []) ++ o.errs, o.cur⟩ := by
  obtain ⟨st, r', rfl, h1, h2⟩ := h
  refine ⟨st, r', ?_, by simpa using h1, h2⟩
  simp only [repeated, hb, hid, List.append_assoc]

theorem attrs_run {U : Unicode} {path : Path} {n : Nat} {ls : List Str} {as : List Attr} {cut : Cut}
    (h : Attrs U path n ls as cut) (line : Nat) (id title : Str) (hl : ∀ l ∈ ls, IsLine l ∧ NoHeading U l)
    (before : List Attr) (st : State) (r : Requirement) (hr : Ready st ls)
    (hrep : Rep path line id title before (commit st r)) :
    Done path line id title before as cut (run U path n ls (some (st, r))) := by
  have hne : ∀ {st ls}, Ready st ls → st ≠ .lookForReq := by
    rintro st ls (rfl | ⟨h, -⟩ | ⟨rfl | ⟨d, rfl⟩ | ⟨a, v, rfl⟩, -⟩)
    · exact (fun h => by cases h)
    · exact h
    all_goals exact (fun h => by cases h)
  induction h generalizing before st r with
  | nil n => exact ⟨st, r, rfl, by simpa using hrep, by simp [hne hr]⟩
  | heading n l ls h1 =>
    have h0 := hl l (by simp)
    rw [run_some ((reqParts_none_iff h0.1).2 h0.2)]
    have hs : step U (.newWithLineNo path n) st r l = (.lookForReq, commit st r, []) := by
      unfold step
      rw [if_neg (by rintro rfl; simp at h1), if_pos h1]
    rw [hs]
    simp only [run_idleState U path ls (n + 1) _ (fun x hx => hl x (by simp [hx]))]
    exact ⟨.lookForReq, commit st r, rfl, by rw [List.append_nil]; exact hrep, by simp⟩
  | @skip n ls as cut h1 ih =>
    have h0 := hl ['\n'] (by simp)
    rw [run_some ((reqParts_none_iff h0.1).2 h0.2)]
    have hst : st = .lookForAttr := by
      rcases hr with rfl | ⟨-, h⟩ | ⟨-, h⟩
      · rfl
      · rcases h with h | ⟨l', t', h, h'⟩
        · cases h
        · cases h; simp at h'
      · obtain ⟨l, t, a, v, h, h'⟩ := h
        cases h
        exact absurd rfl (attrLine_head h').2
    subst hst
    have := ih (fun x hx => hl x (by simp [hx])) before .lookForAttr r (.inl rfl) hrep
    exact this
  | wrong n l ls h1 h2 h3 =>
    have h0 := hl l (by simp)
    rw [run_some (headless h2)]
    have hst : st = .lookForAttr := by
      rcases hr with rfl | ⟨-, h⟩ | ⟨-, h⟩
      · rfl
      · rcases h with h | ⟨l', t', h, h'⟩
        · cases h
        · cases h; exact absurd h' h2
      · obtain ⟨l, t, a, v, h, h'⟩ := h
        cases h
        exact absurd h' (h3 a v)
    subst hst
    have hs : step U (.newWithLineNo path n) .lookForAttr r l =
        (.lookForReq, r, [.format (.newWithLineNo path n) errAttr]) := by
      unfold step
      rw [if_neg h1, if_neg h2]
      unfold textStep
      simp [(attrParts_none_iff h0.1).2 h3]
    rw [hs]
    simp only [run_idleState U path ls (n + 1) _ (fun x hx => hl x (by simp [hx]))]
    exact ⟨.lookForReq, r, rfl, by rw [List.append_nil]; exact hrep, by simp⟩
  | @text n l a v more rest as cut h1 h2 h3 h4 h5 h6 ih =>
    have h0 := hl l (by simp)
    rw [run_first hr h0.1 h1]
    have hst : attrState (lineOf path n) a v = .collectTextAttr a v := by
      unfold attrState
      rw [if_neg (fun h => h.elim h2 h3)]
    rw [hst, run_append, run_text U path more (n + 1) _ a v (fun x hx => (hl x (by simp [hx])).1) h4]
    refine done_cons (x := ⟨n, a, .text (v ++ more.flatten)⟩) ?_ ?_ (rep_given hrep a)
    · have := ih (fun x hx => hl x (by simp [hx])) (before ++ [⟨n, a, .text (v ++ more.flatten)⟩])
        (.collectTextAttr a (v ++ more.flatten)) (commit st r) ?_ (rep_text hrep n a _ h2 h3)
      · simpa using this
      · rcases h5 with h5 | h5
        · exact .inr (.inl ⟨fun h => (by cases h), h5⟩)
        · exact .inr (.inr ⟨.inr (.inr ⟨_, _, rfl⟩), h5⟩)
    · rw [← commit_id st r]; exact hrep.1.id
  | @refs n l a items refs rest as cut h1 h2 h3 ih =>
    obtain ⟨v, t, ps, ids, more, g1, g2, g3, g4, g5, g6, rfl⟩ := h1
    have h0 := hl l (by simp)
    rw [run_first hr h0.1 g1]
    have hst : attrState (lineOf path n) a v =
        .collectRefLink a (ids.map (fun id => ⟨id, none, lineOf path n⟩)) := by
      unfold attrState
      rw [if_pos (c := a = attrCovers ∨ a = attrDepends) g2, shortRefs_eq g3 g4 g5]
    rw [hst, run_append, run_refItems g6 _ _ _ (fun x hx => (hl x (by simp [hx])).1)]
    refine done_cons (x := ⟨n, a, .refs (ids.map (fun id => ⟨id, none, lineOf path n⟩) ++ more)⟩) ?_ ?_
      (rep_given hrep a)
    · have := ih (fun x hx => hl x (by simp [hx]))
        (before ++ [⟨n, a, .refs (ids.map (fun id => ⟨id, none, lineOf path n⟩) ++ more)⟩])
        (.collectRefLink a (ids.map (fun id => ⟨id, none, lineOf path n⟩) ++ more)) (commit st r) ?_
        (rep_refs hrep n a _ g2)
      · simpa using this
      · exact .inr (.inl ⟨fun h => (by cases h), h2⟩)
    · rw [← commit_id st r]; exact hrep.1.id
  | @refsBlank n l a items refs b rest as cut h1 h2 h3 ih =>
    obtain ⟨v, t, ps, ids, more, g1, g2, g3, g4, g5, g6, rfl⟩ := h1
    have h0 := hl l (by simp)
    have hb := hl b (by simp)
    rw [run_first hr h0.1 g1]
    have hst : attrState (lineOf path n) a v =
        .collectRefLink a (ids.map (fun id => ⟨id, none, lineOf path n⟩)) := by
      unfold attrState
      rw [if_pos (c := a = attrCovers ∨ a = attrDepends) g2, shortRefs_eq g3 g4 g5]
    rw [hst, run_append, run_refItems g6 _ _ _ (fun x hx => (hl x (by simp [hx])).1)]
    refine done_cons (x := ⟨n, a, .refs (ids.map (fun id => ⟨id, none, lineOf path n⟩) ++ more)⟩) ?_ ?_
      (rep_given hrep a)
    · generalize hrefs : ids.map (fun id => (⟨id, none, lineOf path n⟩ : Reference)) ++ more = refs
      have hb' : b.head? ≠ some '#' := by
        intro h
        cases b with
        | nil => simp at h
        | cons c t => simp at h; subst h; exact absurd (h2 '#' (by simp)) (by decide)
      simp only [List.nil_append]
      rw [run_some ((reqParts_none_iff hb.1).2 hb.2)]
      have hs : step U (.newWithLineNo path (n + 1 + items.length)) (.collectRefLink a refs) (commit st r) b =
          (.lookForAttr, commit (.collectRefLink a refs) (commit st r), []) := by
        unfold step
        by_cases hnl : b = ['\n']
        · rw [if_pos hnl]; rfl
        · rw [if_neg hnl, if_neg hb']
          have hn : refParts U b = none := by
            rw [refParts_none_iff hb.1]
            rintro id t ⟨pre, s, e, ⟨hid, w, tail, k1, k2, k3, k4⟩, _⟩
            have hw := hid.head_not_ws
            obtain ⟨c, t, rfl, -, -, -⟩ := hid
            have := (hw c t rfl).1
            rw [h2 c (by rw [e, k3]; simp)] at this
            cases this
          unfold textStep
          simp only [hn, trim_blank h2, if_true]
      rw [hs]
      have := ih (fun x hx => hl x (by simp [hx])) (before ++ [⟨n, a, .refs refs⟩]) .lookForAttr
        (commit (.collectRefLink a refs) (commit st r)) (.inl rfl) (rep_refs hrep n a _ g2)
      simpa using this
    · rw [← commit_id st r]; exact hrep.1.id
  | @refsWrong n l a items refs b rest h1 h2 h3 h4 =>
    obtain ⟨v, t, ps, ids, more, g1, g2, g3, g4, g5, g6, rfl⟩ := h1
    have h0 := hl l (by simp)
    have hb := hl b (by simp)
    rw [run_first hr h0.1 g1]
    have hst : attrState (lineOf path n) a v =
        .collectRefLink a (ids.map (fun id => ⟨id, none, lineOf path n⟩)) := by
      unfold attrState
      rw [if_pos (c := a = attrCovers ∨ a = attrDepends) g2, shortRefs_eq g3 g4 g5]
    rw [hst, run_append, run_refItems g6 _ _ _ (fun x hx => (hl x (by simp [hx])).1)]
    refine done_cons (x := ⟨n, a, .refs (ids.map (fun id => ⟨id, none, lineOf path n⟩) ++ more)⟩) ?_ ?_
      (rep_given hrep a)
    · generalize hrefs : ids.map (fun id => (⟨id, none, lineOf path n⟩ : Reference)) ++ more = refs
      simp only [List.nil_append]
      rw [run_some ((reqParts_none_iff hb.1).2 hb.2)]
      have hs : step U (.newWithLineNo path (n + 1 + items.length)) (.collectRefLink a refs) (commit st r) b =
          (.lookForReq, commit (.collectRefLink a refs) (commit st r),
            [.format (.newWithLineNo path (n + 1 + items.length)) errRef]) := by
        unfold step
        rw [if_neg (by rintro rfl; exact h2 (by intro c hc; simp at hc; subst hc; decide)), if_neg h3]
        unfold textStep
        simp only [(refParts_none_iff hb.1).2 h4]
        rw [if_neg (fun h => h2 (blank_of_trim h))]
      rw [hs]
      simp only [run_idleState U path rest (n + 1 + items.length + 1) _ (fun x hx => hl x (by simp [hx]))]
      exact ⟨.lookForReq, _, rfl, by rw [List.append_nil]; exact rep_refs hrep n a refs g2, by simp⟩
    · rw [← commit_id st r]; exact hrep.1.id

/-! ## Bodies and sections -/

theorem body_run {U : Unicode} {path : Path} {n : Nat} {ls : List Str} {as : List Attr} {cut : Cut}
    (h : Body U path n ls as cut) (line : Nat) (id title : Str) (hl : ∀ l ∈ ls, IsLine l ∧ NoHeading U l)
    (r : Requirement) (hrep : Rep path line id title [] r) :
    Done path line id title [] as cut (run U path n ls (some (.lookForDesc, r))) := by
  induction h with
  | @skip n ls as cut h1 ih =>
    have h0 := hl ['\n'] (by simp)
    rw [run_some ((reqParts_none_iff h0.1).2 h0.2)]
    exact ih (fun x hx => hl x (by simp [hx]))
  | @attrs n ls as cut h1 h2 =>
    refine attrs_run h2 line id title hl [] .lookForDesc r ?_ hrep
    rcases h1 with h1 | h1
    · exact .inr (.inl ⟨fun h => (by cases h), h1⟩)
    · exact .inr (.inr ⟨.inl rfl, h1⟩)
  | @prose n l more rest as cut h1 h2 h3 h4 h5 h6 h7 =>
    have h0 := hl l (by simp)
    rw [run_some (headless h2)]
    have hs : step U (.newWithLineNo path n) .lookForDesc r l = (.collectDesc l, r, []) := by
      unfold step
      rw [if_neg h1, if_neg h2]
      unfold textStep
      simp [(attrParts_none_iff h0.1).2 h3]
    rw [hs]
    obtain ⟨st, g1, g2, g3⟩ := run_desc U path more (n + 1) r l l h4
      (fun x hx => (hl x (by simp [hx])).1) (by simpa [h1] using h5)
    rw [if_neg h1] at g1
    rw [run_append, g1]
    have hc : commit st r = { r with attributes := r.attributes.insert c!"Description" (l ++ descFrom l more) } := by
      rcases g2 with rfl | rfl <;> rfl
    have hrep' : Rep path line id title ([] ++ [⟨n, c!"Description", .text (l ++ descFrom l more)⟩]) (commit st r) := by
      rw [hc]
      exact rep_text hrep n _ _ (by decide) (by decide)
    have := attrs_run h7 line id title (fun x hx => hl x (by simp [hx])) _ st r ?_ hrep'
    · have := done_cons (b := false) this (r := r) hrep.1.id rfl
      simpa using this
    · rcases h6 with h6 | ⟨h6, h8⟩
      · exact .inr (.inl ⟨by rcases g2 with rfl | rfl <;> exact fun h => (by cases h), h6⟩)
      · exact .inr (.inr ⟨.inr (.inl ⟨_, g3 (by simp [h8])⟩), h6⟩)

theorem sections_run {U : Unicode} {path : Path} {n : Nat} {ls : List Str} {ss : List Section}
    (h : Sections U path n ls ss) (hl : ∀ l ∈ ls, IsLine l) (failure : Option Str) :
    AreRequirements path (kept failure ss)
      ((run U path n ls none).reqs ++ (finish failure path (run U path n ls none).cur).1) ∧
    (run U path n ls none).errs ++ (finish failure path (run U path n ls none).cur).2 =
      documentErrors path failure ss := by
  induction h with
  | nil n =>
    cases failure with
    | none => exact ⟨.nil, rfl⟩
    | some e => exact ⟨.nil, rfl⟩
  | @cons n h level id title body rest as cut ss h1 h2 h3 h4 h5 ih =>
    obtain ⟨raw, hp, hraw⟩ := heading_reqParts h1
    rw [run_req hp]
    simp only
    have hrep : Rep path n id title [] (newReq (.newWithLineNo path n) id raw) := by
      refine ⟨⟨rfl, by simp [newReq, hraw], rfl, rfl, rfl, rfl, ?_⟩, ?_⟩
      · intro a; rfl
      · intro x hx; cases hx
    obtain ⟨st, r, g1, g2, g3⟩ := body_run h4 n id title (fun x hx => ⟨hl x (by simp [hx]), h2 x hx⟩) _ hrep
    rw [run_append, g1]
    have hreq : IsRequirement path ⟨n, id, title, as, cut⟩ (commit st r) :=
      ⟨g2.1.id, g2.1.title, g2.1.location, g2.1.covers, g2.1.depends, g2.1.tags, g2.1.attributes⟩
    have ih := ih (fun x hx => hl x (by simp [hx]))
    rcases h3 with rfl | ⟨h', t, level', id', title', rfl, h6⟩
    · cases h5 with
      | nil =>
        simp only [run, flush, List.nil_append, List.append_nil]
        cases failure with
        | some e =>
          refine ⟨by cases cut <;> exact .nil, ?_⟩
          simp [finish, documentErrors, Section.errors]
        | none =>
          by_cases hc : cut = .no
          · subst hc
            have : st ≠ .lookForReq := fun h => (g3.1 h) rfl
            simp only [finish, if_neg this, List.append_nil]
            refine ⟨.cons hreq .nil, ?_⟩
            simp [documentErrors, Section.errors]
          · have : st = .lookForReq := g3.2 hc
            simp only [finish, if_pos this, List.append_nil]
            refine ⟨?_, by simp [documentErrors, Section.errors]⟩
            cases cut with
            | no => exact absurd rfl hc
            | heading => exact .nil
            | wrong n w => exact .nil
    · obtain ⟨raw', hp', hraw'⟩ := heading_reqParts h6
      simp only
      rw [run_heading U path h' _ t _ (some (st, r)) hp']
      obtain ⟨s', ss', rfl⟩ : ∃ s' ss', ss = s' :: ss' := by
        cases h5
        exact ⟨_, _, rfl⟩
      have e : kept failure (⟨n, id, title, as, cut⟩ :: s' :: ss') = ⟨n, id, title, as, cut⟩ :: kept failure (s' :: ss') := by
        simp [kept]
      rw [e]
      have hlen : n + 1 + body.length = n + 1 + body.length := rfl
      refine ⟨?_, ?_⟩
      · simp only [flush, List.nil_append, List.cons_append]
        exact .cons hreq ih.1
      · have := ih.2
        simp only [documentErrors, List.flatMap_cons] at this ⊢
        simp only [List.append_assoc] at this ⊢
        rw [this]
        simp [Section.errors]

/-! ## Every text has a meaning -/

theorem span_exists (P : Str → Prop) (ls : List Str) :
    ∃ more rest, ls = more ++ rest ∧ (∀ m ∈ more, P m) ∧ (rest = [] ∨ ∃ l t, rest = l :: t ∧ ¬ P l) := by
  induction ls with
  | nil => exact ⟨[], [], rfl, by simp, .inl rfl⟩
  | cons l ls ih =>
    by_cases hp : P l
    · obtain ⟨more, rest, rfl, h1, h2⟩ := ih
      refine ⟨l :: more, rest, rfl, ?_, h2⟩
      intro m hm
      rcases List.mem_cons.1 hm with rfl | hm
      · exact hp
      · exact h1 m hm
    · exact ⟨[], l :: ls, rfl, by simp, .inr ⟨l, ls, rfl, hp⟩⟩

theorem refItems_exist (U : Unicode) (path : Path) (n : Nat) (ls : List Str)
    (h : ∀ l ∈ ls, l.head? ≠ some '#' ∧ ∃ id t, RefLine U l id t) : ∃ refs, RefItems U path n ls refs := by
  induction ls generalizing n with
  | nil => exact ⟨_, .nil n⟩
  | cons l ls ih =>
    obtain ⟨h1, id, t, h2⟩ := h l (by simp)
    obtain ⟨refs, h3⟩ := ih (n + 1) (fun x hx => h x (by simp [hx]))
    exact ⟨_, .cons h1 h2 h3⟩

theorem attrs_exist (U : Unicode) (path : Path) (k : Nat) : ∀ (n : Nat) (ls : List Str), ls.length ≤ k →
    ∃ as cut, Attrs U path n ls as cut := by
  induction k with
  | zero =>
    intro n ls h
    cases ls with
    | nil => exact ⟨_, _, .nil n⟩
    | cons l ls => simp at h
  | succ k ih =>
    intro n ls h
    cases ls with
    | nil => exact ⟨_, _, .nil n⟩
    | cons l ls =>
      have hk : ls.length ≤ k := by simpa using h
      by_cases h1 : l = ['\n']
      · subst h1
        obtain ⟨as, cut, h2⟩ := ih (n + 1) ls hk
        exact ⟨as, cut, .skip h2⟩
      by_cases h2 : l.head? = some '#'
      · exact ⟨_, _, .heading n l ls h2⟩
      by_cases h3 : ∃ a v, AttrLine l a v
      · obtain ⟨a, v, h3⟩ := h3
        by_cases h4 : a = c!"Covers" ∨ a = c!"Depends"
        · obtain ⟨items, rest, rfl, h5, h6⟩ := span_exists
            (fun l => l.head? ≠ some '#' ∧ ∃ id t, RefLine U l id t) ls
          obtain ⟨more, h7⟩ := refItems_exist U path (n + 1) items h5
          obtain ⟨ids, h8⟩ := partIds_exist (splitOnChar ',' (trim v))
          have hr : RefList U path n l items a _ :=
            ⟨v, trim v, _, ids, more, h3, h4, trimsTo_iff.2 rfl, parts_exist _, h8, h7, rfl⟩
          rcases h6 with rfl | ⟨b, t, rfl, h6⟩
          · exact ⟨_, _, .refs hr (.inl rfl) (.nil _)⟩
          · by_cases hb : b.head? = some '#'
            · exact ⟨_, _, .refs hr (.inr ⟨b, t, rfl, hb⟩) (.heading _ b t hb)⟩
            · by_cases hb2 : Blank b
              · obtain ⟨as, cut, h9⟩ := ih (n + 1 + items.length + 1) t (by simp at hk; omega)
                exact ⟨_, _, .refsBlank hr hb2 h9⟩
              · exact ⟨_, _, .refsWrong hr hb2 hb (fun id t h => h6 ⟨hb, id, t, h⟩)⟩
        · obtain ⟨more, rest, rfl, h5, h6⟩ := span_exists
            (fun l => l.head? ≠ some '#' ∧ ∀ a v, ¬ AttrLine l a v) ls
          obtain ⟨as, cut, h7⟩ := ih (n + 1 + more.length) rest (by simp at hk; omega)
          refine ⟨_, _, .text h3 (fun h => h4 (.inl h)) (fun h => h4 (.inr h)) h5 ?_ h7⟩
          rcases h6 with rfl | ⟨b, t, rfl, h6⟩
          · exact .inl (.inl rfl)
          · by_cases hb : b.head? = some '#'
            · exact .inl (.inr ⟨b, t, rfl, hb⟩)
            · refine .inr ?_
              refine Classical.byContradiction fun hn => h6 ⟨hb, fun a v h => hn ⟨b, t, a, v, rfl, h⟩⟩
      · exact ⟨_, _, .wrong n l ls h1 h2 (fun a v h => h3 ⟨a, v, h⟩)⟩

theorem prose_span (ls : List Str) (b : Bool) : ∃ more rest, ls = more ++ rest ∧ (∀ m ∈ more, m.head? ≠ some '#') ∧
    NoAttrPara b more ∧ (AtEnd rest ∨ AtAttr rest ∧ (more.getLast? = some ['\n'] ∨ (more = [] ∧ b = true))) := by
  induction ls generalizing b with
  | nil => exact ⟨[], [], rfl, by simp, trivial, .inl (.inl rfl)⟩
  | cons l ls ih =>
    by_cases h1 : l.head? = some '#'
    · exact ⟨[], l :: ls, rfl, by simp, trivial, .inl (.inr ⟨l, ls, rfl, h1⟩)⟩
    by_cases h2 : b = true ∧ ∃ a v, AttrLine l a v
    · obtain ⟨hb, a, v, h2⟩ := h2
      exact ⟨[], l :: ls, rfl, by simp, trivial, .inr ⟨⟨l, ls, a, v, rfl, h2⟩, .inr ⟨rfl, hb⟩⟩⟩
    · obtain ⟨more, rest, rfl, g1, g2, g3⟩ := ih (l = ['\n'])
      refine ⟨l :: more, rest, rfl, ?_, ⟨fun hb a v h => h2 ⟨hb, a, v, h⟩, g2⟩, ?_⟩
      · intro m hm
        rcases List.mem_cons.1 hm with rfl | hm
        · exact h1
        · exact g1 m hm
      · rcases g3 with g3 | ⟨g3, g4⟩
        · exact .inl g3
        · refine .inr ⟨g3, .inl ?_⟩
          rcases g4 with g4 | ⟨rfl, g4⟩
          · rw [List.getLast?_cons, g4]; rfl
          · simpa using g4

theorem body_exists (U : Unicode) (path : Path) (n : Nat) (ls : List Str) : ∃ as cut, Body U path n ls as cut := by
  induction ls generalizing n with
  | nil => exact ⟨_, _, .attrs (.inl (.inl rfl)) (.nil n)⟩
  | cons l ls ih =>
    by_cases h1 : l = ['\n']
    · subst h1
      obtain ⟨as, cut, h⟩ := ih (n + 1)
      exact ⟨as, cut, .skip h⟩
    by_cases h2 : l.head? = some '#'
    · exact ⟨_, _, .attrs (.inl (.inr ⟨l, ls, rfl, h2⟩)) (.heading n l ls h2)⟩
    by_cases h3 : ∃ a v, AttrLine l a v
    · obtain ⟨a, v, h3⟩ := h3
      obtain ⟨as, cut, h⟩ := attrs_exist U path _ n (l :: ls) (Nat.le_refl _)
      exact ⟨as, cut, .attrs (.inr ⟨l, ls, a, v, rfl, h3⟩) h⟩
    · obtain ⟨more, rest, rfl, g1, g2, g3⟩ := prose_span ls false
      obtain ⟨as, cut, h⟩ := attrs_exist U path _ (n + 1 + more.length) rest (Nat.le_refl _)
      refine ⟨_, _, .prose h1 h2 (fun a v h => h3 ⟨a, v, h⟩) g1 g2 ?_ h⟩
      rcases g3 with g3 | ⟨g3, g4 | ⟨-, g4⟩⟩
      · exact .inl g3
      · exact .inr ⟨g3, g4⟩
      · cases g4

theorem sections_exist (U : Unicode) (path : Path) (k : Nat) : ∀ (n : Nat) (ls : List Str), ls.length ≤ k →
    Ends U ls → ∃ ss, Sections U path n ls ss := by
  induction k with
  | zero =>
    intro n ls h he
    cases ls with
    | nil => exact ⟨_, .nil n⟩
    | cons l ls => simp at h
  | succ k ih =>
    intro n ls h he
    rcases he with rfl | ⟨h0, t, level, id, title, rfl, hh⟩
    · exact ⟨_, .nil n⟩
    · obtain ⟨body, rest, rfl, h1, h2⟩ := span_exists (NoHeading U) t
      have he : Ends U rest := by
        rcases h2 with rfl | ⟨l, t, rfl, h2⟩
        · exact .inl rfl
        · refine .inr ?_
          refine Classical.byContradiction fun hn => h2 (fun a b c h => hn ⟨l, t, a, b, c, rfl, h⟩)
      obtain ⟨ss, h3⟩ := ih (n + 1 + body.length) rest (by simp at h; omega) he
      obtain ⟨as, cut, h4⟩ := body_exists U path (n + 1) body
      exact ⟨_, .cons hh h1 he h4 h3⟩

end Md

/-- **C76** Every sequence of lines is a document: it has sections. -/
theorem C76_exists (U : Unicode) (path : Path) (ls : List Str) : ∃ ss, Document U path ls ss := by
  obtain ⟨pre, rest, rfl, h1, h2⟩ := span_exists (NoHeading U) ls
  have he : Ends U rest := by
    rcases h2 with rfl | ⟨l, t, rfl, h2⟩
    · exact .inl rfl
    · refine .inr ?_
      refine Classical.byContradiction fun hn => h2 (fun a b c h => hn ⟨l, t, a, b, c, rfl, h⟩)
  obtain ⟨ss, h3⟩ := sections_exist U path _ (pre.length + 1) rest (Nat.le_refl _) he
  exact ⟨ss, pre, rest, rfl, h1, he, h3⟩

/-- **C76** The result of parsing is what the sections of the document say: their requirements in order, and their
errors in order. -/
theorem C76_complete (U : Unicode) (src : Source) (path : Path) (ls : List Str) (ss : List Section)
    (ht : ¬ OneByteTail src.text) (hl : Lines src.text ls) (hd : Document U path ls ss) :
    ∃ rs, Md.parse U src path = .ok (rs, documentErrors path src.failure ss) ∧
      AreRequirements path (kept src.failure ss) rs := by
  obtain ⟨pre, rest, he, h1, h2, h3⟩ := hd
  have hls := lines_iff.1 hl
  have hline : ∀ l ∈ ls, IsLine l := fun l hm => ((splitLines_spec _).2.1 l (hls ▸ hm)).1
  have hp := parse_eq U src path (fun l hl ht' => ht ((trips_iff src.text).1 ⟨l, hl, ht'⟩))
  rw [← hls, he, run_append, run_idle U path 1 pre (fun l hl' => ?_)] at hp
  · simp only [List.nil_append] at hp
    rw [Nat.add_comm 1 pre.length] at hp
    obtain ⟨g1, g2⟩ := sections_run h3 (fun x hx => hline x (by rw [he]; simp [hx])) src.failure
    rw [g2] at hp
    exact ⟨_, hp, g1⟩
  · exact (reqParts_none_iff (hline l (by rw [he]; simp [hl']))).2 (h1 l hl')

/-- **C76** The requirements are determined by the sections. -/
theorem C76_determined {path : Path} {ss : List Section} {a b : List Requirement}
    (h1 : AreRequirements path ss a) (h2 : AreRequirements path ss b) : a = b := by
  induction h1 generalizing b with
  | nil => cases h2; rfl
  | cons h _ ih =>
    cases h2 with
    | cons h' h2 =>
      rw [ih h2]
      congr 1
      rename_i r _ _ _ r' _
      obtain ⟨i, t, l, c, d, g, a⟩ := r
      obtain ⟨i', t', l', c', d', g', a'⟩ := r'
      have e1 := h.id.trans h'.id.symm
      have e2 := h.title.trans h'.title.symm
      have e3 := h.location.trans h'.location.symm
      have e4 := h.covers.trans h'.covers.symm
      have e5 := h.depends.trans h'.depends.symm
      have e6 := h.tags.trans h'.tags.symm
      have e7 := BMap.ext_get fun a => (h.attributes a).trans (h'.attributes a).symm
      simp only at e1 e2 e3 e4 e5 e6 e7
      rw [e1, e2, e3, e4, e5, e6, e7]

namespace DocExample

/-- A preamble and two sections, the first with everything. -/
def lines : List Str := [c!"intro\n", c!"# AB: T\n", c!"prose\n", c!"\n", c!"Covers: X1, X2,\n", c!"* X3: Y\n", c!"\n",
  c!"Note: n\n", c!"m\n", c!"Note: o\n", c!"# CD: U\n"]

/-- Its sections. -/
def sections : List Section := [
  ⟨2, c!"AB", c!"T", [
    ⟨3, c!"Description", .text c!"prose\n\n"⟩,
    ⟨5, c!"Covers", .refs [⟨c!"X1", none, lineOf c!"f" 5⟩, ⟨c!"X2", none, lineOf c!"f" 5⟩,
      ⟨c!"X3", some c!"Y", lineOf c!"f" 6⟩]⟩,
    ⟨8, c!"Note", .text c!"nm\n"⟩,
    ⟨10, c!"Note", .text c!"o"⟩], .no⟩,
  ⟨11, c!"CD", c!"U", [], .no⟩]

theorem attr {l a v : Str} (h1 : ∃ u, l = u ++ ['\n'] ∧ '\n' ∉ u) (h : attrParts l = some (a, v)) : AttrLine l a v :=
  (attrParts_iff (isLine h1)).1 h
where
  isLine {l : Str} (h1 : ∃ u, l = u ++ ['\n'] ∧ '\n' ∉ u) : IsLine l := by
    obtain ⟨u, rfl, h⟩ := h1
    have := (splitLines_spec (u ++ ['\n'])).2.1 (u ++ ['\n'])
    refine (this ?_).1
    rw [← lines_iff.1 (Lines.cons u h .nil)]
    simp

theorem noAttr {l : Str} (h1 : ∃ u, l = u ++ ['\n'] ∧ '\n' ∉ u) (h : attrParts l = none) : ∀ a v, ¬ AttrLine l a v :=
  (attrParts_none_iff (attr.isLine h1)).1 h

theorem noHead {l : Str} (h1 : ∃ u, l = u ++ ['\n'] ∧ '\n' ∉ u) (h : reqParts .ascii l = none) : NoHeading .ascii l :=
  (reqParts_none_iff (attr.isLine h1)).1 h

theorem head {l id raw : Str} (h1 : ∃ u, l = u ++ ['\n'] ∧ '\n' ∉ u) (h : reqParts .ascii l = some (['#'], id, raw)) :
    ReqHeading .ascii l 1 id (trim raw) := (reqParts_heading (attr.isLine h1) h).2

theorem document : Document .ascii c!"f" lines sections := by
  have nl : ∀ {l : Str}, l.getLast? = some '\n' ∧ '\n' ∉ l.dropLast → ∃ u, l = u ++ ['\n'] ∧ '\n' ∉ u := by
    rintro l ⟨h1, h2⟩
    obtain ⟨u, rfl⟩ := List.getLast?_eq_some_iff.1 h1
    exact ⟨u, rfl, by simpa using h2⟩
  have h1 : ReqHeading .ascii c!"# AB: T\n" 1 c!"AB" c!"T" := head (raw := c!"T") (nl (by decide)) (by decide +kernel)
  have h2 : ReqHeading .ascii c!"# CD: U\n" 1 c!"CD" c!"U" := head (raw := c!"U") (nl (by decide)) (by decide +kernel)
  have a1 : AttrLine c!"Covers: X1, X2,\n" c!"Covers" c!"X1, X2," := attr (nl (by decide)) (by decide +kernel)
  have a2 : AttrLine c!"Note: n\n" c!"Note" c!"n" := attr (nl (by decide)) (by decide +kernel)
  have a3 : AttrLine c!"Note: o\n" c!"Note" c!"o" := attr (nl (by decide)) (by decide +kernel)
  have n1 : ∀ a v, ¬ AttrLine c!"prose\n" a v := noAttr (nl (by decide)) (by decide +kernel)
  have n2 : ∀ a v, ¬ AttrLine c!"m\n" a v := noAttr (nl (by decide)) (by decide +kernel)
  have r1 : RefLine .ascii c!"* X3: Y\n" c!"X3" (some c!"Y") :=
    (refParts_iff (attr.isLine (nl (by decide)))).1 (by decide +kernel)
  have hs : Sections .ascii c!"f" 11 [c!"# CD: U\n"] [⟨11, c!"CD", c!"U", [], .no⟩] :=
    .cons (body := []) (rest := []) h2 (by simp) (.inl rfl) (.attrs (.inl (.inl rfl)) (.nil _)) (.nil _)
  have hn2 : Attrs .ascii c!"f" 10 [c!"Note: o\n"] [⟨10, c!"Note", .text c!"o"⟩] .no :=
    .text (more := []) (rest := []) a3 (by decide) (by decide) (by simp) (.inl (.inl rfl)) (.nil _)
  have hn1 : Attrs .ascii c!"f" 8 [c!"Note: n\n", c!"m\n", c!"Note: o\n"]
      [⟨8, c!"Note", .text c!"nm\n"⟩, ⟨10, c!"Note", .text c!"o"⟩] .no :=
    .text (more := [c!"m\n"]) (rest := [c!"Note: o\n"]) a2 (by decide) (by decide)
      (fun m hm => by simp at hm; subst hm; exact ⟨by decide, n2⟩) (.inr ⟨_, _, _, _, rfl, a3⟩) hn2
  have hr : RefList .ascii c!"f" 5 c!"Covers: X1, X2,\n" [c!"* X3: Y\n"] c!"Covers"
      [⟨c!"X1", none, lineOf c!"f" 5⟩, ⟨c!"X2", none, lineOf c!"f" 5⟩, ⟨c!"X3", some c!"Y", lineOf c!"f" 6⟩] :=
    ⟨_, c!"X1, X2,", [c!"X1", c!" X2", []], [c!"X1", c!"X2"], [⟨c!"X3", some c!"Y", lineOf c!"f" 6⟩], a1, .inl rfl,
      trimsTo_iff.2 (by decide +kernel), .more c!"X1" (by decide) (.more c!" X2" (by decide) (.one [] (by decide))),
      .id (trimsTo_iff.2 (by decide +kernel)) (by decide)
        (.id (trimsTo_iff.2 (by decide +kernel)) (by decide) (.blank (by simp [Blank]) .nil)),
      .cons (by decide) r1 (.nil _), rfl⟩
  refine ⟨[c!"intro\n"], lines.tail, rfl, ?_, .inr ⟨_, _, _, _, _, rfl, h1⟩, ?_⟩
  · intro l hl
    simp at hl
    subst hl
    exact noHead (nl (by decide)) (by decide +kernel)
  · refine .cons (body := [c!"prose\n", c!"\n", c!"Covers: X1, X2,\n", c!"* X3: Y\n", c!"\n",
      c!"Note: n\n", c!"m\n", c!"Note: o\n"]) (rest := [c!"# CD: U\n"]) h1 ?_ (.inr ⟨_, _, _, _, _, rfl, h2⟩) ?_ hs
    · intro l hl
      refine noHead (nl ?_) ?_
      · revert l; decide
      · revert l; decide +kernel
    · exact .prose (more := [c!"\n"]) (by decide) (by decide) n1 (by decide) ⟨by simp, trivial⟩
        (.inr ⟨⟨_, _, _, _, rfl, a1⟩, rfl⟩) (.refsBlank (items := [c!"* X3: Y\n"]) hr
          (fun c hc => by simp at hc; subst hc; decide) hn1)

/-- The document, its sections, and what the theorem says about it. -/
example : ¬ OneByteTail lines.flatten ∧ Lines lines.flatten lines ∧ Document .ascii c!"f" lines sections ∧
    documentErrors c!"f" none sections = [.duplicateAttribute (lineOf c!"f" 10) c!"Note" c!"AB"] ∧
    (∃ r s, Md.parse .ascii ⟨lines.flatten, none⟩ c!"f" = .ok ([r, s], documentErrors c!"f" none sections) ∧
      r.covers.map (·.id) = [c!"X1", c!"X2", c!"X3"] ∧ r.attributes.get c!"Note" = some c!"o") ∧
    kept none sections = sections ∧ kept (some c!"oops") sections = sections.take 1 := by
  refine ⟨fun h => ?_, lines_iff.2 (by decide +kernel), document, rfl, ?_, rfl, rfl⟩
  · obtain ⟨pre, c, e, hc, -⟩ := h
    have : (lines.flatten).getLast? = some c := by rw [e]; simp
    exact hc (by simpa [lines] using this.symm)
  · refine ⟨⟨c!"AB", some c!"T", lineOf c!"f" 2, [⟨c!"X1", none, lineOf c!"f" 5⟩, ⟨c!"X2", none, lineOf c!"f" 5⟩,
        ⟨c!"X3", some c!"Y", lineOf c!"f" 6⟩], [], [],
        (BMap.empty.insert c!"Description" c!"prose\n\n").insert c!"Note" c!"o"⟩,
      ⟨c!"CD", some c!"U", lineOf c!"f" 11, [], [], [], .empty⟩, ?_⟩
    decide +kernel

end DocExample

end Reqtrace
