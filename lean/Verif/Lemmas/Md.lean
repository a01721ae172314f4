import Verif.Lemmas.MdRegex
import Verif.Spec.Markdown

/-!
# The Markdown parser as a function of sections

`Md.run` is the parser without panics and without mutable context; `parse_eq` says that it is what
`Md.parse` computes.
-/

set_option linter.unusedSimpArgs false

namespace Reqtrace

open Spec

namespace Md

/-! ## The pure machine -/

/-- Commit what the state holds. -/
def commit (st : State) (r : Requirement) : Requirement :=
  match st with
  | .collectDesc d => { r with attributes := r.attributes.insert attrDescription d }
  | .collectDescNl d => { r with attributes := r.attributes.insert attrDescription d }
  | .collectTextAttr a v => { r with attributes := r.attributes.insert a v }
  | .collectRefLink a v => if a = attrCovers then { r with covers := v } else { r with depends := v }
  | _ => r

/-- The attribute has been given for the requirement. -/
def recorded (r : Requirement) (a : Str) : Bool :=
  if a = attrCovers then !r.covers.isEmpty
  else if a = attrDepends then !r.depends.isEmpty
  else r.attributes.contains a

/-- The references of a comma separated list. -/
def shortRefs (loc : Location) (s : Str) : List Reference :=
  (splitOnChar ',' (trim s)).filterMap (fun id =>
    if trim id ≠ [] then some { id := trim id, title := none, location := loc } else none)

/-- State after the first line of an attribute. -/
def attrState (loc : Location) (a f : Str) : State :=
  if a = attrCovers ∨ a = attrDepends then .collectRefLink a (shortRefs loc f)
  else .collectTextAttr a f

/-- The text of the error for a line that should be an attribute. -/
def errAttr : Str := c!"Expected an Attribute line like `Comment:`"
/-- The text of the error for a line that should be a reference. -/
def errRef : Str := c!"Expected a Reference like `* REQ_ID: Title`"

/-- An attribute line starts attribute `a` with value `f`. -/
def attrStep (loc : Location) (st : State) (r : Requirement) (a f : Str) :
    State × Requirement × List Error :=
  (attrState loc a f, commit st r,
    if recorded (commit st r) a then [.duplicateAttribute loc a r.id] else [])

/-- A line that is neither empty nor a heading. -/
def textStep (U : Unicode) (loc : Location) (st : State) (r : Requirement) (l : Str) :
    State × Requirement × List Error :=
  match st with
  | .lookForReq => (.lookForReq, r, [])
  | .collectDesc d => (.collectDesc (d ++ l), r, [])
  | .collectRefLink a v =>
    match refParts U l with
    | some p => (.collectRefLink a (v ++ [{ id := p.1, title := p.2, location := loc }]), r, [])
    | none =>
      if trim l = [] then (.lookForAttr, commit st r, [])
      else (.lookForReq, commit st r, [.format loc errRef])
  | .lookForDesc =>
    match attrParts l with
    | some p => attrStep loc st r p.1 p.2
    | none => (.collectDesc l, r, [])
  | .collectDescNl d =>
    match attrParts l with
    | some p => attrStep loc st r p.1 p.2
    | none => (.collectDesc d, r, [])
  | .lookForAttr =>
    match attrParts l with
    | some p => attrStep loc st r p.1 p.2
    | none => (.lookForReq, r, [.format loc errAttr])
  | .collectTextAttr a v =>
    match attrParts l with
    | some p => attrStep loc st r p.1 p.2
    | none => (.collectTextAttr a (v ++ l), r, [])

/-- An empty line. -/
def emptyStep (st : State) (r : Requirement) : State × Requirement × List Error :=
  match st with
  | .collectDesc d => (.collectDescNl (d ++ ['\n']), r, [])
  | .collectDescNl d => (.collectDescNl (d ++ ['\n']), r, [])
  | .collectTextAttr a v => (.collectTextAttr a (v ++ ['\n']), r, [])
  | .collectRefLink _ _ => (.lookForAttr, commit st r, [])
  | st => (st, r, [])

/-- A line that is not a requirement heading. -/
def step (U : Unicode) (loc : Location) (st : State) (r : Requirement) (l : Str) :
    State × Requirement × List Error :=
  if l = ['\n'] then emptyStep st r
  else if l.head? = some '#' then (.lookForReq, commit st r, [])
  else textStep U loc st r l

/-- The requirement of a heading. -/
def newReq (loc : Location) (id rawTitle : Str) : Requirement :=
  { id := id, title := some (trim rawTitle), location := loc, covers := [], depends := [], tags := [],
    attributes := .empty }

/-- Result of `run`: finished requirements, errors, the state and requirement at the end. -/
structure Out where
  reqs : List Requirement
  errs : List Error
  cur : Option (State × Requirement)

/-- The requirement under construction, with what is pending. -/
def flush : Option (State × Requirement) → List Requirement
  | none => []
  | some (st, r) => [commit st r]

/-- Parse lines, the first of which has number `n`. -/
def run (U : Unicode) (path : Path) : Nat → List Str → Option (State × Requirement) → Out
  | _, [], cur => ⟨[], [], cur⟩
  | n, l :: ls, cur =>
    match reqParts U l with
    | some p =>
      let o := run U path (n + 1) ls (some (.lookForDesc, newReq (.newWithLineNo path n) p.2.1 p.2.2))
      ⟨flush cur ++ o.reqs, o.errs, o.cur⟩
    | none =>
      match cur with
      | none => run U path (n + 1) ls none
      | some (st, r) =>
        let s := step U (.newWithLineNo path n) st r l
        let o := run U path (n + 1) ls (some (s.1, s.2.1))
        ⟨o.reqs, s.2.2 ++ o.errs, o.cur⟩

/-- What the end of the text adds. -/
def finish (failure : Option Str) (path : Path) (cur : Option (State × Requirement)) :
    List Requirement × List Error :=
  match failure with
  | some e => ([], [.io path e])
  | none =>
    match cur with
    | none => ([], [])
    | some (st, r) => if st = .lookForReq then ([], []) else ([commit st r], [])

/-! ## Refinement -/

/-- A state that the parser can be in. -/
def State.ok : State → Prop
  | .collectRefLink a _ => a = attrCovers ∨ a = attrDepends
  | _ => True

theorem attrState_ok (loc : Location) (a f : Str) : (attrState loc a f).ok := by
  unfold attrState
  split
  · assumption
  · trivial

theorem step_ok (U : Unicode) (loc : Location) (st : State) (r : Requirement) (l : Str) (h : st.ok) :
    (step U loc st r l).1.ok := by
  unfold step
  split
  · cases st <;> first | trivial | exact h
  · split
    · trivial
    · unfold textStep attrStep
      cases st <;> simp only
      all_goals (first | trivial | (split <;> first | trivial | exact attrState_ok .. | skip))
      · split <;> trivial

/-- The context with the requirement under construction replaced and errors appended. -/
def upd (c : Context) (r : Requirement) (e : List Error) : Context :=
  { c with reqUnderConstruction := some r, errors := c.errors ++ e }

theorem upd_nil {c : Context} {r : Requirement} (h : c.reqUnderConstruction = some r) :
    upd c r [] = c := by
  unfold upd
  cases c
  simp_all

theorem commitAttr_eq {c : Context} {r : Requirement} (h : c.reqUnderConstruction = some r)
    (a v : Str) : commitAttr c a v = .ok (upd c { r with attributes := r.attributes.insert a v } []) := by
  simp [commitAttr, Context.req, h, orPanic, upd, bind, Except.bind, pure, Except.pure]

theorem commitLinkAttr_eq {c : Context} {r : Requirement} (h : c.reqUnderConstruction = some r)
    (a : Str) (v : List Reference) (ha : a = attrCovers ∨ a = attrDepends) :
    commitLinkAttr c a v = .ok (upd c (commit (.collectRefLink a v) r) []) := by
  unfold commitLinkAttr commit
  by_cases h1 : a = attrCovers
  · simp [h1, Context.req, h, orPanic, upd, bind, Except.bind, pure, Except.pure]
  · rcases ha with ha | ha
    · exact absurd ha h1
    · have hne : attrDepends ≠ attrCovers := by decide
      simp [h1, ha, hne, Context.req, h, orPanic, upd, bind, Except.bind, pure, Except.pure]

theorem startAttribute_eq {c : Context} {r : Requirement} (h : c.reqUnderConstruction = some r)
    (a f : Str) : startAttribute c ⟨[(2, f), (1, a)]⟩ = .ok (attrState c.location a f,
      upd c r (if recorded r a then [.duplicateAttribute c.location a r.id] else [])) := by
  have e1 : (⟨[(2, f), (1, a)]⟩ : Captures).idx 1 = .ok a := rfl
  have e2 : (⟨[(2, f), (1, a)]⟩ : Captures).idx 2 = .ok f := rfl
  have hne : attrDepends ≠ attrCovers := by decide
  unfold startAttribute attrState recorded
  simp only [e1, e2, bind, Except.bind, pure, Except.pure, Context.req, h, orPanic]
  by_cases h1 : a = attrCovers
  · simp only [h1, if_true, true_or]
    by_cases h2 : r.covers = []
    · simp [h2, upd_nil h]; rfl
    · simp [h2, upd, Context.push, h, List.isEmpty_iff]; rfl
  · by_cases h3 : a = attrDepends
    · simp only [h3, hne, if_true, if_false, or_true]
      by_cases h2 : r.depends = []
      · simp [h2, upd_nil h]; rfl
      · simp [h2, upd, Context.push, h, List.isEmpty_iff]; rfl
    · simp only [h1, h3, if_false, or_self]
      by_cases h2 : r.attributes.contains a = true
      · simp [h2, upd, Context.push, h]
      · simp [h2, upd_nil h]

theorem upd_upd (c : Context) (r r' : Requirement) (e : List Error) :
    upd (upd c r []) r' e = upd c r' e := by simp [upd]

theorem attr_step_eq {c : Context} {r : Requirement} (r' : Requirement) (hid : r'.id = r.id) (a f : Str) :
    startAttribute (upd c r' []) ⟨[(2, f), (1, a)]⟩ = .ok (attrState c.location a f, upd c r'
      (if recorded r' a then [.duplicateAttribute c.location a r.id] else [])) := by
  rw [startAttribute_eq (r := r') rfl, upd_upd, hid]
  rfl

theorem commit_id (st : State) (r : Requirement) : (commit st r).id = r.id := by
  unfold commit
  split <;> first | rfl | (split <;> rfl)

theorem textStep_eq (U : Unicode) {c : Context} {r : Requirement}
    (h : c.reqUnderConstruction = some r) (st : State) (hst : st.ok) (l : Str) (hl : IsLine l) :
    parseStateLine U st l c = .ok ((textStep U c.location st r l).1,
      upd c (textStep U c.location st r l).2.1 (textStep U c.location st r l).2.2) := by
  unfold parseStateLine textStep
  have hpush : ∀ r' e, (upd c r' []).push e = upd c r' [e] := by
    intro r' e; simp [upd, Context.push]
  have hpush2 : ∀ e, c.push e = upd c r [e] := by
    intro e; rw [← hpush, upd_nil h]
  cases st with
  | lookForReq => simp only; rw [upd_nil h]; rfl
  | lookForDesc =>
    simp only [attribute_captures l hl]
    cases attrParts l with
    | none => simp only [Option.map_none]; rw [upd_nil h]; rfl
    | some p => simp only [Option.map_some]; rw [startAttribute_eq h]; rfl
  | collectDesc d => simp only; rw [upd_nil h]; rfl
  | collectDescNl d =>
    simp only [attribute_captures l hl]
    cases attrParts l with
    | none => simp only [Option.map_none]; rw [upd_nil h]; rfl
    | some p =>
      simp only [Option.map_some]
      rw [commitAttr_eq h]
      simp only [bind, Except.bind]
      rw [attr_step_eq (r := r)]
      · rfl
      · rfl
  | lookForAttr =>
    simp only [attribute_captures l hl]
    cases attrParts l with
    | none => simp only [Option.map_none]; rw [← hpush2]; rfl
    | some p => simp only [Option.map_some]; rw [startAttribute_eq h]; rfl
  | collectTextAttr a v =>
    simp only [attribute_captures l hl]
    cases attrParts l with
    | none => simp only [Option.map_none]; rw [upd_nil h]; rfl
    | some p =>
      simp only [Option.map_some]
      rw [commitAttr_eq h]
      simp only [bind, Except.bind]
      rw [attr_step_eq (r := r)]
      · rfl
      · rfl
  | collectRefLink a v =>
    simp only [refLink_captures U l hl]
    cases refParts U l with
    | none =>
      simp only [Option.map_none]
      rw [commitLinkAttr_eq h a v hst]
      split
      · rfl
      · simp only [bind, Except.bind, hpush]
        rfl
    | some p =>
      obtain ⟨id, t⟩ := p
      simp only [Option.map_some]
      rw [upd_nil h]
      cases t <;> rfl

theorem emptyStep_eq {c : Context} {r : Requirement}
    (h : c.reqUnderConstruction = some r) (st : State) (hst : st.ok) :
    parseStateEmpty st c = .ok ((emptyStep st r).1, upd c (emptyStep st r).2.1 (emptyStep st r).2.2) := by
  unfold parseStateEmpty emptyStep
  cases st with
  | collectRefLink a v => simp only; rw [commitLinkAttr_eq h a v hst]; rfl
  | _ => simp only; rw [upd_nil h]; rfl

/-- Commit what the state holds, in the context. -/
def commitM (st : State) (c : Context) : PanicM Context :=
  match st with
  | .lookForReq => pure c
  | .lookForDesc => pure c
  | .collectDesc desc => commitAttr c attrDescription desc
  | .collectDescNl desc => commitAttr c attrDescription desc
  | .lookForAttr => pure c
  | .collectTextAttr attr val => commitAttr c attr val
  | .collectRefLink attr vec => commitLinkAttr c attr vec

theorem commit_eq {c : Context} {r : Requirement} (h : c.reqUnderConstruction = some r) (st : State)
    (hst : st.ok) : commitM st c = .ok (upd c (commit st r) []) := by
  cases st with
  | collectRefLink a v => simp only [commitM]; rw [commitLinkAttr_eq h a v hst]
  | collectDesc | collectDescNl | collectTextAttr => simp only [commitM]; rw [commitAttr_eq h]; rfl
  | _ => simp only [commitM, commit]; rw [upd_nil h]; rfl

theorem headingStep_eq {c : Context} {r : Requirement}
    (h : c.reqUnderConstruction = some r) (st : State) (hst : st.ok) :
    parseStateHeading st c = .ok (.lookForReq, upd c (commit st r) []) := by
  have := commit_eq h st hst
  have e : parseStateHeading st c = (fun c => (.lookForReq, c)) <$> commitM st c := by
    cases st <;> rfl
  rw [e, this]; rfl

theorem eof_eq {c : Context} {r : Requirement}
    (h : c.reqUnderConstruction = some r) (st : State) (hst : st.ok) :
    parseStateEof st c = .ok (.lookForReq, if st = .lookForReq then c else
      { c with reqUnderConstruction := none, requirements := c.requirements ++ [commit st r] }) := by
  have hm : ∀ r', maybeCommitReq (upd c r' []) =
      { c with reqUnderConstruction := none, requirements := c.requirements ++ [r'] } := by
    intro r'; simp [maybeCommitReq, upd]
  have hm2 : maybeCommitReq c =
      { c with reqUnderConstruction := none, requirements := c.requirements ++ [r] } := by
    rw [← hm, upd_nil h]
  unfold parseStateEof
  cases st with
  | lookForReq => rfl
  | lookForDesc | lookForAttr => simp only [pure, Except.pure, hm2]; rfl
  | collectRefLink a v =>
    simp only
    rw [commitLinkAttr_eq h a v hst]
    simp only [Functor.map, Except.map, hm, bind, Except.bind, pure, Except.pure, reduceCtorEq, if_false]
  | collectDesc | collectDescNl | collectTextAttr =>
    simp only
    rw [commitAttr_eq h]
    simp only [Functor.map, Except.map, hm, bind, Except.bind, pure, Except.pure, reduceCtorEq, if_false]
    rfl

/-- The part of the context that matters, and the invariant that ties it to `run`. -/
structure Tied (c : Context) (st : State) (cur : Option (State × Requirement)) : Prop where
  req : c.reqUnderConstruction = cur.map (·.2)
  state : ∀ p, cur = some p → p.1 = st ∧ st.ok
  idle : cur = none → st = .lookForReq

/-- The context after a requirement heading. -/
def headed (c : Context) (cur : Option (State × Requirement)) (p : Str × Str × Str) : Context :=
  { c with level := p.1.length, requirements := c.requirements ++ flush cur,
           reqUnderConstruction := some (newReq c.location p.2.1 p.2.2) }

theorem reqStep_eq {c : Context} {st : State} {cur : Option (State × Requirement)} (ht : Tied c st cur)
    (p : Str × Str × Str) :
    parseStateReq st c ⟨[(3, p.2.2), (2, p.2.1), (1, p.1)]⟩ = .ok (.lookForDesc, headed c cur p) := by
  have hadd : ∀ c' : Context, addReq c' ⟨[(3, p.2.2), (2, p.2.1), (1, p.1)]⟩ =
      .ok (.lookForDesc, { (maybeCommitReq c') with
        level := p.1.length
        reqUnderConstruction := some (newReq (maybeCommitReq c').location p.2.1 p.2.2) }) := by
    intro c'; rfl
  cases cur with
  | none =>
    have hst := ht.idle rfl
    subst hst
    have hc : c.reqUnderConstruction = none := ht.req
    unfold parseStateReq
    simp only [pure, Except.pure, bind, Except.bind]
    rw [hadd]
    have : maybeCommitReq c = c := by unfold maybeCommitReq; rw [hc]
    rw [this]
    simp [headed, flush]
  | some q =>
    obtain ⟨st', r⟩ := q
    obtain ⟨rfl, hok⟩ := ht.state _ rfl
    have hc : c.reqUnderConstruction = some r := ht.req
    have hm : ∀ r', maybeCommitReq (upd c r' []) =
        { c with reqUnderConstruction := none, requirements := c.requirements ++ [r'] } := by
      intro r'; simp [maybeCommitReq, upd]
    have e : parseStateReq st' c ⟨[(3, p.2.2), (2, p.2.1), (1, p.1)]⟩ =
        addReq (upd c (commit st' r) []) ⟨[(3, p.2.2), (2, p.2.1), (1, p.1)]⟩ := by
      have := commit_eq hc st' hok
      have e : parseStateReq st' c ⟨[(3, p.2.2), (2, p.2.1), (1, p.1)]⟩ = (do
          let c ← commitM st' c
          addReq c ⟨[(3, p.2.2), (2, p.2.1), (1, p.1)]⟩) := by cases st' <;> rfl
      rw [e, this]; rfl
    rw [e, hadd, hm]
    rfl

theorem utf8Size_pos (c : Char) : 1 ≤ c.utf8Size := Char.utf8Size_pos c

theorem utf8Len_nl : utf8Len ['\n'] = 1 := by decide

theorem lineEvent_nl (U : Unicode) : lineEvent U ['\n'] = .ok .empty := by
  simp [lineEvent, utf8Len_nl]; rfl

theorem reqParts_nl (U : Unicode) : reqParts U ['\n'] = none := by
  unfold reqParts
  rw [if_pos (by decide)]

/-- A line that trips the assertion. -/
def Trips (l : Str) : Prop := utf8Len l = 1 ∧ l ≠ ['\n']

theorem utf8Len_one {l : Str} (h : utf8Len l = 1) : ∃ c, l = [c] := by
  match l, h with
  | [], h => cases h
  | [c], _ => exact ⟨c, rfl⟩
  | c :: d :: t, h =>
    have h1 := utf8Size_pos c
    have h2 := utf8Size_pos d
    simp [utf8Len] at h
    omega

theorem lineEvent_trips (U : Unicode) {l : Str} (h : Trips l) : lineEvent U l = .error .mdAssert := by
  obtain ⟨c, rfl⟩ := utf8Len_one h.1
  have : ¬ [c].head? = some '\n' := by
    intro hc; simp at hc; subst hc; exact h.2 rfl
  unfold lineEvent
  rw [if_pos h.1, if_neg this]

theorem lineEvent_eq (U : Unicode) {l : Str} (hl : IsLine l) (h : ¬ Trips l) :
    lineEvent U l = .ok (match reqParts U l with
      | some p => .req ⟨[(3, p.2.2), (2, p.2.1), (1, p.1)]⟩
      | none => if l = ['\n'] then .empty else if l.head? = some '#' then .heading else .line l) := by
  by_cases hnl : l = ['\n']
  · subst hnl
    rw [lineEvent_nl, reqParts_nl]; rfl
  · have h1 : ¬ utf8Len l = 1 := fun h1 => h ⟨h1, hnl⟩
    unfold lineEvent
    rw [if_neg h1, requirement_captures U l hl]
    cases reqParts U l with
    | some p => rfl
    | none =>
      simp only [Option.map_none, hnl, if_false]
      have := heading_isMatch l
      cases l with
      | nil => simp at this ⊢; simp [this]; rfl
      | cons c t =>
        by_cases hc : c = '#'
        · subst hc
          have h2 : headingRe.isMatch ('#' :: t) = true := this.2 ⟨t, rfl⟩
          simp [h2]; rfl
        · have h2 : headingRe.isMatch (c :: t) = false := by
            cases hm : headingRe.isMatch (c :: t) with
            | false => rfl
            | true => obtain ⟨_, h3⟩ := this.1 hm; cases h3; exact absurd rfl hc
          simp [h2, hc]; rfl

/-- The body of the loop on a line that is not a requirement heading. -/
theorem bodyStep_eq (U : Unicode) {c : Context} {st : State} {r : Requirement}
    (h : c.reqUnderConstruction = some r) (hst : st.ok) {l : Str} (hl : IsLine l) (ht : ¬ Trips l)
    (hr : reqParts U l = none) :
    (lineEvent U l >>= fun evt => parseStates U st c evt) = .ok ((step U c.location st r l).1,
      upd c (step U c.location st r l).2.1 (step U c.location st r l).2.2) := by
  rw [lineEvent_eq U hl ht, hr]
  simp only [bind, Except.bind]
  unfold step
  by_cases h1 : l = ['\n']
  · simp only [h1, if_true, parseStates]
    exact emptyStep_eq h st hst
  · by_cases h2 : l.head? = some '#'
    · simp only [h1, h2, if_true, if_false, parseStates]
      exact headingStep_eq h st hst
    · simp only [h1, h2, if_false, parseStates]
      exact textStep_eq U h st hst l hl

/-- The body of the loop before the first requirement heading. -/
theorem idleStep_eq (U : Unicode) (c : Context) {l : Str} (hl : IsLine l) (ht : ¬ Trips l)
    (hr : reqParts U l = none) :
    (lineEvent U l >>= fun evt => parseStates U .lookForReq c evt) = .ok (.lookForReq, c) := by
  rw [lineEvent_eq U hl ht, hr]
  simp only [bind, Except.bind]
  by_cases h1 : l = ['\n']
  · simp only [h1, if_true, parseStates]; rfl
  · by_cases h2 : l.head? = some '#'
    · simp only [h1, h2, if_true, if_false, parseStates]; rfl
    · simp only [h1, h2, if_false, parseStates]; rfl

theorem parseLoop_eq (U : Unicode) (failure : Option Str) (ls : List Str) (st : State) (c : Context)
    (cur : Option (State × Requirement)) (ht : Tied c st cur)
    (hls : ∀ l ∈ ls, IsLine l ∧ ¬ Trips l) :
    ∃ c', parseLoop U failure ls st c = .ok c' ∧
      c'.requirements = c.requirements ++ (run U c.path (c.lineNumber + 1) ls cur).reqs ++
        (finish failure c.path (run U c.path (c.lineNumber + 1) ls cur).cur).1 ∧
      c'.errors = c.errors ++ (run U c.path (c.lineNumber + 1) ls cur).errs ++
        (finish failure c.path (run U c.path (c.lineNumber + 1) ls cur).cur).2 := by
  induction ls generalizing st c cur with
  | nil =>
    unfold parseLoop finish run
    cases failure with
    | some e => exact ⟨_, rfl, by simp [Context.push], by simp [Context.push]⟩
    | none =>
      cases cur with
      | none =>
        have hst := ht.idle rfl
        subst hst
        exact ⟨_, rfl, by simp, by simp⟩
      | some q =>
        obtain ⟨st', r⟩ := q
        obtain ⟨rfl, hok⟩ := ht.state _ rfl
        have hc : c.reqUnderConstruction = some r := ht.req
        simp only [parseStates]
        rw [eof_eq (c := { c with lineNumber := c.lineNumber + 1 }) hc st' hok]
        simp only [bind, Except.bind, pure, Except.pure]
        by_cases hs : st' = .lookForReq
        · simp [hs]
        · simp [hs]
  | cons l ls ih =>
    have hl := hls l (by simp)
    have hls' : ∀ l ∈ ls, IsLine l ∧ ¬ Trips l := fun l h => hls l (by simp [h])
    unfold parseLoop
    generalize hc1 : ({ c with lineNumber := c.lineNumber + 1 } : Context) = c1
    have ht1 : Tied c1 st cur := by subst hc1; exact ⟨ht.req, ht.state, ht.idle⟩
    have e1 : c1.path = c.path ∧ c1.lineNumber = c.lineNumber + 1 ∧ c1.requirements = c.requirements ∧
        c1.errors = c.errors := by subst hc1; exact ⟨rfl, rfl, rfl, rfl⟩
    obtain ⟨ep, en, er, ee⟩ := e1
    have eloc : c1.location = .newWithLineNo c.path (c.lineNumber + 1) := by
      unfold Context.location; rw [ep, en]
    have hassoc : ∀ (k : State × Context → PanicM Context), (do
        let evt ← lineEvent U l
        let x ← parseStates U st c1 evt
        k x) = ((lineEvent U l >>= fun evt => parseStates U st c1 evt) >>= k) := by
      intro k
      cases lineEvent U l <;> rfl
    simp only
    rw [hassoc]
    unfold run
    cases hq : reqParts U l with
    | some p =>
      simp only
      rw [lineEvent_eq U hl.1 hl.2, hq]
      simp only [bind, Except.bind, parseStates]
      rw [reqStep_eq ht1]
      simp only
      have ht2 : Tied (headed c1 cur p) .lookForDesc
          (some (.lookForDesc, newReq (.newWithLineNo c.path (c.lineNumber + 1)) p.2.1 p.2.2)) := by
        refine ⟨?_, ?_, ?_⟩
        · simp [headed, eloc]
        · intro q hq2; cases hq2; exact ⟨rfl, trivial⟩
        · intro h; cases h
      obtain ⟨c', h1, h2, h3⟩ := ih .lookForDesc (headed c1 cur p) _ ht2 hls'
      refine ⟨c', h1, ?_, ?_⟩
      · rw [h2]
        simp only [headed, ep, en, er, List.append_assoc]
      · rw [h3]
        simp only [headed, ep, en, ee]
    | none =>
      cases cur with
      | none =>
        have hst := ht.idle rfl
        subst hst
        rw [idleStep_eq U c1 hl.1 hl.2 hq]
        simp only [bind, Except.bind]
        obtain ⟨c', h1, h2, h3⟩ := ih .lookForReq c1 none ht1 hls'
        refine ⟨c', h1, ?_, ?_⟩
        · rw [h2, ep, en, er]
        · rw [h3, ep, en, ee]
      | some q =>
        obtain ⟨st', r⟩ := q
        obtain ⟨rfl, hok⟩ := ht.state _ rfl
        have hc : c1.reqUnderConstruction = some r := ht1.req
        rw [bodyStep_eq U hc hok hl.1 hl.2 hq]
        simp only [bind, Except.bind, eloc]
        generalize hs : step U (.newWithLineNo c.path (c.lineNumber + 1)) st' r l = s
        have ht2 : Tied (upd c1 s.2.1 s.2.2) s.1 (some (s.1, s.2.1)) := by
          refine ⟨rfl, ?_, ?_⟩
          · intro q hq2; cases hq2
            refine ⟨rfl, ?_⟩
            rw [← hs]; exact step_ok _ _ _ _ _ hok
          · intro h; cases h
        obtain ⟨c', h1, h2, h3⟩ := ih s.1 (upd c1 s.2.1 s.2.2) _ ht2 hls'
        refine ⟨c', h1, ?_, ?_⟩
        · rw [h2]
          simp only [upd, ep, en, er]
        · rw [h3]
          simp only [upd, ep, en, ee, List.append_assoc]

theorem parseLoop_trips (U : Unicode) (failure : Option Str) (ls : List Str) (last : Str) (st : State)
    (c : Context) (cur : Option (State × Requirement)) (ht : Tied c st cur)
    (hls : ∀ l ∈ ls, IsLine l ∧ ¬ Trips l) (hlast : Trips last) (rest : List Str) :
    parseLoop U failure (ls ++ last :: rest) st c = .error .mdAssert := by
  induction ls generalizing st c cur with
  | nil =>
    simp only [List.nil_append, parseLoop]
    rw [lineEvent_trips U hlast]; rfl
  | cons l ls ih =>
    have hl := hls l (by simp)
    have hls' : ∀ l ∈ ls, IsLine l ∧ ¬ Trips l := fun l h => hls l (by simp [h])
    rw [List.cons_append]
    unfold parseLoop
    generalize hc1 : ({ c with lineNumber := c.lineNumber + 1 } : Context) = c1
    have ht1 : Tied c1 st cur := by subst hc1; exact ⟨ht.req, ht.state, ht.idle⟩
    have hassoc : ∀ (k : State × Context → PanicM Context), (do
        let evt ← lineEvent U l
        let x ← parseStates U st c1 evt
        k x) = ((lineEvent U l >>= fun evt => parseStates U st c1 evt) >>= k) := by
      intro k
      cases lineEvent U l <;> rfl
    simp only
    rw [hassoc]
    cases hq : reqParts U l with
    | some p =>
      rw [lineEvent_eq U hl.1 hl.2, hq]
      simp only [bind, Except.bind, parseStates]
      rw [reqStep_eq ht1]
      simp only
      refine ih .lookForDesc (headed c1 cur p)
        (some (.lookForDesc, newReq c1.location p.2.1 p.2.2)) ⟨rfl, ?_, ?_⟩ hls'
      · intro q hq2; cases hq2; exact ⟨rfl, trivial⟩
      · intro h; cases h
    | none =>
      cases cur with
      | none =>
        have hst := ht.idle rfl
        subst hst
        rw [idleStep_eq U c1 hl.1 hl.2 hq]
        exact ih .lookForReq c1 none ht1 hls'
      | some q =>
        obtain ⟨st', r⟩ := q
        obtain ⟨rfl, hok⟩ := ht.state _ rfl
        have hc : c1.reqUnderConstruction = some r := ht1.req
        rw [bodyStep_eq U hc hok hl.1 hl.2 hq]
        simp only [bind, Except.bind]
        generalize hs : step U c1.location st' r l = s
        refine ih s.1 (upd c1 s.2.1 s.2.2) (some (s.1, s.2.1)) ⟨rfl, ?_, ?_⟩ hls'
        · intro q hq2; cases hq2
          refine ⟨rfl, ?_⟩
          rw [← hs]; exact step_ok _ _ _ _ _ hok
        · intro h; cases h

theorem tied_init (path : Path) : Tied (.init path) .lookForReq none :=
  ⟨rfl, (fun p h => by cases h), fun _ => rfl⟩

/-- What `parse` computes when the assertion holds. -/
theorem parse_eq (U : Unicode) (src : Source) (path : Path)
    (h : ∀ l ∈ splitLines src.text, ¬ Trips l) :
    parse U src path = .ok
      ((run U path 1 (splitLines src.text) none).reqs ++
        (finish src.failure path (run U path 1 (splitLines src.text) none).cur).1,
       (run U path 1 (splitLines src.text) none).errs ++
        (finish src.failure path (run U path 1 (splitLines src.text) none).cur).2) := by
  obtain ⟨c', h1, h2, h3⟩ := parseLoop_eq U src.failure (splitLines src.text) .lookForReq (.init path)
    none (tied_init path) (fun l hl => ⟨((splitLines_spec _).2.1 l hl).1, h l hl⟩)
  unfold parse
  rw [h1]
  simp only [bind, Except.bind, pure, Except.pure, h2, h3]
  simp [Context.init]

theorem parse_trips (U : Unicode) (src : Source) (path : Path)
    (h : ∃ l ∈ splitLines src.text, Trips l) : parse U src path = .error .mdAssert := by
  have key : ∀ (ls : List Str), (∃ l ∈ ls, Trips l) → ∃ a l b, ls = a ++ l :: b ∧ Trips l ∧
      ∀ x ∈ a, ¬ Trips x := by
    intro ls
    induction ls with
    | nil => rintro ⟨l, hl, _⟩; cases hl
    | cons x ls ih =>
      intro hx
      by_cases hx1 : Trips x
      · exact ⟨[], x, ls, rfl, hx1, by simp⟩
      · obtain ⟨l, hl, ht⟩ := hx
        rcases List.mem_cons.1 hl with rfl | hl
        · exact absurd ht hx1
        · obtain ⟨a, l', b, h1, h2, h3⟩ := ih ⟨l, hl, ht⟩
          refine ⟨x :: a, l', b, by simp [h1], h2, ?_⟩
          intro y hy
          rcases List.mem_cons.1 hy with rfl | hy
          · exact hx1
          · exact h3 y hy
  obtain ⟨a, l, b, h1, h2, h3⟩ := key _ h
  unfold parse
  have hline : ∀ l ∈ splitLines src.text, IsLine l := fun l hl => ((splitLines_spec _).2.1 l hl).1
  rw [h1] at hline ⊢
  rw [parseLoop_trips U src.failure a l .lookForReq (.init path) none (tied_init path)
    (fun x hx => ⟨hline x (by simp [hx]), h3 x hx⟩) h2 b]
  rfl

end Md

end Reqtrace
