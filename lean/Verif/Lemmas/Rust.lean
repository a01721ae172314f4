import Verif.Spec.Rust

/-!
# The Rust visitor as one pass over the macro calls
-/

namespace Reqtrace

open Rs Spec

/-- What one macro call does to requirements and errors. -/
def Rs.stepOcc (debug : List Tok → Str) (path : Path) (s : List Requirement × List Error) (o : Occ) :
    PanicM (List Requirement × List Error) := do
  let (_, p) ← parseMacro debug path ⟨s.1, s.2, o.names, o.loc.toList⟩ o.mac
  return (p.requirements, p.errors)

theorem itemName_eq (i : Item) : itemName i = i.symbol := by
  rcases i with _ | _ | ⟨t, _ | ⟨_ | _, tr⟩⟩ | _ | _ | _ <;> simp [itemName, Item.symbol]

theorem record_locs (p : Parser) (ref : Reference) (ls : List Location)
    (h : ls.getLast? = p.locations.getLast?) :
    record p ref = (do
      let q ← record { p with locations := ls } ref
      return { q with scope := p.scope, locations := p.locations }) := by
  unfold record
  simp only [h]
  cases h1 : p.requirements.getLast? with
  | none =>
    simp only
    cases p.locations.getLast? <;> rfl
  | some last =>
    simp only
    by_cases h2 : last.id = joinStr c!"::" p.scope
    · rw [if_pos h2, if_pos h2]; rfl
    · rw [if_neg h2, if_neg h2]
      cases p.locations.getLast? <;> rfl

theorem parseMacro_locs (debug : List Tok → Str) (path : Path) (p : Parser) (m : Mac)
    (loc : Option Location) (h : p.locations.getLast? = loc) :
    (do let (_, q) ← parseMacro debug path p m; pure q) = (do
      let s ← stepOcc debug path (p.requirements, p.errors) ⟨p.scope, loc, m⟩
      pure { p with requirements := s.1, errors := s.2 }) := by
  have hl : loc.toList.getLast? = p.locations.getLast? := by
    rw [h]; cases loc <;> rfl
  unfold stepOcc parseMacro
  simp only
  split
  · split
    · split
      · rfl
      · rename_i id title _
        rw [record_locs p _ _ hl]
        cases record { p with locations := loc.toList } ⟨id, title, .newWithLineAndColumn path m.line m.column⟩ <;> rfl
    · rfl
  · rfl

theorem record_same {p q : Parser} {ref : Reference} (h : record p ref = .ok q) :
    q.scope = p.scope ∧ q.locations = p.locations ∧ q.errors = p.errors := by
  rw [record_locs p ref p.locations rfl] at h
  cases h1 : record { p with locations := p.locations } ref with
  | error e => rw [h1] at h; cases h
  | ok q' =>
    rw [h1] at h; cases h
    refine ⟨rfl, rfl, ?_⟩
    unfold record at h1
    simp only at h1
    cases h2 : p.requirements.getLast? with
    | none =>
      rw [h2] at h1; simp only at h1
      cases h3 : p.locations.getLast? <;> rw [h3] at h1 <;> cases h1; rfl
    | some last =>
      rw [h2] at h1; simp only at h1
      by_cases h4 : last.id = joinStr c!"::" p.scope
      · rw [if_pos h4] at h1; cases h1; rfl
      · rw [if_neg h4] at h1
        cases h3 : p.locations.getLast? <;> rw [h3] at h1 <;> cases h1; rfl

/-- The visitor makes one pass over the macro calls and restores scope and locations. -/
theorem visit_eq (debug : List Tok → Str) (path : Path) (f : Forest) :
    ∀ (p : Parser) (loc : Option Location), p.locations.getLast? = loc →
      visit debug path f p = (do
        let s ← (occs path p.scope loc f).foldlM (stepOcc debug path) (p.requirements, p.errors)
        pure { p with requirements := s.1, errors := s.2 }) := by
  induction f with
  | nil => intro p loc _; rfl
  | mac m rest ih =>
    intro p loc h
    have h1 := parseMacro_locs debug path p m loc h
    rw [visit, occs, List.foldlM_cons]
    cases h2 : stepOcc debug path (p.requirements, p.errors) ⟨p.scope, loc, m⟩ with
    | error e =>
      rw [h2] at h1
      cases h3 : parseMacro debug path p m with
      | error e' => rw [h3] at h1; cases h1; rfl
      | ok q => rw [h3] at h1; cases h1
    | ok s =>
      rw [h2] at h1
      cases h3 : parseMacro debug path p m with
      | error e' => rw [h3] at h1; cases h1
      | ok q =>
        rw [h3] at h1
        obtain ⟨b, q⟩ := q
        have hq : q = { p with requirements := s.1, errors := s.2 } := by
          have h1' : (Except.ok q : PanicM Parser) = .ok { p with requirements := s.1, errors := s.2 } := h1
          cases h1'; rfl
        show visit debug path rest q = _
        rw [ih q loc (by rw [hq]; exact h), hq]
        rfl
  | item i l c inner rest ih1 ih2 =>
    intro p loc h
    rw [visit, occs, List.foldlM_append]
    rw [ih1 (push path p i l c) (some ⟨path, some (.lineAndColumn l c)⟩)
      (by simp [push, Location.newWithLineAndColumn])]
    have h1 : (push path p i l c).scope = p.scope ++ [itemName i] := by rw [itemName_eq]; rfl
    have h2 : (push path p i l c).requirements = p.requirements := rfl
    have h3 : (push path p i l c).errors = p.errors := rfl
    rw [h2, h3, ← h1]
    cases h4 : List.foldlM (stepOcc debug path) (p.requirements, p.errors)
      (occs path (push path p i l c).scope (some ⟨path, some (.lineAndColumn l c)⟩) inner) with
    | error e => rfl
    | ok s =>
      have h5 : pop { push path p i l c with requirements := s.1, errors := s.2 }
          = .ok { p with requirements := s.1, errors := s.2 } := by
        simp [pop, push, orPanic, bind, Except.bind, pure, Except.pure]
      show (pop { push path p i l c with requirements := s.1, errors := s.2 } >>= visit debug path rest) = _
      rw [h5]
      show visit debug path rest { p with requirements := s.1, errors := s.2 } = _
      rw [ih2 { p with requirements := s.1, errors := s.2 } loc h]
      rfl
  | node inner rest ih1 ih2 =>
    intro p loc h
    rw [visit, occs, List.foldlM_append, ih1 p loc h]
    cases h4 : List.foldlM (stepOcc debug path) (p.requirements, p.errors)
      (occs path p.scope loc inner) with
    | error e => rfl
    | ok s =>
      show visit debug path rest { p with requirements := s.1, errors := s.2 } = _
      rw [ih2 { p with requirements := s.1, errors := s.2 } loc h]
      rfl

/-! ## The arguments of a mark -/

theorem quoted_iff (s v : Str) : Quoted s v ↔ quoted s = true ∧ unquote s = v := by
  unfold Quoted quoted unquote
  have : s.filter (fun c => decide (c ≠ '"')) = s.filter (· != '"') := by
    congr 1; funext c; by_cases h : c = '"' <;> simp [h]
  rw [this]
  simp only [Bool.and_eq_true, beq_iff_eq]
  constructor
  · rintro ⟨a, b, c⟩; exact ⟨⟨a, b⟩, c.symm⟩
  · rintro ⟨⟨a, b⟩, c⟩; exact ⟨a, b, c.symm⟩

theorem readMac_ok (debug : List Tok → Str) (path : Path) (m : Mac) (id : Str) (title : Option Str) :
    readMac debug path m = .ok (id, title) ↔ Reads m id title := by
  unfold readMac
  constructor
  · intro h
    simp only at h
    split at h
    · cases h
    · rename_i t ht
      by_cases h1 : t.isIdent = true
      · rw [if_pos h1] at h; cases h; exact .inl ⟨t, ht, h1, rfl, rfl⟩
      · rw [if_neg h1] at h
        by_cases h2 : quoted t.text = true
        · rw [if_pos h2] at h; cases h
          exact .inr (.inl ⟨t, ht, by simpa using h1, (quoted_iff _ _).2 ⟨h2, rfl⟩, rfl⟩)
        · rw [if_neg h2] at h; cases h
    · rename_i t sep u ht
      by_cases h1 : t.isIdent = true
      · rw [if_pos h1] at h
        by_cases h2 : quoted u.text = true
        · rw [if_pos h2] at h; cases h
          exact .inr (.inr ⟨t, sep, u, _, ht, h1, rfl, (quoted_iff _ _).2 ⟨h2, rfl⟩, rfl⟩)
        · rw [if_neg h2] at h; cases h
      · rw [if_neg h1] at h; cases h
    · cases h
  · rintro (⟨t, ht, h1, rfl, rfl⟩ | ⟨t, ht, h1, h2, rfl⟩ | ⟨t, sep, u, v, ht, h1, rfl, h2, rfl⟩)
    · simp only [ht]; rw [if_pos h1]
    · obtain ⟨h3, rfl⟩ := (quoted_iff _ _).1 h2
      simp only [ht]; rw [if_neg (by rw [h1]; decide), if_pos h3]
    · obtain ⟨h3, rfl⟩ := (quoted_iff _ _).1 h2
      simp only [ht]; rw [if_pos h1, if_pos h3]

theorem readMac_error (debug : List Tok → Str) (path : Path) (m : Mac) (e : Error)
    (h : readMac debug path m = .error e) :
    ∃ line column msg, e = .format ⟨path, some (.lineAndColumn line column)⟩ msg ∧
      ((line, column) = (m.line, m.column) ∨ ∃ t ∈ m.tokens, (line, column) = (t.line, t.column)) := by
  unfold readMac at h
  simp only at h
  split at h
  · cases h; exact ⟨_, _, _, rfl, .inl rfl⟩
  · rename_i t ht
    split at h
    · cases h
    · split at h
      · cases h
      · cases h; exact ⟨_, _, _, rfl, .inr ⟨t, by rw [ht]; simp, rfl⟩⟩
  · rename_i t s u ht
    split at h
    · split at h
      · cases h
      · cases h; exact ⟨_, _, _, rfl, .inr ⟨u, by rw [ht]; simp, rfl⟩⟩
    · cases h; exact ⟨_, _, _, rfl, .inr ⟨t, by rw [ht]; simp, rfl⟩⟩
  · cases h; exact ⟨_, _, _, rfl, .inl rfl⟩

theorem parseMacro_other (debug : List Tok → Str) (path : Path) (p : Parser) (m : Mac)
    (h : ¬ IsMark m) : parseMacro debug path p m = .ok (false, p) := by
  unfold parseMacro
  split
  · rename_i seg hs
    rw [if_neg]
    intro h'
    exact h (by unfold IsMark; rw [hs, h'])
  · rfl

theorem parseMacro_mark (debug : List Tok → Str) (path : Path) (p : Parser) (m : Mac)
    (h : IsMark m) : parseMacro debug path p m =
      match readMac debug path m with
      | .error e => .ok (true, { p with errors := p.errors ++ [e] })
      | .ok (id, title) => do
        let p ← record p ⟨id, title, .newWithLineAndColumn path m.line m.column⟩
        return (true, p) := by
  unfold IsMark at h
  unfold parseMacro
  rw [h]
  rfl

/-! ## Joined names -/

theorem joined_iff (ns : List Str) (s : Str) : Joined ns s ↔ s = joinStr c!"::" ns := by
  constructor
  · intro h
    induction h with
    | nil => rfl
    | one => rfl
    | cons n _ ih => rw [joinStr, ih]
  · intro h; subst h
    induction ns with
    | nil => exact .nil
    | cons n t ih =>
      cases t with
      | nil => exact .one n
      | cons m t => exact .cons n ih

theorem joinStr_ne_nil : ∀ {ns : List Str}, ns ≠ [] → (∀ n ∈ ns, n ≠ []) → joinStr c!"::" ns ≠ []
  | [n], _, h => h n (by simp)
  | n :: m :: t, _, h => by
    rw [joinStr]
    have := h n (by simp)
    cases n with
    | nil => exact absurd rfl this
    | cons c cs => simp

/-! ## Recording a reference -/

/-- The new requirement that a reference opens. -/
def Rs.fresh (e : Entry) (loc : Location) : Requirement :=
  ⟨joinStr c!"::" e.names, none, loc, [e.ref], [], [], .empty⟩

theorem record_spec (rs : List Requirement) (es : List Error) (e : Entry) :
    record ⟨rs, es, e.names, e.loc.toList⟩ e.ref =
      match rs.getLast? with
      | some last =>
        if last.id = joinStr c!"::" e.names then
          .ok ⟨rs.dropLast ++ [{ last with covers := last.covers ++ [e.ref] }], es, e.names, e.loc.toList⟩
        else match e.loc with
          | some loc => .ok ⟨rs ++ [fresh e loc], es, e.names, e.loc.toList⟩
          | none => .error .rustNoScope
      | none => match e.loc with
          | some loc => .ok ⟨rs ++ [fresh e loc], es, e.names, e.loc.toList⟩
          | none => .error .rustNoScope := by
  obtain ⟨ns, loc, ref⟩ := e
  unfold record
  cases rs.getLast? with
  | none => cases loc <;> rfl
  | some last =>
    simp only
    by_cases h : last.id = joinStr c!"::" ns
    · rw [if_pos h, if_pos h]
    · rw [if_neg h, if_neg h]; cases loc <;> rfl

theorem grouped_snoc_fresh {rs : List Requirement} {es : List Entry} {e : Entry} {loc : Location}
    (h : Grouped rs es) (hl : e.loc = some loc)
    (hne : ∀ last, rs.getLast? = some last → last.id ≠ joinStr c!"::" e.names) :
    Grouped (rs ++ [fresh e loc]) (es ++ [e]) := by
  obtain ⟨gs, h1, h2, h3, h4⟩ := h
  refine ⟨gs ++ [(fresh e loc, [e])], by simp [h1], by simp [h2], ?_, ?_⟩
  · intro g hg
    rcases List.mem_append.1 hg with hg | hg
    · exact h3 g hg
    · rw [List.mem_singleton.1 hg]
      exact ⟨rfl, by intro e' he'; rw [List.mem_singleton.1 he']; exact (joined_iff _ _).2 rfl,
        ⟨e, [], rfl, hl⟩, rfl, rfl, rfl, rfl⟩
  · intro a r s b hab
    rcases List.eq_nil_or_concat b with hb | ⟨b', x, hb⟩
    · subst hb
      have : rs ++ [fresh e loc] = (a ++ [r]) ++ [s] := by rw [hab]; simp
      have h5 := List.append_inj' this rfl
      have h6 : s = fresh e loc := by simpa using h5.2.symm
      rw [h6]
      exact hne r (by rw [h5.1]; simp)
    · subst hb
      have : rs ++ [fresh e loc] = (a ++ r :: s :: b') ++ [x] := by rw [hab]; simp
      exact h4 a r s b' (List.append_inj' this rfl).1

theorem grouped_snoc_same {rs : List Requirement} {es : List Entry} {e : Entry} {last : Requirement}
    (h : Grouped rs es) (hl : rs.getLast? = some last) (hid : last.id = joinStr c!"::" e.names) :
    Grouped (rs.dropLast ++ [{ last with covers := last.covers ++ [e.ref] }]) (es ++ [e]) := by
  obtain ⟨gs, h1, h2, h3, h4⟩ := h
  obtain ⟨u, hu⟩ := List.getLast?_eq_some_iff.1 hl
  rcases List.eq_nil_or_concat gs with hg | ⟨gs', g, hg⟩
  · subst hg; subst h1; cases hl
  · rw [List.concat_eq_append] at hg
    subst hg
    rw [List.map_append, hu] at h1
    have h5 := List.append_inj' h1 rfl
    have h6 : g.1 = last := by simpa using h5.2
    have hrun := h3 g (by simp)
    refine ⟨gs' ++ [({ last with covers := last.covers ++ [e.ref] }, g.2 ++ [e])], ?_, ?_, ?_, ?_⟩
    · rw [List.map_append, h5.1, hu]; simp
    · rw [← h2]; simp
    · intro g' hg'
      rcases List.mem_append.1 hg' with hg' | hg'
      · exact h3 g' (List.mem_append_left _ hg')
      · rw [List.mem_singleton.1 hg']
        obtain ⟨r1, r2, ⟨e', rest, r3, r4⟩, r5⟩ := hrun
        rw [h6] at r1 r2 r4 r5
        refine ⟨by simp [r1], ?_, ⟨e', rest ++ [e], by simp [r3], r4⟩, r5⟩
        intro x hx
        rcases List.mem_append.1 hx with hx | hx
        · exact r2 x hx
        · rw [List.mem_singleton.1 hx]; exact (joined_iff _ _).2 hid
    · intro a r s b hab
      rcases List.eq_nil_or_concat b with hb | ⟨b', x, hb⟩
      · subst hb
        have : rs.dropLast ++ [{ last with covers := last.covers ++ [e.ref] }] = (a ++ [r]) ++ [s] := by
          rw [hab]; simp
        have h5 := List.append_inj' this rfl
        have h6 : s = { last with covers := last.covers ++ [e.ref] } := by simpa using h5.2.symm
        rw [h6]
        refine h4 a r last [] ?_
        rw [hu] at h5 ⊢
        have := h5.1
        simp only [List.dropLast_concat] at this
        rw [this]; simp
      · subst hb
        have : rs.dropLast ++ [{ last with covers := last.covers ++ [e.ref] }] = (a ++ r :: s :: b') ++ [x] := by
          rw [hab]; simp
        have h5 := (List.append_inj' this rfl).1
        refine h4 a r s (b' ++ [last]) ?_
        rw [hu] at h5 ⊢
        simp only [List.dropLast_concat] at h5
        rw [h5]; simp

theorem record_grouped {rs : List Requirement} {errs : List Error} {es : List Entry} {e : Entry} {q : Parser}
    (h : Grouped rs es) (hr : record ⟨rs, errs, e.names, e.loc.toList⟩ e.ref = .ok q) :
    Grouped q.requirements (es ++ [e]) ∧ q.errors = errs := by
  rw [record_spec] at hr
  cases h1 : rs.getLast? with
  | none =>
    rw [h1] at hr; simp only at hr
    cases h2 : e.loc with
    | none => rw [h2] at hr; cases hr
    | some loc =>
      rw [h2] at hr; cases hr
      exact ⟨grouped_snoc_fresh h h2 (by rw [h1]; intro _ h; cases h), rfl⟩
  | some last =>
    rw [h1] at hr; simp only at hr
    by_cases h3 : last.id = joinStr c!"::" e.names
    · rw [if_pos h3] at hr; cases hr
      exact ⟨grouped_snoc_same h h1 h3, rfl⟩
    · rw [if_neg h3] at hr
      cases h2 : e.loc with
      | none => rw [h2] at hr; cases hr
      | some loc =>
        rw [h2] at hr; cases hr
        exact ⟨grouped_snoc_fresh h h2 (by rw [h1]; intro _ h; cases h; exact h3), rfl⟩

theorem stepOcc_cases (debug : List Tok → Str) (path : Path) (rs : List Requirement) (errs : List Error)
    (o : Occ) :
    (¬ IsMark o.mac ∧ stepOcc debug path (rs, errs) o = .ok (rs, errs)) ∨
    (IsMark o.mac ∧ (∀ id title, ¬ Reads o.mac id title) ∧ ∃ line column msg,
      ((line, column) = (o.mac.line, o.mac.column) ∨ ∃ t ∈ o.mac.tokens, (line, column) = (t.line, t.column)) ∧
      stepOcc debug path (rs, errs) o =
        .ok (rs, errs ++ [.format ⟨path, some (.lineAndColumn line column)⟩ msg])) ∨
    (IsMark o.mac ∧ ∃ id title, Reads o.mac id title ∧ stepOcc debug path (rs, errs) o = (do
      let q ← record ⟨rs, errs, o.names, o.loc.toList⟩
        ⟨id, title, ⟨path, some (.lineAndColumn o.mac.line o.mac.column)⟩⟩
      pure (q.requirements, q.errors))) := by
  by_cases hm : IsMark o.mac
  · right
    cases hr : readMac debug path o.mac with
    | error e =>
      left
      obtain ⟨l, c, msg, he, hp⟩ := readMac_error debug path o.mac e hr
      refine ⟨hm, ?_, l, c, msg, hp, ?_⟩
      · intro id title h
        rw [(readMac_ok debug path o.mac id title).2 h] at hr; cases hr
      · unfold stepOcc
        rw [parseMacro_mark _ _ _ _ hm, hr, he]; rfl
    | ok v =>
      right
      obtain ⟨id, title⟩ := v
      refine ⟨hm, id, title, (readMac_ok debug path o.mac id title).1 hr, ?_⟩
      unfold stepOcc
      rw [parseMacro_mark _ _ _ _ hm, hr]
      simp only
      show _ = (do
        let q ← record ⟨rs, errs, o.names, o.loc.toList⟩
          ⟨id, title, .newWithLineAndColumn path o.mac.line o.mac.column⟩
        pure (q.requirements, q.errors))
      cases record ⟨rs, errs, o.names, o.loc.toList⟩
          ⟨id, title, .newWithLineAndColumn path o.mac.line o.mac.column⟩ <;> rfl
  · left
    refine ⟨hm, ?_⟩
    unfold stepOcc
    rw [parseMacro_other _ _ _ _ hm]; rfl

/-- The whole pass, when it returns. -/
theorem fold_ok (debug : List Tok → Str) (path : Path) :
    ∀ (os : List Occ) (rs : List Requirement) (errs : List Error) (es : List Entry)
      (rs' : List Requirement) (errs' : List Error), Grouped rs es →
      os.foldlM (stepOcc debug path) (rs, errs) = .ok (rs', errs') →
      ∃ es1 errs1, Marks path os es1 errs1 ∧ Grouped rs' (es ++ es1) ∧ errs' = errs ++ errs1 := by
  intro os
  induction os with
  | nil =>
    intro rs errs es rs' errs' hg h
    cases h
    exact ⟨[], [], .nil, by simpa using hg, by simp⟩
  | cons o os ih =>
    intro rs errs es rs' errs' hg h
    rw [List.foldlM_cons] at h
    rcases stepOcc_cases debug path rs errs o with ⟨hm, hs⟩ | ⟨hm, hn, l, c, msg, hp, hs⟩ | ⟨hm, id, title, hr, hs⟩
    · rw [hs] at h
      obtain ⟨es1, errs1, h1, h2, h3⟩ := ih rs errs es rs' errs' hg h
      exact ⟨es1, errs1, .other hm h1, h2, h3⟩
    · rw [hs] at h
      obtain ⟨es1, errs1, h1, h2, h3⟩ := ih rs _ es rs' errs' hg h
      exact ⟨es1, _, .bad hm hn hp h1, h2, by rw [h3, List.append_assoc]; rfl⟩
    · rw [hs] at h
      cases hq : record ⟨rs, errs, o.names, o.loc.toList⟩
        ⟨id, title, ⟨path, some (.lineAndColumn o.mac.line o.mac.column)⟩⟩ with
      | error p => rw [hq] at h; cases h
      | ok q =>
        rw [hq] at h
        have hg' := record_grouped (e := ⟨o.names, o.loc, ⟨id, title, _⟩⟩) hg hq
        obtain ⟨es1, errs1, h1, h2, h3⟩ := ih q.requirements q.errors _ rs' errs' hg'.1 h
        exact ⟨_, errs1, .good hm hr h1, by rw [List.append_assoc] at h2; exact h2, by rw [h3, hg'.2]⟩

/-- The pass returns when every readable mark is inside an item. -/
theorem fold_returns (debug : List Tok → Str) (path : Path) :
    ∀ (os : List Occ) (s : List Requirement × List Error),
      (∀ o ∈ os, IsMark o.mac → (∃ id title, Reads o.mac id title) → o.loc ≠ none) →
      ∃ s', os.foldlM (stepOcc debug path) s = .ok s' := by
  intro os
  induction os with
  | nil => intro s _; exact ⟨s, rfl⟩
  | cons o os ih =>
    intro s h
    have ht := fun o' ho' => h o' (List.mem_cons_of_mem _ ho')
    have : ∃ s1, stepOcc debug path s o = .ok s1 := by
      obtain ⟨rs, errs⟩ := s
      rcases stepOcc_cases debug path rs errs o with ⟨hm, hs⟩ | ⟨hm, hn, l, c, msg, hp, hs⟩ | ⟨hm, id, title, hr, hs⟩
      · exact ⟨_, hs⟩
      · exact ⟨_, hs⟩
      · have hl := h o (List.mem_cons_self ..) hm ⟨id, title, hr⟩
        obtain ⟨loc, hloc⟩ := Option.ne_none_iff_exists'.1 hl
        have : ∃ q, record ⟨rs, errs, o.names, o.loc.toList⟩
            ⟨id, title, ⟨path, some (.lineAndColumn o.mac.line o.mac.column)⟩⟩ = .ok q := by
          rw [record_spec rs errs ⟨o.names, o.loc, ⟨id, title, _⟩⟩]
          simp only [hloc]
          cases rs.getLast? with
          | none => exact ⟨_, rfl⟩
          | some last =>
            simp only
            by_cases h3 : last.id = joinStr c!"::" o.names
            · rw [if_pos h3]; exact ⟨_, rfl⟩
            · rw [if_neg h3]; exact ⟨_, rfl⟩
        obtain ⟨q, hq⟩ := this
        exact ⟨_, by rw [hs, hq]; rfl⟩
    obtain ⟨s1, hs1⟩ := this
    obtain ⟨s', hs'⟩ := ih s1 ht
    exact ⟨s', by rw [List.foldlM_cons, hs1]; exact hs'⟩

theorem Spec.Marks.mem_entry {path : Path} {os : List Occ} {es : List Entry} {errs : List Error}
    (h : Marks path os es errs) : ∀ e ∈ es, ∃ o ∈ os, IsMark o.mac ∧ Reads o.mac e.ref.id e.ref.title ∧
      e.names = o.names ∧ e.loc = o.loc ∧
      e.ref.location = ⟨path, some (.lineAndColumn o.mac.line o.mac.column)⟩ := by
  induction h with
  | nil => intro e he; cases he
  | other _ _ ih =>
    intro e he
    obtain ⟨o, ho, h⟩ := ih e he
    exact ⟨o, List.mem_cons_of_mem _ ho, h⟩
  | good hm hr _ ih =>
    intro e he
    rcases List.mem_cons.1 he with he | he
    · subst he; exact ⟨_, List.mem_cons_self .., hm, hr, rfl, rfl, rfl⟩
    · obtain ⟨o, ho, h⟩ := ih e he
      exact ⟨o, List.mem_cons_of_mem _ ho, h⟩
  | bad _ _ _ _ ih =>
    intro e he
    obtain ⟨o, ho, h⟩ := ih e he
    exact ⟨o, List.mem_cons_of_mem _ ho, h⟩

/-- In the spec, what surrounds a call: the location is known exactly if there is a name. -/
theorem occs_loc (path : Path) (f : Forest) :
    ∀ (names : List Str) (loc : Option Location), (loc = none ↔ names = []) →
      ∀ o ∈ occs path names loc f, (o.loc = none ↔ o.names = []) := by
  induction f with
  | nil => intro _ _ _ o ho; cases ho
  | mac m rest ih =>
    intro names loc h o ho
    rcases List.mem_cons.1 ho with ho | ho
    · subst ho; exact h
    · exact ih names loc h o ho
  | item i l c inner rest ih1 ih2 =>
    intro names loc h o ho
    rcases List.mem_append.1 ho with ho | ho
    · exact ih1 _ _ (by simp) o ho
    · exact ih2 names loc h o ho
  | node inner rest ih1 ih2 =>
    intro names loc h o ho
    rcases List.mem_append.1 ho with ho | ho
    · exact ih1 names loc h o ho
    · exact ih2 names loc h o ho

/-- The pass panics at a readable mark outside all items, if no path is empty. -/
theorem fold_panics (debug : List Tok → Str) (path : Path) :
    ∀ (os : List Occ) (rs : List Requirement) (errs : List Error),
      (∀ o ∈ os, (o.loc = none ↔ o.names = []) ∧ (∀ n ∈ o.names, n ≠ [])) →
      (∀ r ∈ rs, r.id ≠ []) →
      (∃ o ∈ os, IsMark o.mac ∧ (∃ id title, Reads o.mac id title) ∧ o.loc = none) →
      os.foldlM (stepOcc debug path) (rs, errs) = .error .rustNoScope := by
  intro os
  induction os with
  | nil => rintro _ _ _ _ ⟨o, ho, _⟩; cases ho
  | cons o os ih =>
    intro rs errs hw hid hex
    have hwt := fun o' ho' => hw o' (List.mem_cons_of_mem _ ho')
    rw [List.foldlM_cons]
    rcases stepOcc_cases debug path rs errs o with ⟨hm, hs⟩ | ⟨hm, hn, l, c, msg, hp, hs⟩ | ⟨hm, id, title, hr, hs⟩
    · rw [hs]
      refine ih rs errs hwt hid ?_
      obtain ⟨o', ho', h1, h2⟩ := hex
      rcases List.mem_cons.1 ho' with e | ho'
      · subst e; exact absurd h1 hm
      · exact ⟨o', ho', h1, h2⟩
    · rw [hs]
      refine ih rs _ hwt hid ?_
      obtain ⟨o', ho', h1, ⟨id, title, h2⟩, h3⟩ := hex
      rcases List.mem_cons.1 ho' with e | ho'
      · subst e; exact absurd h2 (hn id title)
      · exact ⟨o', ho', h1, ⟨id, title, h2⟩, h3⟩
    · rw [hs]
      have hwo := hw o (List.mem_cons_self ..)
      cases hl : o.loc with
      | none =>
        have hnil := hwo.1.1 hl
        have : record ⟨rs, errs, o.names, o.loc.toList⟩
            ⟨id, title, ⟨path, some (.lineAndColumn o.mac.line o.mac.column)⟩⟩ = .error .rustNoScope := by
          rw [record_spec rs errs ⟨o.names, o.loc, ⟨id, title, _⟩⟩]
          simp only [hl, hnil, joinStr]
          cases hlast : rs.getLast? with
          | none => rfl
          | some last =>
            simp only
            rw [if_neg (hid last (List.mem_of_getLast? hlast))]
        rw [hl] at this
        rw [this]; rfl
      | some loc =>
        have hnn : o.names ≠ [] := by
          intro h; rw [hwo.1.2 h] at hl; cases hl
        have hj := joinStr_ne_nil hnn hwo.2
        have : ∃ q, record ⟨rs, errs, o.names, o.loc.toList⟩
            ⟨id, title, ⟨path, some (.lineAndColumn o.mac.line o.mac.column)⟩⟩ = .ok q ∧
            ∀ r ∈ q.requirements, r.id ≠ [] := by
          rw [record_spec rs errs ⟨o.names, o.loc, ⟨id, title, _⟩⟩]
          simp only [hl]
          have hfresh : ∀ r ∈ rs ++ [fresh ⟨o.names, o.loc, ⟨id, title, ⟨path, some (.lineAndColumn o.mac.line o.mac.column)⟩⟩⟩ loc], r.id ≠ [] := by
            intro r hr
            rcases List.mem_append.1 hr with hr | hr
            · exact hid r hr
            · rw [List.mem_singleton.1 hr]; exact hj
          rw [hl] at hfresh
          cases hlast : rs.getLast? with
          | none => exact ⟨_, rfl, hfresh⟩
          | some last =>
            simp only
            by_cases h3 : last.id = joinStr c!"::" o.names
            · rw [if_pos h3]
              refine ⟨_, rfl, ?_⟩
              intro r hr
              rcases List.mem_append.1 hr with hr | hr
              · exact hid r ((List.dropLast_sublist _).mem hr)
              · rw [List.mem_singleton.1 hr]; exact hid last (List.mem_of_getLast? hlast)
            · rw [if_neg h3]; exact ⟨_, rfl, hfresh⟩
        obtain ⟨q, hq, hq'⟩ := this
        rw [hl] at hq
        rw [hq]
        refine ih q.requirements q.errors hwt hq' ?_
        obtain ⟨o', ho', h1, h2, h3⟩ := hex
        rcases List.mem_cons.1 ho' with e | ho'
        · subst e; rw [hl] at h3; cases h3
        · exact ⟨o', ho', h1, h2, h3⟩

/-- `parse` when the file can be read and parsed. -/
theorem parse_eq_fold (syn : Syn) (src : Source) (path : Path) (file : Forest)
    (h1 : src.failure = none) (h2 : syn.parseFile src.text = .ok file) :
    Rs.parse syn src path = (occs path [] none file).foldlM (stepOcc syn.debug path) ([], []) := by
  unfold Rs.parse
  rw [h1]; simp only; rw [h2]; simp only
  rw [visit_eq syn.debug path file ⟨[], [], [], []⟩ none rfl]
  cases (occs path [] none file).foldlM (stepOcc syn.debug path) ([], []) <;> rfl

end Reqtrace
