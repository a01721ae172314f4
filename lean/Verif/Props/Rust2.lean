import Verif.Props.Rust

/-!
# Property C80: the complete result for a Rust file
-/

namespace Reqtrace

open Rs Spec

namespace Rs

/-- The error for the arguments of a mark. -/
theorem readMac_error_iff (debug : List Tok → Str) (path : Path) (m : Mac) (e : Error) :
    readMac debug path m = .error e ↔
      ∃ l c msg, Mistake debug m l c msg ∧ e = .format ⟨path, some (.lineAndColumn l c)⟩ msg := by
  have notQuoted : ∀ s : Str, quoted s = false → ∀ v, ¬ Quoted s v := by
    intro s hs v h
    rw [((quoted_iff s v).1 h).1] at hs; cases hs
  have isQuoted : ∀ s : Str, (∀ v, ¬ Quoted s v) → quoted s = false := by
    intro s h
    cases hs : quoted s with
    | false => rfl
    | true => exact absurd ((quoted_iff s _).2 ⟨hs, rfl⟩) (h _)
  constructor
  · intro h
    unfold readMac at h
    simp only at h
    split at h
    · rename_i ht; cases h; exact ⟨_, _, _, .nothing ht, rfl⟩
    · rename_i t ht
      split at h
      · cases h
      · rename_i h1
        split at h
        · cases h
        · rename_i h2
          cases h
          exact ⟨_, _, _, .single ht (by simpa using h1) (notQuoted _ (by simpa using h2)), rfl⟩
    · rename_i t s u ht
      split at h
      · rename_i h1
        split at h
        · cases h
        · rename_i h2
          cases h
          exact ⟨_, _, _, .second ht h1 (notQuoted _ (by simpa using h2)), rfl⟩
      · rename_i h1
        cases h
        exact ⟨_, _, _, .first ht (by simpa using h1), rfl⟩
    · rename_i h0 h1 h3
      cases h
      refine ⟨_, _, _, .count ?_, rfl⟩
      match hm : m.tokens with
      | [] => exact absurd hm h0
      | [t] => exact absurd hm (h1 t)
      | [_, _] => exact .inl rfl
      | [t, s, u] => exact absurd hm (h3 t s u)
      | _ :: _ :: _ :: _ :: r => right; simp
  · rintro ⟨l, c, msg, h, rfl⟩
    cases h with
    | nothing ht => unfold readMac; simp only [ht]; rfl
    | single ht hi hq =>
      unfold readMac
      simp only [ht, hi, isQuoted _ hq]
      rfl
    | first ht hi =>
      unfold readMac
      simp only [ht, hi]
      rfl
    | second ht hi hq =>
      unfold readMac
      simp only [ht, hi, isQuoted _ hq]
      rfl
    | count hl =>
      unfold readMac
      match hm : m.tokens with
      | [] => rw [hm] at hl; simp at hl
      | [t] => rw [hm] at hl; simp at hl
      | [_, _] => rfl
      | [t, s, u] => rw [hm] at hl; simp at hl
      | _ :: _ :: _ :: _ :: r => rfl

/-- One reference more. -/
def add (rs : List Requirement) (e : Entry) : PanicM (List Requirement) :=
  match rs.getLast? with
  | some last =>
    if last.id = joinStr c!"::" e.names then .ok (rs.dropLast ++ [{ last with covers := last.covers ++ [e.ref] }])
    else match e.loc with
      | some loc => .ok (rs ++ [fresh e loc])
      | none => .error .rustNoScope
  | none => match e.loc with
      | some loc => .ok (rs ++ [fresh e loc])
      | none => .error .rustNoScope

theorem record_add (rs : List Requirement) (errs : List Error) (e : Entry) :
    (do let q ← record ⟨rs, errs, e.names, e.loc.toList⟩ e.ref; pure (q.requirements, q.errors)) =
      (do let r ← add rs e; pure (r, errs) : PanicM _) := by
  rw [record_spec]
  unfold add
  cases rs.getLast? with
  | none => cases e.loc <;> rfl
  | some last =>
    simp only
    split
    · rfl
    · cases e.loc <;> rfl

theorem grouped_nil {reqs : List Requirement} : Grouped reqs [] ↔ reqs = [] := by
  constructor
  · rintro ⟨gs, rfl, h2, h3, _⟩
    cases gs with
    | nil => rfl
    | cons g gs =>
      obtain ⟨_, _, ⟨e, r, h4, _⟩, _⟩ := h3 g (by simp)
      simp [h4] at h2
  · rintro rfl
    exact ⟨[], rfl, rfl, by simp, by simp⟩

theorem grouped_snoc {reqs : List Requirement} {es : List Entry} {e : Entry} :
    Grouped reqs (es ++ [e]) ↔ ∃ rs, Grouped rs es ∧ add rs e = .ok reqs := by
  constructor
  · rintro ⟨gs, rfl, h2, h3, h4⟩
    rcases List.eq_nil_or_concat gs with rfl | ⟨gs', g, rfl⟩
    · simp at h2
    · rw [List.concat_eq_append] at h2 h3 h4 ⊢
      obtain ⟨r, run⟩ := g
      have hrun := h3 (r, run) (by simp)
      rcases List.eq_nil_or_concat run with rfl | ⟨run', e', rfl⟩
      · obtain ⟨_, _, ⟨_, _, h, _⟩, _⟩ := hrun; cases h
      · rw [List.concat_eq_append] at h2 hrun
        have h5 : (gs'.map Prod.snd).flatten ++ run' ++ [e'] = es ++ [e] := by
          rw [← h2]; simp
        have h6 := List.append_inj' h5 rfl
        have he : e' = e := by simpa using h6.2
        subst he
        have hpre : ∀ g ∈ gs', IsRun g.1 g.2 := fun g hg => h3 g (by simp [hg])
        have hadj : ∀ a r s b, gs'.map Prod.fst = a ++ r :: s :: b → r.id ≠ s.id := by
          intro a r' s b hab
          refine h4 a r' s (b ++ [r]) ?_
          rw [List.map_append, hab]
          simp
        obtain ⟨hc, hj, ⟨e1, rest, hr, hl⟩, ht, hd, htg, hat⟩ := hrun
        simp only at hc hj hr hl ht hd htg hat
        have hid : r.id = joinStr c!"::" e'.names := (joined_iff _ _).1 (hj e' (by simp))
        cases run' with
        | nil =>
          simp only [List.nil_append, List.cons.injEq] at hr
          obtain ⟨rfl, rfl⟩ := hr
          refine ⟨gs'.map Prod.fst, ⟨gs', rfl, by simpa using h6.1, hpre, hadj⟩, ?_⟩
          have hfresh : r = fresh e' r.location := by
            obtain ⟨rid, rt, rl, rc, rd, rg, ra⟩ := r
            simp only at hid hc hl ht hd htg hat
            subst hid hc ht hd htg hat
            rfl
          unfold add
          cases hlast : (gs'.map Prod.fst).getLast? with
          | none =>
            simp only [hl]
            rw [List.map_append, ← hfresh]; rfl
          | some last =>
            simp only [hl]
            obtain ⟨u, hu⟩ := List.getLast?_eq_some_iff.1 hlast
            have := h4 u last r [] (by rw [List.map_append, hu]; simp)
            rw [if_neg (by rw [← hid]; exact this), List.map_append, ← hfresh]; rfl
        | cons e2 run' =>
          simp only [List.cons_append, List.cons.injEq] at hr
          obtain ⟨rfl, rfl⟩ := hr
          let r0 : Requirement := { r with covers := (e2 :: run').map Entry.ref }
          refine ⟨gs'.map Prod.fst ++ [r0], ⟨gs' ++ [(r0, e2 :: run')], by simp, by rw [← h6.1]; simp, ?_, ?_⟩, ?_⟩
          · intro g hg
            rcases List.mem_append.1 hg with hg | hg
            · exact hpre g hg
            · rw [List.mem_singleton.1 hg]
              exact ⟨rfl, fun x hx => hj x (by
                rcases List.mem_cons.1 hx with rfl | hx
                · simp
                · simp [hx]), ⟨e2, run', rfl, hl⟩, ht, hd, htg, hat⟩
          · intro a r' s b hab
            rcases List.eq_nil_or_concat b with rfl | ⟨b', x, rfl⟩
            · have : gs'.map Prod.fst ++ [r0] = (a ++ [r']) ++ [s] := by rw [hab]; simp
              have h7 := List.append_inj' this rfl
              have h8 : r0 = s := by simpa using h7.2
              subst h8
              exact h4 a r' r [] (by rw [List.map_append, h7.1]; simp)
            · rw [List.concat_eq_append] at hab
              have : gs'.map Prod.fst ++ [r0] = (a ++ r' :: s :: b') ++ [x] := by rw [hab]; simp
              exact hadj a r' s b' (List.append_inj' this rfl).1
          · unfold add
            rw [List.getLast?_append, List.getLast?_singleton]
            simp only [Option.some_or]
            rw [if_pos (show r0.id = _ from hid), List.dropLast_concat, List.map_append]
            have : ({ r0 with covers := r0.covers ++ [e'.ref] } : Requirement) = r := by
              obtain ⟨rid, rt, rl, rc, rd, rg, ra⟩ := r
              simp only at hc
              subst hc
              simp [r0]
            rw [this]; rfl
  · rintro ⟨rs, hg, ha⟩
    unfold add at ha
    cases h1 : rs.getLast? with
    | none =>
      rw [h1] at ha; simp only at ha
      cases h2 : e.loc with
      | none => rw [h2] at ha; cases ha
      | some loc =>
        rw [h2] at ha; cases ha
        exact grouped_snoc_fresh hg h2 (by rw [h1]; intro _ h; cases h)
    | some last =>
      rw [h1] at ha; simp only at ha
      by_cases h3 : last.id = joinStr c!"::" e.names
      · rw [if_pos h3] at ha; cases ha
        exact grouped_snoc_same hg h1 h3
      · rw [if_neg h3] at ha
        cases h2 : e.loc with
        | none => rw [h2] at ha; cases ha
        | some loc =>
          rw [h2] at ha; cases ha
          exact grouped_snoc_fresh hg h2 (by rw [h1]; intro _ h; cases h; exact h3)

/-- Adding one after the other gives the grouping. -/
theorem foldlM_add (es0 es : List Entry) : ∀ (rs reqs : List Requirement), Grouped rs es0 →
    es.foldlM add rs = .ok reqs → Grouped reqs (es0 ++ es) := by
  induction es generalizing es0 with
  | nil => intro rs reqs hg h; cases h; simpa using hg
  | cons e es ih =>
    intro rs reqs hg h
    rw [List.foldlM_cons] at h
    cases ha : add rs e with
    | error p => rw [ha] at h; cases h
    | ok r1 =>
      rw [ha] at h
      have := ih (es0 ++ [e]) r1 reqs (grouped_snoc.2 ⟨rs, hg, ha⟩) h
      rwa [List.append_assoc] at this

theorem grouped_iff (es : List Entry) (reqs : List Requirement) : es.foldlM add [] = .ok reqs ↔ Grouped reqs es := by
  constructor
  · intro h
    exact foldlM_add [] es [] reqs (grouped_nil.2 rfl) h
  · have : ∀ (n : Nat) (es : List Entry) (reqs : List Requirement), es.length = n → Grouped reqs es →
        es.foldlM add [] = .ok reqs := by
      intro n
      induction n with
      | zero =>
        intro es reqs hn h
        cases es with
        | nil => rw [grouped_nil.1 h]; rfl
        | cons _ _ => cases hn
      | succ n ih =>
        intro es reqs hn h
        rcases List.eq_nil_or_concat es with rfl | ⟨es', e, rfl⟩
        · cases hn
        · rw [List.concat_eq_append] at hn h ⊢
          obtain ⟨rs, h1, h2⟩ := grouped_snoc.1 h
          rw [List.foldlM_append, ih es' rs (by simpa using hn) h1]
          show [e].foldlM add rs = _
          rw [List.foldlM_cons, h2]; rfl
    exact this _ es reqs rfl

/-- The pass over the calls: all references and errors, whatever becomes of them. -/
theorem fold_eq (debug : List Tok → Str) (path : Path) : ∀ (os : List Occ),
    ∃ es errs, AllMarks debug path os es errs ∧
      (∀ es' errs', AllMarks debug path os es' errs' → es' = es ∧ errs' = errs) ∧
      ∀ rs errs0, os.foldlM (stepOcc debug path) (rs, errs0) =
        (do let r ← es.foldlM add rs; pure (r, errs0 ++ errs) : PanicM _) := by
  intro os
  induction os with
  | nil =>
    refine ⟨[], [], .nil, ?_, ?_⟩
    · intro es' errs' h; cases h; exact ⟨rfl, rfl⟩
    · intro rs errs0; simp
  | cons o os ih =>
    obtain ⟨es, errs, h1, h2, h3⟩ := ih
    by_cases hm : IsMark o.mac
    · cases hr : readMac debug path o.mac with
      | error e =>
        obtain ⟨l, c, msg, hmis, rfl⟩ := (readMac_error_iff debug path o.mac e).1 hr
        refine ⟨es, _, .bad hm hmis h1, ?_, ?_⟩
        · intro es' errs' h
          cases h with
          | other h _ => exact absurd hm h
          | good _ h _ => rw [(readMac_ok debug path o.mac _ _).2 h] at hr; cases hr
          | bad _ h hrest =>
            obtain ⟨rfl, rfl⟩ := h2 _ _ hrest
            have := (readMac_error_iff debug path o.mac _).2 ⟨_, _, _, h, rfl⟩
            rw [hr] at this
            cases this
            exact ⟨rfl, rfl⟩
        · intro rs errs0
          have hs : stepOcc debug path (rs, errs0) o =
              .ok (rs, errs0 ++ [.format ⟨path, some (.lineAndColumn l c)⟩ msg]) := by
            unfold stepOcc
            rw [parseMacro_mark _ _ _ _ hm, hr]; rfl
          rw [List.foldlM_cons, hs]
          show os.foldlM (stepOcc debug path) (rs, errs0 ++ [_]) = _
          rw [h3]
          simp
      | ok v =>
        obtain ⟨id, title⟩ := v
        have hread := (readMac_ok debug path o.mac id title).1 hr
        refine ⟨_, errs, .good hm hread h1, ?_, ?_⟩
        · intro es' errs' h
          cases h with
          | other h _ => exact absurd hm h
          | good _ h hrest =>
            obtain ⟨rfl, rfl⟩ := h2 _ _ hrest
            rw [(readMac_ok debug path o.mac _ _).2 h] at hr
            cases hr
            exact ⟨rfl, rfl⟩
          | bad _ h _ =>
            rw [(readMac_error_iff debug path o.mac _).2 ⟨_, _, _, h, rfl⟩] at hr; cases hr
        · intro rs errs0
          have hs : stepOcc debug path (rs, errs0) o = (do
              let r ← add rs ⟨o.names, o.loc, ⟨id, title, ⟨path, some (.lineAndColumn o.mac.line o.mac.column)⟩⟩⟩
              pure (r, errs0)) := by
            rw [← record_add]
            unfold stepOcc
            rw [parseMacro_mark _ _ _ _ hm, hr]
            simp only
            show _ = (do
              let q ← record ⟨rs, errs0, o.names, o.loc.toList⟩
                ⟨id, title, .newWithLineAndColumn path o.mac.line o.mac.column⟩
              pure (q.requirements, q.errors))
            cases record ⟨rs, errs0, o.names, o.loc.toList⟩
                ⟨id, title, .newWithLineAndColumn path o.mac.line o.mac.column⟩ <;> rfl
          rw [List.foldlM_cons, hs, List.foldlM_cons]
          cases add rs ⟨o.names, o.loc, ⟨id, title, ⟨path, some (.lineAndColumn o.mac.line o.mac.column)⟩⟩⟩ with
          | error p => rfl
          | ok r => exact h3 r errs0
    · refine ⟨es, errs, .other hm h1, ?_, ?_⟩
      · intro es' errs' h
        cases h with
        | other _ hrest => exact h2 _ _ hrest
        | good h _ _ => exact absurd h hm
        | bad h _ _ => exact absurd h hm
      · intro rs errs0
        have hs : stepOcc debug path (rs, errs0) o = .ok (rs, errs0) := by
          unfold stepOcc
          rw [parseMacro_other _ _ _ _ hm]; rfl
        rw [List.foldlM_cons, hs]
        exact h3 rs errs0

end Rs

/-- **C80** The parser returns these requirements and errors exactly if the file means them. -/
theorem C80_rust (syn : Syn) (src : Source) (path : Path) (reqs : List Requirement) (errs : List Error) :
    Rs.parse syn src path = .ok (reqs, errs) ↔ RustFile syn path src reqs errs := by
  cases hf : src.failure with
  | some e =>
    have : Rs.parse syn src path = .ok ([], [.io path e]) := by unfold Rs.parse; rw [hf]
    rw [this]
    constructor
    · intro h; cases h; exact .unreadable hf
    · intro h
      cases h with
      | unreadable h => rw [hf] at h; cases h; rfl
      | syntaxError h _ => rw [hf] at h; cases h
      | marks h _ _ _ => rw [hf] at h; cases h
  | none =>
    cases hp : syn.parseFile src.text with
    | error x =>
      obtain ⟨l, c, msg⟩ := x
      have : Rs.parse syn src path = .ok ([], [.format ⟨path, some (.lineAndColumn l c)⟩ msg]) := by
        unfold Rs.parse; rw [hf]; simp only; rw [hp]; rfl
      rw [this]
      constructor
      · intro h; cases h; exact .syntaxError hf hp
      · intro h
        cases h with
        | unreadable h => rw [hf] at h; cases h
        | syntaxError _ h => rw [hp] at h; cases h; rfl
        | marks _ h _ _ => rw [hp] at h; cases h
    | ok file =>
      rw [parse_eq_fold syn src path file hf hp]
      obtain ⟨es, errs1, h1, h2, h3⟩ := Rs.fold_eq syn.debug path (occs path [] none file)
      rw [h3]
      constructor
      · intro h
        cases hg : es.foldlM Rs.add [] with
        | error p => rw [hg] at h; cases h
        | ok r =>
          rw [hg] at h
          have h' : (Except.ok (r, [] ++ errs1) : PanicM _) = .ok (reqs, errs) := h
          cases h'
          exact .marks hf hp (by simpa using h1) ((Rs.grouped_iff _ _).1 hg)
      · intro h
        cases h with
        | unreadable h => rw [hf] at h; cases h
        | syntaxError _ h => rw [hp] at h; cases h
        | marks _ h hm hg =>
          rw [hp] at h; cases h
          obtain ⟨rfl, rfl⟩ := h2 _ _ hm
          rw [(Rs.grouped_iff _ _).2 hg]
          simp; rfl

/-- **C80** So a file has at most one meaning. -/
theorem C80_determined {syn : Syn} {src : Source} {path : Path} {reqs reqs' : List Requirement}
    {errs errs' : List Error} (h : RustFile syn path src reqs errs) (h' : RustFile syn path src reqs' errs') :
    reqs = reqs' ∧ errs = errs' := by
  rw [← C80_rust] at h h'
  rw [h] at h'
  cases h'
  exact ⟨rfl, rfl⟩

open RustExample in
/-- The example file: a function with marks, a method with marks, and a mark with a mistake. -/
example : RustFile (synOf file) c!"a.rs" src [fnReq, methodReq] [err] := (C80_rust ..).1 parsed

end Reqtrace
