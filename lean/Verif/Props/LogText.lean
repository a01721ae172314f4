import Verif.Props.Chars
import Verif.Props.Log4
import Verif.Spec.LogText
import Verif.Spec.Reimport

/-!
# C144: the text of the log
-/

namespace Reqtrace

open Spec Log

namespace LogText

/-! ## Lines -/

/-- The text consists of these lines. -/
structure Is (s : Str) (ls : List Str) : Prop where
  eq : s = text ls
  ne : ls ≠ []
  noLf : ∀ l ∈ ls, '\n' ∉ l

theorem text_cons (l : Str) {ls : List Str} (h : ls ≠ []) : text (l :: ls) = l ++ c!"\n" ++ text ls := by
  cases ls with
  | nil => exact absurd rfl h
  | cons m ls => simp [text, List.intercalate, List.intersperse]

theorem text_snoc (ls : List Str) (l : Str) : text (ls ++ [l]) = ls.flatMap (· ++ c!"\n") ++ l := by
  induction ls with
  | nil => simp [text, List.intercalate, List.intersperse]
  | cons m ls ih => rw [List.cons_append, text_cons _ (by simp), ih]; simp

theorem Is.leaf {s : Str} (h : '\n' ∉ s) : Is s [s] :=
  ⟨by simp [text, List.intercalate, List.intersperse], by simp, by simpa using h⟩

theorem indent_line {s : Str} (h : '\n' ∉ s) (t : Str) : indent (s ++ c!"\n" ++ t) = c!"    " ++ s ++ c!"\n" ++ indent t := by
  have : s.flatMap (fun c => if c = '\n' then c!"\n    " else [c]) = s := by
    induction s with
    | nil => rfl
    | cons c s ih =>
      simp only [List.mem_cons, not_or] at h
      rw [List.flatMap_cons, if_neg (Ne.symm h.1), ih h.2]; rfl
  simp [indent, List.flatMap_append, this]

theorem indent_one {s : Str} (h : '\n' ∉ s) : indent s = c!"    " ++ s := by
  have : s.flatMap (fun c => if c = '\n' then c!"\n    " else [c]) = s := by
    induction s with
    | nil => rfl
    | cons c s ih =>
      simp only [List.mem_cons, not_or] at h
      rw [List.flatMap_cons, if_neg (Ne.symm h.1), ih h.2]; rfl
  simp [indent, this]

theorem withComma_cons (l : Str) {ls : List Str} (h : ls ≠ []) : withComma (l :: ls) = l :: withComma ls := by
  cases ls with
  | nil => exact absurd rfl h
  | cons m ls => rfl

theorem Is.part {s : Str} {ls : List Str} (h : Is s ls) : indent s ++ c!",\n" = (part ls).flatMap (· ++ c!"\n") := by
  obtain ⟨rfl, hne, hl⟩ := h
  induction ls with
  | nil => exact absurd rfl hne
  | cons l ls ih =>
    by_cases hn : ls = []
    · subst hn
      rw [show text [l] = l from (Is.leaf (hl l (by simp))).eq.symm, indent_one (hl l (by simp))]
      simp [Spec.part, withComma]
    · rw [text_cons l hn, indent_line (hl l (by simp))]
      have := ih hn (fun x hx => hl x (by simp [hx]))
      rw [show Spec.part (l :: ls) = (c!"    " ++ l) :: Spec.part ls by
        unfold Spec.part; rw [withComma_cons l hn]; rfl]
      rw [List.flatMap_cons, ← this]
      simp

theorem part_noLf {ls : List Str} (h : ∀ l ∈ ls, '\n' ∉ l) : ∀ l ∈ part ls, '\n' ∉ l := by
  have key : ∀ l ∈ withComma ls, '\n' ∉ l := by
    induction ls with
    | nil => intro l hl; cases hl
    | cons m ls ih =>
      by_cases hn : ls = []
      · subst hn
        intro l hl
        cases List.mem_singleton.1 hl
        intro hc
        rcases List.mem_append.1 hc with hc | hc
        · exact h m (by simp) hc
        · exact absurd hc (by decide)
      · rw [withComma_cons m hn]
        intro l hl
        rcases List.mem_cons.1 hl with rfl | hl
        · exact h l (by simp)
        · exact ih (fun x hx => h x (by simp [hx])) l hl
  intro l hl
  obtain ⟨m, hm, rfl⟩ := List.mem_map.1 hl
  intro hc
  rcases List.mem_append.1 hc with hc | hc
  · exact absurd hc (by decide)
  · exact key m hm hc

theorem Is.labelled {n s : Str} {ls : List Str} (hn : '\n' ∉ n) (h : Is s ls) : Is (n ++ c!": " ++ s) (labelled n ls) := by
  obtain ⟨rfl, hne, hl⟩ := h
  cases ls with
  | nil => exact absurd rfl hne
  | cons l ls =>
    refine ⟨?_, by simp [Spec.labelled], ?_⟩
    · cases ls with
      | nil => simp [Spec.labelled, text, List.intercalate, List.intersperse]
      | cons m ls => rw [Spec.labelled, text_cons l (by simp), text_cons (n ++ c!": " ++ l) (by simp)]; simp
    · intro x hx
      rcases List.mem_cons.1 hx with rfl | hx
      · intro hc
        rcases List.mem_append.1 hc with hc | hc
        · rcases List.mem_append.1 hc with hc | hc
          · exact hn hc
          · exact absurd hc (by decide)
        · exact hl l (by simp) hc
      · exact hl x (by simp [hx])

theorem group_is {first last body : Str} {parts : List (List Str)} (hf : '\n' ∉ first) (hl : '\n' ∉ last)
    (hp : ∀ p ∈ parts, ∀ l ∈ p, '\n' ∉ l) (hb : body = parts.flatMap fun p => (part p).flatMap (· ++ c!"\n")) :
    Is (first ++ c!"\n" ++ body ++ last) (group first last parts) := by
  refine ⟨?_, by simp [group], ?_⟩
  · unfold group
    rw [text_snoc, List.flatMap_cons, hb]
    simp [List.flatMap_assoc]
  · intro l h
    unfold group at h
    rcases List.mem_append.1 h with h | h
    · rcases List.mem_cons.1 h with rfl | h
      · exact hf
      · obtain ⟨p, h1, h2⟩ := List.mem_flatMap.1 h
        exact part_noLf (hp p h1) l h2
    · cases List.mem_singleton.1 h; exact hl

/-! ## Values -/

theorem prettyList_is {ds : List Dbg} {lss : List (List Str)} (h : Pairs (fun d ls => Is d.pretty ls) ds lss) :
    prettyList ds = lss.flatMap (fun p => (part p).flatMap (· ++ c!"\n")) ∧ ∀ p ∈ lss, ∀ l ∈ p, '\n' ∉ l := by
  induction h with
  | nil => exact ⟨rfl, by simp⟩
  | cons h1 _ ih =>
    refine ⟨?_, ?_⟩
    · rw [prettyList, h1.part, ih.1, List.flatMap_cons]
    · intro p hp
      rcases List.mem_cons.1 hp with rfl | hp
      · exact h1.noLf
      · exact ih.2 p hp

theorem prettyFields_is {ds : List (Str × Dbg)} {lss : List (Str × List Str)}
    (h : Pairs (fun d ls => d.1 = ls.1 ∧ '\n' ∉ d.1 ∧ Is d.2.pretty ls.2) ds lss) :
    prettyFields ds = (lss.map fun f => labelled f.1 f.2).flatMap (fun p => (part p).flatMap (· ++ c!"\n")) ∧
    ∀ p ∈ lss.map fun f => labelled f.1 f.2, ∀ l ∈ p, '\n' ∉ l := by
  induction h with
  | nil => exact ⟨rfl, by simp⟩
  | @cons d ls _ _ h1 _ ih =>
    obtain ⟨e, h2, h3⟩ := h1
    have h4 := Is.labelled h2 h3
    refine ⟨?_, ?_⟩
    · rw [show ∀ l, prettyFields (d :: l) = indent (d.1 ++ c!": " ++ d.2.pretty) ++ c!",\n" ++ prettyFields l from fun _ => rfl,
        h4.part, ih.1, List.map_cons, List.flatMap_cons, e]
    · intro p hp
      rcases List.mem_cons.1 hp with rfl | hp
      · show ∀ l ∈ labelled ls.1 ls.2, _
        rw [← e]; exact h4.noLf
      · exact ih.2 p hp

theorem tuple_is {name : Str} (hn : '\n' ∉ name) {ds : List Dbg} {lss : List (List Str)}
    (h : Pairs (fun d ls => Is d.pretty ls) ds lss) : Is (Dbg.tuple name ds).pretty (tupleShown name lss) := by
  obtain ⟨h1, h2⟩ := prettyList_is h
  have := group_is (first := name ++ c!"(") (last := c!")") (by simpa using hn) (by decide) h2 h1
  rw [Dbg.pretty]
  simpa [tupleShown] using this

theorem struct_is {name : Str} (hn : '\n' ∉ name) {ds : List (Str × Dbg)} {lss : List (Str × List Str)}
    (h : Pairs (fun d ls => d.1 = ls.1 ∧ '\n' ∉ d.1 ∧ Is d.2.pretty ls.2) ds lss) :
    Is (Dbg.struct name ds).pretty (structShown name lss) := by
  obtain ⟨h1, h2⟩ := prettyFields_is h
  have := group_is (first := name ++ c!" {") (last := c!"}") (by simpa using hn) (by decide) h2 h1
  rw [Dbg.pretty]
  simpa [structShown] using this

theorem field {n : Str} (hn : '\n' ∉ n) {d : Dbg} {ls : List Str} (h : Is d.pretty ls) :
    (n, d).1 = (n, ls).1 ∧ '\n' ∉ (n, d).1 ∧ Is (n, d).2.pretty (n, ls).2 := ⟨rfl, hn, h⟩

theorem list_is {ds : List Dbg} {lss : List (List Str)} (h : Pairs (fun d ls => Is d.pretty ls) ds lss) :
    Is (Dbg.list ds).pretty (listShown lss) := by
  obtain ⟨h1, h2⟩ := prettyList_is h
  have hg := group_is (first := c!"[") (last := c!"]") (by decide) (by decide) h2 h1
  cases h with
  | nil => exact .leaf (by decide)
  | @cons d ls ds lss h3 h4 =>
    rw [listShown, if_neg (by simp)]
    have e : (Dbg.list (d :: ds)).pretty = c!"[" ++ c!"\n" ++ prettyList (d :: ds) ++ c!"]" := by
      rw [Dbg.pretty, prettyList]; simp
    rw [e]; exact hg

theorem pairs_map {α β γ : Type} {P : β → γ → Prop} {f : α → β} {g : α → γ} {l : List α} (h : ∀ x ∈ l, P (f x) (g x)) :
    Pairs P (l.map f) (l.map g) := by
  induction l with
  | nil => exact .nil
  | cons x l ih => exact .cons (h x (by simp)) (ih fun y hy => h y (by simp [hy]))

/-- Entries of a map, with the lines of each. -/
theorem prettyMap_is {ds : List (Dbg × Dbg)} {lss : List (List Str)}
    (h : Pairs (fun d ls => Is (d.1.pretty ++ c!": " ++ d.2.pretty) ls) ds lss) :
    prettyMap ds = lss.flatMap (fun p => (part p).flatMap (· ++ c!"\n")) ∧ ∀ p ∈ lss, ∀ l ∈ p, '\n' ∉ l := by
  induction h with
  | nil => exact ⟨rfl, by simp⟩
  | @cons d ls _ _ h1 _ ih =>
    refine ⟨?_, ?_⟩
    · rw [show ∀ l, prettyMap (d :: l) = indent (d.1.pretty ++ c!": " ++ d.2.pretty) ++ c!",\n" ++ prettyMap l from fun _ => rfl,
        h1.part, ih.1, List.flatMap_cons]
    · intro p hp
      rcases List.mem_cons.1 hp with rfl | hp
      · exact h1.noLf
      · exact ih.2 p hp

theorem map_is {ds : List (Dbg × Dbg)} {lss : List (List Str)}
    (h : Pairs (fun d ls => Is (d.1.pretty ++ c!": " ++ d.2.pretty) ls) ds lss) :
    Is (Dbg.map ds).pretty (if lss = [] then [c!"{}"] else group c!"{" c!"}" lss) := by
  obtain ⟨h1, h2⟩ := prettyMap_is h
  have hg := group_is (first := c!"{") (last := c!"}") (by decide) (by decide) h2 h1
  cases h with
  | nil => exact .leaf (by decide)
  | @cons d ls ds lss h3 h4 =>
    rw [if_neg (by simp)]
    have e : (Dbg.map (d :: ds)).pretty = c!"{" ++ c!"\n" ++ prettyMap (d :: ds) ++ c!"}" := by
      obtain ⟨k, d⟩ := d
      rw [Dbg.pretty, prettyMap]; simp
    rw [e]; exact hg

section
variable (env : Env) (log : LogEnv)

theorem str_is (s : Str) : Is (dbgStr env s).pretty [quoted env.fmt s] := by
  rw [dbgStr, Dbg.pretty, debugStr_eq]
  exact .leaf (quoted_noLf _ _)

theorem natStr_noLf (n : Nat) : '\n' ∉ natStr n := by
  intro h
  have : ∀ c ∈ natStr n, c.isDigit = true := by
    intro c hc
    exact Nat.isDigit_of_mem_toDigits (by decide) (by decide) hc
  exact absurd (this _ h) (by decide)

theorem nat_is (n : Nat) : Is (Dbg.leaf (natStr n)).pretty [natStr n] := .leaf (natStr_noLf n)

theorem id_is (id : RequirementId) : Is (dbgReqId env id).pretty (idShown env id) :=
  tuple_is (by decide) (.cons (str_is env id) .nil)

theorem artId_is (id : ArtefactId) : Is (dbgArtId env id).pretty (artefactIdShown env id) :=
  tuple_is (by decide) (.cons (str_is env id) .nil)

theorem option_is {α : Type} {f : α → Dbg} {g : α → List Str} (h : ∀ a, Is (f a).pretty (g a)) (o : Option α) :
    Is (dbgOption f o).pretty (optionShown (o.map g)) := by
  cases o with
  | none => exact .leaf (s := c!"None") (by decide)
  | some a => exact tuple_is (by decide) (.cons (h a) .nil)

theorem position_is (p : LocationInFile) : Is (dbgLocationInFile env p).pretty (positionShown env p) := by
  cases p with
  | line l => exact tuple_is (by decide) (.cons (nat_is l) .nil)
  | lineAndColumn l c => exact tuple_is (by decide) (.cons (nat_is l) (.cons (nat_is c) .nil))
  | string s => exact tuple_is (by decide) (.cons (str_is env s) .nil)

variable (hp : ∀ p, '\n' ∉ log.debugPath p)
include hp

theorem path_is (p : Path) : Is (Dbg.leaf (log.debugPath p)).pretty [log.debugPath p] := .leaf (hp p)

theorem location_is (l : Location) : Is (dbgLocation env log l).pretty (locationShown env log l) :=
  struct_is (by decide) (.cons (field (by decide) (path_is log hp _)) <|
    .cons (field (by decide) (option_is (position_is env) _)) .nil)

theorem reference_is (r : Reference) : Is (dbgReference env log r).pretty (referenceShown env log r) :=
  struct_is (by decide) (.cons (field (by decide) (id_is env _)) <| .cons (field (by decide) (option_is (str_is env) _)) <|
    .cons (field (by decide) (location_is env log hp _)) .nil)

theorem requirement_is (r : Requirement) : Is (dbgRequirement env log r).pretty (requirementShown env log r) := by
  refine struct_is (by decide) (.cons (field (by decide) (id_is env _)) <| .cons (field (by decide) (option_is (str_is env) _)) <|
    .cons (field (by decide) (location_is env log hp _)) <|
    .cons (field (by decide) (list_is (pairs_map fun x _ => reference_is env log hp x))) <|
    .cons (field (by decide) (list_is (pairs_map fun x _ => reference_is env log hp x))) <|
    .cons (field (by decide) (list_is (pairs_map fun x _ => str_is env x))) <| .cons (field (by decide) ?_) .nil)
  have := map_is (ds := r.attributes.entries.map fun e => (dbgStr env e.1, dbgStr env e.2))
    (lss := (r.attributes.entries.map fun e => (quoted env.fmt e.1, [quoted env.fmt e.2])).map fun e => labelled e.1 e.2) (by
      rw [List.map_map]
      refine pairs_map fun x _ => ?_
      have hs := Is.labelled (quoted_noLf env.fmt x.1) (str_is env x.2)
      rw [show (dbgStr env x.1).pretty = quoted env.fmt x.1 by rw [dbgStr, Dbg.pretty, debugStr_eq]]
      exact hs)
  simpa only [mapShown, List.map_eq_nil_iff] using this

theorem error_is (e : Error) : Is (dbgError env log e).pretty (problemShown env log e) := by
  have hr := requirement_is env log hp
  have hl := location_is env log hp
  cases e with
  | format loc t => exact tuple_is (by decide) (.cons (hl _) (.cons (str_is env _) .nil))
  | duplicateRequirement a b => exact tuple_is (by decide) (.cons (hr _) (.cons (hr _) .nil))
  | duplicateAttribute loc a r => exact tuple_is (by decide) (.cons (hl _) (.cons (str_is env _) (.cons (id_is env _) .nil)))
  | io p t => exact tuple_is (by decide) (.cons (path_is log hp _) (.cons (str_is env _) .nil))
  | config t => exact tuple_is (by decide) (.cons (str_is env _) .nil)
  | duplicateArtefact t => exact tuple_is (by decide) (.cons (str_is env _) .nil)
  | unknownArtefact a => exact tuple_is (by decide) (.cons (artId_is env _) .nil)
  | coveredWithWrongTitle a b t loc | dependWithWrongTitle a b t loc =>
    exact struct_is (by decide) (.cons (field (by decide) (hr _)) <| .cons (field (by decide) (hr _)) <|
      .cons (field (by decide) (str_is env _)) <| .cons (field (by decide) (hl _)) .nil)
  | referencedWithoutTitle r loc =>
    exact struct_is (by decide) (.cons (field (by decide) (hr _)) <| .cons (field (by decide) (hl _)) .nil)
  | requirementWithoutTitle r => exact tuple_is (by decide) (.cons (hr _) .nil)
  | dependOnUnknownRequirement r id loc | coversUnknownRequirement r id loc =>
    exact tuple_is (by decide) (.cons (hr _) (.cons (id_is env _) (.cons (hl _) .nil)))
  | emptyGraph => exact .leaf (s := c!"EmptyGraph") (by decide)
  | unusedRelation rel =>
    exact tuple_is (by decide) (.cons (struct_is (by decide) (.cons (field (by decide) (artId_is env _)) <|
      .cons (field (by decide) (list_is (pairs_map fun x _ => artId_is env x))) .nil)) .nil)

omit hp in
theorem derived_is (d : BMap ArtefactId (List RequirementId)) : Is (dbgDerived env d).pretty (derivedShown env d) := by
  have := map_is (ds := d.entries.map fun e => (dbgArtId env e.1, Dbg.list (e.2.map (dbgReqId env))))
    (lss := d.entries.map fun e =>
      [c!"ArtefactId(", c!"    " ++ quoted env.fmt e.1 ++ c!","] ++ labelled c!")" (listShown (e.2.map (idShown env)))) (by
      refine pairs_map fun x _ => ?_
      have hv := Is.labelled (n := c!")") (by decide) (list_is (pairs_map (l := x.2) fun y _ => id_is env y))
      have hk : (dbgArtId env x.1).pretty = c!"ArtefactId(" ++ c!"\n" ++ (c!"    " ++ quoted env.fmt x.1 ++ c!",") ++ c!"\n" ++ c!")" := by
        rw [(artId_is env x.1).eq]
        simp [artefactIdShown, tupleShown, group, part, withComma, text, List.intercalate, List.intersperse]
      refine ⟨?_, by simp, ?_⟩
      · rw [List.cons_append, List.cons_append, List.nil_append, text_cons _ (by simp), text_cons _ hv.ne, ← hv.eq, hk]
        simp
      · intro l hl
        rcases List.mem_append.1 hl with h | h
        · rcases List.mem_cons.1 h with rfl | h
          · decide
          · cases List.mem_singleton.1 h
            have := quoted_noLf env.fmt x.1
            simp [this]
        · exact hv.noLf l h)
  simpa only [derivedShown, dbgDerived, List.map_eq_nil_iff] using this

theorem problem_site {e : Error} {file : Str} {line : Nat} (h : ProblemSite e file line) :
    LogSite env log (problem env log file line e) := by
  unfold problem
  rw [(error_is env log hp e).eq]
  exact .problem h

/-- Every record has its place. -/
def Sited (rs : List Record) : Prop := ∀ r ∈ rs, LogSite env log r

omit hp in
theorem Sited.nil : Sited env log [] := fun _ h => by cases h

omit hp in
variable {env log} in
theorem Sited.cons {r : Record} {rs : List Record} (h : LogSite env log r) (hs : Sited env log rs) : Sited env log (r :: rs) :=
  fun x hx => (List.mem_cons.1 hx).elim (fun e => e ▸ h) (hs x)

omit hp in
variable {env log} in
theorem Sited.append {a b : List Record} (ha : Sited env log a) (hb : Sited env log b) : Sited env log (a ++ b) :=
  fun r h => (List.mem_append.1 h).elim (ha r) (hb r)

theorem sited_problems {file : Str} {line : Error → Nat} {es : List Error} (h : ∀ e ∈ es, ProblemSite e file (line e)) :
    Sited env log (es.map fun e => problem env log file (line e) e) := by
  intro r hr
  obtain ⟨e, he, rfl⟩ := List.mem_map.1 hr
  exact problem_site env log hp (h e he)

theorem sited_one {file : Str} {line : Nat} {e : Error} (h : ProblemSite e file line) :
    Sited env log [problem env log file line e] := .cons (problem_site env log hp h) (.nil _ _)

omit hp in
/-- What is recorded is added at the end, and its place is known. -/
def Adds (P : Error → Prop) (a b : List Error) : Prop := ∃ es, b = a ++ es ∧ ∀ e ∈ es, P e

omit hp in
theorem Adds.none {P : Error → Prop} {a b : List Error} (h : b = a) : Adds P a b := ⟨[], by simp [h], by simp⟩

omit hp in
theorem Adds.one {P : Error → Prop} {a b : List Error} {e : Error} (h : b = a ++ [e]) (he : P e) : Adds P a b :=
  ⟨[e], h, by simpa using he⟩

omit hp in
theorem Adds.drop {P : Error → Prop} {a b : List Error} (h : Adds P a b) : ∀ e ∈ b.drop a.length, P e := by
  obtain ⟨es, rfl, h⟩ := h
  simpa using h

/-! ### Markdown -/

omit hp in
def MdSite (e : Error) : Prop := ProblemSite e c!"src/parsers/markdown.rs" (mdLine e)

omit hp in
theorem startAttribute_adds {c c' : Md.Context} {s : Md.State} {cap : Captures} (h : Md.startAttribute c cap = .ok (s, c')) :
    Adds MdSite c.errors c'.errors := by
  unfold Md.startAttribute at h
  obtain ⟨a, _, h⟩ := bind_ok h
  obtain ⟨b, _, h⟩ := bind_ok h
  have key : ∀ {P : Prop} [Decidable P] (e : Error), MdSite e → Adds MdSite c.errors (if P then c.push e else c).errors := by
    intro P _ e he
    split
    · exact .one rfl he
    · exact .none rfl
  split at h
  · rename_i ha
    obtain ⟨r, _, h⟩ := bind_ok h
    cases h
    refine key _ ?_
    cases ha
    exact .covers
  · rename_i ha
    split at h
    · rename_i hb
      obtain ⟨r, _, h⟩ := bind_ok h
      cases h
      refine key _ ?_
      cases hb
      exact .depends
    · rename_i hb
      obtain ⟨r, _, h⟩ := bind_ok h
      cases h
      refine key _ ?_
      unfold MdSite
      rw [show mdLine (.duplicateAttribute c.location a r.id) = 397 by simp [mdLine, ha, hb]]
      exact .text ha hb

omit hp in
theorem parseStates_adds {U : Unicode} {s s' : Md.State} {c c' : Md.Context} {evt : Md.Event}
    (h : Md.parseStates U s c evt = .ok (s', c')) : Adds MdSite c.errors c'.errors := by
  cases evt with
  | req cap => exact .none (parseStateReq_errors h)
  | heading => exact .none (heading_errors h)
  | eof => exact .none (eof_errors h)
  | empty =>
    replace h : Md.parseStateEmpty s c = .ok (s', c') := h
    cases s with
    | collectRefLink a v =>
      obtain ⟨c1, h1, h2⟩ := bind_ok h
      cases h2
      exact .none (commitLinkAttr_errors h1)
    | _ => cases h; exact .none rfl
  | line l =>
    replace h : Md.parseStateLine U s l c = .ok (s', c') := h
    unfold Md.parseStateLine at h
    cases s with
    | lookForReq => cases h; exact .none rfl
    | lookForDesc =>
      simp only at h
      split at h
      · exact startAttribute_adds h
      · cases h; exact .none rfl
    | lookForAttr =>
      simp only at h
      split at h
      · exact startAttribute_adds h
      · cases h; exact .one rfl .attribute
    | collectDesc d => cases h; exact .none rfl
    | collectDescNl d =>
      simp only at h
      split at h
      · obtain ⟨c1, h1, h2⟩ := bind_ok h
        rw [← commitAttr_errors h1]
        exact startAttribute_adds h2
      · cases h; exact .none rfl
    | collectTextAttr a v =>
      simp only at h
      split at h
      · obtain ⟨c1, h1, h2⟩ := bind_ok h
        rw [← commitAttr_errors h1]
        exact startAttribute_adds h2
      · cases h; exact .none rfl
    | collectRefLink a v =>
      simp only at h
      split at h
      · obtain ⟨c1, h1, h2⟩ := bind_ok h
        cases h2; exact .none rfl
      · split at h
        · obtain ⟨c1, h1, h2⟩ := bind_ok h
          cases h2
          exact .none (commitLinkAttr_errors h1)
        · obtain ⟨c1, h1, h2⟩ := bind_ok h
          cases h2
          refine .one (by rw [← commitLinkAttr_errors h1]; rfl) ?_
          exact .reference

theorem mdLoop_sited (failure : Option Str) (ls : List Str) : ∀ (s : Md.State) (c : Md.Context),
    Sited env log (mdLoop env log failure ls s c) := by
  induction ls with
  | nil =>
    intro s c
    unfold mdLoop
    split
    · exact sited_one env log hp .unreadable
    · exact .nil _ _
  | cons l ls ih =>
    intro s c
    unfold mdLoop
    simp only
    split
    · exact .nil _ _
    · split
      · exact .nil _ _
      · rename_i h
        exact Sited.append (sited_problems env log hp (parseStates_adds h).drop) (ih _ _)

/-! ### Rust -/

omit hp in
def RustSite (e : Error) : Prop := ProblemSite e c!"src/parsers/rust.rs" (rustLine e)

omit hp in
theorem readMac_site {debug : List Rs.Tok → Str} {path : Path} {m : Rs.Mac} {e : Error}
    (h : Rs.readMac debug path m = .error e) : RustSite e := by
  unfold Rs.readMac at h
  simp only at h
  split at h
  · cases h; exact .noArgument
  · split at h
    · cases h
    · split at h
      · cases h
      · cases h; exact .single
  · split at h
    · split at h
      · cases h
      · cases h; exact .second
    · cases h; exact .first
  · cases h
    unfold RustSite
    rw [show ∀ loc ts, rustLine (.format loc (c!"requirement_covered!() called with more than 2 argument/token " ++ ts)) = 149 by
      intro loc ts; simp [rustLine]]
    exact .more

omit hp in
theorem parseMacro_adds {debug : List Rs.Tok → Str} {path : Path} {p p' : Rs.Parser} {m : Rs.Mac} {b : Bool}
    (h : Rs.parseMacro debug path p m = .ok (b, p')) : Adds RustSite p.errors p'.errors := by
  unfold Rs.parseMacro at h
  split at h
  · split at h
    · split at h
      · rename_i he
        cases h; exact .one rfl (readMac_site he)
      · obtain ⟨q, h1, h2⟩ := bind_ok h
        cases h2
        refine .none ?_
        unfold Rs.record at h1
        simp only at h1
        split at h1
        · split at h1
          · cases h1; rfl
          · obtain ⟨l, _, h3⟩ := bind_ok h1; cases h3; rfl
        · obtain ⟨l, _, h3⟩ := bind_ok h1; cases h3; rfl
    · cases h; exact .none rfl
  · cases h; exact .none rfl

theorem rustVisit_sited (path : Path) (f : Rs.Forest) : ∀ (p : Rs.Parser), Sited env log (rustVisit env log path f p) := by
  induction f with
  | nil => intro p; exact .nil _ _
  | mac m rest ih =>
    intro p
    unfold rustVisit
    split
    · exact .nil _ _
    · rename_i h
      exact Sited.append (sited_problems env log hp (parseMacro_adds h).drop) (ih _)
  | item i l c inner rest ih1 ih2 =>
    intro p
    unfold rustVisit
    refine (ih1 _).append ?_
    split
    · exact .nil _ _
    · split
      · exact .nil _ _
      · exact ih2 _
  | node inner rest ih1 ih2 =>
    intro p
    unfold rustVisit
    refine (ih1 _).append ?_
    split
    · exact .nil _ _
    · exact ih2 _

theorem rustParse_sited (src : Source) (path : Path) : Sited env log (rustParse env log src path) := by
  unfold rustParse
  split
  · exact sited_one env log hp .rustRead
  · split
    · exact sited_one env log hp .syntax
    · exact rustVisit_sited env log hp _ _ _

/-! ### The program -/

theorem parseFiles_sited (w : World) (parser : ArtefactParser) (ps : List Path) :
    Sited env log (Log.parseFiles env log w parser ps) := by
  induction ps with
  | nil => exact .nil _ _
  | cons p ps ih =>
    unfold Log.parseFiles
    split
    · exact .cons (problem_site env log hp .closedRust) ih
    · split
      · refine (rustParse_sited env log hp _ _).append ?_
        split
        · exact .nil _ _
        · exact ih
      · exact .nil _ _

theorem parseArtefact_sited (w : World) (ac : ArtefactConfig) (base : Path) :
    Sited env log (Log.parseArtefact env log w ac base) := by
  have single : Sited env log (Log.parseSingleFile env log w ac base) := by
    unfold Log.parseSingleFile
    split
    · simp only
      split
      · exact sited_one env log hp .closed
      · split
        · exact mdLoop_sited env log hp _ _ _ _
        · unfold monoParse
          split
          · exact .nil _ _
          · rename_i h
            refine sited_problems env log hp (line := fun _ => 57) ?_
            unfold MonoReq.parse at h
            obtain ⟨_, _, h⟩ := bind_ok h
            simp only at h
            split at h
            · cases h
            cases h
            unfold MonoReq.idOf
            split
            · simp
            · intro e he
              cases List.mem_singleton.1 he
              exact .stem
        · split
          · exact .nil _ _
          · exact sited_one env log hp .json
        · exact .nil _ _
    · refine sited_one env log hp ?_
      simp only [List.append_assoc]
      exact .notOne
  unfold Log.parseArtefact
  split
  · unfold Log.parseMultipleFiles
    split
    · exact sited_one env log hp .noPaths
    · split
      · exact .nil _ _
      · exact parseFiles_sited env log hp _ _ _
  · exact single

omit hp in
theorem collect_adds (reqs : List Requirement) : ∀ (m : BMap RequirementId Requirement) (errs : List Error),
    Adds (fun e => ProblemSite e c!"src/controller.rs" 167) errs (collectRequirements reqs m errs).2 := by
  induction reqs with
  | nil => intro m errs; exact .none rfl
  | cons r reqs ih =>
    intro m errs
    unfold collectRequirements
    split
    · rename_i first _
      obtain ⟨es, h1, h2⟩ := ih m (errs ++ [.duplicateRequirement first r])
      refine ⟨.duplicateRequirement first r :: es, by rw [h1]; simp, ?_⟩
      intro e he
      rcases List.mem_cons.1 he with rfl | he
      · exact .duplicate
      · exact h2 e he
    · exact ih _ _

theorem makeArtefacts_sited (w : World) (base : Path) (roots : BMap ArtefactId Bool) (acs : List ArtefactConfig) :
    Sited env log (Log.makeArtefacts env log w base roots acs) := by
  induction acs with
  | nil => exact .nil _ _
  | cons ac acs ih =>
    unfold Log.makeArtefacts Log.parseFromConfig
    refine ((parseArtefact_sited env log hp _ _ _).append ?_).append ?_
    · split
      · exact .nil _ _
      · exact sited_problems env log hp (line := fun _ => 167) (collect_adds _ _ _).drop
    · split
      · exact .nil _ _
      · exact ih

theorem new_sited (w : World) (config : Config) (base : Path) : Sited env log (Log.new env log w config base) := by
  have links : ∀ line step, (∀ t l t', step t l = .ok t' → Adds (fun e => ProblemSite e c!"src/trace.rs" line) t.errors t'.errors) →
      ∀ ls t, Sited env log (validateLinks env log line step t ls) := by
    intro line step hs ls
    induction ls with
    | nil => intro t; exact .nil _ _
    | cons l ls ih =>
      intro t
      unfold validateLinks
      split
      · exact .nil _ _
      · rename_i h
        exact Sited.append (sited_problems env log hp (line := fun _ => line) (hs _ _ _ h).drop) (ih _)
  have up : ∀ t l t', validateUpward t l = .ok t' → Adds (fun e => ProblemSite e c!"src/trace.rs" 307) t.errors t'.errors := by
    intro t l t' h
    unfold validateUpward at h
    obtain ⟨_, _, h⟩ := bind_ok h
    obtain ⟨_, _, h⟩ := bind_ok h
    cases h
    exact .one rfl .upwards
  have down : ∀ t l t', validateDownward t l = .ok t' → Adds (fun e => ProblemSite e c!"src/trace.rs" 328) t.errors t'.errors := by
    intro t l t' h
    unfold validateDownward at h
    obtain ⟨_, _, h⟩ := bind_ok h
    obtain ⟨_, _, h⟩ := bind_ok h
    cases h
    exact .one rfl .downwards
  have rels : ∀ rels t, Sited env log (traceRelations env log t rels) := by
    intro rels
    induction rels with
    | nil => intro t; exact .nil _ _
    | cons rel rels ih =>
      intro t
      unfold traceRelations
      refine .cons (by unfold FmtEnv.debugRelation; simp only [List.append_assoc]; exact .relation) ?_
      split
      · exact .nil _ _
      · split
        · exact .nil _ _
        · refine Sited.append ?_ ?_
          · split
            · exact sited_one env log hp .unused
            · exact .nil _ _
          · split
            · exact .nil _ _
            · exact ih _
  unfold Log.new
  split
  · exact .nil _ _
  · refine (makeArtefacts_sited env log hp _ _ _ _).append ?_
    split
    · exact .nil _ _
    · unfold Log.trace
      refine (rels _ _).append ?_
      split
      · exact .nil _ _
      · refine (links _ _ up _ _).append ?_
        split
        · exact .nil _ _
        · exact links _ _ down _ _

omit hp in
theorem reasons_sited (c : Controller) (q : Query) : Sited env log (reasons env c q) := by
  have key : ∀ (b : Bool) (r : Record), LogSite env log r → Sited env log (if b = true then [r] else []) := by
    intro b r hr
    split
    · exact .cons hr (.nil _ _)
    · exact .nil _ _
  cases q with
  | trace =>
    unfold reasons
    refine (((key _ _ .tracing).append (key _ _ .parsing)).append (key _ _ .uncovered)).append (key _ _ ?_)
    rw [(derived_is env _).eq]
    exact .derived
  | parse => exact key _ _ .parseJob

omit hp in
theorem writing_site (c : Controller) (job : Job) (name : Str) : LogSite env log (writing env c job name) := by
  unfold writing
  split
  · rw [debugStr_eq]
    unfold quoted
    rw [show ∀ x : Str, c!"writing " ++ (c!"\"" ++ x ++ c!"\"") ++ c!" to stdout" = c!"writing \"" ++ x ++ c!"\" to stdout" by
      intro x; simp]
    exact .stdout
  · simp only [List.append_assoc]
    exact .file

omit hp in
theorem run_sited (c : Controller) (w : World) (job : Job) (name : Str) : Sited env log (Log.run env log c w job name) := by
  unfold Log.run
  refine .cons ?_ ?_
  · unfold debugJob
    simp only [List.append_assoc c!"Job { query: "]
    rw [show ∀ x : Str, c!"Job " ++ name ++ c!" " ++ (c!"Job { query: " ++ x) = c!"Job " ++ name ++ c!" Job { " ++ (c!"query: " ++ x) by
      intro x; simp]
    exact .job
  split
  · exact .nil _ _
  · refine Sited.append (.cons (writing_site env log c job name) (reasons_sited env log c job.query)) ?_
    split
    · rename_i s _ _
      refine .cons ?_ (.nil _ _)
      cases s
      · exact .success
      · exact .fault
    · exact .nil _ _

omit hp in
theorem runEach_sited (c : Controller) (l : List (Job × Str)) : ∀ w, Sited env log (Log.runEach env log c l w) := by
  induction l with
  | nil => intro w; exact .nil _ _
  | cons x l ih =>
    intro w
    unfold Log.runEach
    refine (run_sited env log c w _ _).append ?_
    split
    · exact ih _
    · exact .nil _ _

omit hp in
theorem runCliJobs_sited (c : Controller) (opt : Arguments) (w : World) : Sited env log (Log.runCliJobs env log c opt w) := by
  have byName : ∀ ns, Sited env log (Log.runJobsByName env log c ns w) := by
    intro ns
    unfold Log.runJobsByName
    split
    · rename_i h
      obtain ⟨_, n, _, _, _, _, rfl⟩ := (findJobs_err c ns _).1 h
      refine .cons ?_ (.nil _ _)
      rw [(show Is (dbgControllerError env log (.unknownJob n)).pretty _ from
        tuple_is (by decide) (.cons (str_is env n) .nil)).eq]
      exact .unknownJob
    · unfold Log.runJobs
      refine (runEach_sited env log c _ w).append ?_
      split
      · refine .cons ?_ (.nil _ _)
        simp only [List.append_assoc]
        exact .ran
      · exact .nil _ _
  unfold Log.runCliJobs
  split
  · unfold Log.runDefaultJobs
    refine .cons .defaults ?_
    split
    · exact byName _
    · refine .cons ?_ (.nil _ _)
      have h : Is (dbgControllerError env log (.config c!"no default_jobs configured")).pretty
          (tupleShown c!"Config" [[quoted env.fmt c!"no default_jobs configured"]]) :=
        tuple_is (by decide) (.cons (str_is env _) .nil)
      rw [h.eq]
      exact .noJobs
  · exact byName _

theorem mainRc_sited (opt : Arguments) (w : World) : Sited env log (Log.mainRc env log opt w) := by
  unfold Log.mainRc
  refine Sited.append ?_ ?_
  · unfold Log.tryMain
    refine .cons .configFile ?_
    split
    · exact .nil _ _
    · refine (new_sited env log hp _ _ _).append ?_
      split
      · exact .nil _ _
      · exact runCliJobs_sited env log _ _ _
  · split
    · exact .cons .failed (.nil _ _)
    · exact .nil _ _

end

end LogText

section
variable (env : Env) (log : LogEnv)

/-- **C144** A problem is shown line by line: its name and its parts with their names, each moved to the right. -/
theorem C144_problem (hp : ∀ p, '\n' ∉ log.debugPath p) (e : Error) :
    (announced env log e).2 = c!"found problem " ++ text (problemShown env log e) := by
  unfold announced
  rw [(LogText.error_is env log hp e).eq]

/-- **C144** None of these lines can be mistaken for two. -/
theorem C144_lines (hp : ∀ p, '\n' ∉ log.debugPath p) (e : Error) : ∀ l ∈ problemShown env log e, '\n' ∉ l :=
  (LogText.error_is env log hp e).noLf

/-- **C144** Each line of the log is written at a place of the program that is made for it. -/
theorem C144_places (hp : ∀ p, '\n' ∉ log.debugPath p) (opt : Arguments) (w : World) :
    ∀ r ∈ Log.mainRc env log opt w, LogSite env log r := LogText.mainRc_sited env log hp opt w

end

/-- **C144** A line of the log: the place, the level and the text. -/
theorem C144_line (r : Record) : ∃ n, Decimal n r.line ∧
    lines (fun _ => true) [r] = r.file ++ c!":" ++ n ++ c!": [" ++ levelWord r.level ++ c!"] " ++ r.text ++ c!"\n" := by
  refine ⟨natStr r.line, C121_decimal _, ?_⟩
  cases h : r.level <;> simp [lines, Record.display, h, Level.display, levelWord]

namespace LogExample

open CtrlExample

/-- A problem with a reference, line by line. -/
def unknown : Error := .coversUnknownRequirement
  ⟨c!"B", none, ⟨c!"b.md", some (.line 3)⟩, [⟨c!"A", some c!"Title", ⟨c!"b.md", some (.line 5)⟩⟩], [], [], .empty⟩
  c!"A" ⟨c!"b.md", some (.lineAndColumn 5 1)⟩

example : text (problemShown (env .nil config) log unknown) = c!"CoversUnknownRequirement(
    Requirement {
        id: RequirementId(
            \"B\",
        ),
        title: None,
        location: Location {
            file: \"b.md\",
            location_in_file: Some(
                Line(
                    3,
                ),
            ),
        },
        covers: [
            Reference {
                id: RequirementId(
                    \"A\",
                ),
                title: Some(
                    \"Title\",
                ),
                location: Location {
                    file: \"b.md\",
                    location_in_file: Some(
                        Line(
                            5,
                        ),
                    ),
                },
            },
        ],
        depends: [],
        tags: [],
        attributes: {},
    },
    RequirementId(
        \"A\",
    ),
    Location {
        file: \"b.md\",
        location_in_file: Some(
            LineAndColumn(
                5,
                1,
            ),
        ),
    },
)" ∧ (announced (env .nil config) log unknown).2 = c!"found problem " ++ text (problemShown (env .nil config) log unknown) := by
  constructor <;> decide +kernel

/-- Derived requirements. -/
example : text (derivedShown (env .nil config) (BMap.ofList [(c!"X", [c!"A", c!"B"]), (c!"Y", [])])) = c!"{
    ArtefactId(
        \"X\",
    ): [
        RequirementId(
            \"A\",
        ),
        RequirementId(
            \"B\",
        ),
    ],
    ArtefactId(
        \"Y\",
    ): [],
}" := by decide +kernel

/-- Paths in quotes. -/
def quoting : LogEnv := ⟨quoted (env .nil config).fmt, fun _ => 0⟩

/-- The places of the log of a run with problems, in order. -/
example : (∀ p, '\n' ∉ quoting.debugPath p) ∧
    (Log.mainRc (env .nil config) quoting args (world files)).map (fun r => (r.file, r.line)) =
      [(c!"src/main.rs", 62), (c!"src/controller.rs", 167), (c!"src/controller.rs", 124), (c!"src/trace.rs", 158),
       (c!"src/trace.rs", 276), (c!"src/controller.rs", 266), (c!"src/controller.rs", 320), (c!"src/controller.rs", 341),
       (c!"src/controller.rs", 353), (c!"src/controller.rs", 357), (c!"src/controller.rs", 365),
       (c!"src/controller.rs", 402), (c!"src/controller.rs", 309)] :=
  ⟨quoted_noLf _, by decide +kernel⟩

end LogExample

end Reqtrace
