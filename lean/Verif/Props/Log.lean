import Verif.Props.Run
import Verif.Spec.Log

/-!
# C117: problems in the log
-/

namespace Reqtrace

open Spec Log

theorem said_append (a b : List Record) : said (a ++ b) = said a ++ said b := List.map_append

theorem said_problems (env : Env) (log : LogEnv) (file : Str) (line : Error → Nat) (es : List Error) :
    said (es.map fun e => problem env log file (line e) e) = es.map (announced env log) := by
  unfold said; rw [List.map_map]; rfl

/-- All records have the level. -/
def AllOf (l : Level) (rs : List Record) : Prop := ∀ r ∈ rs, r.level = l

theorem AllOf.append {l : Level} {a b : List Record} (ha : AllOf l a) (hb : AllOf l b) : AllOf l (a ++ b) :=
  fun r h => (List.mem_append.1 h).elim (ha r) (hb r)

theorem allOf_problems (env : Env) (log : LogEnv) (file : Str) (line : Error → Nat) (es : List Error) :
    AllOf .info (es.map fun e => problem env log file (line e) e) := by
  intro r h
  obtain ⟨e, _, rfl⟩ := List.mem_map.1 h
  rfl

theorem AllOf.nil (l : Level) : AllOf l [] := fun _ h => by cases h

theorem allOf_of_said {env : Env} {log : LogEnv} {rs : List Record} {es : List Error}
    (h : said rs = es.map (announced env log)) : AllOf .info rs := by
  intro r hr
  have : (r.level, r.text) ∈ said rs := List.mem_map.2 ⟨r, hr, rfl⟩
  rw [h] at this
  obtain ⟨e, _, he⟩ := List.mem_map.1 this
  exact (congrArg Prod.fst he).symm

theorem ofLevel_all {l : Level} {rs : List Record} (h : AllOf l rs) : ofLevel l rs = rs :=
  List.filter_eq_self.2 (fun r hr => by simp [h r hr])

theorem ofLevel_none {l l' : Level} {rs : List Record} (h : AllOf l rs) (hl : l ≠ l') : ofLevel l' rs = [] :=
  List.filter_eq_nil_iff.2 (fun r hr => by simp [h r hr, hl])

theorem ofLevel_append (l : Level) (a b : List Record) : ofLevel l (a ++ b) = ofLevel l a ++ ofLevel l b :=
  List.filter_append ..

/-! ## Markdown -/

theorem drop_append_self {α : Type} (a b : List α) : (a ++ b).drop a.length = b := by simp

/-- What is recorded is added at the end. -/
def Grows (a b : List Error) : Prop := ∃ es, b = a ++ es

theorem Grows.refl (a : List Error) : Grows a a := ⟨[], by simp⟩
theorem Grows.trans {a b c : List Error} (h : Grows a b) (h' : Grows b c) : Grows a c := by
  obtain ⟨es, rfl⟩ := h
  obtain ⟨es', rfl⟩ := h'
  exact ⟨es ++ es', by simp⟩

theorem Grows.drop {a b : List Error} (h : Grows a b) : b = a ++ b.drop a.length := by
  obtain ⟨es, rfl⟩ := h
  rw [drop_append_self]

section
variable {U : Unicode}
open Md

theorem req_ok {c : Context} {r : Requirement} (h : c.req = .ok r) : c.reqUnderConstruction = some r := orPanic_ok h

theorem commitAttr_errors {c c' : Context} {attr val : Str} (h : commitAttr c attr val = .ok c') : c'.errors = c.errors := by
  unfold commitAttr at h
  cases hr : c.req with
  | error p => rw [hr] at h; cases h
  | ok r => rw [hr] at h; cases h; rfl

theorem commitLinkAttr_errors {c c' : Context} {attr : Str} {vec : List Reference} (h : commitLinkAttr c attr vec = .ok c') :
    c'.errors = c.errors := by
  unfold commitLinkAttr at h
  cases hr : c.req with
  | error p =>
    rw [hr] at h
    split at h
    · cases h
    · split at h <;> cases h
  | ok r =>
    rw [hr] at h
    split at h
    · cases h; rfl
    · split at h
      · cases h; rfl
      · cases h

theorem maybeCommitReq_errors (c : Context) : (maybeCommitReq c).errors = c.errors := by
  unfold maybeCommitReq; split <;> rfl

theorem addReq_errors {c c' : Context} {s : State} {cap : Captures} (h : addReq c cap = .ok (s, c')) :
    c'.errors = c.errors := by
  unfold addReq at h
  cases h1 : cap.idx 1 with
  | error p => rw [h1] at h; cases h
  | ok a =>
    cases h2 : cap.idx 2 with
    | error p => rw [h1, h2] at h; cases h
    | ok b =>
      cases h3 : cap.idx 3 with
      | error p => rw [h1, h2, h3] at h; cases h
      | ok d =>
        rw [h1, h2, h3] at h
        cases h
        exact maybeCommitReq_errors c

theorem startAttribute_errors {c c' : Context} {s : State} {cap : Captures} (h : startAttribute c cap = .ok (s, c')) :
    Grows c.errors c'.errors := by
  unfold startAttribute at h
  cases h1 : cap.idx 1 with
  | error p => rw [h1] at h; cases h
  | ok a =>
    cases h2 : cap.idx 2 with
    | error p => rw [h1, h2] at h; cases h
    | ok b =>
      rw [h1, h2] at h
      simp only [bind, Except.bind] at h
      have key : ∀ {P : Prop} [Decidable P] (e : Error), Grows c.errors (if P then c.push e else c).errors := by
        intro P _ e
        split
        · exact ⟨[e], rfl⟩
        · exact .refl _
      cases hr : c.req with
      | error p =>
        rw [hr] at h
        split at h
        · cases h
        · split at h <;> cases h
      | ok r =>
        rw [hr] at h
        simp only [pure, Except.pure] at h
        split at h
        · cases h; exact key _
        · split at h
          · cases h; exact key _
          · cases h; exact key _

theorem bind_ok {α β : Type} {x : PanicM α} {f : α → PanicM β} {b : β} (h : (x >>= f) = .ok b) :
    ∃ a, x = .ok a ∧ f a = .ok b := by
  cases x with
  | error p => cases h
  | ok a => exact ⟨a, rfl, h⟩

theorem map_ok {α β : Type} {x : PanicM α} {f : α → β} {b : β} (h : (f <$> x) = .ok b) :
    ∃ a, x = .ok a ∧ f a = b := by
  cases x with
  | error p => cases h
  | ok a => cases h; exact ⟨a, rfl, rfl⟩

theorem eof_errors {s s' : State} {c c' : Context} (h : parseStates U s c .eof = .ok (s', c')) : c'.errors = c.errors := by
  replace h : parseStateEof s c = .ok (s', c') := h
  unfold parseStateEof at h
  cases s with
  | lookForReq => cases h; rfl
  | lookForDesc => cases h; exact maybeCommitReq_errors c
  | lookForAttr => cases h; exact maybeCommitReq_errors c
  | collectDesc d =>
    simp only at h
    cases hc : commitAttr c attrDescription d with
    | error p => rw [hc] at h; cases h
    | ok c1 => rw [hc] at h; cases h; exact (maybeCommitReq_errors c1).trans (commitAttr_errors hc)
  | collectDescNl d =>
    simp only at h
    cases hc : commitAttr c attrDescription d with
    | error p => rw [hc] at h; cases h
    | ok c1 => rw [hc] at h; cases h; exact (maybeCommitReq_errors c1).trans (commitAttr_errors hc)
  | collectTextAttr a v =>
    simp only at h
    cases hc : commitAttr c a v with
    | error p => rw [hc] at h; cases h
    | ok c1 => rw [hc] at h; cases h; exact (maybeCommitReq_errors c1).trans (commitAttr_errors hc)
  | collectRefLink a v =>
    simp only at h
    cases hc : commitLinkAttr c a v with
    | error p => rw [hc] at h; cases h
    | ok c1 => rw [hc] at h; cases h; exact (maybeCommitReq_errors c1).trans (commitLinkAttr_errors hc)

theorem heading_errors {s s' : State} {c c' : Context} (h : parseStates U s c .heading = .ok (s', c')) :
    c'.errors = c.errors := by
  replace h : parseStateHeading s c = .ok (s', c') := h
  unfold parseStateHeading at h
  cases s with
  | lookForReq => cases h; rfl
  | lookForDesc => cases h; rfl
  | lookForAttr => cases h; rfl
  | collectDesc d =>
    simp only at h
    cases hc : commitAttr c attrDescription d with
    | error p => rw [hc] at h; cases h
    | ok c1 => rw [hc] at h; cases h; exact commitAttr_errors hc
  | collectDescNl d =>
    simp only at h
    cases hc : commitAttr c attrDescription d with
    | error p => rw [hc] at h; cases h
    | ok c1 => rw [hc] at h; cases h; exact commitAttr_errors hc
  | collectTextAttr a v =>
    simp only at h
    cases hc : commitAttr c a v with
    | error p => rw [hc] at h; cases h
    | ok c1 => rw [hc] at h; cases h; exact commitAttr_errors hc
  | collectRefLink a v =>
    simp only at h
    cases hc : commitLinkAttr c a v with
    | error p => rw [hc] at h; cases h
    | ok c1 => rw [hc] at h; cases h; exact commitLinkAttr_errors hc

theorem parseStateReq_errors {s s' : State} {c c' : Context} {cap : Captures}
    (h : parseStateReq s c cap = .ok (s', c')) : c'.errors = c.errors := by
  unfold parseStateReq at h
  cases s with
  | lookForReq => exact addReq_errors h
  | lookForDesc => exact addReq_errors h
  | lookForAttr => exact addReq_errors h
  | collectDesc d =>
    simp only at h
    cases hc : commitAttr c attrDescription d with
    | error p => rw [hc] at h; cases h
    | ok c1 => rw [hc] at h; exact (addReq_errors h).trans (commitAttr_errors hc)
  | collectDescNl d =>
    simp only at h
    cases hc : commitAttr c attrDescription d with
    | error p => rw [hc] at h; cases h
    | ok c1 => rw [hc] at h; exact (addReq_errors h).trans (commitAttr_errors hc)
  | collectTextAttr a v =>
    simp only at h
    cases hc : commitAttr c a v with
    | error p => rw [hc] at h; cases h
    | ok c1 => rw [hc] at h; exact (addReq_errors h).trans (commitAttr_errors hc)
  | collectRefLink a v =>
    simp only at h
    cases hc : commitLinkAttr c a v with
    | error p => rw [hc] at h; cases h
    | ok c1 => rw [hc] at h; exact (addReq_errors h).trans (commitLinkAttr_errors hc)

theorem parseStates_errors {s s' : State} {c c' : Context} {evt : Md.Event}
    (h : parseStates U s c evt = .ok (s', c')) : Grows c.errors c'.errors := by
  have heq : ∀ {a b : List Error}, a = b → Grows b a := by rintro _ _ rfl; exact .refl _
  cases evt with
  | req cap => exact heq (parseStateReq_errors h)
  | heading => exact heq (heading_errors h)
  | eof => exact heq (eof_errors h)
  | empty =>
    replace h : parseStateEmpty s c = .ok (s', c') := h
    cases s with
    | collectRefLink a v =>
      obtain ⟨c1, h1, h2⟩ := bind_ok h
      cases h2
      exact heq (commitLinkAttr_errors h1)
    | _ => cases h; exact .refl _
  | line l =>
    replace h : parseStateLine U s l c = .ok (s', c') := h
    unfold parseStateLine at h
    cases s with
    | lookForReq => cases h; exact .refl _
    | lookForDesc =>
      simp only at h
      split at h
      · exact startAttribute_errors h
      · cases h; exact .refl _
    | lookForAttr =>
      simp only at h
      split at h
      · exact startAttribute_errors h
      · cases h; exact ⟨[_], rfl⟩
    | collectDesc d => cases h; exact .refl _
    | collectDescNl d =>
      simp only at h
      split at h
      · obtain ⟨c1, h1, h2⟩ := bind_ok h
        rw [← commitAttr_errors h1]
        exact startAttribute_errors h2
      · cases h; exact .refl _
    | collectTextAttr a v =>
      simp only at h
      split at h
      · obtain ⟨c1, h1, h2⟩ := bind_ok h
        rw [← commitAttr_errors h1]
        exact startAttribute_errors h2
      · cases h; exact .refl _
    | collectRefLink a v =>
      simp only at h
      split at h
      · obtain ⟨c1, h1, h2⟩ := bind_ok h
        cases h2; exact .refl _
      · split at h
        · obtain ⟨c1, h1, h2⟩ := bind_ok h
          cases h2
          exact heq (commitLinkAttr_errors h1)
        · obtain ⟨c1, h1, h2⟩ := bind_ok h
          cases h2
          exact ⟨[_], by rw [← commitLinkAttr_errors h1]; rfl⟩

end

section
variable (env : Env) (log : LogEnv)

theorem mdLoop_said (failure : Option Str) (ls : List Str) : ∀ (s : Md.State) (c c' : Md.Context),
    Md.parseLoop env.U failure ls s c = .ok c' → Grows c.errors c'.errors ∧
      said (mdLoop env log failure ls s c) = (c'.errors.drop c.errors.length).map (announced env log) := by
  induction ls with
  | nil =>
    intro s c c' h
    unfold Md.parseLoop at h
    cases failure with
    | some e =>
      cases h
      exact ⟨⟨[_], rfl⟩, by unfold mdLoop; simp [Md.Context.push, said, mdProblem, problem, announced]⟩
    | none =>
      obtain ⟨⟨s', c1⟩, h1, h2⟩ := bind_ok h
      cases h2
      have := eof_errors h1
      simp only at this
      rw [this]
      exact ⟨.refl _, by unfold mdLoop; simp [said]⟩
  | cons l ls ih =>
    intro s c c' h
    unfold Md.parseLoop at h
    obtain ⟨evt, h1, h2⟩ := bind_ok h
    obtain ⟨⟨s1, c1⟩, h3, h4⟩ := bind_ok h2
    have hg := parseStates_errors h3
    obtain ⟨hg', hs⟩ := ih s1 c1 c' h4
    simp only at hg
    refine ⟨hg.trans hg', ?_⟩
    unfold mdLoop
    simp only [h1, h3]
    rw [said_append, hs]
    have : said ((c1.errors.drop c.errors.length).map (mdProblem env log)) =
        (c1.errors.drop c.errors.length).map (announced env log) := said_problems env log _ mdLine _
    rw [this, ← List.map_append]
    congr 1
    obtain ⟨e1, h5⟩ := hg
    obtain ⟨e2, h6⟩ := hg'
    rw [h6, h5]
    simp

theorem mdParse_said {src : Source} {path : Path} {reqs : List Requirement} {errs : List Error}
    (h : Md.parse env.U src path = .ok (reqs, errs)) : said (mdParse env log src path) = errs.map (announced env log) := by
  obtain ⟨c, h1, h2⟩ := bind_ok h
  cases h2
  exact (mdLoop_said env log _ _ _ _ _ h1).2

theorem monoParse_said {src : Source} {path : Path} {reqs : List Requirement} {errs : List Error}
    (h : MonoReq.parse env.U src path = .ok (reqs, errs)) : said (monoParse env log src path) = errs.map (announced env log) := by
  unfold monoParse
  rw [h]
  exact said_problems env log _ (fun _ => 57) errs

/-! ## Rust -/

theorem parseMacro_errors {debug : List Rs.Tok → Str} {path : Path} {p p' : Rs.Parser} {m : Rs.Mac} {b : Bool}
    (h : Rs.parseMacro debug path p m = .ok (b, p')) : Grows p.errors p'.errors := by
  unfold Rs.parseMacro at h
  split at h
  · split at h
    · split at h
      · cases h; exact ⟨[_], rfl⟩
      · obtain ⟨q, h1, h2⟩ := bind_ok h
        cases h2
        have : p'.errors = p.errors := by
          unfold Rs.record at h1
          simp only at h1
          split at h1
          · split at h1
            · cases h1; rfl
            · obtain ⟨l, _, h3⟩ := bind_ok h1; cases h3; rfl
          · obtain ⟨l, _, h3⟩ := bind_ok h1; cases h3; rfl
        rw [this]; exact .refl _
    · cases h; exact .refl _
  · cases h; exact .refl _

theorem pop_errors {p p' : Rs.Parser} (h : Rs.pop p = .ok p') : p'.errors = p.errors := by
  unfold Rs.pop at h
  obtain ⟨_, _, h⟩ := bind_ok h
  obtain ⟨_, _, h⟩ := bind_ok h
  cases h; rfl

theorem rustVisit_said (path : Path) (f : Rs.Forest) : ∀ (p p' : Rs.Parser),
    Rs.visit env.syn.debug path f p = .ok p' → Grows p.errors p'.errors ∧
      said (rustVisit env log path f p) = (p'.errors.drop p.errors.length).map (announced env log) := by
  have join : ∀ {a b c : List Error}, Grows a b → Grows b c →
      (b.drop a.length).map (announced env log) ++ (c.drop b.length).map (announced env log) =
        (c.drop a.length).map (announced env log) := by
    rintro a _ _ ⟨e1, rfl⟩ ⟨e2, rfl⟩
    rw [← List.map_append]
    congr 1
    simp
  induction f with
  | nil => intro p p' h; cases h; exact ⟨.refl _, by simp [rustVisit, said]⟩
  | mac m rest ih =>
    intro p p' h
    obtain ⟨⟨b, p1⟩, h1, h2⟩ := bind_ok h
    have hg := parseMacro_errors h1
    obtain ⟨hg', hs⟩ := ih _ _ h2
    refine ⟨hg.trans hg', ?_⟩
    unfold rustVisit
    simp only [h1]
    have hp : said ((p1.errors.drop p.errors.length).map (fun e => rustProblem env log (rustLine e) e)) = _ :=
      said_problems env log c!"src/parsers/rust.rs" rustLine _
    rw [said_append, hs, hp]
    exact join hg hg'
  | item i l c inner rest ih1 ih2 =>
    intro p p' h
    obtain ⟨p1, h1, h2⟩ := bind_ok h
    obtain ⟨p2, h3, h4⟩ := bind_ok h2
    obtain ⟨hg, hs⟩ := ih1 _ _ h1
    obtain ⟨hg', hs'⟩ := ih2 _ _ h4
    have hp := pop_errors h3
    have hq : (Rs.push path p i l c).errors = p.errors := rfl
    rw [hq] at hg hs
    rw [hp] at hg' hs'
    refine ⟨hg.trans hg', ?_⟩
    unfold rustVisit
    simp only [h1, h3]
    rw [said_append, hs, hs']
    exact join hg hg'
  | node inner rest ih1 ih2 =>
    intro p p' h
    obtain ⟨p1, h1, h2⟩ := bind_ok h
    obtain ⟨hg, hs⟩ := ih1 _ _ h1
    obtain ⟨hg', hs'⟩ := ih2 _ _ h2
    refine ⟨hg.trans hg', ?_⟩
    unfold rustVisit
    simp only [h1]
    rw [said_append, hs, hs']
    exact join hg hg'

theorem rustParse_said {src : Source} {path : Path} {reqs : List Requirement} {errs : List Error}
    (h : Rs.parse env.syn src path = .ok (reqs, errs)) : said (rustParse env log src path) = errs.map (announced env log) := by
  unfold Rs.parse at h
  unfold rustParse
  cases hf : src.failure with
  | some e => rw [hf] at h; cases h; rfl
  | none =>
    rw [hf] at h
    simp only at h ⊢
    cases hs : env.syn.parseFile src.text with
    | error e => obtain ⟨l, c, e⟩ := e; rw [hs] at h; cases h; rfl
    | ok f =>
      rw [hs] at h
      obtain ⟨p, h1, h2⟩ := bind_ok h
      cases h2
      exact (rustVisit_said env log path f _ _ h1).2

/-! ## An artefact -/

theorem parseFiles_said (w : World) (ps : List Path) : ∀ {reqs : List Requirement} {errs : List Error},
    Reqtrace.parseFiles env w .rust ps = .ok (reqs, errs) →
      said (Log.parseFiles env log w .rust ps) = errs.map (announced env log) := by
  induction ps with
  | nil => intro reqs errs h; cases h; rfl
  | cons p ps ih =>
    intro reqs errs h
    unfold Reqtrace.parseFiles at h
    unfold Log.parseFiles
    cases ho : env.os.openFile w p with
    | error e' =>
      rw [ho] at h
      simp only [pure_bind] at h
      obtain ⟨⟨rs, es⟩, h3, h4⟩ := bind_ok h
      cases h4
      have := ih h3
      simp only [said, List.map_cons, List.map_append] at this ⊢
      rw [this]; rfl
    | ok file =>
      rw [ho] at h
      simp only at h ⊢
      obtain ⟨⟨r, e⟩, h1, h2⟩ := bind_ok h
      obtain ⟨⟨rs, es⟩, h3, h4⟩ := bind_ok h2
      cases h4
      rw [said_append, rustParse_said env log h1, h1]
      simp only [ih h3, List.map_append]

theorem parseArtefact_said {w : World} {ac : ArtefactConfig} {base : Path} {paths : List Path} {reqs : List Requirement}
    {errs : List Error} (h : Reqtrace.parseArtefact env w ac base = .ok (paths, reqs, errs)) :
    (GlobFails env w ac base → said (Log.parseArtefact env log w ac base) = []) ∧
    (¬ GlobFails env w ac base → said (Log.parseArtefact env log w ac base) = errs.map (announced env log)) := by
  unfold Reqtrace.parseArtefact at h
  unfold Log.parseArtefact
  have single : ac.parser ≠ .rust → Reqtrace.parseSingleFile env w ac base = .ok (paths, reqs, errs) →
      said (Log.parseSingleFile env log w ac base) = errs.map (announced env log) := by
    intro hp h
    unfold Reqtrace.parseSingleFile at h
    unfold Log.parseSingleFile
    split at h
    · next p hps =>
      rw [hps]
      simp only at h ⊢
      cases ho : env.os.openFile w (joinPath base p) with
      | error e => rw [ho] at h; cases h; rfl
      | ok file =>
        rw [ho] at h
        cases hk : ac.parser with
        | rust => exact absurd hk hp
        | markdown =>
          rw [hk] at h
          obtain ⟨⟨r, e⟩, h1, h2⟩ := bind_ok h
          cases h2
          exact mdParse_said env log h1
        | monoRequirement =>
          rw [hk] at h
          obtain ⟨⟨r, e⟩, h1, h2⟩ := bind_ok h
          cases h2
          exact monoParse_said env log h1
        | json =>
          rw [hk] at h
          simp only at h ⊢
          cases hj : JsonRead.fromReader (env.jsonErr file) file.whole with
          | ok r => rw [hj] at h; cases h; rfl
          | error e => rw [hj] at h; cases h; rfl
    · next ps hne =>
      cases h
      split
      · next p hp => exact absurd hp (hne p)
      · rfl
  have notGlob : ac.parser ≠ .rust → ¬ GlobFails env w ac base := fun hp hg => hp hg.1
  cases hk : ac.parser with
  | rust =>
    rw [hk] at h
    simp only at h ⊢
    unfold Reqtrace.parseMultipleFiles at h
    unfold Log.parseMultipleFiles
    by_cases hp : ac.paths = []
    · rw [if_pos hp] at h ⊢
      cases h
      exact ⟨fun hg => absurd hp hg.2.1, fun _ => rfl⟩
    · rw [if_neg hp] at h ⊢
      cases hg : globPaths env w base ac.paths with
      | error e => exact ⟨fun _ => rfl, fun hn => absurd ⟨hk, hp, e, hg⟩ hn⟩
      | ok ps =>
        rw [hg] at h
        obtain ⟨⟨r, e⟩, h1, h2⟩ := bind_ok h
        cases h2
        rw [hk] at h1
        refine ⟨fun ⟨_, _, e, he⟩ => by (rw [hg] at he; cases he), fun _ => ?_⟩
        rw [hk]
        exact parseFiles_said env log w _ h1
  | markdown =>
    rw [hk] at h
    exact ⟨fun hg => absurd hg (notGlob (by rw [hk]; intro h; cases h)), fun _ => single (by rw [hk]; intro h; cases h) h⟩
  | monoRequirement =>
    rw [hk] at h
    exact ⟨fun hg => absurd hg (notGlob (by rw [hk]; intro h; cases h)), fun _ => single (by rw [hk]; intro h; cases h) h⟩
  | json =>
    rw [hk] at h
    exact ⟨fun hg => absurd hg (notGlob (by rw [hk]; intro h; cases h)), fun _ => single (by rw [hk]; intro h; cases h) h⟩

/-- A failing glob leaves no requirements, so that there are no duplicates. -/
theorem globFails_reqs {w : World} {ac : ArtefactConfig} {base : Path} {paths : List Path} {reqs : List Requirement}
    {errs : List Error} (hg : GlobFails env w ac base) (h : Reqtrace.parseArtefact env w ac base = .ok (paths, reqs, errs)) :
    reqs = [] := by
  obtain ⟨hk, hp, e, he⟩ := hg
  unfold Reqtrace.parseArtefact at h
  rw [hk] at h
  simp only at h
  unfold Reqtrace.parseMultipleFiles at h
  rw [if_neg hp, he] at h
  cases h; rfl

theorem parseFromConfig_said {w : World} {ac : ArtefactConfig} {base : Path} {paths : List Path}
    {m : BMap RequirementId Requirement} {errs : List Error}
    (h : Reqtrace.parseFromConfig env w ac base = .ok (paths, m, errs)) :
    (GlobFails env w ac base → said (Log.parseFromConfig env log w ac base) = []) ∧
    (¬ GlobFails env w ac base → said (Log.parseFromConfig env log w ac base) = errs.map (announced env log)) := by
  obtain ⟨reqs, perrs, h1, -, rfl⟩ := parseFromConfig_ok h
  obtain ⟨h2, h3⟩ := parseArtefact_said env log h1
  unfold Log.parseFromConfig
  rw [said_append, h1]
  simp only
  rw [(collect_eq reqs perrs).2, drop_append_self, said_problems env log _ (fun _ => 167)]
  constructor
  · intro hg
    rw [h2 hg, globFails_reqs env hg h1]
    rfl
  · intro hg
    rw [h3 hg, ← List.map_append]

theorem makeArtefacts_said {w : World} {base : Path} {roots : BMap ArtefactId Bool} (acs : List ArtefactConfig) :
    (∀ ac ∈ acs, ∃ art, makeArtefact env w base roots ac = .ok art) →
    ∃ es, ReadLog env w base acs es ∧ said (Log.makeArtefacts env log w base roots acs) = es.map (announced env log) := by
  induction acs with
  | nil => intro _; exact ⟨[], .nil, rfl⟩
  | cons ac acs ih =>
    intro h
    obtain ⟨es, h1, h2⟩ := ih (fun b hb => h b (List.mem_cons_of_mem _ hb))
    obtain ⟨art, ha⟩ := h ac (List.mem_cons_self ..)
    obtain ⟨root, files, m, errs, -, hp, -⟩ := makeArtefact_ok ha
    obtain ⟨h3, h4⟩ := parseFromConfig_said env log hp
    unfold Log.makeArtefacts
    rw [said_append, ha]
    simp only
    rw [h2]
    by_cases hg : GlobFails env w ac base
    · exact ⟨es, .silent hg h1, by rw [h3 hg]; rfl⟩
    · exact ⟨errs ++ es, .all hg hp h1, by rw [h4 hg, List.map_append]⟩

/-! ## The tracer -/

/-- The errors recorded meanwhile are none that the tracer announces. -/
def Quiet (t t' : Tracer) : Prop := ∃ es, t'.errors = t.errors ++ es ∧ ∀ e ∈ es, Announces e = false

theorem Quiet.refl (t : Tracer) : Quiet t t := ⟨[], by simp, fun _ h => by cases h⟩
theorem Quiet.trans {a b c : Tracer} (h : Quiet a b) (h' : Quiet b c) : Quiet a c := by
  obtain ⟨e1, h1, h2⟩ := h
  obtain ⟨e2, h3, h4⟩ := h'
  exact ⟨e1 ++ e2, by rw [h3, h1, List.append_assoc], fun e he => (List.mem_append.1 he).elim (h2 e) (h4 e)⟩

theorem foldlM_quiet {α σ : Type} (f : σ → α → PanicM σ) (tr : σ → Tracer)
    (hf : ∀ s a s', f s a = .ok s' → Quiet (tr s) (tr s')) (l : List α) : ∀ (s s' : σ),
    l.foldlM f s = .ok s' → Quiet (tr s) (tr s') := by
  induction l with
  | nil => intro s s' h; cases h; exact .refl _
  | cons a l ih =>
    intro s s' h
    rw [List.foldlM_cons] at h
    obtain ⟨s1, h1, h2⟩ := bind_ok h
    exact (hf _ _ _ h1).trans (ih _ _ h2)

theorem foldl_quiet {α σ : Type} (f : σ → α → σ) (tr : σ → Tracer)
    (hf : ∀ s a, Quiet (tr s) (tr (f s a))) (l : List α) : ∀ (s : σ), Quiet (tr s) (tr (l.foldl f s)) := by
  induction l with
  | nil => intro s; exact .refl _
  | cons a l ih => intro s; exact (hf s a).trans (ih _)

theorem traceDependsLower_quiet {upperReq : Requirement} {dep : Reference} {s s' : RelState} {lower : ArtefactId}
    (h : traceDependsLower upperReq dep s lower = .ok s') : Quiet s.tracer s'.tracer := by
  obtain ⟨la, _, h2⟩ := bind_ok h
  simp only at h2
  split at h2
  · cases h2; exact .refl _
  · cases h2
    refine ⟨_, rfl, ?_⟩
    intro e he
    split at he
    · split at he
      · cases List.mem_singleton.1 he; rfl
      · cases he
    · split at he
      · cases List.mem_singleton.1 he; rfl
      · cases he

theorem traceCover_quiet (upperArt : Artefact) (upperReq : Requirement) (lowerId : ArtefactId) (s : RelState)
    (e : Requirement × Reference) : Quiet s.tracer (traceCover upperArt upperReq lowerId s e).tracer := by
  refine ⟨_, rfl, ?_⟩
  intro e he
  split at he
  · split at he
    · cases List.mem_singleton.1 he; rfl
    · cases he
  · split at he
    · cases List.mem_singleton.1 he; rfl
    · cases he

theorem traceUpperReq_quiet {rel : Relation} {upperArt : Artefact} {acc acc' : RelAcc} {upperReq : Requirement}
    (h : traceUpperReq rel upperArt acc upperReq = .ok acc') : Quiet acc.tracer acc'.tracer := by
  obtain ⟨s1, h1, h2⟩ := bind_ok h
  obtain ⟨s2, h3, h4⟩ := bind_ok h2
  cases h4
  have q1 : Quiet acc.tracer s1.tracer := foldlM_quiet _ RelState.tracer
    (fun s d s' h => foldlM_quiet _ RelState.tracer (fun _ _ _ h => traceDependsLower_quiet h) _ _ _ h) _ _ _ h1
  refine q1.trans (foldlM_quiet _ RelState.tracer (fun s a s' h => ?_) _ _ _ h3)
  obtain ⟨la, _, h5⟩ := bind_ok h
  split at h5
  · cases h5; exact .refl _
  · cases h5
    exact foldl_quiet _ RelState.tracer (fun s e => traceCover_quiet _ _ _ s e) _ _

/-- The announced errors that were added. -/
def newOnes (t t' : Tracer) : List Error := (t'.errors.drop t.errors.length).filter Announces

theorem traceRelations_said (rels : List Relation) : ∀ (t t' : Tracer), rels.foldlM traceRelation t = .ok t' →
    Grows t.errors t'.errors ∧
    said (ofLevel .info (traceRelations env log t rels)) = (newOnes t t').map (announced env log) := by
  induction rels with
  | nil => intro t t' h; cases h; exact ⟨.refl _, by simp [traceRelations, ofLevel, said, newOnes]⟩
  | cons rel rels ih =>
    intro t t' h
    rw [List.foldlM_cons] at h
    obtain ⟨t1, h1, h2⟩ := bind_ok h
    obtain ⟨hg, hs⟩ := ih _ _ h2
    have h1' := h1
    obtain ⟨ta, h3, h4⟩ := bind_ok h1
    obtain ⟨acc, h5, h6⟩ := bind_ok h4
    have h3 := orPanic_ok h3
    obtain ⟨es, h7, h8⟩ := foldlM_quiet _ RelAcc.tracer (fun _ _ _ h => traceUpperReq_quiet h) _ _ _ h5
    simp only at h7
    have h9 : t1.errors = t.errors ++ es ++ (if !acc.anyReqCovered then [Error.unusedRelation rel] else []) := by
      cases h6
      simp only
      split <;> simp_all
    obtain ⟨more, h10⟩ := hg
    refine ⟨⟨es ++ (if !acc.anyReqCovered then [Error.unusedRelation rel] else []) ++ more, by rw [h10, h9]; simp⟩, ?_⟩
    unfold traceRelations
    rw [h3]
    simp only
    rw [h5]
    simp only
    rw [h1']
    simp only
    have hnew : newOnes t t' = (if !acc.anyReqCovered then [Error.unusedRelation rel] else []) ++ newOnes t1 t' := by
      unfold newOnes
      have e1 : t'.errors.drop t.errors.length =
          es ++ (if !acc.anyReqCovered then [Error.unusedRelation rel] else []) ++ more := by rw [h10, h9]; simp
      have e2 : t'.errors.drop t1.errors.length = more := by rw [h10]; simp
      have hes : es.filter Announces = [] := List.filter_eq_nil_iff.2 (fun e he => by simp [h8 e he])
      rw [e1, e2, List.filter_append, List.filter_append, hes]
      cases acc.anyReqCovered <;> rfl
    have hhead : ∀ rest : List Record, ofLevel .info (⟨traceFile, 158, .trace, c!"Trace " ++ env.fmt.debugRelation rel⟩ :: rest) =
        ofLevel .info rest := fun rest => by simp [ofLevel]
    rw [hhead, ofLevel_append, said_append, hs, hnew, List.map_append]
    congr 1
    cases acc.anyReqCovered
    · rfl
    · rfl

theorem validateLinks_said (line : Nat) (step : Tracer → RequirementId × RequirementId → PanicM Tracer)
    (hstep : ∀ t l t', step t l = .ok t' → ∃ e, t'.errors = t.errors ++ [e] ∧ Announces e = true)
    (ls : List (RequirementId × RequirementId)) : ∀ (t t' : Tracer), ls.foldlM step t = .ok t' →
    Grows t.errors t'.errors ∧
    said (validateLinks env log line step t ls) = (newOnes t t').map (announced env log) := by
  induction ls with
  | nil => intro t t' h; cases h; exact ⟨.refl _, by simp [validateLinks, said, newOnes]⟩
  | cons l ls ih =>
    intro t t' h
    rw [List.foldlM_cons] at h
    obtain ⟨t1, h1, h2⟩ := bind_ok h
    obtain ⟨⟨more, hm⟩, hs⟩ := ih _ _ h2
    obtain ⟨e, he, ha⟩ := hstep _ _ _ h1
    refine ⟨⟨e :: more, by rw [hm, he]; simp⟩, ?_⟩
    unfold validateLinks
    rw [h1]
    simp only
    rw [said_append, hs, said_problems env log _ (fun _ => line), ← List.map_append]
    congr 1
    unfold newOnes
    rw [hm, he]
    simp [ha]

theorem addArtefact_quiet (t : Tracer) (a : Artefact) : Quiet t (addArtefact t a) := by
  have : Quiet t (a.requirements.values.foldl (addRequirement a)
      { tracer := t, requirementsById := .empty, requirementsThatCover := .empty, derived := .empty }).tracer := by
    refine foldl_quiet (addRequirement a) AddState.tracer (fun s r => ?_) _ _
    unfold addRequirement
    split
    · exact ⟨[_], rfl, fun e he => by cases List.mem_singleton.1 he; rfl⟩
    · exact ⟨[], by simp, fun _ h => by cases h⟩
  exact this

theorem trace_said {g : Graph} {tg : TracedGraph} (h : Reqtrace.trace g = .ok tg) :
    said (ofLevel .info (Log.trace env log g)) = (tg.errors.filter Announces).map (announced env log) := by
  obtain ⟨t3, h1, h2⟩ := bind_ok h
  cases h2
  obtain ⟨t1, h3, h4⟩ := bind_ok (show Tracer.new g = .ok t3 from h1)
  obtain ⟨t2, h5, h6⟩ := bind_ok (show validate t1 = .ok t3 from h4)
  obtain ⟨es, h7, h8⟩ := foldl_quiet addArtefact id addArtefact_quiet g.artefacts.values Tracer.empty
  simp only [id] at h7
  obtain ⟨⟨e1, g1⟩, s1⟩ := traceRelations_said env log g.relations _ _ h3
  obtain ⟨⟨e2, g2⟩, s2⟩ := validateLinks_said env log 307 validateUpward (by
    intro t l t' h
    obtain ⟨⟨_, req⟩, _, h⟩ := bind_ok h
    obtain ⟨r, _, h⟩ := bind_ok h
    cases h
    exact ⟨_, rfl, rfl⟩) _ _ _ h5
  obtain ⟨⟨e3, g3⟩, s3⟩ := validateLinks_said env log 328 validateDownward (by
    intro t l t' h
    obtain ⟨⟨_, req⟩, _, h⟩ := bind_ok h
    obtain ⟨r, _, h⟩ := bind_ok h
    cases h
    exact ⟨_, rfl, rfl⟩) _ _ _ h6
  unfold Log.trace
  simp only
  rw [h3]
  simp only
  rw [show validateUpwards t1 = .ok t2 from h5]
  simp only
  rw [ofLevel_append, ofLevel_append, ofLevel_all (allOf_of_said s2), ofLevel_all (allOf_of_said s3), said_append, said_append,
    s1, s2, s3, ← List.map_append, ← List.map_append]
  congr 1
  unfold newOnes
  have hd : t3.data.errors = es ++ e1 ++ e2 ++ e3 := by
    show t3.errors = _
    rw [g3, g2, g1, h7]; simp [Tracer.empty]
  have hes : es.filter Announces = [] := List.filter_eq_nil_iff.2 (fun e he => by simp [h8 e he])
  rw [hd, g3, g2, g1]
  simp [hes]

/-! ## C117 -/

/-- **C117** as listed: every problem is logged. -/
def C117_statement : Prop := ∀ (env : Env) (log : LogEnv) (w : World) (config : Config) (base : Path) (c : Controller),
  Controller.new env w config base = .ok c →
  ∀ e, (e ∈ c.tracedGraph.errors ∨ ∃ a art, c.graph.artefacts.get a = some art ∧ e ∈ art.errors) →
    announced env log e ∈ said (Log.new env log w config base)

/-- **C117** What is said at level INFO while the project is read and traced, in this order: all the problems of the
artefacts but those of a failing glob and missing titles, and those of the tracer that it announces. -/
theorem C117_exactly_partial {w : World} {config : Config} {base : Path} {c : Controller}
    (h : Controller.new env w config base = .ok c) : ∃ es, ReadLog env w base config.artefacts es ∧
      said (ofLevel .info (Log.new env log w config base)) =
        (es ++ c.tracedGraph.errors.filter Announces).map (announced env log) := by
  obtain ⟨roots, h1, h2, h3, h4, -⟩ := new_ok h
  obtain ⟨es, h5, h6⟩ := makeArtefacts_said env log config.artefacts (makeArtefacts_ok _ _ _ h2).1
  refine ⟨es, h5, ?_⟩
  unfold Log.new
  rw [h1]
  simp only
  rw [h2]
  simp only
  have hg : ({ artefacts := c.graph.artefacts, relations := config.relations } : Graph) = c.graph := by rw [← h3]
  rw [hg, ofLevel_append, said_append, trace_said env log h4, ofLevel_all (allOf_of_said h6), h6, List.map_append]

end

theorem Spec.ReadLog.mem {env : Env} {w : World} {base : Path} {acs : List ArtefactConfig} {es : List Error}
    (h : ReadLog env w base acs es) {ac : ArtefactConfig} (hac : ac ∈ acs) (hg : ¬ GlobFails env w ac base)
    {paths : List Path} {m : BMap RequirementId Requirement} {errs : List Error}
    (hp : parseFromConfig env w ac base = .ok (paths, m, errs)) {e : Error} (he : e ∈ errs) : e ∈ es := by
  induction h with
  | nil => cases hac
  | silent hg' _ ih =>
    rcases List.mem_cons.1 hac with rfl | hac
    · exact absurd hg' hg
    · exact ih hac
  | all _ hp' _ ih =>
    rcases List.mem_cons.1 hac with rfl | hac
    · rw [hp] at hp'; cases hp'; exact List.mem_append_left _ he
    · exact List.mem_append_right _ (ih hac)

theorem Spec.ReadLog.of_mem {env : Env} {w : World} {base : Path} {acs : List ArtefactConfig} {es : List Error}
    (h : ReadLog env w base acs es) {e : Error} (he : e ∈ es) : ∃ ac ∈ acs, ¬ GlobFails env w ac base ∧
      ∃ paths m errs, parseFromConfig env w ac base = .ok (paths, m, errs) ∧ e ∈ errs := by
  induction h with
  | nil => cases he
  | silent _ _ ih =>
    obtain ⟨ac, h1, h2⟩ := ih he
    exact ⟨ac, List.mem_cons_of_mem _ h1, h2⟩
  | @all ac acs paths m errs es hg hp _ ih =>
    rcases List.mem_append.1 he with he | he
    · exact ⟨ac, List.mem_cons_self .., hg, paths, m, errs, hp, he⟩
    · obtain ⟨ac, h1, h2⟩ := ih he
      exact ⟨ac, List.mem_cons_of_mem _ h1, h2⟩

theorem mem_said_of_ofLevel {l : Level} {rs : List Record} {x : Level × Str} (h : x ∈ said (ofLevel l rs)) : x ∈ said rs := by
  obtain ⟨r, hr, rfl⟩ := List.mem_map.1 h
  exact List.mem_map.2 ⟨r, (List.mem_filter.1 hr).1, rfl⟩

/-- **C117** An error of an artefact is logged, unless it says that a requirement has no title or that a glob failed. -/
theorem C117_artefact_partial {env : Env} (log : LogEnv) {w : World} {config : Config} {base : Path} {c : Controller}
    (h : Controller.new env w config base = .ok c) {a : ArtefactId} {art : Artefact} (ha : c.graph.artefacts.get a = some art)
    {e : Error} (he : e ∈ art.errors) (ht : ∀ r, e ≠ .requirementWithoutTitle r)
    (hg : ∀ ac, LastEntry config ac → ac.id = a → ¬ GlobFails env w ac base) :
    announced env log e ∈ said (Log.new env log w config base) := by
  obtain ⟨es, h1, h2⟩ := C117_exactly_partial env log h
  obtain ⟨ac, root, files, m, errs, hl, hid, -, hp, rfl⟩ := new_artefact h ha
  have he' : e ∈ errs := by
    simp only at he
    split at he
    · rcases List.mem_append.1 he with he | he
      · exact he
      · obtain ⟨r, _, rfl⟩ := List.mem_map.1 he
        exact absurd rfl (ht r)
    · exact he
  refine mem_said_of_ofLevel (l := .info) ?_
  rw [h2]
  have hmem : ac ∈ config.artefacts := by obtain ⟨pre, post, h3, _⟩ := hl; rw [h3]; simp
  exact List.mem_map.2 ⟨e, List.mem_append_left _ (h1.mem hmem (hg ac hl hid) hp he'), rfl⟩

/-- **C117** The tracer logs relations without coverage and references to unknown requirements. -/
theorem C117_tracing_partial {env : Env} (log : LogEnv) {w : World} {config : Config} {base : Path} {c : Controller}
    (h : Controller.new env w config base = .ok c) {e : Error} (he : e ∈ c.tracedGraph.errors) (ha : Announces e = true) :
    announced env log e ∈ said (Log.new env log w config base) := by
  obtain ⟨es, h1, h2⟩ := C117_exactly_partial env log h
  refine mem_said_of_ofLevel (l := .info) ?_
  rw [h2]
  exact List.mem_map.2 ⟨e, List.mem_append_right _ (List.mem_filter.2 ⟨he, ha⟩), rfl⟩

/-- **C117** What is logged as a problem was found: by the parser of an artefact or by the tracer. -/
theorem C117_found_partial {env : Env} (log : LogEnv) {w : World} {config : Config} {base : Path} {c : Controller}
    (h : Controller.new env w config base = .ok c) {r : Record} (hr : r ∈ Log.new env log w config base)
    (hl : r.level = .info) : ∃ e, (r.level, r.text) = announced env log e ∧
      (e ∈ c.tracedGraph.errors ∨ ∃ ac ∈ config.artefacts, ∃ paths m errs,
        parseFromConfig env w ac base = .ok (paths, m, errs) ∧ e ∈ errs) := by
  obtain ⟨es, h1, h2⟩ := C117_exactly_partial env log h
  have : (r.level, r.text) ∈ said (ofLevel .info (Log.new env log w config base)) :=
    List.mem_map.2 ⟨r, List.mem_filter.2 ⟨hr, by simp [hl]⟩, rfl⟩
  rw [h2] at this
  obtain ⟨e, he, he'⟩ := List.mem_map.1 this
  refine ⟨e, he'.symm, ?_⟩
  rcases List.mem_append.1 he with he | he
  · obtain ⟨ac, h3, -, paths, m, errs, h4, h5⟩ := h1.of_mem he
    exact .inr ⟨ac, h3, paths, m, errs, h4, h5⟩
  · exact .inl (List.mem_filter.1 he).1

/-! ### A project in which two artefacts have the same requirement -/

namespace LogExample

open CtrlExample

/-- Paths are shown in quotes, and jobs take no time. -/
def log : LogEnv := ⟨fun p => c!"\"" ++ p ++ c!"\"", fun _ => 0⟩

def twice : Config where
  version := none
  artefacts := [⟨c!"A", [c!"a.md"], .markdown, none, none⟩, ⟨c!"B", [c!"b.md"], .markdown, none, none⟩]
  relations := []
  jobs := none
  defaultJobs := none

def twiceFiles : List (Path × Str) := [(c!"p/a.md", c!"# REQ_A: title\n"), (c!"p/b.md", c!"# REQ_A: title\n")]

def first : Requirement := ⟨c!"REQ_A", some c!"title", ⟨c!"p/a.md", some (.line 1)⟩, [], [], [], .empty⟩
def again : Requirement := ⟨c!"REQ_A", some c!"title", ⟨c!"p/b.md", some (.line 1)⟩, [], [], [], .empty⟩

theorem twice_errors : (Controller.new (env .nil twice) (world twiceFiles) twice c!"p").toOption.map (·.tracedGraph.errors) =
    some [.duplicateRequirement first again] := by decide +kernel

theorem twice_log : Log.new (env .nil twice) log (world twiceFiles) twice c!"p" = [] := by decide +kernel

end LogExample

open LogExample in
/-- **C117** is false: the requirement that is in two artefacts is reported, but nothing is logged. -/
theorem C117_false : ¬ C117_statement := by
  intro h
  cases hn : Controller.new (CtrlExample.env .nil twice) (CtrlExample.world twiceFiles) twice c!"p" with
  | error p => have := twice_errors; rw [hn] at this; cases this
  | ok c =>
    have h1 := twice_errors
    rw [hn] at h1
    have h2 := h _ log _ _ _ c hn (.duplicateRequirement first again) (.inl (by
      have : c.tracedGraph.errors = [.duplicateRequirement first again] := Option.some.inj h1
      rw [this]; exact List.mem_singleton.2 rfl))
    rw [twice_log] at h2
    cases h2

open CtrlExample LogExample in
/-- In the example project: the second `REQ_A`, and an unreadable file. -/
example : said (Log.new { env .nil config with os := { os with openErr := fun _ p => if p = c!"p/a.rs" then some c!"denied" else none } }
    LogExample.log (world files) config c!"p") =
    [(.info, c!"found problem DuplicateRequirement(
    Requirement {
        id: RequirementId(
            \"REQ_A\",
        ),
        title: Some(
            \"title a\",
        ),
        location: Location {
            file: \"p/req.md\",
            location_in_file: Some(
                Line(
                    1,
                ),
            ),
        },
        covers: [],
        depends: [],
        tags: [],
        attributes: {},
    },
    Requirement {
        id: RequirementId(
            \"REQ_A\",
        ),
        title: Some(
            \"again\",
        ),
        location: Location {
            file: \"p/req.md\",
            location_in_file: Some(
                Line(
                    2,
                ),
            ),
        },
        covers: [],
        depends: [],
        tags: [],
        attributes: {},
    },
)"), (.info, c!"found problem Io(
    \"p/a.rs\",
    \"denied\",
)"), (.info, c!"found problem Io(
    \"/src/b.rs\",
    \"not found\",
)"), (.trace, c!"Trace Relation { upper: ArtefactId(\"REQ\"), lower: [ArtefactId(\"CODE\")] }"),
    (.info, c!"found problem UnusedRelation(
    Relation {
        upper: ArtefactId(
            \"REQ\",
        ),
        lower: [
            ArtefactId(
                \"CODE\",
            ),
        ],
    },
)")] := by decide +kernel

end Reqtrace
