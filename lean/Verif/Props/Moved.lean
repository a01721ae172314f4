import Verif.Props.Places
import Verif.Props.Whole
import Verif.Props.Run
import Verif.Spec.Moved

/-!
# C132: where the files stand does not matter
-/

namespace Reqtrace

open Spec

/-! ## Markdown -/

namespace Md

variable (p : Path)

/-- The variables of the parser, for another file. -/
def ctxIn (c : Context) : Context :=
  { c with path := p, errors := c.errors.map (errorInFile p), requirements := c.requirements.map (reqInFile p),
           reqUnderConstruction := c.reqUnderConstruction.map (reqInFile p) }

/-- The state of the parser, for another file. -/
def stateIn : State → State
  | .collectRefLink attr vec => .collectRefLink attr (vec.map (moveRef (inFile p)))
  | s => s

/-- Both. -/
def bothIn (x : State × Context) : State × Context := (stateIn p x.1, ctxIn p x.2)

theorem location_in (c : Context) : (ctxIn p c).location = inFile p c.location := rfl

theorem req_in (c : Context) : (ctxIn p c).req = (c.req).map (reqInFile p) := by
  unfold Context.req ctxIn
  cases c.reqUnderConstruction <;> rfl

theorem push_in (c : Context) (e : Error) : (ctxIn p c).push (errorInFile p e) = ctxIn p (c.push e) := by
  simp [Context.push, ctxIn]

theorem commitAttr_in (c : Context) (a v : Str) : commitAttr (ctxIn p c) a v = (commitAttr c a v).map (ctxIn p) := by
  unfold commitAttr
  rw [req_in]
  cases c.req <;> rfl

theorem commitLinkAttr_in (c : Context) (a : Str) (v : List Reference) :
    commitLinkAttr (ctxIn p c) a (v.map (moveRef (inFile p))) = (commitLinkAttr c a v).map (ctxIn p) := by
  unfold commitLinkAttr
  rw [req_in]
  split
  · cases c.req <;> rfl
  · split
    · cases c.req <;> rfl
    · rfl

theorem maybeCommitReq_in (c : Context) : maybeCommitReq (ctxIn p c) = ctxIn p (maybeCommitReq c) := by
  unfold maybeCommitReq
  rw [show (ctxIn p c).reqUnderConstruction = c.reqUnderConstruction.map (reqInFile p) from rfl]
  cases c.reqUnderConstruction with
  | none => rfl
  | some r => simp [ctxIn]

theorem addReq_in (c : Context) (l : Captures) : addReq (ctxIn p c) l = (addReq c l).map (bothIn p) := by
  unfold addReq
  rw [maybeCommitReq_in]
  simp only [bind, Except.bind]
  cases l.idx 1 with
  | error e => rfl
  | ok a =>
    simp only
    cases l.idx 2 with
    | error e => rfl
    | ok b =>
      simp only
      cases l.idx 3 with
      | error e => rfl
      | ok d => rfl

theorem parseLinkAttr_in (c : Context) (a s : Str) : parseLinkAttr (ctxIn p c) a s = stateIn p (parseLinkAttr c a s) := by
  unfold parseLinkAttr stateIn
  simp only [State.collectRefLink.injEq, true_and, List.map_filterMap]
  congr 1
  funext id
  split <;> rfl

theorem startAttribute_in (c : Context) (l : Captures) :
    startAttribute (ctxIn p c) l = (startAttribute c l).map (bothIn p) := by
  unfold startAttribute
  rw [req_in]
  simp only [bind, Except.bind]
  cases l.idx 1 with
  | error e => rfl
  | ok a =>
    simp only
    cases l.idx 2 with
    | error e => rfl
    | ok b =>
      simp only
      split
      · cases c.req with
        | error e => rfl
        | ok r =>
          simp only [Except.map, pure, Except.pure, bothIn]
          rw [show (reqInFile p r).covers = r.covers.map (moveRef (inFile p)) from rfl]
          cases hr : r.covers with
          | nil => simp [parseLinkAttr_in]
          | cons x xs =>
            simp only [List.map_cons, ne_eq, reduceCtorEq, not_false_eq_true, if_true]
            rw [location_in, show Error.duplicateAttribute (inFile p c.location) a (reqInFile p r).id =
              errorInFile p (.duplicateAttribute c.location a r.id) from rfl, push_in, parseLinkAttr_in]
      · split
        · cases c.req with
          | error e => rfl
          | ok r =>
            simp only [Except.map, pure, Except.pure, bothIn]
            rw [show (reqInFile p r).depends = r.depends.map (moveRef (inFile p)) from rfl]
            cases hr : r.depends with
            | nil => simp [parseLinkAttr_in]
            | cons x xs =>
              simp only [List.map_cons, ne_eq, reduceCtorEq, not_false_eq_true, if_true]
              rw [location_in, show Error.duplicateAttribute (inFile p c.location) a (reqInFile p r).id =
                errorInFile p (.duplicateAttribute c.location a r.id) from rfl, push_in, parseLinkAttr_in]
        · cases c.req with
          | error e => rfl
          | ok r =>
            simp only [Except.map, pure, Except.pure, bothIn]
            rw [show (reqInFile p r).attributes = r.attributes from rfl]
            split
            · rw [location_in, show Error.duplicateAttribute (inFile p c.location) a (reqInFile p r).id =
                errorInFile p (.duplicateAttribute c.location a r.id) from rfl, push_in]; rfl
            · rfl

theorem parseStateEmpty_in (s : State) (c : Context) :
    parseStateEmpty (stateIn p s) (ctxIn p c) = (parseStateEmpty s c).map (bothIn p) := by
  cases s with
  | collectRefLink a v =>
    simp only [stateIn, parseStateEmpty, commitLinkAttr_in, bind, Except.bind]
    cases commitLinkAttr c a v <;> rfl
  | _ => rfl

theorem parseStateLine_in (U : Unicode) (s : State) (l : Str) (c : Context) :
    parseStateLine U (stateIn p s) l (ctxIn p c) = (parseStateLine U s l c).map (bothIn p) := by
  cases s with
  | lookForReq => rfl
  | lookForDesc =>
    simp only [stateIn, parseStateLine]
    cases attributeRe.captures l with
    | none => rfl
    | some a => exact startAttribute_in p c a
  | collectDesc d => rfl
  | collectDescNl d =>
    simp only [stateIn, parseStateLine]
    cases attributeRe.captures l with
    | none => rfl
    | some a =>
      simp only [commitAttr_in, bind, Except.bind]
      cases commitAttr c attrDescription d with
      | error e => rfl
      | ok c' => exact startAttribute_in p c' a
  | lookForAttr =>
    simp only [stateIn, parseStateLine]
    cases attributeRe.captures l with
    | none =>
      simp only [location_in]
      rw [show Error.format (inFile p c.location) c!"Expected an Attribute line like `Comment:`" =
        errorInFile p (.format c.location c!"Expected an Attribute line like `Comment:`") from rfl, push_in]
      rfl
    | some a => exact startAttribute_in p c a
  | collectTextAttr at' v =>
    simp only [stateIn, parseStateLine]
    cases attributeRe.captures l with
    | none => rfl
    | some a =>
      simp only [commitAttr_in, bind, Except.bind]
      cases commitAttr c at' v with
      | error e => rfl
      | ok c' => exact startAttribute_in p c' a
  | collectRefLink at' v =>
    simp only [stateIn, parseStateLine]
    cases (refLinkRe U).captures l with
    | some r =>
      simp only [bind, Except.bind]
      cases r.idx 1 with
      | error e => rfl
      | ok id => simp [Except.map, pure, Except.pure, bothIn, stateIn, moveRef, location_in]
    | none =>
      simp only [commitLinkAttr_in, bind, Except.bind]
      split
      · cases commitLinkAttr c at' v <;> rfl
      · cases commitLinkAttr c at' v with
        | error e => rfl
        | ok c' =>
          simp only [Except.map, location_in]
          rw [show Error.format (inFile p c'.location) c!"Expected a Reference like `* REQ_ID: Title`" =
            errorInFile p (.format c'.location c!"Expected a Reference like `* REQ_ID: Title`") from rfl, push_in]
          rfl

theorem parseStateEof_in (s : State) (c : Context) :
    parseStateEof (stateIn p s) (ctxIn p c) = (parseStateEof s c).map (bothIn p) := by
  unfold parseStateEof
  cases s with
  | lookForReq => rfl
  | lookForDesc => simp only [stateIn, maybeCommitReq_in]; rfl
  | lookForAttr => simp only [stateIn, maybeCommitReq_in]; rfl
  | collectDesc d =>
    simp only [stateIn, commitAttr_in]
    cases commitAttr c attrDescription d with
    | error e => rfl
    | ok c' => simp [Except.map, Functor.map, bind, Except.bind, pure, Except.pure, bothIn, stateIn, maybeCommitReq_in]
  | collectDescNl d =>
    simp only [stateIn, commitAttr_in]
    cases commitAttr c attrDescription d with
    | error e => rfl
    | ok c' => simp [Except.map, Functor.map, bind, Except.bind, pure, Except.pure, bothIn, stateIn, maybeCommitReq_in]
  | collectTextAttr a v =>
    simp only [stateIn, commitAttr_in]
    cases commitAttr c a v with
    | error e => rfl
    | ok c' => simp [Except.map, Functor.map, bind, Except.bind, pure, Except.pure, bothIn, stateIn, maybeCommitReq_in]
  | collectRefLink a v =>
    simp only [stateIn, commitLinkAttr_in]
    cases commitLinkAttr c a v with
    | error e => rfl
    | ok c' => simp [Except.map, Functor.map, bind, Except.bind, pure, Except.pure, bothIn, stateIn, maybeCommitReq_in]

theorem parseStateHeading_in (s : State) (c : Context) :
    parseStateHeading (stateIn p s) (ctxIn p c) = (parseStateHeading s c).map (bothIn p) := by
  unfold parseStateHeading
  cases s with
  | collectDesc d => simp only [stateIn, commitAttr_in]; cases commitAttr c attrDescription d <;> rfl
  | collectDescNl d => simp only [stateIn, commitAttr_in]; cases commitAttr c attrDescription d <;> rfl
  | collectTextAttr a v => simp only [stateIn, commitAttr_in]; cases commitAttr c a v <;> rfl
  | collectRefLink a v => simp only [stateIn, commitLinkAttr_in]; cases commitLinkAttr c a v <;> rfl
  | _ => rfl

theorem parseStateReq_in (s : State) (c : Context) (r : Captures) :
    parseStateReq (stateIn p s) (ctxIn p c) r = (parseStateReq s c r).map (bothIn p) := by
  unfold parseStateReq
  cases s with
  | collectDesc d =>
    simp only [stateIn, commitAttr_in, bind, Except.bind]
    cases commitAttr c attrDescription d with
    | error e => rfl
    | ok c' => exact addReq_in p c' r
  | collectDescNl d =>
    simp only [stateIn, commitAttr_in, bind, Except.bind]
    cases commitAttr c attrDescription d with
    | error e => rfl
    | ok c' => exact addReq_in p c' r
  | collectTextAttr a v =>
    simp only [stateIn, commitAttr_in, bind, Except.bind]
    cases commitAttr c a v with
    | error e => rfl
    | ok c' => exact addReq_in p c' r
  | collectRefLink a v =>
    simp only [stateIn, commitLinkAttr_in, bind, Except.bind]
    cases commitLinkAttr c a v with
    | error e => rfl
    | ok c' => exact addReq_in p c' r
  | _ => exact addReq_in p c r

theorem parseStates_in (U : Unicode) (s : State) (c : Context) (e : Event) :
    parseStates U (stateIn p s) (ctxIn p c) e = (parseStates U s c e).map (bothIn p) := by
  cases e with
  | eof => exact parseStateEof_in p s c
  | req r => exact parseStateReq_in p s c r
  | heading => exact parseStateHeading_in p s c
  | line l => exact parseStateLine_in p U s l c
  | empty => exact parseStateEmpty_in p s c

theorem parseLoop_in (U : Unicode) (failure : Option Str) (ls : List Str) (s : State) (c : Context) :
    parseLoop U failure ls (stateIn p s) (ctxIn p c) = (parseLoop U failure ls s c).map (ctxIn p) := by
  induction ls generalizing s c with
  | nil =>
    unfold parseLoop
    cases failure with
    | some e =>
      simp only [Except.map, pure, Except.pure]
      rw [← push_in]; rfl
    | none =>
      simp only
      rw [show ({ ctxIn p c with lineNumber := (ctxIn p c).lineNumber + 1 } : Context) =
        ctxIn p { c with lineNumber := c.lineNumber + 1 } from rfl, parseStates_in]
      cases parseStates U s { c with lineNumber := c.lineNumber + 1 } .eof <;> rfl
  | cons l ls ih =>
    unfold parseLoop
    simp only [bind, Except.bind]
    cases lineEvent U l with
    | error e => rfl
    | ok ev =>
      simp only
      rw [show ({ ctxIn p c with lineNumber := (ctxIn p c).lineNumber + 1 } : Context) =
        ctxIn p { c with lineNumber := c.lineNumber + 1 } from rfl, parseStates_in]
      cases parseStates U s { c with lineNumber := c.lineNumber + 1 } ev with
      | error e => rfl
      | ok x => exact ih x.1 x.2

theorem parse_in (U : Unicode) (src : Source) (q : Path) :
    parse U src p = (parse U src q).map (fun x => (x.1.map (reqInFile p), x.2.map (errorInFile p))) := by
  unfold parse
  rw [show Context.init p = ctxIn p (Context.init q) from rfl, show State.lookForReq = stateIn p .lookForReq from rfl,
    parseLoop_in]
  show _ = Except.map _ (Except.bind (parseLoop U src.failure (splitLines src.text) .lookForReq (.init q)) _)
  cases parseLoop U src.failure (splitLines src.text) .lookForReq (.init q) <;> rfl

end Md

/-! ## Rust -/

namespace Rs

variable (p q : Path)

/-- The variables of the visitor, for another file. -/
def parserIn (x : Parser) : Parser :=
  { x with requirements := x.requirements.map (reqInFile p), errors := x.errors.map (errorInFile p),
           locations := x.locations.map (inFile p) }

theorem readMac_in (debug : List Tok → Str) (m : Mac) :
    readMac debug p m = (readMac debug q m).mapError (errorInFile p) := by
  unfold readMac
  split
  · rfl
  · split
    · rfl
    · split <;> rfl
  · split
    · split <;> rfl
    · rfl
  · rfl

theorem record_in (x : Parser) (r : Reference) :
    record (parserIn p x) (moveRef (inFile p) r) = (record x r).map (parserIn p) := by
  unfold record
  simp only [parserIn, List.getLast?_map]
  cases x.requirements.getLast? with
  | none =>
    simp only [Option.map_none]
    cases x.locations.getLast? <;> simp [orPanic, bind, Except.bind, Except.map, pure, Except.pure, reqInFile, parserIn]
  | some last =>
    simp only [Option.map_some]
    rw [show (reqInFile p last).id = last.id from rfl]
    split
    · simp [Except.map, reqInFile, parserIn, List.map_dropLast]
    · cases x.locations.getLast? <;> simp [orPanic, bind, Except.bind, Except.map, pure, Except.pure, reqInFile, parserIn]

theorem parseMacro_in (debug : List Tok → Str) (x : Parser) (m : Mac) :
    parseMacro debug p (parserIn p x) m = (parseMacro debug q x m).map (fun y => (y.1, parserIn p y.2)) := by
  unfold parseMacro
  split
  · split
    · rw [readMac_in p q]
      cases readMac debug q m with
      | error e => simp [Except.mapError, Except.map, parserIn]
      | ok y =>
        simp only [Except.mapError, bind, Except.bind]
        rw [show (⟨y.1, y.2, .newWithLineAndColumn p m.line m.column⟩ : Reference) =
          moveRef (inFile p) ⟨y.1, y.2, .newWithLineAndColumn q m.line m.column⟩ from rfl, record_in]
        cases record x ⟨y.1, y.2, .newWithLineAndColumn q m.line m.column⟩ <;> rfl
    · rfl
  · rfl

theorem pop_in (x : Parser) : pop (parserIn p x) = (pop x).map (parserIn p) := by
  unfold pop parserIn
  simp only [List.getLast?_map]
  cases x.locations.getLast? with
  | none => rfl
  | some l =>
    cases x.scope.getLast? with
    | none => rfl
    | some s => simp [orPanic, bind, Except.bind, Except.map, pure, Except.pure, List.map_dropLast]

theorem push_in (x : Parser) (i : Item) (l c : Nat) : push p (parserIn p x) i l c = parserIn p (push q x i l c) := by
  simp [push, parserIn, inFile, Location.newWithLineAndColumn]

theorem visit_in (debug : List Tok → Str) (f : Forest) (x : Parser) :
    visit debug p f (parserIn p x) = (visit debug q f x).map (parserIn p) := by
  induction f generalizing x with
  | nil => rfl
  | mac m rest ih =>
    simp only [visit, bind, Except.bind]
    rw [parseMacro_in p q]
    cases parseMacro debug q x m with
    | error e => rfl
    | ok y => exact ih y.2
  | item i l c inner rest ih1 ih2 =>
    simp only [visit, bind, Except.bind]
    rw [push_in p q, ih1]
    cases visit debug q inner (push q x i l c) with
    | error e => rfl
    | ok y =>
      simp only [Except.map]
      rw [pop_in]
      cases pop y with
      | error e => rfl
      | ok z => exact ih2 z
  | node inner rest ih1 ih2 =>
    simp only [visit, bind, Except.bind]
    rw [ih1]
    cases visit debug q inner x with
    | error e => rfl
    | ok y => exact ih2 y

theorem parse_in (syn : Syn) (src : Source) :
    parse syn src p = (parse syn src q).map (fun x => (x.1.map (reqInFile p), x.2.map (errorInFile p))) := by
  unfold parse
  cases src.failure with
  | some e => rfl
  | none =>
    simp only
    cases syn.parseFile src.text with
    | error e => rfl
    | ok f =>
      simp only [bind, Except.bind]
      have h : visit syn.debug p f ⟨[], [], [], []⟩ = _ := visit_in p q syn.debug f ⟨[], [], [], []⟩
      rw [h]
      cases visit syn.debug q f ⟨[], [], [], []⟩ <;> rfl

end Rs

/-! ## Mono-requirements -/

namespace MonoReq

variable (p q : Path)

theorem loop_in (U : Unicode) (no : Nat) (ls : List Str) (t : Option Str) (d : List Reference) :
    loop U p no ls t (d.map (moveRef (inFile p))) =
      (loop U q no ls t d).map (fun x => (x.1, x.2.map (moveRef (inFile p)))) := by
  induction ls generalizing no t d with
  | nil => rfl
  | cons l ls ih =>
    cases t with
    | none => exact ih _ _ _
    | some t =>
      simp only [loop]
      cases (refLinkRe U).captures l with
      | none => exact ih _ _ _
      | some r =>
        simp only [bind, Except.bind]
        cases r.idx 1 with
        | error e => rfl
        | ok id =>
          simp only
          rw [← ih, List.map_append]
          rfl

theorem parse_in (U : Unicode) (src : Source) {s : Str} (hp : fileStem p = some s) (hq : fileStem q = some s) :
    parse U src p = (parse U src q).map (fun x => (x.1.map (reqInFile p), x.2.map (errorInFile p))) := by
  unfold parse
  have := loop_in p q U 0 (bufLines src.text) none []
  simp only [List.map_nil] at this
  simp only [bind, Except.bind]
  rw [this]
  cases loop U q 0 (bufLines src.text) none [] with
  | error e => rfl
  | ok x =>
    simp only [Except.map, idOf, hp, hq]
    cases src.failure <;> rfl

end MonoReq

/-! ## Any file -/

/-- **C132** What a file says does not depend on where it stands: at another path it says the same, with the places in the
other file.  Only a mono-requirement file must keep its name. -/
theorem C132_file (env : Env) (parser : ArtefactParser) (file : File) (p q : Path) (hn : SameName parser p q)
    {reqs : List Requirement} {errs : List Error} (h : FileMeans env q file parser reqs errs) :
    FileMeans env p file parser (reqsInFile parser p reqs) (errs.map (errorInFile p)) := by
  rw [← C81_file] at h ⊢
  cases parser with
  | markdown =>
    simp only [fileResult] at h ⊢
    rw [Md.parse_in p env.U file.lines q, h]
    rfl
  | rust =>
    simp only [fileResult] at h ⊢
    rw [Rs.parse_in p q, h]
    rfl
  | monoRequirement =>
    obtain ⟨name, h1, h2⟩ := hn rfl
    obtain ⟨stem, hs⟩ := (C42_determined env.U [] p).2 name h1
    simp only [fileResult] at h ⊢
    rw [MonoReq.parse_in p q env.U file.lines (stem_iff.2 ⟨name, h1, hs⟩) (stem_iff.2 ⟨name, h2, hs⟩), h]
    rfl
  | json =>
    simp only [fileResult] at h ⊢
    cases hj : JsonRead.fromReader (env.jsonErr file) file.whole with
    | ok rs => rw [hj] at h; cases h; rfl
    | error e => rw [hj] at h; cases h; rfl

/-! ## Forgetting the places -/

theorem forgetReq_in (p : Path) (r : Requirement) : forgetReq (reqInFile p r) = forgetReq r := by
  simp [forgetReq, reqInFile, moveRef, nowhere, Function.comp_def]

theorem forgetError_in (p : Path) (e : Error) : forgetError (errorInFile p e) = forgetError e := by
  cases e <;> rfl

theorem forgetReqs_in (parser : ArtefactParser) (p : Path) (rs : List Requirement) :
    (reqsInFile parser p rs).map forgetReq = rs.map forgetReq := by
  unfold reqsInFile
  split
  · rfl
  · rw [List.map_map]
    exact List.map_congr_left (fun r _ => forgetReq_in p r)

theorem forgetErrors_in (p : Path) (es : List Error) :
    (es.map (errorInFile p)).map forgetError = es.map forgetError := by
  rw [List.map_map]
  exact List.map_congr_left (fun e _ => forgetError_in p e)

theorem sameFiles_mean {env : Env} {w w' : World} {parser : ArtefactParser} {fs fs' : List Path}
    (hs : SameFiles env w w' parser fs fs') : ∀ {reqs : List Requirement} {errs : List Error},
    PathsMean env w parser fs reqs errs → ∃ reqs' errs', PathsMean env w' parser fs' reqs' errs' ∧
      reqs'.map forgetReq = reqs.map forgetReq ∧ errs'.map forgetError = errs.map forgetError := by
  induction hs with
  | nil => intro reqs errs h; cases h; exact ⟨[], [], .nil, rfl, rfl⟩
  | @cons p q ps qs ho hn _ ih =>
    intro reqs errs h
    cases h with
    | @cons _ _ r rs e es h1 h2 =>
      obtain ⟨rs', es', h3, h4, h5⟩ := ih h2
      cases h1 with
      | @closed x hc =>
        exact ⟨[] ++ rs', [.io q x] ++ es', .cons (.closed (by rw [← ho]; exact hc)) h3, by simp [h4], by
          simp [h5, forgetError]⟩
      | @opened file _ _ hc hm =>
        have hn' : SameName parser q p := fun hp => by
          obtain ⟨name, a, b⟩ := hn hp
          exact ⟨name, b, a⟩
        refine ⟨_, _, .cons (.opened (by rw [← ho]; exact hc) (C132_file env parser file q p hn' hm)) h3, ?_, ?_⟩
        · rw [List.map_append, List.map_append, forgetReqs_in, h4]
        · rw [List.map_append, List.map_append, forgetErrors_in, h5]

theorem artefactMoved_mean {env : Env} {w w' : World} {base base' : Path} {ac ac' : ArtefactConfig}
    (hm : ArtefactMoved env w w' base base' ac ac') {fs : List Path} {reqs : List Requirement} {errs : List Error}
    (h : parseArtefact env w ac base = .ok (fs, reqs, errs)) :
    ∃ fs' reqs' errs', parseArtefact env w' ac' base' = .ok (fs', reqs', errs') ∧
      fs'.map (fun _ => ([] : Path)) = fs.map (fun _ => []) ∧
      reqs'.map forgetReq = reqs.map forgetReq ∧ errs'.map forgetError = errs.map forgetError := by
  obtain ⟨gs, gs', h1, h2, h3⟩ := hm.files
  obtain ⟨h4, h5⟩ := (parseArtefact_filesOf h1 _).1 h
  cases h5
  obtain ⟨reqs', errs', h6, h7, h8⟩ := sameFiles_mean h3 ((pathsMean_iff _ _ _).2 ⟨h4, rfl, rfl⟩)
  refine ⟨gs', reqs', errs', parseArtefact_iff.2 (.files h2 (hm.parser ▸ h6)), ?_, h7, h8⟩
  clear h4 h6 h7 h8 h h1 h2 reqs' errs'
  induction h3 with
  | nil => rfl
  | cons _ _ _ ih => simp [ih]

theorem collect_forget (reqs : List Requirement) (m : BMap RequirementId Requirement) (errs : List Error) :
    ((collectRequirements reqs m errs).1.mapValues forgetReq, (collectRequirements reqs m errs).2.map forgetError) =
      collectRequirements (reqs.map forgetReq) (m.mapValues forgetReq) (errs.map forgetError) := by
  induction reqs generalizing m errs with
  | nil => rfl
  | cons r reqs ih =>
    simp only [collectRequirements, List.map_cons]
    rw [BMap.get_mapValues, show (forgetReq r).id = r.id from rfl]
    cases m.get r.id with
    | none => simp only [Option.map_none]; rw [ih, BMap.mapValues_insert]
    | some first => simp only [Option.map_some]; rw [ih, List.map_append]; rfl

theorem untitled_forget (m : BMap RequirementId Requirement) :
    ((m.values.filter (fun r => r.title.isNone)).map Error.requirementWithoutTitle).map forgetError =
      ((m.mapValues forgetReq).values.filter (fun r => r.title.isNone)).map Error.requirementWithoutTitle := by
  rw [BMap.values_mapValues, List.filter_map, List.map_map, List.map_map]
  rfl

theorem makeArtefact_moved {env : Env} {w w' : World} {base base' : Path} {ac ac' : ArtefactConfig}
    {roots : BMap ArtefactId Bool} (hm : ArtefactMoved env w w' base base' ac ac') {a : Artefact}
    (h : makeArtefact env w base roots ac = .ok a) :
    ∃ a', makeArtefact env w' base' roots ac' = .ok a' ∧ forgetArtefact a' = forgetArtefact a := by
  unfold makeArtefact at h ⊢
  rw [← hm.id, ← hm.ignore, ← hm.titles]
  cases hr : roots.get ac.id with
  | none => rw [hr] at h; cases h
  | some root =>
    rw [hr] at h
    simp only [orPanic, bind, Except.bind, parseFromConfig] at h ⊢
    cases hp : parseArtefact env w ac base with
    | error e => rw [hp] at h; cases h
    | ok x =>
      obtain ⟨fs, reqs, errs⟩ := x
      obtain ⟨fs', reqs', errs', h1, h2, h3, h4⟩ := artefactMoved_mean hm hp
      rw [hp] at h
      rw [h1]
      simp only [pure, Except.pure, Except.ok.injEq] at h ⊢
      refine ⟨_, rfl, ?_⟩
      subst h
      have hc := collect_forget reqs .empty errs
      rw [← h3, ← h4, ← collect_forget reqs' .empty errs'] at hc
      simp only [Prod.mk.injEq] at hc
      unfold forgetArtefact
      simp only [Artefact.mk.injEq, true_and]
      refine ⟨h2, hc.1.symm, ?_⟩
      split
      · rw [List.map_append, List.map_append, untitled_forget, untitled_forget, hc.1, hc.2]
      · exact hc.2.symm

theorem makeArtefacts_moved {env : Env} {w w' : World} {base base' : Path} {acs acs' : List ArtefactConfig}
    {roots : BMap ArtefactId Bool} (hm : ArtefactsMoved env w w' base base' acs acs') :
    ∀ {m m' m1 : BMap ArtefactId Artefact}, m'.mapValues forgetArtefact = m.mapValues forgetArtefact →
    makeArtefacts env w base roots acs m = .ok m1 →
    ∃ m1', makeArtefacts env w' base' roots acs' m' = .ok m1' ∧ m1'.mapValues forgetArtefact = m1.mapValues forgetArtefact := by
  induction hm with
  | nil => intro m m' m1 he h; cases h; exact ⟨m', rfl, he⟩
  | @cons ac ac' acs acs' ha _ ih =>
    intro m m' m1 he h
    simp only [makeArtefacts, bind, Except.bind] at h ⊢
    cases hp : makeArtefact env w base roots ac with
    | error e => rw [hp] at h; cases h
    | ok a =>
      obtain ⟨a', h1, h2⟩ := makeArtefact_moved ha hp
      rw [hp] at h
      rw [h1]
      refine ih ?_ h
      rw [BMap.mapValues_insert, BMap.mapValues_insert, he, h2, ha.id]

theorem forget_repaints : Repaints nowhere forgetReq := ⟨fun _ => rfl, fun _ => rfl, fun _ => rfl, fun _ => rfl⟩
theorem forget_redoes : RepaintsArtefact forgetReq forgetArtefact := ⟨fun _ => rfl, fun _ => rfl, fun _ => rfl, fun _ => rfl⟩

/-- **C131** Graphs that are the same but for the places have the same results but for the places. -/
theorem C131_same {g g' : Graph} (h : SameButPlaces g g') {tg : TracedGraph} (ht : trace g = .ok tg) :
    ∃ tg', trace g' = .ok tg' ∧ SameResult tg tg' := by
  have h1 := C131_places nowhere forgetReq forgetArtefact forget_repaints forget_redoes g
  have h2 := C131_places nowhere forgetReq forgetArtefact forget_repaints forget_redoes g'
  rw [h.2, h.1, h2, ht] at h1
  cases ht' : trace g' with
  | error e => rw [ht'] at h1; cases h1
  | ok tg' =>
    rw [ht'] at h1
    simp only [Except.map, Except.ok.injEq, repaintTraced, TracedGraph.mk.injEq] at h1
    refine ⟨tg', rfl, h1.1.symm, ?_, h1.2.2.1.symm, h1.2.2.2.symm⟩
    have := congrArg (List.map fun tr : TracedRelation =>
      (tr.relation, tr.covered.map (fun c => (c.upper, c.lower, c.direction)), tr.uncovered)) h1.2.1
    simpa [List.map_map, Function.comp_def, moveCoverage] using this.symm

theorem moved_ids {env : Env} {w w' : World} {base base' : Path} {acs acs' : List ArtefactConfig}
    (hm : ArtefactsMoved env w w' base base' acs acs') :
    acs.map (fun ac => (ac.id, true)) = acs'.map (fun ac => (ac.id, true)) := by
  induction hm with
  | nil => rfl
  | cons h _ ih => simp [h.id, ih]

/-- **C132** The program finds the same in a project whose files stand elsewhere. -/
theorem C132_project {env : Env} {w w' : World} {base base' : Path} {config config' : Config}
    (hm : ProjectMoved env w w' base base' config config') {c : Controller}
    (h : Controller.new env w config base = .ok c) :
    ∃ c', Controller.new env w' config' base' = .ok c' ∧ SameButPlaces c.graph c'.graph ∧
      SameResult c.tracedGraph c'.tracedGraph := by
  unfold Controller.new at h ⊢
  rw [← hm.relations, ← moved_ids hm.artefacts]
  simp only [bind, Except.bind] at h ⊢
  cases hr : findRoots config.relations (BMap.ofList (config.artefacts.map (fun ac => (ac.id, true)))) with
  | error e => rw [hr] at h; cases h
  | ok roots =>
    rw [hr] at h
    simp only at h ⊢
    cases ha : makeArtefacts env w base roots config.artefacts .empty with
    | error e => rw [ha] at h; cases h
    | ok m =>
      obtain ⟨m', h1, h2⟩ := makeArtefacts_moved hm.artefacts rfl ha
      rw [ha] at h
      rw [h1]
      simp only at h ⊢
      cases ht : trace ⟨m, config.relations⟩ with
      | error e => rw [ht] at h; cases h
      | ok tg =>
        have hs : SameButPlaces ⟨m, config.relations⟩ ⟨m', config.relations⟩ := ⟨rfl, h2.symm⟩
        obtain ⟨tg', h3, h4⟩ := C131_same hs ht
        rw [ht] at h
        rw [h3]
        cases h
        exact ⟨_, rfl, hs, h4⟩

theorem parseProblem_forget (m : BMap ArtefactId Artefact) :
    ParseProblem (m.mapValues forgetArtefact) ↔ ParseProblem m := by
  unfold ParseProblem
  constructor
  · rintro ⟨a, art, e, h1, h2⟩
    rw [BMap.get_mapValues, Option.map_eq_some_iff] at h1
    obtain ⟨art0, h1, rfl⟩ := h1
    obtain ⟨e', h3, -⟩ := List.mem_map.1 h2
    exact ⟨a, art0, e', h1, h3⟩
  · rintro ⟨a, art, e, h1, h2⟩
    exact ⟨a, forgetArtefact art, _, by rw [BMap.get_mapValues, h1]; rfl, List.mem_map_of_mem h2⟩

/-- **C132** The jobs of a project whose files stand elsewhere find fault exactly as before. -/
theorem C132_verdict {c c' : Controller} (hg : SameButPlaces c.graph c'.graph) (ht : SameResult c.tracedGraph c'.tracedGraph)
    (job : Job) : Detects c' job ↔ Detects c job := by
  unfold Detects
  split
  · unfold TraceProblem
    refine or_congr ?_ (or_congr ?_ (or_congr ?_ ?_))
    · have := congrArg (· = []) ht.2.2.2
      simp only [List.map_eq_nil_iff, eq_iff_iff] at this
      cases h1 : c.tracedGraph.errors <;> cases h2 : c'.tracedGraph.errors <;> simp [h1, h2] at this ⊢
    · rw [← parseProblem_forget, ← ht.1, parseProblem_forget]
    · have hu : ∀ tg : TracedGraph, (∃ tr ∈ tg.tracedRelations, ∃ r, r ∈ tr.uncovered) ↔
          ∃ x ∈ tg.tracedRelations.map (fun tr => (tr.relation,
            tr.covered.map (fun c => (c.upper, c.lower, c.direction)), tr.uncovered)), ∃ r, r ∈ x.2.2 := by
        intro tg
        constructor
        · rintro ⟨tr, h1, h2⟩
          exact ⟨_, List.mem_map_of_mem h1, h2⟩
        · rintro ⟨x, h1, h2⟩
          obtain ⟨tr, h3, rfl⟩ := List.mem_map.1 h1
          exact ⟨tr, h3, h2⟩
      rw [hu, hu, ht.2.1]
    · rw [ht.2.2.1]
  · rw [← parseProblem_forget, ← hg.2, parseProblem_forget]

/-- **C132** If all reports can be written, the exit code for the project whose files stand elsewhere is the same. -/
theorem C132_exit {env : Env} {w w' : World} {opt opt' : Arguments} {config config' : Config}
    (hm : ProjectMoved env w w' opt.baseDir opt'.baseDir config config') (hj : opt.jobs = opt'.jobs)
    (hg : GoodConfig env w opt.configFile config) (hg' : GoodConfig env w' opt'.configFile config')
    (h : (Main.main env opt w).1 ≤ 1) (h' : (Main.main env opt' w').1 ≤ 1) :
    (Main.main env opt w).1 = (Main.main env opt' w').1 := by
  have key : ∀ {c c' js js' v v'}, AllRun env opt w c js v → AllRun env opt' w' c' js' v' →
      (Detected c' js' ↔ Detected c js) := by
    rintro c c' js js' v v' ⟨cfg, h1, h2, -, h3, -⟩ ⟨cfg', h1', h2', -, h3', -⟩
    cases GoodConfig_unique h1 hg
    cases GoodConfig_unique h1' hg'
    obtain ⟨c'', h4, h5, h6⟩ := C132_project hm h2
    rw [h2'] at h4
    cases h4
    have hr : requested config' opt' = requested config opt := by
      unfold requested; rw [hj, hm.defaultJobs]
    rw [hr, ← hm.jobs] at h3'
    have hmem : ∀ j, j ∈ js' ↔ j ∈ js := fun j => (h3'.mem j).trans (h3.mem j).symm
    unfold Detected
    simp only [hmem, C132_verdict h5 h6]
  obtain ⟨a0, a1, -⟩ := C28_exit_code_partial env opt w
  obtain ⟨b0, b1, -⟩ := C28_exit_code_partial env opt' w'
  have e : ∀ n : Nat, n ≤ 1 → n = 0 ∨ n = 1 := by omega
  rcases e _ h with x | x <;> rcases e _ h' with y | y
  · rw [x, y]
  · obtain ⟨c, js, v, p1, p2⟩ := a0.1 x
    obtain ⟨c', js', v', q1, q2⟩ := b1.1 y
    exact absurd ((key p1 q1).1 q2) p2
  · obtain ⟨c, js, v, p1, p2⟩ := a1.1 x
    obtain ⟨c', js', v', q1, q2⟩ := b0.1 y
    exact absurd ((key p1 q1).2 p2) q2
  · rw [x, y]

namespace MovedExample

open CtrlExample

/-- The files of the example in another directory, with another name of the Markdown file. -/
def moved : Config := { config with artefacts := [{ requirements with paths := [c!"doc/all.md"] }, code, issue] }
def movedFiles : List (Path × Str) := [
  (c!"q/doc/all.md", c!"# REQ_A: title a\n# REQ_A: again\n# REQ_B: title b\n"),
  (c!"q/a.rs", c!"..."), (c!"q/Issue1.txt", []), (c!"requirements.toml", c!"...")]

def e : Env := env RustExample.file config

theorem project_moved : ProjectMoved e (world files) (world movedFiles) c!"p" c!"q" config moved := by
  refine ⟨rfl, rfl, rfl, .cons ⟨rfl, rfl, rfl, rfl, [c!"p/req.md"], [c!"q/doc/all.md"], ?_, ?_, ?_⟩ <|
    .cons ⟨rfl, rfl, rfl, rfl, [c!"p/a.rs", c!"/src/b.rs"], [c!"q/a.rs", c!"/src/b.rs"], ?_, ?_, ?_⟩ <|
    .cons ⟨rfl, rfl, rfl, rfl, [c!"p/Issue1.txt"], [c!"q/Issue1.txt"], ?_, ?_, ?_⟩ .nil⟩
  · exact .inr ⟨by decide, c!"req.md", rfl, by decide⟩
  · exact .inr ⟨by decide, c!"doc/all.md", rfl, by decide⟩
  · exact .cons (by decide +kernel) (fun h => by cases h) .nil
  · exact .inl ⟨rfl, by decide, .cons (fs := [c!"p/a.rs"]) (by decide +kernel) <| .cons (fs := [c!"/src/b.rs"]) (by decide +kernel) .nil⟩
  · exact .inl ⟨rfl, by decide, .cons (fs := [c!"q/a.rs"]) (by decide +kernel) <| .cons (fs := [c!"/src/b.rs"]) (by decide +kernel) .nil⟩
  · exact .cons (by decide +kernel) (fun h => by cases h) <| .cons (by decide +kernel) (fun h => by cases h) .nil
  · exact .inr ⟨by decide, c!"Issue1.txt", rfl, by decide⟩
  · exact .inr ⟨by decide, c!"Issue1.txt", rfl, by decide⟩
  · refine .cons (by decide +kernel) (fun _ => ⟨c!"Issue1.txt", ?_, ?_⟩) .nil <;> exact fileName_iff.1 (by decide +kernel)

/-- What a controller finds wrong with the files, and which requirements are not covered. -/
def found (c : PanicM Controller) : Option (List (List Error) × List (List RequirementId)) :=
  c.toOption.map fun c => (c.graph.artefacts.values.map (·.errors), c.tracedGraph.tracedRelations.map (·.uncovered))

def heading (p : Path) (id title : Str) (line : Nat) : Requirement :=
  ⟨id, some title, .newWithLineNo p line, [], [], [], .empty⟩

/-- The example with its files elsewhere: the same errors, at the places in the other files. -/
example : found (Controller.new e (world files) config c!"p") = some ([[.format (.newWithLineAndColumn c!"p/a.rs" 5 8) c!"requirement_covered!() has no arguments",
      .io c!"/src/b.rs" c!"not found"], [.requirementWithoutTitle
      ⟨c!"Issue1", none, ⟨c!"p/Issue1.txt", none⟩, [], [], [], .empty⟩],
      [.duplicateRequirement (heading c!"p/req.md" c!"REQ_A" c!"title a" 1) (heading c!"p/req.md" c!"REQ_A" c!"again" 2)]], [[]]) ∧
    found (Controller.new e (world movedFiles) moved c!"q") = some ([[.format (.newWithLineAndColumn c!"q/a.rs" 5 8) c!"requirement_covered!() has no arguments",
      .io c!"/src/b.rs" c!"not found"], [.requirementWithoutTitle
      ⟨c!"Issue1", none, ⟨c!"q/Issue1.txt", none⟩, [], [], [], .empty⟩],
      [.duplicateRequirement (heading c!"q/doc/all.md" c!"REQ_A" c!"title a" 1)
        (heading c!"q/doc/all.md" c!"REQ_A" c!"again" 2)]], [[]]) := by
  decide +kernel

/-- The example in another directory, with the exit code. -/
def there : List (Path × Str) := [
  (c!"q/req.md", c!"# REQ_A: title a\n# REQ_A: again\n# REQ_B: title b\n"),
  (c!"q/a.rs", c!"..."), (c!"q/Issue1.txt", []), (c!"c.toml", c!"...")]

example : (Main.main e args (world files)).1 = 1 ∧ (Main.main e ⟨c!"c.toml", c!"q", []⟩ (world there)).1 = 1 := by
  decide +kernel

end MovedExample

end Reqtrace
