import Verif.Lemmas.MdRun

/-!
# Properties C30–C36 of the Markdown parser
-/

set_option linter.unusedSimpArgs false

namespace Reqtrace

open Spec Md

theorem lines_splitLines (text : Str) : Lines text (splitLines text) := by
  induction text with
  | nil => exact .nil
  | cons c t ih =>
    rw [splitLines]
    by_cases hc : c = '\n'
    · subst hc
      exact .cons [] (by simp) ih
    · have hc' : ¬ '\n' = c := fun h => hc h.symm
      simp only [beq_iff_eq, hc, if_false]
      generalize splitLines t = ls at ih
      cases ih with
      | nil => exact .last [c] (by simp) (by simp [hc'])
      | last _ h1 h2 => exact .last (c :: t) (by simp) (by simp [hc', h2])
      | cons l h1 h2 => exact .cons (c :: l) (by simp [hc', h1]) h2

theorem lines_unique {text : Str} {a b : List Str} (ha : Lines text a) (hb : Lines text b) : a = b := by
  have key : ∀ {l m r s : Str}, '\n' ∉ l → '\n' ∉ m → l ++ '\n' :: r = m ++ '\n' :: s → l = m ∧ r = s := by
    intro l
    induction l with
    | nil =>
      intro m r s _ hm h
      cases m with
      | nil => simpa using h
      | cons c m => simp at h; exact absurd h.1 (fun h' => hm (h' ▸ List.mem_cons_self))
    | cons c l ih =>
      intro m r s hl hm h
      cases m with
      | nil => simp at h; exact absurd h.1 (fun h' => hl (h' ▸ List.mem_cons_self))
      | cons d m =>
        simp at h hl hm
        obtain ⟨h1, h2⟩ := ih hl.2 hm.2 h.2
        exact ⟨by rw [h.1, h1], h2⟩
  induction ha generalizing b with
  | nil =>
    generalize ht : ([] : Str) = text at hb
    cases hb with
    | nil => rfl
    | last l h1 _ => exact absurd ht.symm h1
    | cons l _ _ => simp at ht
  | last l h1 h2 =>
    generalize ht : l = text at hb
    cases hb with
    | nil => exact absurd ht h1
    | last _ _ _ => rfl
    | cons m _ _ => exact absurd (by simp [ht]) h2
  | cons l h1 _ ih =>
    rename_i rest ls _
    generalize ht : l ++ '\n' :: rest = text at hb
    cases hb with
    | nil => simp at ht
    | last m _ h4 => exact absurd (by simp [← ht]) h4
    | cons m h3 h4 =>
      obtain ⟨e1, e2⟩ := key h1 h3 ht
      subst e1; subst e2
      rw [ih h4]

theorem lines_iff {text : Str} {ls : List Str} : Lines text ls ↔ ls = splitLines text :=
  ⟨fun h => lines_unique h (lines_splitLines text), fun h => h ▸ lines_splitLines text⟩

theorem parse_run (U : Unicode) (src : Source) (path : Path) (h : ¬ OneByteTail src.text) :
    Md.parse U src path = .ok
      ((run U path 1 (splitLines src.text) none).reqs ++
        (finish src.failure path (run U path 1 (splitLines src.text) none).cur).1,
       (run U path 1 (splitLines src.text) none).errs ++
        (finish src.failure path (run U path 1 (splitLines src.text) none).cur).2) :=
  parse_eq U src path (fun l hl ht => h ((trips_iff _).1 ⟨l, hl, ht⟩))

theorem parse_ok {U : Unicode} {src : Source} {path : Path} {rs : List Requirement} {es : List Error}
    (h : Md.parse U src path = .ok (rs, es)) : ¬ OneByteTail src.text ∧
      rs = (run U path 1 (splitLines src.text) none).reqs ++
        (finish src.failure path (run U path 1 (splitLines src.text) none).cur).1 ∧
      es = (run U path 1 (splitLines src.text) none).errs ++
        (finish src.failure path (run U path 1 (splitLines src.text) none).cur).2 := by
  have h1 : ¬ OneByteTail src.text := by
    intro ht
    rw [parse_trips U src path ((trips_iff _).2 ht)] at h; cases h
  rw [parse_run U src path h1] at h
  cases h
  exact ⟨h1, rfl, rfl⟩

theorem isLine_of_mem {text : Str} {l : Str} (h : l ∈ splitLines text) : IsLine l :=
  ((splitLines_spec text).2.1 l h).1

theorem not_tail_of_whole {text : Str} (h : WholeLines text) : ¬ OneByteTail text := fun ht => by
  obtain ⟨l, hl, h'⟩ := (trips_iff text).2 ht
  exact no_trips_of_nl h l hl h'

/-- A concrete line that is a heading. -/
theorem heading_of {U : Unicode} {l : Str} {p : Str × Str × Str} (hl : l = body l ++ ['\n'])
    (h : reqParts U l = some p) : ReqHeading U l p.1.length p.2.1 (trim p.2.2) :=
  (reqParts_heading ⟨_, hl, .inr rfl⟩ h).2

/-- A concrete line that is none. -/
theorem noHeading_of {U : Unicode} {l : Str} (hl : l = body l ++ ['\n']) (h : reqParts U l = none) :
    NoHeading U l := (reqParts_none_iff ⟨_, hl, .inr rfl⟩).1 h

/-! ## C30 -/

/-- C30 as listed: the parser returns for every text. -/
def C30_statement : Prop := ∀ U src path, ∃ out, Md.parse U src path = .ok out

/-- C30 is false: a text whose last line is a single ASCII character without line feed makes an
assertion fail. -/
theorem C30_false : ¬ C30_statement := by
  intro h
  obtain ⟨out, h⟩ := h .ascii ⟨c!"# REQ_1: Title\n\nx", none⟩ c!"f"
  have : Md.parse .ascii ⟨c!"# REQ_1: Title\n\nx", none⟩ c!"f" = .error .mdAssert := by decide +kernel
  rw [this] at h
  cases h

/-- C30, what holds: these are the only texts for which the parser panics. -/
theorem C30_panics_iff_partial (U : Unicode) (src : Source) (path : Path) :
    (¬ ∃ out, Md.parse U src path = .ok out) ↔ OneByteTail src.text := by
  constructor
  · intro h
    refine Classical.byContradiction (fun h' => h ?_)
    exact ⟨_, parse_run U src path h'⟩
  · intro h
    rw [parse_trips U src path ((trips_iff _).2 h)]
    rintro ⟨_, h⟩; cases h

example : ¬ OneByteTail c!"# REQ_1: Title\n\nCovers: ä" := by
  rintro ⟨pre, c, h, h1, h2, h3⟩
  have hc : c = 'ä' := by
    have := congrArg List.getLast? h
    simp at this
    exact this.symm
  subst hc
  exact absurd h2 (by decide)

/-! ## C32 and C31 -/

/-- Location, id and title of the requirements and of the pending one. -/
theorem parse_keys {U : Unicode} {text : Str} {path : Path} {ls : List Str}
    {hs : List (Nat × Str × Str)} (hl : Lines text ls) (hh : Headings U 1 ls hs) :
    (run U path 1 (splitLines text) none).reqs.map key ++
      curKey (run U path 1 (splitLines text) none).cur = hs.map (headKey path) := by
  rw [lines_iff.1 hl] at hh
  have := run_keys U path hh (fun l hl => isLine_of_mem hl) none
  simpa [curKey] using this

/-- C32: the requirements are those of the headings, in order, except that the last may be missing. -/
theorem C32_only_headings (U : Unicode) (src : Source) (path : Path) (rs : List Requirement)
    (es : List Error) (ls : List Str) (hs : List (Nat × Str × Str))
    (hp : Md.parse U src path = .ok (rs, es)) (hl : Lines src.text ls) (hh : Headings U 1 ls hs) :
    Matches path rs hs ∨ Matches path rs hs.dropLast := by
  obtain ⟨-, rfl, -⟩ := parse_ok hp
  have hk := parse_keys (path := path) hl hh
  generalize run U path 1 (splitLines src.text) none = o at hk ⊢
  have hfin : (finish src.failure path o.cur).1.map key = curKey o.cur ∨
      (finish src.failure path o.cur).1 = [] := by
    unfold finish
    split
    · exact .inr rfl
    · split
      · exact .inr rfl
      · rename_i st r heq
        split
        · exact .inr rfl
        · left; simp [heq, curKey, commit_key]
  rcases hfin with h | h
  · left
    show List.map key _ = List.map (headKey path) _
    rw [List.map_append, h, hk]
  · rw [h, List.append_nil]
    cases ho : o.cur with
    | none =>
      left
      rw [ho] at hk
      show List.map key _ = List.map (headKey path) _
      simpa [curKey] using hk
    | some q =>
      right
      rw [ho] at hk
      show List.map key _ = List.map (headKey path) _
      rw [List.map_dropLast, ← hk]
      simp [curKey]

/-- The headings of a text are determined. -/
theorem C32_headings_determined (U : Unicode) (n : Nat) (ls : List Str) :
    ∃ hs, Headings U n ls hs ∧ ∀ hs', Headings U n ls hs' → hs' = hs := by
  obtain ⟨hs, h⟩ := headings_exist U n ls
  exact ⟨hs, h, fun hs' h' => headings_unique h' h⟩

/-- C31 as listed: every requirement heading gives a requirement. -/
def C31_statement : Prop := ∀ U text path rs es ls hs,
  Md.parse U ⟨text, none⟩ path = .ok (rs, es) → Lines text ls → Headings U 1 ls hs → Matches path rs hs

/-- C31 is false: an ordinary heading after the last requirement makes the parser forget it. -/
theorem C31_false : ¬ C31_statement := by
  intro h
  obtain ⟨hs, hh⟩ := headings_exist .ascii 1 (splitLines c!"# AB: T\n# Appendix\n")
  have := h .ascii c!"# AB: T\n# Appendix\n" c!"f" [] [] _ hs (by decide +kernel) (lines_splitLines _) hh
  have hnil : hs = [] := by
    cases hs with
    | nil => rfl
    | cons _ _ => simp [Matches] at this
  subst hnil
  have e : splitLines c!"# AB: T\n# Appendix\n" = [c!"# AB: T\n", c!"# Appendix\n"] := by decide +kernel
  rw [e] at hh
  cases hh with
  | skip hno _ =>
    refine hno 1 c!"AB" c!"T" ⟨by decide, ⟨'A', ['B'], rfl, by simp, by decide, by simp; decide⟩,
      c!" ", c!" T", c!"\n", rfl, ?_, by simp, by decide, .inr rfl, c!" ", [], rfl, ?_, ?_, ?_, ?_⟩
    · intro c hc; simp at hc; subst hc; decide
    · intro c hc; simp at hc; subst hc; decide
    · intro c hc; cases hc
    · intro c u h; simp at h; rw [← h.1]; decide
    · intro c u h
      have := congrArg List.getLast? h
      simp at this
      rw [← this]; decide

/-- C31, what holds: without read failure, all headings give a requirement exactly if the section of
the last requirement heading has no other heading and no `Format` error. -/
theorem C31_every_heading_partial (U : Unicode) (text : Str) (path : Path) (rs : List Requirement)
    (es : List Error) (pre : List Str) (h : Str) (post : List Str) (hs : List (Nat × Str × Str))
    (level : Nat) (id title : Str)
    (hp : Md.parse U ⟨text, none⟩ path = .ok (rs, es)) (hl : Lines text (pre ++ h :: post))
    (hhead : ReqHeading U h level id title) (hpost : ∀ l ∈ post, NoHeading U l)
    (hh : Headings U 1 (pre ++ h :: post) hs) :
    Matches path rs hs ↔ (∀ l ∈ post, l.head? ≠ some '#') ∧
      ¬ ∃ n m, pre.length < n ∧ Error.format ⟨path, some (.line n)⟩ m ∈ es := by
  obtain ⟨-, hrs, hes⟩ := parse_ok hp
  have hk := parse_keys (path := path) hl hh
  have hls := lines_iff.1 hl
  obtain ⟨raw, hraw, -⟩ := heading_reqParts hhead
  have hnone : ∀ l ∈ post, reqParts U l = none := by
    intro l hl'
    refine (reqParts_none_iff (isLine_of_mem (text := text) ?_)).2 (hpost l hl')
    rw [← hls]; simp [hl']
  -- the run: first `pre`, then the last section
  simp only [← hls] at hrs hes hk
  rw [run_append, run_req hraw] at hrs hes hk
  have hpreerr := @run_err_loc U path 1 pre none
  generalize run U path 1 pre none = o1 at hrs hes hk hpreerr
  obtain ⟨st', r', hrun, hgive⟩ := run_giveUp U path (1 + pre.length + 1) post .lookForDesc
    (newReq (.newWithLineNo path (1 + pre.length)) id raw) hnone
  have hposterr := @run_err_loc U path (1 + pre.length + 1) post (some (State.lookForDesc,
    newReq (.newWithLineNo path (1 + pre.length)) id raw))
  simp only at hrs hes hk
  generalize run U path (1 + pre.length + 1) post (some (State.lookForDesc,
    newReq (.newWithLineNo path (1 + pre.length)) id raw)) = o2 at hrs hes hk hrun hgive hposterr
  rw [hrun] at hrs hes hk
  simp only at hrs hes hk
  -- the requirements are complete exactly if the last state has not given up
  have hcomplete : Matches path rs hs ↔ st' ≠ .lookForReq := by
    show List.map key rs = List.map (headKey path) hs ↔ _
    rw [← hk, hrs]
    unfold finish
    by_cases hst : st' = .lookForReq
    · simp [hst, curKey]
    · simp [hst, curKey, commit_key]
  have herr : (∃ n m, pre.length < n ∧ Error.format ⟨path, some (.line n)⟩ m ∈ es) ↔
      ∃ e ∈ o2.errs, IsFormat e := by
    have hfin : (finish none path (some (st', r'))).2 = [] := by
      unfold finish; simp only; split <;> rfl
    rw [hes, hfin, List.append_nil]
    constructor
    · rintro ⟨n, m, hn, he⟩
      rcases List.mem_append.1 he with he | he
      · obtain ⟨k, k1, k2, (⟨m', k3⟩ | ⟨_, _, k3⟩)⟩ := hpreerr he
        · cases k3; omega
        · cases k3
      · exact ⟨_, he, _, _, rfl⟩
    · rintro ⟨e, he, loc, m, rfl⟩
      obtain ⟨k, k1, k2, (⟨m', k3⟩ | ⟨_, _, k3⟩)⟩ := hposterr he
      · cases k3
        exact ⟨k, m, by omega, by simp [he]⟩
      · cases k3
  rw [hcomplete, herr, Ne, hgive]
  constructor
  · intro h'
    refine ⟨fun l hl' hc => h' (.inr (.inl ⟨l, hl', hc⟩)), fun hx => h' (.inr (.inr hx))⟩
  · rintro ⟨h1, h2⟩ (h' | ⟨l, hl', hc⟩ | hx)
    · cases h'
    · exact h1 l hl' hc
    · exact h2 hx

/-- Two headings; the section of the last has a stray line behind its references, so its requirement
is missing. -/
example : (splitLines c!"# AB: T\n\ntext\n# CD: U\nCovers: AB\nstray\n" =
      [c!"# AB: T\n", c!"\n", c!"text\n"] ++ c!"# CD: U\n" :: [c!"Covers: AB\n", c!"stray\n"]) ∧
    (Md.parse .ascii ⟨c!"# AB: T\n\ntext\n# CD: U\nCovers: AB\nstray\n", none⟩ c!"f").map
        (fun o => (o.1.map (·.id), o.2)) =
      .ok ([c!"AB"], [.format ⟨c!"f", some (.line 6)⟩ c!"Expected a Reference like `* REQ_ID: Title`"]) ∧
    ReqHeading .ascii c!"# CD: U\n" 1 c!"CD" c!"U" ∧
    (∀ l ∈ [c!"Covers: AB\n", c!"stray\n"], NoHeading .ascii l) := by
  refine ⟨by decide +kernel, by decide +kernel, heading_of (p := (c!"#", c!"CD", c!"U")) rfl
    (by decide +kernel), ?_⟩
  simp only [List.mem_cons, List.not_mem_nil, or_false, forall_eq_or_imp, forall_eq]
  exact ⟨noHeading_of rfl (by decide +kernel), noHeading_of rfl (by decide +kernel)⟩

/-! ## C36 and C33 -/

/-- C36: every requirement, reference and error names the file and a line of it; the line is the
heading of the requirement, states the reference, or is the malformed or repeated attribute line. -/
theorem C36_locations (U : Unicode) (src : Source) (path : Path) (rs : List Requirement)
    (es : List Error) (ls : List Str) (hp : Md.parse U src path = .ok (rs, es))
    (hl : Lines src.text ls) :
    (∀ r ∈ rs, (∃ l level title, At ls path r.location l ∧ ReqHeading U l level r.id title ∧
        r.title = some title) ∧
      ∀ ref ∈ r.covers ++ r.depends, ∃ l, At ls path ref.location l ∧ States U l ref.id ref.title) ∧
    ∀ e ∈ es, match e with
      | .format loc m => ∃ l, At ls path loc l ∧ l ≠ ['\n'] ∧ l.head? ≠ some '#' ∧
          ((m = c!"Expected an Attribute line like `Comment:`" ∧ ∀ a v, ¬ AttrLine l a v) ∨
           (m = c!"Expected a Reference like `* REQ_ID: Title`" ∧ ¬ Blank l ∧
              ∀ id t, ¬ RefLine U l id t))
      | .duplicateAttribute loc a id => ∃ k j l v, loc = ⟨path, some (.line (k + 1))⟩ ∧
          ls[k]? = some l ∧ AttrLine l a v ∧ Owner U ls k j id
      | .io p err => p = path ∧ src.failure = some err
      | _ => False := by
  obtain ⟨-, rfl, rfl⟩ := parse_ok hp
  have hls := lines_iff.1 hl
  subst hls
  obtain ⟨h1, h2, h3⟩ := run_ok36 (U := U) (path := path)
    (lines := splitLines src.text) (fun l hl => isLine_of_mem hl) [] (splitLines src.text) rfl none trivial
  simp only [List.length_nil, Nat.zero_add] at h1 h2 h3
  generalize run U path 1 (splitLines src.text) none = o at h1 h2 h3
  refine ⟨?_, ?_⟩
  · intro r hr
    rcases List.mem_append.1 hr with hr | hr
    · exact h1 r hr
    · unfold finish at hr
      split at hr
      · cases hr
      · split at hr
        · cases hr
        · rename_i st r' heq
          rw [heq] at h3
          split at hr
          · cases hr
          · simp at hr; subst hr
            exact commit_ok h3.1 h3.2.1
  · intro e he
    rcases List.mem_append.1 he with he | he
    · have := h2 e he
      unfold ErrOk at this
      cases e <;> first | exact this | exact this.elim
    · unfold finish at he
      split at he
      · rename_i err hf
        simp at he; subst he
        exact ⟨rfl, hf⟩
      · split at he
        · cases he
        · split at he <;> cases he

/-- A document with references of both kinds, a repeated attribute, a malformed line and a read
failure. -/
example : Md.parse .ascii ⟨c!"# AB: T\nCovers: X1, Y2\n* Z3: title\n\nNote: a\nNote: b\nCovers:\nbad\n# CD: U\n",
      some c!"disk"⟩ c!"f" = .ok
    ([⟨c!"AB", some c!"T", ⟨c!"f", some (.line 1)⟩, [], [], [], BMap.empty.insert c!"Note" c!"b"⟩],
     [.duplicateAttribute ⟨c!"f", some (.line 6)⟩ c!"Note" c!"AB",
      .duplicateAttribute ⟨c!"f", some (.line 7)⟩ c!"Covers" c!"AB",
      .format ⟨c!"f", some (.line 8)⟩ c!"Expected a Reference like `* REQ_ID: Title`",
      .io c!"f" c!"disk"]) := by decide +kernel

example : Md.parse .ascii ⟨c!"# AB: T\nCovers: X1, Y2\n* Z3: title\n", none⟩ c!"f" = .ok
    ([⟨c!"AB", some c!"T", ⟨c!"f", some (.line 1)⟩,
      [⟨c!"X1", none, ⟨c!"f", some (.line 2)⟩⟩, ⟨c!"Y2", none, ⟨c!"f", some (.line 2)⟩⟩,
       ⟨c!"Z3", some c!"title", ⟨c!"f", some (.line 3)⟩⟩], [], [], .empty⟩], []) := by decide +kernel

/-- A stated reference occurs in its line. -/
theorem Spec.States.occurs {U : Unicode} {l id : Str} {title : Option Str} (h : States U l id title) :
    id <:+: l := by
  rcases h with ⟨pre, s, rfl, ⟨-, w, tail, -, -, rfl, -⟩, -⟩ | ⟨-, -, name, v, t, p, ha, -, ht, hp, hi⟩
  · exact ⟨pre ++ w, tail, by simp⟩
  · obtain ⟨a, b, rfl, -⟩ := hi
    obtain ⟨-, x, y, rfl, -⟩ := hp
    obtain ⟨u, w, rfl, -⟩ := ht
    obtain ⟨c, low, rest, nl, rfl, -, -, -, rfl, -, -, ⟨w', rfl, -⟩, -⟩ := ha
    exact ⟨c :: low ++ ':' :: w' ++ u ++ x ++ a, b ++ y ++ w ++ nl, by simp⟩

/-- C36: the ids of requirements and references occur in the lines that their locations name. -/
theorem C36_ids_occur (U : Unicode) (src : Source) (path : Path) (rs : List Requirement)
    (es : List Error) (ls : List Str) (hp : Md.parse U src path = .ok (rs, es))
    (hl : Lines src.text ls) (r : Requirement) (hr : r ∈ rs) :
    (∃ l, At ls path r.location l ∧ r.id <:+: l) ∧
    ∀ ref ∈ r.covers ++ r.depends, ∃ l, At ls path ref.location l ∧ ref.id <:+: l := by
  obtain ⟨⟨l, level, title, h1, h2, -⟩, h3⟩ := (C36_locations U src path rs es ls hp hl).1 r hr
  refine ⟨⟨l, h1, ?_⟩, ?_⟩
  · obtain ⟨-, -, w, rest, nl, rfl, -⟩ := h2
    exact ⟨List.replicate level '#' ++ w, ':' :: rest ++ nl, by simp⟩
  · intro ref href
    obtain ⟨l, a, b⟩ := h3 ref href
    exact ⟨l, a, Spec.States.occurs b⟩

/-- C33 as listed. -/
def C33_statement : Prop := ∀ U src path rs es, Md.parse U src path = .ok (rs, es) → ∀ r ∈ rs,
  IsIdent U r.id ∧ ∃ t, r.title = some t ∧ t ≠ [] ∧ '\n' ∉ t ∧
    (∀ c u, t = c :: u → isWs c = false) ∧ (∀ c u, t = u ++ [c] → isWs c = false)

/-- C33 is false: the title may be empty. -/
theorem C33_false : ¬ C33_statement := by
  intro h
  have hp : Md.parse .ascii ⟨c!"# REQ_1: \n", none⟩ c!"f" = .ok
      ([⟨c!"REQ_1", some [], ⟨c!"f", some (.line 1)⟩, [], [], [], .empty⟩], []) := by decide +kernel
  obtain ⟨-, t, h1, h2, -⟩ := h _ _ _ _ _ hp _ (List.mem_singleton.2 rfl)
  cases h1
  exact h2 rfl

/-- C33, what holds: ids are well formed, titles are one line without white space around them, and
empty only if the heading has nothing but white space behind the colon. -/
theorem C33_well_formed_partial (U : Unicode) (src : Source) (path : Path) (rs : List Requirement)
    (es : List Error) (ls : List Str) (hp : Md.parse U src path = .ok (rs, es))
    (hl : Lines src.text ls) (r : Requirement) (hr : r ∈ rs) :
    IsIdent U r.id ∧ ∃ t, r.title = some t ∧ '\n' ∉ t ∧
      (∀ c u, t = c :: u → isWs c = false) ∧ (∀ c u, t = u ++ [c] → isWs c = false) ∧
      (t = [] → ∃ l pre rest, At ls path r.location l ∧ l = pre ++ r.id ++ ':' :: rest ∧ Blank rest) := by
  obtain ⟨⟨l, level, t, h1, h2, h3⟩, -⟩ := (C36_locations U src path rs es ls hp hl).1 r hr
  obtain ⟨-, hid, w, rest, nl, rfl, hw, hne, hnl, he, a, b, hab, ha, hb, t1, t2⟩ := h2
  refine ⟨hid, t, h3, ?_, t1, t2, ?_⟩
  · intro hc; exact hnl (by rw [hab]; simp [hc])
  · rintro rfl
    refine ⟨_, List.replicate level '#' ++ w, rest ++ nl, h1, by simp, ?_⟩
    intro c hc
    rcases List.mem_append.1 hc with hc | hc
    · rw [hab] at hc
      simp at hc
      rcases hc with hc | hc
      · exact ha c hc
      · exact hb c hc
    · rcases he with rfl | rfl
      · cases hc
      · simp at hc; subst hc; decide

/-! ## C34 and C35 -/

theorem oneByteTail_append {pre post : Str} (h : WholeLines pre) :
    OneByteTail (pre ++ post) ↔ OneByteTail post := by
  rw [← trips_iff, ← trips_iff, splitLines_append _ _ h]
  constructor
  · rintro ⟨l, hl, ht⟩
    rcases List.mem_append.1 hl with hl | hl
    · exact absurd ht (no_trips_of_nl h l hl)
    · exact ⟨l, hl, ht⟩
  · rintro ⟨l, hl, ht⟩
    exact ⟨l, by simp [hl], ht⟩

/-- C34: what a whole-line prefix gives does not depend on the sections behind it, and they give what
they give alone, moved down by the lines of the prefix. `r1` and `e1` are what the prefix gives when
a requirement heading follows; alone it gives the same, except perhaps for its last requirement. -/
theorem C34_sections_independent (U : Unicode) (path : Path) (pre : Str) (lpre : List Str)
    (hw : WholeLines pre) (hl : Lines pre lpre) :
    ∃ r1 e1, (Md.parse U ⟨pre, none⟩ path = .ok (r1, e1) ∨
        Md.parse U ⟨pre, none⟩ path = .ok (r1.dropLast, e1)) ∧
      ∀ post failure, StartsWithHeading U post →
        Md.parse U ⟨pre ++ post, failure⟩ path =
          (Md.parse U ⟨post, failure⟩ path).map (fun out =>
            (r1 ++ out.1.map (shiftReq lpre.length), e1 ++ out.2.map (shiftErr lpre.length))) := by
  have hls := lines_iff.1 hl
  subst hls
  refine ⟨(run U path 1 (splitLines pre) none).reqs ++ flush (run U path 1 (splitLines pre) none).cur,
    (run U path 1 (splitLines pre) none).errs, ?_, ?_⟩
  · rw [parse_run U ⟨pre, none⟩ path (not_tail_of_whole hw)]
    generalize run U path 1 (splitLines pre) none = o
    unfold finish
    cases ho : o.cur with
    | none => left; simp [flush]
    | some q =>
      obtain ⟨st, r⟩ := q
      by_cases hst : st = .lookForReq
      · right; simp [hst, flush]
      · left; simp [hst, flush]
  · rintro post failure ⟨l, ls, level, id, title, hlp, hh⟩
    have hlp := lines_iff.1 hlp
    obtain ⟨raw, hraw, -⟩ := heading_reqParts hh
    by_cases ht : OneByteTail post
    · rw [parse_trips U ⟨pre ++ post, failure⟩ path ((trips_iff _).2 ((oneByteTail_append hw).2 ht)),
        parse_trips U ⟨post, failure⟩ path ((trips_iff _).2 ht)]
      rfl
    · rw [parse_run U ⟨post, failure⟩ path ht, parse_run U ⟨pre ++ post, failure⟩ path
        (fun h => ht ((oneByteTail_append hw).1 h))]
      simp only [splitLines_append _ _ hw, run_append, ← hlp]
      rw [run_heading U path l _ ls (1 + (splitLines pre).length) _ hraw]
      have hs := shift_run U path (splitLines pre).length 1 (l :: ls) none
      have hs' : run U path (1 + (splitLines pre).length) (l :: ls) none =
        ⟨_, _, _⟩ := hs
      simp only [hs', shift_finish]
      simp [Except.map]

example : WholeLines c!"# AB: T\nCovers: X1\nbroken\n# no id\n" ∧
    StartsWithHeading .ascii c!"## CD: U\nDepends: AB\n" :=
  ⟨.inr rfl, _, _, _, _, _, lines_iff.2 (by decide +kernel : [c!"## CD: U\n", c!"Depends: AB\n"] = _),
    heading_of (p := (c!"##", c!"CD", c!"U")) rfl (by decide +kernel)⟩

/-- C35: a text without requirement heading gives neither requirements nor errors (except for the
read failure). -/
theorem C35_no_heading (U : Unicode) (src : Source) (path : Path) (ls : List Str)
    (ht : ¬ OneByteTail src.text) (hl : Lines src.text ls) (hno : ∀ l ∈ ls, NoHeading U l) :
    Md.parse U src path = .ok ([], (src.failure.map (Error.io path)).toList) := by
  have hls := lines_iff.1 hl
  subst hls
  rw [parse_run U src path ht, run_idle U path 1 _
    (fun l hl => (reqParts_none_iff (isLine_of_mem hl)).2 (hno l hl))]
  cases src.failure <;> rfl

/-- C35: lines before the first requirement heading only move the rest down. -/
theorem C35_preamble_ignored (U : Unicode) (path : Path) (pre post : Str) (lpre : List Str)
    (failure : Option Str) (hw : WholeLines pre) (hl : Lines pre lpre)
    (hno : ∀ l ∈ lpre, NoHeading U l) (hs : StartsWithHeading U post) :
    Md.parse U ⟨pre ++ post, failure⟩ path =
      (Md.parse U ⟨post, failure⟩ path).map (fun out =>
        (out.1.map (shiftReq lpre.length), out.2.map (shiftErr lpre.length))) := by
  obtain ⟨l, ls, level, id, title, hlp, hh⟩ := hs
  have hls := lines_iff.1 hl
  subst hls
  have hlp := lines_iff.1 hlp
  obtain ⟨raw, hraw, -⟩ := heading_reqParts hh
  by_cases ht : OneByteTail post
  · rw [parse_trips U ⟨pre ++ post, failure⟩ path ((trips_iff _).2 ((oneByteTail_append hw).2 ht)),
      parse_trips U ⟨post, failure⟩ path ((trips_iff _).2 ht)]
    rfl
  · rw [parse_run U ⟨post, failure⟩ path ht, parse_run U ⟨pre ++ post, failure⟩ path
      (fun h => ht ((oneByteTail_append hw).1 h))]
    simp only [splitLines_append _ _ hw, run_append, ← hlp, run_idle U path 1 _
      (fun l hl => (reqParts_none_iff (isLine_of_mem hl)).2 (hno l hl))]
    have hs : run U path (1 + (splitLines pre).length) (l :: ls) none =
      ⟨_, _, _⟩ := shift_run U path (splitLines pre).length 1 (l :: ls) none
    simp only [hs, shift_finish]
    simp [Except.map]

example : ∀ l ∈ splitLines c!"# About\nCovers: AB\n* CD\n\n", NoHeading .ascii l := by
  rw [(by decide +kernel : splitLines c!"# About\nCovers: AB\n* CD\n\n" =
    [c!"# About\n", c!"Covers: AB\n", c!"* CD\n", c!"\n"])]
  simp only [List.mem_cons, List.not_mem_nil, or_false, forall_eq_or_imp, forall_eq]
  exact ⟨noHeading_of rfl (by decide +kernel), noHeading_of rfl (by decide +kernel),
    noHeading_of rfl (by decide +kernel), noHeading_of rfl (by decide +kernel)⟩

end Reqtrace
