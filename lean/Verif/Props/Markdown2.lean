import Verif.Lemmas.MdSection

/-!
# Properties C37–C40 of the Markdown parser
-/

set_option linter.unusedSimpArgs false

namespace Reqtrace

open Spec Md

/-! ## C37 -/

theorem lines_flatten (ls : List Str) (h : ∀ l ∈ ls, ∃ b, l = b ++ ['\n'] ∧ '\n' ∉ b) :
    Lines ls.flatten ls := by
  induction ls with
  | nil => exact .nil
  | cons l ls ih =>
    obtain ⟨b, rfl, hb⟩ := h l (by simp)
    have := Lines.cons b hb (ih (fun l hl => h l (by simp [hl])))
    simpa using this

theorem wholeLines_flatten (ls : List Str) (h : ∀ l ∈ ls, ∃ b, l = b ++ ['\n'] ∧ '\n' ∉ b) :
    WholeLines ls.flatten := by
  apply flatten_last
  intro l hl
  obtain ⟨b, rfl, _⟩ := h l hl
  simp

theorem write_lines {U : Unicode} {it : Item} (hk : it.Ok U) :
    ∀ l ∈ it.write, ∃ b, l = b ++ ['\n'] ∧ '\n' ∉ b := by
  have hempty : ∃ b, ['\n'] = b ++ ['\n'] ∧ '\n' ∉ b := ⟨[], rfl, by simp⟩
  have hidn : ∀ {id : Str}, IsIdent U id → '\n' ∉ id := by
    intro id hid h
    have := hid.no_ws _ h
    revert this; decide
  have hwordn : ∀ {a : Str}, IsWord a → '\n' ∉ a := by
    rintro a ⟨c, low, rfl, h1, h2, h3⟩ hm
    rcases List.mem_cons.1 hm with rfl | hm
    · revert h1; decide
    · have := h3 _ hm
      revert this; decide
  have hrefs : ∀ name : Str, IsWord name → ∀ refs : List (Str × Option Str),
      (∀ r ∈ refs, IsIdent U r.1 ∧ ∀ t, r.2 = some t → OneLine t) →
      ∀ l ∈ writeRefs name refs, ∃ b, l = b ++ ['\n'] ∧ '\n' ∉ b := by
    intro name hn refs hr l hl
    unfold writeRefs at hl
    split at hl
    · cases hl
    · simp only [List.cons_append, List.mem_cons, List.mem_append, List.mem_map, List.mem_singleton,
        List.not_mem_nil, or_false] at hl
      rcases hl with rfl | ⟨r, hr', rfl⟩ | rfl
      · exact ⟨name ++ c!":", by simp, by simp [hwordn hn]⟩
      · obtain ⟨h1, h2⟩ := hr r hr'
        obtain ⟨id, t⟩ := r
        refine ⟨_, rfl, ?_⟩
        have := hidn h1
        cases t with
        | none => simpa using this
        | some t => simp [(h2 t rfl).2.1]; exact this
      · exact hempty
  intro l hl
  unfold Item.write at hl
  simp only [List.mem_cons, List.mem_append] at hl
  rcases hl with rfl | rfl | ((hl | hl) | hl) | hl
  · refine ⟨_, rfl, ?_⟩
    simp [hidn hk.id, hk.title.2.1]
  · exact hempty
  · unfold writeDesc at hl
    split at hl
    · cases hl
    · simp only [List.mem_append, List.mem_map, List.mem_singleton] at hl
      rcases hl with ⟨x, hx, rfl⟩ | rfl
      · exact ⟨x, rfl, (hk.desc x hx).2.1⟩
      · exact hempty
  · exact hrefs _ ⟨'C', c!"overs", rfl, by decide, by simp, by decide⟩ _
      (fun r hr => hk.refs r (by simp [hr])) l hl
  · exact hrefs _ ⟨'D', c!"epends", rfl, by decide, by simp, by decide⟩ _
      (fun r hr => hk.refs r (by simp [hr])) l hl
  · obtain ⟨a, ha, hl⟩ := List.mem_flatMap.1 hl
    obtain ⟨h1, h2, -⟩ := hk.attrs a ha
    simp only [writeAttr, List.mem_cons, List.not_mem_nil, or_false] at hl
    rcases hl with rfl | rfl
    · exact ⟨_, rfl, by simp [hwordn h1, h2.2.1]⟩
    · exact hempty

/-- C37: writing requirements in the documented layout and parsing the text gives them back, with the
right locations and without errors. -/
theorem C37_round_trip (U : Unicode) (path : Path) (its : List Item) (h : ∀ it ∈ its, it.Ok U) :
    ∃ rs, Md.parse U ⟨(its.flatMap Item.write).flatten, none⟩ path = .ok (rs, []) ∧
      Items path 1 its rs := by
  have hl : ∀ l ∈ its.flatMap Item.write, ∃ b, l = b ++ ['\n'] ∧ '\n' ∉ b := by
    intro l hl
    obtain ⟨it, hit, hl⟩ := List.mem_flatMap.1 hl
    exact write_lines (h it hit) l hl
  obtain ⟨rs, rest, cur', h1, h2, h3, h4⟩ := run_items (path := path) its h 1 none (by simp)
  refine ⟨rs, ?_, h4⟩
  rw [parse_run U _ path (not_tail_of_whole (wholeLines_flatten _ hl))]
  have := lines_iff.1 (lines_flatten _ hl)
  simp only [← this, h1]
  simp only [flush, List.nil_append] at h3
  cases cur' with
  | none => simp [flush] at h3; simp [finish, h3]
  | some p =>
    have hne := open_ne (h2 p rfl)
    simp [flush] at h3
    simp [finish, hne, h3]

/-- A document of two items. -/
def exampleItems : List Item :=
  [⟨1, c!"REQ_1", c!"First title", [c!"A line: x.", c!"Covers: more"], [(c!"UP_1", none), (c!"UP_2", some c!"With: title")],
    [(c!"DEP", none)], [(c!"Note", c!"some text"), (c!"Author", c!"me")]⟩,
   ⟨3, c!"REQ_2", c!"Second", [], [], [], []⟩]

theorem exampleItems_ok : ∀ it ∈ exampleItems, it.Ok .ascii := by
  have ident : ∀ id : Str, identSplit .ascii id = some (id, []) → IsIdent .ascii id := by
    intro id h
    exact (identSplit_iff.1 h).1
  have one : ∀ s : Str, s ≠ [] → '\n' ∉ s → trim s = s → OneLine s := by
    intro s h1 h2 h3
    obtain ⟨a, b, -, -, -, h4, h5⟩ := trimsTo_iff.2 h3.symm
    exact ⟨h1, h2, h4, h5⟩
  have word : ∀ c low, Char.isUpper c = true → low ≠ [] → (∀ d ∈ low, Char.isLower d = true) → IsWord (c :: low) :=
    fun c low h1 h2 h3 => ⟨c, low, rfl, h1, h2, h3⟩
  intro it hit
  simp only [exampleItems, List.mem_cons, List.not_mem_nil, or_false] at hit
  rcases hit with rfl | rfl
  · constructor
    · decide
    · exact ident _ (by decide +kernel)
    · exact one _ (by decide) (by decide) (by decide +kernel)
    · simp
    · rintro l ls h
      simp at h
      rw [← h.1]
      exact (attrParts_none_iff ⟨['\n'], by decide, .inr rfl⟩).1 (by decide +kernel)
    · simp only [List.cons_append, List.nil_append, List.mem_cons, List.not_mem_nil, or_false,
        forall_eq_or_imp, forall_eq]
      refine ⟨⟨ident _ (by decide +kernel), by simp⟩, ⟨ident _ (by decide +kernel), ?_⟩,
        ident _ (by decide +kernel), by simp⟩
      rintro t h
      simp at h
      rw [← h]
      exact one _ (by decide) (by decide) (by decide +kernel)
    · simp only [List.mem_cons, List.not_mem_nil, or_false, forall_eq_or_imp, forall_eq]
      exact ⟨⟨word _ _ (by decide) (by simp) (by decide), one _ (by decide) (by decide) (by decide +kernel),
        by decide, by decide, by decide⟩, word _ _ (by decide) (by simp) (by decide),
        one _ (by decide) (by decide) (by decide +kernel), by decide, by decide, by decide⟩
    · decide
  · constructor
    · decide
    · exact ident _ (by decide +kernel)
    · exact one _ (by decide) (by decide) (by decide +kernel)
    · simp
    · simp
    · simp
    · simp
    · decide

/-! ## C38 -/

/-- C38 as listed: every line between the heading of a requirement and the first line that looks like
an attribute is in its description. -/
def C38_statement : Prop := ∀ U text path rs es pre h sec post level id title,
  Md.parse U ⟨text, none⟩ path = .ok (rs, es) → Lines text (pre ++ h :: (sec ++ post)) →
  ReqHeading U h level id title → (∀ l ∈ sec, l.head? ≠ some '#' ∧ ∀ a v, ¬ AttrLine l a v) →
  Ends U post → ∀ r ∈ rs, r.location = ⟨path, some (.line (pre.length + 1))⟩ →
  ∀ l ∈ sec, l ≠ ['\n'] → ∃ d, r.attributes.get c!"Description" = some d ∧ l <:+: d

/-- C38 is false: the first line of the second paragraph is lost. -/
theorem C38_false : ¬ C38_statement := by
  intro h
  have hp : Md.parse .ascii ⟨c!"# AB: T\none\n\ntwo\nmore\n", none⟩ c!"f" = .ok
      ([⟨c!"AB", some c!"T", ⟨c!"f", some (.line 1)⟩, [], [], [],
        BMap.empty.insert c!"Description" c!"one\n\nmore\n"⟩], []) := by decide +kernel
  have := h _ _ _ _ _ [] c!"# AB: T\n" [c!"one\n", c!"\n", c!"two\n", c!"more\n"] [] 1 c!"AB" c!"T" hp
    (lines_iff.2 (by decide +kernel))
    (heading_of (p := (c!"#", c!"AB", c!"T")) rfl (by decide +kernel)) (by
      intro l hl
      have : IsLine l ∧ attrParts l = none ∧ l.head? ≠ some '#' := by
        simp only [List.mem_cons, List.not_mem_nil, or_false] at hl
        rcases hl with rfl | rfl | rfl | rfl <;>
          exact ⟨⟨['\n'], by decide, .inr rfl⟩, by decide +kernel, by decide⟩
      exact ⟨this.2.2, (attrParts_none_iff this.1).1 this.2.1⟩) (.inl rfl) _
    (List.mem_singleton.2 rfl) rfl c!"two\n" (by simp) (by simp)
  obtain ⟨d, h1, h2⟩ := this
  have h3 : some d = some c!"one\n\nmore\n" := by rw [← h1]; decide +kernel
  cases h3
  obtain ⟨a, b, h4⟩ := h2
  have h5 : 'w' ∈ c!"one\n\nmore\n" := by rw [← h4]; simp
  revert h5; decide

theorem headless {U : Unicode} {l : Str} (h : l.head? ≠ some '#') : reqParts U l = none :=
  reqParts_none_of_head h

/-- The states of a description. -/
theorem run_desc (U : Unicode) (path : Path) (ls : List Str) (n : Nat) (r : Requirement) (prev d : Str)
    (h1 : ∀ l ∈ ls, l.head? ≠ some '#') (hl : ∀ l ∈ ls, IsLine l)
    (h2 : NoAttrPara (prev = ['\n']) ls) :
    ∃ st, run U path n ls (some (if prev = ['\n'] then .collectDescNl d else .collectDesc d, r)) =
        ⟨[], [], some (st, r)⟩ ∧
      (st = .collectDesc (d ++ descFrom prev ls) ∨ st = .collectDescNl (d ++ descFrom prev ls)) ∧
      ((ls.getLast?.getD prev = ['\n'] ) → st = .collectDescNl (d ++ descFrom prev ls)) := by
  induction ls generalizing n prev d with
  | nil =>
    refine ⟨_, rfl, ?_, ?_⟩
    · simp only [descFrom, List.append_nil]
      split
      · exact .inr rfl
      · exact .inl rfl
    · intro h
      simp at h
      simp [descFrom, h]
  | cons l ls ih =>
    obtain ⟨hn1, hn2⟩ := h2
    have hh := h1 l (by simp)
    have hlast : (l :: ls).getLast?.getD prev = ls.getLast?.getD l := by
      cases ls with
      | nil => simp
      | cons x xs => simp [List.getLast?_cons]
    rw [run_some (headless hh), hlast]
    have ih' := fun d => ih (n + 1) l d (fun l hl => h1 l (by simp [hl])) (fun x hx => hl x (by simp [hx])) hn2
    by_cases hnl : l = ['\n']
    · subst hnl
      have hs : step U (.newWithLineNo path n) (if prev = ['\n'] then .collectDescNl d else .collectDesc d) r
          ['\n'] = (.collectDescNl (d ++ ['\n']), r, []) := by
        unfold step
        rw [if_pos rfl]
        split <;> rfl
      have e : descFrom prev (['\n'] :: ls) = ['\n'] ++ descFrom ['\n'] ls := by
        simp [descFrom]
      rw [hs, e]
      obtain ⟨st, g1, g2, g3⟩ := ih' (d ++ ['\n'])
      simp only [if_true] at g1
      refine ⟨st, ?_, ?_, ?_⟩
      · simp only [g1]; simp
      · simpa using g2
      · simpa using g3
    · have hs : step U (.newWithLineNo path n) (if prev = ['\n'] then .collectDescNl d else .collectDesc d) r
          l = (.collectDesc (d ++ (if prev = ['\n'] ∧ l ≠ ['\n'] then [] else l)), r, []) := by
        unfold step
        rw [if_neg hnl, if_neg hh]
        unfold textStep
        by_cases hp : prev = ['\n']
        · have := (attrParts_none_iff (hl l (by simp))).2 (hn1 (by simpa using hp))
          simp [hp, hnl, this]
        · simp [hp]
      rw [hs]
      obtain ⟨st, g1, g2, g3⟩ := ih' (d ++ (if prev = ['\n'] ∧ l ≠ ['\n'] then [] else l))
      rw [if_neg hnl] at g1
      refine ⟨st, ?_, ?_, ?_⟩
      · simp only [g1]; simp
      · simpa [descFrom] using g2
      · simpa [descFrom] using g3

/-- The description is complete. -/
def Settled (D : Option Str) (st : State) (r : Requirement) : Prop :=
  (commit st r).attributes.get attrDescription = D ∧
    match st with
    | .lookForDesc | .collectDesc _ | .collectDescNl _ => False
    | .collectTextAttr a _ => a ≠ attrDescription
    | _ => True

theorem settled_attr {D : Option Str} {loc : Location} {st : State} {r : Requirement} {a v : Str}
    (h : (commit st r).attributes.get attrDescription = D) (ha : a ≠ attrDescription) :
    Settled D (attrStep loc st r a v).1 (attrStep loc st r a v).2.1 := by
  unfold attrStep attrState
  simp only
  split
  · refine ⟨?_, trivial⟩
    rw [← h]
    generalize commit st r = R
    unfold commit
    simp only
    split <;> rfl
  · refine ⟨?_, ha⟩
    rw [← h]
    show ((commit st r).attributes.insert a v).get attrDescription = _
    rw [BMap.get_insert, if_neg (Ne.symm ha)]

theorem settled_step {U : Unicode} {D : Option Str} {loc : Location} {st : State} {r : Requirement}
    {l : Str} (hl : IsLine l) (h : Settled D st r) (hd : ∀ v, ¬ AttrLine l attrDescription v) :
    Settled D (step U loc st r l).1 (step U loc st r l).2.1 := by
  have hattr : ∀ p, attrParts l = some p → p.1 ≠ attrDescription := by
    intro p hp he
    exact hd p.2 (he ▸ (attrParts_iff hl).1 hp)
  unfold step
  split
  · cases st <;> first | exact h.2.elim | exact h | skip
    · refine ⟨?_, h.2⟩
      rename_i a v
      have := h.1
      simp only [emptyStep, commit] at this ⊢
      rw [BMap.get_insert, if_neg (Ne.symm h.2)] at this ⊢
      exact this
  · split
    · exact ⟨h.1, trivial⟩
    · unfold textStep
      cases st with
      | lookForReq => exact h
      | lookForDesc | collectDesc d | collectDescNl d => exact h.2.elim
      | lookForAttr =>
        simp only
        cases hp : attrParts l with
        | some p => exact settled_attr h.1 (hattr p hp)
        | none => exact ⟨h.1, trivial⟩
      | collectTextAttr a v =>
        simp only
        cases hp : attrParts l with
        | some p => exact settled_attr h.1 (hattr p hp)
        | none =>
          refine ⟨?_, h.2⟩
          have := h.1
          simp only [commit] at this ⊢
          rw [BMap.get_insert, if_neg (Ne.symm h.2)] at this ⊢
          exact this
      | collectRefLink a v =>
        simp only
        cases refParts U l with
        | some p =>
          refine ⟨?_, trivial⟩
          rw [← h.1]
          simp only [commit]
          split <;> rfl
        | none =>
          simp only
          split <;> exact ⟨h.1, trivial⟩

theorem settled_run {U : Unicode} {D : Option Str} {path : Path} {ls : List Str} {n : Nat} {st : State}
    {r : Requirement} (hl : ∀ l ∈ ls, IsLine l) (hq : ∀ l ∈ ls, reqParts U l = none)
    (hd : ∀ l ∈ ls, ∀ v, ¬ AttrLine l attrDescription v) (h : Settled D st r) :
    ∃ st' r', (run U path n ls (some (st, r))).cur = some (st', r') ∧ Settled D st' r' := by
  induction ls generalizing n st r with
  | nil => exact ⟨st, r, rfl, h⟩
  | cons l ls ih =>
    rw [run_some (hq l (by simp))]
    exact ih (fun x hx => hl x (by simp [hx])) (fun x hx => hq x (by simp [hx]))
      (fun x hx => hd x (by simp [hx])) (settled_step (hl l (by simp)) h (hd l (by simp)))



/-- C38, what holds: the description is exactly the lines up to its end, from the first line that is
not empty on, without the lines directly below an empty line (`descKept`). -/
theorem C38_description_exact_partial (U : Unicode) (src : Source) (path : Path) (rs : List Requirement)
    (es : List Error) (pre : List Str) (h : Str) (desc rest post : List Str) (level : Nat) (id title : Str)
    (hp : Md.parse U src path = .ok (rs, es)) (hl : Lines src.text (pre ++ h :: (desc ++ rest ++ post)))
    (hh : ReqHeading U h level id title) (hdesc : ∀ l ∈ desc, l.head? ≠ some '#')
    (hattr : NoAttrPara true desc) (hend : DescEnd desc rest)
    (hrest : ∀ l ∈ rest, NoHeading U l ∧ ∀ v, ¬ AttrLine l c!"Description" v)
    (hpost : Ends U post) :
    ∀ r ∈ rs, r.location = ⟨path, some (.line (pre.length + 1))⟩ →
      r.attributes.get c!"Description" = descKept desc := by
  obtain ⟨raw, hraw, -⟩ := heading_reqParts hh
  have hls := lines_iff.1 hl
  have hline : ∀ l ∈ desc ++ rest, IsLine l := by
    intro l hm
    apply isLine_of_mem (text := src.text)
    rw [← hls]
    simp only [List.mem_append] at hm
    simp only [List.mem_append, List.mem_cons]
    right; right; left; exact hm
  have hlrest : ∀ l ∈ rest, IsLine l := fun l hm => hline l (by simp [hm])
  have hsec : ∀ l ∈ desc ++ rest, reqParts U l = none := by
    intro l hm
    rcases List.mem_append.1 hm with hm' | hm'
    · exact headless (hdesc l hm')
    · exact (reqParts_none_iff (hline l hm)).2 (hrest l hm').1
  obtain ⟨st, r, errs, h1, h2, -, -⟩ := parse_section hp hl hraw hsec hpost
  intro x hx hloc
  rw [h2 x hx hloc]
  clear h2 hx hloc
  -- through the description
  have hd : ∀ (desc : List Str) (n : Nat), (∀ l ∈ desc, IsLine l) → (∀ l ∈ desc, l.head? ≠ some '#') →
      NoAttrPara true desc →
      ∃ st, run U path n desc (some (.lookForDesc,
        newReq (.newWithLineNo path (pre.length + 1)) id raw)) = ⟨[], [], some (st,
          newReq (.newWithLineNo path (pre.length + 1)) id raw)⟩ ∧
        (commit st (newReq (.newWithLineNo path (pre.length + 1)) id raw)).attributes.get attrDescription =
          descKept desc ∧
        (desc = [] ∨ desc.getLast? = some ['\n'] → Open st) := by
    intro desc
    induction desc with
    | nil =>
      intro n _ _ _
      exact ⟨.lookForDesc, rfl, rfl, fun _ => trivial⟩
    | cons l ls ih =>
      intro n hl0 hh0 hn
      obtain ⟨hn1, hn2⟩ := hn
      rw [run_some (headless (hh0 l (by simp)))]
      by_cases hnl : l = ['\n']
      · subst hnl
        have hs : step U (.newWithLineNo path n) .lookForDesc
            (newReq (.newWithLineNo path (pre.length + 1)) id raw) ['\n'] =
            (.lookForDesc, newReq (.newWithLineNo path (pre.length + 1)) id raw, []) := by
          unfold step; rw [if_pos rfl]; rfl
        rw [hs]
        obtain ⟨st, g1, g2, g3⟩ := ih (n + 1) (fun x hx => hl0 x (by simp [hx]))
          (fun x hx => hh0 x (by simp [hx])) (by simpa using hn2)
        refine ⟨st, ?_, ?_, ?_⟩
        · simp only [g1]; simp
        · rw [g2]; simp [descKept]
        · intro hlast
          apply g3
          cases ls with
          | nil => exact .inl rfl
          | cons y ys => right; simpa [List.getLast?_cons] using hlast
      · have hs : step U (.newWithLineNo path n) .lookForDesc
            (newReq (.newWithLineNo path (pre.length + 1)) id raw) l =
            (.collectDesc l, newReq (.newWithLineNo path (pre.length + 1)) id raw, []) := by
          unfold step
          rw [if_neg hnl, if_neg (hh0 l (by simp))]
          unfold textStep
          simp only [(attrParts_none_iff (hl0 l (by simp))).2 (hn1 rfl)]
        rw [hs]
        obtain ⟨st, g1, g2, g3⟩ := run_desc U path ls (n + 1)
          (newReq (.newWithLineNo path (pre.length + 1)) id raw) l l
          (fun x hx => hh0 x (by simp [hx])) (fun x hx => hl0 x (by simp [hx])) (by simpa using hn2)
        rw [if_neg hnl] at g1
        refine ⟨st, ?_, ?_, ?_⟩
        · simp only [g1]; simp
        · have : descKept (l :: ls) = some (l ++ descFrom l ls) := by simp [descKept, hnl]
          rw [this]
          rcases g2 with rfl | rfl <;>
            · simp only [commit]
              rw [BMap.get_insert, if_pos rfl]
        · rintro (h | h)
          · cases h
          · rw [g3]
            · trivial
            · cases ls with
              | nil => simp at h; exact absurd h hnl
              | cons y ys => simp [List.getLast?_cons] at h ⊢; exact h
  obtain ⟨st0, g1, g2, g3⟩ := hd desc (pre.length + 2) (fun l hm => hline l (by simp [hm])) hdesc hattr
  rw [run_append, g1] at h1
  simp only at h1
  rcases hend with rfl | ⟨l, t, rfl, hcase⟩
  · simp [run] at h1
    rw [← h1.2.1, ← h1.2.2]
    exact g2
  · have hset : Settled (descKept desc)
        (step U (.newWithLineNo path (pre.length + 2 + desc.length)) st0
          (newReq (.newWithLineNo path (pre.length + 1)) id raw) l).1
        (step U (.newWithLineNo path (pre.length + 2 + desc.length)) st0
          (newReq (.newWithLineNo path (pre.length + 1)) id raw) l).2.1 := by
      rcases hcase with hsharp | ⟨⟨a, v, ha⟩, hlast⟩
      · have hne : l ≠ ['\n'] := by rintro rfl; cases hsharp
        unfold step
        rw [if_neg hne, if_pos hsharp]
        exact ⟨g2, trivial⟩
      · rw [step_attr (g3 hlast) ha]
        apply settled_attr g2
        rintro rfl
        exact (hrest l (by simp)).2 v ha
    rw [run_some (hsec l (by simp))] at h1
    obtain ⟨st', r', k1, k2⟩ := settled_run (path := path) (U := U) (ls := t)
      (n := pre.length + 2 + desc.length + 1)
      (fun x hx => hlrest x (by simp [hx])) (fun x hx => hsec x (by simp [hx]))
      (fun x hx => (hrest x (by simp [hx])).2) hset
    have h1c := congrArg Out.cur h1
    simp only at h1c
    rw [k1] at h1c
    simp at h1c
    rw [← h1c.1, ← h1c.2]
    exact k2.1

/-- A description of one paragraph is kept completely. -/
theorem C38_one_paragraph (above par below : List Str) (h1 : ∀ l ∈ above, l = ['\n'])
    (h2 : ∀ l ∈ par, l ≠ ['\n']) (hne : par ≠ []) (h3 : ∀ l ∈ below, l = ['\n']) :
    descKept (above ++ par ++ below) = some (par.flatten ++ below.flatten) := by
  have hb : ∀ (below : List Str) (prev : Str), (∀ l ∈ below, l = ['\n']) → descFrom prev below = below.flatten := by
    intro below
    induction below with
    | nil => intro prev _; rfl
    | cons l ls ih =>
      intro prev h
      have := h l (by simp)
      subst this
      simp [descFrom, ih ['\n'] (fun l hl => h l (by simp [hl]))]
  have hpar : ∀ (par : List Str) (prev : Str), prev ≠ ['\n'] → (∀ l ∈ par, l ≠ ['\n']) →
      descFrom prev (par ++ below) = par.flatten ++ below.flatten := by
    intro par
    induction par with
    | nil => intro prev _ _; exact hb below prev h3
    | cons l ls ih =>
      intro prev hp h
      have := ih l (h l (by simp)) (fun l hl => h l (by simp [hl]))
      simp [descFrom, hp, this]
  induction above with
  | nil =>
    cases par with
    | nil => exact absurd rfl hne
    | cons l ls =>
      have hl := h2 l (by simp)
      have := hpar ls l hl (fun l hl => h2 l (by simp [hl]))
      simp [descKept, hl, this]
  | cons l ls ih =>
    have := h1 l (by simp)
    subst this
    have := ih (fun l hl => h1 l (by simp [hl]))
    simpa [descKept] using this

/-! ## C39 -/

/-- A text whose requirements are all there. -/
theorem parse_complete {U : Unicode} {text : Str} {path : Path} {rs : List Requirement} {es : List Error}
    {ls : List Str} {hs : List (Nat × Str × Str)} {r : Requirement}
    (hp : Md.parse U ⟨text, none⟩ path = .ok (rs ++ [r], es)) (hl : Lines text ls)
    (hh : Headings U 1 ls hs) (hm : Matches path (rs ++ [r]) hs) :
    ∃ st r0, run U path 1 ls none = ⟨rs, es, some (st, r0)⟩ ∧ st ≠ .lookForReq ∧ commit st r0 = r := by
  obtain ⟨-, hrs, hes⟩ := parse_ok hp
  have hk := parse_keys (path := path) hl hh
  have hls := lines_iff.1 hl
  replace hm : (rs ++ [r]).map key = hs.map (headKey path) := hm
  simp only [← hls] at hk hrs hes
  have hnone := run_cur_none U path 1 ls none
  generalize run U path 1 ls none = o at hk hrs hes hnone ⊢
  rw [← hm, hrs] at hk
  obtain ⟨oreqs, oerrs, ocur⟩ := o
  unfold finish at hrs hes hk
  simp only at hrs hes hk hnone
  cases ocur with
  | none =>
    rw [(hnone rfl).2.1] at hrs
    simp at hrs
  | some q =>
    obtain ⟨st, r0⟩ := q
    by_cases hst : st = .lookForReq
    · simp [hst, curKey] at hk
    · simp [hst] at hrs hes
      refine ⟨st, r0, ?_, hst, hrs.2.symm⟩
      rw [hrs.1, hes]

theorem given_iff (r : Requirement) (a : Str) : Given r a ↔ recorded r a = true := by
  unfold Given recorded
  show (if a = attrCovers then _ else if a = attrDepends then _ else _) ↔ _
  split
  · simp
  · split
    · simp
    · rw [BMap.contains, Option.isSome_iff_exists]

theorem emptyStep_open (st : State) (r : Requirement) (h : (emptyStep st r).1 ≠ .lookForReq) :
    Open (emptyStep st r).1 := by
  cases st <;> simp [emptyStep, Open] at h ⊢

/-- After an empty line an attribute may start, unless the parser has given up. -/
theorem open_after_empty {U : Unicode} {path : Path} {ls : List Str} {o : List Requirement}
    {e : List Error} {st : State} {r : Requirement}
    (h : run U path 1 (ls ++ [['\n']]) none = ⟨o, e, some (st, r)⟩) (hst : st ≠ .lookForReq) : Open st := by
  rw [run_append] at h
  have hq : reqParts U ['\n'] = none := headless (by simp)
  cases hc : (run U path 1 ls none).cur with
  | none =>
    rw [hc, run_none hq] at h
    simp [run] at h
  | some q =>
    obtain ⟨st1, r1⟩ := q
    rw [hc, run_some hq] at h
    simp [run] at h
    obtain ⟨-, -, h1, -⟩ := h
    unfold step at h1
    rw [if_pos rfl] at h1
    rw [← h1] at hst ⊢
    exact emptyStep_open _ _ hst

theorem whole_snoc {l : Str} (pre : Str) (hl : WholeLines l) (hne : l ≠ []) : WholeLines (pre ++ l) := by
  right
  rcases hl with rfl | h
  · exact absurd rfl hne
  · rw [List.getLast?_append, h]; rfl

/-- A text that starts with complete requirements, run further. -/
theorem parse_more {U : Unicode} {t1 t2 : Str} {failure : Option Str} {path : Path} {l1 l2 : List Str}
    {rs1 : List Requirement} {es1 : List Error} {st : State} {r0 : Requirement}
    {rs : List Requirement} {es : List Error} (hw : WholeLines t1) (hl1 : Lines t1 l1) (hl2 : Lines t2 l2)
    (hrun : run U path 1 l1 none = ⟨rs1, es1, some (st, r0)⟩)
    (hp : Md.parse U ⟨t1 ++ t2, failure⟩ path = .ok (rs, es)) :
    rs = rs1 ++ (run U path (1 + l1.length) l2 (some (st, r0))).reqs ++
        (finish failure path (run U path (1 + l1.length) l2 (some (st, r0))).cur).1 ∧
    es = es1 ++ (run U path (1 + l1.length) l2 (some (st, r0))).errs ++
        (finish failure path (run U path (1 + l1.length) l2 (some (st, r0))).cur).2 := by
  obtain ⟨-, h1, h2⟩ := parse_ok hp
  have e1 := lines_iff.1 hl1
  have e2 := lines_iff.1 hl2
  simp only [splitLines_append _ _ hw, ← e1, ← e2, run_append, hrun] at h1 h2
  exact ⟨h1, h2⟩

/-- C39: when all requirements of a text that ends with an empty line are complete and an attribute
starts, `DuplicateAttribute` is reported for its line exactly if the last requirement already has a
value for the attribute, whatever follows. -/
theorem C39_reported (U : Unicode) (path : Path) (t1 : Str) (l1 : List Str) (rs1 : List Requirement)
    (es1 : List Error) (hs : List (Nat × Str × Str)) (r : Requirement) (line a v t2 : Str) (l2 : List Str)
    (failure : Option Str) (rs : List Requirement) (es : List Error)
    (hl1 : Lines t1 (l1 ++ [['\n']])) (hp1 : Md.parse U ⟨t1, none⟩ path = .ok (rs1 ++ [r], es1))
    (hh : Headings U 1 (l1 ++ [['\n']]) hs) (hm : Matches path (rs1 ++ [r]) hs)
    (ha : AttrLine line a v) (hl2 : Lines t2 (line :: l2))
    (hp : Md.parse U ⟨t1 ++ t2, failure⟩ path = .ok (rs, es)) :
    (Given r a → es.filter (ErrIn (l1.length + 2) (l1.length + 2)) =
      [.duplicateAttribute ⟨path, some (.line (l1.length + 2))⟩ a r.id]) ∧
    (¬ Given r a → es.filter (ErrIn (l1.length + 2) (l1.length + 2)) = []) := by
  obtain ⟨st, r0, hrun, hst, rfl⟩ := parse_complete hp1 hl1 hh hm
  have hopen := open_after_empty hrun hst
  have hw : WholeLines t1 := by
    have := splitLines_spec t1
    rw [← lines_iff.1 hl1] at this
    rw [← this.1]
    right; simp [List.flatten_append]
  obtain ⟨-, hes⟩ := parse_more hw hl1 hl2 hrun hp
  have hlen : 1 + (l1 ++ [['\n']]).length = l1.length + 2 := by simp; omega
  rw [hlen, run_some (headless (attrLine_head ha).1), step_attr hopen ha] at hes
  have h1 := (@errIn_run U path 1 (l1 ++ [['\n']]) none (l1.length + 2) (l1.length + 2)).1 (by simp; omega)
  rw [hrun] at h1
  simp only at hes h1
  have h2 := (@errIn_run U path (l1.length + 2 + 1) l2
    (some ((attrStep (.newWithLineNo path (l1.length + 2)) st r0 a v).1,
      (attrStep (.newWithLineNo path (l1.length + 2)) st r0 a v).2.1)) (l1.length + 2) (l1.length + 2)).1
    (by omega)
  rw [hes]
  simp only [List.filter_append, h1, h2, finish_errs, List.nil_append, List.append_nil]
  rw [given_iff]
  constructor
  · intro hg
    simp [attrStep, hg, ErrIn, Location.newWithLineNo, commit_id]
  · intro hg
    simp [attrStep, hg]

/-- C39: every `DuplicateAttribute` error names an attribute that the requirement had been given by
the lines before. -/
theorem C39_only_repeated (U : Unicode) (src : Source) (path : Path) (rs : List Requirement)
    (es : List Error) (ls : List Str) (k : Nat) (a id : Str)
    (hp : Md.parse U src path = .ok (rs, es)) (hl : Lines src.text ls)
    (he : Error.duplicateAttribute ⟨path, some (.line (k + 1))⟩ a id ∈ es) :
    ∃ rs1 r es1, Md.parse U ⟨(ls.take k).flatten, none⟩ path = .ok (rs1 ++ [r], es1) ∧
      r.id = id ∧ Given r a := by
  obtain ⟨-, -, hes⟩ := parse_ok hp
  have hls := lines_iff.1 hl
  rw [← hls] at hes
  rw [hes] at he
  have he : Error.duplicateAttribute ⟨path, some (.line (k + 1))⟩ a id ∈ (run U path 1 ls none).errs := by
    rcases List.mem_append.1 he with he | he
    · exact he
    · unfold finish at he
      split at he
      · simp at he
      · split at he
        · cases he
        · split at he <;> cases he
  obtain ⟨k', k1, k2, (⟨m, h⟩ | ⟨_, _, h⟩)⟩ := run_err_loc he
  · cases h
  simp at h
  obtain ⟨rfl, -, -⟩ := h
  have hklt : k < ls.length := by omega
  -- split at the line
  have hsplit : ls = ls.take k ++ ls[k] :: ls.drop (k + 1) := by
    rw [List.getElem_cons_drop, List.take_append_drop]
  rw [hsplit, run_append] at he
  have hlen : (ls.take k).length = k := by simp; omega
  rw [hlen] at he
  have h1 : Error.duplicateAttribute ⟨path, some (.line (k + 1))⟩ a id ∉ (run U path 1 (ls.take k) none).errs := by
    intro h
    obtain ⟨k', k1, k2, (⟨m, h⟩ | ⟨_, _, h⟩)⟩ := run_err_loc h
    · cases h
    · simp at h; omega
  have hmem : Error.duplicateAttribute ⟨path, some (.line (k + 1))⟩ a id ∈
      (run U path (1 + k) (ls[k] :: ls.drop (k + 1)) (run U path 1 (ls.take k) none).cur).errs := by
    rcases List.mem_append.1 he with h | h
    · exact absurd h h1
    · exact h
  have hlater : ∀ cur, Error.duplicateAttribute ⟨path, some (.line (k + 1))⟩ a id ∉
      (run U path (1 + k + 1) (ls.drop (k + 1)) cur).errs := by
    intro cur h
    obtain ⟨k', k1, k2, (⟨m, h⟩ | ⟨_, _, h⟩)⟩ := run_err_loc h
    · cases h
    · simp at h; omega
  -- the text of the lines before
  have hwhole : ∀ l ∈ ls.take k, ∃ b, l = b ++ ['\n'] ∧ '\n' ∉ b := by
    intro l hm
    obtain ⟨s1, s2, s3⟩ := splitLines_spec src.text
    rw [← hls] at s1 s2 s3
    have hmem : l ∈ ls.dropLast := by
      rw [List.dropLast_eq_take]
      exact (List.take_subset_take_left ls (by omega)) hm
    obtain ⟨nl, e1, e2⟩ := (s2 l ((List.dropLast_sublist _).mem hmem)).1
    have hlast := s3 l hmem
    rcases e2 with rfl | rfl
    · rw [List.append_nil] at e1
      rw [e1] at hlast
      exact absurd (List.mem_of_getLast? hlast) (body_no_nl l)
    · exact ⟨body l, e1, body_no_nl l⟩
  have hpre : Md.parse U ⟨(ls.take k).flatten, none⟩ path = .ok
      ((run U path 1 (ls.take k) none).reqs ++ (finish none path (run U path 1 (ls.take k) none).cur).1,
       (run U path 1 (ls.take k) none).errs ++ (finish none path (run U path 1 (ls.take k) none).cur).2) := by
    rw [parse_run U _ path (not_tail_of_whole (wholeLines_flatten _ hwhole))]
    simp only [← lines_iff.1 (lines_flatten _ hwhole)]
  cases hq : reqParts U ls[k] with
  | some p =>
    rw [run_req hq] at hmem
    exact absurd hmem (hlater _)
  | none =>
    cases hc : (run U path 1 (ls.take k) none).cur with
    | none =>
      rw [hc, run_none hq] at hmem
      exact absurd hmem (hlater _)
    | some q =>
      obtain ⟨st, r0⟩ := q
      rw [hc, run_some hq] at hmem
      rcases List.mem_append.1 hmem with hmem | hmem
      · -- only an attribute line gives this error
        have hstep : ∀ {loc : Location} {l : Str}, Error.duplicateAttribute ⟨path, some (.line (k + 1))⟩ a id ∈
            (step U loc st r0 l).2.2 → st ≠ .lookForReq ∧ recorded (commit st r0) a = true ∧ r0.id = id := by
          intro loc l h
          have hat : ∀ x y, Error.duplicateAttribute ⟨path, some (.line (k + 1))⟩ a id ∈
              (attrStep loc st r0 x y).2.2 → recorded (commit st r0) a = true ∧ r0.id = id := by
            intro x y h
            unfold attrStep at h
            simp only at h
            split at h
            · rename_i hr
              simp at h
              obtain ⟨-, rfl, rfl⟩ := h
              exact ⟨hr, rfl⟩
            · cases h
          unfold step at h
          split at h
          · cases st <;> cases h
          · split at h
            · cases h
            · unfold textStep at h
              cases st with
              | lookForReq | collectDesc d => cases h
              | collectRefLink x y =>
                simp only at h
                split at h
                · cases h
                · split at h
                  · cases h
                  · simp at h
              | lookForDesc | collectDescNl d | collectTextAttr x y =>
                simp only at h
                split at h
                · exact ⟨by simp, hat _ _ h⟩
                · cases h
              | lookForAttr =>
                simp only at h
                split at h
                · exact ⟨by simp, hat _ _ h⟩
                · simp at h
        obtain ⟨g1, g2, g3⟩ := hstep hmem
        refine ⟨(run U path 1 (ls.take k) none).reqs, commit st r0,
          (run U path 1 (ls.take k) none).errs ++ (finish none path (some (st, r0))).2, ?_, ?_, ?_⟩
        · rw [hpre, hc]
          simp only [finish, if_neg g1]
        · rw [commit_id, g3]
        · exact (given_iff _ _).2 g2
      · exact absurd hmem (hlater _)

/-- `Note` is given twice, `Covers` not. -/
example : Md.parse .ascii ⟨c!"# AB: T\n\nNote: x\n\n", none⟩ c!"f" = .ok
      ([] ++ [⟨c!"AB", some c!"T", ⟨c!"f", some (.line 1)⟩, [], [], [],
        BMap.empty.insert c!"Note" c!"x\n"⟩], []) ∧
    (Md.parse .ascii ⟨c!"# AB: T\n\nNote: x\n\n" ++ c!"Note: y\nCovers: U1\n", none⟩ c!"f").map (·.2) =
      .ok [.duplicateAttribute ⟨c!"f", some (.line 5)⟩ c!"Note" c!"AB"] ∧
    AttrLine c!"Note: y\n" c!"Note" c!"y" :=
  ⟨by decide +kernel, by decide +kernel,
    (attrParts_iff ⟨['\n'], by decide, .inr rfl⟩).1 (by decide +kernel)⟩

/-! ## C40 -/

/-- C40 as listed, for reference items in the documented form. -/
def C40_statement : Prop := ∀ U path t1 l1 rs1 es1 hs r name v start refs bad junk post t2 rs es,
  Lines t1 (l1 ++ [['\n']]) → Md.parse U ⟨t1, none⟩ path = .ok (rs1 ++ [r], es1) →
  Headings U 1 (l1 ++ [['\n']]) hs → Matches path (rs1 ++ [r]) hs →
  AttrLine start name v → (name = c!"Covers" ∨ name = c!"Depends") → (∀ l ∈ refs, DocRef U l) →
  ¬ Blank bad → bad.head? ≠ some '#' → ¬ DocRef U bad → (∀ a v, ¬ AttrLine bad a v) →
  (∀ l ∈ junk, NoHeading U l) → Ends U post → Lines t2 (start :: (refs ++ bad :: (junk ++ post))) →
  Md.parse U ⟨t1 ++ t2, none⟩ path = .ok (rs, es) →
  es.filter (ErrIn (l1.length + 3) (l1.length + 3 + refs.length + junk.length)) =
    [.format ⟨path, some (.line (l1.length + 3 + refs.length))⟩
      c!"Expected a Reference like `* REQ_ID: Title`"]

theorem matches_one {U : Unicode} {l : Str} {ls : List Str} {hs : List (Nat × Str × Str)} {p : Str × Str × Str}
    (h : Headings U 1 (l :: ls) hs) (hl : l = body l ++ ['\n']) (hp : reqParts U l = some p)
    (hno : ∀ x ∈ ls, x.head? ≠ some '#') : hs = [(1, p.2.1, trim p.2.2)] := by
  refine headings_unique h (.take (heading_of hl hp) (headings_nil_of ?_))
  intro x hx level id title hh
  obtain ⟨h0, -, w, rest, nl, rfl, -⟩ := hh
  apply hno _ hx
  cases level with
  | zero => exact absurd h0 (by simp)
  | succ n => simp [List.replicate_succ]

/-- C40 is false: any line that ends with a word is taken as a reference to that word. -/
theorem C40_false : ¬ C40_statement := by
  intro h
  obtain ⟨hs, hh⟩ := headings_exist .ascii 1 ([c!"# AB: T\n"] ++ [c!"\n"])
  have hhs := matches_one hh (p := (c!"#", c!"AB", c!"T")) rfl (by decide +kernel) (by simp)
  have := h .ascii c!"f" c!"# AB: T\n\n" [c!"# AB: T\n"] []  [] hs
    ⟨c!"AB", some c!"T", ⟨c!"f", some (.line 1)⟩, [], [], [], .empty⟩ c!"Covers" [] c!"Covers:\n" []
    c!"some stray text\n" [] [] c!"Covers:\nsome stray text\n"
    [⟨c!"AB", some c!"T", ⟨c!"f", some (.line 1)⟩,
      [⟨c!"text", none, ⟨c!"f", some (.line 4)⟩⟩], [], [], .empty⟩] []
    (lines_iff.2 (by decide +kernel)) (by decide +kernel) hh (by rw [hhs]; rfl)
    ((attrParts_iff ⟨['\n'], by decide, .inr rfl⟩).1 (by decide +kernel)) (.inl rfl) (by simp)
    (fun hb => absurd (hb 's' (by simp)) (by decide)) (by decide)
    (by rintro ⟨w, id, tail, h, -⟩; simp at h)
    ((attrParts_none_iff ⟨['\n'], by decide, .inr rfl⟩).1 (by decide +kernel)) (by simp) (.inl rfl)
    (lines_iff.2 (by decide +kernel)) (by decide +kernel)
  simp at this

theorem run_giveUp_silent (U : Unicode) (path : Path) (n : Nat) (ls : List Str) (r : Requirement)
    (h : ∀ l ∈ ls, reqParts U l = none) :
    run U path n ls (some (.lookForReq, r)) = ⟨[], [], some (.lookForReq, r)⟩ := by
  induction ls generalizing n with
  | nil => rfl
  | cons l ls ih =>
    rw [run_some (h l (by simp))]
    have hs : step U (.newWithLineNo path n) .lookForReq r l = (.lookForReq, r, []) := by
      unfold step
      split
      · rfl
      · split
        · rfl
        · rfl
    rw [hs, ih _ (fun x hx => h x (by simp [hx]))]
    rfl

theorem refLine_head {U : Unicode} {l id : Str} {t : Option Str} (h : RefLine U l id t) : l ≠ ['\n'] := by
  rintro rfl
  obtain ⟨pre, s, h1, ⟨hid, w, tail, -, -, rfl, -⟩, -⟩ := h
  have hid' := hid
  have hm : ∀ c ∈ id, c = '\n' := by
    intro c hc
    have : c ∈ ['\n'] := by rw [h1]; simp [hc]
    simpa using this
  obtain ⟨c, u, rfl, -⟩ := hid
  have := Spec.IsIdent.no_ws hid' c (by simp)
  rw [hm c (by simp)] at this
  revert this; decide

theorem run_refs (U : Unicode) (path : Path) (name : Str) (refs : List Str) (n : Nat) (r : Requirement)
    (v : List Reference) (hl : ∀ l ∈ refs, IsLine l)
    (h : ∀ l ∈ refs, l.head? ≠ some '#' ∧ ∃ id t, RefLine U l id t) :
    ∃ v', run U path n refs (some (.collectRefLink name v, r)) =
      ⟨[], [], some (.collectRefLink name v', r)⟩ := by
  induction refs generalizing n v with
  | nil => exact ⟨v, rfl⟩
  | cons l refs ih =>
    obtain ⟨h1, id, t, h2⟩ := h l (by simp)
    rw [run_some (headless h1)]
    have hs : step U (.newWithLineNo path n) (.collectRefLink name v) r l =
        (.collectRefLink name (v ++ [⟨id, t, .newWithLineNo path n⟩]), r, []) := by
      unfold step
      rw [if_neg (refLine_head h2), if_neg h1]
      unfold textStep
      simp only [(refParts_iff (hl l (by simp))).2 h2]
    rw [hs]
    obtain ⟨v', h3⟩ := ih (n + 1) (v ++ [⟨id, t, .newWithLineNo path n⟩])
      (fun x hx => hl x (by simp [hx])) (fun x hx => h x (by simp [hx]))
    exact ⟨v', by simp only [h3]; simp⟩

/-- What the machine makes of the lines, up to the list and up to the next heading. -/
theorem run_malformed {U : Unicode} {path : Path} {n : Nat} {st : State} {r0 : Requirement}
    {name v start : Str} {refs : List Str} {bad : Str} {junk : List Str} (hopen : Open st)
    (hisl : ∀ l ∈ start :: (refs ++ bad :: junk), IsLine l)
    (ha : AttrLine start name v) (hname : name = c!"Covers" ∨ name = c!"Depends")
    (hrefs : ∀ l ∈ refs, l.head? ≠ some '#' ∧ ∃ id t, RefLine U l id t)
    (hb1 : ¬ Blank bad) (hb2 : bad.head? ≠ some '#') (hb3 : ∀ id t, ¬ RefLine U bad id t)
    (hjunk : ∀ l ∈ junk, NoHeading U l) :
    ∃ es st' q, (∀ a b, n < a → es.filter (ErrIn a b) = []) ∧ st' ≠ .lookForReq ∧
      run U path n (start :: refs) (some (st, r0)) = ⟨[], es, some (st', q)⟩ ∧
      run U path n (start :: (refs ++ bad :: junk)) (some (st, r0)) =
        ⟨[], es ++ [.format ⟨path, some (.line (n + 1 + refs.length))⟩ errRef],
          some (.lookForReq, commit st' q)⟩ := by
  have hst2 : (attrStep (.newWithLineNo path n) st r0 name v).1 =
      .collectRefLink name (shortRefs (.newWithLineNo path n) v) := by
    unfold attrStep attrState
    exact if_pos hname
  obtain ⟨v', h2⟩ := run_refs U path name refs (n + 1)
    (attrStep (.newWithLineNo path n) st r0 name v).2.1
    (shortRefs (.newWithLineNo path n) v) (fun l hl => hisl l (by simp [hl])) hrefs
  have hbadstep : step U (.newWithLineNo path (n + 1 + refs.length)) (.collectRefLink name v')
      (attrStep (.newWithLineNo path n) st r0 name v).2.1 bad =
      (.lookForReq, commit (.collectRefLink name v') (attrStep (.newWithLineNo path n) st r0 name v).2.1,
        [.format (.newWithLineNo path (n + 1 + refs.length)) errRef]) := by
    unfold step
    rw [if_neg, if_neg hb2]
    · unfold textStep
      simp only [(refParts_none_iff (hisl bad (by simp))).2 hb3]
      rw [if_neg (fun h => hb1 (trim_eq_nil.1 h))]
    · rintro rfl
      apply hb1
      intro c hc; simp at hc; subst hc; decide
  refine ⟨(attrStep (.newWithLineNo path n) st r0 name v).2.2, .collectRefLink name v',
    (attrStep (.newWithLineNo path n) st r0 name v).2.1, ?_, by simp, ?_, ?_⟩
  · intro a b hab
    rw [List.filter_eq_nil_iff]
    intro e he
    unfold attrStep at he
    simp only at he
    split at he
    · simp at he; subst he
      simp [ErrIn, Location.newWithLineNo]
      omega
    · cases he
  · rw [run_some (headless (attrLine_head ha).1), step_attr hopen ha, hst2, h2]
    simp
  · rw [run_some (headless (attrLine_head ha).1), step_attr hopen ha, hst2, run_append, h2]
    simp only
    rw [run_some (headless hb2), hbadstep]
    simp only
    rw [run_giveUp_silent U path _ junk _ (fun l hl =>
      (reqParts_none_iff (hisl l (by simp [hl]))).2 (hjunk l hl))]
    simp [Location.newWithLineNo]

/-- C40, what holds: `RefLine` is what the parser takes as a reference.  A line right below a reference
list that is none and not blank gives exactly one `Format` error, at its line; everything up to the
next requirement heading gives no further error. -/
theorem C40_malformed_partial (U : Unicode) (path : Path) (t1 : Str) (l1 : List Str)
    (rs1 : List Requirement) (es1 : List Error) (hs : List (Nat × Str × Str)) (r : Requirement)
    (name v start : Str) (refs : List Str) (bad : Str) (junk post : List Str) (t2 : Str)
    (failure : Option Str) (rs : List Requirement) (es : List Error)
    (hl1 : Lines t1 (l1 ++ [['\n']])) (hp1 : Md.parse U ⟨t1, none⟩ path = .ok (rs1 ++ [r], es1))
    (hh : Headings U 1 (l1 ++ [['\n']]) hs) (hm : Matches path (rs1 ++ [r]) hs)
    (ha : AttrLine start name v) (hname : name = c!"Covers" ∨ name = c!"Depends")
    (hrefs : ∀ l ∈ refs, l.head? ≠ some '#' ∧ ∃ id t, RefLine U l id t)
    (hb1 : ¬ Blank bad) (hb2 : bad.head? ≠ some '#') (hb3 : ∀ id t, ¬ RefLine U bad id t)
    (hjunk : ∀ l ∈ junk, NoHeading U l)
    (hl2 : Lines t2 (start :: (refs ++ bad :: (junk ++ post))))
    (hp : Md.parse U ⟨t1 ++ t2, failure⟩ path = .ok (rs, es)) :
    es.filter (ErrIn (l1.length + 3) (l1.length + 3 + refs.length + junk.length)) =
      [.format ⟨path, some (.line (l1.length + 3 + refs.length))⟩
        c!"Expected a Reference like `* REQ_ID: Title`"] := by
  obtain ⟨st, r0, hrun, hst, rfl⟩ := parse_complete hp1 hl1 hh hm
  have hopen := open_after_empty hrun hst
  have hw : WholeLines t1 := by
    have := splitLines_spec t1
    rw [← lines_iff.1 hl1] at this
    rw [← this.1]
    right; simp [List.flatten_append]
  have hisl : ∀ l ∈ start :: (refs ++ bad :: (junk ++ post)), IsLine l := by
    intro l hl
    exact isLine_of_mem (text := t2) (lines_iff.1 hl2 ▸ hl)
  obtain ⟨-, hes⟩ := parse_more hw hl1 hl2 hrun hp
  have hlen : 1 + (l1 ++ [['\n']]).length = l1.length + 2 := by simp; omega
  have h1 := (@errIn_run U path 1 (l1 ++ [['\n']]) none (l1.length + 3)
    (l1.length + 3 + refs.length + junk.length)).1 (by simp; omega)
  obtain ⟨es2, st', q, h2, -, -, h3⟩ := run_malformed (path := path) (n := l1.length + 2) (r0 := r0) hopen
    (fun l hl => hisl l (by simp at hl ⊢; grind)) ha hname hrefs hb1 hb2 hb3 hjunk
  have hsplit : start :: (refs ++ bad :: (junk ++ post)) = (start :: (refs ++ bad :: junk)) ++ post := by simp
  rw [hlen, hsplit, run_append, h3] at hes
  have h4 : ∀ cur, (run U path (l1.length + 2 + (start :: (refs ++ bad :: junk)).length) post cur).errs.filter
      (ErrIn (l1.length + 3) (l1.length + 3 + refs.length + junk.length)) = [] :=
    fun cur => (@errIn_run U path _ post cur _ _).1 (.inr (by simp; omega))
  rw [hrun] at h1
  rw [hes]
  simp only at h1
  simp only [List.filter_append, h1, h2 _ _ (Nat.lt_succ_self _), h4, finish_errs, List.nil_append,
    List.append_nil]
  rw [List.filter_eq_self.2]
  · have : l1.length + 2 + 1 + refs.length = l1.length + 3 + refs.length := by omega
    rw [this]; rfl
  · intro e he
    simp at he; subst he
    simp [ErrIn]

/-- C40, the rest: what follows the malformed line up to the next requirement heading has no effect.
With `t0` the text before that line, the requirements of `t0` are the first of the whole text. -/
theorem C40_ignored_partial (U : Unicode) (path : Path) (t1 : Str) (l1 : List Str)
    (rs1 : List Requirement) (es1 : List Error) (hs : List (Nat × Str × Str)) (r : Requirement)
    (name v start : Str) (refs : List Str) (bad : Str) (junk : List Str) (h : Str) (post : List Str) (t0 t2 : Str)
    (failure : Option Str) (rs rs0 : List Requirement) (es es0 : List Error) (level : Nat) (id title : Str)
    (hl1 : Lines t1 (l1 ++ [['\n']])) (hp1 : Md.parse U ⟨t1, none⟩ path = .ok (rs1 ++ [r], es1))
    (hh : Headings U 1 (l1 ++ [['\n']]) hs) (hm : Matches path (rs1 ++ [r]) hs)
    (ha : AttrLine start name v) (hname : name = c!"Covers" ∨ name = c!"Depends")
    (hrefs : ∀ l ∈ refs, l.head? ≠ some '#' ∧ ∃ id t, RefLine U l id t)
    (hb1 : ¬ Blank bad) (hb2 : bad.head? ≠ some '#') (hb3 : ∀ id t, ¬ RefLine U bad id t)
    (hjunk : ∀ l ∈ junk, NoHeading U l) (hhead : ReqHeading U h level id title)
    (hl2 : Lines t2 (start :: (refs ++ bad :: (junk ++ h :: post)))) (hl0 : Lines t0 (start :: refs))
    (hp : Md.parse U ⟨t1 ++ t2, failure⟩ path = .ok (rs, es))
    (hp0 : Md.parse U ⟨t1 ++ t0, none⟩ path = .ok (rs0, es0)) :
    rs0 <+: rs ∧ rs0.length = rs1.length + 1 := by
  obtain ⟨st, r0, hrun, hst, rfl⟩ := parse_complete hp1 hl1 hh hm
  have hopen := open_after_empty hrun hst
  have hw : WholeLines t1 := by
    have := splitLines_spec t1
    rw [← lines_iff.1 hl1] at this
    rw [← this.1]
    right; simp [List.flatten_append]
  have hisl : ∀ l ∈ start :: (refs ++ bad :: (junk ++ h :: post)), IsLine l := by
    intro l hl
    exact isLine_of_mem (text := t2) (lines_iff.1 hl2 ▸ hl)
  obtain ⟨hrs, -⟩ := parse_more hw hl1 hl2 hrun hp
  obtain ⟨hrs0, -⟩ := parse_more hw hl1 hl0 hrun hp0
  obtain ⟨es2, st', q, -, h2, h3, h4⟩ := run_malformed (path := path) (n := 1 + (l1 ++ [['\n']]).length)
    (r0 := r0) hopen
    (fun l hl => hisl l (by simp at hl ⊢; grind)) ha hname hrefs hb1 hb2 hb3 hjunk
  have hsplit : start :: (refs ++ bad :: (junk ++ h :: post)) =
      (start :: (refs ++ bad :: junk)) ++ h :: post := by simp
  obtain ⟨p, hp⟩ : ∃ p, reqParts U h = some p := by
    cases hq : reqParts U h with
    | some p => exact ⟨p, rfl⟩
    | none => exact absurd hhead ((reqParts_none_iff (hisl h (by simp))).1 hq _ _ _)
  rw [hsplit, run_append, h4] at hrs
  simp only at hrs
  rw [run_req hp] at hrs
  rw [h3] at hrs0
  simp only [finish, if_neg h2] at hrs0
  subst hrs hrs0
  simp [List.append_assoc, List.prefix_append_right_inj, flush, commit]

/-- A list with a malformed line in it, and another requirement after that. -/
example : Md.parse .ascii ⟨c!"# AB: T\n\n", none⟩ c!"f" =
      .ok ([] ++ [⟨c!"AB", some c!"T", ⟨c!"f", some (.line 1)⟩, [], [], [], .empty⟩], []) ∧
    (Md.parse .ascii ⟨c!"# AB: T\n\n" ++ c!"Covers:\n* X1\n* ?!\n* X2\nwhatever\n# CD: U\n", none⟩ c!"f") =
      .ok ([⟨c!"AB", some c!"T", ⟨c!"f", some (.line 1)⟩, [⟨c!"X1", none, ⟨c!"f", some (.line 4)⟩⟩], [], [],
          .empty⟩, ⟨c!"CD", some c!"U", ⟨c!"f", some (.line 8)⟩, [], [], [], .empty⟩],
        [.format ⟨c!"f", some (.line 5)⟩ c!"Expected a Reference like `* REQ_ID: Title`"]) ∧
    (∃ id t, RefLine .ascii c!"* X1\n" id t) ∧ (∀ id t, ¬ RefLine .ascii c!"* ?!\n" id t) :=
  ⟨by decide +kernel, by decide +kernel,
    ⟨c!"X1", none, (refParts_iff ⟨['\n'], by decide, .inr rfl⟩).1 (by decide +kernel)⟩,
    (refParts_none_iff ⟨['\n'], by decide, .inr rfl⟩).1 (by decide +kernel)⟩

/-! ## C41 -/

/-- C41 as listed. -/
def C41_statement : Prop := ∀ U text path, '\r' ∉ text →
  Md.parse U ⟨crlf text, none⟩ path = Md.parse U ⟨text, none⟩ path

/-- C41 is false: an empty line with a carriage return is not taken as empty. -/
theorem C41_false : ¬ C41_statement := by
  intro h
  have := h .ascii c!"# AB: T\n\nCovers: X1\n" c!"f" (by decide)
  revert this
  decide +kernel

theorem crlf_append (a b : Str) : crlf (a ++ b) = crlf a ++ crlf b := by
  induction a with
  | nil => rfl
  | cons c a ih =>
    simp only [List.cons_append, crlf]
    split <;> simp [ih]

theorem crlf_no_nl {a : Str} (h : '\n' ∉ a) : crlf a = a := by
  induction a with
  | nil => rfl
  | cons c a ih =>
    simp at h
    rw [crlf, if_neg (Ne.symm h.1), ih h.2]

theorem crlf_lines {text : Str} {ls : List Str} (h : Lines text ls) : Lines (crlf text) (ls.map crlf) := by
  induction h with
  | nil => exact .nil
  | last l h1 h2 => rw [List.map_cons, List.map_nil, crlf_no_nl h2]; exact .last l h1 h2
  | cons l h1 h2 ih =>
    have := Lines.cons (l ++ ['\r']) (by simp [h1]) ih
    simpa [crlf_append, crlf, crlf_no_nl h1] using this

theorem trimsTo_cr {rest title : Str} : TrimsTo (rest ++ ['\r']) title ↔ TrimsTo rest title := by
  have h : ∀ {t}, TrimsTo rest t → TrimsTo (rest ++ ['\r']) t := by
    rintro t ⟨a, b, h, ha, hb, h1, h2⟩
    refine ⟨a, b ++ ['\r'], by rw [h]; simp, ha, ?_, h1, h2⟩
    intro c hc
    rcases List.mem_append.1 hc with hc | hc
    · exact hb c hc
    · simp at hc; subst hc; decide
  refine ⟨fun h1 => ?_, h⟩
  have h2 := h (trimsTo_iff.2 (rfl : trim rest = trim rest))
  rw [trimsTo_iff] at h1 h2
  rw [trimsTo_iff, h1, ← h2]

/-- Requirement headings do not depend on the line ends, unless nothing follows the colon. -/
theorem crlf_heading {U : Unicode} {l : Str} {level : Nat} {id title : Str} (hl : IsLine l)
    (hc : ¬ (l.head? = some '#' ∧ ∃ u, l = u ++ c!":\n")) :
    ReqHeading U (crlf l) level id title ↔ ReqHeading U l level id title := by
  obtain ⟨nl, hb, (rfl | rfl)⟩ := hl
  · rw [List.append_nil] at hb
    rw [crlf_no_nl (hb ▸ body_no_nl l)]
  · have hno := body_no_nl l
    generalize body l = b at hb hno
    subst hb
    have e : crlf (b ++ ['\n']) = b ++ ['\r'] ++ ['\n'] := by simp [crlf_append, crlf, crlf_no_nl hno]
    have last : ∀ {x : Str} {rest y : Str}, x ++ ['\n'] = y ++ ':' :: rest ++ [] → '\n' ∉ rest → False := by
      intro x rest y h hr
      have := congrArg List.getLast? h
      rw [List.append_nil] at this
      simp at this
      cases hl : rest.getLast? with
      | none =>
        have : rest = [] := by simpa using hl
        subst this
        simp at this
      | some c =>
        rw [List.getLast?_cons, hl] at this
        simp at this
        subst this
        exact hr (List.mem_of_getLast? hl)
    rw [e]
    constructor
    · rintro ⟨h0, hid, w, rest, nl, h, hw, h1, h2, h3, h4⟩
      rcases h3 with rfl | rfl
      · exact (last h h2).elim
      · have h := List.append_cancel_right h
        rw [← List.dropLast_concat_getLast h1] at h
        have h5 : b ++ ['\r'] = (List.replicate level '#' ++ w ++ id ++ ':' :: rest.dropLast) ++ [rest.getLast h1] := by
          rw [h]; simp
        obtain ⟨h5, h6⟩ := List.append_inj' h5 rfl
        simp only [List.cons.injEq, and_true] at h6
        have h7 : rest = rest.dropLast ++ ['\r'] := by rw [h6, List.dropLast_concat_getLast]
        refine ⟨h0, hid, w, rest.dropLast, ['\n'], by rw [h5], hw, ?_, fun hm => h2 ?_, .inr rfl, ?_⟩
        · intro h8
          apply hc
          rw [h5, h8]
          refine ⟨?_, List.replicate level '#' ++ w ++ id, by simp⟩
          cases level with
          | zero => omega
          | succ n => simp [List.replicate_succ]
        · exact (List.dropLast_sublist _).mem hm
        · rw [h7] at h4
          exact trimsTo_cr.1 h4
    · rintro ⟨h0, hid, w, rest, nl, h, hw, h1, h2, h3, h4⟩
      rcases h3 with rfl | rfl
      · exact (last h h2).elim
      · have h := List.append_cancel_right h
        refine ⟨h0, hid, w, rest ++ ['\r'], ['\n'], by rw [h]; simp, hw, by simp, by simp [h2], .inr rfl,
          trimsTo_cr.2 h4⟩

theorem crlf_headings {U : Unicode} {n : Nat} {ls : List Str} {hs : List (Nat × Str × Str)}
    (hl : ∀ l ∈ ls, IsLine l) (hc : ∀ l ∈ ls, ¬ (l.head? = some '#' ∧ ∃ u, l = u ++ c!":\n"))
    (h : Headings U n ls hs) : Headings U n (ls.map crlf) hs := by
  induction h with
  | nil => exact .nil _
  | skip h1 h2 ih =>
    refine .skip (fun level id title h => h1 level id title ?_)
      (ih (fun l hl' => hl l (by simp [hl'])) (fun l hl' => hc l (by simp [hl'])))
    exact (crlf_heading (hl _ (by simp)) (hc _ (by simp))).1 h
  | take h1 h2 ih =>
    exact .take ((crlf_heading (hl _ (by simp)) (hc _ (by simp))).2 h1)
      (ih (fun l hl' => hl l (by simp [hl'])) (fun l hl' => hc l (by simp [hl'])))

/-- C41, what holds: with CR LF line ends the parser finds requirements with the same locations, ids
and titles, provided there is no heading that ends with a colon; as always the last may be missing. -/
theorem C41_headings_partial (U : Unicode) (text : Str) (failure : Option Str) (path : Path)
    (ls : List Str) (hs : List (Nat × Str × Str)) (rs : List Requirement) (es : List Error)
    (hl : Lines text ls) (hh : Headings U 1 ls hs)
    (hc : ∀ l ∈ ls, ¬ (l.head? = some '#' ∧ ∃ u, l = u ++ c!":\n"))
    (hp : Md.parse U ⟨crlf text, failure⟩ path = .ok (rs, es)) :
    Matches path rs hs ∨ Matches path rs hs.dropLast :=
  C32_only_headings U ⟨crlf text, failure⟩ path rs es _ hs hp (crlf_lines hl)
    (crlf_headings (fun l h => isLine_of_mem (text := text) (lines_iff.1 hl ▸ h)) hc hh)

example : (Md.parse .ascii ⟨crlf c!"# AB: T\nsome text\n\n## CD: U\n", none⟩ c!"f").map
    (fun r => r.1.map fun q => (q.location, q.id, q.title)) = .ok
      [(⟨c!"f", some (.line 1)⟩, c!"AB", some c!"T"), (⟨c!"f", some (.line 4)⟩, c!"CD", some c!"U")] := by
  decide +kernel

end Reqtrace
