import Verif.Spec.Reimport
import Verif.Props.Document
import Verif.Props.Output
import Verif.Props.Jobs
import Verif.Props.Whole
import Verif.Props.Markdown2

/-!
# C106: the Markdown list of requirements, read again
-/

namespace Reqtrace

open Spec Md

namespace Reimport

/-- A line that is complete. -/
def Whole (l : Str) : Prop := ∃ b, l = b ++ ['\n'] ∧ '\n' ∉ b

theorem whole_nl : Whole ['\n'] := ⟨[], rfl, by simp⟩

theorem lines_whole {s : Str} {ls : List Str} (h : Lines s ls) (hw : WholeLines s) : ∀ l ∈ ls, Whole l := by
  induction h with
  | nil => intro l hl; cases hl
  | last l h1 h2 =>
    rcases hw with rfl | hw
    · exact absurd rfl h1
    · exact absurd (List.mem_of_getLast? hw) h2
  | cons l h1 h2 ih =>
    rename_i rest ls
    intro m hm
    rcases List.mem_cons.1 hm with rfl | hm
    · exact ⟨l, rfl, h1⟩
    · refine ih ?_ m hm
      cases rest with
      | nil => exact .inl rfl
      | cons c t =>
        refine .inr ?_
        rcases hw with hw | hw
        · simp at hw
        · simpa [List.getLast?_append, List.getLast?_cons] using hw

theorem noHeading_head {U : Unicode} {l : Str} (h : l.head? ≠ some '#') : NoHeading U l := by
  rintro level id title ⟨h0, -, w, rest, nl, rfl, -⟩
  cases level with
  | zero => cases h0
  | succ n => simp [List.replicate_succ] at h

/-! ## Blocks -/

/-- An attribute with its lines. -/
inductive Block where
  | text (start name v : Str) (more : List Str)
  | refs (name : Str) (rs : List (Str × Option Str))

def Block.name : Block → Str
  | .text _ name _ _ => name
  | .refs name _ => name

def Block.lines : Block → List Str
  | .text start _ _ more => start :: more
  | .refs name rs => (name ++ c!":\n") :: rs.map writeRef

def Block.Good (U : Unicode) : Block → Prop
  | .text start name v more => AttrLine start name v ∧ Whole start ∧ name ≠ c!"Covers" ∧ name ≠ c!"Depends" ∧
      ∀ m ∈ more, Whole m ∧ m.head? ≠ some '#' ∧ ∀ a v, ¬ AttrLine m a v
  | .refs name rs => (name = c!"Covers" ∨ name = c!"Depends") ∧ ∀ r ∈ rs, IsIdent U r.1 ∧ ∀ t, r.2 = some t → OneLine t

def Fits (b : Block) (x : Attr) : Prop :=
  x.name = b.name ∧ match b with
    | .text _ _ v more => ∃ e, Blank e ∧ x.value = .text (v ++ more.flatten ++ e)
    | .refs _ rs => ∃ refs : List Reference, x.value = .refs refs ∧ refs.map (fun r => (r.id, r.title)) = rs

/-- The lines of blocks, with an empty line before each, and perhaps one at the end. -/
def fill (bs : List Block) (tail : List Str) : List Str := bs.flatMap (fun b => ['\n'] :: b.lines) ++ tail

theorem isWord_covers : IsWord c!"Covers" := ⟨'C', c!"overs", rfl, by decide, by simp, by decide⟩

theorem isWord_depends : IsWord c!"Depends" := ⟨'D', c!"epends", rfl, by decide, by simp, by decide⟩

theorem refItems {U : Unicode} {path : Path} (rs : List (Str × Option Str))
    (h : ∀ r ∈ rs, IsIdent U r.1 ∧ ∀ t, r.2 = some t → OneLine t) (n : Nat) :
    ∃ refs, RefItems U path n (rs.map writeRef) refs ∧ refs.map (fun r => (r.id, r.title)) = rs := by
  induction rs generalizing n with
  | nil => exact ⟨[], .nil n, rfl⟩
  | cons r rs ih =>
    obtain ⟨refs, h1, h2⟩ := ih (fun r hr => h r (by simp [hr])) (n + 1)
    obtain ⟨h3, h4⟩ := h r (by simp)
    exact ⟨_, .cons writeRef_head.1 (ref_line h3 h4) h1, by simp [h2]⟩

theorem refList {U : Unicode} {path : Path} {name : Str} (hn : name = c!"Covers" ∨ name = c!"Depends")
    (rs : List (Str × Option Str)) (h : ∀ r ∈ rs, IsIdent U r.1 ∧ ∀ t, r.2 = some t → OneLine t) (n : Nat) :
    ∃ refs, RefList U path n (name ++ c!":\n") (rs.map writeRef) name refs ∧
      refs.map (fun r => (r.id, r.title)) = rs := by
  obtain ⟨refs, h1, h2⟩ := refItems (path := path) rs h (n + 1)
  have hw : IsWord name := by
    rcases hn with rfl | rfl
    · exact isWord_covers
    · exact isWord_depends
  have hb : Blank ([] : Str) := by intro c hc; cases hc
  exact ⟨refs, ⟨[], [], [[]], [], refs, attr_line_empty hw, hn, ⟨[], [], rfl, hb, hb, by simp, by simp⟩, .one [] (by simp),
    .blank hb .nil, h1, by simp⟩, h2⟩

theorem block_first {U : Unicode} {b : Block} (h : b.Good U) (rest : List Str) : AtAttr (b.lines ++ rest) := by
  cases b with
  | text start name v more => exact ⟨_, _, _, _, rfl, h.1⟩
  | refs name rs =>
    refine ⟨_, _, _, _, rfl, attr_line_empty (a := name) ?_⟩
    rcases h.1 with rfl | rfl
    · exact isWord_covers
    · exact isWord_depends

theorem blank_nl : Blank ['\n'] := by intro c hc; simp at hc; subst hc; decide

theorem fill_attrs {U : Unicode} {path : Path} (tail : List Str) (ht : tail = [] ∨ tail = [['\n']]) (bs : List Block)
    (h : ∀ b ∈ bs, b.Good U) : ∀ n, (fill bs tail = [] ∧ bs = []) ∨ ∃ ls as, fill bs tail = ['\n'] :: ls ∧
      (AtEnd ls ∨ AtAttr ls) ∧ Attrs U path (n + 1) ls as .no ∧ Pairs Fits bs as := by
  induction bs with
  | nil =>
    intro n
    rcases ht with rfl | rfl
    · exact .inl ⟨rfl, rfl⟩
    · exact .inr ⟨[], [], rfl, .inl (.inl rfl), .nil _, .nil⟩
  | cons b bs ih =>
    intro n
    have ih := ih (fun b hb => h b (by simp [hb]))
    have hb := h b (by simp)
    have e : fill (b :: bs) tail = ['\n'] :: (b.lines ++ fill bs tail) := by simp [fill]
    refine .inr ⟨b.lines ++ fill bs tail, ?_⟩
    have hat := block_first hb (fill bs tail)
    cases b with
    | text start name v more =>
      obtain ⟨h1, h2, h3, h4, h5⟩ := hb
      rcases ih (n + 1 + more.length + 1) with ⟨e1, rfl⟩ | ⟨ls, as, e1, k1, k2, k3⟩
      · refine ⟨[⟨n + 1, name, .text (v ++ more.flatten)⟩], e, .inr hat, ?_, .cons ⟨rfl, [], by simp [Blank], by simp⟩ .nil⟩
        rw [e1]
        exact .text h1 h3 h4 (fun m hm => (h5 m hm).2) (.inl (.inl rfl)) (.nil _)
      · refine ⟨⟨n + 1, name, .text (v ++ (more ++ [['\n']]).flatten)⟩ :: as, e, .inr hat, ?_,
          .cons ⟨rfl, ['\n'], blank_nl, by simp⟩ k3⟩
        rw [e1]
        have : Block.lines (.text start name v more) ++ ['\n'] :: ls = start :: ((more ++ [['\n']]) ++ ls) := by simp [Block.lines]
        rw [this]
        refine .text h1 h3 h4 ?_ k1 ?_
        · intro m hm
          rcases List.mem_append.1 hm with hm | hm
          · exact (h5 m hm).2
          · simp only [List.mem_singleton] at hm
            subst hm
            refine ⟨by decide, ?_⟩
            rintro a v hav
            exact (attrLine_head hav).2 rfl
        · have : n + 1 + 1 + (more ++ [['\n']]).length = n + 1 + more.length + 1 + 1 := by simp; omega
          rw [this]
          exact k2
    | refs name rs =>
      obtain ⟨h1, h2⟩ := hb
      obtain ⟨refs, r1, r2⟩ := refList (path := path) h1 rs h2 (n + 1)
      rcases ih (n + 1 + rs.length + 1) with ⟨e1, rfl⟩ | ⟨ls, as, e1, k1, k2, k3⟩
      · refine ⟨[⟨n + 1, name, .refs refs⟩], e, .inr hat, ?_, .cons ⟨rfl, refs, rfl, r2⟩ .nil⟩
        rw [e1]
        exact .refs r1 (.inl rfl) (.nil _)
      · refine ⟨⟨n + 1, name, .refs refs⟩ :: as, e, .inr hat, ?_, .cons ⟨rfl, refs, rfl, r2⟩ k3⟩
        rw [e1]
        refine .refsBlank r1 blank_nl ?_
        have : n + 1 + 1 + (rs.map writeRef).length + 1 = n + 1 + rs.length + 1 + 1 := by simp; omega
        rw [this]
        exact k2

theorem block_lines {U : Unicode} {b : Block} (h : b.Good U) : ∀ l ∈ b.lines, Whole l ∧ NoHeading U l := by
  intro l hl
  cases b with
  | text start name v more =>
    obtain ⟨h1, h2, -, -, h5⟩ := h
    rcases List.mem_cons.1 hl with rfl | hl
    · exact ⟨h2, noHeading_head (attrLine_head h1).1⟩
    · exact ⟨(h5 l hl).1, noHeading_head (h5 l hl).2.1⟩
  | refs name rs =>
    obtain ⟨h1, h2⟩ := h
    rcases List.mem_cons.1 hl with rfl | hl
    · rcases h1 with rfl | rfl
      · exact ⟨⟨c!"Covers:", rfl, by decide⟩, noHeading_head (by decide)⟩
      · exact ⟨⟨c!"Depends:", rfl, by decide⟩, noHeading_head (by decide)⟩
    · obtain ⟨r, hr, rfl⟩ := List.mem_map.1 hl
      obtain ⟨h3, h4⟩ := h2 r hr
      refine ⟨?_, noHeading_head writeRef_head.1⟩
      have hn : '\n' ∉ r.1 := fun h => by
        have := h3.no_ws _ h
        revert this; decide
      obtain ⟨id, t⟩ := r
      refine ⟨_, rfl, ?_⟩
      cases t with
      | none => simp at hn ⊢; exact hn
      | some t => simp [(h4 t rfl).2.1] at hn ⊢; exact hn

theorem fill_lines {U : Unicode} {bs : List Block} (h : ∀ b ∈ bs, b.Good U) {tail : List Str}
    (ht : tail = [] ∨ tail = [['\n']]) : ∀ l ∈ fill bs tail, Whole l ∧ NoHeading U l := by
  have hnl : Whole ['\n'] ∧ NoHeading U ['\n'] := ⟨whole_nl, noHeading_head (by decide)⟩
  intro l hl
  rcases List.mem_append.1 hl with hl | hl
  · obtain ⟨b, hb, hl⟩ := List.mem_flatMap.1 hl
    rcases List.mem_cons.1 hl with rfl | hl
    · exact hnl
    · exact block_lines (h b hb) l hl
  · rcases ht with rfl | rfl
    · cases hl
    · simp only [List.mem_singleton] at hl
      subst hl
      exact hnl

/-! ## Attributes with different names -/

theorem pairs_names {bs : List Block} {as : List Attr} (h : Pairs Fits bs as) : as.map (·.name) = bs.map Block.name := by
  induction h with
  | nil => rfl
  | cons h _ ih => simp [h.1, ih]

theorem lastOf_nodup {as : List Attr} (h : (as.map (·.name)).Nodup) {x : Attr} (hx : x ∈ as) :
    lastOf as x.name = some x.value := by
  have : as.filter (fun a => decide (a.name = x.name)) = [x] := by
    induction as with
    | nil => cases hx
    | cons a as ih =>
      simp only [List.map_cons, List.nodup_cons] at h
      rcases List.mem_cons.1 hx with rfl | hx
      · have : as.filter (fun a => decide (a.name = x.name)) = [] := by
          rw [List.filter_eq_nil_iff]
          intro y hy hn
          exact h.1 (List.mem_map.2 ⟨y, hy, by simpa using hn⟩)
        simp [this]
      · have hne : a.name ≠ x.name := fun e => h.1 (List.mem_map.2 ⟨x, hx, e.symm⟩)
        simp [hne, ih h.2 hx]
  simp [lastOf, this]

theorem lastOf_none {as : List Attr} {name : Str} (h : name ∉ as.map (·.name)) : lastOf as name = none := by
  have : as.filter (fun a => decide (a.name = name)) = [] := by
    rw [List.filter_eq_nil_iff]
    intro y hy hn
    exact h (List.mem_map.2 ⟨y, hy, by simpa using hn⟩)
  simp [lastOf, this]

theorem repeated_nodup (path : Path) (id : Str) (as before : List Attr) (h : ((before ++ as).map (·.name)).Nodup) :
    repeated path id before as = [] := by
  induction as generalizing before with
  | nil => rfl
  | cons a as ih =>
    have hn : a.name ∉ before.map (·.name) := by
      simp only [List.map_append, List.map_cons] at h
      have := (List.nodup_append.1 h).2.2
      intro hm
      exact this _ hm _ (by simp) rfl
    have : alreadyGiven before a.name = false := by simp [alreadyGiven, lastOf_none hn]
    rw [repeated, this, ih]
    · rfl
    · simpa using h

theorem lastOf_mem {as : List Attr} {name : Str} {v : Value} (h : lastOf as name = some v) :
    ∃ x ∈ as, x.name = name ∧ x.value = v := by
  unfold lastOf at h
  obtain ⟨x, hx, rfl⟩ := Option.map_eq_some_iff.1 h
  have := List.mem_filter.1 (List.mem_of_getLast? hx)
  exact ⟨x, this.1, by simpa using this.2, rfl⟩

theorem pairs_left {α β : Type} {P : α → β → Prop} {as : List α} {bs : List β} (h : Pairs P as bs) :
    ∀ a ∈ as, ∃ b ∈ bs, P a b := by
  induction h with
  | nil => intro a ha; cases ha
  | cons h _ ih =>
    intro a ha
    rcases List.mem_cons.1 ha with rfl | ha
    · exact ⟨_, by simp, h⟩
    · obtain ⟨b, hb, h'⟩ := ih a ha
      exact ⟨b, by simp [hb], h'⟩

theorem pairs_right {α β : Type} {P : α → β → Prop} {as : List α} {bs : List β} (h : Pairs P as bs) :
    ∀ b ∈ bs, ∃ a ∈ as, P a b := by
  induction h with
  | nil => intro a ha; cases ha
  | cons h _ ih =>
    intro a ha
    rcases List.mem_cons.1 ha with rfl | ha
    · exact ⟨_, by simp, h⟩
    · obtain ⟨b, hb, h'⟩ := ih a ha
      exact ⟨b, by simp [hb], h'⟩

/-! ## The blocks of a requirement -/

/-- The block of an attribute with trimmed value `w`. -/
def attrBlock (a w : Str) : Block := .text (a ++ c!":\n") a [] (splitLines (w ++ c!"\n"))

theorem plain_lines {s : Str} (h : PlainText (s ++ c!"\n")) :
    ∀ m ∈ splitLines (s ++ c!"\n"), Whole m ∧ m.head? ≠ some '#' ∧ ∀ a v, ¬ AttrLine m a v := fun m hm =>
  ⟨lines_whole (lines_iff.2 rfl) (.inr (by simp)) m hm, h _ (lines_iff.2 rfl) m hm⟩

theorem word_no_nl {a : Str} (h : IsWord a) : '\n' ∉ a := by
  obtain ⟨c, low, rfl, h1, -, h3⟩ := h
  intro hm
  rcases List.mem_cons.1 hm with e | hm
  · subst e; revert h1; decide
  · have := h3 _ hm; revert this; decide

theorem attrBlock_good {U : Unicode} {a w : Str} (ha : IsWord a) (h1 : a ≠ c!"Covers") (h2 : a ≠ c!"Depends")
    (hw : PlainText (w ++ c!"\n")) : (attrBlock a w).Good U :=
  ⟨attr_line_empty ha, ⟨a ++ c!":", by simp, by simp [word_no_nl ha]⟩, h1, h2, plain_lines hw⟩

theorem splitLines_flatten (s : Str) : (splitLines s).flatten = s := (splitLines_spec s).1

theorem attrBlocks {U : Unicode} {es : List (Str × Str)} {attrs : Str} (h : OtherAttributes es attrs)
    (hw : ∀ e ∈ es, e.1 ≠ c!"Description" → ¬ Blank e.2 →
      IsWord e.1 ∧ e.1 ≠ c!"Covers" ∧ e.1 ≠ c!"Depends" ∧ e.1 ≠ c!"Origin" ∧ ∀ w, TrimsTo e.2 w → PlainText (w ++ c!"\n")) :
    ∃ bs : List Block, attrs = (fill bs []).flatten ∧ (∀ b ∈ bs, b.Good U) ∧ (bs.map Block.name).Sublist (es.map Prod.fst) ∧
      (∀ b ∈ bs, ∃ a v w, b = attrBlock a w ∧ (a, v) ∈ es ∧ a ≠ c!"Description" ∧ ¬ Blank v ∧ TrimsTo v w) ∧
      ∀ a v, (a, v) ∈ es → a ≠ c!"Description" → ¬ Blank v → ∃ w, TrimsTo v w ∧ attrBlock a w ∈ bs := by
  induction h with
  | nil => exact ⟨[], rfl, by simp, by simp, by simp, by simp⟩
  | @description v as t _ ih =>
    obtain ⟨bs, h1, h2, h3, h4, h5⟩ := ih (fun e he => hw e (by simp [he]))
    refine ⟨bs, h1, h2, .cons _ h3, ?_, ?_⟩
    · intro b hb
      obtain ⟨a, v, w, k1, k2, k3⟩ := h4 b hb
      exact ⟨a, v, w, k1, by simp [k2], k3⟩
    · intro a v' hm hd hb
      rcases List.mem_cons.1 hm with e | hm
      · simp only [Prod.mk.injEq] at e; exact absurd e.1 hd
      · exact h5 a v' hm hd hb
  | @blank a v as t hbl _ ih =>
    obtain ⟨bs, h1, h2, h3, h4, h5⟩ := ih (fun e he => hw e (by simp [he]))
    refine ⟨bs, h1, h2, .cons _ h3, ?_, ?_⟩
    · intro b hb
      obtain ⟨a, v, w, k1, k2, k3⟩ := h4 b hb
      exact ⟨a, v, w, k1, by simp [k2], k3⟩
    · intro a' v' hm hd hb
      rcases List.mem_cons.1 hm with e | hm
      · simp only [Prod.mk.injEq] at e; exact absurd (e.2 ▸ hbl) hb
      · exact h5 a' v' hm hd hb
  | @shown a v w as t hd ht hne _ ih =>
    obtain ⟨bs, h1, h2, h3, h4, h5⟩ := ih (fun e he => hw e (by simp [he]))
    have hb : ¬ Blank v := fun hb => hne (by rw [trimsTo_iff.1 ht, trim_eq_nil.2 hb])
    obtain ⟨k1, k2, k3, -, k5⟩ := hw (a, v) (by simp) hd hb
    refine ⟨attrBlock a w :: bs, ?_, ?_, ?_, ?_, ?_⟩
    · rw [h1]
      simp [fill, attrBlock, Block.lines, splitLines_flatten]
    · intro b hb'
      rcases List.mem_cons.1 hb' with rfl | hb'
      · exact attrBlock_good k1 k2 k3 (k5 w ht)
      · exact h2 b hb'
    · exact .cons_cons _ h3
    · intro b hb'
      rcases List.mem_cons.1 hb' with rfl | hb'
      · exact ⟨a, v, w, rfl, by simp, hd, hb, ht⟩
      · obtain ⟨a, v, w, k1, k2, k3⟩ := h4 b hb'
        exact ⟨a, v, w, k1, by simp [k2], k3⟩
    · intro a' v' hm hd' hb'
      rcases List.mem_cons.1 hm with e | hm
      · simp only [Prod.mk.injEq] at e
        obtain ⟨rfl, rfl⟩ := e
        exact ⟨w, ht, by simp⟩
      · obtain ⟨w', q1, q2⟩ := h5 a' v' hm hd' hb'
        exact ⟨w', q1, by simp [q2]⟩

/-- The lines of the description. -/
def descLines (r : Requirement) : List Str :=
  match r.attributes.get c!"Description" with
  | none => []
  | some d => ['\n'] :: ['\n'] :: splitLines (d ++ c!"\n")

theorem descLines_flatten (r : Requirement) : (descLines r).flatten = descriptionText r := by
  unfold descLines descriptionText
  cases r.attributes.get c!"Description" with
  | none => rfl
  | some d => simp [splitLines_flatten]

/-- The block with the place and the description. -/
def originBlock (r : Requirement) : Block :=
  .text (c!"Origin: " ++ placeLink r.location ++ c!"\n") c!"Origin" (placeLink r.location) (descLines r)

/-- The block of a list of references. -/
def refBlock (name : Str) (refs : List Reference) : List Block :=
  if refs = [] then [] else [.refs name (refs.map fun r => (r.id, r.title))]

def Blocks (r : Requirement) (bs : List Block) : Prop :=
  ∃ more, bs = originBlock r :: (refBlock c!"Covers" r.covers ++ refBlock c!"Depends" r.depends ++ more) ∧
    (bs.map Block.name).Nodup ∧
    (∀ b ∈ more, ∃ a v w, b = attrBlock a w ∧ r.attributes.get a = some v ∧ a ≠ c!"Description" ∧ a ≠ c!"Origin" ∧
      a ≠ c!"Covers" ∧ a ≠ c!"Depends" ∧ ¬ Blank v ∧ TrimsTo v w) ∧
    ∀ a v, r.attributes.get a = some v → a ≠ c!"Description" → ¬ Blank v → ∃ w, TrimsTo v w ∧ attrBlock a w ∈ more

/-- The heading. -/
def headingLine (r : Requirement) : Str := c!"### " ++ r.id ++ c!": " ++ r.title.getD [] ++ c!"\n"

theorem placeLink_first (loc : Location) : ∃ t, placeLink loc = '[' :: t := by
  unfold placeLink
  rcases loc with ⟨file, _ | _ | _ | _⟩ <;> exact ⟨_, rfl⟩

theorem refBlock_flatten (name : Str) (refs : List Reference) :
    (fill (refBlock name refs) []).flatten = referencesText name refs := by
  unfold refBlock referencesText
  by_cases h : refs = []
  · simp [h, fill]
  · rw [if_neg h, if_neg h]
    simp only [fill, Block.lines, List.flatMap_cons, List.flatMap_nil, List.append_nil, List.flatten_cons, List.map_map]
    rw [List.flatMap_def]
    have : (writeRef ∘ fun r : Reference => (r.id, r.title)) = referenceText := by
      funext r
      simp only [Function.comp, writeRef, referenceText]
      cases r.title <;> simp
    rw [this]
    simp

theorem fill_append (bs cs : List Block) : fill (bs ++ cs) [] = fill bs [] ++ fill cs [] := by simp [fill]

theorem fill_tail (bs : List Block) (tail : List Str) : fill bs tail = fill bs [] ++ tail := by simp [fill]

theorem originBlock_good {U : Unicode} {r : Requirement} (h : Writable U r) : (originBlock r).Good U := by
  obtain ⟨t, ht⟩ := placeLink_first r.location
  have hloc := h.location
  refine ⟨⟨'O', c!"rigin", ' ' :: placeLink r.location, ['\n'], rfl, by decide, by decide, by decide, by simp, ?_, .inr rfl,
    ⟨c!" ", rfl, blank_space⟩, ?_⟩, ⟨c!"Origin: " ++ placeLink r.location, by simp, ?_⟩, by decide, by decide, ?_⟩
  · simp [hloc]
  · intro d u e
    rw [ht] at e
    cases e
    decide
  · simp [hloc]
  · intro m hm
    unfold descLines at hm
    cases hd : r.attributes.get c!"Description" with
    | none => rw [hd] at hm; cases hm
    | some d =>
      rw [hd] at hm
      have hnl : Whole ['\n'] ∧ (['\n'] : Str).head? ≠ some '#' ∧ ∀ a v, ¬ AttrLine ['\n'] a v :=
        ⟨whole_nl, by decide, fun a v hav => (attrLine_head hav).2 rfl⟩
      rcases List.mem_cons.1 hm with rfl | hm
      · exact hnl
      · rcases List.mem_cons.1 hm with rfl | hm
        · exact hnl
        · exact plain_lines (h.description d hd) m hm

theorem refBlock_good {U : Unicode} {name : Str} {refs : List Reference} (hn : name = c!"Covers" ∨ name = c!"Depends")
    (h : ∀ ref ∈ refs, PlainReference U ref) : ∀ b ∈ refBlock name refs, b.Good U := by
  intro b hb
  unfold refBlock at hb
  by_cases h' : refs = []
  · simp [h'] at hb
  · rw [if_neg h'] at hb
    simp only [List.mem_singleton] at hb
    subst hb
    refine ⟨hn, ?_⟩
    intro r hr
    obtain ⟨ref, h1, rfl⟩ := List.mem_map.1 hr
    exact h ref h1

theorem refBlock_names {name : Str} {refs : List Reference} : ∀ x ∈ (refBlock name refs).map Block.name, x = name := by
  unfold refBlock
  by_cases h' : refs = []
  · simp [h']
  · simp [h', Block.name]

theorem refBlock_nodup {name : Str} {refs : List Reference} : ((refBlock name refs).map Block.name).Nodup := by
  unfold refBlock
  by_cases h' : refs = []
  · simp [h']
  · simp [h']

theorem entry_blocks {U : Unicode} {r : Requirement} {text : Str} (h : Writable U r) (he : RequirementEntry r text) :
    ∃ bs, Blocks r bs ∧ (∀ b ∈ bs, b.Good U) ∧ text = '\n' :: (headingLine r :: fill bs []).flatten := by
  obtain ⟨attrs, h1, rfl⟩ := he
  obtain ⟨more, k1, k2, k3, k4, k5⟩ := attrBlocks (U := U) h1 (fun e he hd hb =>
    h.attributes e.1 e.2 ((BMap.get_eq_some_iff _ _ _).2 he) hd hb)
  have hkeys : (more.map Block.name).Nodup := List.Nodup.sublist k3 (BMap.keys_nodup r.attributes)
  have hmore : ∀ b ∈ more, ∃ a v w, b = attrBlock a w ∧ r.attributes.get a = some v ∧ a ≠ c!"Description" ∧
      a ≠ c!"Origin" ∧ a ≠ c!"Covers" ∧ a ≠ c!"Depends" ∧ ¬ Blank v ∧ TrimsTo v w := by
    intro b hb
    obtain ⟨a, v, w, q1, q2, q3, q4, q5⟩ := k4 b hb
    have hg := (BMap.get_eq_some_iff _ _ _).2 q2
    obtain ⟨-, p1, p2, p3, -⟩ := h.attributes a v hg q3 q4
    exact ⟨a, v, w, q1, hg, q3, p3, p1, p2, q4, q5⟩
  have hnames : ∀ x ∈ more.map Block.name, x ≠ c!"Origin" ∧ x ≠ c!"Covers" ∧ x ≠ c!"Depends" := by
    intro x hx
    obtain ⟨b, hb, rfl⟩ := List.mem_map.1 hx
    obtain ⟨a, v, w, rfl, -, -, p1, p2, p3, -⟩ := hmore b hb
    exact ⟨p1, p2, p3⟩
  refine ⟨_, ⟨more, rfl, ?_, hmore, ?_⟩, ?_, ?_⟩
  · simp only [List.map_cons, List.map_append, List.nodup_cons, List.nodup_append, List.mem_append, not_or]
    refine ⟨⟨⟨?_, ?_⟩, ?_⟩, ⟨⟨refBlock_nodup, refBlock_nodup, ?_⟩, hkeys, ?_⟩⟩
    · intro hm; have := refBlock_names _ hm; simp [Block.name, originBlock] at this
    · intro hm; have := refBlock_names _ hm; simp [Block.name, originBlock] at this
    · intro hm; exact (hnames _ hm).1 rfl
    · intro a ha b hb
      rw [refBlock_names _ ha, refBlock_names _ hb]; decide
    · rintro a (ha | ha) b hb rfl
      · rw [refBlock_names _ ha] at hb; exact (hnames _ hb).2.1 rfl
      · rw [refBlock_names _ ha] at hb; exact (hnames _ hb).2.2 rfl
  · intro a v hg hd hb
    exact k5 a v ((BMap.get_eq_some_iff _ _ _).1 hg) hd hb
  · intro b hb
    simp only [List.mem_cons, List.mem_append] at hb
    rcases hb with rfl | (hb | hb) | hb
    · exact originBlock_good h
    · exact refBlock_good (.inl rfl) h.covers b hb
    · exact refBlock_good (.inr rfl) h.depends b hb
    · exact k2 b hb
  · have e : fill (originBlock r :: (refBlock c!"Covers" r.covers ++ refBlock c!"Depends" r.depends ++ more)) [] =
      ['\n'] :: (c!"Origin: " ++ placeLink r.location ++ c!"\n") :: (descLines r ++ (fill (refBlock c!"Covers" r.covers) [] ++
        fill (refBlock c!"Depends" r.depends) [] ++ fill more [])) := by
      simp [fill, originBlock, Block.lines]
    rw [e, k1, ← refBlock_flatten, ← refBlock_flatten, ← descLines_flatten]
    simp [headingLine]

/-! ## Sections -/

/-- The section that is read where the requirement was written. -/
def SectionOf (r : Requirement) (s : Section) : Prop :=
  s.cut = .no ∧ s.id = r.id ∧ s.title = r.title.getD [] ∧ ∃ bs, Blocks r bs ∧ Pairs Fits bs s.attrs

theorem heading {U : Unicode} {r : Requirement} (h : Writable U r) :
    ReqHeading U (headingLine r) 3 r.id (r.title.getD []) := by
  cases ht : r.title with
  | none =>
    refine ⟨by decide, h.id, c!" ", c!" ", ['\n'], ?_, blank_space, by simp, by simp, .inr rfl, ?_⟩
    · simp [headingLine, ht]
    · exact ⟨c!" ", [], rfl, blank_space, by simp [Blank], by simp, by simp⟩
  | some t =>
    have := heading_line (level := 3) (by decide) h.id (h.title t ht)
    simpa [headingLine, ht] using this

theorem heading_whole {U : Unicode} {r : Requirement} (h : Writable U r) : Whole (headingLine r) := by
  refine ⟨c!"### " ++ r.id ++ c!": " ++ r.title.getD [], by simp [headingLine], ?_⟩
  have hn : '\n' ∉ r.id := fun hm => by
    have := h.id.no_ws _ hm
    revert this; decide
  cases ht : r.title with
  | none => simp [hn]
  | some t => simp [hn, (h.title t ht).2.1]

theorem body_of {U : Unicode} {path : Path} {r : Requirement} {bs : List Block} (hb : Blocks r bs)
    (hg : ∀ b ∈ bs, b.Good U) {tail : List Str} (ht : tail = [] ∨ tail = [['\n']]) (n : Nat) :
    ∃ as, Body U path n (fill bs tail) as .no ∧ Pairs Fits bs as := by
  rcases fill_attrs (path := path) tail ht bs hg n with ⟨-, rfl⟩ | ⟨ls, as, e, h1, h2, h3⟩
  · obtain ⟨more, e, -⟩ := hb
    cases e
  · exact ⟨as, e ▸ .skip (.attrs h1 h2), h3⟩

theorem sections_of {U : Unicode} {path : Path} {entry : Requirement → Str} (he : ∀ r, RequirementEntry r (entry r))
    (reqs : List Requirement) (hw : ∀ r ∈ reqs, Writable U r) : ∀ n, reqs = [] ∨ ∃ ls ss,
      reqs.flatMap entry = '\n' :: ls.flatten ∧ (∀ l ∈ ls, Whole l) ∧ Ends U ls ∧ Sections U path n ls ss ∧
      Pairs SectionOf reqs ss := by
  induction reqs with
  | nil => exact fun _ => .inl rfl
  | cons r reqs ih =>
    intro n
    have ih := ih (fun r hr => hw r (by simp [hr]))
    have hr := hw r (by simp)
    obtain ⟨bs, h1, h2, h3⟩ := entry_blocks hr (he r)
    refine .inr ?_
    have step : ∀ (tail rest : List Str) (ss : List Section), (tail = [] ∨ tail = [['\n']]) →
        reqs.flatMap entry = (tail ++ rest).flatten → (∀ l ∈ rest, Whole l) → Ends U rest →
        Sections U path (n + 1 + (fill bs tail).length) rest ss → Pairs SectionOf reqs ss →
        ∃ ls ss, (r :: reqs).flatMap entry = '\n' :: ls.flatten ∧ (∀ l ∈ ls, Whole l) ∧ Ends U ls ∧
          Sections U path n ls ss ∧ Pairs SectionOf (r :: reqs) ss := by
      intro tail rest ss ht e k1 k2 k3 k4
      obtain ⟨as, b1, b2⟩ := body_of (path := path) h1 h2 ht (n + 1)
      refine ⟨headingLine r :: (fill bs tail ++ rest), ⟨n, r.id, r.title.getD [], as, .no⟩ :: ss, ?_, ?_,
        .inr ⟨_, _, _, _, _, rfl, heading hr⟩, ?_, .cons ⟨rfl, rfl, rfl, bs, h1, b2⟩ k4⟩
      · rw [List.flatMap_cons, e, h3, fill_tail bs tail]
        simp
      · intro l hl
        rcases List.mem_cons.1 hl with rfl | hl
        · exact heading_whole hr
        · rcases List.mem_append.1 hl with hl | hl
          · exact (fill_lines h2 ht l hl).1
          · exact k1 l hl
      · exact .cons (heading hr) (fun l hl => (fill_lines h2 ht l hl).2) k2 b1 k3
    rcases ih (n + 1 + (fill bs [['\n']]).length) with rfl | ⟨ls, ss, k1, k2, k3, k4, k5⟩
    · exact step [] [] [] (.inl rfl) rfl (by simp) (.inl rfl) (.nil _) .nil
    · exact step [['\n']] ls ss (.inr rfl) (by rw [k1]; rfl) k2 k3 k4 k5

theorem kept_all {ss : List Section} (h : ∀ s ∈ ss, s.cut = .no) : kept none ss = ss := by
  induction ss with
  | nil => rfl
  | cons s ss ih =>
    cases ss with
    | nil => simp [kept, h s (by simp)]
    | cons t ss => rw [kept, ih (fun s hs => h s (by simp [hs]))]

theorem section_errors {path : Path} {r : Requirement} {s : Section} (h : SectionOf r s) : s.errors path = [] := by
  obtain ⟨h1, -, -, bs, ⟨more, -, h2, -⟩, h3⟩ := h
  unfold Section.errors
  rw [h1, repeated_nodup]
  · rfl
  · simpa [pairs_names h3] using h2

theorem refs_of {r : Requirement} {bs : List Block} {as : List Attr} (hn : (bs.map Block.name).Nodup) (hp : Pairs Fits bs as)
    {name : Str} {refs : List Reference} (h1 : ∀ b ∈ refBlock name refs, b ∈ bs)
    (h2 : refs = [] → name ∉ bs.map Block.name) :
    List.map (fun r => (r.id, r.title)) (match lastOf as name with
      | some (.refs rs) => rs
      | _ => []) = refs.map (fun r => (r.id, r.title)) := by
  by_cases he : refs = []
  · rw [lastOf_none (by rw [pairs_names hp]; exact h2 he), he]
  · have hm := h1 (.refs name (refs.map fun r => (r.id, r.title))) (by simp [refBlock, he])
    obtain ⟨x, hx, e1, rs, e2, e3⟩ := pairs_left hp _ hm
    have := lastOf_nodup (by rw [pairs_names hp]; exact hn) hx
    rw [e1, e2] at this
    simp only [Block.name] at this
    rw [this]
    exact e3

theorem readAgain {path : Path} {r r' : Requirement} {s : Section} (h : SectionOf r s) (hr : IsRequirement path s r') :
    ReadAgain r r' := by
  obtain ⟨-, h1, h2, bs, ⟨more, e, h3, h4, h5⟩, h6⟩ := h
  have hnd : (s.attrs.map (·.name)).Nodup := by rw [pairs_names h6]; exact h3
  have hmem : ∀ b ∈ bs, b = originBlock r ∨ b ∈ refBlock c!"Covers" r.covers ∨ b ∈ refBlock c!"Depends" r.depends ∨ b ∈ more := by
    intro b hb
    rw [e] at hb
    simpa [or_assoc] using hb
  have hmore : ∀ b ∈ more, b ∈ bs := fun b hb => by rw [e]; simp [hb]
  have htext : ∀ start name v ls, Block.text start name v ls ∈ bs →
      ∃ e, Blank e ∧ r'.attributes.get name = some (v ++ ls.flatten ++ e) := by
    intro start name v ls hb
    obtain ⟨x, hx, e1, b, hb, e2⟩ := pairs_left h6 _ hb
    have := lastOf_nodup hnd hx
    rw [e1, e2] at this
    simp only [Block.name] at this
    refine ⟨b, hb, ?_⟩
    rw [hr.attributes, this]
  have hmn : ∀ b ∈ more, b.name ≠ c!"Covers" ∧ b.name ≠ c!"Depends" := by
    intro b hb
    obtain ⟨a, v, w, rfl, -, -, -, p1, p2, -⟩ := h4 b hb
    exact ⟨p1, p2⟩
  refine ⟨hr.id.trans h1, by rw [hr.title, h2], ?_, ?_, ?_, ?_, ?_⟩
  · rw [hr.covers]
    refine refs_of (r := r) h3 h6 (fun b hb => by rw [e]; simp [hb]) ?_
    intro he hm
    obtain ⟨b, hb, hn⟩ := List.mem_map.1 hm
    rcases hmem b hb with rfl | hb | hb | hb
    · revert hn; simp [Block.name, originBlock]
    · rw [he] at hb; simp [refBlock] at hb
    · have := refBlock_names _ (List.mem_map.2 ⟨b, hb, rfl⟩)
      rw [hn] at this; revert this; decide
    · exact (hmn b hb).1 hn
  · rw [hr.depends]
    refine refs_of (r := r) h3 h6 (fun b hb => by rw [e]; simp [hb]) ?_
    intro he hm
    obtain ⟨b, hb, hn⟩ := List.mem_map.1 hm
    rcases hmem b hb with rfl | hb | hb | hb
    · revert hn; simp [Block.name, originBlock]
    · have := refBlock_names _ (List.mem_map.2 ⟨b, hb, rfl⟩)
      rw [hn] at this; revert this; decide
    · rw [he] at hb; simp [refBlock] at hb
    · exact (hmn b hb).2 hn
  · intro a v hd hg hb
    obtain ⟨w, k1, k2⟩ := h5 a v hg hd hb
    obtain ⟨b, k3, k4⟩ := htext _ _ _ _ (hmore _ k2)
    refine ⟨_, w, k4, k1, ?_⟩
    obtain ⟨-, -, -, -, -, q1, q2⟩ := k1
    refine ⟨[], ['\n'] ++ b, by simp [splitLines_flatten], by simp [Blank], ?_, q1, q2⟩
    intro c hc
    rcases List.mem_append.1 hc with hc | hc
    · exact blank_nl c hc
    · exact k3 c hc
  · intro a v' hg
    rw [hr.attributes] at hg
    cases hl : lastOf s.attrs a with
    | none => rw [hl] at hg; cases hg
    | some val =>
      cases val with
      | refs rs => rw [hl] at hg; cases hg
      | text t =>
        obtain ⟨x, hx, e1, e2⟩ := lastOf_mem hl
        obtain ⟨b, hb, f1, f2⟩ := pairs_right h6 x hx
        rcases hmem b hb with rfl | hb | hb | hb
        · left; rw [← e1, f1]; rfl
        · exfalso
          unfold refBlock at hb
          split at hb
          · cases hb
          · simp only [List.mem_singleton] at hb
            subst hb
            obtain ⟨_, f2, -⟩ := f2
            rw [e2] at f2; cases f2
        · exfalso
          unfold refBlock at hb
          split at hb
          · cases hb
          · simp only [List.mem_singleton] at hb
            subst hb
            obtain ⟨_, f2, -⟩ := f2
            rw [e2] at f2; cases f2
        · obtain ⟨a', v, w, rfl, k1, k2, -, -, -, k3, -⟩ := h4 b hb
          have : a = a' := by rw [← e1, f1]; rfl
          subst this
          exact .inr ⟨k2, v, k1, k3⟩
  · obtain ⟨b, k1, k2⟩ := htext _ _ _ _ (show originBlock r ∈ bs by rw [e]; simp)
    rw [descLines_flatten] at k2
    exact ⟨b, k1, k2⟩

end Reimport

open Reimport Out

/-- **C106** The list of requirements, written as Markdown, can be read as a Markdown artefact: without errors, the same
requirements in the order of the list, with the same references, and with the same attributes except the description. -/
theorem C106_reimport_partial (env : FmtEnv) (U : Unicode) (path : Path) (g : Graph) (reqs : List Requirement)
    (hs : SortedBy Requirement.id (requirementsOf g.artefacts) reqs) (he : errorsOf g.artefacts = [])
    (hw : ∀ r ∈ reqs, Writable U r) :
    ∃ text rs, Fmt.requirements env g .markdown = put text ∧ Md.parse U ⟨text, none⟩ path = .ok (rs, []) ∧
      Pairs ReadAgain reqs rs := by
  have hin : ∀ link, inputErrorsText link g = [] := by
    intro link
    have : g.artefacts.entries.filter (fun e => e.2.errors ≠ []) = [] := by
      rw [List.filter_eq_nil_iff]
      intro e hm
      have := (List.flatMap_eq_nil_iff.1 he) e hm
      simp [this]
    unfold inputErrorsText
    rw [this]
    rfl
  have hlist : Fmt.requirements env g .markdown = put (reqs.flatMap MdOut.requirement) :=
    (C85_list env g _).2 ⟨MdOut.requirementLink env, MdOut.requirement, reqs, links_iff.2 rfl, entry_iff.2 rfl, hs,
      by rw [hin]; rfl⟩
  refine ⟨reqs.flatMap MdOut.requirement, ?_⟩
  suffices h : ∃ rs, Md.parse U ⟨reqs.flatMap MdOut.requirement, none⟩ path = .ok (rs, []) ∧ Pairs ReadAgain reqs rs by
    obtain ⟨rs, h1, h2⟩ := h
    exact ⟨rs, hlist, h1, h2⟩
  have hdoc : ∃ ls ss, Lines (reqs.flatMap MdOut.requirement) ls ∧ WholeLines (reqs.flatMap MdOut.requirement) ∧
      Document U path ls ss ∧ Pairs SectionOf reqs ss := by
    rcases sections_of (U := U) (path := path) (entry_iff.2 rfl) reqs hw 2 with rfl | ⟨ls, ss, h1, h2, h3, h4, h5⟩
    · exact ⟨[], [], .nil, .inl rfl, ⟨[], [], rfl, by simp, .inl rfl, .nil _⟩, .nil⟩
    · have hwh : ∀ l ∈ (['\n'] :: ls), Whole l := by
        intro l hl
        rcases List.mem_cons.1 hl with rfl | hl
        · exact whole_nl
        · exact h2 l hl
      have e : reqs.flatMap MdOut.requirement = (['\n'] :: ls).flatten := by rw [h1]; rfl
      refine ⟨['\n'] :: ls, ss, ?_, ?_, ⟨[['\n']], ls, rfl, ?_, h3, h4⟩, h5⟩
      · rw [e]; exact lines_flatten _ hwh
      · rw [e]; exact wholeLines_flatten _ hwh
      · intro l hl
        simp only [List.mem_singleton] at hl
        subst hl
        exact noHeading_head (by decide)
  obtain ⟨ls, ss, h1, h2, h3, h4⟩ := hdoc
  obtain ⟨rs, k1, k2⟩ := C76_complete U ⟨reqs.flatMap MdOut.requirement, none⟩ path ls ss (not_tail_of_whole h2) h1 h3
  have hcut : ∀ s ∈ ss, s.cut = .no ∧ s.errors path = [] := by
    intro s hs
    obtain ⟨r, -, h⟩ := pairs_right h4 s hs
    exact ⟨h.1, section_errors h⟩
  have herr : documentErrors path none ss = [] := by
    unfold documentErrors
    rw [List.append_nil, List.flatMap_eq_nil_iff]
    exact fun s hs => (hcut s hs).2
  rw [herr] at k1
  rw [kept_all (fun s hs => (hcut s hs).1)] at k2
  refine ⟨rs, k1, ?_⟩
  clear k1 herr hcut h3 h1 h2 hlist hw hs
  induction h4 generalizing rs with
  | nil => cases k2; exact .nil
  | cons h _ ih =>
    cases k2 with
    | cons q1 q2 => exact .cons (readAgain h q1) (ih _ q2)

/-- **C106** So an artefact of a second project, whose path denotes the file that a Parse job of a first project has
written, has the requirements of the first project. -/
theorem C106_projects_partial {env : Env} {w0 w w1 : World} {config : Config} {base base2 : Path} {c : Controller} {job : Job}
    {s : JobSuccess} {ac : ArtefactConfig} {p : Str} {reqs : List Requirement}
    (hc : Controller.new env w0 config base = .ok c) (hrun : c.run env w job = (.ok s, w1))
    (hq : job.query = .parse) (hm : job.format = .markdown) (hf : job.file ≠ c!"-")
    (hs : SortedBy Requirement.id (requirementsOf c.graph.artefacts) reqs) (he : errorsOf c.graph.artefacts = [])
    (hw : ∀ r ∈ reqs, Writable env.U r)
    (hp : ac.parser = .markdown) (hpath : ac.paths = [p])
    (hsame : env.os.resolve (target base2 p) = env.os.resolve (target base job.file))
    (ho : env.os.openErr w1 (target base2 p) = none) (hr : env.os.readErr w1 (target base2 p) = none) :
    ∃ rs, ArtefactMeans env w1 ac base2 [target base2 p] rs [] ∧ Pairs ReadAgain reqs rs := by
  obtain ⟨text, rs, h1, h2, h3⟩ := C106_reimport_partial env.fmt env.U (target base2 p) c.graph reqs hs he hw
  refine ⟨rs, .files (.inr ⟨by rw [hp]; simp, p, hpath, rfl⟩) ?_, h3⟩
  have hb : c.baseDir = base := by obtain ⟨_, _, _, _, _, h, _⟩ := new_ok hc; exact h
  have hfile : w1.files (env.os.resolve (target base2 p)) = some (Utf8.encode text) := by
    have := (C66_content hrun).2 hf
    rw [hb, ← hsame] at this
    rw [this]
    unfold outputOf
    rw [if_neg (by rw [hq]; simp), hm, h1]
    rfl
  have hopen : env.os.openFile w1 (target base2 p) = .ok ⟨Utf8.encode text, none⟩ := by
    unfold Os.openFile
    rw [ho, hfile, hr]
  have hpm : PathMeans env w1 ac.parser (target base2 p) rs [] := by
    rw [hp]
    refine .opened hopen ((C81_file ..).1 ?_)
    simp only [fileResult]
    have : (File.lines ⟨Utf8.encode text, none⟩) = ⟨text, none⟩ := File.lines_encode text
    rw [this]
    exact h2
  have := PathsMean.cons hpm .nil
  simpa using this

/-- The full statement: also the description is what it was. -/
def C106_statement : Prop :=
  ∀ (env : FmtEnv) (U : Unicode) (path : Path) (g : Graph) (reqs : List Requirement),
    SortedBy Requirement.id (requirementsOf g.artefacts) reqs → errorsOf g.artefacts = [] → (∀ r ∈ reqs, Writable U r) →
    ∃ text rs, Fmt.requirements env g .markdown = put text ∧ Md.parse U ⟨text, none⟩ path = .ok (rs, []) ∧
      Pairs (fun old new => ReadAgain old new ∧ ∀ d, old.attributes.get c!"Description" = some d → ¬ Blank d →
        ∃ d' w, new.attributes.get c!"Description" = some d' ∧ TrimsTo d w ∧ TrimsTo d' w) reqs rs

namespace ReimportExample

def ref (id : Str) (title : Option Str) : Reference := ⟨id, title, ⟨c!"b.md", some (.line 4)⟩⟩

def reqA : Requirement where
  id := c!"REQ_A"
  location := ⟨c!"a.md", some (.line 3)⟩
  title := some c!"Make tea"
  covers := [ref c!"TOP" none, ref c!"TOP_B" (some c!"The: top")]
  depends := [ref c!"REQ_B" none]
  tags := []
  attributes := (BMap.empty.insert c!"Comment" c!"Strong,\nno sugar\n\n").insert c!"Description" c!"The tea\n\nis hot.\n"

def reqB : Requirement where
  id := c!"REQ_B"
  location := ⟨c!"b.rs", some (.lineAndColumn 7 2)⟩
  title := none
  covers := []
  depends := []
  tags := []
  attributes := BMap.empty.insert c!"Note" c!"  "

def graph : Graph where
  artefacts := BMap.empty.insert c!"A"
    ⟨c!"A", [], false, false, (BMap.empty.insert c!"REQ_B" reqB).insert c!"REQ_A" reqA, []⟩
  relations := []

theorem plain_of {s : Str} (h : ∀ l ∈ splitLines s, l.head? ≠ some '#' ∧ attrParts l = none) : PlainText s := by
  intro ls hl l hm
  rw [lines_iff.1 hl] at hm
  refine ⟨(h l hm).1, fun a v hav => ?_⟩
  have := (attrParts_iff ((splitLines_spec s).2.1 l hm).1).2 hav
  rw [(h l hm).2] at this
  cases this

theorem ident_of {id : Str} (h : identSplit .ascii id = some (id, [])) : IsIdent .ascii id := (identSplit_iff.1 h).1

theorem oneLine_of {s : Str} (h : s ≠ [] ∧ '\n' ∉ s ∧ (s.head?.map isWs = some false) ∧ (s.getLast?.map isWs = some false)) :
    OneLine s := by
  obtain ⟨h1, h2, h3, h4⟩ := h
  refine ⟨h1, h2, ?_, ?_⟩
  · rintro c u rfl; simpa using h3
  · rintro c u rfl; simpa using h4

theorem writableA : Writable .ascii reqA where
  id := ident_of (by decide +kernel)
  title := by intro t e; cases e; exact oneLine_of (by decide +kernel)
  location := by decide +kernel
  covers := by
    intro r hr
    simp only [reqA, List.mem_cons, List.not_mem_nil, or_false] at hr
    rcases hr with rfl | rfl
    · exact ⟨ident_of (by decide +kernel), by intro t e; cases e⟩
    · exact ⟨ident_of (by decide +kernel), by intro t e; cases e; exact oneLine_of (by decide +kernel)⟩
  depends := by
    intro r hr
    simp only [reqA, List.mem_cons, List.not_mem_nil, or_false] at hr
    subst hr
    exact ⟨ident_of (by decide +kernel), by intro t e; cases e⟩
  description := by
    intro d e
    have : reqA.attributes.get c!"Description" = some c!"The tea\n\nis hot.\n" := by decide +kernel
    rw [this] at e
    cases e
    exact plain_of (by decide +kernel)
  attributes := by
    intro a v hg hd _
    have hm := (BMap.get_eq_some_iff _ _ _).1 hg
    have : reqA.attributes.entries = [(c!"Comment", c!"Strong,\nno sugar\n\n"), (c!"Description", c!"The tea\n\nis hot.\n")] := by
      decide +kernel
    rw [this] at hm
    simp only [List.mem_cons, Prod.mk.injEq, List.not_mem_nil, or_false] at hm
    rcases hm with ⟨rfl, rfl⟩ | ⟨rfl, rfl⟩
    · refine ⟨⟨'C', c!"omment", rfl, by decide, by simp, by decide⟩, by decide, by decide, by decide, ?_⟩
      intro w hw
      rw [trimsTo_iff.1 hw]
      exact plain_of (by decide +kernel)
    · exact absurd rfl hd

theorem writableB : Writable .ascii reqB where
  id := ident_of (by decide +kernel)
  title := by intro t e; cases e
  location := by decide +kernel
  covers := by intro r hr; cases hr
  depends := by intro r hr; cases hr
  description := by
    intro d e
    have : reqB.attributes.get c!"Description" = none := by decide +kernel
    rw [this] at e
    cases e
  attributes := by
    intro a v hg _ hb
    have hm := (BMap.get_eq_some_iff _ _ _).1 hg
    have : reqB.attributes.entries = [(c!"Note", c!"  ")] := by decide +kernel
    rw [this] at hm
    simp only [List.mem_cons, Prod.mk.injEq, List.not_mem_nil, or_false] at hm
    exact absurd (by intro c hc; rw [hm.2] at hc; simp at hc; subst hc; decide) hb

theorem sorted : SortedBy Requirement.id (requirementsOf graph.artefacts) [reqA, reqB] :=
  sortedBy_iff.2 (by decide +kernel)

theorem writable : ∀ r ∈ [reqA, reqB], Writable .ascii r := by
  intro r hr
  simp only [List.mem_cons, List.not_mem_nil, or_false] at hr
  rcases hr with rfl | rfl
  · exact writableA
  · exact writableB

end ReimportExample

open ReimportExample in
/-- **C106** is not true as stated: the description has become part of the attribute `Origin`. -/
theorem C106_false (env : FmtEnv) : ¬ C106_statement := by
  intro h
  obtain ⟨text, rs, -, -, hp⟩ := h env .ascii c!"list.md" graph [reqA, reqB] sorted (by decide +kernel) writable
  cases hp with
  | cons h _ =>
    obtain ⟨h1, h2⟩ := h
    obtain ⟨d', w, h3, -⟩ := h2 c!"The tea\n\nis hot.\n" (by decide +kernel)
      (fun hb => by have := hb 'T' (by simp); revert this; decide)
    rcases h1.others _ _ h3 with h4 | ⟨h4, -⟩
    · revert h4; decide
    · exact h4 rfl

open ReimportExample in
/-- The hypotheses of `C106_reimport_partial` hold for two requirements; this is what is read. -/
example (env : FmtEnv) : ∃ text rs, Fmt.requirements env graph .markdown = put text ∧
    Md.parse .ascii ⟨text, none⟩ c!"list.md" = .ok (rs, []) ∧ Pairs ReadAgain [reqA, reqB] rs :=
  C106_reimport_partial env .ascii c!"list.md" graph [reqA, reqB] sorted (by decide +kernel) writable

open ReimportExample in
set_option maxRecDepth 100000 in
example : (match Md.parse .ascii ⟨[reqA, reqB].flatMap MdOut.requirement, none⟩ c!"list.md" with
      | .ok (rs, []) => rs.map (fun r => r.attributes.entries)
      | _ => []) =
      [[(c!"Comment", c!"Strong,\nno sugar\n\n"), (c!"Origin", c!"[a.md:3](../a.md?plain=1#L3)\n\nThe tea\n\nis hot.\n\n\n")],
       [(c!"Origin", c!"[b.rs:7:2](../b.rs?plain=1#L7)")]] := by
  decide +kernel

end Reqtrace
