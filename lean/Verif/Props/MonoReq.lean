import Verif.Lemmas.MonoReq

/-!
# Properties of the mono-requirement parser: C42, C60, C61, C62
-/

namespace Reqtrace

open Spec MonoReq

/-- C42: a readable file gives one requirement: the file stem as id, the first line as title, the arrows
of the later lines as `depends`, and no error. -/
theorem C42_one_requirement (U : Unicode) (text : Str) (path : Path) (name stem : Str) (ls : List Str)
    (refs : List Reference) (hname : FileName path name) (hstem : Stem name stem)
    (hl : TextLines text ls) (hr : Arrows U path 2 ls.tail refs) :
    MonoReq.parse U ⟨text, none⟩ path = .ok
      ([⟨stem, ls.head?, ⟨path, none⟩, [], refs, [], .empty⟩], []) := by
  have hno := textLines_no_nl hl
  have hid : idOf path = (stem, []) := by
    unfold idOf
    rw [stem_iff.2 ⟨name, hname, hstem⟩]
  have h1 := loop_eq U path ls hno
  rw [← (arrows_iff (fun l h => hno l (List.mem_of_mem_tail h))).1 hr, textLines_iff.1 hl] at h1
  unfold MonoReq.parse
  simp only [h1, hid, textLines_iff.1 hl]
  rfl

/-- A path without file name: one requirement, too, with a `Config` error. -/
theorem C42_no_stem (U : Unicode) (text : Str) (path : Path) (ls : List Str)
    (refs : List Reference) (hname : ∀ name, ¬ FileName path name)
    (hl : TextLines text ls) (hr : Arrows U path 2 ls.tail refs) :
    MonoReq.parse U ⟨text, none⟩ path = .ok
      ([⟨c!"README", ls.head?, ⟨path, none⟩, [], refs, [], .empty⟩],
        [.config (c!"file for 'MonoReq' parser `" ++ path ++ c!" has no stem")]) := by
  have hno := textLines_no_nl hl
  have hid : idOf path = (c!"README", [.config (c!"file for 'MonoReq' parser `" ++ path ++ c!" has no stem")]) := by
    unfold idOf
    cases hq : fileStem path with
    | none => rfl
    | some s =>
      obtain ⟨n, h, -⟩ := stem_iff.1 hq
      exact absurd h (hname n)
  have h1 := loop_eq U path ls hno
  rw [← (arrows_iff (fun l h => hno l (List.mem_of_mem_tail h))).1 hr, textLines_iff.1 hl] at h1
  unfold MonoReq.parse
  simp only [h1, hid, textLines_iff.1 hl]
  rfl

/-- The description is exhaustive: every text has lines, the lines have their references, every path
with a file name has a stem. -/
theorem C42_determined (U : Unicode) (text : Str) (path : Path) :
    (∃ ls, TextLines text ls ∧ (∀ ls', TextLines text ls' → ls' = ls) ∧
      ∃ refs, Arrows U path 2 ls.tail refs ∧ ∀ refs', Arrows U path 2 ls.tail refs' → refs' = refs) ∧
    (∀ name, FileName path name → ∃ stem, Stem name stem) := by
  refine ⟨⟨bufLines text, textLines_iff.2 rfl, fun ls' h => textLines_iff.1 h,
    arrowRefs U path 2 (bufLines text).tail, ?_, ?_⟩, ?_⟩
  · refine (arrows_iff (fun l h => ?_)).2 rfl
    exact textLines_no_nl (textLines_iff.2 rfl) l (List.mem_of_mem_tail h)
  · intro refs' h
    refine (arrows_iff (fun l h => ?_)).1 h
    exact textLines_no_nl (textLines_iff.2 rfl) l (List.mem_of_mem_tail h)
  · intro name _
    by_cases h : '.' ∈ name.tail
    · cases hq : beforeLastDot name with
      | none => exact absurd (List.mem_of_mem_tail h) (beforeLastDot_none.1 hq)
      | some b =>
        obtain ⟨ext, h1, h2⟩ := beforeLastDot_iff.1 hq
        refine ⟨b, .inl ⟨ext, h1, ?_, h2⟩⟩
        rintro rfl
        rw [h1] at h
        exact h2 h
    · exact ⟨name, .inr ⟨rfl, h⟩⟩

/-- The test document of `monoreq.rs:103-108`, shortened. -/
example : MonoReq.parse .ascii
      ⟨c!"First Line\nsome text => REQ_1\nmore\r\nother =>REQ_2: title \n", none⟩ c!"path/to/Read.Me.md" = .ok
      ([⟨c!"Read.Me", some c!"First Line", ⟨c!"path/to/Read.Me.md", none⟩, [],
        [⟨c!"REQ_1", none, ⟨c!"path/to/Read.Me.md", some (.line 2)⟩⟩,
         ⟨c!"REQ_2", some c!"title", ⟨c!"path/to/Read.Me.md", some (.line 4)⟩⟩], [], .empty⟩], []) ∧
    FileName c!"path/to/Read.Me.md" c!"Read.Me.md" ∧ Stem c!"Read.Me.md" c!"Read.Me" :=
  ⟨by decide +kernel, fileName_iff.1 (by decide +kernel), .inl ⟨c!"md", rfl, by simp, by decide⟩⟩

/-! ## C60: the documented title -/

/-- C60 as listed. -/
def C60_statement : Prop := ∀ U text path ls t r es, TextLines text ls → DocTitle U.xidContinue ls t →
  MonoReq.parse U ⟨text, none⟩ path = .ok ([r], es) → r.title = t

/-- C60 is false: the first line is taken as it is. -/
theorem C60_false : ¬ C60_statement := by
  intro h
  have := h .ascii c!"# Title\n" c!"f" [c!"# Title"] (some c!"Title")
    ⟨c!"f", some c!"# Title", ⟨c!"f", none⟩, [], [], [], .empty⟩ []
    (textLines_iff.2 (by decide +kernel))
    (.inr ⟨c!"# ", c!"Title", [], rfl, rfl, by decide +kernel, by simp, ⟨'T', c!"itle", rfl, by decide +kernel⟩,
      ⟨'e', c!"Titl", rfl, by decide +kernel⟩⟩)
    (by decide +kernel)
  revert this
  decide +kernel

/-- C60, what holds: the title is the documented one if the first line starts and ends with a word
character. -/
theorem C60_plain_partial (U : Unicode) (text : Str) (path : Path) (l : Str) (ls : List Str)
    (t : Option Str) (r : Requirement) (es : List Error) (hl : TextLines text (l :: ls))
    (hfirst : ∃ c u, l = c :: u ∧ U.xidContinue c = true) (hlast : ∃ c u, l = u ++ [c] ∧ U.xidContinue c = true)
    (ht : DocTitle U.xidContinue (l :: ls) t)
    (hp : MonoReq.parse U ⟨text, none⟩ path = .ok ([r], es)) : r.title = t := by
  have hno := textLines_no_nl hl
  have h1 := loop_eq U path (l :: ls) hno
  rw [textLines_iff.1 hl] at h1
  unfold MonoReq.parse at hp
  simp only [h1] at hp
  rw [← textLines_iff.1 hl] at hp
  have hr : r.title = some l := by
    cases hp; rfl
  rw [hr]
  obtain ⟨c, u, hcu, hc⟩ := hfirst
  rcases ht with ⟨h, -⟩ | ⟨a, s, b, h2, rfl, ha, hb, -, -⟩
  · have := h c (by rw [hcu]; simp)
    rw [hc] at this; cases this
  · have ha' : a = [] := by
      cases a with
      | nil => rfl
      | cons x a =>
        rw [hcu] at h2
        simp at h2
        have := ha x (by simp)
        rw [← h2.1, hc] at this; cases this
    have hb' : b = [] := by
      obtain ⟨d, v, hdv, hd⟩ := hlast
      by_cases hb0 : b = []
      · exact hb0
      · rw [← List.dropLast_concat_getLast hb0, ← List.append_assoc, hdv] at h2
        obtain ⟨-, h3⟩ := List.append_inj' h2 rfl
        simp at h3
        have := hb (b.getLast hb0) (List.getLast_mem hb0)
        rw [← h3, hd] at this; cases this
    subst ha' hb'
    simp [h2]

/-- C60, exactly: the title is the documented one if there is no line, or if the first line starts and ends with a word
character, and in no other case. -/
theorem C60_exact_partial (U : Unicode) (text : Str) (path : Path) (ls : List Str) (t : Option Str) (r : Requirement)
    (es : List Error) (hl : TextLines text ls) (ht : DocTitle U.xidContinue ls t)
    (hp : MonoReq.parse U ⟨text, none⟩ path = .ok ([r], es)) :
    r.title = t ↔ ∀ l, ls.head? = some l →
      (∃ c u, l = c :: u ∧ U.xidContinue c = true) ∧ (∃ c u, l = u ++ [c] ∧ U.xidContinue c = true) := by
  have hr : r.title = ls.head? := by
    have hno := textLines_no_nl hl
    have h1 := loop_eq U path ls hno
    rw [textLines_iff.1 hl] at h1
    unfold MonoReq.parse at hp
    simp only [h1] at hp
    rw [← textLines_iff.1 hl] at hp
    cases hp; rfl
  have hdoc : ∀ ls t, DocTitle U.xidContinue ls (some t) →
      (∃ c u, t = c :: u ∧ U.xidContinue c = true) ∧ (∃ c u, t = u ++ [c] ∧ U.xidContinue c = true) := by
    intro ls
    induction ls with
    | nil => intro t h; cases h
    | cons l ls ih =>
      intro t h
      rcases h with ⟨-, h⟩ | ⟨a, s, b, -, h, -, -, h1, h2⟩
      · exact ih t h
      · cases h; exact ⟨h1, h2⟩
  constructor
  · intro e l hh
    rw [hr, hh] at e
    subst e
    exact hdoc ls l ht
  · intro h
    cases ls with
    | nil => rw [hr]; exact ht.symm
    | cons l ls =>
      obtain ⟨h1, h2⟩ := h l rfl
      exact C60_plain_partial U text path l ls t r es hl h1 h2 ht hp

/-- A file with its documented title, and one in which it would stand in the second line. -/
example : TextLines c!"Title: x\n" [c!"Title: x"] ∧ DocTitle Unicode.ascii.xidContinue [c!"Title: x"] (some c!"Title: x") ∧
    MonoReq.parse .ascii ⟨c!"Title: x\n", none⟩ c!"f" =
      .ok ([⟨c!"f", some c!"Title: x", ⟨c!"f", none⟩, [], [], [], .empty⟩], []) ∧
    DocTitle Unicode.ascii.xidContinue [[], c!"Title"] (some c!"Title") ∧
    MonoReq.parse .ascii ⟨c!"\nTitle\n", none⟩ c!"f" = .ok ([⟨c!"f", some [], ⟨c!"f", none⟩, [], [], [], .empty⟩], []) :=
  ⟨textLines_iff.2 (by decide +kernel),
    .inr ⟨[], c!"Title: x", [], rfl, rfl, by simp, by simp, ⟨'T', c!"itle: x", rfl, by decide +kernel⟩,
      ⟨'x', c!"Title: ", rfl, by decide +kernel⟩⟩, by decide +kernel,
    .inl ⟨by simp, .inr ⟨[], c!"Title", [], rfl, rfl, by simp, by simp, ⟨'T', c!"itle", rfl, by decide +kernel⟩,
      ⟨'e', c!"Titl", rfl, by decide +kernel⟩⟩⟩, by decide +kernel⟩

/-! ## C61: every arrow -/

/-- C61 as listed: an id right behind an arrow is referenced. -/
def C61_statement : Prop := ∀ U text path ls r es k a w id b, TextLines text ls →
  ls[k]? = some (a ++ c!"=>" ++ w ++ id ++ b) → Blank w → IsIdent U id →
  (∀ c u, b = c :: u → U.xidContinue c = false) →
  MonoReq.parse U ⟨text, none⟩ path = .ok ([r], es) →
  ∃ d ∈ r.depends, d.id = id ∧ d.location = ⟨path, some (.line (k + 1))⟩

/-- C61 is false: an arrow counts only at the end of its line. -/
theorem C61_false : ¬ C61_statement := by
  intro h
  have := h .ascii c!"T\nsee => AB and more!\n" c!"f" [c!"T", c!"see => AB and more!"]
    ⟨c!"f", some c!"T", ⟨c!"f", none⟩, [], [], [], .empty⟩ [] 1 c!"see " c!" " c!"AB" c!" and more!"
    (textLines_iff.2 (by decide +kernel)) rfl (by intro c hc; simp at hc; subst hc; decide)
    ⟨'A', ['B'], rfl, by simp, by decide +kernel, by decide +kernel⟩
    (by intro c u h; cases h; decide +kernel)
    (by decide +kernel)
  simp at this

/-- C61, what holds: the first arrow of a line other than the first, if its id ends the line or a colon
and a title follow. -/
theorem C61_line_end_partial (U : Unicode) (text : Str) (path : Path) (ls : List Str) (r : Requirement)
    (es : List Error) (k : Nat) (l id : Str) (title : Option Str) (hl : TextLines text ls)
    (hk : ls[k + 1]? = some l) (ha : ArrowLine U l id title)
    (hp : MonoReq.parse U ⟨text, none⟩ path = .ok ([r], es)) :
    ⟨id, title, ⟨path, some (.line (k + 2))⟩⟩ ∈ r.depends := by
  have hno := textLines_no_nl hl
  have h1 := loop_eq U path ls hno
  rw [textLines_iff.1 hl] at h1
  unfold MonoReq.parse at hp
  simp only [h1] at hp
  rw [← textLines_iff.1 hl] at hp
  have hr : r.depends = arrowRefs U path 2 ls.tail := by
    cases hp; rfl
  rw [hr]
  cases ls with
  | nil => cases hk
  | cons l0 ls =>
    simp only [List.getElem?_cons_succ] at hk
    have hno' : ∀ l ∈ ls, '\n' ∉ l := fun l h => hno l (by simp [h])
    have : ∀ (ls : List Str) (n k : Nat), (∀ l ∈ ls, '\n' ∉ l) → ls[k]? = some l →
        ⟨id, title, ⟨path, some (.line (k + n))⟩⟩ ∈ arrowRefs U path n ls := by
      intro ls
      induction ls with
      | nil => intro n k _ h; cases h
      | cons x ls ih =>
        intro n k hn h
        cases k with
        | zero =>
          simp at h; subst h
          rw [arrowRefs, (arrowParts_iff (hn _ (by simp))).2 ha]
          simp
        | succ k =>
          simp at h
          have := ih (n + 1) k (fun l h => hn l (by simp [h])) h
          rw [show k + (n + 1) = k + 1 + n by omega] at this
          rw [arrowRefs]
          split
          · exact List.mem_cons_of_mem _ this
          · exact this
    exact this ls 2 k hno' hk

example : ArrowLine .ascii c!"see => AB: Title" c!"AB" (some c!"Title") :=
  (arrowParts_iff (by decide)).1 (by decide +kernel)

theorem mem_arrowRefs (U : Unicode) (path : Path) (d : Reference) : ∀ (ls : List Str) (n : Nat), (∀ l ∈ ls, '\n' ∉ l) →
    (d ∈ arrowRefs U path n ls ↔
      ∃ k l, ls[k]? = some l ∧ ArrowLine U l d.id d.title ∧ d.location = ⟨path, some (.line (k + n))⟩) := by
  intro ls
  induction ls with
  | nil =>
    intro n _
    constructor
    · intro h; cases h
    · rintro ⟨k, l, h, -⟩; cases h
  | cons x ls ih =>
    intro n hn
    have hih := ih (n + 1) (fun l h => hn l (List.mem_cons_of_mem _ h))
    have hrest : d ∈ arrowRefs U path (n + 1) ls ↔ ∃ k l, (x :: ls)[k + 1]? = some l ∧ ArrowLine U l d.id d.title ∧
        d.location = ⟨path, some (.line (k + 1 + n))⟩ := by
      rw [hih]
      simp only [List.getElem?_cons_succ, Nat.add_assoc, Nat.add_comm 1 n]
    rw [arrowRefs]
    cases hp : arrowParts U x with
    | none =>
      simp only
      rw [hrest]
      constructor
      · rintro ⟨k, l, h⟩; exact ⟨k + 1, l, h⟩
      · rintro ⟨k, l, h1, h2, h3⟩
        cases k with
        | succ k => exact ⟨k, l, h1, h2, h3⟩
        | zero =>
          simp at h1; subst h1
          rw [(arrowParts_iff (hn _ List.mem_cons_self)).2 h2] at hp
          cases hp
    | some q =>
      simp only [List.mem_cons]
      rw [hrest]
      constructor
      · rintro (rfl | ⟨k, l, h⟩)
        · exact ⟨0, x, rfl, (arrowParts_iff (hn _ List.mem_cons_self)).1 hp, by simp⟩
        · exact ⟨k + 1, l, h⟩
      · rintro ⟨k, l, h1, h2, h3⟩
        cases k with
        | succ k => exact .inr ⟨k, l, h1, h2, h3⟩
        | zero =>
          simp at h1; subst h1
          rw [(arrowParts_iff (hn _ List.mem_cons_self)).2 h2] at hp
          cases hp
          left
          cases d
          simp at h3; subst h3
          rfl

/-- C61, exactly: the references are those of the lines other than the first that end in an arrow with an id, or with an
id and a title; of several such arrows in a line the leftmost. -/
theorem C61_exact_partial (U : Unicode) (text : Str) (path : Path) (ls : List Str) (r : Requirement)
    (es : List Error) (hl : TextLines text ls) (hp : MonoReq.parse U ⟨text, none⟩ path = .ok ([r], es)) (d : Reference) :
    d ∈ r.depends ↔ ∃ k l, ls[k + 1]? = some l ∧ ArrowLine U l d.id d.title ∧
      d.location = ⟨path, some (.line (k + 2))⟩ := by
  have hno := textLines_no_nl hl
  have h1 := loop_eq U path ls hno
  rw [textLines_iff.1 hl] at h1
  unfold MonoReq.parse at hp
  simp only [h1] at hp
  rw [← textLines_iff.1 hl] at hp
  have hr : r.depends = arrowRefs U path 2 ls.tail := by
    cases hp; rfl
  rw [hr, mem_arrowRefs U path d ls.tail 2 (fun l h => hno l (List.mem_of_mem_tail h))]
  simp only [List.getElem?_tail]

/-- Three arrows: the one in the first line and the one in the middle of a line do not count. -/
example : MonoReq.parse .ascii ⟨c!"see => AA\nsee => BB and more\nsee => CC: Title\n", none⟩ c!"f" =
    .ok ([⟨c!"f", some c!"see => AA", ⟨c!"f", none⟩, [], [⟨c!"CC", some c!"Title", ⟨c!"f", some (.line 3)⟩⟩], [], .empty⟩], []) := by
  decide +kernel

/-! ## C62: read failures -/

/-- C62 as listed. -/
def C62_statement : Prop := ∀ U src path, ∃ rs es, MonoReq.parse U src path = .ok (rs, es)

/-- C62, what holds: the parser panics exactly if reading fails. -/
theorem C62_panics_iff_partial (U : Unicode) (src : Source) (path : Path) :
    (∃ p, MonoReq.parse U src path = .error p) ↔ src.failure ≠ none := by
  have h1 := loop_eq U path (bufLines src.text) (textLines_no_nl (textLines_iff.2 rfl))
  unfold MonoReq.parse
  simp only [h1]
  cases hf : src.failure with
  | none =>
    constructor
    · rintro ⟨p, hp⟩; cases hp
    · intro h; exact absurd rfl h
  | some e =>
    constructor
    · intro _ h; cases h
    · intro _; exact ⟨.monoRead, rfl⟩

/-- C62 is false. -/
theorem C62_false : ¬ C62_statement := by
  intro h
  obtain ⟨rs, es, hp⟩ := h .ascii ⟨c!"T\n", some c!"stream did not contain valid UTF-8"⟩ c!"f"
  obtain ⟨p, hp'⟩ := (C62_panics_iff_partial .ascii ⟨c!"T\n", some c!"stream did not contain valid UTF-8"⟩ c!"f").2
    (by simp)
  rw [hp'] at hp; cases hp

end Reqtrace
