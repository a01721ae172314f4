import Verif.Spec.Doc
import Verif.Props.Whole
import Verif.Props.Json
import Verif.Props.Trace2
import Verif.Props.Unicode

/-!
# C91 to C100: what the documents of the project say
-/

namespace Reqtrace

open Spec JsonRead

/-- Each requirement of the graph stands in a file. -/
theorem Spec.IsInput.file_of {env : Env} {w : World} {config : Config} {base : Path} {g : Graph} (h : IsInput env w config base g)
    {a : ArtefactId} {r : Requirement} (hd : Defines g a r) :
    ∃ ac, LastEntry config ac ∧ ac.id = a ∧ ∃ fs p file reqs errs, FilesOf env w ac base fs ∧ p ∈ fs ∧
      env.os.openFile w p = .ok file ∧ FileMeans env p file ac.parser reqs errs ∧ r ∈ reqs := by
  obtain ⟨art, h1, h2⟩ := hd
  obtain ⟨ac, h3, h4, reqs, errs, untitled, h5⟩ := (h.artefacts a art).1 h1
  rw [h5.requirements] at h2
  have hr := List.mem_of_find?_eq_some h2
  refine ⟨ac, h3, h4, ?_⟩
  have hm := h5.means
  generalize art.files = files at hm
  cases hm with
  | files hf hp =>
    refine ⟨files, ?_⟩
    suffices ∀ fs reqs errs, PathsMean env w ac.parser fs reqs errs → r ∈ reqs →
        ∃ p ∈ fs, ∃ file reqs errs, env.os.openFile w p = .ok file ∧ FileMeans env p file ac.parser reqs errs ∧ r ∈ reqs by
      obtain ⟨p, k1, file, reqs, errs, k2, k3, k4⟩ := this _ _ _ hp hr
      exact ⟨p, file, reqs, errs, hf, k1, k2, k3, k4⟩
    intro fs reqs errs hp hr
    induction hp with
    | nil => cases hr
    | cons h1 h2 ih =>
      rcases List.mem_append.1 hr with hr | hr
      · cases h1 with
        | closed => cases hr
        | opened k1 k2 => exact ⟨_, List.mem_cons_self, _, _, _, k1, k2, hr⟩
      · obtain ⟨p, k1, k2⟩ := ih hr
        exact ⟨p, List.mem_cons_of_mem _ k1, k2⟩
  | noPaths => cases hr
  | badPattern => cases hr
  | badMatch => cases hr
  | notOne => cases hr

/-! ## C91 -/

/-- **C91 as listed**: ids of requirements and references have the documented form. -/
def C91_statement : Prop := ∀ (env : Env) (w : World) (config : Config) (base : Path) (c : Controller),
  Controller.new env w config base = .ok c → ∀ a r, Defines c.graph a r → GoodIds env.U r

theorem areRequirements_mem {path : Path} {ss : List Section} {reqs : List Requirement} (h : AreRequirements path ss reqs)
    {r : Requirement} (hr : r ∈ reqs) : ∃ s ∈ ss, IsRequirement path s r := by
  induction h with
  | nil => cases hr
  | cons h1 _ ih =>
    rcases List.mem_cons.1 hr with rfl | hr
    · exact ⟨_, List.mem_cons_self, h1⟩
    · obtain ⟨s, k1, k2⟩ := ih hr
      exact ⟨s, List.mem_cons_of_mem _ k1, k2⟩

theorem kept_subset (failure : Option Str) (ss : List Section) : ∀ s ∈ kept failure ss, s ∈ ss := by
  induction ss with
  | nil => intro s hs; cases hs
  | cons x t ih =>
    intro s hs
    cases t with
    | nil =>
      cases failure <;> cases hc : x.cut <;> simp [kept, hc] at hs
      simp [hs]
    | cons y t =>
      simp only [kept, List.mem_cons] at hs ⊢
      rcases hs with rfl | hs
      · exact .inl rfl
      · exact .inr (by simpa using ih s hs)

theorem sections_ident {U : Unicode} {path : Path} {n : Nat} {ls : List Str} {ss : List Section}
    (h : Sections U path n ls ss) : ∀ s ∈ ss, IsIdent U s.id := by
  induction h with
  | nil => intro s hs; cases hs
  | cons h1 _ _ _ _ ih =>
    intro s hs
    rcases List.mem_cons.1 hs with rfl | hs
    · exact h1.2.1
    · exact ih s hs

theorem arrows_ident {U : Unicode} {path : Path} {n : Nat} {ls : List Str} {refs : List Reference}
    (h : Arrows U path n ls refs) : ∀ ref ∈ refs, IsIdent U ref.id := by
  induction h with
  | nil => intro s hs; cases hs
  | skip _ _ ih => exact ih
  | take h1 _ ih =>
    intro s hs
    rcases List.mem_cons.1 hs with rfl | hs
    · obtain ⟨_, _, _, h2, _⟩ := h1
      exact h2.1
    · exact ih s hs

/-- **C91** The ids of requirements in Markdown files and the references of mono-requirement files have the documented
form. -/
theorem C91_ids_partial {env : Env} {w : World} {config : Config} {base : Path} {c : Controller}
    (h : Controller.new env w config base = .ok c) {ac : ArtefactConfig} (hl : LastEntry config ac) {r : Requirement}
    (hd : Defines c.graph ac.id r) :
    (ac.parser = .markdown → IsIdent env.U r.id) ∧
    (ac.parser = .monoRequirement → ∀ ref ∈ r.covers ++ r.depends, IsIdent env.U ref.id) := by
  obtain ⟨ac', h1, h2, fs, p, file, reqs, errs, h3, h4, h5, h6, h7⟩ := (new_isInput h).file_of hd
  obtain rfl := lastEntry_unique h1 hl h2
  constructor
  · intro hp
    rw [hp] at h6
    cases h6 with
    | markdown k1 k2 k3 k4 k5 =>
      obtain ⟨s, m1, m2⟩ := areRequirements_mem k5 h7
      obtain ⟨_, _, _, _, _, k6⟩ := k4
      rw [m2.id]
      exact sections_ident k6 s (kept_subset _ _ s m1)
  · intro hp
    rw [hp] at h6
    cases h6 with
    | mono k1 k2 k3 k4 k5 =>
      simp only [List.mem_singleton] at h7
      subst h7
      simpa using arrows_ident k3
    | monoNoName k1 k2 k3 k4 =>
      simp only [List.mem_singleton] at h7
      subst h7
      simpa using arrows_ident k3

/-- The ids after the colon of a line `Covers:` or `Depends:` have the documented form. -/
theorem attrs_ident {U : Unicode} {path : Path} {n : Nat} {ls : List Str} {as : List Attr} {cut : Cut}
    (h : Attrs U path n ls as cut) (hl : ∀ l ∈ ls, ShortIds U l) :
    ∀ a ∈ as, ∀ refs, a.value = .refs refs → ∀ ref ∈ refs, IsIdent U ref.id := by
  have items : ∀ {n ls refs}, RefItems U path n ls refs → ∀ ref ∈ refs, IsIdent U ref.id := by
    intro n ls refs h
    induction h with
    | nil => intro r hr; cases hr
    | cons _ h2 _ ih =>
      intro r hr
      rcases List.mem_cons.1 hr with rfl | hr
      · obtain ⟨_, _, _, h3, _⟩ := h2
        exact h3.1
      · exact ih r hr
  have list : ∀ {n l ls name refs}, ShortIds U l → RefList U path n l ls name refs → ∀ ref ∈ refs, IsIdent U ref.id := by
    rintro n l ls name refs hs ⟨v, t, ps, ids, more, h1, h2, h3, h4, h5, h6, rfl⟩ ref hr
    rcases List.mem_append.1 hr with hr | hr
    · obtain ⟨id, h7, rfl⟩ := List.mem_map.1 hr
      exact hs _ _ _ _ _ h1 h2 h3 h4 h5 id h7
    · exact items h6 ref hr
  induction h with
  | nil => intro a ha; cases ha
  | heading => intro a ha; cases ha
  | wrong => intro a ha; cases ha
  | skip _ ih => exact ih (fun l h => hl l (List.mem_cons_of_mem _ h))
  | text _ _ _ _ _ _ ih =>
    intro a ha refs hv
    rcases List.mem_cons.1 ha with rfl | ha
    · cases hv
    · exact ih (fun l h => hl l (by simp [h])) a ha refs hv
  | refs h1 _ _ ih =>
    intro a ha refs hv
    rcases List.mem_cons.1 ha with rfl | ha
    · cases hv; exact list (hl _ List.mem_cons_self) h1
    · exact ih (fun l h => hl l (by simp [h])) a ha refs hv
  | refsBlank h1 _ _ ih =>
    intro a ha refs hv
    rcases List.mem_cons.1 ha with rfl | ha
    · cases hv; exact list (hl _ List.mem_cons_self) h1
    · exact ih (fun l h => hl l (by simp [h])) a ha refs hv
  | refsWrong h1 =>
    intro a ha refs hv
    simp only [List.mem_singleton] at ha
    subst ha
    cases hv; exact list (hl _ List.mem_cons_self) h1

theorem body_ident {U : Unicode} {path : Path} {n : Nat} {ls : List Str} {as : List Attr} {cut : Cut}
    (h : Body U path n ls as cut) (hl : ∀ l ∈ ls, ShortIds U l) :
    ∀ a ∈ as, ∀ refs, a.value = .refs refs → ∀ ref ∈ refs, IsIdent U ref.id := by
  induction h with
  | skip _ ih => exact ih (fun l h => hl l (List.mem_cons_of_mem _ h))
  | attrs _ h => exact attrs_ident h hl
  | prose _ _ _ _ _ _ h =>
    intro a ha refs hv
    rcases List.mem_cons.1 ha with rfl | ha
    · cases hv
    · exact attrs_ident h (fun l h => hl l (by simp [h])) a ha refs hv

theorem sections_refs_ident {U : Unicode} {path : Path} {n : Nat} {ls : List Str} {ss : List Section}
    (h : Sections U path n ls ss) (hl : ∀ l ∈ ls, ShortIds U l) :
    ∀ s ∈ ss, ∀ a ∈ s.attrs, ∀ refs, a.value = .refs refs → ∀ ref ∈ refs, IsIdent U ref.id := by
  induction h with
  | nil => intro s hs; cases hs
  | cons _ _ _ hb _ ih =>
    intro s hs
    rcases List.mem_cons.1 hs with rfl | hs
    · exact body_ident hb (fun l h => hl l (by simp [h]))
    · exact ih (fun l h => hl l (by simp [h])) s hs

theorem lastOf_mem {as : List Attr} {name : Str} {v : Value} (h : lastOf as name = some v) : ∃ a ∈ as, a.value = v := by
  unfold lastOf at h
  rw [Option.map_eq_some_iff] at h
  obtain ⟨a, h1, h2⟩ := h
  exact ⟨a, (List.mem_filter.1 (List.mem_of_getLast? h1)).1, h2⟩

/-- **C91** All ids of a Markdown file have the documented form if those do that stand right after `Covers:` and
`Depends:`. All ids of a mono-requirement file do exactly if the name of the file does, up to the dot. -/
theorem C91_file_partial {env : Env} {parser : ArtefactParser} {file : File} {path : Path} {reqs : List Requirement}
    {errs : List Error} (h : fileResult env parser file path = .ok (reqs, errs)) :
    (∀ text failure ls, parser = .markdown → ReadLines file text failure → Lines text ls → (∀ l ∈ ls, ShortIds env.U l) →
      ∀ r ∈ reqs, GoodIds env.U r) ∧
    (∀ name stem, parser = .monoRequirement → FileName path name → Stem name stem →
      ((∀ r ∈ reqs, GoodIds env.U r) ↔ IsIdent env.U stem)) := by
  rw [C81_file] at h
  constructor
  · rintro text failure ls rfl h1 h2 hl r hr
    cases h with
    | markdown k1 k2 k3 k4 k5 =>
      obtain ⟨rfl, rfl⟩ := Source.mk.inj (((readLines_iff _ _ _).1 h1).symm.trans ((readLines_iff _ _ _).1 k1))
      obtain rfl := lines_unique h2 k3
      obtain ⟨s, m1, m2⟩ := areRequirements_mem k5 hr
      obtain ⟨_, _, rfl, _, _, k6⟩ := k4
      have hs := kept_subset _ _ s m1
      have hl' := fun l h => hl l (List.mem_append_right _ h)
      have hat := sections_refs_ident k6 hl' s hs
      refine ⟨m2.id ▸ sections_ident k6 s hs, fun ref hrf => ?_⟩
      rcases List.mem_append.1 hrf with hrf | hrf
      · rw [m2.covers] at hrf
        split at hrf
        · next rs hv => obtain ⟨a, n1, n2⟩ := lastOf_mem hv; exact hat a n1 rs n2 ref hrf
        · cases hrf
      · rw [m2.depends] at hrf
        split at hrf
        · next rs hv => obtain ⟨a, n1, n2⟩ := lastOf_mem hv; exact hat a n1 rs n2 ref hrf
        · cases hrf
  · rintro name stem rfl h1 h2
    cases h with
    | mono k1 k2 k3 k4 k5 =>
      obtain rfl := Option.some.inj ((stem_iff.2 ⟨_, h1, h2⟩).symm.trans (stem_iff.2 ⟨_, k4, k5⟩))
      simp only [List.mem_singleton, forall_eq]
      exact ⟨fun h => h.1, fun h => ⟨h, by simpa using arrows_ident k3⟩⟩
    | monoNoName k1 k2 k3 k4 => exact absurd h1 (k4 _)

namespace DocExample

open CtrlExample

/-- A mono-requirement file with a name of one letter. -/
def short : Config := ⟨none, [⟨c!"A", [c!"a.txt"], .monoRequirement, none, none⟩], [], none, none⟩

def shortWorld : World := world [(c!"p/a.txt", c!"title\n=> REQ_A: a\n")]

def shortReq : Requirement :=
  ⟨c!"a", some c!"title", ⟨c!"p/a.txt", none⟩, [], [⟨c!"REQ_A", some c!"a", ⟨c!"p/a.txt", some (.line 2)⟩⟩], [], .empty⟩

theorem short_defines : ∃ c, Controller.new (env .nil short) shortWorld short c!"p" = .ok c ∧ Defines c.graph c!"A" shortReq := by
  have h : ((Controller.new (env .nil short) shortWorld short c!"p").toOption.bind (fun c => c.graph.artefacts.get c!"A")).bind
      (fun a => a.requirements.get c!"a") = some shortReq := by decide +kernel
  cases hn : Controller.new (env .nil short) shortWorld short c!"p" with
  | error e => rw [hn] at h; cases h
  | ok c =>
    rw [hn] at h
    simp only [Except.toOption, Option.bind_some, Option.bind_eq_some_iff] at h
    obtain ⟨a, h1, h2⟩ := h
    exact ⟨c, rfl, a, h1, h2⟩

end DocExample

/-- C91 is false as listed: the id of a mono-requirement is the name of the file, whatever it is. -/
theorem C91_false : ¬ C91_statement := by
  intro h
  obtain ⟨c, h1, h2⟩ := DocExample.short_defines
  obtain ⟨⟨x, t, e, ht, _⟩, _⟩ := h _ _ _ _ c h1 _ _ h2
  rw [DocExample.shortReq] at e
  simp only [List.cons.injEq] at e
  exact ht e.2.symm

example : ∀ ref ∈ DocExample.shortReq.covers ++ DocExample.shortReq.depends, IsIdent .ascii ref.id := by
  obtain ⟨c, h1, h2⟩ := DocExample.short_defines
  exact (C91_ids_partial h1 (ac := ⟨c!"A", [c!"a.txt"], .monoRequirement, none, none⟩)
    ⟨[], [], rfl, by simp⟩ h2).2 rfl

namespace DocExample

def arrowed : Requirement :=
  ⟨c!"REQ_A", some c!"a", ⟨c!"f", some (.line 1)⟩, [⟨c!"REQ_B", none, ⟨c!"f", some (.line 2)⟩⟩,
    ⟨c!"REQ_C", some c!"c", ⟨c!"f", some (.line 3)⟩⟩], [], [], .empty⟩

theorem arrowed_read : fileResult (CtrlExample.env .nil short) .markdown
    ⟨Utf8.encode c!"# REQ_A: a\nCovers: REQ_B\n* REQ_C: c\n", none⟩ c!"f" = .ok ([arrowed], []) := by decide +kernel

theorem shortIds_of {U : Unicode} {l : Str} (hl : IsLine l) (loc : Location)
    (h : ∀ a v, Md.attrParts l = some (a, v) → ∀ ref ∈ Md.shortRefs loc v, IsIdent U ref.id) : ShortIds U l := by
  intro name v t ps ids h1 _ h3 h4 h5 id hid
  exact h _ _ ((Md.attrParts_iff hl).2 h1) ⟨id, none, loc⟩ (by rw [Md.shortRefs_eq h3 h4 h5]; exact List.mem_map.2 ⟨id, hid, rfl⟩)

end DocExample

example : GoodIds .ascii DocExample.arrowed := by
  refine (C91_file_partial DocExample.arrowed_read).1 _ none
    [c!"# REQ_A: a\n", c!"Covers: REQ_B\n", c!"* REQ_C: c\n"] rfl (.all _) (lines_iff.2 (by decide +kernel)) ?_ _ List.mem_cons_self
  intro l hl
  simp only [List.mem_cons, List.not_mem_nil, or_false] at hl
  rcases hl with rfl | rfl | rfl <;> refine DocExample.shortIds_of ⟨_, by decide +kernel, .inr rfl⟩ ⟨[], none⟩ ?_ <;>
    intro a v hav
  · rw [show Md.attrParts c!"# REQ_A: a\n" = none by decide +kernel] at hav; cases hav
  · rw [show Md.attrParts c!"Covers: REQ_B\n" = some (c!"Covers", c!"REQ_B") by decide +kernel] at hav
    cases hav
    rw [show Md.shortRefs ⟨[], none⟩ c!"REQ_B" = [⟨c!"REQ_B", none, ⟨[], none⟩⟩] by decide +kernel]
    simp only [List.mem_singleton, forall_eq]
    exact ⟨'R', c!"EQ_B", rfl, by simp, by decide +kernel, by decide +kernel⟩
  · rw [show Md.attrParts c!"* REQ_C: c\n" = none by decide +kernel] at hav; cases hav

/-- The id of a reference can have any form right after the colon. -/
example : ∃ r, fileResult (CtrlExample.env .nil DocExample.short) .markdown ⟨Utf8.encode c!"# REQ_A: a\nCovers: 1 2\n", none⟩ c!"f" =
    .ok ([r], []) ∧ r.covers = [⟨c!"1 2", none, ⟨c!"f", some (.line 2)⟩⟩] :=
  ⟨⟨c!"REQ_A", some c!"a", ⟨c!"f", some (.line 1)⟩, [⟨c!"1 2", none, ⟨c!"f", some (.line 2)⟩⟩], [], [], .empty⟩,
    by decide +kernel, rfl⟩

/-! ## C92 -/

/-- **C92 as listed**: files that can be read have no errors of reading, whatever their encoding. -/
def C92_statement : Prop := ∀ (env : Env) (w : World) (ac : ArtefactConfig) (base : Path) (fs : List Path)
  (reqs : List Requirement) (errs : List Error), FilesOf env w ac base fs →
  (∀ p ∈ fs, ∃ b, env.os.openFile w p = .ok ⟨b, none⟩) → parseArtefact env w ac base = .ok (fs, reqs, errs) →
  ∀ p e, .io p e ∉ errs

theorem documentErrors_io {path : Path} {failure : Option Str} {ss : List Section} {q : Path} {e : Str} :
    Error.io q e ∈ documentErrors path failure ss ↔ q = path ∧ failure = some e := by
  unfold documentErrors
  have hrep : ∀ id as before, Error.io q e ∉ repeated path id before as := by
    intro id as
    induction as with
    | nil => intro b h; cases h
    | cons a as ih =>
      intro b h
      rw [repeated, List.mem_append] at h
      rcases h with h | h
      · split at h <;> simp at h
      · exact ih _ h
  have hs : ∀ s : Section, Error.io q e ∉ s.errors path := by
    intro s h
    unfold Section.errors at h
    rcases List.mem_append.1 h with h | h
    · exact hrep _ _ _ h
    · cases hc : s.cut <;> simp [cutError, hc] at h
  rw [List.mem_append, List.mem_flatMap]
  constructor
  · rintro (⟨s, _, h⟩ | h)
    · exact absurd h (hs s)
    · cases failure with
      | none => cases h
      | some x => simp only [List.mem_singleton, Error.io.injEq] at h; exact ⟨h.1, by rw [h.2]⟩
  · rintro ⟨rfl, rfl⟩
    exact .inr (by simp)

theorem allMarks_io {debug : List Rs.Tok → Str} {path : Path} {os : List Occ} {es : List Entry} {errs : List Error}
    (h : AllMarks debug path os es errs) (q : Path) (e : Str) : Error.io q e ∉ errs := by
  induction h with
  | nil => simp
  | other _ _ ih => exact ih
  | good _ _ _ ih => exact ih
  | bad _ _ _ ih => simp [ih]

/-- **C92** What happens to a file that can be read but is not UTF-8: an error for Markdown and Rust, and only then an
error of reading; no requirements of Rust; refused as JSON; and mono-requirement files have to be UTF-8. -/
theorem C92_file_partial {env : Env} {parser : ArtefactParser} {b : Bytes} {path : Path} {reqs : List Requirement} {errs : List Error}
    (h : fileResult env parser ⟨b, none⟩ path = .ok (reqs, errs)) :
    (∀ q e, .io q e ∈ errs ↔ q = path ∧ e = c!"stream did not contain valid UTF-8" ∧ (∀ t, b ≠ Utf8.encode t) ∧
      (parser = .markdown ∨ parser = .rust)) ∧
    ((∀ t, b ≠ Utf8.encode t) → parser ≠ .monoRequirement ∧ (parser = .rust → reqs = []) ∧
      (parser = .json → reqs = [] ∧ errs = [.format ⟨path, none⟩ (env.jsonErr ⟨b, none⟩)])) := by
  rw [C81_file] at h
  generalize hf : (⟨b, none⟩ : File) = file at h
  cases h with
  | markdown h1 h2 h3 h4 h5 =>
    refine ⟨fun q e => ?_, fun _ => by simp⟩
    rw [documentErrors_io]
    have hl := (readLines_iff _ _ _).1 h1
    rcases h1 with _ | _ | ⟨k1, k2, k3, k4⟩
    · cases hf
      simp only [reduceCtorEq, and_false, true_or, and_true, false_iff, not_and]
      rintro _ _ hx
      exact hx _ rfl
    · cases hf
    · have hbad : ∀ s, b ≠ Utf8.encode s := by
        intro s hs
        rw [← hf, hs, File.lines_encode] at hl
        cases hl
      simp only [Option.some.injEq, true_or, and_true]
      constructor
      · rintro ⟨rfl, rfl⟩; exact ⟨rfl, rfl, hbad⟩
      · rintro ⟨rfl, rfl, _⟩; exact ⟨rfl, rfl⟩
  | mono k1 =>
    subst hf; cases k1
    exact ⟨by simp, fun h => absurd rfl (h _)⟩
  | monoNoName k1 =>
    subst hf; cases k1
    exact ⟨by simp, fun h => absurd rfl (h _)⟩
  | rust h1 h2 =>
    subst hf
    cases h1 with
    | all t =>
      refine ⟨fun q e => ?_, fun hx => absurd rfl (hx t)⟩
      constructor
      · intro hq
        exfalso
        cases h2 with
        | unreadable k => cases k
        | syntaxError => simp at hq
        | marks _ _ k _ => exact allMarks_io k _ _ hq
      · rintro ⟨_, _, hx, _⟩; exact absurd rfl (hx t)
    | invalid hx =>
      cases h2 with
      | unreadable k =>
        cases k
        refine ⟨fun q e => ?_, fun _ => by simp⟩
        simp only [List.mem_singleton, Error.io.injEq, or_true, and_true]
        exact ⟨fun ⟨p1, p2⟩ => ⟨p1, p2, hx⟩, fun ⟨p1, p2, _⟩ => ⟨p1, p2⟩⟩
      | syntaxError k => cases k
      | marks k => cases k
  | json h1 =>
    subst hf
    obtain ⟨t, v, k, _⟩ := h1
    cases k
    exact ⟨by simp, fun hx => absurd rfl (hx t)⟩
  | jsonWrong h1 =>
    subst hf
    exact ⟨by simp, fun _ => by simp⟩

namespace DocExample

open CtrlExample

/-- A Markdown file with a byte that is no UTF-8. -/
def latin : World := { world [] with files := fun p => if p = c!"p/l.md" then some (Utf8.encode c!"# REQ_A: a\n# REQ_B: " ++ [0xE9, 10]) else none }

def latinArt : ArtefactConfig := ⟨c!"L", [c!"l.md"], .markdown, none, none⟩

theorem latin_parsed : parseArtefact (env .nil short) latin latinArt c!"p" =
    .ok ([c!"p/l.md"], [], [.io c!"p/l.md" c!"stream did not contain valid UTF-8"]) := by decide +kernel

end DocExample

/-- C92 is false as listed. -/
theorem C92_false : ¬ C92_statement := by
  intro h
  refine h _ _ _ _ _ _ _ ?_ ?_ DocExample.latin_parsed _ _ List.mem_cons_self
  · exact .inr ⟨by decide, c!"l.md", rfl, by decide +kernel⟩
  · intro p hp
    simp only [List.mem_singleton] at hp
    subst hp
    exact ⟨_, by rfl⟩

example : fileResult (CtrlExample.env .nil DocExample.short) .markdown
    ⟨Utf8.encode c!"# REQ_A: a\n# REQ_B: " ++ [0xE9, 10], none⟩ c!"p/l.md" =
      .ok ([], [.io c!"p/l.md" c!"stream did not contain valid UTF-8"]) := by decide +kernel

/-! ## C93 -/

/-- **C93 as listed**: ids that are equal after normalisation match, whatever `nfc` is besides making the two spellings of
`é` equal. -/
def C93_statement : Prop := ∀ (nfc : Str → Str), nfc [Char.ofNat 0x65, Char.ofNat 0x301] = nfc [Char.ofNat 0xE9] →
  ∀ (g : Graph) (tg : TracedGraph), Keyed g → trace g = .ok tg → ∀ (i : Nat) (rel : Relation), g.relations[i]? = some rel →
  ∀ a ∈ rel.lower, ∀ u l, Defines g rel.upper u → Owns g a l → ∀ ref ∈ l.covers, nfc ref.id = nfc u.id →
  ∃ tr, tg.tracedRelations[i]? = some tr ∧ ⟨u.id, l.id, ref.location, .upwards⟩ ∈ tr.covered

/-- **C93** Ids that are normalised already match exactly if they are equal after normalisation. -/
theorem C93_normalised_partial (nfc : Str → Str) {g : Graph} {tg : TracedGraph} (hk : Keyed g) (h : trace g = .ok tg) {i : Nat}
    {rel : Relation} (hi : g.relations[i]? = some rel) {a : ArtefactId} (ha : a ∈ rel.lower) {u l : Requirement}
    (hu : Defines g rel.upper u) (hl : Owns g a l) {ref : Reference} (hr : ref ∈ l.covers) (hn : nfc ref.id = ref.id)
    (hn' : nfc u.id = u.id) (he : nfc ref.id = nfc u.id) :
    ∃ tr, tg.tracedRelations[i]? = some tr ∧ ⟨u.id, l.id, ref.location, .upwards⟩ ∈ tr.covered := by
  have hi' : tg.tracedRelations[i]? = some (tracedRelation g rel) := by
    obtain ⟨_, rfl⟩ := (trace_ok_iff hk tg).1 h
    simp [traced, hi]
  refine ⟨_, hi', (C01_coverage_exact hk h hi' _).2 ⟨rel, a, u, l, ref, hi, .up hu ha hl hr ?_, rfl⟩⟩
  rw [← hn, ← hn', he]

/-- **C93** In general a requirement is covered by another one exactly if a reference in one direction or the other is the id,
code point by code point. -/
theorem C93_exact_partial {g : Graph} {tg : TracedGraph} (hk : Keyed g) (h : trace g = .ok tg) {i : Nat}
    {rel : Relation} (hi : g.relations[i]? = some rel) {a : ArtefactId} (ha : a ∈ rel.lower) {u l : Requirement}
    (hu : Defines g rel.upper u) (hl : Owns g a l) :
    ∃ tr, tg.tracedRelations[i]? = some tr ∧ ((∃ c ∈ tr.covered, c.upper = u.id ∧ c.lower = l.id) ↔
      (∃ ref ∈ l.covers, ref.id = u.id) ∨ ∃ ref ∈ u.depends, ref.id = l.id) := by
  have hi' : tg.tracedRelations[i]? = some (tracedRelation g rel) := by
    obtain ⟨_, rfl⟩ := (trace_ok_iff hk tg).1 h
    simp [traced, hi]
  have same : ∀ {b l'}, Owns g b l' → l'.id = l.id → l' = l := fun {b l'} h1 h2 => by
    have hb : b = a := by
      cases hc : compare b a with
      | lt => exact absurd h2 (hl.2 b l' hc h1.1)
      | gt => exact absurd h2.symm (h1.2 a l (Std.OrientedCmp.lt_of_gt hc) hl.1)
      | eq => exact Std.LawfulEqOrd.eq_of_compare hc
    subst hb
    exact defines_unique h1.1 hl.1 h2
  refine ⟨_, hi', ?_⟩
  constructor
  · rintro ⟨c, hc, h1, h2⟩
    obtain ⟨rel', b, u', l', ref, h3, h4, h5⟩ := (C01_coverage_exact hk h hi' c).1 hc
    rw [hi] at h3; cases h3
    rw [h5] at h1 h2
    generalize c.direction = d at h4
    cases h4 with
    | down k1 _ k2 k3 k4 =>
      cases defines_unique k1 hu h1
      cases same k2 h2
      exact .inr ⟨ref, k3, k4⟩
    | up k1 _ k2 k3 k4 =>
      cases defines_unique k1 hu h1
      cases same k2 h2
      exact .inl ⟨ref, k3, k4⟩
  · rintro (⟨ref, h1, h2⟩ | ⟨ref, h1, h2⟩)
    · exact ⟨_, (C01_coverage_exact hk h hi' ⟨u.id, l.id, ref.location, .upwards⟩).2
        ⟨rel, a, u, l, ref, hi, .up hu ha hl h1 h2, rfl⟩, rfl, rfl⟩
    · exact ⟨_, (C01_coverage_exact hk h hi' ⟨u.id, l.id, ref.location, .downwards⟩).2
        ⟨rel, a, u, l, ref, hi, .down hu ha hl h1 h2, rfl⟩, rfl, rfl⟩

namespace DocExample

open Example

/-- `é` in one and in two code points -/
def composed : Graph :=
  ⟨.ofList [(c!"UP", art c!"UP" true false [req [Char.ofNat 0xE9] none [] []]),
    (c!"LO", art c!"LO" false false [req c!"L1" none [ref [Char.ofNat 0x65, Char.ofNat 0x301] none 1] []])], [⟨c!"UP", [c!"LO"]⟩]⟩

theorem composed_keyed : Keyed composed := keyed_of_check (by decide +kernel)

theorem composed_traced : (trace composed).toOption.map (·.tracedRelations) =
    some [⟨⟨c!"UP", [c!"LO"]⟩, [], [[Char.ofNat 0xE9]]⟩] := by decide +kernel

theorem composed_upper : Defines composed c!"UP" (req [Char.ofNat 0xE9] none [] []) :=
  ⟨art c!"UP" true false [req [Char.ofNat 0xE9] none [] []], by decide +kernel, by decide +kernel⟩

theorem composed_lower : Owns composed c!"LO" (req c!"L1" none [ref [Char.ofNat 0x65, Char.ofNat 0x301] none 1] []) := by
  refine ⟨⟨art c!"LO" false false [req c!"L1" none [ref [Char.ofNat 0x65, Char.ofNat 0x301] none 1] []], by decide +kernel,
    by decide +kernel⟩, ?_⟩
  rintro b r hb ⟨x, h1, h2⟩
  have hall : ∀ e ∈ composed.artefacts.entries, compare e.1 c!"LO" ≠ .lt := by decide +kernel
  exact absurd hb (hall _ ((BMap.get_eq_some_iff _ _ _).1 h1))

end DocExample

/-- C93 is false as listed: the two spellings of `é` do not match. -/
theorem C93_false : ¬ C93_statement := by
  intro h
  have ht := DocExample.composed_traced
  cases hn : trace DocExample.composed with
  | error e => rw [hn] at ht; cases ht
  | ok tg =>
    rw [hn] at ht
    simp only [Except.toOption, Option.map_some, Option.some.injEq] at ht
    obtain ⟨tr, h1, h2⟩ := h (fun _ => []) rfl _ _ DocExample.composed_keyed hn 0 ⟨c!"UP", [c!"LO"]⟩ rfl c!"LO" (by simp) _ _
      DocExample.composed_upper DocExample.composed_lower _ List.mem_cons_self rfl
    rw [ht] at h1
    simp only [List.getElem?_cons_zero, Option.some.injEq] at h1
    rw [← h1] at h2
    cases h2

/-! ## C94 -/

/-- **C94 as listed**: the example of `FORMATS.md` has the result that it is said to have. -/
def C94_statement : Prop := ∀ (U : Unicode) (path : Path),
  ∃ r, Md.parse U ⟨docExample.flatten, none⟩ path = .ok ([r], []) ∧ DocExampleResult r

/-- C94 is false: there is neither a requirement nor an error. -/
theorem C94_false : ¬ C94_statement := by
  intro h
  obtain ⟨r, h, _⟩ := h .ascii c!"f"
  have : Md.parse .ascii ⟨docExample.flatten, none⟩ c!"f" = .ok ([], []) := by decide +kernel
  rw [this] at h
  cases h

set_option maxRecDepth 100000 in
/-- **C94** Without the two headings that start no requirement the example is read as documented. -/
theorem C94_no_headings_partial (U : Unicode) (path : Path) :
    Md.parse U ⟨(docExample.take 3 ++ (docExample.drop 4).take 4).flatten, none⟩ path = .ok ([
      { id := c!"REQ_ID", title := some c!"Requirement Title", location := ⟨path, some (.line 2)⟩,
        covers := [⟨c!"REQ_COV", none, ⟨path, some (.line 6)⟩⟩], depends := [], tags := [],
        attributes := BMap.ofList [(c!"Description", c!"Description paragraph\nanother Description Paragraph\n\n")] }], []) := by
  rw [(C101_ascii U .ascii _ none path (by decide +kernel)).1]
  with_unfolding_all exact (Eq.refl _ :
    Md.parse .ascii ⟨(docExample.take 3 ++ (docExample.drop 4).take 4).flatten, none⟩ path = _)

/-- The heading below the section is what loses the requirement: with it, and with any tables, there is none. -/
theorem C94_heading_loses (U : Unicode) (path : Path) : Md.parse U ⟨docExample.flatten, none⟩ path = .ok ([], []) := by
  rw [(C101_ascii U .ascii _ none path (by decide +kernel)).1]
  with_unfolding_all exact (Eq.refl _ : Md.parse .ascii ⟨docExample.flatten, none⟩ path = _)

/-! ## C95 -/

/-- **C95 as listed**: the attribute `Tags` of a section is a list of tags. -/
def C95_statement : Prop := ∀ (U : Unicode) (path : Path) (h l : Str) (level : Nat) (id title v t : Str) (ps tags : List Str)
  (r : Requirement), ReqHeading U h level id title → AttrLine l c!"Tags" v → TrimsTo v t → Parts t ps → PartIds ps tags →
  Md.parse U ⟨h ++ l, none⟩ path = .ok ([r], []) → r.tags = tags

/-- **C95** Only JSON files have requirements with tags. -/
theorem C95_no_tags_partial {env : Env} {parser : ArtefactParser} {file : File} {path : Path} {reqs : List Requirement}
    {errs : List Error} (h : fileResult env parser file path = .ok (reqs, errs)) (hp : parser ≠ .json) :
    ∀ r ∈ reqs, r.tags = [] := by
  rw [C81_file] at h
  intro r hr
  cases h with
  | markdown h1 h2 h3 h4 h5 =>
    obtain ⟨s, _, hs⟩ := areRequirements_mem h5 hr
    exact hs.tags
  | mono => simp only [List.mem_singleton] at hr; subst hr; rfl
  | monoNoName => simp only [List.mem_singleton] at hr; subst hr; rfl
  | rust h1 h2 =>
    cases h2 with
    | unreadable => cases hr
    | syntaxError => cases hr
    | marks _ _ _ hg =>
      obtain ⟨gs, rfl, _, hg, _⟩ := hg
      obtain ⟨g, h3, rfl⟩ := List.mem_map.1 hr
      exact (hg g h3).2.2.2.2.2.1
  | json => exact absurd rfl hp
  | jsonWrong => exact absurd rfl hp

namespace DocExample

def tagged : Requirement :=
  ⟨c!"REQ_A", some c!"a", ⟨c!"f", some (.line 1)⟩, [], [], [], BMap.ofList [(c!"Tags", c!"X, Y")]⟩

end DocExample

/-- C95 is false: the tags stay the text of an attribute. -/
theorem C95_false : ¬ C95_statement := by
  intro h
  have h1 : ReqHeading .ascii c!"# REQ_A: a\n" 1 c!"REQ_A" c!"a" :=
    ⟨by decide, ⟨'R', c!"EQ_A", rfl, by simp, by decide +kernel, by decide +kernel⟩, c!" ", c!" a", c!"\n", rfl,
      by unfold Blank; decide +kernel, by simp, by decide +kernel, .inr rfl, trimsTo_iff.2 (by decide +kernel)⟩
  have h2 : AttrLine c!"Tags: X, Y\n" c!"Tags" c!"X, Y" :=
    (Md.attrParts_iff ⟨c!"\n", by decide +kernel, .inr rfl⟩).1 (by decide +kernel)
  have h3 : PartIds [c!"X", c!" Y"] [c!"X", c!"Y"] :=
    .id (trimsTo_iff.2 (by decide +kernel)) (by simp) (.id (trimsTo_iff.2 (by decide +kernel)) (by simp) .nil)
  have := h .ascii c!"f" _ _ 1 c!"REQ_A" c!"a" _ c!"X, Y" [c!"X", c!" Y"] _ DocExample.tagged h1 h2
    (trimsTo_iff.2 (by decide +kernel)) (Md.parts_exist _) h3 (by decide +kernel)
  cases this

example : ∃ r, fileResult (CtrlExample.env .nil DocExample.short) .markdown ⟨Utf8.encode c!"# REQ_A: a\nTags: X, Y\n", none⟩ c!"f" =
    .ok ([r], []) ∧ r.tags = [] ∧ r.attributes.get c!"Tags" = some c!"X, Y" :=
  ⟨DocExample.tagged, by decide +kernel, by decide +kernel, by decide +kernel⟩

/-! ## C96 -/

/-- **C96** Both exports are JSON objects with version 0. -/
theorem C96_requirements (env : FmtEnv) (g : Graph) : ∃ ms, JsonText.Document (Fmt.requirements env g .json).text (.obj ms) ∧
    ms.map (·.1) = [c!"version", c!"requirements", c!"errors"] ∧ ms.lookup c!"version" = some (.num 0) := by
  obtain ⟨reqs, errs, h, _⟩ := C51_export env g
  rw [h]
  exact ⟨_, (document_iff _ _).1 (document_pretty (plain_export reqs errs) 0), rfl, rfl⟩

theorem C96_trace (env : FmtEnv) (tg : TracedGraph) : ∃ ms, JsonText.Document (Fmt.tracing env tg .json).text (.obj ms) ∧
    ms.map (·.1) = [c!"version", c!"trace"] ∧ ms.lookup c!"version" = some (.num 0) := by
  have hp : (Serialize.traceJson tg).Plain := by
    refine .obj ?_
    intro m hm
    simp only [List.mem_cons, List.not_mem_nil, or_false] at hm
    rcases hm with rfl | rfl
    · exact .num _
    · exact plain_tracedGraph tg
  refine ⟨_, (document_iff _ _).1 (document_pretty hp 0), ?_, ?_⟩
  · rfl
  · rfl

example : (JsonRead.document (Fmt.requirements FmtEnv.example Example.graph .json).text).isSome = true := by decide +kernel

/-! ## C97 -/

/-- **C97 as listed**: an object with version and requirements can be imported. -/
def C97_statement : Prop := ∀ (errText text : Str) (reqs : List Requirement), DocJson text 0 reqs →
  fromReader errText ⟨text, none⟩ = .ok reqs

/-- **C97** No object is accepted, -/
theorem C97_object_rejected (errText text : Str) (ms : List (Str × Json)) (h : JsonText.Document text (.obj ms)) :
    fromReader errText ⟨text, none⟩ = .error errText := by
  rw [C77_rejected]
  rintro ⟨_, v, reqs, h1, h2⟩
  have := (document_iff _ _).2 h
  rw [(document_iff _ _).2 h1] at this
  cases this
  obtain ⟨_, h2, _⟩ := h2
  cases h2

/-- but a list of requirements is. -/
theorem C97_array_partial (errText text : Str) (js : List Json) (reqs : List Requirement)
    (h : JsonText.Document text (.arr js)) (hr : JsonText.IsArray JsonText.IsRequirement (.arr js) reqs) :
    fromReader errText ⟨text, none⟩ = .ok reqs :=
  (C77_accepted _ _ _).2 ⟨rfl, _, h, hr⟩

theorem C97_false : ¬ C97_statement := by
  intro h
  have hd : JsonText.Document c!"{\"version\":0,\"requirements\":[]}" (.obj [(c!"version", .num 0), (c!"requirements", .arr [])]) :=
    (document_iff _ _).1 rfl
  have h1 := h c!"e" _ [] ⟨_, _, _, hd, rfl, List.mem_cons_self, List.mem_cons_of_mem _ List.mem_cons_self, (toVec_iff toRequirement_iff _ _).1 rfl⟩
  rw [C97_object_rejected _ _ _ hd] at h1
  cases h1

/-! ## C98 -/

namespace DocExample

open CtrlExample

/-- `REQ_C` covers `REQ_A`, `REQ_D` is made up; `REQ_A` and `REQ_B` are in a root. -/
def loose : Config := ⟨none, [⟨c!"A", [c!"a.md"], .markdown, none, none⟩, ⟨c!"B", [c!"b.md"], .markdown, none, none⟩],
  [⟨c!"A", [c!"B"]⟩], none, none⟩

def looseWorld : World := world [(c!"p/a.md", c!"# REQ_A: a\n# REQ_B: b\n"),
  (c!"p/b.md", c!"# REQ_C: c\nCovers: REQ_A\n# REQ_D: d\n")]

theorem toOption_ok {ε α : Type} {x : Except ε α} {a : α} (h : x.toOption = some a) : x = .ok a := by
  cases x <;> simp_all [Except.toOption]

end DocExample

/-- **C98** Which requirements are listed as derived: those that no artefact above defines, that cover nothing along a
relation, and whose artefact is configured to list them, or not configured and no root. -/
theorem C98_derived {env : Env} {w : World} {config : Config} {base : Path} {c : Controller}
    (h : Controller.new env w config base = .ok c) {tg : TracedGraph} (ht : trace c.graph = .ok tg) {ac : ArtefactConfig}
    (hl : LastEntry config ac) :
    ∃ d, tg.derived.get ac.id = some d ∧ ∀ id, id ∈ d ↔
      (ac.ignoreDerivedRequirements = some false ∨ ac.ignoreDerivedRequirements = none ∧ ¬ IsRoot config ac.id) ∧
      (∃ r, Owns c.graph ac.id r ∧ r.id = id) ∧ ∀ tr ∈ tg.tracedRelations, ∀ k ∈ tr.covered, k.lower ≠ id := by
  obtain ⟨_, _, _, art, _, ha, _⟩ := C22_last_entries_partial h hl
  obtain ⟨d, h1, _, h2⟩ := C03_derived_exact (C18_consistent h).1 ht ha
  refine ⟨d, h1, fun id => (h2 id).trans ?_⟩
  obtain ⟨ac', k1, k2, k3, k4⟩ := C19_default_root h ha
  obtain rfl := lastEntry_unique k1 hl k2
  have : art.ignoreDerivedRequirements = false ↔
      ac'.ignoreDerivedRequirements = some false ∨ ac'.ignoreDerivedRequirements = none ∧ ¬ IsRoot config ac'.id := by
    cases hi : ac'.ignoreDerivedRequirements with
    | none => simp [← k4 hi]
    | some b => simp [k3 b hi]
  rw [this]

/-- In the example nothing is listed for the root, and what is made up is listed for the other artefact. -/
example : ∃ c tg, Controller.new (CtrlExample.env .nil DocExample.loose) DocExample.looseWorld DocExample.loose c!"p" = .ok c ∧
    trace c.graph = .ok tg ∧ tg.derived.get c!"A" = some [] ∧ tg.derived.get c!"B" = some [c!"REQ_D"] := by
  have h : (Controller.new (CtrlExample.env .nil DocExample.loose) DocExample.looseWorld DocExample.loose c!"p").toOption.bind
      (fun c => (trace c.graph).toOption.map fun tg => (tg.derived.get c!"A", tg.derived.get c!"B")) =
      some (some [], some [c!"REQ_D"]) := by decide +kernel
  simp only [Option.bind_eq_some_iff, Option.map_eq_some_iff, Prod.mk.injEq] at h
  obtain ⟨c, h1, tg, h2, h3, h4⟩ := h
  exact ⟨c, tg, DocExample.toOption_ok h1, DocExample.toOption_ok h2, h3, h4⟩

/-! ## C99 -/

/-- **C99 as listed**: the graph lists each file that is read for an artefact. -/
def C99_statement : Prop := ∀ (env : Env) (w : World) (config : Config) (base : Path) (c : Controller),
  Controller.new env w config base = .ok c → ∀ p, Consumed env w config base p →
  ∃ a art, c.graph.artefacts.get a = some art ∧ p ∈ art.files

/-- **C99** It does if the ids of artefacts differ. -/
theorem C99_consumed_partial {env : Env} {w : World} {config : Config} {base : Path} {c : Controller}
    (h : Controller.new env w config base = .ok c) (hn : (config.artefacts.map (·.id)).Nodup) {p : Path}
    (hc : Consumed env w config base p) : ∃ a art, c.graph.artefacts.get a = some art ∧ p ∈ art.files := by
  obtain ⟨ac, h1, fs, h2, h3⟩ := hc
  have hl := C22_distinct_partial hn h1
  obtain ⟨_, _, _, art, _, ha, _⟩ := C22_last_entries_partial h hl
  exact ⟨ac.id, art, ha, by rw [((C69_files h hl ha).1 fs h2).1]; exact h3⟩

/-- **C99** Of several entries with the same id the files of the last are listed, and nothing else is if the files of all
artefacts can be told. -/
theorem C99_listed_partial {env : Env} {w : World} {config : Config} {base : Path} {c : Controller}
    (h : Controller.new env w config base = .ok c) (hall : ∀ ac, LastEntry config ac → ∃ fs, FilesOf env w ac base fs) (p : Path) :
    (∃ a art, c.graph.artefacts.get a = some art ∧ p ∈ art.files) ↔
      ∃ ac, LastEntry config ac ∧ ∃ fs, FilesOf env w ac base fs ∧ p ∈ fs := by
  constructor
  · rintro ⟨a, art, h1, h2⟩
    obtain ⟨ac, h3, rfl, _⟩ := ((new_isInput h).artefacts a art).1 h1
    obtain ⟨fs, h4⟩ := hall ac h3
    exact ⟨ac, h3, fs, h4, by rw [← ((C69_files h h3 h1).1 fs h4).1]; exact h2⟩
  · rintro ⟨ac, hl, fs, h2, h3⟩
    obtain ⟨_, _, _, art, _, ha, _⟩ := C22_last_entries_partial h hl
    exact ⟨ac.id, art, ha, by rw [((C69_files h hl ha).1 fs h2).1]; exact h3⟩

namespace DocExample

open CtrlExample

/-- Two entries with the same id. -/
def twice : Config := ⟨none, [⟨c!"A", [c!"a.md"], .markdown, none, none⟩, ⟨c!"A", [c!"b.md"], .markdown, none, none⟩], [], none, none⟩

def twiceWorld : World := world [(c!"p/a.md", c!"# REQ_A: a\n"), (c!"p/b.md", c!"# REQ_B: b\n")]

theorem twice_files : (Controller.new (env .nil twice) twiceWorld twice c!"p").toOption.map
    (fun c => c.graph.artefacts.entries.map fun e => e.2.files) = some [[c!"p/b.md"]] := by decide +kernel

end DocExample

/-- C99 is false as listed: the first of two entries with the same id is read, but not listed. -/
theorem C99_false : ¬ C99_statement := by
  intro h
  have hl := DocExample.twice_files
  cases hn : Controller.new (CtrlExample.env .nil DocExample.twice) DocExample.twiceWorld DocExample.twice c!"p" with
  | error p => rw [hn] at hl; cases hl
  | ok c =>
    rw [hn] at hl
    simp only [Except.toOption, Option.map_some, Option.some.injEq] at hl
    obtain ⟨a, art, h1, h2⟩ := h _ _ _ _ c hn c!"p/a.md" ⟨_, List.mem_cons_self, [c!"p/a.md"],
      .inr ⟨by simp, _, rfl, rfl⟩, List.mem_cons_self⟩
    have := List.mem_map_of_mem (f := fun e : ArtefactId × Artefact => e.2.files) ((BMap.get_eq_some_iff _ _ _).1 h1)
    rw [hl] at this
    simp only [List.mem_singleton] at this
    rw [this] at h2
    revert h2
    decide +kernel

example : ∃ c, Controller.new (CtrlExample.env .nil DocExample.short) DocExample.shortWorld DocExample.short c!"p" = .ok c ∧
    ∃ a art, c.graph.artefacts.get a = some art ∧ c!"p/a.txt" ∈ art.files := by
  obtain ⟨c, h1, _⟩ := DocExample.short_defines
  exact ⟨c, h1, C99_consumed_partial h1 (by decide +kernel) ⟨_, List.mem_cons_self, [c!"p/a.txt"],
    .inr ⟨by simp, _, rfl, rfl⟩, List.mem_cons_self⟩⟩

example : ∃ c, Controller.new (CtrlExample.env .nil DocExample.twice) DocExample.twiceWorld DocExample.twice c!"p" = .ok c ∧
    ∀ p, (∃ a art, c.graph.artefacts.get a = some art ∧ p ∈ art.files) ↔
      ∃ ac, LastEntry DocExample.twice ac ∧ ∃ fs, FilesOf (CtrlExample.env .nil DocExample.twice) DocExample.twiceWorld ac c!"p" fs ∧
        p ∈ fs := by
  have hl := DocExample.twice_files
  cases hn : Controller.new (CtrlExample.env .nil DocExample.twice) DocExample.twiceWorld DocExample.twice c!"p" with
  | error p => rw [hn] at hl; cases hl
  | ok c =>
    refine ⟨c, rfl, C99_listed_partial hn ?_⟩
    rintro ac ⟨pre, post, e, _⟩
    have hm : ac ∈ DocExample.twice.artefacts := by rw [e]; simp
    simp only [DocExample.twice, List.mem_cons, List.not_mem_nil, or_false] at hm
    rcases hm with rfl | rfl
    · exact ⟨_, .inr ⟨by decide, _, rfl, rfl⟩⟩
    · exact ⟨_, .inr ⟨by decide, _, rfl, rfl⟩⟩

/-! ## C100 -/

/-- **C100 as listed**: each error of a file says in which line of which file it is. -/
def C100_statement : Prop := ∀ (env : Env) (parser : ArtefactParser) (file : File) (path : Path) (reqs : List Requirement)
  (errs : List Error), fileResult env parser file path = .ok (reqs, errs) → ∀ e ∈ errs, InLine path e

theorem documentErrors_line {path : Path} {ss : List Section} : ∀ e ∈ documentErrors path none ss, InLine path e := by
  intro e he
  have hrep : ∀ id as before, ∀ e ∈ repeated path id before as, InLine path e := by
    intro id as
    induction as with
    | nil => intro b e h; cases h
    | cons a as ih =>
      intro b e h
      rw [repeated, List.mem_append] at h
      rcases h with h | h
      · split at h
        · simp only [List.mem_singleton] at h
          subst h
          exact ⟨rfl, a.line, .inl rfl⟩
        · cases h
      · exact ih _ e h
  simp only [documentErrors, List.append_nil, List.mem_flatMap] at he
  obtain ⟨s, _, he⟩ := he
  unfold Section.errors at he
  rcases List.mem_append.1 he with he | he
  · exact hrep _ _ _ e he
  · cases hc : s.cut with
    | wrong n what =>
      simp only [cutError, hc, List.mem_singleton] at he
      subst he
      exact ⟨rfl, n, .inl rfl⟩
    | no => simp [cutError, hc] at he
    | heading => simp [cutError, hc] at he

theorem allMarks_line {debug : List Rs.Tok → Str} {path : Path} {os : List Occ} {es : List Entry} {errs : List Error}
    (h : AllMarks debug path os es errs) : ∀ e ∈ errs, InLine path e := by
  induction h with
  | nil => intro e he; cases he
  | other _ _ ih => exact ih
  | good _ _ _ ih => exact ih
  | bad _ _ _ ih =>
    intro e he
    rcases List.mem_cons.1 he with rfl | he
    · exact ⟨rfl, _, .inr ⟨_, rfl⟩⟩
    · exact ih e he

/-- **C100** Errors in Markdown and Rust files say in which line they are, unless the file could not be read; errors in
JSON files and of reading say in which file they are; the only error of a mono-requirement file is that of its name. -/
theorem C100_errors_partial {env : Env} {parser : ArtefactParser} {file : File} {path : Path} {reqs : List Requirement}
    {errs : List Error} (h : fileResult env parser file path = .ok (reqs, errs)) {e : Error} (he : e ∈ errs) :
    match parser with
    | .markdown | .rust => InLine path e ∨ ∃ m, e = .io path m ∧ ∀ t, file ≠ ⟨Utf8.encode t, none⟩
    | .json => InFile path e
    | .monoRequirement => (∀ name, ¬ FileName path name) ∧ e = .config (c!"file for 'MonoReq' parser `" ++ path ++ c!" has no stem") := by
  rw [C81_file] at h
  cases h with
  | markdown h1 h2 h3 h4 h5 =>
    rename_i text failure ls ss
    have hl := (readLines_iff _ _ _).1 h1
    cases failure with
    | none => exact .inl (documentErrors_line e he)
    | some m =>
      simp only [documentErrors, List.mem_append, List.mem_singleton] at he
      rcases he with he | rfl
      · exact .inl (documentErrors_line e (by simpa [documentErrors] using he))
      · refine .inr ⟨m, rfl, ?_⟩
        rintro t rfl
        rw [File.lines_encode] at hl
        cases hl
  | mono => cases he
  | monoNoName _ _ _ k =>
    simp only [List.mem_singleton] at he
    exact ⟨k, he⟩
  | rust h1 h2 =>
    cases h2 with
    | unreadable k =>
      simp only [List.mem_singleton] at he
      refine .inr ⟨_, he, ?_⟩
      intro t ht
      cases h1 with
      | all => cases k
      | failed => cases ht
      | invalid hx =>
        simp only [File.mk.injEq] at ht
        exact hx t ht.1
    | syntaxError _ k =>
      simp only [List.mem_singleton] at he
      subst he
      exact .inl ⟨rfl, _, .inr ⟨_, rfl⟩⟩
    | marks _ _ k => exact .inl (allMarks_line k e he)
  | json => cases he
  | jsonWrong =>
    simp only [List.mem_singleton] at he
    subst he
    rfl

/-- C100 is false as listed: an error in a JSON file has no line. -/
theorem C100_false : ¬ C100_statement := by
  intro h
  obtain ⟨_, n, h1⟩ := h (CtrlExample.env .nil DocExample.short) .json ⟨Utf8.encode c!"{}", none⟩ c!"f" [] [.format ⟨c!"f", none⟩ c!"bad json"]
    (by decide +kernel) _ List.mem_cons_self
  rcases h1 with h1 | ⟨_, h1⟩ <;> cases h1

example : InLine c!"f" (.format ⟨c!"f", some (.line 3)⟩ c!"Expected a Reference like `* REQ_ID: Title`") := by
  have h := C100_errors_partial (env := CtrlExample.env .nil DocExample.short) (parser := .markdown) (path := c!"f")
    (file := ⟨Utf8.encode c!"# REQ_A: a\nCovers:\nnothing\n", none⟩) (reqs := [])
    (errs := [.format ⟨c!"f", some (.line 3)⟩ c!"Expected a Reference like `* REQ_ID: Title`"]) (by decide +kernel) List.mem_cons_self
  rcases h with h | ⟨m, h, _⟩
  · exact h
  · cases h

end Reqtrace
