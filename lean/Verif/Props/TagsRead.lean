import Verif.Spec.TagsRead
import Verif.Props.Output
import Verif.Props.Markdown2
import Verif.Props.Location

/-!
# C107: a tags file, as editors read it
-/

namespace Reqtrace

open Spec Out

namespace TagsRead

/-- The line of a tag. -/
def line (t : Tag) : Str := t.name ++ c!"\t" ++ t.file ++ c!"\t" ++ t.line ++ c!";\"\tr\n"

structure Good (t : Tag) : Prop where
  name : ∀ c ∈ t.name, '!' < c
  noTab : '\t' ∉ t.file
  noLine : '\n' ∉ t.file
  digits : ∀ c ∈ t.line, c.isDigit = true

theorem gt_of_lt {c d : Char} (h : d < c) : compare c d = .gt := by
  show compareOfLessAndEq c d = .gt
  unfold compareOfLessAndEq
  rw [if_neg (Char.lt_asymm h), if_neg (by rintro rfl; exact Char.lt_irrefl _ h)]

theorem order {a b x y : Str} (ha : ∀ c ∈ a, '!' < c) (hb : ∀ c ∈ b, '!' < c)
    (h : compare (a ++ '\t' :: x) (b ++ '\t' :: y) ≠ .gt) : compare a b ≠ .gt := by
  rw [List.compare_eq_compareLex] at h ⊢
  induction a generalizing b with
  | nil => cases b <;> intro e <;> cases e
  | cons c a ih =>
    cases b with
    | nil =>
      exfalso
      apply h
      have : compare c '\t' = .gt := gt_of_lt (Char.lt_trans (by decide) (ha c (by simp)))
      simp [List.compareLex_cons_cons, this, Ordering.then]
    | cons d b =>
      rw [List.cons_append, List.cons_append, List.compareLex_cons_cons] at h
      rw [List.compareLex_cons_cons]
      cases hcd : compare c d with
      | lt => simp [Ordering.then]
      | gt => rw [hcd] at h; simp [Ordering.then] at h
      | eq =>
        rw [hcd] at h
        simp only [Ordering.then] at h ⊢
        exact ih (fun c hc => ha c (by simp [hc])) (fun c hc => hb c (by simp [hc])) h

theorem perm_map {α β : Type} {f : α → β} {l m : List β} (h : l.Perm m) : ∀ {n : List α}, m = n.map f →
    ∃ n' : List α, n'.Perm n ∧ l = n'.map f := by
  induction h with
  | nil => intro n e; exact ⟨[], by have := List.map_eq_nil_iff.1 e.symm; rw [this], rfl⟩
  | cons x _ ih =>
    intro n e
    cases n with
    | nil => cases e
    | cons a n =>
      simp only [List.map_cons, List.cons.injEq] at e
      obtain ⟨n', h1, h2⟩ := ih e.2
      exact ⟨a :: n', h1.cons a, by rw [h2, e.1]; rfl⟩
  | swap x y l =>
    intro n e
    match n, e with
    | a :: b :: n, e =>
      simp only [List.map_cons, List.cons.injEq] at e
      exact ⟨b :: a :: n, .swap .., by rw [e.1, e.2.1, e.2.2]; rfl⟩
  | trans _ _ ih1 ih2 =>
    intro n e
    obtain ⟨n1, h1, h2⟩ := ih2 e
    obtain ⟨n2, h3, h4⟩ := ih1 h2
    exact ⟨n2, h3.trans h1, h4⟩

theorem digits_natStr (n : Nat) : ∀ c ∈ natStr n, c.isDigit = true := fun _ hc => Nat.isDigit_of_mem_toDigits (by decide) (by decide) hc

theorem want {rs : List Requirement} {ls : List Str} (h : TagLines rs ls) (hw : ∀ r ∈ rs, ∀ n, AtLine r n → Taggable r) :
    ∃ ts, HaveTags rs ts ∧ ls = ts.map line ∧ ∀ t ∈ ts, Good t := by
  induction h with
  | nil => exact ⟨[], .nil, rfl, by simp⟩
  | skip hn _ ih =>
    obtain ⟨ts, h1, h2, h3⟩ := ih (fun r hr => hw r (by simp [hr]))
    exact ⟨ts, .skip hn h1, h2, h3⟩
  | @line r rs ls n hl _ ih =>
    obtain ⟨ts, h1, h2, h3⟩ := ih (fun r hr => hw r (by simp [hr]))
    refine ⟨_, .line hl h1, by rw [h2]; simp [line, tagLine], ?_⟩
    intro t ht
    rcases List.mem_cons.1 ht with rfl | ht
    · obtain ⟨k1, k2, k3⟩ := hw r (by simp) n hl
      exact ⟨k1, k2, k3, digits_natStr n⟩
    · exact h3 t ht

theorem not_of_gt {t : Str} (h : ∀ c ∈ t, '!' < c) {d : Char} (hd : ¬ '!' < d) : d ∉ t := fun hm => hd (h d hm)

theorem digits_no {t : Str} (h : ∀ c ∈ t, c.isDigit = true) {d : Char} (hd : d.isDigit = false) : d ∉ t := fun hm => by
  rw [h d hm] at hd; cases hd

theorem line_whole {t : Tag} (h : Good t) : ∃ b, line t = b ++ ['\n'] ∧ '\n' ∉ b := by
  refine ⟨t.name ++ c!"\t" ++ t.file ++ c!"\t" ++ t.line ++ c!";\"\tr", by simp [line], ?_⟩
  have h1 := not_of_gt h.name (d := '\n') (by decide)
  have h2 := digits_no h.digits (d := '\n') (by decide)
  simp [h1, h2, h.noLine]

theorem whole_of {l : Str} (h : l = l.dropLast ++ ['\n'] ∧ '\n' ∉ l.dropLast) : ∃ b, l = b ++ ['\n'] ∧ '\n' ∉ b :=
  ⟨_, h.1, h.2⟩

theorem line_tag {t : Tag} (h : Good t) : (∀ rest, line t ≠ c!"!_TAG_" ++ rest) ∧ TagOf (line t) t := by
  refine ⟨?_, c!"\tr\n", by simp [line], not_of_gt h.name (by decide), h.noTab, h.digits⟩
  intro rest e
  unfold line at e
  cases hn : t.name with
  | nil => rw [hn] at e; simp at e
  | cons c n =>
    have := h.name c (by rw [hn]; simp)
    rw [hn] at e
    simp only [List.cons_append, List.cons.injEq] at e
    rw [e.1] at this
    revert this; decide

theorem tagsOf_lines {ts : List Tag} (h : ∀ t ∈ ts, Good t) : TagsOf (ts.map line) ts := by
  induction ts with
  | nil => exact .nil
  | cons t ts ih =>
    have := line_tag (h t (by simp))
    exact .tag this.1 this.2 (ih (fun t ht => h t (by simp [ht])))

theorem split_tab {a b x y : Str} (ha : '\t' ∉ a) (hb : '\t' ∉ b) (h : a ++ '\t' :: x = b ++ '\t' :: y) : a = b ∧ x = y := by
  induction a generalizing b with
  | nil =>
    cases b with
    | nil => simpa using h
    | cons d b => simp only [List.nil_append, List.cons_append, List.cons.injEq] at h; exact absurd (by rw [h.1]; simp) hb
  | cons c a ih =>
    cases b with
    | nil => simp only [List.nil_append, List.cons_append, List.cons.injEq] at h; exact absurd (by rw [← h.1]; simp) ha
    | cons d b =>
      simp only [List.cons_append, List.cons.injEq] at h
      obtain ⟨h1, h2⟩ := ih (b := b) (fun hm => ha (by simp [hm])) (fun hm => hb (by simp [hm])) h.2
      exact ⟨by rw [h.1, h1], h2⟩

theorem split_digits {a b x y : Str} (ha : ∀ c ∈ a, c.isDigit = true) (hb : ∀ c ∈ b, c.isDigit = true)
    (h : a ++ ';' :: x = b ++ ';' :: y) : a = b := by
  induction a generalizing b with
  | nil =>
    cases b with
    | nil => rfl
    | cons d b =>
      simp only [List.nil_append, List.cons_append, List.cons.injEq] at h
      have := hb d (by simp)
      rw [← h.1] at this
      exact absurd this (by decide)
  | cons c a ih =>
    cases b with
    | nil =>
      simp only [List.nil_append, List.cons_append, List.cons.injEq] at h
      have := ha c (by simp)
      rw [h.1] at this
      exact absurd this (by decide)
    | cons d b =>
      simp only [List.cons_append, List.cons.injEq] at h
      rw [h.1, ih (fun c hc => ha c (by simp [hc])) (fun c hc => hb c (by simp [hc])) h.2]

theorem tagOf_unique {l : Str} {a b : Tag} (ha : TagOf l a) (hb : TagOf l b) : a = b := by
  obtain ⟨m, e, h1, h2, h3⟩ := ha
  obtain ⟨m', e', k1, k2, k3⟩ := hb
  rw [e] at e'
  simp only [List.append_assoc, List.cons_append, List.nil_append] at e'
  obtain ⟨q1, e'⟩ := split_tab h1 k1 e'
  obtain ⟨q2, e'⟩ := split_tab h2 k2 e'
  have q3 := split_digits h3 k3 e'
  cases a; cases b
  simp only at q1 q2 q3
  rw [q1, q2, q3]

end TagsRead

open TagsRead

/-- **C107** Lines say one thing only. -/
theorem C107_determined {ls : List Str} {a b : List Tag} (ha : TagsOf ls a) (hb : TagsOf ls b) : a = b := by
  induction ha generalizing b with
  | nil => cases hb; rfl
  | about h _ ih =>
    cases hb with
    | about _ hb => exact ih hb
    | tag h' => obtain ⟨rest, e⟩ := h; exact absurd e (h' rest)
  | tag h h1 _ ih =>
    cases hb with
    | about h' => obtain ⟨rest, e⟩ := h'; exact absurd e (h rest)
    | tag _ h2 hb => rw [tagOf_unique h1 h2, ih hb]

/-- **C107** An editor that reads the tags file finds each requirement that has a line, with its file and line, and
nothing else; and the tags are sorted by name, so that it may search in them. -/
theorem C107_tags (env : FmtEnv) (g : Graph) (text : Str) (ls : List Str)
    (h : ∀ r ∈ requirementsOf g.artefacts, ∀ n, AtLine r n → Taggable r)
    (ht : Fmt.requirements env g .tags = put text) (hl : Lines text ls) :
    ∃ tags wanted, TagsOf ls tags ∧ HaveTags (requirementsOf g.artefacts) wanted ∧ tags.Perm wanted ∧
      tags.Pairwise (fun a b => compare a.name b.name ≠ .gt) := by
  obtain ⟨unsorted, sorted, h1, ⟨h2, h3, -⟩, rfl⟩ := (C85_tags env g text).1 ht
  obtain ⟨wanted, k1, rfl, k3⟩ := want h1 h
  obtain ⟨tags, p1, rfl⟩ := perm_map h2 rfl
  have hg : ∀ t ∈ tags, Good t := fun t ht => k3 t (p1.subset ht)
  have hls : ls = c!"!_TAG_FILE_SORTED\t1\t/0=unsorted, 1=sorted, 2=foldcase/\n" :: c!"!_TAG_PROGRAM_NAME\treqtrace/\n" ::
      c!"!_TAG_PROGRAM_URL\thttps://github.com/wonkodv/reqtrace/\n" :: c!"!_TAG_PROGRAM_VERSION\t0\t//\n" :: tags.map TagsRead.line := by
    have hw := lines_flatten (c!"!_TAG_FILE_SORTED\t1\t/0=unsorted, 1=sorted, 2=foldcase/\n" ::
      c!"!_TAG_PROGRAM_NAME\treqtrace/\n" :: c!"!_TAG_PROGRAM_URL\thttps://github.com/wonkodv/reqtrace/\n" ::
      c!"!_TAG_PROGRAM_VERSION\t0\t//\n" :: tags.map TagsRead.line) ?_
    · refine lines_unique hl ?_
      simp only [List.flatten_cons] at hw
      simp only [List.append_assoc]
      exact hw
    · intro l hl
      simp only [List.mem_cons] at hl
      rcases hl with rfl | rfl | rfl | rfl | hl
      · exact whole_of (by decide)
      · exact whole_of (by decide)
      · exact whole_of (by decide)
      · exact whole_of (by decide)
      · obtain ⟨t, ht, rfl⟩ := List.mem_map.1 hl
        exact line_whole (hg t ht)
  refine ⟨tags, wanted, ?_, k1, p1, ?_⟩
  · rw [hls]
    exact .about ⟨_, rfl⟩ (.about ⟨_, rfl⟩ (.about ⟨_, rfl⟩ (.about ⟨_, rfl⟩ (tagsOf_lines hg))))
  · refine (List.pairwise_map.1 h3).imp_of_mem ?_
    intro a b ha hb hab
    refine order (hg a ha).name (hg b hb).name (x := a.file ++ c!"\t" ++ a.line ++ c!";\"\tr\n")
      (y := b.file ++ c!"\t" ++ b.line ++ c!";\"\tr\n") ?_
    simpa [TagsRead.line] using hab

/-- **C107** Ids of the documented form are fine. -/
theorem C107_ids {U : Unicode} {r : Requirement} (hid : IsIdent U r.id) (h1 : '\t' ∉ r.location.file)
    (h2 : '\n' ∉ r.location.file) : Taggable r := by
  refine ⟨?_, h1, h2⟩
  have hU : ∀ c, U.xidContinue c = true → '!' < c := by
    intro c hc
    by_cases hn : '!' < c
    · exact hn
    · have hle : c.toNat ≤ 33 := Nat.le_of_not_lt hn
      rw [U.continue_ascii c (by omega)] at hc
      have : c = Char.ofNat c.toNat := (Char.ofNat_toNat c).symm
      rw [this] at hc
      have hall : ∀ n ≤ 33, ((Char.ofNat n).isAlphanum || Char.ofNat n == '_') = false := by decide
      rw [hall _ hle] at hc
      cases hc
  obtain ⟨c, t, e, -, h3, h4⟩ := hid
  intro d hd
  rw [e] at hd
  rcases List.mem_cons.1 hd with rfl | hd
  · exact hU d (U.start_continue d h3)
  · exact hU d (h4 d hd)

/-- The hypotheses hold for the example; `U1` is defined twice. -/
example : ∀ r ∈ requirementsOf OutputExample.graph.artefacts, ∀ n, AtLine r n → Taggable r := by
  have : ∀ r ∈ requirementsOf OutputExample.graph.artefacts,
      (∀ c ∈ r.id, '!' < c) ∧ '\t' ∉ r.location.file ∧ '\n' ∉ r.location.file := by decide +kernel
  exact fun r hr _ _ => this r hr

set_option maxRecDepth 100000 in
example : ∃ text ls, Fmt.requirements FmtEnv.example OutputExample.graph .tags = put text ∧ Lines text ls ∧
    TagsOf ls [⟨c!"L1", c!"l.rs", c!"4"⟩, ⟨c!"U1", c!"f", c!"1"⟩, ⟨c!"U1", c!"f", c!"3"⟩] := by
  refine ⟨c!"!_TAG_FILE_SORTED\t1\t/0=unsorted, 1=sorted, 2=foldcase/\n!_TAG_PROGRAM_NAME\treqtrace/\n!_TAG_PROGRAM_URL\thttps://github.com/wonkodv/reqtrace/\n!_TAG_PROGRAM_VERSION\t0\t//\nL1\tl.rs\t4;\"\tr\nU1\tf\t1;\"\tr\nU1\tf\t3;\"\tr\n",
    c!"!_TAG_FILE_SORTED\t1\t/0=unsorted, 1=sorted, 2=foldcase/\n" :: c!"!_TAG_PROGRAM_NAME\treqtrace/\n" ::
      c!"!_TAG_PROGRAM_URL\thttps://github.com/wonkodv/reqtrace/\n" :: c!"!_TAG_PROGRAM_VERSION\t0\t//\n" ::
      [⟨c!"L1", c!"l.rs", c!"4"⟩, ⟨c!"U1", c!"f", c!"1"⟩, ⟨c!"U1", c!"f", c!"3"⟩].map TagsRead.line,
    by decide +kernel, lines_iff.2 (by decide +kernel), ?_⟩
  refine .about ⟨_, rfl⟩ (.about ⟨_, rfl⟩ (.about ⟨_, rfl⟩ (.about ⟨_, rfl⟩ (tagsOf_lines ?_))))
  intro t ht
  simp only [List.mem_cons, List.not_mem_nil, or_false] at ht
  rcases ht with rfl | rfl | rfl <;> exact ⟨by decide, by decide, by decide, by decide⟩

/-- A tab in an id (as JSON files may have) gives a line that says something else. -/
example : TagOf (tagLine ⟨c!"A\tB", none, ⟨c!"f", some (.line 1)⟩, [], [], [], .empty⟩ 1) ⟨c!"A", c!"B", c!"1"⟩ ↔ False := by
  refine ⟨?_, False.elim⟩
  rintro ⟨more, e, -⟩
  revert e
  simp [tagLine]

end Reqtrace
