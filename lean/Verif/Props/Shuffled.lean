import Verif.Props.Moved
import Verif.Spec.Shuffled

/-!
# C134: the order of the sections of a Markdown document
-/

namespace Reqtrace

open Spec

namespace Md

theorem forgetReq_shift (k : Nat) (r : Requirement) : forgetReq (shiftReq k r) = forgetReq r := by
  simp [forgetReq, shiftReq, shiftRef, moveRef, nowhere, Function.comp_def]

theorem forgetError_shift (k : Nat) (e : Error) : forgetError (shiftErr k e) = forgetError e := by
  cases e <;> rfl

theorem forgetReqs_shift (k : Nat) (rs : List Requirement) : (rs.map (shiftReq k)).map forgetReq = rs.map forgetReq := by
  rw [List.map_map]; exact List.map_congr_left (fun r _ => forgetReq_shift k r)

theorem forgetErrors_shift (k : Nat) (es : List Error) : (es.map (shiftErr k)).map forgetError = es.map forgetError := by
  rw [List.map_map]; exact List.map_congr_left (fun r _ => forgetError_shift k r)

theorem run_body_reqs (U : Unicode) (path : Path) (ls : List Str) (n : Nat) (q : State × Requirement)
    (h : ∀ l ∈ ls, reqParts U l = none) : (run U path n ls (some q)).reqs = [] := by
  induction ls generalizing n q with
  | nil => rfl
  | cons l ls ih =>
    rw [run_some (h l (by simp))]
    exact ih _ _ (fun l hl => h l (by simp [hl]))

/-- A section read at any line. -/
theorem section_run (U : Unicode) (path : Path) {b : List Str} (hb : IsSection U b) (hl : ∀ l ∈ b, IsLine l) (n : Nat)
    (cur : Option (State × Requirement)) :
    run U path (1 + n) b cur = ⟨flush cur, (run U path 1 b none).errs.map (shiftErr n),
      shiftCur n (run U path 1 b none).cur⟩ := by
  obtain ⟨h, body, level, id, title, rfl, hh, hn⟩ := hb
  obtain ⟨raw, hraw, -⟩ := heading_reqParts hh
  have hs : run U path (1 + n) (h :: body) none = ⟨_, _, _⟩ := shift_run U path n 1 (h :: body) none
  have h0 : (run U path 1 (h :: body) none).reqs = [] := by
    rw [run_req hraw]
    simp only [flush, List.nil_append]
    exact run_body_reqs U path body _ _ (fun l hl' => (reqParts_none_iff (hl l (by simp [hl']))).2 (hn l hl'))
  rw [run_heading U path h _ body _ _ hraw, hs, h0]
  simp

/-- All sections, one after another. -/
theorem sections_run' (U : Unicode) (path : Path) (bs : List (List Str)) (hb : ∀ b ∈ bs, IsSection U b)
    (hl : ∀ b ∈ bs, ∀ l ∈ b, IsLine l) (n : Nat) (cur : Option (State × Requirement)) :
    ((run U path (1 + n) bs.flatten cur).reqs ++ flush (run U path (1 + n) bs.flatten cur).cur).map forgetReq =
      (flush cur).map forgetReq ++ bs.flatMap (fun b => (flush (run U path 1 b none).cur).map forgetReq) ∧
    (run U path (1 + n) bs.flatten cur).errs.map forgetError =
      bs.flatMap (fun b => (run U path 1 b none).errs.map forgetError) := by
  induction bs generalizing n cur with
  | nil => simp [run]
  | cons b bs ih =>
    have h1 := section_run U path (hb b (by simp)) (hl b (by simp)) n cur
    obtain ⟨h2, h3⟩ := ih (fun b h => hb b (by simp [h])) (fun b h => hl b (by simp [h])) (n + b.length)
      (shiftCur n (run U path 1 b none).cur)
    rw [List.flatten_cons, run_append, h1]
    simp only [Nat.add_assoc] at h2 h3 ⊢
    rw [List.flatMap_cons, List.flatMap_cons]
    constructor
    · rw [List.append_assoc, List.map_append, h2, shift_flush, forgetReqs_shift]
    · rw [List.map_append, h3, forgetErrors_shift]

theorem sections_cur (U : Unicode) (path : Path) {bs : List (List Str)} {b : List Str} (hb : IsSection U b)
    (hl : ∀ l ∈ b, IsLine l) (n : Nat) (cur : Option (State × Requirement)) :
    ∃ k, (run U path (1 + n) (bs ++ [b]).flatten cur).cur = shiftCur k (run U path 1 b none).cur := by
  refine ⟨n + bs.flatten.length, ?_⟩
  rw [List.flatten_append, List.flatten_singleton, run_append, Nat.add_assoc, section_run U path hb hl]

/-- A section that is not cut off is given back at the end of the text. -/
theorem uncut_finish (U : Unicode) (path : Path) {b : List Str} (hb : IsSection U b) (hl : ∀ l ∈ b, IsLine l)
    (hu : Uncut U b) (k : Nat) :
    finish none path (shiftCur k (run U path 1 b none).cur) = (flush (shiftCur k (run U path 1 b none).cur), []) := by
  obtain ⟨h, body, level, id, title, rfl, hh, hn⟩ := hb
  obtain ⟨as, hbody⟩ := hu path
  have hd : Sections U path 1 (h :: (body ++ [])) [⟨1, id, title, as, .no⟩] := .cons hh hn (.inl rfl) hbody (.nil _)
  rw [List.append_nil] at hd
  obtain ⟨g, -⟩ := sections_run hd hl none
  have h0 := section_run U path ⟨h, body, level, id, title, rfl, hh, hn⟩ hl 0 none
  rw [shift_finish, shift_flush]
  rw [Nat.add_zero] at h0
  rw [show (run U path 1 (h :: body) none).reqs = [] by rw [h0]; rfl, List.nil_append] at g
  generalize (run U path 1 (h :: body) none).cur = cur at g ⊢
  cases cur with
  | none => cases g
  | some q =>
    obtain ⟨st, r⟩ := q
    simp only [finish] at g ⊢
    split at g
    · cases g
    · rename_i hst
      rw [if_neg hst]
      rfl

/-- What a document of whole sections says, but for the places. -/
theorem parse_sections (U : Unicode) (path : Path) {t : Str} {pre : List Str} {bs : List (List Str)}
    (hp : ∀ l ∈ pre, NoHeading U l) (hl : Lines t (pre ++ bs.flatten)) (hb : ∀ b ∈ bs, IsSection U b)
    (hu : LastUncut U bs) (ht : ¬ OneByteTail t) :
    ∃ rs es, Md.parse U ⟨t, none⟩ path = .ok (rs, es) ∧
      rs.map forgetReq = bs.flatMap (fun b => (flush (run U path 1 b none).cur).map forgetReq) ∧
      es.map forgetError = bs.flatMap (fun b => (run U path 1 b none).errs.map forgetError) := by
  have hls := lines_iff.1 hl
  have hline : ∀ l ∈ pre ++ bs.flatten, IsLine l := fun l h => isLine_of_mem (hls ▸ h)
  have hlb : ∀ b ∈ bs, ∀ l ∈ b, IsLine l := fun b h l h' =>
    hline l (List.mem_append_right _ (List.mem_flatten.2 ⟨b, h, h'⟩))
  refine ⟨_, _, parse_run U ⟨t, none⟩ path ht, ?_⟩
  simp only [← hls]
  rw [run_append, run_idle U path 1 pre (fun l h => (reqParts_none_iff (hline l (by simp [h]))).2 (hp l h))]
  simp only [List.nil_append]
  obtain ⟨h1, h2⟩ := sections_run' U path bs hb hlb pre.length none
  have hf : finish none path (run U path (1 + pre.length) bs.flatten none).cur =
      (flush (run U path (1 + pre.length) bs.flatten none).cur, []) := by
    cases hg : bs.getLast? with
    | none =>
      rw [List.getLast?_eq_none_iff] at hg
      subst hg
      rfl
    | some b =>
      obtain ⟨bs', rfl⟩ := List.getLast?_eq_some_iff.1 hg
      obtain ⟨k, hk⟩ := sections_cur U path (bs := bs') (hb b (by simp)) (hlb b (by simp)) pre.length none
      rw [hk]
      exact uncut_finish U path (hb b (by simp)) (hlb b (by simp)) (hu b hg) k
  rw [hf]
  refine ⟨?_, ?_⟩
  · rw [h1]; simp [flush]
  · rw [List.append_nil, h2]

/-- What a document of whole sections says and what it loses, but for the places. -/
theorem parse_sections_lost (U : Unicode) (path : Path) {t : Str} {pre : List Str} {bs : List (List Str)}
    (hp : ∀ l ∈ pre, NoHeading U l) (hl : Lines t (pre ++ bs.flatten)) (hb : ∀ b ∈ bs, IsSection U b)
    (ht : ¬ OneByteTail t) :
    ∃ rs es lost, Md.parse U ⟨t, none⟩ path = .ok (rs, es) ∧ Lost U path bs lost ∧
      (rs ++ lost).map forgetReq = bs.flatMap (fun b => (flush (run U path 1 b none).cur).map forgetReq) ∧
      es.map forgetError = bs.flatMap (fun b => (run U path 1 b none).errs.map forgetError) := by
  have hls := lines_iff.1 hl
  have hline : ∀ l ∈ pre ++ bs.flatten, IsLine l := fun l h => isLine_of_mem (hls ▸ h)
  have hlb : ∀ b ∈ bs, ∀ l ∈ b, IsLine l := fun b h l h' =>
    hline l (List.mem_append_right _ (List.mem_flatten.2 ⟨b, h, h'⟩))
  obtain ⟨h1, h2⟩ := sections_run' U path bs hb hlb pre.length none
  have hf : ∃ lost, Lost U path bs lost ∧ (finish none path (run U path (1 + pre.length) bs.flatten none).cur).2 = [] ∧
      ((finish none path (run U path (1 + pre.length) bs.flatten none).cur).1 ++ lost).map forgetReq =
        (flush (run U path (1 + pre.length) bs.flatten none).cur).map forgetReq := by
    cases hg : bs.getLast? with
    | none =>
      rw [List.getLast?_eq_none_iff] at hg
      subst hg
      exact ⟨[], .none (by simp), rfl, rfl⟩
    | some b =>
      obtain ⟨bs', rfl⟩ := List.getLast?_eq_some_iff.1 hg
      obtain ⟨k, hk⟩ := sections_cur U path (bs := bs') (hb b (by simp)) (hlb b (by simp)) pre.length none
      rw [hk, shift_finish, shift_flush]
      have hlines := hlb b (by simp)
      obtain ⟨h, body, level, id, title, rfl, hh, hn⟩ := hb b (by simp)
      obtain ⟨raw, hp, hraw⟩ := heading_reqParts hh
      obtain ⟨as, cut, hbody⟩ := body_exists U path 2 body
      rw [run_req hp]
      simp only
      have hrep : Rep path 1 id title [] (newReq (.newWithLineNo path 1) id raw) := by
        refine ⟨⟨rfl, by simp [newReq, hraw], rfl, rfl, rfl, rfl, ?_⟩, ?_⟩
        · intro a; rfl
        · intro x hx; cases hx
      obtain ⟨st, r, g1, g2, g3⟩ := body_run hbody 1 id title (fun x hx => ⟨hlines x (by simp [hx]), hn x hx⟩) _ hrep
      rw [g1]
      have hreq : IsRequirement path ⟨1, id, title, as, cut⟩ (commit st r) :=
        ⟨g2.1.id, g2.1.title, g2.1.location, g2.1.covers, g2.1.depends, g2.1.tags, g2.1.attributes⟩
      by_cases hc : cut = .no
      · subst hc
        have : st ≠ .lookForReq := fun h => (g3.1 h) rfl
        refine ⟨[], .none fun b hb' => ?_, ?_, ?_⟩
        · cases hg.symm.trans hb'
          exact ⟨as, hbody⟩
        · simp [finish, if_neg this]
        · simp [finish, if_neg this, flush]
      · have : st = .lookForReq := g3.2 hc
        refine ⟨[commit st r], .last hg hh hbody hc hreq, ?_, ?_⟩
        · simp [finish, if_pos this]
        · simp only [finish, if_pos this, flush, List.map_nil, List.nil_append, forgetReqs_shift]
  obtain ⟨lost, k1, k2, k3⟩ := hf
  refine ⟨_, _, lost, parse_run U ⟨t, none⟩ path ht, k1, ?_⟩
  simp only [← hls]
  rw [run_append, run_idle U path 1 pre (fun l h => (reqParts_none_iff (hline l (by simp [h]))).2 (hp l h))]
  simp only [List.nil_append]
  refine ⟨?_, ?_⟩
  · rw [List.append_assoc, List.map_append, k3, ← List.map_append, h1]
    simp [flush]
  · rw [k2, List.append_nil, h2]

end Md

open Md

theorem reordered_tail {U : Unicode} {t t' : Str} {bs bs' : List (List Str)} (h : SectionsReordered U t t' bs bs') :
    OneByteTail t ↔ OneByteTail t' := by
  obtain ⟨pre, -, h1, h2⟩ := h.lines
  rw [← trips_iff, ← trips_iff, ← lines_iff.1 h1, ← lines_iff.1 h2]
  have hm : ∀ l, l ∈ pre ++ bs.flatten ↔ l ∈ pre ++ bs'.flatten := fun l => (h.perm.flatten.append_left pre).mem_iff
  simp only [hm]

/-- **C134 as listed**: the order of the sections does not matter for what is found. -/
def C134_statement : Prop :=
  ∀ (U : Unicode) (t t' : Str) (path : Path) (bs bs' : List (List Str)) (rs rs' : List Requirement) (es es' : List Error),
    SectionsReordered U t t' bs bs' → Md.parse U ⟨t, none⟩ path = .ok (rs, es) → Md.parse U ⟨t', none⟩ path = .ok (rs', es') →
    SameInOrder rs rs' es es'

/-- **C134** if the last section of each of the two documents is not cut off by a heading or a wrong line: the requirements and
errors are the same, but for places and order.  Missing: documents that end with such a section, for which it is false. -/
theorem C134_sections_partial (U : Unicode) (t t' : Str) (path : Path) (bs bs' : List (List Str))
    (h : SectionsReordered U t t' bs bs') (hu : LastUncut U bs) (hu' : LastUncut U bs')
    {rs : List Requirement} {es : List Error} (hp : Md.parse U ⟨t, none⟩ path = .ok (rs, es)) :
    ∃ rs' es', Md.parse U ⟨t', none⟩ path = .ok (rs', es') ∧ SameInOrder rs rs' es es' := by
  have ht : ¬ OneByteTail t := fun ht => (C30_panics_iff_partial U ⟨t, none⟩ path).2 ht ⟨_, hp⟩
  have ht' := fun h' => ht ((reordered_tail h).2 h')
  obtain ⟨pre, h0, h1, h2⟩ := h.lines
  obtain ⟨a, b, g1, g2, g3⟩ := parse_sections U path h0 h1 h.sections hu ht
  obtain ⟨a', b', g1', g2', g3'⟩ := parse_sections U path h0 h2 (fun b hb => h.sections b (h.perm.mem_iff.2 hb)) hu' ht'
  rw [hp] at g1
  cases g1
  refine ⟨a', b', g1', ?_, ?_⟩
  · rw [g2, g2']; exact h.perm.flatMap_right _
  · rw [g3, g3']; exact h.perm.flatMap_right _

/-- **C134** for all documents: but for places and order the errors are the same, and so are the requirements together with
that of the last section of each of the two documents, which is lost if this section is cut off.  Missing: that nothing is
lost, which is false. -/
theorem C134_exact_partial (U : Unicode) (t t' : Str) (path : Path) (bs bs' : List (List Str))
    (h : SectionsReordered U t t' bs bs') {rs : List Requirement} {es : List Error}
    (hp : Md.parse U ⟨t, none⟩ path = .ok (rs, es)) :
    ∃ rs' es' lost lost', Md.parse U ⟨t', none⟩ path = .ok (rs', es') ∧ Lost U path bs lost ∧ Lost U path bs' lost' ∧
      SameInOrder (rs ++ lost) (rs' ++ lost') es es' := by
  have ht : ¬ OneByteTail t := fun ht => (C30_panics_iff_partial U ⟨t, none⟩ path).2 ht ⟨_, hp⟩
  have ht' := fun h' => ht ((reordered_tail h).2 h')
  obtain ⟨pre, h0, h1, h2⟩ := h.lines
  obtain ⟨a, b, l, g1, g0, g2, g3⟩ := parse_sections_lost U path h0 h1 h.sections ht
  obtain ⟨a', b', l', g1', g0', g2', g3'⟩ :=
    parse_sections_lost U path h0 h2 (fun b hb => h.sections b (h.perm.mem_iff.2 hb)) ht'
  rw [hp] at g1
  cases g1
  refine ⟨a', b', l, l', g1', g0, g0', ?_, ?_⟩
  · rw [g2, g2']; exact h.perm.flatMap_right _
  · rw [g3, g3']; exact h.perm.flatMap_right _

namespace SectionsExample

open DocExample

def a : List Str := [c!"# REQ_A: title a\n", c!"\n", c!"Covers: UP\n", c!"# Appendix\n"]
def b : List Str := [c!"# REQ_B: title b\n", c!"Comment: x\n", c!"Comment: y\n"]
def c : List Str := [c!"# REQ_C: title c\n", c!"Comment: more\n"]

def one : Str := c!"Intro\n# REQ_A: title a\n\nCovers: UP\n# Appendix\n# REQ_B: title b\nComment: x\nComment: y\n# REQ_C: title c\nComment: more\n"
def two : Str := c!"Intro\n# REQ_C: title c\nComment: more\n# REQ_A: title a\n\nCovers: UP\n# Appendix\n# REQ_B: title b\nComment: x\nComment: y\n"
def three : Str := c!"Intro\n# REQ_C: title c\nComment: more\n# REQ_B: title b\nComment: x\nComment: y\n# REQ_A: title a\n\nCovers: UP\n# Appendix\n"

theorem line {l : Str} (h : l.getLast? = some '\n' ∧ '\n' ∉ l.dropLast) : ∃ u, l = u ++ ['\n'] ∧ '\n' ∉ u := by
  obtain ⟨h1, h2⟩ := h
  obtain ⟨u, rfl⟩ := List.getLast?_eq_some_iff.1 h1
  exact ⟨u, rfl, by simpa using h2⟩

theorem sections : ∀ x ∈ [a, b, c], IsSection .ascii x := by
  simp only [List.mem_cons, List.not_mem_nil, or_false, forall_eq_or_imp, forall_eq]
  refine ⟨⟨_, _, _, _, _, rfl, head (id := c!"REQ_A") (raw := c!"title a") (line (by decide)) (by decide +kernel), ?_⟩,
    ⟨_, _, _, _, _, rfl, head (id := c!"REQ_B") (raw := c!"title b") (line (by decide)) (by decide +kernel), ?_⟩,
    ⟨_, _, _, _, _, rfl, head (id := c!"REQ_C") (raw := c!"title c") (line (by decide)) (by decide +kernel), ?_⟩⟩
  all_goals simp only [List.mem_cons, List.not_mem_nil, or_false, forall_eq_or_imp, forall_eq]
  · exact ⟨noHead (line (by decide)) (by decide +kernel), noHead (line (by decide)) (by decide +kernel),
      noHead (line (by decide)) (by decide +kernel)⟩
  · exact ⟨noHead (line (by decide)) (by decide +kernel), noHead (line (by decide)) (by decide +kernel)⟩
  · exact noHead (line (by decide)) (by decide +kernel)

theorem intro_line : ∀ l ∈ [c!"Intro\n"], NoHeading .ascii l := by
  simp only [List.mem_cons, List.not_mem_nil, or_false, forall_eq]
  exact noHead (line (by decide)) (by decide +kernel)

theorem reordered : SectionsReordered .ascii one two [a, b, c] [c, a, b] ∧ SectionsReordered .ascii one three [a, b, c] [c, b, a] :=
  ⟨⟨⟨[c!"Intro\n"], intro_line, lines_iff.2 (by decide +kernel), lines_iff.2 (by decide +kernel)⟩, sections, by decide +kernel⟩,
    ⟨⟨[c!"Intro\n"], intro_line, lines_iff.2 (by decide +kernel), lines_iff.2 (by decide +kernel)⟩, sections, by decide +kernel⟩⟩

/-- The sections of the example that are not cut off. -/
theorem uncut : LastUncut .ascii [a, b, c] ∧ LastUncut .ascii [c, a, b] := by
  have a1 : AttrLine c!"Comment: x\n" c!"Comment" c!"x" := attr (line (by decide)) (by decide +kernel)
  have a2 : AttrLine c!"Comment: y\n" c!"Comment" c!"y" := attr (line (by decide)) (by decide +kernel)
  have a3 : AttrLine c!"Comment: more\n" c!"Comment" c!"more" := attr (line (by decide)) (by decide +kernel)
  constructor
  · intro x hx
    cases hx
    intro path
    exact ⟨_, .attrs (.inr ⟨_, _, _, _, rfl, a3⟩) (.text (more := []) (rest := []) a3 (by decide) (by decide) (by simp)
      (.inl (.inl rfl)) (.nil _))⟩
  · intro x hx
    cases hx
    intro path
    exact ⟨_, .attrs (.inr ⟨_, _, _, _, rfl, a1⟩) (.text (more := []) (rest := [c!"Comment: y\n"]) a1 (by decide) (by decide)
      (by simp) (.inr ⟨_, _, _, _, rfl, a2⟩) (.text (more := []) (rest := []) a2 (by decide) (by decide) (by simp)
      (.inl (.inl rfl)) (.nil _)))⟩

def found (t : Str) : Option (List Str × Nat) :=
  (Md.parse .ascii ⟨t, none⟩ c!"f").toOption.map fun x => (x.1.map (·.id), x.2.length)

/-- The sections in three orders; in the last of them a requirement is lost. -/
theorem all_found : found one = some ([c!"REQ_A", c!"REQ_B", c!"REQ_C"], 1) ∧
    found two = some ([c!"REQ_C", c!"REQ_A", c!"REQ_B"], 1) ∧ found three = some ([c!"REQ_C", c!"REQ_B"], 1) := by
  decide +kernel

/-- With the sections in the third order one requirement is lost, in the first order none. -/
example : ∃ r, Lost .ascii c!"f" [a, b, c] [] ∧ Lost .ascii c!"f" [c, b, a] [r] := by
  obtain ⟨h1, -, h3⟩ := all_found
  unfold found at h1 h3
  cases e1 : Md.parse .ascii ⟨one, none⟩ c!"f" with
  | error e => rw [e1] at h1; cases h1
  | ok x =>
    obtain ⟨rs', es', lost, lost', k1, k2, k3, k4, -⟩ := C134_exact_partial _ _ _ _ _ _ reordered.2 e1
    rw [e1] at h1
    rw [k1] at h3
    have h1 := congrArg (fun z => (z.map (fun v : List Str × Nat => v.1.length)).getD 0) h1
    have h3 := congrArg (fun z => (z.map (fun v : List Str × Nat => v.1.length)).getD 0) h3
    simp only [Except.toOption, Option.map_some, Option.getD_some, List.length_map] at h1 h3
    have := k4.length_eq
    simp only [List.length_map, List.length_append, h1, h3, List.length_cons, List.length_nil] at this
    cases k2 with
    | none =>
      cases k3 with
      | none => simp at this
      | last a b c d e => exact ⟨_, .none ‹_›, .last a b c d e⟩
    | last => cases k3 <;> simp at this

end SectionsExample

open SectionsExample in
/-- C134 is false as listed: a section that a heading cuts off is lost if it is the last one. -/
theorem C134_false : ¬ C134_statement := by
  intro h
  obtain ⟨h1, -, h3⟩ := all_found
  unfold found at h1 h3
  cases e1 : Md.parse .ascii ⟨one, none⟩ c!"f" with
  | error e => rw [e1] at h1; cases h1
  | ok x =>
    cases e3 : Md.parse .ascii ⟨three, none⟩ c!"f" with
    | error e => rw [e3] at h3; cases h3
    | ok y =>
      rw [e1] at h1
      rw [e3] at h3
      obtain ⟨hp, -⟩ := h _ _ _ c!"f" _ _ _ _ _ _ reordered.2 e1 e3
      have h1 := congrArg (fun z => (z.map (fun v : List Str × Nat => v.1.length)).getD 0) h1
      have h3 := congrArg (fun z => (z.map (fun v : List Str × Nat => v.1.length)).getD 0) h3
      simp only [Except.toOption, Option.map_some, Option.getD_some, List.length_map] at h1 h3
      have := hp.length_eq
      simp only [List.length_map] at this
      rw [h1, h3] at this
      exact absurd this (by decide)

end Reqtrace
