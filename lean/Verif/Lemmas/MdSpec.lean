import Verif.Lemmas.Md

/-!
# The line regexes agree with the declarative description of lines
-/

set_option linter.unusedSimpArgs false

namespace Reqtrace

open Spec

theorem trim_blank_append {a s : Str} (h : Blank a) : trim (a ++ s) = trim s := by
  induction a with
  | nil => rfl
  | cons c a ih =>
    rw [List.cons_append, trim_cons_ws (h c (by simp)), ih (fun d hd => h d (by simp [hd]))]

theorem trimEnd_append_blank {s b : Str} (h : Blank b) : trimEnd (s ++ b) = trimEnd s := by
  unfold trimEnd
  rw [List.reverse_append, dropWhile_append_of_eq]
  rw [dropWhile_all]
  intro c hc
  exact h c (by simpa using hc)

theorem trimsTo_iff {s t : Str} : TrimsTo s t ↔ t = trim s := by
  constructor
  · rintro ⟨a, b, rfl, ha, hb, h1, h2⟩
    rw [List.append_assoc, trim_blank_append ha]
    cases t with
    | nil => rw [List.nil_append]; exact (trim_eq_nil.2 hb).symm
    | cons c t =>
      unfold trim
      rw [List.cons_append, trimStart_trimmed (by
        intro d u h; cases h; exact h1 c t rfl), ← List.cons_append, trimEnd_append_blank hb,
        trimEnd_trimmed h2]
  · rintro rfl
    obtain ⟨w, w', h1, h2, h3⟩ := trim_decomp s
    obtain ⟨h4, h5⟩ := trim_trimmed s
    exact ⟨w, w', h1, List.all_eq_true.1 h2, List.all_eq_true.1 h3, h4, h5⟩

/-- No further character of an identifier. -/
def StopsIdent (U : Unicode) (r : Str) : Prop := ∀ c t, r = c :: t → U.xidContinue c = false

theorem takeWhile_append_stop {p : Char → Bool} {a r : Str} (ha : ∀ c ∈ a, p c = true)
    (hr : ∀ c t, r = c :: t → p c = false) :
    (a ++ r).takeWhile p = a ∧ (a ++ r).dropWhile p = r := by
  induction a with
  | nil =>
    cases r with
    | nil => simp
    | cons c t => simp [hr c t rfl]
  | cons c a ih =>
    have hc := ha c (by simp)
    have := ih (fun d hd => ha d (by simp [hd]))
    simp [hc, this]

theorem identSplit_iff {U : Unicode} {s id r : Str} :
    identSplit U s = some (id, r) ↔ IsIdent U id ∧ s = id ++ r ∧ StopsIdent U r := by
  constructor
  · intro h
    match s, h with
    | c :: d :: t, h =>
      simp only [identSplit] at h
      split at h
      · rename_i hcd
        simp only [Bool.and_eq_true] at hcd
        cases h
        refine ⟨⟨c, d :: t.takeWhile U.xidContinue, rfl, by simp, hcd.1, ?_⟩, ?_, ?_⟩
        · intro x hx
          rcases List.mem_cons.1 hx with rfl | hx
          · exact hcd.2
          · exact mem_takeWhile hx
        · simp [List.takeWhile_append_dropWhile]
        · intro x y hxy
          have := List.head_dropWhile_not U.xidContinue (l := t) (by rw [hxy]; simp)
          simpa [hxy] using this
      · cases h
  · rintro ⟨⟨c, t, rfl, ht, hc, hd⟩, rfl, hstop⟩
    cases t with
    | nil => exact absurd rfl ht
    | cons d t =>
      have := takeWhile_append_stop (a := t) (r := r) (fun x hx => hd x (by simp [hx])) hstop
      simp [identSplit, hc, hd d (by simp), this]

theorem Spec.IsIdent.head_not_ws {U : Unicode} {id : Str} (h : IsIdent U id) :
    ∀ c t, id = c :: t → isWs c = false ∧ c ≠ '#' ∧ U.xidStart c = true := by
  obtain ⟨c, t, rfl, _, hc, _⟩ := h
  intro c' t' h'
  cases h'
  refine ⟨U.continue_ws c (U.start_continue c hc), ?_, hc⟩
  rintro rfl
  rw [U.start_hash] at hc; cases hc

theorem Spec.IsIdent.ne_nil {U : Unicode} {id : Str} (h : IsIdent U id) : id ≠ [] := by
  obtain ⟨c, t, rfl, _⟩ := h; simp

theorem Spec.IsIdent.cont {U : Unicode} {id : Str} (h : IsIdent U id) :
    ∀ c ∈ id, U.xidContinue c = true := by
  obtain ⟨c, t, rfl, _, hc, hd⟩ := h
  intro x hx
  rcases List.mem_cons.1 hx with rfl | hx
  · exact U.start_continue _ hc
  · exact hd x hx

theorem Spec.IsIdent.no_ws {U : Unicode} {id : Str} (h : IsIdent U id) : ∀ c ∈ id, isWs c = false :=
  fun c hc => U.continue_ws c (h.cont c hc)

theorem blank_takeWhile (s : Str) : Blank (s.takeWhile isWs) := fun _ hc => mem_takeWhile hc

theorem dropWhile_ws_ident {U : Unicode} {w id tail : Str} (hw : Blank w) (hid : IsIdent U id) :
    (w ++ (id ++ tail)).takeWhile isWs = w ∧ (w ++ (id ++ tail)).dropWhile isWs = id ++ tail := by
  apply takeWhile_append_stop hw
  intro c t h
  have hh := hid.head_not_ws
  obtain ⟨d, u, rfl, _⟩ := hid
  cases h
  exact (hh _ _ rfl).1

theorem IsLine.cases {s : Str} (h : IsLine s) : ∃ nl, s = body s ++ nl ∧ LineEnd nl := h

namespace Md

theorem reqParts_heading {U : Unicode} {l : Str} (hl : IsLine l) {p : Str × Str × Str}
    (h : reqParts U l = some p) :
    p.1 = List.replicate p.1.length '#' ∧ ReqHeading U l p.1.length p.2.1 (trim p.2.2) := by
  unfold reqParts at h
  split at h
  · cases h
  rename_i hne
  split at h
  · rename_i id rest heq
    split at h
    · cases h
    rename_i hb
    cases h
    obtain ⟨h1, h2, _⟩ := identSplit_iff.1 heq
    have hrep : l.takeWhile (· == '#') = List.replicate (l.takeWhile (· == '#')).length '#' := by
      apply List.eq_replicate_of_mem
      intro c hc
      simpa using mem_takeWhile hc
    refine ⟨hrep, List.length_pos_iff.2 hne, h1, (l.dropWhile (· == '#')).takeWhile isWs, body rest, ?_⟩
    have hrest : IsLine rest := by
      have := (hl.dropWhile (· == '#')).dropWhile isWs
      rw [h2] at this
      exact this.suffix.tail
    obtain ⟨nl, e1, e2⟩ := hrest
    refine ⟨nl, ?_, blank_takeWhile _, hb, body_no_nl _, e2, ?_⟩
    · rw [← hrep]
      have a1 := List.takeWhile_append_dropWhile (p := (· == '#')) (l := l)
      have a2 := List.takeWhile_append_dropWhile (p := isWs) (l := l.dropWhile (· == '#'))
      rw [h2] at a2
      generalize ((l.dropWhile (· == '#')).takeWhile isWs) = w at *
      generalize (l.takeWhile (· == '#')) = hs at *
      rw [← a1, ← a2]
      rw [e1]
      rw [body_append (body_no_nl _) e2]
      simp
    · rw [trimsTo_iff]
      exact trim_rawTitle _
  · cases h

theorem heading_reqParts {U : Unicode} {l : Str} {level : Nat} {id title : Str}
    (h : ReqHeading U l level id title) :
    ∃ raw, reqParts U l = some (List.replicate level '#', id, raw) ∧ trim raw = title := by
  obtain ⟨hlev, hid, w, rest, nl, rfl, hw, hne, hnl, he, ht⟩ := h
  have e : List.replicate level '#' ++ w ++ id ++ ':' :: rest ++ nl =
      List.replicate level '#' ++ (w ++ (id ++ (':' :: (rest ++ nl)))) := by simp
  rw [e]
  have h1 := takeWhile_append_stop (p := (· == '#')) (a := List.replicate level '#')
    (r := w ++ (id ++ (':' :: (rest ++ nl)))) (by
      intro c hc; simpa using (List.mem_replicate.1 hc).2) (by
      intro c t hct
      cases w with
      | nil =>
        obtain ⟨d, u, rfl, hrest⟩ := hid
        simp at hct
        have := (IsIdent.head_not_ws ⟨d, u, rfl, hrest⟩ d u rfl).2.1
        rw [← hct.1]; simpa using this
      | cons x w =>
        simp at hct
        have := hw x (by simp)
        rw [hct.1] at this
        cases hcc : (c == '#') with
        | false => rfl
        | true =>
          simp at hcc; subst hcc
          exact absurd this (by decide))
  have h2 := dropWhile_ws_ident (tail := ':' :: (rest ++ nl)) hw hid
  have h3 : identSplit U (id ++ ':' :: (rest ++ nl)) = some (id, ':' :: (rest ++ nl)) := by
    rw [identSplit_iff]
    refine ⟨hid, rfl, ?_⟩
    intro c t h; cases h; exact U.continue_colon
  have hrep : List.replicate level '#' ≠ [] := by
    intro h; have := congrArg List.length h; simp at this; omega
  refine ⟨rawTitle rest, ?_, ?_⟩
  · unfold reqParts
    rw [h1.1, h1.2, h2.2, h3]
    simp only [hrep, if_false, body_append hnl he, hne]
  · rw [trim_rawTitle, trimsTo_iff.1 ht]

theorem reqParts_none_iff {U : Unicode} {l : Str} (hl : IsLine l) :
    reqParts U l = none ↔ ∀ level id title, ¬ ReqHeading U l level id title := by
  constructor
  · intro h level id title hh
    obtain ⟨raw, h1, _⟩ := heading_reqParts hh
    rw [h] at h1; cases h1
  · intro h
    cases hq : reqParts U l with
    | none => rfl
    | some p => exact absurd (reqParts_heading hl hq).2 (h _ _ _)

/-! ## Attribute lines -/

theorem attrParts_iff {l : Str} (hl : IsLine l) {a v : Str} :
    attrParts l = some (a, v) ↔ AttrLine l a v := by
  constructor
  · intro h
    cases l with
    | nil => cases h
    | cons c t =>
      rw [attrParts] at h
      split at h
      · rename_i hc
        split at h
        · rename_i rest heq
          cases h
          have hrest : IsLine rest := by
            have := hl.tail.dropWhile Char.isLower
            rw [heq] at this
            exact this.tail
          obtain ⟨nl, e1, e2⟩ := hrest
          refine ⟨c, t.takeWhile Char.isLower, body rest, nl, rfl, hc.1, hc.2,
            fun d hd => mem_takeWhile hd, ?_, body_no_nl _, e2, ?_, trimStart_head _⟩
          · have a1 := List.takeWhile_append_dropWhile (p := Char.isLower) (l := t)
            rw [heq] at a1
            rw [List.cons_append, List.cons_append, List.append_assoc, List.cons_append, ← e1, a1]
          · obtain ⟨w, h1, h2⟩ := trimStart_suffix (body rest)
            exact ⟨w, h1, List.all_eq_true.1 h2⟩
        · cases h
      · cases h
  · rintro ⟨c, low, rest, nl, rfl, hc, hlow, hall, rfl, hnl, he, ⟨w, hw, hwb⟩, hv⟩
    have e : c :: low ++ ':' :: rest ++ nl = c :: (low ++ (':' :: (rest ++ nl))) := by simp
    rw [e]
    have h1 := takeWhile_append_stop (a := low) (r := ':' :: (rest ++ nl)) hall (by
      intro d t h; cases h; decide)
    rw [attrParts, h1.1, h1.2]
    simp only [hc, hlow, ne_eq, not_false_eq_true, and_self, if_true, body_append hnl he]
    have : trimStart rest = v := by
      rw [hw]
      unfold trimStart
      exact (takeWhile_append_stop (p := isWs) hwb hv).2
    rw [this]

theorem attrParts_none_iff {l : Str} (hl : IsLine l) :
    attrParts l = none ↔ ∀ a v, ¬ AttrLine l a v := by
  constructor
  · intro h a v hh
    rw [(attrParts_iff hl).2 hh] at h; cases h
  · intro h
    cases hq : attrParts l with
    | none => rfl
    | some p => exact absurd ((attrParts_iff hl).1 hq) (h _ _)

/-! ## Reference lines -/

theorem rawTitle_iff {rest t : Str} (hne : rest ≠ []) : rawTitle rest = t ↔
    ((t ≠ [] ∧ TrimsTo rest t) ∨ (∃ u c, Blank rest ∧ rest = u ++ [c] ∧ t = [c])) := by
  rw [trimsTo_iff]
  by_cases h : trim rest = []
  · have hb : Blank rest := trim_eq_nil.1 h
    obtain ⟨u, c, rfl⟩ : ∃ u c, rest = u ++ [c] :=
      ⟨rest.dropLast, rest.getLast hne, (List.dropLast_concat_getLast hne).symm⟩
    have : rawTitle (u ++ [c]) = [c] := by
      unfold rawTitle
      rw [if_pos h]
      simp
    rw [this]
    constructor
    · rintro rfl; exact .inr ⟨u, c, hb, rfl, rfl⟩
    · rintro (⟨h1, h2⟩ | ⟨u', c', _, h2, h3⟩)
      · rw [h] at h2; exact absurd h2 h1
      · simp at h2; rw [h3, h2.2]
  · rw [rawTitle_of_trim h]
    constructor
    · rintro rfl; exact .inl ⟨h, rfl⟩
    · rintro (⟨h1, h2⟩ | ⟨u', c', hb, _, _⟩)
      · exact h2.symm
      · exact absurd (trim_eq_nil.2 hb) h

theorem refTail_iff {U : Unicode} {s : Str} (hs : IsLine s) {id : Str} {t : Option Str} :
    refTail U s = some (id, t) ↔ RefEnd U s id t := by
  constructor
  · intro h
    unfold refTail at h
    split at h
    · cases h
    rename_i hws
    split at h
    · rename_i id' r heq
      obtain ⟨h1, h2, hst⟩ := identSplit_iff.1 heq
      have a1 := List.takeWhile_append_dropWhile (p := isWs) (l := s)
      rw [h2] at a1
      have hr : IsLine r := by
        have := hs.dropWhile isWs
        rw [h2] at this
        exact this.suffix
      split at h
      · rename_i hall
        cases h
        exact ⟨h1, _, r, hws, blank_takeWhile s, by rw [List.append_assoc]; exact a1.symm,
          .inl ⟨List.all_eq_true.1 hall, rfl⟩⟩
      · split at h
        · rename_i rest _
          split at h
          · cases h
          rename_i hb
          cases h
          obtain ⟨nl, e1, e2⟩ := hr.tail
          refine ⟨h1, _, ':' :: rest, hws, blank_takeWhile s, by rw [List.append_assoc]; exact a1.symm,
            .inr ⟨body rest, nl, _, ?_, body_no_nl _, e2, rfl, (rawTitle_iff hb).1 rfl⟩⟩
          rw [List.cons_append, ← e1]
        · cases h
    · cases h
  · rintro ⟨hid, w, tail, hw, hwb, rfl, h⟩
    rw [List.append_assoc]
    have h2 := dropWhile_ws_ident (tail := tail) hwb hid
    unfold refTail
    rw [h2.1, h2.2]
    have hstop : StopsIdent U tail := by
      rcases h with ⟨hb, _⟩ | ⟨rest, nl, t, rfl, _⟩
      · intro c u hcu
        exact U.continue_false (hb c (by rw [hcu]; simp))
      · intro c u hcu; cases hcu; exact U.continue_colon
    rw [identSplit_iff.2 ⟨hid, rfl, hstop⟩]
    simp only [hw, if_false]
    rcases h with ⟨hb, rfl⟩ | ⟨rest, nl, t, rfl, hnl, he, rfl, ht⟩
    · rw [if_pos (List.all_eq_true.2 hb)]
    · have hne : rest ≠ [] := by
        rcases ht with ⟨h1, h2⟩ | ⟨u, c, _, h2, _⟩
        · rintro rfl
          rw [trimsTo_iff] at h2
          exact h1 h2
        · rw [h2]; simp
      rw [if_neg (by simp [show isWs ':' = false by decide])]
      simp only [List.cons_append, body_append hnl he, hne, if_false]
      rw [(rawTitle_iff hne).2 ht]

theorem refParts_iff {U : Unicode} {s : Str} (hs : IsLine s) {id : Str} {t : Option Str} :
    refParts U s = some (id, t) ↔ RefLine U s id t := by
  induction s with
  | nil =>
    constructor
    · intro h; cases h
    · rintro ⟨pre, s, h, ⟨hid, w, tail, hw, _, rfl, _⟩, _⟩
      simp at h
      exact absurd h.2.1 hw
  | cons c u ih =>
    rw [refParts]
    constructor
    · intro h
      cases hq : refTail U (c :: u) with
      | some p =>
        rw [hq] at h
        cases h
        exact ⟨[], c :: u, rfl, (refTail_iff hs).1 hq, by intro _ _ _ h; simp at h⟩
      | none =>
        rw [hq] at h
        obtain ⟨pre, s, h1, h2, h3⟩ := (ih hs.tail).1 h
        refine ⟨c :: pre, s, by rw [h1]; rfl, h2, ?_⟩
        intro pre' s' he hlen id' t' hr
        cases pre' with
        | nil =>
          simp at he; subst he
          rw [(refTail_iff hs).2 hr] at hq; cases hq
        | cons x pre' =>
          simp at he
          exact h3 pre' s' he.2 (by simpa using hlen) id' t' hr
    · rintro ⟨pre, s, h1, h2, h3⟩
      cases pre with
      | nil =>
        simp at h1; subst h1
        rw [(refTail_iff hs).2 h2]; rfl
      | cons x pre =>
        have hq : refTail U (c :: u) = none := by
          cases hq : refTail U (c :: u) with
          | none => rfl
          | some p =>
            exact absurd ((refTail_iff hs).1 hq) (h3 [] (c :: u) rfl (by simp) _ _)
        rw [hq, Option.none_or]
        simp at h1
        refine (ih hs.tail).2 ⟨pre, s, h1.2, h2, ?_⟩
        intro pre' s' he hlen
        refine h3 (c :: pre') s' ?_ (by simpa using hlen)
        rw [he]; rfl

theorem refParts_none_iff {U : Unicode} {l : Str} (hl : IsLine l) :
    refParts U l = none ↔ ∀ id t, ¬ RefLine U l id t := by
  constructor
  · intro h a v hh
    rw [(refParts_iff hl).2 hh] at h; cases h
  · intro h
    cases hq : refParts U l with
    | none => rfl
    | some p => exact absurd ((refParts_iff hl).1 hq) (h _ _)

end Md

end Reqtrace
