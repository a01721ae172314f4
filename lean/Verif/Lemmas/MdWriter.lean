import Verif.Lemmas.MdRun
import Verif.Spec.MdWriter

/-!
# Parsing a canonical Markdown document
-/

set_option linter.unusedSimpArgs false

namespace Reqtrace

open Spec

namespace Md

/-! ## Lines -/

theorem reqParts_none_of_head {U : Unicode} {l : Str} (h : l.head? ≠ some '#') : reqParts U l = none := by
  unfold reqParts
  rw [if_pos]
  cases l with
  | nil => rfl
  | cons c t =>
    have : c ≠ '#' := by simpa using h
    simp [this]

theorem Spec.OneLine.trims {s t : Str} (h : OneLine s) (w : Str) (hw : Blank w) (ht : t = w ++ s) :
    TrimsTo t s := ⟨w, [], by simp [ht], hw, (by intro c hc; cases hc), h.2.2.1, h.2.2.2⟩

theorem blank_space : Blank c!" " := by
  intro c hc; simp at hc; subst hc; decide

theorem heading_line {U : Unicode} {level : Nat} {id title : Str} (h0 : 0 < level) (hid : IsIdent U id)
    (ht : OneLine title) :
    ReqHeading U (List.replicate level '#' ++ c!" " ++ id ++ c!": " ++ title ++ ['\n']) level id title := by
  refine ⟨h0, hid, c!" ", ' ' :: title, ['\n'], by simp, blank_space, by simp, ?_, .inr rfl, ?_⟩
  · simp [ht.2.1]
  · exact Spec.OneLine.trims ht c!" " blank_space rfl

theorem attr_line {a v : Str} (ha : IsWord a) (hv : OneLine v) :
    AttrLine (a ++ c!": " ++ v ++ ['\n']) a v := by
  obtain ⟨c, low, rfl, h1, h2, h3⟩ := ha
  exact ⟨c, low, ' ' :: v, ['\n'], rfl, h1, h2, h3, by simp, by simp [hv.2.1], .inr rfl,
    ⟨c!" ", rfl, blank_space⟩, hv.2.2.1⟩

theorem attr_line_empty {a : Str} (ha : IsWord a) : AttrLine (a ++ c!":\n") a [] := by
  obtain ⟨c, low, rfl, h1, h2, h3⟩ := ha
  exact ⟨c, low, [], ['\n'], rfl, h1, h2, h3, by simp, by simp, .inr rfl,
    ⟨[], rfl, by intro c hc; cases hc⟩, by simp⟩

theorem attrLine_isLine {l a v : Str} (h : AttrLine l a v) : IsLine l := by
  obtain ⟨c, low, rest, nl, rfl, h1, h2, h3, rfl, h5, h6, -⟩ := h
  apply isLine_append _ h6
  have : c ≠ '\n' := by rintro rfl; revert h1; decide
  simp only [List.cons_append, List.mem_cons, List.mem_append, not_or]
  refine ⟨Ne.symm this, ?_, by decide, h5⟩
  intro hm
  have := h3 _ hm
  revert this; decide

theorem attrLine_head {l a v : Str} (h : AttrLine l a v) : l.head? ≠ some '#' ∧ l ≠ ['\n'] := by
  obtain ⟨c, low, rest, nl, rfl, h1, h2, h3, rfl, -⟩ := h
  constructor
  · simp only [List.cons_append, List.head?_cons, ne_eq, Option.some.injEq]
    rintro rfl; revert h1; decide
  · simp

theorem ref_line {U : Unicode} {r : Str × Option Str} (hid : IsIdent U r.1)
    (ht : ∀ t, r.2 = some t → OneLine t) : RefLine U (writeRef r) r.1 r.2 := by
  refine ⟨c!"*", (writeRef r).tail, rfl, ⟨hid, c!"   ", ?_⟩, ?_⟩
  · obtain ⟨id, t⟩ := r
    cases t with
    | none =>
      refine ⟨['\n'], by simp, ?_, by simp [writeRef], .inl ⟨?_, rfl⟩⟩
      · intro c hc; simp at hc; subst hc; decide
      · intro c hc; simp at hc; subst hc; decide
    | some t =>
      have ht := ht t rfl
      refine ⟨c!": " ++ t ++ ['\n'], by simp, ?_, by simp [writeRef], .inr ⟨' ' :: t, ['\n'], t,
        by simp, by simp [ht.2.1], .inr rfl, rfl, .inl ⟨ht.1, ?_⟩⟩⟩
      · intro c hc; simp at hc; subst hc; decide
      · exact Spec.OneLine.trims ht c!" " blank_space rfl
  · intro pre' s' he hlen id' t' h
    have : pre' = [] := by
      cases pre' with
      | nil => rfl
      | cons _ _ => simp at hlen
    subst this
    obtain ⟨hid', w, tail, hw, hb, rfl, -⟩ := h
    cases w with
    | nil => exact hw rfl
    | cons c w =>
      have hc := hb c (by simp)
      simp [writeRef] at he
      rw [← he.1] at hc
      revert hc; decide

theorem writeRef_isLine {U : Unicode} {r : Str × Option Str} (hid : IsIdent U r.1)
    (ht : ∀ t, r.2 = some t → OneLine t) : IsLine (writeRef r) := by
  unfold writeRef
  apply isLine_append _ (.inr rfl)
  have h1 : '\n' ∉ r.1 := fun h => by
    have := hid.no_ws _ h
    revert this; decide
  obtain ⟨id, t⟩ := r
  cases t with
  | none => simp at h1 ⊢; exact h1
  | some t => simp [(ht t rfl).2.1] at h1 ⊢; exact h1

theorem writeRef_head {r : Str × Option Str} : (writeRef r).head? ≠ some '#' ∧ writeRef r ≠ ['\n'] := by
  constructor
  · simp [writeRef]
  · simp [writeRef]

/-! ## Blocks -/

/-- The lines lead from one state to another, without errors. -/
def Does (U : Unicode) (path : Path) (n : Nat) (ls : List Str) (c c' : State × Requirement) : Prop :=
  run U path n ls (some c) = ⟨[], [], some c'⟩

theorem Does.nil {U : Unicode} {path : Path} {n : Nat} {c : State × Requirement} :
    Does U path n [] c c := rfl

theorem Does.append {U : Unicode} {path : Path} {n : Nat} {a b : List Str}
    {c c' c'' : State × Requirement} (h1 : Does U path n a c c')
    (h2 : Does U path (n + a.length) b c' c'') : Does U path n (a ++ b) c c'' := by
  unfold Does at *
  rw [run_append, h1]
  simp only [h2, List.nil_append]

theorem Does.one {U : Unicode} {path : Path} {n : Nat} {l : Str} {st : State} {r : Requirement}
    {c' : State × Requirement} (hq : reqParts U l = none)
    (h : step U (.newWithLineNo path n) st r l = (c'.1, c'.2, [])) : Does U path n [l] (st, r) c' := by
  unfold Does
  rw [run_some hq, h]
  simp [run]

/-- States in which a line may start an attribute. -/
def Open : State → Prop
  | .lookForDesc | .collectDescNl _ | .lookForAttr | .collectTextAttr _ _ => True
  | _ => False

theorem step_attr {U : Unicode} {loc : Location} {st : State} {r : Requirement} {l a v : Str}
    (ho : Open st) (h : AttrLine l a v) : step U loc st r l = attrStep loc st r a v := by
  have hp := (attrParts_iff (attrLine_isLine h)).2 h
  obtain ⟨h1, h2⟩ := attrLine_head h
  unfold step
  rw [if_neg h2, if_neg h1]
  unfold textStep
  cases st <;> first | exact ho.elim | simp only [hp]

theorem does_desc {U : Unicode} {path : Path} {n : Nat} {r : Requirement} {desc : List Str}
    (h1 : ∀ l ∈ desc, l ≠ [] ∧ '\n' ∉ l ∧ l.head? ≠ some '#')
    (h2 : ∀ l ls, desc = l :: ls → ∀ a v, ¬ AttrLine (l ++ ['\n']) a v) :
    Does U path n (writeDesc desc) (.lookForDesc, r)
      (if desc = [] then .lookForDesc
        else .collectDescNl ((desc.map (· ++ ['\n'])).flatten ++ ['\n']), r) := by
  have hq : ∀ l : Str, l ≠ [] → l.head? ≠ some '#' → (l ++ ['\n']).head? ≠ some '#' ∧ l ++ ['\n'] ≠ ['\n'] := by
    intro l hl hh
    constructor
    · cases l with
      | nil => exact absurd rfl hl
      | cons c t => simpa using hh
    · simpa using hl
  have more : ∀ (ls : List Str) (n : Nat) (d : Str),
      (∀ l ∈ ls, l ≠ [] ∧ '\n' ∉ l ∧ l.head? ≠ some '#') →
      Does U path n (ls.map (· ++ ['\n'])) (.collectDesc d, r)
        (.collectDesc (d ++ (ls.map (· ++ ['\n'])).flatten), r) := by
    intro ls
    induction ls with
    | nil => intro n d _; simpa using Does.nil
    | cons l ls ih =>
      intro n d h
      obtain ⟨a1, a2, a3⟩ := h l (by simp)
      obtain ⟨b1, b2⟩ := hq l a1 a3
      have e : (l :: ls).map (· ++ ['\n']) = [l ++ ['\n']] ++ ls.map (· ++ ['\n']) := rfl
      rw [e]
      refine Does.append (c' := (.collectDesc (d ++ (l ++ ['\n'])), r)) (Does.one
        (reqParts_none_of_head b1) ?_) ?_
      · unfold step
        rw [if_neg b2, if_neg b1]
        rfl
      · have := ih (n + [l ++ ['\n']].length) (d ++ (l ++ ['\n'])) (fun l hl => h l (by simp [hl]))
        simpa using this
  cases desc with
  | nil => exact Does.nil
  | cons l ls =>
    obtain ⟨a1, a2, a3⟩ := h1 l (by simp)
    obtain ⟨b1, b2⟩ := hq l a1 a3
    have e : writeDesc (l :: ls) = [l ++ ['\n']] ++ ls.map (· ++ ['\n']) ++ [['\n']] := by
      simp [writeDesc]
    rw [e]
    refine Does.append (Does.append (c' := (.collectDesc (l ++ ['\n']), r)) (Does.one
      (reqParts_none_of_head b1) ?_) (more ls _ _ (fun l hl => h1 l (by simp [hl])))) (Does.one
      (reqParts_none_of_head (by simp)) ?_)
    · unfold step
      rw [if_neg b2, if_neg b1]
      unfold textStep
      have := (attrParts_none_iff (isLine_append a2 (.inr rfl))).2 (h2 l ls rfl)
      simp only [this]
    · unfold step
      rw [if_pos rfl]
      simp [emptyStep]

theorem does_refs {U : Unicode} {path : Path} {n : Nat} {st : State} {r : Requirement} {name : Str}
    {refs : List (Str × Option Str)} (hn : name = attrCovers ∨ name = attrDepends) (hne : refs ≠ [])
    (h1 : ∀ r ∈ refs, IsIdent U r.1 ∧ ∀ t, r.2 = some t → OneLine t)
    (ho : Open st) (hr : recorded (commit st r) name = false) :
    Does U path n (writeRefs name refs) (st, r)
      (.lookForAttr, commit (.collectRefLink name (refsAt path (n + 1) refs)) (commit st r)) := by
  have hw : IsWord name := by
    rcases hn with rfl | rfl
    · exact ⟨'C', c!"overs", rfl, by decide, by simp, by decide⟩
    · exact ⟨'D', c!"epends", rfl, by decide, by simp, by decide⟩
  have more : ∀ (rs : List (Str × Option Str)) (n : Nat) (v : List Reference) (r : Requirement),
      (∀ r ∈ rs, IsIdent U r.1 ∧ ∀ t, r.2 = some t → OneLine t) →
      Does U path n (rs.map writeRef) (.collectRefLink name v, r)
        (.collectRefLink name (v ++ refsAt path n rs), r) := by
    intro rs
    induction rs with
    | nil => intro n v r _; simpa [refsAt] using Does.nil
    | cons x rs ih =>
      intro n v r h
      obtain ⟨a1, a2⟩ := h x (by simp)
      obtain ⟨b1, b2⟩ := writeRef_head (r := x)
      have e : (x :: rs).map writeRef = [writeRef x] ++ rs.map writeRef := rfl
      rw [e]
      refine Does.append (c' := (.collectRefLink name (v ++ [⟨x.1, x.2, .newWithLineNo path n⟩]), r))
        (Does.one (reqParts_none_of_head b1) ?_) ?_
      · unfold step
        rw [if_neg b2, if_neg b1]
        unfold textStep
        have := (refParts_iff (writeRef_isLine a1 a2)).2 (ref_line a1 a2)
        simp only [this]
      · have := ih (n + [writeRef x].length) (v ++ [⟨x.1, x.2, .newWithLineNo path n⟩]) r
          (fun l hl => h l (by simp [hl]))
        simpa [refsAt, Location.newWithLineNo] using this
  have e : writeRefs name refs = [name ++ c!":\n"] ++ refs.map writeRef ++ [['\n']] := by
    simp [writeRefs, hne]
  rw [e]
  have ha := attr_line_empty hw
  refine Does.append (Does.append (c' := (.collectRefLink name [], commit st r)) (Does.one
    (reqParts_none_of_head (attrLine_head ha).1) ?_) (more refs _ [] _ h1)) (Does.one
    (reqParts_none_of_head (by simp)) ?_)
  · rw [step_attr ho ha]
    unfold attrStep attrState
    simp [hr, hn, shortRefs, trim, trimStart, trimEnd, splitOnChar]
  · unfold step
    rw [if_pos rfl]
    simp [emptyStep]

theorem does_attr {U : Unicode} {path : Path} {n : Nat} {st : State} {r : Requirement} {a : Str × Str}
    (hw : IsWord a.1) (hv : OneLine a.2) (h1 : a.1 ≠ attrCovers) (h2 : a.1 ≠ attrDepends)
    (ho : Open st) (hr : recorded (commit st r) a.1 = false) :
    Does U path n (writeAttr a) (st, r) (.collectTextAttr a.1 (a.2 ++ ['\n']), commit st r) := by
  have ha := attr_line hw hv
  have e : writeAttr a = [a.1 ++ c!": " ++ a.2 ++ ['\n']] ++ [['\n']] := rfl
  rw [e]
  refine Does.append (c' := (.collectTextAttr a.1 a.2, commit st r)) (Does.one
    (reqParts_none_of_head (attrLine_head ha).1) ?_) (Does.one (reqParts_none_of_head (by simp)) ?_)
  · rw [step_attr ho ha]
    unfold attrStep attrState
    simp [hr, h1, h2]
  · unfold step
    rw [if_pos rfl]
    simp [emptyStep]

/-- The attributes in a map. -/
def addAttrs (m : BMap Str Str) (as : List (Str × Str)) : BMap Str Str :=
  as.foldl (fun m a => m.insert a.1 (a.2 ++ ['\n'])) m

theorem get_addAttrs (as : List (Str × Str)) (m : BMap Str Str) (k : Str) (hk : k ∉ as.map (·.1)) :
    (addAttrs m as).get k = m.get k := by
  induction as generalizing m with
  | nil => rfl
  | cons a as ih =>
    simp at hk
    show (addAttrs (m.insert a.1 (a.2 ++ ['\n'])) as).get k = _
    rw [ih _ (by simpa using hk.2), BMap.get_insert, if_neg]
    intro h; exact hk.1 h

theorem get_addAttrs_mem (as : List (Str × Str)) (m : BMap Str Str) (hn : (as.map (·.1)).Nodup)
    (a : Str × Str) (ha : a ∈ as) : (addAttrs m as).get a.1 = some (a.2 ++ ['\n']) := by
  induction as generalizing m with
  | nil => cases ha
  | cons b as ih =>
    simp only [List.map_cons, List.nodup_cons] at hn
    show (addAttrs (m.insert b.1 (b.2 ++ ['\n'])) as).get a.1 = _
    rcases List.mem_cons.1 ha with rfl | ha
    · rw [get_addAttrs _ _ _ hn.1, BMap.get_insert, if_pos rfl]
    · exact ih _ hn.2 ha

theorem does_attrs {U : Unicode} {path : Path} (as : List (Str × Str)) (n : Nat) (st : State)
    (r : Requirement)
    (h : ∀ a ∈ as, IsWord a.1 ∧ OneLine a.2 ∧ a.1 ≠ attrCovers ∧ a.1 ≠ attrDepends)
    (hn : (as.map (·.1)).Nodup) (hr : ∀ a ∈ as, (commit st r).attributes.get a.1 = none) (ho : Open st) :
    ∃ st' r', Does U path n (as.flatMap writeAttr) (st, r) (st', r') ∧ Open st' ∧
      commit st' r' = { commit st r with attributes := addAttrs (commit st r).attributes as } := by
  induction as generalizing n st r with
  | nil => exact ⟨st, r, Does.nil, ho, rfl⟩
  | cons a as ih =>
    obtain ⟨a1, a2, a3, a4⟩ := h a (by simp)
    simp only [List.map_cons, List.nodup_cons] at hn
    have hrec : recorded (commit st r) a.1 = false := by
      unfold recorded
      rw [if_neg a3, if_neg a4]
      simp [BMap.contains, hr a (by simp)]
    have hd := does_attr (U := U) (path := path) (n := n) (st := st) (r := r) a1 a2 a3 a4 ho hrec
    obtain ⟨st', r', h1, h2, h3⟩ := ih (n + (writeAttr a).length) (.collectTextAttr a.1 (a.2 ++ ['\n']))
      (commit st r) (fun a ha => h a (by simp [ha])) hn.2 (by
        intro b hb
        show ((commit st r).attributes.insert a.1 (a.2 ++ ['\n'])).get b.1 = none
        rw [BMap.get_insert, if_neg, hr b (by simp [hb])]
        intro he
        exact hn.1 (by rw [← he]; exact List.mem_map_of_mem hb)) trivial
    exact ⟨st', r', Does.append hd h1, h2, h3⟩

/-- The references of a list, or none. -/
theorem does_refs' {U : Unicode} {path : Path} {n : Nat} {st : State} {r : Requirement} {name : Str}
    {refs : List (Str × Option Str)} (hn : name = attrCovers ∨ name = attrDepends)
    (h1 : ∀ r ∈ refs, IsIdent U r.1 ∧ ∀ t, r.2 = some t → OneLine t)
    (ho : Open st) (hr : if name = attrCovers then (commit st r).covers = [] else (commit st r).depends = []) :
    ∃ st' r', Does U path n (writeRefs name refs) (st, r) (st', r') ∧ Open st' ∧
      commit st' r' = commit (.collectRefLink name (refsAt path (n + 1) refs)) (commit st r) := by
  by_cases hne : refs = []
  · subst hne
    refine ⟨st, r, Does.nil, ho, ?_⟩
    unfold refsAt
    generalize commit st r = R at hr ⊢
    cases R
    unfold commit
    simp only
    split
    · rename_i hc; rw [if_pos hc] at hr; simp only at hr; rw [hr]
    · rename_i hc; rw [if_neg hc] at hr; simp only at hr; rw [hr]
  · refine ⟨_, _, does_refs hn hne h1 ho ?_, trivial, rfl⟩
    unfold recorded
    rcases hn with rfl | rfl
    · rw [if_pos rfl] at hr ⊢; simp [hr]
    · rw [if_neg (by decide)] at hr
      rw [if_neg (by decide), if_pos rfl]; simp [hr]

/-- What the body of an item does. -/
theorem does_item {U : Unicode} {path : Path} {it : Item} (hk : it.Ok U) (n : Nat) (raw : Str)
    (hraw : trim raw = it.title) :
    ∃ st r, Does U path (n + 1) it.write.tail
      (.lookForDesc, newReq (.newWithLineNo path n) it.id raw) (st, r) ∧ Open st ∧
      it.Is path n (commit st r) := by
  have h0 : Does U path (n + 1) [['\n']] (.lookForDesc, newReq (.newWithLineNo path n) it.id raw)
      (.lookForDesc, newReq (.newWithLineNo path n) it.id raw) :=
    Does.one (reqParts_none_of_head (by simp)) (by unfold step; rw [if_pos rfl]; rfl)
  have h1 := does_desc (U := U) (path := path) (n := n + 2)
    (r := newReq (.newWithLineNo path n) it.id raw) hk.desc hk.descStart
  have ho1 : Open (if it.desc = [] then .lookForDesc
      else .collectDescNl ((it.desc.map (· ++ ['\n'])).flatten ++ ['\n'])) := by
    split <;> trivial
  generalize hst1 : (if it.desc = [] then State.lookForDesc
      else .collectDescNl ((it.desc.map (· ++ ['\n'])).flatten ++ ['\n'])) = st1 at h1 ho1
  have hR1 : commit st1 (newReq (.newWithLineNo path n) it.id raw) =
      { newReq (.newWithLineNo path n) it.id raw with
        attributes := if it.desc = [] then .empty
          else BMap.empty.insert attrDescription ((it.desc.map (· ++ ['\n'])).flatten ++ ['\n']) } := by
    rw [← hst1]
    split <;> rfl
  generalize hdm : (if it.desc = [] then (.empty : BMap Str Str)
    else BMap.empty.insert attrDescription ((it.desc.map (· ++ ['\n'])).flatten ++ ['\n'])) = dm at hR1
  obtain ⟨st2, r2, h2, ho2, hR2⟩ := does_refs' (U := U) (path := path) (refs := it.covers)
    (name := attrCovers) (n := n + 2 + (writeDesc it.desc).length) (st := st1)
    (r := newReq (.newWithLineNo path n) it.id raw) (.inl rfl)
    (fun r hr => hk.refs r (by simp [hr])) ho1 (by rw [if_pos rfl, hR1]; rfl)
  obtain ⟨st3, r3, h3, ho3, hR3⟩ := does_refs' (U := U) (path := path) (refs := it.depends)
    (name := attrDepends)
    (n := n + 2 + (writeDesc it.desc).length + (writeRefs attrCovers it.covers).length) (st := st2)
    (r := r2) (.inr rfl) (fun r hr => hk.refs r (by simp [hr])) ho2
    (by rw [if_neg (by decide), hR2, hR1]; rfl)
  obtain ⟨st4, r4, h4, ho4, hR4⟩ := does_attrs (U := U) (path := path) it.attrs
    (n + 2 + (writeDesc it.desc).length + (writeRefs attrCovers it.covers).length +
      (writeRefs attrDepends it.depends).length) st3 r3
    (fun a ha => ⟨(hk.attrs a ha).1, (hk.attrs a ha).2.1, (hk.attrs a ha).2.2.1, (hk.attrs a ha).2.2.2.1⟩)
    hk.once (by
      intro a ha
      rw [hR3, hR2, hR1]
      show dm.get a.1 = none
      rw [← hdm]
      split
      · rfl
      · rw [BMap.get_insert, if_neg]
        · rfl
        · exact fun h => (hk.attrs a ha).2.2.2.2 h) ho3
  refine ⟨st4, r4, ?_, ho4, ?_⟩
  · show Does U path (n + 1) ([['\n']] ++ (writeDesc it.desc ++ writeRefs attrCovers it.covers ++
      writeRefs attrDepends it.depends ++ it.attrs.flatMap writeAttr)) _ _
    have h13 := Does.append (c' := (st2, r2)) (Does.append h1 h2) (b := writeRefs attrDepends it.depends)
      (c'' := (st3, r3)) (by simpa [Nat.add_assoc] using h3)
    exact Does.append h0 (Does.append h13 (by simpa [Nat.add_assoc] using h4))
  · rw [hR4, hR3, hR2, hR1]
    have hdd : attrDescription ∉ it.attrs.map (·.1) := by
      intro hm
      obtain ⟨a, ha, he⟩ := List.mem_map.1 hm
      exact (hk.attrs a ha).2.2.2.2 he
    refine ⟨rfl, ?_, rfl, rfl, rfl, rfl, ?_, ?_, ?_⟩
    · show some (trim raw) = _; rw [hraw]
    · show (addAttrs dm it.attrs).get attrDescription = _
      rw [get_addAttrs _ _ _ hdd, ← hdm]
      split
      · rfl
      · rw [BMap.get_insert, if_pos rfl]
    · intro a ha
      exact get_addAttrs_mem _ _ hk.once a ha
    · intro name v h
      by_cases hm : name ∈ it.attrs.map (·.1)
      · exact .inr hm
      · left
        replace h : (addAttrs dm it.attrs).get name = some v := h
        rw [get_addAttrs _ _ _ hm, ← hdm] at h
        split at h
        · cases h
        · rw [BMap.get_insert] at h
          split at h
          · rename_i he; exact he
          · cases h

theorem open_ne {st : State} (h : Open st) : st ≠ .lookForReq := by
  rintro rfl; exact h

/-- What a list of items gives. -/
theorem run_items {U : Unicode} {path : Path} (its : List Item) (h : ∀ it ∈ its, it.Ok U) (n : Nat)
    (cur : Option (State × Requirement)) (hc : ∀ p, cur = some p → Open p.1) :
    ∃ rs rest cur', run U path n (its.flatMap Item.write) cur = ⟨rest, [], cur'⟩ ∧
      (∀ p, cur' = some p → Open p.1) ∧ rest ++ flush cur' = flush cur ++ rs ∧ Items path n its rs := by
  induction its generalizing n cur with
  | nil => exact ⟨[], [], cur, rfl, hc, by simp, .nil n⟩
  | cons it its ih =>
    have hk := h it (by simp)
    obtain ⟨raw, hraw, htrim⟩ := heading_reqParts (heading_line hk.level hk.id hk.title)
    obtain ⟨st, r, h1, h2, h3⟩ := does_item (path := path) hk n raw htrim
    obtain ⟨rs, rest, cur', g1, g2, g3, g4⟩ := ih (fun it hi => h it (by simp [hi]))
      (n + it.write.length) (some (st, r)) (by intro p hp; cases hp; exact h2)
    refine ⟨commit st r :: rs, flush cur ++ rest, cur', ?_, g2, ?_, .cons h3 g4⟩
    · have e : (it :: its).flatMap Item.write =
        (List.replicate it.level '#' ++ c!" " ++ it.id ++ c!": " ++ it.title ++ ['\n']) ::
          (it.write.tail ++ its.flatMap Item.write) := rfl
      have hn : n + it.write.length = n + 1 + it.write.tail.length := by
        simp [Item.write]; omega
      rw [e, run_req hraw, run_append, h1, ← hn, g1]
      simp
    · rw [List.append_assoc, g3]; simp [flush]

end Md

end Reqtrace
