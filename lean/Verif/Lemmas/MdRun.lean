import Verif.Lemmas.MdSpec

/-!
# Facts about runs of the Markdown parser
-/

set_option linter.unusedSimpArgs false

namespace Reqtrace

open Spec

namespace Md

/-! ## Splitting -/

theorem run_req {U : Unicode} {path : Path} {n : Nat} {l : Str} {ls : List Str}
    {cur : Option (State × Requirement)} {p : Str × Str × Str} (h : reqParts U l = some p) :
    run U path n (l :: ls) cur =
      ⟨flush cur ++ (run U path (n + 1) ls
          (some (.lookForDesc, newReq (.newWithLineNo path n) p.2.1 p.2.2))).reqs,
        (run U path (n + 1) ls
          (some (.lookForDesc, newReq (.newWithLineNo path n) p.2.1 p.2.2))).errs,
        (run U path (n + 1) ls
          (some (.lookForDesc, newReq (.newWithLineNo path n) p.2.1 p.2.2))).cur⟩ := by
  rw [run.eq_def]
  simp only [h]

theorem run_none {U : Unicode} {path : Path} {n : Nat} {l : Str} {ls : List Str}
    (h : reqParts U l = none) : run U path n (l :: ls) none = run U path (n + 1) ls none := by
  rw [run]
  simp only [h]

theorem run_some {U : Unicode} {path : Path} {n : Nat} {l : Str} {ls : List Str}
    {st : State} {r : Requirement} (h : reqParts U l = none) :
    run U path n (l :: ls) (some (st, r)) =
      ⟨(run U path (n + 1) ls (some ((step U (.newWithLineNo path n) st r l).1,
          (step U (.newWithLineNo path n) st r l).2.1))).reqs,
        (step U (.newWithLineNo path n) st r l).2.2 ++
          (run U path (n + 1) ls (some ((step U (.newWithLineNo path n) st r l).1,
            (step U (.newWithLineNo path n) st r l).2.1))).errs,
        (run U path (n + 1) ls (some ((step U (.newWithLineNo path n) st r l).1,
          (step U (.newWithLineNo path n) st r l).2.1))).cur⟩ := by
  rw [run]
  simp only [h]

theorem run_append (U : Unicode) (path : Path) (a b : List Str) (n : Nat)
    (cur : Option (State × Requirement)) :
    run U path n (a ++ b) cur =
      ⟨(run U path n a cur).reqs ++ (run U path (n + a.length) b (run U path n a cur).cur).reqs,
       (run U path n a cur).errs ++ (run U path (n + a.length) b (run U path n a cur).cur).errs,
       (run U path (n + a.length) b (run U path n a cur).cur).cur⟩ := by
  induction a generalizing n cur with
  | nil => rfl
  | cons l a ih =>
    have hn : n + (l :: a).length = n + 1 + a.length := by simp; omega
    rw [hn, List.cons_append]
    cases hq : reqParts U l with
    | some p => rw [run_req hq, run_req hq, ih]; simp
    | none =>
      cases cur with
      | none => rw [run_none hq, run_none hq, ih]
      | some q => rw [run_some hq, run_some hq, ih]; simp

theorem run_heading (U : Unicode) (path : Path) (h : Str) (p : Str × Str × Str) (b : List Str) (n : Nat)
    (cur : Option (State × Requirement)) (hp : reqParts U h = some p) :
    run U path n (h :: b) cur = ⟨flush cur ++ (run U path n (h :: b) none).reqs,
      (run U path n (h :: b) none).errs, (run U path n (h :: b) none).cur⟩ := by
  rw [run_req hp, run_req hp]
  simp [flush]

/-! ## What does not change -/

/-- Where, id and title. -/
def key (r : Requirement) : Location × Str × Option Str := (r.location, r.id, r.title)

theorem commit_key (st : State) (r : Requirement) : key (commit st r) = key r := by
  unfold commit
  split <;> first | rfl | (split <;> rfl)

theorem attrStep_key (loc : Location) (st : State) (r : Requirement) (a f : Str) :
    key (attrStep loc st r a f).2.1 = key r := commit_key st r

theorem step_key (U : Unicode) (loc : Location) (st : State) (r : Requirement) (l : Str) :
    key (step U loc st r l).2.1 = key r := by
  unfold step
  split
  · unfold emptyStep
    split <;> first | rfl | exact commit_key _ _
  · split
    · exact commit_key _ _
    · unfold textStep
      cases st <;> simp only
      all_goals (first | rfl | (split <;> first | rfl | exact commit_key _ _ | skip))
      all_goals (split <;> exact commit_key _ _)

/-- Where, id and title of the requirement under construction. -/
def curKey : Option (State × Requirement) → List (Location × Str × Option Str)
  | none => []
  | some p => [key p.2]

theorem flush_key (cur : Option (State × Requirement)) : (flush cur).map key = curKey cur := by
  cases cur with
  | none => rfl
  | some p => simp [flush, curKey, commit_key]

/-- What a heading should give. -/
def headKey (path : Path) (h : Nat × Str × Str) : Location × Str × Option Str :=
  (⟨path, some (.line h.1)⟩, h.2.1, some h.2.2)

theorem run_keys (U : Unicode) (path : Path) {n : Nat} {ls : List Str} {hs : List (Nat × Str × Str)}
    (h : Headings U n ls hs) (hls : ∀ l ∈ ls, IsLine l) (cur : Option (State × Requirement)) :
    (run U path n ls cur).reqs.map key ++ curKey (run U path n ls cur).cur =
      curKey cur ++ hs.map (headKey path) := by
  induction h generalizing cur with
  | nil => simp [run]
  | skip hno _ ih =>
    rename_i n l ls hs _
    have ih := ih (fun l hl => hls l (by simp [hl]))
    unfold run
    rw [(reqParts_none_iff (hls _ (by simp))).2 hno]
    cases cur with
    | none => exact ih none
    | some q =>
      simp only
      rw [ih]
      simp [curKey, step_key]
  | take hh _ ih =>
    rename_i n l ls hs level id title _
    have ih := ih (fun l hl => hls l (by simp [hl]))
    obtain ⟨raw, h1, h2⟩ := heading_reqParts hh
    unfold run
    rw [h1]
    simp only [List.map_append, flush_key, List.append_assoc, ih]
    simp [curKey, key, newReq, headKey, h2, Location.newWithLineNo]

theorem headings_exist (U : Unicode) (n : Nat) (ls : List Str) : ∃ hs, Headings U n ls hs := by
  induction ls generalizing n with
  | nil => exact ⟨[], .nil n⟩
  | cons l ls ih =>
    obtain ⟨hs, h⟩ := ih (n + 1)
    by_cases hh : ∃ level id title, ReqHeading U l level id title
    · obtain ⟨level, id, title, hh⟩ := hh
      exact ⟨_, .take hh h⟩
    · refine ⟨hs, .skip ?_ h⟩
      intro level id title h'
      exact hh ⟨level, id, title, h'⟩

/-- Headings are determined by the text. -/
theorem headings_unique {U : Unicode} {n : Nat} {ls : List Str} {hs hs' : List (Nat × Str × Str)}
    (h : Headings U n ls hs) (h' : Headings U n ls hs') : hs = hs' := by
  induction h generalizing hs' with
  | nil => cases h'; rfl
  | skip hno _ ih =>
    cases h' with
    | skip _ h2 => exact ih h2
    | take hh _ => exact absurd hh (hno _ _ _)
  | take hh _ ih =>
    cases h' with
    | skip hno _ => exact absurd hh (hno _ _ _)
    | take hh2 h2 =>
      obtain ⟨raw, a1, a2⟩ := heading_reqParts hh
      obtain ⟨raw', b1, b2⟩ := heading_reqParts hh2
      rw [a1] at b1
      simp only [Option.some.injEq, Prod.mk.injEq] at b1
      rw [← a2, ← b2, ih h2, b1.2.1, b1.2.2]

theorem headings_nil_of {U : Unicode} {n : Nat} {ls : List Str}
    (h : ∀ l ∈ ls, ∀ level id title, ¬ ReqHeading U l level id title) : Headings U n ls [] := by
  induction ls generalizing n with
  | nil => exact .nil n
  | cons l ls ih =>
    exact .skip (h l (by simp)) (ih (fun l hl => h l (by simp [hl])))

theorem run_idle (U : Unicode) (path : Path) (n : Nat) (ls : List Str)
    (h : ∀ l ∈ ls, reqParts U l = none) : run U path n ls none = ⟨[], [], none⟩ := by
  induction ls generalizing n with
  | nil => rfl
  | cons l ls ih =>
    unfold run
    rw [h l (by simp)]
    exact ih _ (fun l hl => h l (by simp [hl]))

/-! ## The state that gives up -/

/-- A `Format` error. -/
def IsFormat (e : Error) : Prop := ∃ loc m, e = .format loc m

theorem attrState_ne (loc : Location) (a f : Str) : attrState loc a f ≠ .lookForReq := by
  unfold attrState
  split <;> simp

theorem attrStep_giveUp (loc : Location) (st : State) (r : Requirement) (a f : Str) :
    (attrStep loc st r a f).1 ≠ .lookForReq ∧ ∀ e ∈ (attrStep loc st r a f).2.2, ¬ IsFormat e := by
  refine ⟨attrState_ne _ _ _, ?_⟩
  unfold attrStep
  intro e he
  simp only at he
  split at he
  · simp at he; subst he
    rintro ⟨_, _, h⟩; cases h
  · cases he

theorem step_giveUp (U : Unicode) (loc : Location) (st : State) (r : Requirement) (l : Str) :
    (step U loc st r l).1 = .lookForReq ↔ st = .lookForReq ∨ l.head? = some '#' ∨
      ∃ e ∈ (step U loc st r l).2.2, IsFormat e := by
  unfold step
  split
  · rename_i h
    subst h
    unfold emptyStep
    cases st <;> simp
  · split
    · rename_i h; simp [h]
    · rename_i _ hh
      unfold textStep
      cases st with
      | lookForReq => simp
      | collectDesc d => simp [hh]
      | collectRefLink a v =>
        simp only
        split
        · simp [hh]
        · split
          · simp [hh]
          · simp [hh, IsFormat]
      | lookForDesc =>
        simp only
        split
        · rename_i p _
          have := attrStep_giveUp loc .lookForDesc r p.1 p.2
          simp [hh, this]
          exact this.2
        · simp [hh]
      | collectDescNl d =>
        simp only
        split
        · rename_i p _
          have := attrStep_giveUp loc (.collectDescNl d) r p.1 p.2
          simp [hh, this]
          exact this.2
        · simp [hh]
      | collectTextAttr a v =>
        simp only
        split
        · rename_i p _
          have := attrStep_giveUp loc (.collectTextAttr a v) r p.1 p.2
          simp [hh, this]
          exact this.2
        · simp [hh]
      | lookForAttr =>
        simp only
        split
        · rename_i p _
          have := attrStep_giveUp loc .lookForAttr r p.1 p.2
          simp [hh, this]
          exact this.2
        · simp [hh, IsFormat]

theorem run_giveUp (U : Unicode) (path : Path) (n : Nat) (ls : List Str) (st : State) (r : Requirement)
    (h : ∀ l ∈ ls, reqParts U l = none) :
    ∃ st' r', run U path n ls (some (st, r)) = ⟨[], (run U path n ls (some (st, r))).errs, some (st', r')⟩ ∧
      (st' = .lookForReq ↔ st = .lookForReq ∨ (∃ l ∈ ls, l.head? = some '#') ∨
        ∃ e ∈ (run U path n ls (some (st, r))).errs, IsFormat e) := by
  induction ls generalizing n st r with
  | nil => exact ⟨st, r, rfl, by simp [run]⟩
  | cons l ls ih =>
    rw [run_some (h l (by simp))]
    have hs := step_giveUp U (.newWithLineNo path n) st r l
    generalize step U (.newWithLineNo path n) st r l = s at hs ⊢
    obtain ⟨st', r', h1, h2⟩ := ih (n + 1) s.1 s.2.1 (fun l hl => h l (by simp [hl]))
    refine ⟨st', r', ?_, ?_⟩
    · rw [h1]
    · rw [h2, hs]
      simp only [List.mem_cons, List.mem_append]
      constructor
      · rintro ((h | h | ⟨e, h, h'⟩) | ⟨l', h, h'⟩ | ⟨e, h, h'⟩)
        · exact .inl h
        · exact .inr (.inl ⟨l, .inl rfl, h⟩)
        · exact .inr (.inr ⟨e, .inl h, h'⟩)
        · exact .inr (.inl ⟨l', .inr h, h'⟩)
        · exact .inr (.inr ⟨e, .inr h, h'⟩)
      · rintro (h | ⟨l', rfl | h, h'⟩ | ⟨e, h | h, h'⟩)
        · exact .inl (.inl h)
        · exact .inl (.inr (.inl h'))
        · exact .inr (.inl ⟨l', h, h'⟩)
        · exact .inl (.inr (.inr ⟨e, h, h'⟩))
        · exact .inr (.inr ⟨e, h, h'⟩)

/-! ## Moving down -/

/-- The state moved down by `k` lines. -/
def shiftSt (k : Nat) : State → State
  | .collectRefLink a v => .collectRefLink a (v.map (shiftRef k))
  | st => st

theorem shift_newLoc (k n : Nat) (path : Path) :
    Location.newWithLineNo path (n + k) = shiftLoc k (Location.newWithLineNo path n) := rfl

theorem shift_commit (k : Nat) (st : State) (r : Requirement) :
    commit (shiftSt k st) (shiftReq k r) = shiftReq k (commit st r) := by
  cases st <;> simp only [commit, shiftSt] <;> first | rfl | (split <;> simp [shiftReq])

theorem shift_recorded (k : Nat) (r : Requirement) (a : Str) :
    recorded (shiftReq k r) a = recorded r a := by
  unfold recorded
  simp [shiftReq]

theorem shift_shortRefs (k : Nat) (loc : Location) (s : Str) :
    shortRefs (shiftLoc k loc) s = (shortRefs loc s).map (shiftRef k) := by
  unfold shortRefs
  rw [List.map_filterMap]
  congr 1
  funext id
  split <;> rfl

theorem shift_attrStep (k : Nat) (loc : Location) (st : State) (r : Requirement) (a f : Str) :
    attrStep (shiftLoc k loc) (shiftSt k st) (shiftReq k r) a f =
      (shiftSt k (attrStep loc st r a f).1, shiftReq k (attrStep loc st r a f).2.1,
        (attrStep loc st r a f).2.2.map (shiftErr k)) := by
  unfold attrStep
  rw [shift_commit, shift_recorded]
  refine Prod.ext ?_ (Prod.ext rfl ?_)
  · simp only [attrState]
    split
    · rw [shift_shortRefs]; rfl
    · rfl
  · simp only
    split <;> rfl

theorem shift_step (U : Unicode) (k : Nat) (loc : Location) (st : State) (r : Requirement) (l : Str) :
    step U (shiftLoc k loc) (shiftSt k st) (shiftReq k r) l =
      (shiftSt k (step U loc st r l).1, shiftReq k (step U loc st r l).2.1,
        (step U loc st r l).2.2.map (shiftErr k)) := by
  unfold step
  split
  · unfold emptyStep
    cases st <;> first | rfl | skip
    simp only [shiftSt]
    rw [← shift_commit]; rfl
  · split
    · rw [← shift_commit]; rfl
    · have ha := shift_attrStep k loc st r
      unfold textStep
      cases st with
      | lookForReq | collectDesc d => rfl
      | collectRefLink a v =>
        simp only [shiftSt]
        cases refParts U l with
        | some p => simp [shiftSt, shiftRef]
        | none =>
          have := shift_commit k (.collectRefLink a v) r
          simp only [shiftSt] at this
          simp only [this]
          split <;> rfl
      | lookForDesc | collectDescNl d | collectTextAttr a v | lookForAttr =>
        simp only [shiftSt]
        simp only [shiftSt] at ha
        cases attrParts l with
        | some p => exact ha p.1 p.2
        | none => rfl

/-- The result moved down by `k` lines. -/
def shiftCur (k : Nat) (cur : Option (State × Requirement)) : Option (State × Requirement) :=
  cur.map (fun p => (shiftSt k p.1, shiftReq k p.2))

theorem shift_flush (k : Nat) (cur : Option (State × Requirement)) :
    flush (shiftCur k cur) = (flush cur).map (shiftReq k) := by
  cases cur with
  | none => rfl
  | some p => simp [flush, shiftCur, shift_commit]

theorem shift_run (U : Unicode) (path : Path) (k n : Nat) (ls : List Str)
    (cur : Option (State × Requirement)) :
    run U path (n + k) ls (shiftCur k cur) =
      ⟨(run U path n ls cur).reqs.map (shiftReq k), (run U path n ls cur).errs.map (shiftErr k),
        shiftCur k (run U path n ls cur).cur⟩ := by
  induction ls generalizing n cur with
  | nil => rfl
  | cons l ls ih =>
    have hn : n + k + 1 = n + 1 + k := by omega
    cases hq : reqParts U l with
    | some p =>
      rw [run_req hq, run_req hq, hn]
      have e : some (State.lookForDesc, newReq (.newWithLineNo path (n + k)) p.2.1 p.2.2) =
          shiftCur k (some (.lookForDesc, newReq (.newWithLineNo path n) p.2.1 p.2.2)) := rfl
      rw [e, ih, shift_flush]
      simp
    | none =>
      cases cur with
      | none =>
        have e : shiftCur k none = none := rfl
        rw [e, run_none hq, run_none hq, hn]
        exact ih (n + 1) none
      | some q =>
        obtain ⟨st, r⟩ := q
        have e : shiftCur k (some (st, r)) = some (shiftSt k st, shiftReq k r) := rfl
        rw [e, run_some hq, run_some hq, hn, shift_newLoc, shift_step]
        generalize step U (.newWithLineNo path n) st r l = s
        have e2 : some (shiftSt k s.1, shiftReq k s.2.1) = shiftCur k (some (s.1, s.2.1)) := rfl
        simp only [e2, ih]
        simp

theorem shift_finish (failure : Option Str) (path : Path) (k : Nat)
    (cur : Option (State × Requirement)) :
    finish failure path (shiftCur k cur) =
      ((finish failure path cur).1.map (shiftReq k), (finish failure path cur).2.map (shiftErr k)) := by
  unfold finish
  cases failure with
  | some e => rfl
  | none =>
    cases cur with
    | none => rfl
    | some p =>
      obtain ⟨st, r⟩ := p
      have e : shiftCur k (some (st, r)) = some (shiftSt k st, shiftReq k r) := rfl
      simp only [e]
      have : shiftSt k st = .lookForReq ↔ st = .lookForReq := by
        cases st <;> simp [shiftSt]
      simp only [this]
      split
      · rfl
      · simp [shift_commit]

/-! ## The assertion -/

theorem utf8Size_one {c : Char} : c.utf8Size = 1 ↔ c.toNat < 128 := by
  unfold Char.utf8Size
  have hn : c.val.toNat = c.toNat := rfl
  simp only [UInt32.le_iff_toNat_le]
  constructor
  · intro h
    split at h
    · rename_i h1
      have : c.val.toNat ≤ 127 := h1
      omega
    · split at h
      · omega
      · split at h <;> omega
  · intro h
    exact if_pos (show c.val.toNat ≤ 127 by omega)

theorem flatten_last {a : List Str} (h : ∀ l ∈ a, l.getLast? = some '\n') :
    a.flatten = [] ∨ a.flatten.getLast? = some '\n' := by
  by_cases ha : a = []
  · left; subst ha; rfl
  · right
    obtain ⟨b, x, rfl⟩ : ∃ b x, a = b ++ [x] :=
      ⟨a.dropLast, a.getLast ha, (List.dropLast_concat_getLast ha).symm⟩
    have := h x (by simp)
    rw [List.flatten_append, List.getLast?_append]
    simp [this]

theorem trips_iff (text : Str) : (∃ l ∈ splitLines text, Trips l) ↔ OneByteTail text := by
  constructor
  · rintro ⟨l, hl, h1, h2⟩
    obtain ⟨c, rfl⟩ := utf8Len_one h1
    have hc : c ≠ '\n' := by rintro rfl; exact h2 rfl
    obtain ⟨s1, s2, s3⟩ := splitLines_spec text
    obtain ⟨a, b, hab⟩ := List.append_of_mem hl
    have hb : b = [] := by
      cases b with
      | nil => rfl
      | cons x b =>
        have : [c] ∈ (splitLines text).dropLast := by
          rw [hab, List.dropLast_append_of_ne_nil (by simp)]
          simp
        have := s3 _ this
        simp at this
        exact absurd this hc
    subst hb
    refine ⟨a.flatten, c, ?_, hc, ?_, ?_⟩
    · rw [← s1, hab]; simp
    · simp [utf8Len] at h1; exact utf8Size_one.1 h1
    · apply flatten_last
      intro l hl
      apply s3
      rw [hab]; simp [hl]
  · rintro ⟨pre, c, rfl, h1, h2, h3⟩
    rw [splitLines_append _ _ h3]
    refine ⟨[c], ?_, ?_, ?_⟩
    · simp [splitLines, h1]
    · simp [utf8Len]; exact utf8Size_one.2 h2
    · simpa using h1

theorem no_trips_of_nl {text : Str} (h : text = [] ∨ text.getLast? = some '\n') :
    ∀ l ∈ splitLines text, ¬ Trips l := by
  intro l hl ht
  obtain ⟨pre, c, rfl, h1, _⟩ := (trips_iff text).1 ⟨l, hl, ht⟩
  rcases h with h | h
  · simp at h
  · simp at h; exact h1 h

/-! ## Where things come from -/

theorem splitOnChar_ne_nil (sep : Char) (s : Str) : splitOnChar sep s ≠ [] := by
  cases s with
  | nil => simp [splitOnChar]
  | cons c t =>
    rw [splitOnChar]
    split
    · simp
    · split <;> simp

theorem splitOnChar_cons (s x : Str) (xs : List Str) (h : splitOnChar ',' s = x :: xs) :
    (',' ∉ x ∧ ∃ b, s = x ++ b ∧ (b = [] ∨ ∃ b', b = ',' :: b')) ∧
    ∀ p ∈ xs, ',' ∉ p ∧ ∃ a b, s = a ++ [','] ++ p ++ b ∧ (b = [] ∨ ∃ b', b = ',' :: b') := by
  induction s generalizing x xs with
  | nil =>
    simp [splitOnChar] at h
    obtain ⟨rfl, rfl⟩ := h
    exact ⟨⟨by simp, [], rfl, .inl rfl⟩, by simp⟩
  | cons c t ih =>
    rw [splitOnChar] at h
    cases hq : splitOnChar ',' t with
    | nil => exact absurd hq (splitOnChar_ne_nil _ _)
    | cons y ys =>
      obtain ⟨⟨h1, b, h2, h3⟩, h4⟩ := ih y ys hq
      by_cases hc : c = ','
      · subst hc
        simp only [beq_self_eq_true, if_true, List.cons.injEq] at h
        obtain ⟨rfl, rfl⟩ := h
        refine ⟨⟨by simp, ',' :: t, rfl, .inr ⟨t, rfl⟩⟩, ?_⟩
        intro p hp
        rw [hq] at hp
        rcases List.mem_cons.1 hp with rfl | hp
        · exact ⟨h1, [], b, by rw [h2]; rfl, h3⟩
        · obtain ⟨g1, a, b', g2, g3⟩ := h4 p hp
          exact ⟨g1, ',' :: a, b', by rw [g2]; rfl, g3⟩
      · simp only [beq_iff_eq, hc, if_false, hq, List.cons.injEq] at h
        obtain ⟨rfl, rfl⟩ := h
        refine ⟨⟨?_, b, by rw [h2]; rfl, h3⟩, ?_⟩
        · simp [h1]; exact fun h => hc h.symm
        · intro p hp
          obtain ⟨g1, a, b', g2, g3⟩ := h4 p hp
          exact ⟨g1, c :: a, b', by rw [g2]; rfl, g3⟩

theorem splitOnChar_part (s : Str) : ∀ p ∈ splitOnChar ',' s, Part s p := by
  intro p hp
  cases hq : splitOnChar ',' s with
  | nil => exact absurd hq (splitOnChar_ne_nil _ _)
  | cons x xs =>
    obtain ⟨⟨h1, b, h2, h3⟩, h4⟩ := splitOnChar_cons s x xs hq
    rw [hq] at hp
    rcases List.mem_cons.1 hp with rfl | hp
    · exact ⟨h1, [], b, by rw [h2]; rfl, .inl rfl, h3⟩
    · obtain ⟨g1, a, b', g2, g3⟩ := h4 p hp
      exact ⟨g1, a ++ [','], b', g2, .inr ⟨a, rfl⟩, g3⟩

/-- The reference stands in the line it names. -/
def RefOk (U : Unicode) (lines : List Str) (path : Path) (ref : Reference) : Prop :=
  ∃ l, At lines path ref.location l ∧ States U l ref.id ref.title

/-- The requirement and its references stand in the lines they name. -/
def ReqOk (U : Unicode) (lines : List Str) (path : Path) (r : Requirement) : Prop :=
  (∃ l level title, At lines path r.location l ∧ ReqHeading U l level r.id title ∧
    r.title = some title) ∧
  ∀ ref ∈ r.covers ++ r.depends, RefOk U lines path ref

/-- So do the references of the state. -/
def StOk (U : Unicode) (lines : List Str) (path : Path) : State → Prop
  | .collectRefLink _ v => ∀ ref ∈ v, RefOk U lines path ref
  | _ => True

/-- The error names the line that is wrong. -/
def ErrOk (U : Unicode) (lines : List Str) (path : Path) (e : Error) : Prop :=
  match e with
  | .format loc m => ∃ l, At lines path loc l ∧ l ≠ ['\n'] ∧ l.head? ≠ some '#' ∧
      ((m = errAttr ∧ ∀ a v, ¬ AttrLine l a v) ∨
       (m = errRef ∧ ¬ Blank l ∧ ∀ id t, ¬ RefLine U l id t))
  | .duplicateAttribute loc a id => ∃ k j l v, loc = ⟨path, some (.line (k + 1))⟩ ∧
      lines[k]? = some l ∧ AttrLine l a v ∧ Owner U lines k j id
  | _ => False

theorem commit_ok {U : Unicode} {lines : List Str} {path : Path} {st : State} {r : Requirement}
    (hs : StOk U lines path st) (hr : ReqOk U lines path r) : ReqOk U lines path (commit st r) := by
  cases st with
  | collectRefLink a v =>
    obtain ⟨h1, h2⟩ := hr
    unfold commit
    simp only
    split
    · refine ⟨h1, ?_⟩
      intro ref href
      rcases List.mem_append.1 href with h | h
      · exact hs ref h
      · exact h2 ref (by simp [h])
    · refine ⟨h1, ?_⟩
      intro ref href
      rcases List.mem_append.1 href with h | h
      · exact h2 ref (by simp [h])
      · exact hs ref h
  | _ => exact hr

theorem shortRefs_ok {U : Unicode} {lines : List Str} {path : Path} {loc : Location} {l a f : Str}
    (hat : At lines path loc l) (ha : AttrLine l a f) (hc : a = attrCovers ∨ a = attrDepends) :
    ∀ ref ∈ shortRefs loc f, RefOk U lines path ref := by
  intro ref href
  simp only [shortRefs, List.mem_filterMap] at href
  obtain ⟨p, hp, he⟩ := href
  split at he
  · rename_i hne
    cases he
    exact ⟨l, hat, .inr ⟨rfl, hne, a, f, trim f, p, ha, hc, trimsTo_iff.2 rfl, splitOnChar_part _ p hp,
      trimsTo_iff.2 rfl⟩⟩
  · cases he

theorem attrStep_ok {U : Unicode} {lines : List Str} {path : Path} {st : State} {r : Requirement}
    {k j : Nat} {l a f : Str} (hs : StOk U lines path st) (hr : ReqOk U lines path r)
    (hk : lines[k]? = some l) (ho : Owner U lines k j r.id) (ha : AttrLine l a f) :
    StOk U lines path (attrStep (.newWithLineNo path (k + 1)) st r a f).1 ∧
    ReqOk U lines path (attrStep (.newWithLineNo path (k + 1)) st r a f).2.1 ∧
    ∀ e ∈ (attrStep (.newWithLineNo path (k + 1)) st r a f).2.2, ErrOk U lines path e := by
  refine ⟨?_, commit_ok hs hr, ?_⟩
  · unfold attrStep attrState
    simp only
    split
    · rename_i hc
      exact shortRefs_ok ⟨k, rfl, hk⟩ ha hc
    · trivial
  · intro e he
    unfold attrStep at he
    simp only at he
    split at he
    · simp at he; subst he
      exact ⟨k, j, l, f, rfl, hk, ha, ho⟩
    · cases he

theorem step_ok36 {U : Unicode} {lines : List Str} {path : Path} {st : State} {r : Requirement}
    {k j : Nat} {l : Str} (hl : IsLine l) (hs : StOk U lines path st) (hr : ReqOk U lines path r)
    (hk : lines[k]? = some l) (ho : Owner U lines k j r.id) :
    StOk U lines path (step U (.newWithLineNo path (k + 1)) st r l).1 ∧
    ReqOk U lines path (step U (.newWithLineNo path (k + 1)) st r l).2.1 ∧
    ∀ e ∈ (step U (.newWithLineNo path (k + 1)) st r l).2.2, ErrOk U lines path e := by
  have hat : At lines path (.newWithLineNo path (k + 1)) l := ⟨k, rfl, hk⟩
  unfold step
  split
  · unfold emptyStep
    cases st with
    | collectRefLink a v => exact ⟨trivial, commit_ok hs hr, by simp⟩
    | _ => exact ⟨trivial, hr, by simp⟩
  · rename_i hnl
    split
    · exact ⟨trivial, commit_ok hs hr, by simp⟩
    · rename_i hh
      unfold textStep
      cases st with
      | lookForReq | collectDesc d => exact ⟨trivial, hr, by simp⟩
      | collectRefLink a v =>
        simp only
        cases hp : refParts U l with
        | some p =>
          refine ⟨?_, hr, by simp⟩
          intro ref href
          rcases List.mem_append.1 href with h | h
          · exact hs ref h
          · simp at h; subst h
            exact ⟨l, hat, .inl ((refParts_iff hl).1 hp)⟩
        | none =>
          simp only
          split
          · exact ⟨trivial, commit_ok hs hr, by simp⟩
          · rename_i htrim
            refine ⟨trivial, commit_ok hs hr, ?_⟩
            intro e he
            simp at he; subst he
            exact ⟨l, hat, hnl, hh, .inr ⟨rfl, fun hb => htrim (trim_eq_nil.2 hb),
              (refParts_none_iff hl).1 hp⟩⟩
      | lookForDesc | collectDescNl d | collectTextAttr a v =>
        simp only
        cases hp : attrParts l with
        | some p => exact attrStep_ok hs hr hk ho ((attrParts_iff hl).1 hp)
        | none => exact ⟨trivial, hr, by simp⟩
      | lookForAttr =>
        simp only
        cases hp : attrParts l with
        | some p => exact attrStep_ok hs hr hk ho ((attrParts_iff hl).1 hp)
        | none =>
          refine ⟨trivial, hr, ?_⟩
          intro e he
          simp at he; subst he
          exact ⟨l, hat, hnl, hh, .inl ⟨rfl, (attrParts_none_iff hl).1 hp⟩⟩

/-- The requirement under construction is right. -/
def CurOk (U : Unicode) (lines : List Str) (path : Path) (k : Nat) :
    Option (State × Requirement) → Prop
  | none => True
  | some (st, r) => StOk U lines path st ∧ ReqOk U lines path r ∧ ∃ j, Owner U lines k j r.id

theorem run_ok36 {U : Unicode} {lines : List Str} {path : Path} (hl : ∀ l ∈ lines, IsLine l)
    (pre ls : List Str) (he : lines = pre ++ ls) (cur : Option (State × Requirement))
    (hc : CurOk U lines path pre.length cur) :
    (∀ r ∈ (run U path (pre.length + 1) ls cur).reqs, ReqOk U lines path r) ∧
    (∀ e ∈ (run U path (pre.length + 1) ls cur).errs, ErrOk U lines path e) ∧
    CurOk U lines path lines.length (run U path (pre.length + 1) ls cur).cur := by
  induction ls generalizing pre cur with
  | nil =>
    simp at he; subst he
    exact ⟨by simp [run], by simp [run], hc⟩
  | cons l ls ih =>
    have hk : lines[pre.length]? = some l := by rw [he]; simp
    have hil : IsLine l := hl l (by rw [he]; simp)
    have he' : lines = (pre ++ [l]) ++ ls := by rw [he]; simp
    have hlen : (pre ++ [l]).length = pre.length + 1 := by simp
    cases hq : reqParts U l with
    | some p =>
      rw [run_req hq]
      have hh := (reqParts_heading hil hq).2
      have hnew : CurOk U lines path (pre ++ [l]).length
          (some (.lookForDesc, newReq (.newWithLineNo path (pre.length + 1)) p.2.1 p.2.2)) := by
        refine ⟨trivial, ⟨⟨l, _, _, ⟨pre.length, rfl, hk⟩, hh, rfl⟩, by simp [newReq]⟩, pre.length,
          ⟨l, _, _, hk, hh⟩, by omega, ?_⟩
        intro i l' h1 h2
        omega
      have := ih (pre ++ [l]) he' _ hnew
      rw [hlen] at this
      obtain ⟨g1, g2, g3⟩ := this
      refine ⟨?_, g2, g3⟩
      intro r hr
      rcases List.mem_append.1 hr with hr | hr
      · cases cur with
        | none => cases hr
        | some q =>
          simp [flush] at hr; subst hr
          exact commit_ok hc.1 hc.2.1
      · exact g1 r hr
    | none =>
      have hno := (reqParts_none_iff hil).1 hq
      cases cur with
      | none =>
        rw [run_none hq]
        have := ih (pre ++ [l]) he' none trivial
        rw [hlen] at this
        exact this
      | some q =>
        obtain ⟨st, r⟩ := q
        obtain ⟨c1, c2, j, c3⟩ := hc
        rw [run_some hq]
        have hs := step_ok36 hil c1 c2 hk c3
        have hkey := step_key U (.newWithLineNo path (pre.length + 1)) st r l
        generalize step U (.newWithLineNo path (pre.length + 1)) st r l = s at hs hkey
        have hid : s.2.1.id = r.id := congrArg (fun x => x.2.1) hkey
        have hnew : CurOk U lines path (pre ++ [l]).length (some (s.1, s.2.1)) := by
          refine ⟨hs.1, hs.2.1, j, ?_⟩
          rw [hid, hlen]
          refine ⟨c3.1, by have := c3.2.1; omega, ?_⟩
          intro i l' h1 h2 h3
          by_cases hi : i = pre.length
          · subst hi
            rw [hk] at h3; cases h3
            exact hno
          · exact c3.2.2 i l' h1 (by omega) h3
        have := ih (pre ++ [l]) he' _ hnew
        rw [hlen] at this
        obtain ⟨g1, g2, g3⟩ := this
        refine ⟨g1, ?_, g3⟩
        intro e he
        rcases List.mem_append.1 he with h | h
        · exact hs.2.2 e h
        · exact g2 e h

/-! ## Where errors are -/

theorem step_err_loc {U : Unicode} {loc : Location} {st : State} {r : Requirement} {l : Str} {e : Error}
    (h : e ∈ (step U loc st r l).2.2) :
    (∃ m, e = .format loc m) ∨ ∃ a id, e = .duplicateAttribute loc a id := by
  have ha : ∀ a f, e ∈ (attrStep loc st r a f).2.2 → ∃ a id, e = .duplicateAttribute loc a id := by
    intro a f he
    unfold attrStep at he
    simp only at he
    split at he
    · simp at he; exact ⟨_, _, he⟩
    · cases he
  unfold step at h
  split at h
  · unfold emptyStep at h
    cases st <;> cases h
  · split at h
    · cases h
    · unfold textStep at h
      cases st with
      | lookForReq | collectDesc d => cases h
      | collectRefLink a v =>
        simp only at h
        split at h
        · cases h
        · split at h
          · cases h
          · simp at h; exact .inl ⟨_, h⟩
      | lookForDesc | collectDescNl d | collectTextAttr a v =>
        simp only at h
        split at h
        · exact .inr (ha _ _ h)
        · cases h
      | lookForAttr =>
        simp only at h
        split at h
        · exact .inr (ha _ _ h)
        · simp at h; exact .inl ⟨_, h⟩

theorem run_err_loc {U : Unicode} {path : Path} {n : Nat} {ls : List Str}
    {cur : Option (State × Requirement)} {e : Error} (h : e ∈ (run U path n ls cur).errs) :
    ∃ k, n ≤ k ∧ k < n + ls.length ∧
      ((∃ m, e = .format ⟨path, some (.line k)⟩ m) ∨
        ∃ a id, e = .duplicateAttribute ⟨path, some (.line k)⟩ a id) := by
  induction ls generalizing n cur with
  | nil => cases h
  | cons l ls ih =>
    have up : ∀ {cur'}, e ∈ (run U path (n + 1) ls cur').errs → ∃ k, n ≤ k ∧ k < n + (l :: ls).length ∧
        ((∃ m, e = .format ⟨path, some (.line k)⟩ m) ∨
          ∃ a id, e = .duplicateAttribute ⟨path, some (.line k)⟩ a id) := by
      intro cur' h
      obtain ⟨k, h1, h2, h3⟩ := ih h
      exact ⟨k, by omega, by simp; omega, h3⟩
    cases hq : reqParts U l with
    | some p => rw [run_req hq] at h; exact up h
    | none =>
      cases cur with
      | none => rw [run_none hq] at h; exact up h
      | some q =>
        rw [run_some hq] at h
        rcases List.mem_append.1 h with h | h
        · exact ⟨n, by omega, by simp, step_err_loc h⟩
        · exact up h

end Md

end Reqtrace
