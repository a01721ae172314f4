import Verif.Regex

/-!
# Closed forms for matching
-/

set_option linter.unusedSimpArgs false

namespace Reqtrace

/-! ## Unicode facts -/

namespace Unicode
variable (U : Unicode)

theorem continue_false {c : Char} (h : isWs c = true) : U.xidContinue c = false := by
  cases hc : U.xidContinue c with
  | false => rfl
  | true => rw [U.continue_ws c hc] at h; cases h

theorem start_false {c : Char} (h : U.xidContinue c = false) : U.xidStart c = false := by
  cases hc : U.xidStart c with
  | false => rfl
  | true => rw [U.start_continue c hc] at h; cases h

theorem continue_colon : U.xidContinue ':' = false := by
  rw [U.continue_ascii _ (by decide)]; decide

theorem continue_hash : U.xidContinue '#' = false := by
  rw [U.continue_ascii _ (by decide)]; decide

theorem continue_comma : U.xidContinue ',' = false := by
  rw [U.continue_ascii _ (by decide)]; decide

theorem continue_nl : U.xidContinue '\n' = false := U.continue_false (by decide)

theorem start_hash : U.xidStart '#' = false := U.start_false U.continue_hash

theorem start_ws {c : Char} (h : isWs c = true) : U.xidStart c = false :=
  U.start_false (U.continue_false h)

end Unicode

/-! ## Repetition of a character class -/

theorem run_star_nil {α : Type} (g : Bool) (p : Char → Bool) (b : Bool) (caps : List (Nat × Str))
    (k : MState → Option α) : (Re.star g (.cls p)).run ⟨b, [], caps⟩ k = k ⟨b, [], caps⟩ := rfl

theorem run_star_cons {α : Type} (g : Bool) (p : Char → Bool) (b : Bool) (c : Char) (t : Str)
    (caps : List (Nat × Str)) (k : MState → Option α) :
    (Re.star g (.cls p)).run ⟨b, c :: t, caps⟩ k =
      if p c then
        (if g then ((Re.star g (.cls p)).run ⟨false, t, caps⟩ k).or (k ⟨b, c :: t, caps⟩)
         else (k ⟨b, c :: t, caps⟩).or ((Re.star g (.cls p)).run ⟨false, t, caps⟩ k))
      else k ⟨b, c :: t, caps⟩ := by
  by_cases h : p c = true
  · simp [Re.run, starRun, h]
  · simp only [Re.run, starRun, List.length_cons, h]
    cases g <;> simp

/-- A greedy class repetition whose continuation cannot start with a character of the class. -/
theorem run_star_det {α : Type} (p : Char → Bool) (caps : List (Nat × Str)) (k : MState → Option α)
    (hk : ∀ b c t, p c = true → k ⟨b, c :: t, caps⟩ = none) (b : Bool) (s : Str) :
    (Re.star true (.cls p)).run ⟨b, s, caps⟩ k =
      k ⟨b && (s.takeWhile p).isEmpty, s.dropWhile p, caps⟩ := by
  induction s generalizing b with
  | nil => simp [run_star_nil]
  | cons c t ih =>
    rw [run_star_cons]
    by_cases h : p c = true
    · simp only [h, if_true, ih, hk b c t h, Option.or_none, List.takeWhile_cons_of_pos,
        List.dropWhile_cons_of_pos, List.isEmpty_cons, Bool.and_false, Bool.false_and]
    · simp [h]

/-- Continuations that ignore whether they are at the start of the text. -/
def Anywhere {α : Type} (k : MState → Option α) : Prop :=
  ∀ b b' s caps, k ⟨b, s, caps⟩ = k ⟨b', s, caps⟩

/-! ## `\s*$` -/

/-- The final continuation. -/
def done : MState → Option Captures := fun s => some ⟨s.caps⟩

/-- `\s*$` -/
def Re.wsEnd : Re := .star true .ws ⬝ .eol

theorem run_wsEnd (s : MState) :
    Re.wsEnd.run s done = if s.rest.all isWs then some ⟨s.caps⟩ else none := by
  obtain ⟨b, s, caps⟩ := s
  show (Re.star true (.cls isWs)).run ⟨b, s, caps⟩ (fun s' => Re.eol.run s' done) = _
  rw [run_star_det]
  · simp only [Re.run, done]
    congr 1
    have : (s.dropWhile isWs).isEmpty = s.all isWs := by
      induction s with
      | nil => rfl
      | cons c t ih =>
        by_cases h : isWs c = true <;> simp_all
    rw [this]
  · intro b c t _; simp [Re.run]

/-! ## Trimming -/

theorem dropWhile_all {p : Char → Bool} {s : Str} : s.dropWhile p = [] ↔ ∀ c ∈ s, p c = true := by
  induction s with
  | nil => simp
  | cons c t ih =>
    by_cases h : p c = true <;> simp [h, ih]

theorem trimEnd_nil : trimEnd [] = [] := rfl

theorem dropWhile_append_of_ne {p : Char → Bool} {s t : Str} (h : s.dropWhile p ≠ []) :
    (s ++ t).dropWhile p = s.dropWhile p ++ t := by
  induction s with
  | nil => exact absurd rfl h
  | cons c s ih =>
    by_cases hc : p c = true
    · simp [hc] at h ⊢; exact ih h
    · simp [hc]

theorem dropWhile_append_of_eq {p : Char → Bool} {s t : Str} (h : s.dropWhile p = []) :
    (s ++ t).dropWhile p = t.dropWhile p := by
  induction s with
  | nil => rfl
  | cons c s ih =>
    by_cases hc : p c = true
    · simp [hc] at h ⊢; exact ih h
    · simp [hc] at h

theorem trimEnd_cons (c : Char) (s : Str) :
    trimEnd (c :: s) = if trimEnd s = [] then (if isWs c then [] else [c]) else c :: trimEnd s := by
  unfold trimEnd
  rw [List.reverse_cons]
  by_cases h : s.reverse.dropWhile isWs = []
  · rw [dropWhile_append_of_eq h]
    by_cases hc : isWs c = true <;> simp [h, hc]
  · rw [dropWhile_append_of_ne h]
    simp [h]

theorem trimEnd_eq_nil {s : Str} : trimEnd s = [] ↔ ∀ c ∈ s, isWs c = true := by
  unfold trimEnd
  rw [List.reverse_eq_nil_iff, dropWhile_all]
  simp

theorem trim_eq_nil {s : Str} : trim s = [] ↔ ∀ c ∈ s, isWs c = true := by
  unfold trim trimStart
  constructor
  · intro h
    rw [trimEnd_eq_nil] at h
    cases hd : s.dropWhile isWs with
    | nil => exact dropWhile_all.1 hd
    | cons c t =>
      have h1 : ¬ isWs c = true := by
        have := List.head_dropWhile_not isWs (l := s) (by rw [hd]; simp)
        simp [hd] at this
        simp [this]
      exact absurd (h c (by rw [hd]; simp)) h1
  · intro h
    rw [dropWhile_all.2 h]; rfl

theorem trim_cons_ws {c : Char} {s : Str} (h : isWs c = true) : trim (c :: s) = trim s := by
  unfold trim trimStart
  rw [List.dropWhile_cons_of_pos h]

theorem trim_cons_not_ws {c : Char} {s : Str} (h : isWs c = false) :
    trim (c :: s) = c :: trimEnd s := by
  unfold trim trimStart
  rw [List.dropWhile_cons_of_neg (by simp [h]), trimEnd_cons]
  split
  · rename_i h1; simp [h, h1]
  · rfl

theorem mem_takeWhile {p : Char → Bool} {s : Str} {c : Char} (h : c ∈ s.takeWhile p) :
    p c = true := by
  induction s with
  | nil => cases h
  | cons d s ih =>
    by_cases hd : p d = true
    · simp [hd] at h
      rcases h with rfl | h
      · exact hd
      · exact ih h
    · simp [hd] at h

theorem trimEnd_prefix (s : Str) : ∃ w, s = trimEnd s ++ w ∧ w.all isWs = true := by
  unfold trimEnd
  refine ⟨(s.reverse.takeWhile isWs).reverse, ?_, ?_⟩
  · rw [← List.reverse_append, List.takeWhile_append_dropWhile, List.reverse_reverse]
  · rw [List.all_reverse, List.all_eq_true]
    intro c hc
    exact mem_takeWhile hc

theorem trimStart_suffix (s : Str) : ∃ w, s = w ++ trimStart s ∧ w.all isWs = true := by
  refine ⟨s.takeWhile isWs, (List.takeWhile_append_dropWhile).symm, ?_⟩
  rw [List.all_eq_true]
  intro c hc
  exact mem_takeWhile hc

theorem trim_decomp (s : Str) : ∃ w w', s = w ++ trim s ++ w' ∧ w.all isWs = true ∧
    w'.all isWs = true := by
  obtain ⟨w, h1, h2⟩ := trimStart_suffix s
  obtain ⟨w', h3, h4⟩ := trimEnd_prefix (trimStart s)
  refine ⟨w, w', ?_, h2, h4⟩
  unfold trim
  rw [List.append_assoc, ← h3, ← h1]

theorem trimStart_head (s : Str) : ∀ c t, trimStart s = c :: t → isWs c = false := by
  intro c t h
  have := List.head_dropWhile_not isWs (l := s) (by unfold trimStart at h; rw [h]; simp)
  unfold trimStart at h
  simpa [h] using this

theorem trimEnd_last (s : Str) : ∀ c t, trimEnd s = t ++ [c] → isWs c = false := by
  intro c t h
  unfold trimEnd at h
  have h2 : s.reverse.dropWhile isWs = c :: t.reverse := by
    have := congrArg List.reverse h
    simpa using this
  exact trimStart_head s.reverse c t.reverse h2

theorem trimStart_trimmed {s : Str} (h : ∀ c t, s = c :: t → isWs c = false) : trimStart s = s := by
  cases s with
  | nil => rfl
  | cons c t => unfold trimStart; rw [List.dropWhile_cons_of_neg]; simp [h c t rfl]

theorem trimEnd_trimmed {s : Str} (h : ∀ c t, s = t ++ [c] → isWs c = false) : trimEnd s = s := by
  unfold trimEnd
  have := trimStart_trimmed (s := s.reverse) (by
    intro c t hc
    refine h c t.reverse ?_
    have := congrArg List.reverse hc
    simpa using this)
  unfold trimStart at this
  rw [this, List.reverse_reverse]

/-- Text without white space at either end. -/
def Trimmed (s : Str) : Prop :=
  (∀ c t, s = c :: t → isWs c = false) ∧ (∀ c t, s = t ++ [c] → isWs c = false)

theorem trim_of_trimmed {s : Str} (h : Trimmed s) : trim s = s := by
  unfold trim
  rw [trimStart_trimmed h.1, trimEnd_trimmed h.2]

theorem trim_trimmed (s : Str) : Trimmed (trim s) := by
  constructor
  · intro c t h
    unfold trim at h
    obtain ⟨w, h1, _⟩ := trimEnd_prefix (trimStart s)
    rw [h] at h1
    exact trimStart_head s c (t ++ w) (by simpa using h1)
  · intro c t h
    exact trimEnd_last _ c t h

theorem trim_trim (s : Str) : trim (trim s) = trim s := trim_of_trimmed (trim_trimmed s)

theorem trim_mem {s : Str} {c : Char} (h : c ∈ trim s) : c ∈ s := by
  obtain ⟨w, w', h1, _⟩ := trim_decomp s
  rw [h1]; simp [h]

/-! ## `\s*(.+?)\s*$` -/

/-- What `\s*(.+?)\s*$` captures from non-empty text without line feed. -/
def rawTitle (r : Str) : Str :=
  if trim r = [] then r.drop (r.length - 1) else trim r

theorem rawTitle_cons_ws {c d : Char} {x : Str} (h : isWs c = true) :
    rawTitle (c :: d :: x) = rawTitle (d :: x) := by
  unfold rawTitle
  rw [trim_cons_ws h]
  have : (c :: d :: x).drop ((c :: d :: x).length - 1) = (d :: x).drop ((d :: x).length - 1) := by
    simp
  rw [this]

theorem rawTitle_single {c : Char} : rawTitle [c] = [c] := by
  unfold rawTitle
  split
  · rfl
  · rename_i h
    cases hc : isWs c with
    | true => exact absurd (trim_eq_nil.2 (by simpa using hc)) h
    | false => rw [trim_cons_not_ws hc]; rfl

theorem rawTitle_not_ws {c : Char} {x : Str} (h : isWs c = false) :
    rawTitle (c :: x) = c :: trimEnd x := by
  unfold rawTitle
  rw [trim_cons_not_ws h]; simp

theorem rawTitle_ne_nil {r : Str} (h : r ≠ []) : rawTitle r ≠ [] := by
  unfold rawTitle
  split
  · intro h2
    have := congrArg List.length h2
    simp at this
    have : 0 < r.length := List.length_pos_iff.2 h
    omega
  · assumption

theorem rawTitle_of_trim {r : Str} (h : trim r ≠ []) : rawTitle r = trim r := by
  unfold rawTitle; simp [h]

theorem trim_rawTitle (r : Str) : trim (rawTitle r) = trim r := by
  unfold rawTitle
  split
  · rename_i h
    rw [h, trim_eq_nil]
    intro c hc
    exact trim_eq_nil.1 h c (List.drop_subset _ _ hc)
  · exact trim_trim r

theorem rawTitle_mem {r : Str} {c : Char} (h : c ∈ rawTitle r) : c ∈ r := by
  unfold rawTitle at h
  split at h
  · exact List.drop_subset _ _ h
  · exact trim_mem h

/-- `(.+?)\s*$` capturing into group `n` -/
def Re.titleEnd (n : Nat) : Re := .grp n (.plus false .dot) ⬝ .wsEnd

/-- `\s*(.+?)\s*$` capturing into group `n` -/
def Re.wsTitleEnd (n : Nat) : Re := .star true .ws ⬝ .titleEnd n

theorem titleEnd_lazy (n : Nat) (caps : List (Nat × Str)) (whole x nl : Str) (b : Bool)
    (hx : '\n' ∉ x) (hnl : nl = [] ∨ nl = ['\n']) :
    (Re.star false .dot).run ⟨b, x ++ nl, caps⟩ (fun s' => Re.wsEnd.run
        ⟨s'.atStart, s'.rest, (n, whole.take (whole.length - s'.rest.length)) :: s'.caps⟩ done) =
      some ⟨(n, whole.take (whole.length - (x ++ nl).length + (trimEnd x).length)) :: caps⟩ ∨
      whole.length < (x ++ nl).length := by
  by_cases hw : whole.length < (x ++ nl).length
  · exact .inr hw
  left
  unfold Re.dot
  induction x generalizing b with
  | nil =>
    have hws : nl.all isWs = true := by rcases hnl with rfl | rfl <;> decide
    rcases hnl with rfl | rfl
    · rw [List.append_nil, run_star_nil, run_wsEnd]
      simp [trimEnd_nil]
    · rw [List.nil_append, run_star_cons, run_wsEnd]
      simp [trimEnd_nil, hws]
  | cons c x ih =>
    have hc : (c != '\n') = true := by simp at hx ⊢; exact fun h => hx.1 h.symm
    have hx' : '\n' ∉ x := fun h => hx (by simp [h])
    rw [List.cons_append, run_star_cons, run_wsEnd]
    simp only [hc, if_true]
    rw [ih false hx' (by simp at hw ⊢; omega)]
    by_cases hall : (c :: (x ++ nl)).all isWs = true
    · have h1 : trimEnd (c :: x) = [] := by
        rw [trimEnd_eq_nil]
        intro d hd
        rw [List.all_eq_true] at hall
        refine hall d ?_
        simp at hd ⊢
        rcases hd with rfl | hd <;> simp_all
      simp only [hall, if_true, Bool.false_eq_true, if_false, h1, List.length_nil,
        Nat.add_zero, Option.or]
    · have h1 : trimEnd (c :: x) ≠ [] := by
        intro h
        apply hall
        rw [trimEnd_eq_nil] at h
        rw [List.all_eq_true]
        intro d hd
        rw [← List.cons_append, List.mem_append] at hd
        rcases hd with hd | hd
        · exact h d hd
        · rcases hnl with rfl | rfl
          · cases hd
          · simp at hd; subst hd; decide
      simp only [hall, Bool.false_eq_true, if_false, Option.or]
      congr 4
      simp at hw
      rw [trimEnd_cons]
      split
      · rename_i h2
        rw [trimEnd_cons] at h1
        simp only [h2, if_true] at h1 ⊢
        split
        · rename_i h3; simp [h3] at h1
        · simp; omega
      · simp; omega

theorem run_titleEnd_nil (n : Nat) (b : Bool) (caps : List (Nat × Str)) :
    (Re.titleEnd n).run ⟨b, [], caps⟩ done = none := rfl

theorem run_titleEnd_nl (n : Nat) (b : Bool) (t : Str) (caps : List (Nat × Str)) :
    (Re.titleEnd n).run ⟨b, '\n' :: t, caps⟩ done = none := by
  simp [Re.titleEnd, Re.plus, Re.run, Re.dot]

theorem run_titleEnd (n : Nat) (c : Char) (x nl : Str) (b : Bool) (caps : List (Nat × Str))
    (hx : '\n' ∉ c :: x) (hnl : nl = [] ∨ nl = ['\n']) :
    (Re.titleEnd n).run ⟨b, c :: x ++ nl, caps⟩ done = some ⟨(n, c :: trimEnd x) :: caps⟩ := by
  have hc : (c != '\n') = true := by simp at hx ⊢; exact fun h => hx.1 h.symm
  have hx' : '\n' ∉ x := fun h => hx (by simp [h])
  have := titleEnd_lazy n caps (c :: x ++ nl) x nl false hx' hnl
  have h2 : ¬ (c :: x ++ nl).length < (x ++ nl).length := by simp
  rcases this with h | h
  · have e : (Re.titleEnd n).run ⟨b, c :: x ++ nl, caps⟩ done =
        (Re.star false .dot).run ⟨false, x ++ nl, caps⟩ (fun s' => Re.wsEnd.run
        ⟨s'.atStart, s'.rest, (n, (c :: x ++ nl).take ((c :: x ++ nl).length - s'.rest.length)) ::
          s'.caps⟩ done) := by
      simp only [Re.titleEnd, Re.plus, Re.run, Re.dot, List.cons_append, hc, if_true]
    rw [e, h]
    congr 4
    have : (c :: x ++ nl).length - (x ++ nl).length + (trimEnd x).length = (trimEnd x).length + 1 := by
      simp; omega
    rw [this]
    obtain ⟨w, hw, _⟩ := trimEnd_prefix x
    rw [List.cons_append, List.take_succ_cons]
    congr 1
    refine (List.prefix_iff_eq_take.1 ⟨w ++ nl, ?_⟩).symm
    rw [← List.append_assoc, ← hw]
  · exact absurd h h2

theorem run_wsTitleEnd (n : Nat) (r nl : Str) (b : Bool) (caps : List (Nat × Str))
    (hr : '\n' ∉ r) (hnl : nl = [] ∨ nl = ['\n']) :
    (Re.wsTitleEnd n).run ⟨b, r ++ nl, caps⟩ done =
      if r = [] then none else some ⟨(n, rawTitle r) :: caps⟩ := by
  show (Re.star true (.cls isWs)).run ⟨b, r ++ nl, caps⟩ (fun s => (Re.titleEnd n).run s done) = _
  induction r generalizing b with
  | nil =>
    rcases hnl with rfl | rfl
    · rw [List.append_nil, run_star_nil, run_titleEnd_nil]; rfl
    · rw [List.nil_append, run_star_cons, run_star_nil, run_titleEnd_nil, run_titleEnd_nl]; simp
  | cons c x ih =>
    have hx' : '\n' ∉ x := fun h => hr (by simp [h])
    rw [List.cons_append, run_star_cons, ih false hx', ← List.cons_append, run_titleEnd n c x nl b caps hr hnl]
    by_cases hc : isWs c = true
    · simp only [hc, if_true]
      cases x with
      | nil => simp [rawTitle_single, trimEnd_nil]
      | cons d x => simp [rawTitle_cons_ws hc]
    · have hc' : isWs c = false := by simpa using hc
      simp [hc', rawTitle_not_ws hc']

/-! ## Identifiers -/

/-- `\p{XID_Start}\p{XID_Continue}+` -/
def Re.ident (U : Unicode) : Re := .cls U.xidStart ⬝ .plus true (.cls U.xidContinue)

/-- The longest identifier that the text starts with, and what follows. -/
def identSplit (U : Unicode) : Str → Option (Str × Str)
  | c :: d :: t =>
    if U.xidStart c && U.xidContinue d then
      some (c :: d :: t.takeWhile U.xidContinue, t.dropWhile U.xidContinue)
    else none
  | _ => none

theorem run_ident {α : Type} (U : Unicode) (n : Nat) (k : MState → Option α)
    (hk : ∀ b c t caps, U.xidContinue c = true → k ⟨b, c :: t, caps⟩ = none) (b : Bool) (s : Str)
    (caps : List (Nat × Str)) :
    (Re.grp n (.ident U)).run ⟨b, s, caps⟩ k =
      (identSplit U s).bind (fun p => k ⟨false, p.2, (n, p.1) :: caps⟩) := by
  match s with
  | [] => rfl
  | [c] => by_cases h : U.xidStart c = true <;> simp [Re.ident, Re.plus, Re.run, identSplit, h]
  | c :: d :: t =>
    by_cases h : U.xidStart c = true
    · by_cases h2 : U.xidContinue d = true
      · have e : (Re.grp n (.ident U)).run ⟨b, c :: d :: t, caps⟩ k =
            (Re.star true (.cls U.xidContinue)).run ⟨false, t, caps⟩ (fun s' =>
              k ⟨s'.atStart, s'.rest, (n, (c :: d :: t).take ((c :: d :: t).length - s'.rest.length)) ::
                s'.caps⟩) := by
          simp only [Re.ident, Re.plus, Re.run, h, h2, if_true]
        rw [e, run_star_det _ _ _ (by intro b c' t' hc; exact hk _ _ _ _ hc)]
        simp only [identSplit, h, h2, Bool.and_self, if_true, Option.bind_some, Bool.false_and]
        congr 4
        have := List.takeWhile_append_dropWhile (p := U.xidContinue) (l := t)
        have hl := congrArg List.length this
        rw [List.length_append] at hl
        have e2 : (c :: d :: t).length - (t.dropWhile U.xidContinue).length =
            (t.takeWhile U.xidContinue).length + 2 := by simp; omega
        rw [e2]
        rw [List.take_succ_cons, List.take_succ_cons]
        congr 2
        exact (List.prefix_iff_eq_take.1 ⟨_, this⟩).symm
      · simp [Re.ident, Re.plus, Re.run, identSplit, h, h2]
    · simp [Re.ident, Re.plus, Re.run, identSplit, h]

end Reqtrace
