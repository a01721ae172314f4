import Verif.Location
import Verif.Lemmas.Regex

/-!
# Reading a location: closed form
-/

set_option linter.unusedSimpArgs false

namespace Reqtrace

namespace Unicode
variable (U : Unicode)

theorem digit_colon : U.digit ':' = false := by
  rw [U.digit_ascii _ (by decide)]; decide

theorem digit_of_isDigit {c : Char} (h : c.isDigit = true) : U.digit c = true := by
  have hlt : c.toNat < 128 := by
    simp only [Char.isDigit, Bool.and_eq_true, decide_eq_true_eq, UInt32.le_iff_toNat_le] at h
    have hn : c.val.toNat = c.toNat := rfl
    have : c.val.toNat ≤ 57 := h.2
    omega
  rw [U.digit_ascii _ hlt]; exact h

end Unicode

/-- `(\d+)` captured into group `n`: the digits that the text starts with. -/
theorem run_digits {α : Type} (U : Unicode) (n : Nat) (k : MState → Option α)
    (hk : ∀ b c t caps, U.digit c = true → k ⟨b, c :: t, caps⟩ = none) (b : Bool) (s : Str)
    (caps : List (Nat × Str)) :
    (Re.grp n (.plus true (.cls U.digit))).run ⟨b, s, caps⟩ k =
      if s.takeWhile U.digit = [] then none
      else k ⟨false, s.dropWhile U.digit, (n, s.takeWhile U.digit) :: caps⟩ := by
  cases s with
  | nil => rfl
  | cons c t =>
    by_cases h : U.digit c = true
    · have e : (Re.grp n (.plus true (.cls U.digit))).run ⟨b, c :: t, caps⟩ k =
            (Re.star true (.cls U.digit)).run ⟨false, t, caps⟩ (fun s' =>
              k ⟨s'.atStart, s'.rest, (n, (c :: t).take ((c :: t).length - s'.rest.length)) ::
                s'.caps⟩) := by
          simp only [Re.plus, Re.run, h, if_true]
      rw [e, run_star_det _ _ _ (by intro b c' t' hc; exact hk _ _ _ _ hc)]
      simp only [List.takeWhile_cons_of_pos h, List.dropWhile_cons_of_pos h, Bool.false_and,
        reduceCtorEq, if_false]
      congr 4
      have := List.takeWhile_append_dropWhile (p := U.digit) (l := t)
      have hl := congrArg List.length this
      rw [List.length_append] at hl
      have e2 : (c :: t).length - (t.dropWhile U.digit).length =
          (t.takeWhile U.digit).length + 1 := by simp; omega
      rw [e2, List.take_succ_cons]
      congr 1
      exact (List.prefix_iff_eq_take.1 ⟨_, this⟩).symm
    · simp [Re.plus, Re.run, h]

/-- Text made of `:` and digits. -/
def IsField (U : Unicode) (f d : Str) : Prop := f = ':' :: d ∧ d ≠ [] ∧ d.all U.digit = true

/-- The position fields that the whole text consists of. -/
def posFields (U : Unicode) : Str → Option (List (Nat × Str))
  | [] => some []
  | c :: t =>
    if c = ':' ∧ t.takeWhile U.digit ≠ [] then
      match t.dropWhile U.digit with
      | [] => some [(2, t.takeWhile U.digit)]
      | c' :: u =>
        if c' = ':' ∧ u.takeWhile U.digit ≠ [] ∧ u.dropWhile U.digit = [] then
          some [(3, u.takeWhile U.digit), (2, t.takeWhile U.digit)]
        else none
    else none

/-- The end of `LOCATION_RE`. -/
def Re.posEnd (U : Unicode) : Re :=
  .opt (.chr ':' ⬝ .grp 2 (.plus true (.cls U.digit))) ⬝
    .opt (.chr ':' ⬝ .grp 3 (.plus true (.cls U.digit))) ⬝ .eol

theorem run_eol (s : MState) : Re.eol.run s done = if s.rest = [] then some ⟨s.caps⟩ else none := by
  simp only [Re.run, done, List.isEmpty_iff]

theorem run_field {α : Type} (U : Unicode) (n : Nat) (k : MState → Option α)
    (hk : ∀ b c t caps, U.digit c = true → k ⟨b, c :: t, caps⟩ = none) (b : Bool) (s : Str)
    (caps : List (Nat × Str)) :
    (Re.opt (.chr ':' ⬝ .grp n (.plus true (.cls U.digit)))).run ⟨b, s, caps⟩ k =
      (match s with
        | c :: t => if c = ':' ∧ t.takeWhile U.digit ≠ [] then
            k ⟨false, t.dropWhile U.digit, (n, t.takeWhile U.digit) :: caps⟩ else none
        | [] => none).or (k ⟨b, s, caps⟩) := by
  cases s with
  | nil => rfl
  | cons c t =>
    show (((Re.chr ':').run ⟨b, c :: t, caps⟩ (fun s' =>
      (Re.grp n (.plus true (.cls U.digit))).run s' k))).or _ = _
    congr 1
    simp only [Re.chr, Re.run, beq_iff_eq]
    by_cases h : c = ':'
    · simp only [h, if_true, true_and]
      have := run_digits U n k hk false t caps
      simp only [Re.run] at this
      rw [this]
      by_cases h2 : t.takeWhile U.digit = [] <;> simp [h2]
    · simp [h]

theorem run_posEnd (U : Unicode) (b : Bool) (s : Str) (caps : List (Nat × Str)) :
    (Re.posEnd U).run ⟨b, s, caps⟩ done =
      (posFields U s).map (fun f => ⟨f ++ caps⟩) := by
  have h3 : ∀ b s caps, (Re.opt (.chr ':' ⬝ .grp 3 (.plus true (.cls U.digit))) ⬝ .eol).run
      ⟨b, s, caps⟩ done =
      (match s with
        | c :: t => if c = ':' ∧ t.takeWhile U.digit ≠ [] ∧ t.dropWhile U.digit = [] then
            some ⟨(3, t.takeWhile U.digit) :: caps⟩ else none
        | [] => some ⟨caps⟩) := by
    intro b s caps
    show (Re.opt (.chr ':' ⬝ .grp 3 (.plus true (.cls U.digit)))).run ⟨b, s, caps⟩
      (fun s' => Re.eol.run s' done) = _
    rw [run_field U 3 _ (by intro b c t caps _; rw [run_eol]; simp), run_eol]
    cases s with
    | nil => simp
    | cons c t =>
      simp only [run_eol]
      by_cases h1 : c = ':' <;> by_cases h2 : t.takeWhile U.digit = [] <;>
        by_cases h4 : t.dropWhile U.digit = [] <;> simp [h1, h2, h4]
  show (Re.opt (.chr ':' ⬝ .grp 2 (.plus true (.cls U.digit)))).run ⟨b, s, caps⟩
      (fun s' => (Re.opt (.chr ':' ⬝ .grp 3 (.plus true (.cls U.digit))) ⬝ .eol).run s' done) = _
  rw [run_field U 2 _ (by
    intro b c t caps hc
    rw [h3]
    have : c ≠ ':' := by intro h; subst h; rw [U.digit_colon] at hc; cases hc
    simp [this]), h3]
  cases s with
  | nil => simp [posFields]
  | cons c t =>
    simp only [h3, posFields]
    by_cases h1 : c = ':'
    · by_cases h2 : t.takeWhile U.digit = []
      · simp [h1, h2]
      · simp only [h1, h2, ne_eq, not_false_eq_true, and_self, if_true, true_and]
        cases h4 : t.dropWhile U.digit with
        | nil => simp
        | cons c' u => split <;> simp_all
    · simp [h1]

/-- Split off the file: the shortest non-empty text such that only position fields follow. -/
def locSplit (U : Unicode) (file : Str) (t : Str) : Option (Str × List (Nat × Str)) :=
  match posFields U t with
  | some f => some (file, f)
  | none => match t with
    | [] => none
    | c :: t => if c = '\n' then none else locSplit U (file ++ [c]) t

theorem run_location_lazy (U : Unicode) (file t : Str) (b : Bool) :
    (Re.star false .dot).run ⟨b, t, []⟩ (fun s' => (Re.posEnd U).run
        ⟨s'.atStart, s'.rest, (1, (file ++ t).take ((file ++ t).length - s'.rest.length)) :: s'.caps⟩
        done) =
      (locSplit U file t).map (fun p => ⟨p.2 ++ [(1, p.1)]⟩) := by
  induction t generalizing file b with
  | nil =>
    unfold locSplit Re.dot
    rw [run_star_nil, run_posEnd]
    simp [posFields]
  | cons c t ih =>
    unfold locSplit
    have ih' := ih (file ++ [c]) false
    simp only [List.append_assoc, List.cons_append, List.nil_append] at ih'
    unfold Re.dot at ih' ⊢
    rw [run_star_cons, run_posEnd, ih']
    have e : (file ++ c :: t).take ((file ++ c :: t).length - (c :: t).length) = file := by simp
    rw [e]
    cases hp : posFields U (c :: t) with
    | some f => by_cases hc : c = '\n' <;> simp [hc]
    | none => by_cases hc : c = '\n' <;> simp [hc]

/-- The groups that `LOCATION_RE` captures. -/
def locGroups (U : Unicode) : Str → Option (Str × List (Nat × Str))
  | [] => none
  | c :: t => if c = '\n' then none else locSplit U [c] t

theorem searchFrom_bol (r : Re) (s : Str) : searchFrom (.bol ⬝ r) false s = none := by
  induction s with
  | nil => simp [searchFrom, Re.run]
  | cons c t ih => simp [searchFrom, Re.run, ih]

theorem captures_bol (r : Re) (s : Str) : (Re.bol ⬝ r).captures s = r.run ⟨true, s, []⟩ done := by
  unfold Re.captures
  cases s with
  | nil => simp [searchFrom, Re.run]; rfl
  | cons c t => simp [searchFrom, searchFrom_bol, Re.run]; rfl

theorem location_captures (U : Unicode) (s : Str) : (locationRe U).captures s =
    (locGroups U s).map (fun p => ⟨p.2 ++ [(1, p.1)]⟩) := by
  unfold locationRe
  rw [captures_bol]
  cases s with
  | nil => rfl
  | cons c t =>
    have := run_location_lazy U [c] t false
    unfold locGroups
    by_cases hc : c = '\n'
    · simp [hc, Re.plus, Re.dot, Re.run]
    · simp only [hc, if_false]
      rw [← this]
      have hc' : (c != '\n') = true := by simpa using hc
      simp only [Re.plus, Re.run, Re.dot, Re.posEnd, hc', if_true, List.cons_append, List.nil_append]

/-- `Location::parse` in closed form. -/
theorem location_parse_eq (U : Unicode) (s : Str) : Location.parse U s = .ok
    (match locGroups U s with
      | none => .error c!"Invalid Location"
      | some (file, fs) =>
        (parsePos (fs.lookup 2) (fs.lookup 3)).map (fun pos => ⟨file, pos⟩)) := by
  unfold Location.parse
  rw [location_captures]
  cases h : locGroups U s with
  | none => rfl
  | some p =>
    obtain ⟨file, fs⟩ := p
    have hf : (fs = [] ∨ (∃ d, fs = [(2, d)]) ∨ ∃ d e, fs = [(3, e), (2, d)]) := by
      have hp : ∀ t f, posFields U t = some f →
          (f = [] ∨ (∃ d, f = [(2, d)]) ∨ ∃ d e, f = [(3, e), (2, d)]) := by
        intro t f hf
        unfold posFields at hf
        split at hf
        · cases hf; exact .inl rfl
        · split at hf
          · split at hf
            · cases hf; exact .inr (.inl ⟨_, rfl⟩)
            · split at hf
              · cases hf; exact .inr (.inr ⟨_, _, rfl⟩)
              · cases hf
          · cases hf
      have hl : ∀ t file p, locSplit U file t = some p →
          (p.2 = [] ∨ (∃ d, p.2 = [(2, d)]) ∨ ∃ d e, p.2 = [(3, e), (2, d)]) := by
        intro t
        induction t with
        | nil =>
          intro file p hp'
          unfold locSplit at hp'
          cases hq : posFields U [] with
          | none => simp [hq] at hp'
          | some f => simp [hq] at hp'; subst hp'; exact hp _ _ hq
        | cons c t ih =>
          intro file p hp'
          unfold locSplit at hp'
          cases hq : posFields U (c :: t) with
          | none =>
            simp only [hq] at hp'
            split at hp'
            · cases hp'
            · exact ih _ _ hp'
          | some f => simp [hq] at hp'; subst hp'; exact hp _ _ hq
      unfold locGroups at h
      split at h
      · cases h
      · split at h
        · cases h
        · exact hl _ _ _ h
    rcases hf with rfl | ⟨d, rfl⟩ | ⟨d, e, rfl⟩
    · rfl
    · rfl
    · rfl

end Reqtrace
