import Verif.Lemmas.Regex
import Verif.Lemmas.Location
import Verif.Markdown

/-!
# Closed forms of the line regexes of the Markdown parser
-/

set_option linter.unusedSimpArgs false

namespace Reqtrace

/-! ## Lines -/

/-- The line without its line feed. -/
def body (l : Str) : Str := l.takeWhile (· != '\n')

/-- No line feed except perhaps at the end. -/
def IsLine (l : Str) : Prop := ∃ nl, l = body l ++ nl ∧ (nl = [] ∨ nl = ['\n'])

theorem body_no_nl (l : Str) : '\n' ∉ body l := by
  intro h
  have := mem_takeWhile h
  simp at this

theorem body_append {r nl : Str} (hr : '\n' ∉ r) (hnl : nl = [] ∨ nl = ['\n']) : body (r ++ nl) = r := by
  unfold body
  induction r with
  | nil => rcases hnl with rfl | rfl <;> rfl
  | cons c r ih =>
    have hc : (c != '\n') = true := by simp at hr ⊢; exact fun h => hr.1 h.symm
    simp only [List.cons_append, List.takeWhile_cons, hc, if_true]
    rw [ih (fun h => hr (by simp [h]))]

theorem isLine_append {r nl : Str} (hr : '\n' ∉ r) (hnl : nl = [] ∨ nl = ['\n']) : IsLine (r ++ nl) :=
  ⟨nl, by rw [body_append hr hnl], hnl⟩

theorem isLine_nil : IsLine [] := ⟨[], rfl, .inl rfl⟩

theorem IsLine.tail {c : Char} {t : Str} (h : IsLine (c :: t)) : IsLine t := by
  obtain ⟨nl, h1, h2⟩ := h
  by_cases hc : c = '\n'
  · subst hc
    rcases h2 with rfl | rfl
    · simp [body] at h1
    · simp [body] at h1; subst h1; exact isLine_nil
  · have : body (c :: t) = c :: body t := by
      unfold body; simp [hc]
    rw [this] at h1
    simp at h1
    exact ⟨nl, h1, h2⟩

theorem IsLine.suffix {a b : Str} (h : IsLine (a ++ b)) : IsLine b := by
  induction a with
  | nil => exact h
  | cons c a ih => exact ih h.tail

theorem IsLine.dropWhile {s : Str} (p : Char → Bool) (h : IsLine s) : IsLine (s.dropWhile p) := by
  rw [← List.takeWhile_append_dropWhile (p := p) (l := s)] at h
  exact h.suffix

theorem splitLines_ne_nil {c : Char} {t : Str} : splitLines (c :: t) ≠ [] := by
  rw [splitLines]
  split
  · simp
  · split <;> simp

theorem splitLines_spec (s : Str) : (splitLines s).flatten = s ∧
    (∀ l ∈ splitLines s, IsLine l ∧ l ≠ []) ∧
    (∀ l ∈ (splitLines s).dropLast, l.getLast? = some '\n') := by
  induction s with
  | nil => simp [splitLines]
  | cons c t ih =>
    obtain ⟨h1, h2, h3⟩ := ih
    rw [splitLines]
    by_cases hc : c = '\n'
    · subst hc
      simp only [beq_self_eq_true, if_true]
      refine ⟨by simp [h1], ?_, ?_⟩
      · intro l hl
        rcases List.mem_cons.1 hl with rfl | hl
        · exact ⟨⟨['\n'], rfl, .inr rfl⟩, by simp⟩
        · exact h2 l hl
      · intro l hl
        cases hs : splitLines t with
        | nil => rw [hs] at hl; simp at hl
        | cons a b =>
          rw [hs] at hl h3
          rw [List.dropLast_cons_of_ne_nil (by simp)] at hl
          rcases List.mem_cons.1 hl with rfl | hl
          · rfl
          · exact h3 l hl
    · simp only [beq_iff_eq, hc, if_false]
      cases hs : splitLines t with
      | nil =>
        rw [hs] at h1
        simp at h1; subst h1
        refine ⟨rfl, ?_, by simp⟩
        intro l hl
        simp at hl; subst hl
        have : (c != '\n') = true := by simpa using hc
        exact ⟨⟨[], by simp [body, this], .inl rfl⟩, by simp⟩
      | cons a b =>
        rw [hs] at h1 h2 h3
        refine ⟨by simpa using h1, ?_, ?_⟩
        · intro l hl
          rcases List.mem_cons.1 hl with rfl | hl
          · obtain ⟨⟨nl, e1, e2⟩, _⟩ := h2 a (by simp)
            have : body (c :: a) = c :: body a := by unfold body; simp [hc]
            exact ⟨⟨nl, by rw [this]; simpa using e1, e2⟩, by simp⟩
          · exact h2 l (by simp [hl])
        · intro l hl
          cases b with
          | nil => simp at hl
          | cons b bs =>
            rw [List.dropLast_cons_of_ne_nil (by simp)] at hl h3
            rcases List.mem_cons.1 hl with rfl | hl
            · have := h3 a (by simp)
              obtain ⟨_, hne⟩ := h2 a (by simp)
              cases a with
              | nil => exact absurd rfl hne
              | cons x a => rw [List.getLast?_cons_cons]; exact this
            · exact h3 l (by simp [hl])

/-- Text that ends with a line feed (or is empty) can be cut off line by line. -/
theorem splitLines_append (s t : Str) (h : s = [] ∨ s.getLast? = some '\n') :
    splitLines (s ++ t) = splitLines s ++ splitLines t := by
  induction s with
  | nil => rfl
  | cons c s ih =>
    rw [List.cons_append, splitLines, splitLines]
    by_cases hc : c = '\n'
    · subst hc
      simp only [beq_self_eq_true, if_true, List.cons_append]
      congr 1
      cases s with
      | nil => rfl
      | cons d s =>
        refine ih (.inr ?_)
        rcases h with h | h
        · cases h
        · rwa [List.getLast?_cons_cons] at h
    · simp only [beq_iff_eq, hc, if_false]
      cases s with
      | nil =>
        rcases h with h | h
        · cases h
        · simp at h; exact absurd h hc
      | cons d s =>
        have hs : (d :: s).getLast? = some '\n' := by
          rcases h with h | h
          · cases h
          · rwa [List.getLast?_cons_cons] at h
        rw [ih (.inr hs)]
        cases hq : splitLines (d :: s) with
        | nil => exact absurd hq splitLines_ne_nil
        | cons a b => rfl

/-! ## Greedy repetition whose continuation succeeds -/

theorem run_star_greedy {α : Type} (p : Char → Bool) (caps : List (Nat × Str)) (k : MState → Option α)
    (x : α) (s : Str) (hk : ∀ b, k ⟨b, s.dropWhile p, caps⟩ = some x) (b : Bool) :
    (Re.star true (.cls p)).run ⟨b, s, caps⟩ k = some x := by
  induction s generalizing b with
  | nil => rw [run_star_nil]; exact hk b
  | cons c t ih =>
    rw [run_star_cons]
    by_cases h : p c = true
    · simp only [h, if_true]
      rw [ih (by simpa [h] using hk) false]; rfl
    · simp only [h]
      have := hk b
      simpa [h] using this

/-- `(x+)` for a class, when the continuation cannot start with a character of the class. -/
theorem run_plus {α : Type} (p : Char → Bool) (n : Nat) (k : MState → Option α)
    (hk : ∀ b c t caps, p c = true → k ⟨b, c :: t, caps⟩ = none) (b : Bool) (s : Str)
    (caps : List (Nat × Str)) :
    (Re.grp n (.plus true (.cls p))).run ⟨b, s, caps⟩ k =
      if s.takeWhile p = [] then none
      else k ⟨false, s.dropWhile p, (n, s.takeWhile p) :: caps⟩ := by
  cases s with
  | nil => rfl
  | cons c t =>
    by_cases h : p c = true
    · have e : (Re.grp n (.plus true (.cls p))).run ⟨b, c :: t, caps⟩ k =
            (Re.star true (.cls p)).run ⟨false, t, caps⟩ (fun s' =>
              k ⟨s'.atStart, s'.rest, (n, (c :: t).take ((c :: t).length - s'.rest.length)) ::
                s'.caps⟩) := by
        simp only [Re.plus, Re.run, h, if_true]
      rw [e, run_star_det _ _ _ (by intro b c' t' hc; exact hk _ _ _ _ hc)]
      simp only [List.takeWhile_cons, h, if_true, List.dropWhile_cons, Bool.false_and,
        reduceCtorEq, if_false]
      congr 4
      have := List.takeWhile_append_dropWhile (p := p) (l := t)
      have hl := congrArg List.length this
      rw [List.length_append] at hl
      have e2 : (c :: t).length - (t.dropWhile p).length = (t.takeWhile p).length + 1 := by
        simp; omega
      rw [e2, List.take_succ_cons]
      congr 1
      exact (List.prefix_iff_eq_take.1 ⟨_, this⟩).symm
    · simp [Re.plus, Re.run, h]

namespace Md

/-! ## Requirement headings -/

/-- The groups of `requirementRe` on a line. -/
def reqParts (U : Unicode) (l : Str) : Option (Str × Str × Str) :=
  if l.takeWhile (· == '#') = [] then none
  else match identSplit U ((l.dropWhile (· == '#')).dropWhile isWs) with
    | some (id, ':' :: rest) =>
      if body rest = [] then none
      else some (l.takeWhile (· == '#'), id, rawTitle (body rest))
    | _ => none

theorem identSplit_line {U : Unicode} {s : Str} {p : Str × Str} (h : identSplit U s = some p) :
    s = p.1 ++ p.2 := by
  match s, h with
  | c :: d :: t, h =>
    simp only [identSplit] at h
    split at h
    · cases h
      simp [List.takeWhile_append_dropWhile]
    · cases h

theorem run_chr {α : Type} (c : Char) (s : MState) (k : MState → Option α) :
    (Re.chr c).run s k = match s.rest with
      | d :: t => if d = c then k ⟨false, t, s.caps⟩ else none
      | [] => none := by
  obtain ⟨b, s, caps⟩ := s
  cases s with
  | nil => rfl
  | cons d t => by_cases h : d = c <;> simp [Re.chr, Re.run, h]

theorem run_wsTitleEnd_line (n : Nat) (s : Str) (b : Bool) (caps : List (Nat × Str)) (h : IsLine s) :
    (Re.wsTitleEnd n).run ⟨b, s, caps⟩ done =
      if body s = [] then none else some ⟨(n, rawTitle (body s)) :: caps⟩ := by
  obtain ⟨nl, h1, h2⟩ := h
  have := run_wsTitleEnd n (body s) nl b caps (body_no_nl s) h2
  rw [← h1] at this
  exact this

theorem requirement_captures (U : Unicode) (l : Str) (hl : IsLine l) :
    (requirementRe U).captures l =
      (reqParts U l).map (fun p => ⟨[(3, p.2.2), (2, p.2.1), (1, p.1)]⟩) := by
  unfold requirementRe
  rw [captures_bol]
  have hhash : ∀ c : Char, (c == '#') = true → isWs c = false ∧ U.xidStart c = false := by
    intro c hc
    simp at hc
    subst hc
    exact ⟨by decide, U.start_hash⟩
  -- the part behind the identifier
  have hk : ∀ b s caps, IsLine s → (Re.chr ':' ⬝ Re.wsTitleEnd 3).run ⟨b, s, caps⟩ done =
      match s with
      | ':' :: rest => if body rest = [] then none else some ⟨(3, rawTitle (body rest)) :: caps⟩
      | _ => none := by
    intro b s caps hs
    show (Re.chr ':').run ⟨b, s, caps⟩ (fun s => (Re.wsTitleEnd 3).run s done) = _
    rw [run_chr]
    cases s with
    | nil => rfl
    | cons c t =>
      by_cases hc : c = ':'
      · subst hc
        simp only [if_true]
        exact run_wsTitleEnd_line 3 t false caps hs.tail
      · simp only [hc, if_false]
        split
        · rename_i h; cases h; exact absurd rfl hc
        · rfl
  have hk0 : ∀ b c t caps, U.xidContinue c = true →
      (Re.chr ':' ⬝ Re.wsTitleEnd 3).run ⟨b, c :: t, caps⟩ done = none := by
    intro b c t caps hc
    show (Re.chr ':').run ⟨b, c :: t, caps⟩ (fun s => (Re.wsTitleEnd 3).run s done) = _
    rw [run_chr]
    have : c ≠ ':' := by rintro rfl; rw [U.continue_colon] at hc; cases hc
    simp [this]
  -- identifier and what follows
  have hi : ∀ b s caps, IsLine s →
      (Re.grp 2 (.ident U) ⬝ Re.chr ':' ⬝ Re.wsTitleEnd 3).run ⟨b, s, caps⟩ done =
      match identSplit U s with
      | some (id, ':' :: rest) =>
        if body rest = [] then none else some ⟨(3, rawTitle (body rest)) :: (2, id) :: caps⟩
      | _ => none := by
    intro b s caps hs
    show (Re.grp 2 (.ident U)).run ⟨b, s, caps⟩
      (fun s => (Re.chr ':' ⬝ Re.wsTitleEnd 3).run s done) = _
    rw [run_ident U 2 _ hk0]
    cases hq : identSplit U s with
    | none => rfl
    | some p =>
      obtain ⟨id, r⟩ := p
      have hr : IsLine r := by
        have := identSplit_line hq
        rw [this] at hs
        exact hs.suffix
      simp only [Option.bind_some]
      rw [hk _ _ _ hr]
      cases r with
      | nil => rfl
      | cons c t =>
        by_cases hc : c = ':'
        · subst hc; rfl
        · split
          · rename_i h; cases h; exact absurd rfl hc
          · split
            · rename_i h; cases h; exact absurd rfl hc
            · rfl
  have hi0 : ∀ b c t caps, U.xidStart c = false →
      (Re.grp 2 (.ident U) ⬝ Re.chr ':' ⬝ Re.wsTitleEnd 3).run ⟨b, c :: t, caps⟩ done = none := by
    intro b c t caps hc
    simp [Re.ident, Re.run, hc]
  show (Re.grp 1 (.plus true (.cls (· == '#')))).run ⟨true, l, []⟩
    (fun s => (Re.star true (.cls isWs)).run s (fun s =>
      (Re.grp 2 (.ident U) ⬝ Re.chr ':' ⬝ Re.wsTitleEnd 3).run s done)) = _
  rw [run_plus]
  · unfold reqParts
    split
    · rfl
    · rw [run_star_det _ _ _ (by
        intro b c t hc
        exact hi0 _ _ _ _ (U.start_ws hc))]
      rw [hi _ _ _ ((hl.dropWhile _).dropWhile _)]
      cases hq : identSplit U ((l.dropWhile (· == '#')).dropWhile isWs) with
      | none => rfl
      | some p =>
        obtain ⟨id, r⟩ := p
        cases r with
        | nil => rfl
        | cons c t =>
          by_cases hc : c = ':'
          · subst hc
            show (if body t = [] then none else _) = Option.map _ (if body t = [] then none else _)
            split <;> rfl
          · split
            · rename_i h; cases h; exact absurd rfl hc
            · rfl
  · intro b c t caps hc
    obtain ⟨h1, h2⟩ := hhash c hc
    rw [run_star_cons]
    simp only [h1, Bool.false_eq_true, if_false]
    exact hi0 _ _ _ _ h2

/-- `headingRe` matches exactly the lines starting with `#`. -/
theorem heading_isMatch (l : Str) : headingRe.isMatch l = true ↔ ∃ t, l = '#' :: t := by
  unfold Re.isMatch headingRe
  rw [captures_bol, show (Re.grp 1 (.plus true (.chr '#'))).run ⟨true, l, []⟩ done =
    (Re.grp 1 (.plus true (.cls (· == '#')))).run ⟨true, l, []⟩ done from rfl]
  cases l with
  | nil => simp [Re.run, Re.plus]
  | cons c t =>
    by_cases hc : c = '#'
    · subst hc
      constructor
      · intro _; exact ⟨t, rfl⟩
      · intro _
        simp only [Re.run, Re.plus, beq_self_eq_true, if_true]
        generalize hk : (fun s' : MState => done _) = k
        have : ∀ s, (k s).isSome = true := by intro s; rw [← hk]; rfl
        generalize (t.length) = n
        have h2 : ∀ n b s caps, (starRun (Re.run (Re.cls (· == '#'))) true n ⟨b, s, caps⟩ k).isSome := by
          intro n
          cases n with
          | zero => intro b s caps; exact this _
          | succ n =>
            intro b s caps
            simp [starRun, this]
        exact h2 _ _ _ _
    · simp [Re.run, Re.plus, hc]

/-! ## Attribute lines -/

/-- The groups of `attributeRe` on a line. -/
def attrParts : Str → Option (Str × Str)
  | [] => none
  | c :: t =>
    if c.isUpper ∧ t.takeWhile Char.isLower ≠ [] then
      match t.dropWhile Char.isLower with
      | ':' :: rest => some (c :: t.takeWhile Char.isLower, trimStart (body rest))
      | _ => none
    else none

theorem body_dropWhile_ws (s : Str) (h : IsLine s) : body (s.dropWhile isWs) = trimStart (body s) := by
  obtain ⟨nl, h1, h2⟩ := h
  generalize hb : body s = r at *
  have hr : '\n' ∉ r := by rw [← hb]; exact body_no_nl s
  subst h1
  unfold trimStart
  by_cases hd : r.dropWhile isWs = []
  · rw [dropWhile_append_of_eq hd, hd]
    rcases h2 with rfl | rfl <;> rfl
  · rw [dropWhile_append_of_ne hd]
    refine body_append ?_ h2
    intro hm
    exact hr ((List.dropWhile_suffix isWs).subset hm)

theorem attribute_captures (l : Str) (hl : IsLine l) :
    attributeRe.captures l = (attrParts l).map (fun p => ⟨[(2, p.2), (1, p.1)]⟩) := by
  unfold attributeRe
  rw [captures_bol]
  have hk : ∀ b s caps, IsLine s →
      (Re.star true .ws ⬝ Re.grp 2 (.star true .dot) ⬝ Re.wsEnd).run ⟨b, s, caps⟩ done =
      some ⟨(2, trimStart (body s)) :: caps⟩ := by
    intro b s caps hs
    show (Re.star true (.cls isWs)).run ⟨b, s, caps⟩ (fun s =>
      (Re.grp 2 (.star true .dot) ⬝ Re.wsEnd).run s done) = _
    apply run_star_greedy
    intro b
    have hu := hs.dropWhile isWs
    rw [← body_dropWhile_ws s hs]
    generalize s.dropWhile isWs = u at hu ⊢
    show (Re.star true (.cls (· != '\n'))).run ⟨b, u, caps⟩ (fun s' => Re.wsEnd.run
        ⟨s'.atStart, s'.rest, (2, u.take (u.length - s'.rest.length)) :: s'.caps⟩ done) = _
    apply run_star_greedy
    intro b
    rw [run_wsEnd]
    obtain ⟨nl, h1, h2⟩ := hu
    have hd : u.dropWhile (· != '\n') = nl := by
      have := List.takeWhile_append_dropWhile (p := (· != '\n')) (l := u)
      have e : body u ++ u.dropWhile (· != '\n') = body u ++ nl := by
        rw [← h1]; exact this
      exact List.append_cancel_left e
    rw [hd]
    have hws : nl.all isWs = true := by rcases h2 with rfl | rfl <;> decide
    simp only [hws, if_true]
    congr 4
    have hlen : u.length - nl.length = (body u).length := by
      have := congrArg List.length h1
      rw [List.length_append] at this; omega
    rw [hlen]
    exact (List.prefix_iff_eq_take.1 ⟨_, h1.symm⟩).symm
  show (Re.grp 1 (Re.cls Char.isUpper ⬝ .plus true (.cls Char.isLower))).run ⟨true, l, []⟩ (fun s =>
    (Re.chr ':').run s (fun s =>
      (Re.star true .ws ⬝ Re.grp 2 (.star true .dot) ⬝ Re.wsEnd).run s done)) = _
  have hcol : ∀ b c t caps, Char.isLower c = true →
      (Re.chr ':').run (α := Captures) ⟨b, c :: t, caps⟩ (fun s =>
      (Re.star true .ws ⬝ Re.grp 2 (.star true .dot) ⬝ Re.wsEnd).run s done) = none := by
    intro b c t caps hc
    rw [run_chr]
    have : c ≠ ':' := by rintro rfl; exact absurd hc (by decide)
    simp [this]
  match l, hl with
  | [], _ => rfl
  | [c], _ =>
    unfold attrParts
    by_cases h : c.isUpper = true <;> simp [Re.run, Re.plus, h]
  | c :: d :: t, hl =>
    unfold attrParts
    by_cases h : c.isUpper = true
    · by_cases h2 : d.isLower = true
      · have e : (Re.grp 1 (Re.cls Char.isUpper ⬝ .plus true (.cls Char.isLower))).run
            ⟨true, c :: d :: t, []⟩ (fun s => (Re.chr ':').run s (fun s =>
            (Re.star true .ws ⬝ Re.grp 2 (.star true .dot) ⬝ Re.wsEnd).run s done)) =
            (Re.star true (.cls Char.isLower)).run ⟨false, t, []⟩ (fun s' =>
              (Re.chr ':').run ⟨s'.atStart, s'.rest,
                (1, (c :: d :: t).take ((c :: d :: t).length - s'.rest.length)) :: s'.caps⟩ (fun s =>
            (Re.star true .ws ⬝ Re.grp 2 (.star true .dot) ⬝ Re.wsEnd).run s done)) := by
          simp only [Re.run, Re.plus, h, h2, if_true]
        rw [e, run_star_det _ _ _ (by intro b c' t' hc; exact hcol _ _ _ _ hc)]
        rw [run_chr]
        have h3 : (d :: t).takeWhile Char.isLower ≠ [] := by simp [h2]
        have hr := (hl.tail.tail).dropWhile Char.isLower
        have hg : (c :: d :: t).take ((c :: d :: t).length - (t.dropWhile Char.isLower).length) =
            c :: (d :: t).takeWhile Char.isLower := by
          have := List.takeWhile_append_dropWhile (p := Char.isLower) (l := t)
          have hl := congrArg List.length this
          rw [List.length_append] at hl
          have e2 : (c :: d :: t).length - (t.dropWhile Char.isLower).length =
              (t.takeWhile Char.isLower).length + 2 := by simp; omega
          rw [e2, List.take_succ_cons, List.take_succ_cons, List.takeWhile_cons]
          simp only [h2, if_true]
          congr 2
          exact (List.prefix_iff_eq_take.1 ⟨_, this⟩).symm
        simp only [hg, h, h3, ne_eq, not_false_eq_true, and_self, if_true]
        have hdw : (d :: t).dropWhile Char.isLower = t.dropWhile Char.isLower := by simp [h2]
        rw [hdw]
        cases hq : t.dropWhile Char.isLower with
        | nil => rfl
        | cons x y =>
          rw [hq] at hr
          by_cases hx : x = ':'
          · subst hx
            simp only [if_true, Option.map_some]
            rw [hk _ _ _ hr.tail]
          · simp only [hx, if_false]
            split
            · rename_i heq; cases heq; exact absurd rfl hx
            · rfl
      · simp [Re.run, Re.plus, h, h2]
    · simp [Re.run, Re.plus, h]

/-! ## Reference lines -/

/-- The groups of `refLinkRe` for a match starting at the start of `s`. -/
def refTail (U : Unicode) (s : Str) : Option (Str × Option Str) :=
  if s.takeWhile isWs = [] then none
  else match identSplit U (s.dropWhile isWs) with
    | some (id, r) =>
      if r.all isWs then some (id, none)
      else match r with
        | ':' :: rest => if body rest = [] then none else some (id, some (rawTitle (body rest)))
        | _ => none
    | none => none

/-- The groups of `refLinkRe` on a line. -/
def refParts (U : Unicode) : Str → Option (Str × Option Str)
  | [] => none
  | c :: t => (refTail U (c :: t)).or (refParts U t)

/-- The capture list for given groups. -/
def refCaps (p : Str × Option Str) : Captures :=
  ⟨match p.2 with
    | some t => [(2, t), (1, p.1)]
    | none => [(1, p.1)]⟩

/-- `(ident)(?::\s*(.+?))?\s*$` -/
def refIdent (U : Unicode) : Re :=
  .grp 1 (.ident U) ⬝ .opt (.chr ':' ⬝ .star true .ws ⬝ .grp 2 (.plus false .dot)) ⬝ .wsEnd

theorem run_refIdent (U : Unicode) (s : Str) (hs : IsLine s) (b : Bool) :
    (refIdent U).run ⟨b, s, []⟩ done = (match identSplit U s with
    | some (id, r) =>
      if r.all isWs then some (id, none)
      else match r with
        | ':' :: rest => if body rest = [] then none else some (id, some (rawTitle (body rest)))
        | _ => none
    | none => none).map refCaps := by
  have hopt : ∀ st : MState, (Re.opt (.chr ':' ⬝ .star true .ws ⬝ .grp 2 (.plus false .dot)) ⬝ Re.wsEnd).run st
      done = ((Re.chr ':').run st (fun s => (Re.wsTitleEnd 2).run s done)).or (Re.wsEnd.run st done) := by
    intro st; rfl
  show (Re.grp 1 (.ident U)).run ⟨b, s, []⟩ (fun s =>
    (Re.opt (.chr ':' ⬝ .star true .ws ⬝ .grp 2 (.plus false .dot)) ⬝ Re.wsEnd).run s done) = _
  rw [run_ident]
  · cases hq : identSplit U s with
    | none => rfl
    | some p =>
      obtain ⟨id, r⟩ := p
      have hr : IsLine r := by
        have := identSplit_line hq
        rw [this] at hs
        exact hs.suffix
      simp only [Option.bind_some]
      rw [hopt, run_chr, run_wsEnd]
      simp only
      cases r with
      | nil => rfl
      | cons c t =>
        by_cases hc : c = ':'
        · subst hc
          have hnw : (':' :: t).all isWs = false := by
            simp [show isWs ':' = false from by decide]
          simp only [if_true, hnw, Bool.false_eq_true, if_false, Option.or_none]
          rw [run_wsTitleEnd_line 2 t false _ hr.tail]
          split <;> rfl
        · simp only [hc, if_false, Option.none_or]
          split
          · rfl
          · split
            · rename_i h; cases h; exact absurd rfl hc
            · rfl
  · intro b c t caps hc
    rw [hopt, run_chr, run_wsEnd]
    have h1 : c ≠ ':' := by rintro rfl; rw [U.continue_colon] at hc; cases hc
    have h2 : isWs c = false := U.continue_ws c hc
    simp [h1, h2]

theorem run_ws_plus {α : Type} (k : MState → Option α)
    (hk : ∀ b c t caps, isWs c = true → k ⟨b, c :: t, caps⟩ = none) (b : Bool) (s : Str)
    (caps : List (Nat × Str)) :
    (Re.plus true .ws).run ⟨b, s, caps⟩ k =
      if s.takeWhile isWs = [] then none else k ⟨false, s.dropWhile isWs, caps⟩ := by
  cases s with
  | nil => rfl
  | cons c t =>
    by_cases h : isWs c = true
    · have e : (Re.plus true .ws).run ⟨b, c :: t, caps⟩ k =
            (Re.star true (.cls isWs)).run ⟨false, t, caps⟩ k := by
        simp only [Re.plus, Re.ws, Re.run, h, if_true]
      rw [e, run_star_det _ _ _ (by intro b c' t' hc; exact hk _ _ _ _ hc)]
      simp [h]
    · simp [Re.plus, Re.ws, Re.run, h]

theorem run_star_bol {α : Type} (s : MState) (k : MState → Option α) :
    (Re.star true .bol).run s k = k s := by
  obtain ⟨b, s, caps⟩ := s
  cases s with
  | nil => rfl
  | cons c t =>
    simp only [Re.run, starRun, List.length_cons]
    cases b <;> simp

theorem run_refLink (U : Unicode) (s : Str) (hs : IsLine s) (b : Bool) :
    (refLinkRe U).run ⟨b, s, []⟩ (fun s => some ⟨s.caps⟩) = (refTail U s).map refCaps := by
  show (Re.star true .bol).run ⟨b, s, []⟩ (fun s => (Re.plus true .ws).run s (fun s =>
    (refIdent U).run s done)) = _
  rw [run_star_bol, run_ws_plus]
  · unfold refTail
    split
    · rfl
    · exact run_refIdent U _ (hs.dropWhile _) _
  · intro b c t caps hc
    simp [refIdent, Re.ident, Re.run, U.start_ws hc]

theorem refLink_captures (U : Unicode) (l : Str) (hl : IsLine l) :
    (refLinkRe U).captures l = (refParts U l).map refCaps := by
  unfold Re.captures
  suffices h : ∀ b, searchFrom (refLinkRe U) b l = (refParts U l).map refCaps from h true
  induction l with
  | nil => intro b; rw [searchFrom, run_refLink U _ hl]; rfl
  | cons c t ih =>
    intro b
    rw [searchFrom, run_refLink U _ hl, ih hl.tail, refParts]
    cases refTail U (c :: t) <;> simp

end Md

end Reqtrace
