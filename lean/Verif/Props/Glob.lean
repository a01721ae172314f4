import Verif.Spec.Glob
import Verif.Props.Patterns
import Verif.Lemmas.MonoReq

/-!
# C163: what the patterns of an artefact mean
-/

namespace Reqtrace

open Spec Spec.GlobText

namespace Glob

/-! ## Characters in brackets -/

theorem bracket_iff (t s r : Str) : bracket t = some (s, r) ↔ t = s ++ ']' :: r ∧ ']' ∉ s := by
  induction t generalizing s with
  | nil => simp [bracket]
  | cons c t ih =>
    rw [bracket]
    by_cases hc : c = ']'
    · subst hc
      rw [if_pos rfl]
      constructor
      · intro h; cases h; exact ⟨rfl, List.not_mem_nil⟩
      · rintro ⟨h1, h2⟩
        cases s with
        | nil => cases h1; rfl
        | cons d s => cases h1; exact absurd List.mem_cons_self h2
    · rw [if_neg hc]
      constructor
      · intro h
        cases hb : bracket t with
        | none => rw [hb] at h; cases h
        | some v =>
          rw [hb] at h
          obtain ⟨s', r'⟩ := v
          cases h
          obtain ⟨h1, h2⟩ := (ih s').1 hb
          exact ⟨by rw [h1]; rfl, by simp [Ne.symm hc, h2]⟩
      · rintro ⟨h1, h2⟩
        cases s with
        | nil => cases h1; exact absurd rfl hc
        | cons d s =>
          obtain ⟨rfl, h3⟩ := List.cons.inj h1
          have := (ih s).2 ⟨h3, fun h => h2 (List.mem_cons_of_mem _ h)⟩
          rw [this]; rfl

theorem charClass_iff (t : Str) (k : Token) (r : Str) : charClass t = some (k, r) ↔
    (∃ s, IsClass s ∧ s.head? ≠ some '!' ∧ t = s ++ ']' :: r ∧ k = .within false (ranges s)) ∨
    (∃ s, IsClass s ∧ t = '!' :: (s ++ ']' :: r) ∧ k = .within true (ranges s)) := by
  have main : ∀ (e : Bool) (t : Str), inside e t = some (k, r) ↔
      ∃ s, IsClass s ∧ t = s ++ ']' :: r ∧ k = .within e (ranges s) := by
    intro e t
    cases t with
    | nil =>
      constructor
      · intro h; cases h
      · rintro ⟨s, _, h, _⟩; simp at h
    | cons c t =>
      rw [inside, Option.map_eq_some_iff]
      constructor
      · rintro ⟨⟨s', r'⟩, hb, h⟩
        obtain ⟨h1, h2⟩ := (bracket_iff _ _ _).1 hb
        cases h
        exact ⟨c :: s', ⟨c, s', rfl, h2⟩, by rw [h1]; rfl, rfl⟩
      · rintro ⟨s, ⟨d, s', rfl, h2⟩, h, h3⟩
        obtain ⟨rfl, h4⟩ := List.cons.inj h
        exact ⟨_, (bracket_iff t s' r).2 ⟨h4, h2⟩, by rw [h3]⟩
  unfold charClass
  by_cases hb : t.head? = some '!'
  · obtain ⟨t', rfl⟩ : ∃ t', t = '!' :: t' := by
      cases t with
      | nil => cases hb
      | cons c t => cases hb; exact ⟨_, rfl⟩
    rw [if_pos hb, List.tail_cons, main true t']
    constructor
    · rintro ⟨s, h1, h2, h3⟩
      exact .inr ⟨s, h1, by rw [h2], h3⟩
    · rintro (⟨s, ⟨c, r', rfl, _⟩, h2, h3, _⟩ | ⟨s, h1, h2, h3⟩)
      · cases h3; exact absurd rfl h2
      · exact ⟨s, h1, (List.cons.inj h2).2, h3⟩
  · rw [if_neg hb, main false t]
    constructor
    · rintro ⟨s, ⟨c, r', rfl, h1⟩, h2, h3⟩
      refine .inl ⟨_, ⟨c, r', rfl, h1⟩, fun h => ?_, h2, h3⟩
      cases h
      rw [h2] at hb
      exact hb rfl
    · rintro (⟨s, h1, _, h2, h3⟩ | ⟨s, _, rfl, _⟩)
      · exact ⟨s, h1, h2, h3⟩
      · exact absurd rfl hb

theorem ranges_iff (s : Str) (c : Char) : InClass s c ↔ ∃ e ∈ ranges s, e.1 ≤ c ∧ c ≤ e.2 := by
  have anti : ∀ a : Char, a ≤ c ∧ c ≤ a → c = a := fun a h => Char.le_antisymm h.2 h.1
  have inv : ∀ {s : Str}, InClass s c → (∃ a b r, s = a :: '-' :: b :: r ∧ ((a ≤ c ∧ c ≤ b) ∨ InClass r c)) ∨
      (∃ a r, s = a :: r ∧ (∀ b s, r ≠ '-' :: b :: s) ∧ (a = c ∨ InClass r c)) := by
    intro s h
    cases h with
    | range h1 h2 => exact .inl ⟨_, _, _, rfl, .inl ⟨h1, h2⟩⟩
    | single h => exact .inr ⟨_, _, rfl, h, .inl rfl⟩
    | afterRange h => exact .inl ⟨_, _, _, rfl, .inr h⟩
    | afterSingle h h1 => exact .inr ⟨_, _, rfl, h, .inr h1⟩
  have step : ∀ (a : Char) (r : Str), (∀ b s, r ≠ '-' :: b :: s) → ranges (a :: r) = (a, a) :: ranges r →
      (InClass r c ↔ ∃ e ∈ ranges r, e.1 ≤ c ∧ c ≤ e.2) →
      (InClass (a :: r) c ↔ ∃ e ∈ ranges (a :: r), e.1 ≤ c ∧ c ≤ e.2) := by
    intro a r hr he ih
    rw [he]
    constructor
    · intro h
      rcases inv h with ⟨_, _, _, h1, _⟩ | ⟨a', r', h1, _, h2⟩
      · cases h1; exact absurd rfl (hr _ _)
      · cases h1
        rcases h2 with rfl | h2
        · exact ⟨_, List.mem_cons_self, Char.le_refl _, Char.le_refl _⟩
        · obtain ⟨e, h3, h4⟩ := ih.1 h2
          exact ⟨e, List.mem_cons_of_mem _ h3, h4⟩
    · rintro ⟨e, h1, h2⟩
      rcases List.mem_cons.1 h1 with rfl | h1
      · have := anti _ h2
        subst this
        exact .single hr
      · exact .afterSingle hr (ih.2 ⟨e, h1, h2⟩)
  fun_induction ranges s with
  | case1 =>
    constructor
    · intro h; cases h
    · rintro ⟨_, h, _⟩; cases h
  | case2 a =>
    refine step a [] (by simp) rfl ?_
    constructor
    · intro h; cases h
    · rintro ⟨_, h, _⟩; cases h
  | case3 a b =>
    refine step a [b] (by simp) rfl (step b [] (by simp) rfl ?_)
    constructor
    · intro h; cases h
    · rintro ⟨_, h, _⟩; cases h
  | case4 a d r ih =>
    constructor
    · intro h
      rcases inv h with ⟨a', b', r', h1, h2⟩ | ⟨a', r', h1, h2, _⟩
      · cases h1
        rcases h2 with h2 | h2
        · exact ⟨_, List.mem_cons_self, h2⟩
        · obtain ⟨e, h3, h4⟩ := ih.1 h2
          exact ⟨e, List.mem_cons_of_mem _ h3, h4⟩
      · cases h1; exact absurd rfl (h2 _ _)
    · rintro ⟨e, h1, h2⟩
      rcases List.mem_cons.1 h1 with rfl | h1
      · exact .range h2.1 h2.2
      · exact .afterRange (ih.2 ⟨e, h1, h2⟩)
  | case5 a b d r hb ih =>
    have := step a (b :: d :: r) (by intro b' s h; exact hb (List.cons.inj h).1)
      (by rw [ranges, if_neg hb]) ih
    rwa [ranges, if_neg hb] at this

/-! ## Names -/

theorem matchName_many (ts : List Token) (n : Str) :
    matchName (.many :: ts) n = true ↔ ∃ m n', n = m ++ n' ∧ matchName ts n' = true := by
  induction n with
  | nil =>
    rw [matchName]
    constructor
    · intro h; exact ⟨[], [], rfl, h⟩
    · rintro ⟨m, n', h1, h2⟩
      obtain ⟨rfl, rfl⟩ := List.append_eq_nil_iff.1 h1.symm
      exact h2
  | cons c n ih =>
    rw [matchName, Bool.or_eq_true, ih]
    constructor
    · rintro (h | ⟨m, n', rfl, h⟩)
      · exact ⟨[], _, rfl, h⟩
      · exact ⟨c :: m, n', rfl, h⟩
    · rintro ⟨m, n', h1, h2⟩
      cases m with
      | nil => cases h1; exact .inl h2
      | cons d m => cases h1; exact .inr ⟨m, n', rfl, h2⟩

theorem matchName_cons (k : Token) (hk : k ≠ .many) (ts : List Token) (n : Str) :
    matchName (k :: ts) n = true ↔ ∃ c n', n = c :: n' ∧ k.matches c = true ∧ matchName ts n' = true := by
  cases n with
  | nil => cases k <;> simp_all [matchName]
  | cons c n =>
    have : matchName (k :: ts) (c :: n) = (k.matches c && matchName ts n) := by
      cases k <;> first | exact absurd rfl hk | rw [matchName]; simp
    rw [this, Bool.and_eq_true]
    constructor
    · intro h; exact ⟨c, n, rfl, h⟩
    · rintro ⟨_, _, h, h1⟩; cases h; exact h1

theorem within_matches (e : Bool) (s : Str) (c : Char) :
    (Token.within e (ranges s)).matches c = true ↔ (if e then ¬ InClass s c else InClass s c) := by
  have h : (ranges s).any (fun e => e.1 ≤ c && c ≤ e.2) = true ↔ InClass s c := by
    rw [ranges_iff]; simp
  cases e <;> simp only [Token.matches] <;> rw [← h] <;> simp

/-- What a name fits, by the first character of the pattern. -/
theorem nameFits_cons {c : Char} {r n : Str} (h : NameFits (c :: r) n) :
    (¬ Wild c ∧ ∃ n', n = c :: n' ∧ NameFits r n') ∨
    (c = '?' ∧ ∃ d n', n = d :: n' ∧ NameFits r n') ∨
    (c = '*' ∧ ∃ m n', n = m ++ n' ∧ NameFits r n') ∨
    (c = '[' ∧ ∃ s p d n', IsClass s ∧ s.head? ≠ some '!' ∧ r = s ++ ']' :: p ∧ n = d :: n' ∧ InClass s d ∧ NameFits p n') ∨
    (c = '[' ∧ ∃ s p d n', IsClass s ∧ r = '!' :: (s ++ ']' :: p) ∧ n = d :: n' ∧ ¬ InClass s d ∧ NameFits p n') := by
  cases h with
  | char h1 h2 => exact .inl ⟨h1, _, rfl, h2⟩
  | one h => exact .inr (.inl ⟨rfl, _, _, rfl, h⟩)
  | many h => exact .inr (.inr (.inl ⟨rfl, _, _, rfl, h⟩))
  | within h1 h2 h3 h4 => exact .inr (.inr (.inr (.inl ⟨rfl, _, _, _, _, h1, h2, rfl, rfl, h3, h4⟩)))
  | except h1 h2 h3 => exact .inr (.inr (.inr (.inr ⟨rfl, _, _, _, _, h1, rfl, rfl, h2, h3⟩)))

/-- What stands in brackets is determined by the text. -/
theorem class_unique {s s' p p' : Str} (h : IsClass s) (h' : IsClass s') (e : s ++ ']' :: p = s' ++ ']' :: p') :
    s = s' ∧ p = p' := by
  obtain ⟨c, r, rfl, hr⟩ := h
  obtain ⟨c', r', rfl, hr'⟩ := h'
  obtain ⟨rfl, e'⟩ := List.cons.inj e
  have a := (bracket_iff _ r p).2 ⟨rfl, hr⟩
  have b := (bracket_iff (r ++ ']' :: p) r' p').2 ⟨e', hr'⟩
  rw [b] at a
  cases a
  exact ⟨rfl, rfl⟩

theorem tokens_fits (fuel : Nat) (s : Str) (ts : List Token) (h : tokens fuel s = some ts) (n : Str) :
    matchName ts n = true ↔ NameFits s n := by
  induction fuel generalizing s ts n with
  | zero =>
    cases s with
    | nil =>
      rw [tokens] at h; cases h
      rw [matchName]
      cases n with
      | nil => exact ⟨fun _ => .nil, fun _ => rfl⟩
      | cons c n => exact ⟨fun h => by simp at h, fun h => by cases h⟩
    | cons c r => rw [tokens] at h; cases h; exact fun h => by cases h
  | succ fuel ih =>
    cases s with
    | nil =>
      rw [tokens] at h; cases h
      rw [matchName]
      cases n with
      | nil => exact ⟨fun _ => .nil, fun _ => rfl⟩
      | cons c n => exact ⟨fun h => by simp at h, fun h => by cases h⟩
    | cons c r =>
      rw [tokens] at h
      by_cases h1 : c = '*'
      · subst h1
        rw [if_pos rfl] at h
        split at h
        · cases h
        · obtain ⟨ts', h2, rfl⟩ := Option.map_eq_some_iff.1 h
          rw [matchName_many]
          constructor
          · rintro ⟨m, n', rfl, h3⟩
            exact .many ((ih _ _ h2 _).1 h3)
          · intro h3
            rcases nameFits_cons h3 with ⟨h4, _⟩ | ⟨h4, _⟩ | ⟨_, m, n', rfl, h4⟩ | ⟨h4, _⟩ | ⟨h4, _⟩
            · exact absurd (.inl rfl) h4
            · cases h4
            · exact ⟨m, n', rfl, (ih _ _ h2 _).2 h4⟩
            · cases h4
            · cases h4
      · rw [if_neg h1] at h
        by_cases h2 : c = '?'
        · subst h2
          rw [if_pos rfl] at h
          obtain ⟨ts', h2, rfl⟩ := Option.map_eq_some_iff.1 h
          rw [matchName_cons _ (by simp)]
          constructor
          · rintro ⟨d, n', rfl, _, h3⟩
            exact .one ((ih _ _ h2 _).1 h3)
          · intro h3
            rcases nameFits_cons h3 with ⟨h4, _⟩ | ⟨_, d, n', rfl, h4⟩ | ⟨h4, _⟩ | ⟨h4, _⟩ | ⟨h4, _⟩
            · exact absurd (.inr (.inl rfl)) h4
            · exact ⟨d, n', rfl, rfl, (ih _ _ h2 _).2 h4⟩
            · cases h4
            · cases h4
            · cases h4
        · rw [if_neg h2] at h
          by_cases h3 : c = '['
          · subst h3
            rw [if_pos rfl] at h
            cases hk : charClass r with
            | none => rw [hk] at h; cases h
            | some v =>
              obtain ⟨k, p⟩ := v
              rw [hk] at h
              obtain ⟨ts', h4, rfl⟩ := Option.map_eq_some_iff.1 (show (tokens fuel p).map (k :: ·) = some ts from h)
              rcases (charClass_iff _ _ _).1 hk with ⟨s, c1, c2, rfl, rfl⟩ | ⟨s, c1, rfl, rfl⟩
              · rw [matchName_cons _ (by simp)]
                constructor
                · rintro ⟨d, n', rfl, h5, h6⟩
                  exact .within c1 c2 ((within_matches false _ _).1 h5) ((ih _ _ h4 _).1 h6)
                · intro h5
                  rcases nameFits_cons h5 with ⟨h6, _⟩ | ⟨h6, _⟩ | ⟨h6, _⟩ | ⟨_, s', p', d, n', e1, e2, e3, rfl, e4, e5⟩ |
                    ⟨_, s', p', d, n', e1, e3, rfl, e4, e5⟩
                  · exact absurd (.inr (.inr rfl)) h6
                  · cases h6
                  · cases h6
                  · obtain ⟨rfl, rfl⟩ := class_unique c1 e1 e3
                    exact ⟨d, n', rfl, (within_matches false _ _).2 e4, (ih _ _ h4 _).2 e5⟩
                  · obtain ⟨a, b, rfl, _⟩ := c1
                    obtain ⟨rfl, _⟩ := List.cons.inj e3
                    exact absurd rfl c2
              · rw [matchName_cons _ (by simp)]
                constructor
                · rintro ⟨d, n', rfl, h5, h6⟩
                  exact .except c1 ((within_matches true _ _).1 h5) ((ih _ _ h4 _).1 h6)
                · intro h5
                  rcases nameFits_cons h5 with ⟨h6, _⟩ | ⟨h6, _⟩ | ⟨h6, _⟩ | ⟨_, s', p', d, n', e1, e2, e3, rfl, e4, e5⟩ |
                    ⟨_, s', p', d, n', e1, e3, rfl, e4, e5⟩
                  · exact absurd (.inr (.inr rfl)) h6
                  · cases h6
                  · cases h6
                  · obtain ⟨a, b, rfl, _⟩ := e1
                    obtain ⟨rfl, _⟩ := List.cons.inj e3
                    exact absurd rfl e2
                  · obtain ⟨rfl, rfl⟩ := class_unique c1 e1 (List.cons.inj e3).2
                    exact ⟨d, n', rfl, (within_matches true _ _).2 e4, (ih _ _ h4 _).2 e5⟩
          · rw [if_neg h3] at h
            have hw : ¬ Wild c := by rintro (h | h | h) <;> contradiction
            obtain ⟨ts', h4, rfl⟩ := Option.map_eq_some_iff.1 h
            rw [matchName_cons _ (by simp)]
            constructor
            · rintro ⟨d, n', rfl, h5, h6⟩
              have : d = c := by simpa [Token.matches] using h5
              subst this
              exact .char hw ((ih _ _ h4 _).1 h6)
            · intro h5
              rcases nameFits_cons h5 with ⟨_, n', rfl, h6⟩ | ⟨h6, _⟩ | ⟨h6, _⟩ | ⟨h6, _⟩ | ⟨h6, _⟩
              · exact ⟨c, n', rfl, by simp [Token.matches], (ih _ _ h4 _).2 h6⟩
              · exact absurd h6 h2
              · exact absurd h6 h1
              · exact absurd h6 h3
              · exact absurd h6 h3

theorem tokens_some {s : Str} (h : WellFormed s) : ∀ fuel, s.length ≤ fuel → ∃ ts, tokens fuel s = some ts := by
  induction h with
  | nil => intro fuel _; cases fuel <;> exact ⟨_, by rw [tokens]⟩
  | @char c p hw _ ih =>
    intro fuel hf
    obtain ⟨fuel, rfl⟩ : ∃ f, fuel = f + 1 := ⟨fuel - 1, by simp at hf; omega⟩
    obtain ⟨ts, h⟩ := ih fuel (by simpa using hf)
    refine ⟨.char c :: ts, ?_⟩
    rw [tokens, if_neg (fun h => hw (.inl h)), if_neg (fun h => hw (.inr (.inl h))),
      if_neg (fun h => hw (.inr (.inr h))), h]
    rfl
  | one _ ih =>
    intro fuel hf
    obtain ⟨fuel, rfl⟩ : ∃ f, fuel = f + 1 := ⟨fuel - 1, by simp at hf; omega⟩
    obtain ⟨ts, h⟩ := ih fuel (by simpa using hf)
    exact ⟨.one :: ts, by rw [tokens, if_neg (by decide), if_pos rfl, h]; rfl⟩
  | many hn _ ih =>
    intro fuel hf
    obtain ⟨fuel, rfl⟩ : ∃ f, fuel = f + 1 := ⟨fuel - 1, by simp at hf; omega⟩
    obtain ⟨ts, h⟩ := ih fuel (by simpa using hf)
    exact ⟨.many :: ts, by rw [tokens, if_pos rfl, if_neg hn, h]; rfl⟩
  | @within s p c1 c2 _ ih =>
    intro fuel hf
    obtain ⟨fuel, rfl⟩ : ∃ f, fuel = f + 1 := ⟨fuel - 1, by simp at hf; omega⟩
    obtain ⟨ts, h⟩ := ih fuel (by simp at hf; omega)
    refine ⟨.within false (ranges s) :: ts, ?_⟩
    rw [tokens, if_neg (by decide), if_neg (by decide), if_pos rfl, (charClass_iff _ _ _).2 (.inl ⟨s, c1, c2, rfl, rfl⟩)]
    show (tokens fuel p).map _ = _
    rw [h]; rfl
  | @except s p c1 _ ih =>
    intro fuel hf
    obtain ⟨fuel, rfl⟩ : ∃ f, fuel = f + 1 := ⟨fuel - 1, by simp at hf; omega⟩
    obtain ⟨ts, h⟩ := ih fuel (by simp at hf; omega)
    refine ⟨.within true (ranges s) :: ts, ?_⟩
    rw [tokens, if_neg (by decide), if_neg (by decide), if_pos rfl, (charClass_iff _ _ _).2 (.inr ⟨s, c1, rfl, rfl⟩)]
    show (tokens fuel p).map _ = _
    rw [h]; rfl

/-! ## Paths -/

theorem matchPath_recursive (cs : List Component) (ns : List Str) :
    matchPath (.recursive :: cs) ns = true ↔ ∃ ms ns', ns = ms ++ ns' ∧ matchPath cs ns' = true := by
  induction ns with
  | nil =>
    rw [matchPath]
    constructor
    · intro h; exact ⟨[], [], rfl, h⟩
    · rintro ⟨m, n', h1, h2⟩
      obtain ⟨rfl, rfl⟩ := List.append_eq_nil_iff.1 h1.symm
      exact h2
  | cons c n ih =>
    rw [matchPath, Bool.or_eq_true, ih]
    constructor
    · rintro (h | ⟨m, n', rfl, h⟩)
      · exact ⟨[], _, rfl, h⟩
      · exact ⟨c :: m, n', rfl, h⟩
    · rintro ⟨m, n', h1, h2⟩
      cases m with
      | nil => cases h1; exact .inl h2
      | cons d m => cases h1; exact .inr ⟨m, n', rfl, h2⟩

theorem matchPath_name (ts : List Token) (cs : List Component) (ns : List Str) :
    matchPath (.name ts :: cs) ns = true ↔ ∃ n ns', ns = n :: ns' ∧ matchName ts n = true ∧ matchPath cs ns' = true := by
  cases ns with
  | nil => simp [matchPath]
  | cons n ns =>
    rw [matchPath, Bool.and_eq_true]
    constructor
    · intro h; exact ⟨n, ns, rfl, h⟩
    · rintro ⟨_, _, h, h1⟩; cases h; exact h1

theorem pathFits_cons {p : Str} {ps ns : List Str} : PathFits (p :: ps) ns ↔
    (p ≠ c!"**" ∧ ∃ n ns', ns = n :: ns' ∧ NameFits p n ∧ PathFits ps ns') ∨
    (p = c!"**" ∧ ∃ ms ns', ns = ms ++ ns' ∧ PathFits ps ns') := by
  constructor
  · intro h
    cases h with
    | name h1 h2 h3 => exact .inl ⟨h1, _, _, rfl, h2, h3⟩
    | recursive h => exact .inr ⟨rfl, _, _, rfl, h⟩
  · rintro (⟨h1, n, ns', rfl, h2, h3⟩ | ⟨rfl, ms, ns', rfl, h⟩)
    · exact .name h1 h2 h3
    · exact .recursive h

theorem components_fits (ss : List Str) (h : ∀ s ∈ ss, ProperName s) : ∃ cs, components ss = some cs ∧
    ∀ ns, matchPath cs ns = true ↔ PathFits ss ns := by
  induction ss with
  | nil =>
    refine ⟨[], rfl, fun ns => ?_⟩
    rw [matchPath]
    cases ns with
    | nil => exact ⟨fun _ => .nil, fun _ => rfl⟩
    | cons n ns => exact ⟨fun h => by simp at h, fun h => by cases h⟩
  | cons s ss ih =>
    obtain ⟨cs, h1, h2⟩ := ih (fun t ht => h t (List.mem_cons_of_mem _ ht))
    rw [components, h1]
    by_cases hs : s = c!"**"
    · subst hs
      refine ⟨.recursive :: cs, rfl, fun ns => ?_⟩
      rw [matchPath_recursive, pathFits_cons]
      constructor
      · rintro ⟨ms, ns', rfl, h3⟩
        exact .inr ⟨rfl, ms, ns', rfl, (h2 _).1 h3⟩
      · rintro (⟨h3, _⟩ | ⟨_, ms, ns', rfl, h3⟩)
        · exact absurd rfl h3
        · exact ⟨ms, ns', rfl, (h2 _).2 h3⟩
    · rcases h s List.mem_cons_self with h3 | ⟨h3, h4, h5, h6, h7⟩
      · exact absurd h3 hs
      obtain ⟨ts, h8⟩ := tokens_some h7 s.length (Nat.le_refl _)
      have hc : component s = some (.name ts) := by
        rw [component, if_neg hs, if_neg, h8]
        · rfl
        · rintro (h | h | h | ⟨h, h'⟩)
          · exact h3 h
          · exact h4 h
          · exact h5 h
          · obtain ⟨c, hc, hw⟩ := List.any_eq_true.1 h'
            refine h6 h c hc ?_
            simpa [isWild, Wild, or_assoc] using hw
      rw [hc]
      refine ⟨.name ts :: cs, rfl, fun ns => ?_⟩
      rw [matchPath_name, pathFits_cons]
      constructor
      · rintro ⟨n, ns', rfl, h9, h10⟩
        exact .inl ⟨hs, n, ns', rfl, (tokens_fits _ _ _ h8 _).1 h9, (h2 _).1 h10⟩
      · rintro (⟨_, n, ns', rfl, h9, h10⟩ | ⟨h9, _⟩)
        · exact ⟨n, ns', rfl, (tokens_fits _ _ _ h8 _).2 h9, (h2 _).2 h10⟩
        · exact absurd h9 hs

theorem endsInName_append (ss : List Str) (last : Str) : endsInName (ss ++ [last]) = (last != c!"**") := by
  induction ss with
  | nil => rfl
  | cons s ss ih =>
    cases ss with
    | nil => rfl
    | cons t ss => exact ih

/-- The names without a leading `.` -/
def withoutDot : List Str → List Str
  | ['.'] :: s :: ss => s :: ss
  | ss => ss

theorem properName_ne {s : Str} (h : ProperName s) : s ≠ [] ∧ s ≠ c!"." := by
  rcases h with rfl | ⟨h1, h2, _⟩
  · decide
  · exact ⟨h1, h2⟩

theorem compile_fits {pat : Str} {ss : List Str} {last : Str} (hl : last ≠ c!"**")
    (hp : ∀ s ∈ ss ++ [last], ProperName s)
    (he : splitOnChar '/' pat = ss ++ [last] ∨ splitOnChar '/' pat = [] :: (ss ++ [last]) ∨
      splitOnChar '/' pat = c!"." :: (ss ++ [last])) :
    ∃ cs, compile pat = some cs ∧ ∀ ns, matchPath cs ns = true ↔ PathFits (withoutDot (splitOnChar '/' pat)) ns := by
  obtain ⟨cs, h1, h2⟩ := components_fits _ hp
  obtain ⟨x, xs, hx⟩ : ∃ x xs, ss ++ [last] = x :: xs := by cases ss <;> exact ⟨_, _, rfl⟩
  have hends : endsInName (ss ++ [last]) = true := by rw [endsInName_append]; simpa using hl
  have hne := properName_ne (hp x (by rw [hx]; exact List.mem_cons_self))
  rw [hx] at he h1 h2 hends
  unfold compile
  rcases he with he | he | he
  · rw [he]
    simp only [hends, if_true]
    refine ⟨cs, ?_, ?_⟩
    · split
      · rename_i h; exact absurd (List.cons.inj h).1 hne.2
      · rename_i h; exact absurd (List.cons.inj h).1 hne.1
      · exact h1
    · have : withoutDot (x :: xs) = x :: xs := by
        unfold withoutDot
        split
        · rename_i h; exact absurd (List.cons.inj h).1 hne.2
        · rfl
      rw [this]; exact h2
  · rw [he]
    have : endsInName ([] :: x :: xs) = true := hends
    simp only [this, if_true]
    refine ⟨.name [] :: cs, by rw [h1]; rfl, fun ns => ?_⟩
    show _ ↔ PathFits ([] :: x :: xs) ns
    rw [matchPath_name, pathFits_cons]
    constructor
    · rintro ⟨n, ns', rfl, h3, h4⟩
      rw [matchName] at h3
      obtain rfl : n = [] := by simpa using h3
      exact .inl ⟨by decide, _, _, rfl, .nil, (h2 _).1 h4⟩
    · rintro (⟨_, n, ns', rfl, h3, h4⟩ | ⟨h3, _⟩)
      · cases h3
        exact ⟨_, _, rfl, by rw [matchName]; rfl, (h2 _).2 h4⟩
      · cases h3
  · rw [he]
    have : endsInName (c!"." :: x :: xs) = true := hends
    simp only [this, if_true]
    exact ⟨cs, h1, h2⟩

/-! ## The base directory -/

theorem nameFits_plain {s : Str} (h : ∀ c ∈ s, ¬ Wild c) (n : Str) : NameFits s n ↔ n = s := by
  induction s generalizing n with
  | nil =>
    constructor
    · intro h; cases h; rfl
    · rintro rfl; exact .nil
  | cons c s ih =>
    have hc := h c List.mem_cons_self
    have ih := ih (fun d hd => h d (List.mem_cons_of_mem _ hd))
    constructor
    · intro h1
      rcases nameFits_cons h1 with ⟨_, n', rfl, h2⟩ | ⟨rfl, _⟩ | ⟨rfl, _⟩ | ⟨rfl, _⟩ | ⟨rfl, _⟩
      · rw [(ih _).1 h2]
      · exact absurd (.inr (.inl rfl)) hc
      · exact absurd (.inl rfl) hc
      · exact absurd (.inr (.inr rfl)) hc
      · exact absurd (.inr (.inr rfl)) hc
    · rintro rfl
      exact .char hc ((ih _).2 rfl)

theorem pathFits_plain {bs : List Str} (h : ∀ s ∈ bs, ∀ c ∈ s, ¬ Wild c) (ps ns : List Str) :
    PathFits (bs ++ ps) ns ↔ ∃ ns', ns = bs ++ ns' ∧ PathFits ps ns' := by
  induction bs generalizing ns with
  | nil => exact ⟨fun h => ⟨ns, rfl, h⟩, by rintro ⟨_, rfl, h⟩; exact h⟩
  | cons b bs ih =>
    have ih := ih (fun s hs => h s (List.mem_cons_of_mem _ hs))
    have hb : b ≠ c!"**" := by
      rintro rfl
      exact h _ List.mem_cons_self '*' List.mem_cons_self (.inl rfl)
    rw [List.cons_append, pathFits_cons]
    constructor
    · rintro (⟨_, n, ns', rfl, h1, h2⟩ | ⟨h1, _⟩)
      · rw [(nameFits_plain (h b List.mem_cons_self) n).1 h1]
        obtain ⟨ns'', rfl, h3⟩ := (ih _).1 h2
        exact ⟨ns'', rfl, h3⟩
      · exact absurd h1 hb
    · rintro ⟨ns', rfl, h1⟩
      exact .inl ⟨hb, b, bs ++ ns', rfl, (nameFits_plain (h b List.mem_cons_self) _).2 rfl, (ih _).2 ⟨ns', rfl, h1⟩⟩

theorem mem_split {sep : Char} {s p : Str} (h : p ∈ splitOnChar sep s) {c : Char} (hc : c ∈ p) : c ∈ s := by
  induction s generalizing p with
  | nil => simp [splitOnChar] at h; subst h; exact hc
  | cons d s ih =>
    rw [splitOnChar] at h
    split at h
    · rcases List.mem_cons.1 h with rfl | h
      · cases hc
      · exact List.mem_cons_of_mem _ (ih h hc)
    · split at h
      · rename_i hn; exact absurd hn (splitOnChar_ne _ _)
      · rename_i q qs hq
        rcases List.mem_cons.1 h with rfl | h
        · rcases List.mem_cons.1 hc with rfl | hc
          · exact List.mem_cons_self
          · exact List.mem_cons_of_mem _ (ih (by rw [hq]; exact List.mem_cons_self) hc)
        · exact List.mem_cons_of_mem _ (ih (by rw [hq]; exact List.mem_cons_of_mem _ h) hc)

/-- A sequence of patterns that ends in a name does not fit the empty sequence. -/
theorem pathFits_ne {ss : List Str} {last : Str} (hl : last ≠ c!"**") : ¬ PathFits (ss ++ [last]) [] := by
  induction ss with
  | nil => intro h; rcases pathFits_cons.1 h with ⟨_, n, ns, h, _⟩ | ⟨h, _⟩; cases h; exact hl h
  | cons s ss ih =>
    intro h
    rcases pathFits_cons.1 h with ⟨_, n, ns, h, _⟩ | ⟨_, ms, ns, h1, h2⟩
    · cases h
    · obtain ⟨rfl, rfl⟩ := List.append_eq_nil_iff.1 h1.symm
      exact ih h2

theorem pieces_append (sep : Char) (xs ys : List Str) (hx : xs ≠ []) (hy : ys ≠ []) :
    pieces sep (xs ++ ys) = pieces sep xs ++ sep :: pieces sep ys := by
  induction xs with
  | nil => exact absurd rfl hx
  | cons x xs ih =>
    cases xs with
    | nil =>
      cases ys with
      | nil => exact absurd rfl hy
      | cons y ys => rfl
    | cons x' xs =>
      have := ih (by simp)
      show x ++ sep :: pieces sep (x' :: xs ++ ys) = _
      rw [this, pieces, List.append_assoc]
      rfl

theorem fits_below {base : Str} (hw : ∀ c ∈ base, ¬ Wild c) {ss : List Str} {last : Str} (hl : last ≠ c!"**") (f : Str) :
    PathFits (splitOnChar '/' base ++ (ss ++ [last])) (splitOnChar '/' f) ↔
      ∃ r, f = base ++ c!"/" ++ r ∧ PathFits (ss ++ [last]) (splitOnChar '/' r) := by
  rw [pathFits_plain (fun s hs c hc => hw c (mem_split hs hc))]
  constructor
  · rintro ⟨ns, h1, h2⟩
    have hns : ns ≠ [] := by rintro rfl; exact pathFits_ne hl h2
    have hf : f = base ++ c!"/" ++ pieces '/' ns := by
      rw [← pieces_split '/' f, h1, pieces_append _ _ _ (splitOnChar_ne _ _) hns, pieces_split]
      simp
    refine ⟨_, hf, ?_⟩
    have : splitOnChar '/' f = splitOnChar '/' base ++ splitOnChar '/' (pieces '/' ns) := by
      rw [hf, List.append_assoc]
      exact splitOnChar_append _ _ _
    rw [h1] at this
    rw [← List.append_cancel_left this]
    exact h2
  · rintro ⟨r, rfl, h⟩
    refine ⟨_, ?_, h⟩
    rw [List.append_assoc]
    exact splitOnChar_append _ _ _

theorem withoutDot_proper {ss xs : List Str} {last : Str} (hn : ∀ s ∈ ss ++ [last], ProperName s)
    (h : xs = ss ++ [last] ∨ xs = [] :: (ss ++ [last])) : withoutDot xs = xs ∧ xs ≠ [c!"."] := by
  obtain ⟨y, ys, hy⟩ : ∃ y ys, ss ++ [last] = y :: ys := by cases ss <;> exact ⟨_, _, rfl⟩
  have hne := properName_ne (hn y (by rw [hy]; exact List.mem_cons_self))
  rw [hy] at h
  rcases h with rfl | rfl
  · refine ⟨?_, fun h => hne.2 (List.cons.inj h).1⟩
    unfold withoutDot
    split
    · rename_i h; exact absurd (List.cons.inj h).1 hne.2
    · rfl
  · exact ⟨rfl, by simp⟩

theorem split_slash {p : Str} {xs : List Str} (hx : xs ≠ []) (h : splitOnChar '/' p = [] :: xs) : p.head? = some '/' := by
  have := pieces_split '/' p
  rw [h] at this
  cases xs with
  | nil => exact absurd rfl hx
  | cons x xs => rw [← this]; rfl

end Glob

open Glob

/-- What the pattern of an artefact finds. -/
theorem C163_pattern_partial {env : Env} {w : World} {there : Path → Prop} (hg : env.os.GlobWorks w there)
    {base p : Str} (hb : PlainDirectory base) (hp : Proper p) :
    ∃ fs, Finds env w base p fs ∧ ∀ f, f ∈ fs ↔ there f ∧ Means base p f := by
  obtain ⟨ss, last, hl, hn, he⟩ := hp
  have hne : ss ++ [last] ≠ [] := by simp
  unfold Finds patternOf Means
  by_cases ha : p.head? = some '/'
  · simp only [if_pos ha]
    obtain ⟨cs, h1, h2⟩ := compile_fits (pat := p) hl hn (he.elim .inl (fun h => .inr (.inl h)))
    obtain ⟨fs, h3, h4⟩ := hg _ _ h1
    refine ⟨fs, h3, fun f => ?_⟩
    have : withoutDot (splitOnChar '/' p) = splitOnChar '/' p := (withoutDot_proper hn he).1
    rw [h4, h2, this]
    rfl
  · simp only [if_neg ha]
    have he : splitOnChar '/' p = ss ++ [last] := by
      rcases he with he | he
      · exact he
      · exact absurd (split_slash hne he) ha
    have hsplit : splitOnChar '/' (base ++ ['/'] ++ p) = splitOnChar '/' base ++ (ss ++ [last]) := by
      rw [List.append_assoc, ← he]
      exact splitOnChar_append _ _ _
    rcases hb with rfl | ⟨⟨bs, bl, hbl, hbn, hbe⟩, hw⟩
    · obtain ⟨cs, h1, h2⟩ := compile_fits (pat := c!"." ++ ['/'] ++ p) hl hn (.inr (.inr (by rw [hsplit]; rfl)))
      obtain ⟨fs, h3, h4⟩ := hg _ _ h1
      refine ⟨fs, h3, fun f => ?_⟩
      have : withoutDot (splitOnChar '/' (c!"." ++ ['/'] ++ p)) = splitOnChar '/' p := by
        rw [hsplit, he]
        cases ss <;> rfl
      rw [h4, h2, this]
      simp only [below, if_pos]
      constructor
      · rintro ⟨a, b⟩; exact ⟨a, f, rfl, b⟩
      · rintro ⟨a, _, rfl, b⟩; exact ⟨a, b⟩
    · have hall : ∀ s ∈ (bs ++ bl :: ss) ++ [last], ProperName s := by
        intro s hs
        rw [List.append_assoc, List.mem_append] at hs
        rcases hs with hs | hs
        · exact hbn s (List.mem_append_left _ hs)
        · rcases List.mem_cons.1 hs with rfl | hs
          · exact hbn _ (by simp)
          · exact hn s hs
      have hdot : ∀ r, below base r = base ++ c!"/" ++ r := by
        intro r
        rw [below, if_neg]
        rintro rfl
        exact (withoutDot_proper hbn hbe).2 rfl
      have hall' : splitOnChar '/' (base ++ ['/'] ++ p) = (bs ++ bl :: ss) ++ [last] ∨
          splitOnChar '/' (base ++ ['/'] ++ p) = [] :: ((bs ++ bl :: ss) ++ [last]) := by
        rw [hsplit]
        rcases hbe with hbe | hbe
        · exact .inl (by rw [hbe]; simp)
        · exact .inr (by rw [hbe]; simp)
      obtain ⟨cs, h1, h2⟩ := compile_fits (pat := base ++ ['/'] ++ p) hl hall (hall'.elim .inl (fun h => .inr (.inl h)))
      obtain ⟨fs, h3, h4⟩ := hg _ _ h1
      refine ⟨fs, h3, fun f => ?_⟩
      have : withoutDot (splitOnChar '/' (base ++ ['/'] ++ p)) = splitOnChar '/' base ++ (ss ++ [last]) := by
        rw [(withoutDot_proper hall hall').1, hsplit]
      rw [h4, h2, this, fits_below hw hl]
      simp only [hdot, Fits, he]

/-- The files of an artefact, pattern by pattern. -/
theorem matched_means {env : Env} {w : World} {there : Path → Prop} (hg : env.os.GlobWorks w there)
    {base : Str} (hb : PlainDirectory base) (ps : List Str) (hp : ∀ p ∈ ps, Proper p) :
    ∃ fs, Matched env w base ps fs ∧ ∀ f, f ∈ fs ↔ there f ∧ ∃ p ∈ ps, Means base p f := by
  induction ps with
  | nil => exact ⟨[], .nil, by simp⟩
  | cons p ps ih =>
    obtain ⟨gs, h1, h2⟩ := ih (fun q hq => hp q (List.mem_cons_of_mem _ hq))
    obtain ⟨fs, h3, h4⟩ := C163_pattern_partial hg hb (hp p List.mem_cons_self)
    refine ⟨fs ++ gs, .cons h3 h1, fun f => ?_⟩
    rw [List.mem_append, h2, h4]
    constructor
    · rintro (⟨a, b⟩ | ⟨a, q, b, c⟩)
      · exact ⟨a, p, List.mem_cons_self, b⟩
      · exact ⟨a, q, List.mem_cons_of_mem _ b, c⟩
    · rintro ⟨a, q, b, c⟩
      rcases List.mem_cons.1 b with rfl | b
      · exact .inl ⟨a, c⟩
      · exact .inr ⟨a, q, b, c⟩

/-- C163 as listed: for all base directories.  It is false, see `C163_false`; the patterns need to be proper here, too. -/
def C163_statement : Prop :=
  ∀ (env : Env) (w : World) (there : Path → Prop) (ac : ArtefactConfig) (base : Path) (files : List Path)
    (m : BMap RequirementId Requirement) (errs : List Error),
    env.os.GlobWorks w there → ac.parser = .rust → ac.paths ≠ [] → (∀ p ∈ ac.paths, Proper p) →
    parseFromConfig env w ac base = .ok (files, m, errs) →
    ∀ f, f ∈ files ↔ there f ∧ ∃ p ∈ ac.paths, Means base p f

/-- C163, for base directories without wildcards: the files of the artefact are those that are there and meant by one of
its patterns, and its requirements are those in them.  Missing: other base directories (`C163_false`); for them, see
`C163_wildcards_partial`. -/
theorem C163_partial {env : Env} {w : World} {there : Path → Prop} (hg : env.os.GlobWorks w there) {ac : ArtefactConfig}
    {base : Path} (hb : PlainDirectory base) (hr : ac.parser = .rust) (hne : ac.paths ≠ []) (hp : ∀ p ∈ ac.paths, Proper p)
    {files : List Path} {m : BMap RequirementId Requirement} {errs : List Error}
    (h : parseFromConfig env w ac base = .ok (files, m, errs)) :
    (∀ f, f ∈ files ↔ there f ∧ ∃ p ∈ ac.paths, Means base p f) ∧
    (∀ id, m.get id ≠ none ↔ ∃ f, (there f ∧ ∃ p ∈ ac.paths, Means base p f) ∧
      ∃ r ∈ requirementsIn env w .rust f, r.id = id) := by
  obtain ⟨fs, h1, h2⟩ := matched_means hg hb ac.paths hp
  obtain ⟨rfl, h3, _⟩ := rust_parsed hr hne h1 h
  refine ⟨h2, fun id => ?_⟩
  rw [h3, Ne, List.find?_eq_none]
  constructor
  · intro h4
    simp only [List.mem_flatMap] at h4
    rcases Classical.em (∃ f ∈ files, ∃ r ∈ requirementsIn env w .rust f, r.id = id) with ⟨f, h5, r, h6, h7⟩ | h5
    · exact ⟨f, (h2 f).1 h5, r, h6, h7⟩
    · exact absurd (fun r ⟨f, hf, hr⟩ he => h5 ⟨f, hf, r, hr, by simpa using he⟩) h4
  · rintro ⟨f, h5, r, h6, h7⟩ h4
    exact h4 r (List.mem_flatMap.2 ⟨f, (h2 f).2 h5, h6⟩) (by simpa using h7)

/-! ## The usual pattern -/

theorem split_snoc (t u : Str) (hu : '/' ∉ u) : ∃ ms n, splitOnChar '/' t = ms ++ [n] ∧
    splitOnChar '/' (t ++ u) = ms ++ [n ++ u] := by
  induction t with
  | nil => exact ⟨[], [], rfl, splitOnChar_no hu⟩
  | cons c t ih =>
    obtain ⟨ms, n, h1, h2⟩ := ih
    rw [List.cons_append, splitOnChar, splitOnChar, h1, h2]
    split
    · exact ⟨[] :: ms, n, rfl, rfl⟩
    · cases ms with
      | nil => exact ⟨[], c :: n, rfl, rfl⟩
      | cons x ms => exact ⟨(c :: x) :: ms, n, rfl, rfl⟩

/-- `dir/**/*.rs` means what is somewhere below the directory and ends in `.rs`. -/
theorem C163_tree_partial {dir : Str} (hd : ∀ c ∈ dir, ¬ Wild c) (f : Str) :
    Fits (dir ++ c!"/**/*.rs") f ↔ ∃ q, f = dir ++ c!"/" ++ q ++ c!".rs" := by
  have hs : splitOnChar '/' (dir ++ c!"/**/*.rs") = splitOnChar '/' dir ++ ([c!"**"] ++ [c!"*.rs"]) :=
    splitOnChar_append '/' dir c!"**/*.rs"
  have hlast : ∀ ns, PathFits ([c!"**"] ++ [c!"*.rs"]) ns ↔ ∃ ms n, ns = ms ++ [n ++ c!".rs"] := by
    intro ns
    have hrs : ∀ c ∈ c!".rs", ¬ Wild c := by unfold Wild; decide
    constructor
    · intro h
      rcases pathFits_cons.1 h with ⟨h1, _⟩ | ⟨_, ms, ns', rfl, h1⟩
      · exact absurd rfl h1
      · rcases pathFits_cons.1 h1 with ⟨_, n, ns'', rfl, h2, h3⟩ | ⟨h2, _⟩
        · cases h3
          rcases nameFits_cons h2 with ⟨h4, _⟩ | ⟨h4, _⟩ | ⟨_, m, n', rfl, h4⟩ | ⟨h4, _⟩ | ⟨h4, _⟩
          · exact absurd (.inl rfl) h4
          · cases h4
          · exact ⟨ms, m, by rw [(nameFits_plain hrs _).1 h4]⟩
          · cases h4
          · cases h4
        · cases h2
    · rintro ⟨ms, n, rfl⟩
      exact .recursive (.name (by decide) (.many ((nameFits_plain hrs _).2 rfl)) .nil)
  rw [Fits, hs, fits_below hd (by decide)]
  constructor
  · rintro ⟨r, rfl, h⟩
    obtain ⟨ms, n, h1⟩ := (hlast _).1 h
    have h2 := pieces_split '/' r
    rw [h1, pieces_mid] at h2
    refine ⟨ms.flatMap (fun x => x ++ ['/']) ++ n, ?_⟩
    rw [← h2]
    simp
  · rintro ⟨q, rfl⟩
    refine ⟨q ++ c!".rs", by simp, (hlast _).2 ?_⟩
    obtain ⟨ms, n, _, h⟩ := split_snoc q c!".rs" (by decide)
    exact ⟨ms, n, h⟩

theorem pathFits_append (ps qs ns : List Str) :
    PathFits (ps ++ qs) ns ↔ ∃ ms ks, ns = ms ++ ks ∧ PathFits ps ms ∧ PathFits qs ks := by
  induction ps generalizing ns with
  | nil =>
    constructor
    · intro h; exact ⟨[], ns, rfl, .nil, h⟩
    · rintro ⟨ms, ks, rfl, h1, h2⟩
      cases h1
      exact h2
  | cons p ps ih =>
    rw [List.cons_append, pathFits_cons]
    constructor
    · rintro (⟨h, n, ns', rfl, h1, h2⟩ | ⟨h, ms, ns', rfl, h2⟩)
      · obtain ⟨ms, ks, rfl, h3, h4⟩ := (ih _).1 h2
        exact ⟨n :: ms, ks, rfl, .name h h1 h3, h4⟩
      · obtain ⟨ms', ks, rfl, h3, h4⟩ := (ih _).1 h2
        subst h
        exact ⟨ms ++ ms', ks, by simp, .recursive h3, h4⟩
    · rintro ⟨ms, ks, rfl, h1, h2⟩
      rcases pathFits_cons.1 h1 with ⟨h, n, ns', rfl, h3, h4⟩ | ⟨h, ms', ns', rfl, h4⟩
      · exact .inl ⟨h, n, ns' ++ ks, rfl, h3, (ih _).2 ⟨_, _, rfl, h4, h2⟩⟩
      · exact .inr ⟨h, ms', ns' ++ ks, by simp, (ih _).2 ⟨_, _, rfl, h4, h2⟩⟩

theorem split_pieces {xs : List Str} (hx : xs ≠ []) (h : ∀ x ∈ xs, '/' ∉ x) : splitOnChar '/' (pieces '/' xs) = xs := by
  induction xs with
  | nil => exact absurd rfl hx
  | cons x xs ih =>
    cases xs with
    | nil => exact splitOnChar_no (h x List.mem_cons_self)
    | cons y ys =>
      have := ih (by simp) (fun z hz => h z (List.mem_cons_of_mem _ hz))
      rw [pieces, splitOnChar_append, this, splitOnChar_no (h x List.mem_cons_self)]
      rfl

/-- The files that are found for a pattern below a directory whose name may have wildcards. -/
theorem finds_reaches {env : Env} {w : World} {there : Path → Prop} (hg : env.os.GlobWorks w there)
    {base p : Str} (hb : base = c!"." ∨ Proper base) (hp : Proper p) :
    ∃ fs, Finds env w base p fs ∧ ∀ f, f ∈ fs ↔ there f ∧ Reaches base p f := by
  by_cases ha : p.head? = some '/'
  · obtain ⟨fs, h1, h2⟩ := C163_pattern_partial hg (.inl rfl : PlainDirectory c!".") hp
    refine ⟨fs, ?_, fun f => ?_⟩
    · unfold Finds patternOf at h1 ⊢
      rw [if_pos ha] at h1 ⊢
      exact h1
    · rw [h2, Means, Reaches, if_pos ha, if_pos (.inl ha)]
  · rcases hb with rfl | hb
    · obtain ⟨fs, h1, h2⟩ := C163_pattern_partial hg (.inl rfl : PlainDirectory c!".") hp
      refine ⟨fs, h1, fun f => ?_⟩
      rw [h2, Means, Reaches, if_neg ha, if_pos (.inr rfl)]
      simp only [below, if_pos]
      constructor
      · rintro ⟨a, _, rfl, b⟩; exact ⟨a, b⟩
      · rintro ⟨a, b⟩; exact ⟨a, f, rfl, b⟩
    · obtain ⟨ss, last, hl, hn, he⟩ := hp
      obtain ⟨bs, bl, hbl, hbn, hbe⟩ := hb
      have hne : ss ++ [last] ≠ [] := by simp
      have he : splitOnChar '/' p = ss ++ [last] := by
        rcases he with he | he
        · exact he
        · exact absurd (split_slash hne he) ha
      have hdot : base ≠ c!"." := by
        rintro rfl
        exact (withoutDot_proper hbn hbe).2 rfl
      have hsplit : splitOnChar '/' (base ++ ['/'] ++ p) = splitOnChar '/' base ++ (ss ++ [last]) := by
        rw [List.append_assoc, ← he]
        exact splitOnChar_append _ _ _
      have hall : ∀ s ∈ (bs ++ bl :: ss) ++ [last], ProperName s := by
        intro s hs
        rw [List.append_assoc, List.mem_append] at hs
        rcases hs with hs | hs
        · exact hbn s (List.mem_append_left _ hs)
        · rcases List.mem_cons.1 hs with rfl | hs
          · exact hbn _ (by simp)
          · exact hn s hs
      have hall' : splitOnChar '/' (base ++ ['/'] ++ p) = (bs ++ bl :: ss) ++ [last] ∨
          splitOnChar '/' (base ++ ['/'] ++ p) = [] :: ((bs ++ bl :: ss) ++ [last]) := by
        rw [hsplit]
        rcases hbe with hbe | hbe
        · exact .inl (by rw [hbe]; simp)
        · exact .inr (by rw [hbe]; simp)
      obtain ⟨cs, h1, h2⟩ := compile_fits (pat := base ++ ['/'] ++ p) hl hall (hall'.elim .inl (fun h => .inr (.inl h)))
      obtain ⟨fs, h3, h4⟩ := hg _ _ h1
      refine ⟨fs, by unfold Finds patternOf; rw [if_neg ha]; exact h3, fun f => ?_⟩
      have : withoutDot (splitOnChar '/' (base ++ ['/'] ++ p)) = splitOnChar '/' base ++ (ss ++ [last]) := by
        rw [(withoutDot_proper hall hall').1, hsplit]
      rw [h4, h2, this, pathFits_append, Reaches, if_neg (by simp [ha, hdot])]
      refine and_congr_right fun _ => ?_
      unfold Fits
      rw [he]
      constructor
      · rintro ⟨ms, ks, e, k1, k2⟩
        have hks : ks ≠ [] := by rintro rfl; exact pathFits_ne hl k2
        have hms : ms ≠ [] := by
          rintro rfl
          rcases hbe with hbe | hbe
          · rw [hbe] at k1; exact pathFits_ne hbl k1
          · rw [hbe, ← List.cons_append] at k1; exact pathFits_ne hbl k1
        have hno : ∀ x ∈ ms ++ ks, '/' ∉ x := fun x hx => splitOnChar_mem_no (e ▸ hx)
        refine ⟨pieces '/' ms, pieces '/' ks, ?_, ?_, ?_⟩
        · rw [← pieces_split '/' f, e, pieces_append _ _ _ hms hks]
          simp
        · rw [split_pieces hms fun x hx => hno x (List.mem_append_left _ hx)]
          exact k1
        · rw [split_pieces hks fun x hx => hno x (List.mem_append_right _ hx)]
          exact k2
      · rintro ⟨d, r, rfl, k1, k2⟩
        refine ⟨_, _, ?_, k1, k2⟩
        rw [List.append_assoc]
        exact splitOnChar_append _ _ _

/-- C163, for base directories with wildcards in their names: the files of the artefact are those that are there and fit
one of its patterns, below any directory that fits the base directory as a pattern. -/
theorem C163_wildcards_partial {env : Env} {w : World} {there : Path → Prop} (hg : env.os.GlobWorks w there)
    {ac : ArtefactConfig} {base : Path} (hb : base = c!"." ∨ Proper base) (hr : ac.parser = .rust) (hne : ac.paths ≠ [])
    (hp : ∀ p ∈ ac.paths, Proper p) {files : List Path} {m : BMap RequirementId Requirement} {errs : List Error}
    (h : parseFromConfig env w ac base = .ok (files, m, errs)) (f : Path) :
    f ∈ files ↔ there f ∧ ∃ p ∈ ac.paths, Reaches base p f := by
  have hm : ∀ ps : List Str, (∀ p ∈ ps, Proper p) →
      ∃ fs, Matched env w base ps fs ∧ ∀ f, f ∈ fs ↔ there f ∧ ∃ p ∈ ps, Reaches base p f := by
    intro ps
    induction ps with
    | nil => exact fun _ => ⟨[], .nil, by simp⟩
    | cons p ps ih =>
      intro hp
      obtain ⟨gs, h1, h2⟩ := ih (fun q hq => hp q (List.mem_cons_of_mem _ hq))
      obtain ⟨fs, h3, h4⟩ := finds_reaches hg hb (hp p List.mem_cons_self)
      refine ⟨fs ++ gs, .cons h3 h1, fun f => ?_⟩
      rw [List.mem_append, h2, h4]
      constructor
      · rintro (⟨a, b⟩ | ⟨a, q, b, c⟩)
        · exact ⟨a, p, List.mem_cons_self, b⟩
        · exact ⟨a, q, List.mem_cons_of_mem _ b, c⟩
      · rintro ⟨a, q, b, c⟩
        rcases List.mem_cons.1 b with rfl | b
        · exact .inl ⟨a, c⟩
        · exact .inr ⟨a, q, b, c⟩
  obtain ⟨fs, h1, h2⟩ := hm ac.paths hp
  obtain ⟨rfl, -⟩ := rust_parsed hr hne h1 h
  exact h2 f

namespace GlobExample
open CtrlExample PatternExample

/-- A library that does what `GlobWorks` says, for the given files. -/
def library (files : List Path) (_ : World) (pattern : Str) : Except Str (List (Except (Path × Str) Path)) :=
  match compile pattern with
  | none => .error c!"invalid"
  | some cs => .ok ((files.filter fun f => matchPath cs (splitOnChar '/' f)).map .ok)

/-- These are the files of the file system. -/
def genv (files : List Path) : Env :=
  { env tree config with os := { os with glob := library files } }

theorem genv_works (files : List Path) (w : World) : (genv files).os.GlobWorks w (· ∈ files) := by
  intro pattern cs h
  refine ⟨files.filter fun f => matchPath cs (splitOnChar '/' f), ?_, fun f => by simp⟩
  show library files w pattern = _
  rw [library, h]

def listing : List Path := [c!"p/a.rs", c!"p/src/b.rs", c!"p/src/x/c.rs", c!"p/src/x/c.md", c!"q/src/d.rs", c!"p1/a.rs",
  c!"p[1]/a.rs"]

/-- Each of them with the text that has `tree` as its syntax tree -/
def disk : World := world (listing.map fun f => (f, c!"..."))

/-- What is found below a directory -/
def found (base : Path) (paths : List Str) : Option (List Path) :=
  (globPaths (genv listing) disk base paths).toOption

example : found c!"p" [c!"src/**/*.rs"] = some [c!"p/src/b.rs", c!"p/src/x/c.rs"] := by decide +kernel
example : found c!"." [c!"[!q]/*.rs", c!"p/src/?.rs"] = some [c!"p/a.rs", c!"p/src/b.rs"] := by decide +kernel
example : found c!"p[1]" [c!"*.rs"] = some [c!"p1/a.rs"] := by decide +kernel

theorem wf_star_rs : WellFormed c!"*.rs" :=
  .many (by decide) (.char (by unfold Wild; decide) (.char (by unfold Wild; decide) (.char (by unfold Wild; decide) .nil)))

theorem proper_star_rs : Proper c!"*.rs" :=
  ⟨[], c!"*.rs", by decide, fun s hs => by
    obtain rfl : s = c!"*.rs" := by simpa using hs
    exact .inr ⟨by decide, by decide, by decide, (fun h => by cases h), wf_star_rs⟩, .inl (by decide +kernel)⟩

/-- The directory `p` is plain, the pattern `src/**/*.rs` is proper. -/
theorem proper_p : PlainDirectory c!"p" := by
  refine .inr ⟨⟨[], c!"p", by decide, fun s hs => ?_, .inl (by decide +kernel)⟩, by unfold Wild; decide⟩
  obtain rfl : s = c!"p" := by simpa using hs
  exact .inr ⟨by decide, by decide, by decide, (fun h => by cases h), .char (by unfold Wild; decide) .nil⟩

theorem proper_tree : Proper c!"src/**/*.rs" := by
  refine ⟨[c!"src", c!"**"], c!"*.rs", by decide, fun s hs => ?_, .inl (by decide +kernel)⟩
  simp only [List.cons_append, List.nil_append, List.mem_cons, List.not_mem_nil, or_false] at hs
  rcases hs with rfl | rfl | rfl
  · exact .inr ⟨by decide, by decide, by decide, (fun h => by cases h),
      .char (by unfold Wild; decide) (.char (by unfold Wild; decide) (.char (by unfold Wild; decide) .nil))⟩
  · exact .inl rfl
  · exact .inr ⟨by decide, by decide, by decide, (fun h => by cases h), wf_star_rs⟩

/-- What is read for an artefact with these paths -/
def result (base : Path) (paths : List Str) : Option (List Path × List RequirementId × List Error) :=
  (parseFromConfig (genv listing) disk (art paths) base).toOption.map fun v => (v.1, v.2.1.keys, v.2.2)

theorem result_ok {base : Path} {paths : List Str} {fs ids errs} (h : result base paths = some (fs, ids, errs)) :
    ∃ m, parseFromConfig (genv listing) disk (art paths) base = .ok (fs, m, errs) ∧ m.keys = ids := by
  unfold result at h
  cases hp : parseFromConfig (genv listing) disk (art paths) base with
  | error e => rw [hp] at h; cases h
  | ok v =>
    rw [hp] at h
    obtain ⟨a, b, c⟩ := v
    simp only [Except.toOption, Option.map_some, Option.some.injEq, Prod.mk.injEq] at h
    obtain ⟨rfl, h2, rfl⟩ := h
    exact ⟨b, rfl, h2⟩

/-- `src/**/*.rs` below `p`: the two files, of which the second has a requirement with the id of the first. -/
example : ∃ m errs, parseFromConfig (genv listing) disk (art [c!"src/**/*.rs"]) c!"p" =
      .ok ([c!"p/src/b.rs", c!"p/src/x/c.rs"], m, errs) ∧ m.get c!"f" ≠ none ∧ errs.length = 1 ∧
    (∀ f, f ∈ [c!"p/src/b.rs", c!"p/src/x/c.rs"] ↔
      f ∈ listing ∧ ∃ q, f = c!"p" ++ c!"/" ++ (c!"src" ++ c!"/" ++ q ++ c!".rs")) := by
  have h0 : (parseFromConfig (genv listing) disk (art [c!"src/**/*.rs"]) c!"p").toOption.map
      (fun v => (v.1, v.2.1.get c!"f" |>.isSome, v.2.2.length)) =
      some ([c!"p/src/b.rs", c!"p/src/x/c.rs"], true, 1) := by decide +kernel
  cases hp : parseFromConfig (genv listing) disk (art [c!"src/**/*.rs"]) c!"p" with
  | error e => rw [hp] at h0; cases h0
  | ok v =>
    rw [hp] at h0
    obtain ⟨a, m, errs⟩ := v
    simp only [Except.toOption, Option.map_some, Option.some.injEq, Prod.mk.injEq] at h0
    obtain ⟨rfl, h2, h3⟩ := h0
    refine ⟨m, errs, rfl, (fun h => by rw [h] at h2; cases h2), h3, fun f => ?_⟩
    obtain ⟨h4, _⟩ := C163_partial (genv_works listing disk) proper_p rfl (by decide)
      (fun p hp => by
        obtain rfl : p = c!"src/**/*.rs" := by simpa [art] using hp
        exact proper_tree) hp
    rw [h4]
    have : ∀ f, (∃ p ∈ (art [c!"src/**/*.rs"]).paths, Means c!"p" p f) ↔
        ∃ q, f = c!"p" ++ c!"/" ++ (c!"src" ++ c!"/" ++ q ++ c!".rs") := by
      intro f
      constructor
      · rintro ⟨p, hp, h⟩
        obtain rfl : p = c!"src/**/*.rs" := by simpa [art] using hp
        obtain ⟨r, rfl, h⟩ := h
        obtain ⟨q, rfl⟩ := (C163_tree_partial (dir := c!"src") (by unfold Wild; decide) r).1 h
        exact ⟨q, rfl⟩
      · rintro ⟨q, rfl⟩
        exact ⟨_, List.mem_cons_self, _, rfl, (C163_tree_partial (dir := c!"src") (by unfold Wild; decide) _).2 ⟨q, rfl⟩⟩
    rw [this]

/-- The directory `p[1]` is a proper pattern. -/
theorem proper_p1 : Proper c!"p[1]" := by
  refine ⟨[], c!"p[1]", by decide, fun s hs => ?_, .inl (by decide +kernel)⟩
  obtain rfl : s = c!"p[1]" := by simpa using hs
  exact .inr ⟨by decide, by decide, by decide, (fun h => by cases h),
    .char (by unfold Wild; decide) (.within (s := c!"1") ⟨'1', [], rfl, by decide⟩ (by decide) .nil)⟩

/-- Below `p[1]` the file of the directory `p1` is found, and not the one that is there. -/
example (h : parseFromConfig (genv listing) disk (art [c!"*.rs"]) c!"p[1]" = .ok (fs, m, errs)) :
    c!"p1/a.rs" ∈ fs ∧ c!"p[1]/a.rs" ∉ fs := by
  have hf := C163_wildcards_partial (genv_works _ _) (.inr proper_p1) rfl (by decide) (fun p hp => by
    obtain rfl : p = c!"*.rs" := by simpa [art] using hp
    exact proper_star_rs) h
  refine ⟨(hf _).2 ⟨by decide, c!"*.rs", List.mem_cons_self, ?_⟩, fun hm => ?_⟩
  · rw [Reaches, if_neg (by decide)]
    exact ⟨c!"p1", c!"a.rs", rfl,
      .name (by decide) (.char (by unfold Wild; decide) (.within (s := c!"1") ⟨'1', [], rfl, by decide⟩ (by decide)
        (.single (by simp)) .nil)) .nil,
      .name (by decide) (.many (m := c!"a") (.char (by unfold Wild; decide) (.char (by unfold Wild; decide)
        (.char (by unfold Wild; decide) .nil)))) .nil⟩
  · obtain ⟨m', k, -⟩ := result_ok (base := c!"p[1]") (paths := [c!"*.rs"])
      (show _ = some ([c!"p1/a.rs"], [c!"f"], []) by decide +kernel)
    rw [h] at k
    injection k with k
    injection k with k
    rw [k] at hm
    revert hm
    decide

end GlobExample

/-- C163 is false as listed: below `p[1]` no file is found, but the one in `p1` is. -/
theorem C163_false : ¬ C163_statement := by
  intro h
  obtain ⟨m, h1, _⟩ := GlobExample.result_ok (base := c!"p[1]") (paths := [c!"*.rs"])
    (show _ = some ([c!"p1/a.rs"], [c!"f"], []) by decide +kernel)
  have h2 := (h _ _ _ _ _ _ _ _ (GlobExample.genv_works _ _) rfl (by decide) (fun p hp => by
    obtain rfl : p = c!"*.rs" := by simpa [PatternExample.art] using hp
    exact GlobExample.proper_star_rs) h1 c!"p[1]/a.rs").2 ⟨by decide, c!"*.rs", List.mem_cons_self, c!"a.rs", by decide,
      .name (by decide) (.many (m := c!"a") (.char (by unfold Wild; decide) (.char (by unfold Wild; decide)
        (.char (by unfold Wild; decide) .nil)))) .nil⟩
  revert h2
  decide

end Reqtrace
