import Verif.Lemmas.Location
import Verif.Spec.Location

/-!
# Location properties C47–C49
-/

set_option linter.unusedSimpArgs false

namespace Reqtrace

open Spec

theorem Spec.Digits.noColon {U : Unicode} {d : Str} (h : Digits U d) : ':' ∉ d := by
  intro hc
  have := h.2 _ hc
  rw [U.digit_colon] at this; cases this

theorem takeWhile_digits {U : Unicode} {d t : Str} (h : Digits U d)
    (ht : ∀ c u, t = c :: u → U.digit c = false) :
    (d ++ t).takeWhile U.digit = d ∧ (d ++ t).dropWhile U.digit = t := by
  have h2 := h.2
  clear h
  induction d with
  | nil =>
    cases t with
    | nil => simp
    | cons c u => simp [ht c u rfl]
  | cons c d ih =>
    have hc := h2 c (by simp)
    have := ih (fun c hc => h2 c (by simp [hc]))
    simp [hc, this]

theorem posFields_iff (U : Unicode) (r : Str) (f : List (Nat × Str)) :
    posFields U r = some f ↔ (r = [] ∧ f = []) ∨
      (∃ d, Digits U d ∧ r = ':' :: d ∧ f = [(2, d)]) ∨
      (∃ d e, Digits U d ∧ Digits U e ∧ r = ':' :: (d ++ ':' :: e) ∧ f = [(3, e), (2, d)]) := by
  constructor
  · intro h
    unfold posFields at h
    split at h
    · cases h; exact .inl ⟨rfl, rfl⟩
    · rename_i c t
      split at h
      · rename_i hc
        have ht := List.takeWhile_append_dropWhile (p := U.digit) (l := t)
        have hd : Digits U (t.takeWhile U.digit) := ⟨hc.2, fun c hc => mem_takeWhile hc⟩
        split at h
        · rename_i hnil
          rw [hnil, List.append_nil] at ht
          cases h
          exact .inr (.inl ⟨_, hd, by rw [hc.1, ht], rfl⟩)
        · rename_i c' u hcu
          split at h
          · rename_i hcc
            cases h
            have hu := List.takeWhile_append_dropWhile (p := U.digit) (l := u)
            rw [hcc.2.2, List.append_nil] at hu
            refine .inr (.inr ⟨_, _, hd, ⟨hcc.2.1, fun c hc => mem_takeWhile hc⟩, ?_, rfl⟩)
            rw [hcc.1] at hcu
            rw [hu, ← hcu, ht, hc.1]
          · cases h
      · cases h
  · rintro (⟨rfl, rfl⟩ | ⟨d, hd, rfl, rfl⟩ | ⟨d, e, hd, he, rfl, rfl⟩)
    · rfl
    · have := takeWhile_digits (t := []) hd (by simp)
      simp only [List.append_nil] at this
      unfold posFields
      simp [this, hd.1]
    · have h1 := takeWhile_digits (t := ':' :: e) hd (by
        intro c u h; cases h; exact U.digit_colon)
      have h2 := takeWhile_digits (t := []) he (by simp)
      simp only [List.append_nil] at h2
      unfold posFields
      simp [h1, h2, hd.1, he.1]

theorem colon_split {a b d e : Str} (hb : ':' ∉ b) (he : ':' ∉ e)
    (h : a ++ ':' :: b = d ++ ':' :: e) : a = d ∧ b = e := by
  rcases List.append_eq_append_iff.1 h with ⟨x, hx, hy⟩ | ⟨x, hx, hy⟩
  · cases x with
    | nil => simp at hx hy; exact ⟨hx.symm, hy⟩
    | cons c x =>
      simp at hy
      exact absurd (by rw [hy.2]; simp) hb
  · cases x with
    | nil => simp at hx hy; exact ⟨hx, hy.symm⟩
    | cons c x =>
      simp at hy
      exact absurd (by rw [hy.2]; simp) he

theorem locSplit_eq {U : Unicode} {file t suffix : Str} {f : List (Nat × Str)}
    (hs : posFields U suffix = some f) (hn : '\n' ∉ t)
    (ht : ∀ t1 t2, t = t1 ++ t2 → t2 ≠ [] → posFields U (t2 ++ suffix) = none) :
    locSplit U file (t ++ suffix) = some (file ++ t, f) := by
  induction t generalizing file with
  | nil => unfold locSplit; simp [hs]
  | cons c t ih =>
    unfold locSplit
    have h1 := ht [] (c :: t) rfl (by simp)
    have hc : c ≠ '\n' := by intro h; exact hn (by simp [h])
    rw [h1]
    simp only [List.cons_append, hc, if_false]
    rw [ih (fun h => hn (by simp [h])) (fun t1 t2 h h2 => ht (c :: t1) t2 (by simp [h]) h2)]
    simp

theorem natStr_digits (U : Unicode) (n : Nat) : Digits U (natStr n) :=
  ⟨Nat.toDigits_ne_nil, fun _ hc =>
    U.digit_of_isDigit (Nat.isDigit_of_mem_toDigits (by decide) (by decide) hc)⟩

theorem readDigits_ok {d : Str} {m n : Nat} : readDigits m d = .ok n ↔
    (∀ c ∈ d, c.isDigit = true) ∧ Nat.ofDigitChars 10 d m = n ∧ (d = [] ∨ n ≤ usizeMax) := by
  induction d generalizing m with
  | nil => simp [readDigits]
  | cons c t ih =>
    have hmono : ∀ (t : Str) (a : Nat), a ≤ Nat.ofDigitChars 10 t a := by
      intro t
      induction t with
      | nil => intro a; simp
      | cons c t ih =>
        intro a
        rw [Nat.ofDigitChars_cons]
        exact Nat.le_trans (by omega) (ih _)
    have e : Nat.ofDigitChars 10 (c :: t) m = Nat.ofDigitChars 10 t (m * 10 + (c.toNat - '0'.toNat)) := by
      rw [Nat.ofDigitChars_cons, Nat.mul_comm]
    rw [e]
    unfold readDigits
    have := hmono t (m * 10 + (c.toNat - '0'.toNat))
    split
    · rename_i hc
      split
      · rename_i hle
        rw [ih]
        simp only [List.mem_cons, forall_eq_or_imp, hc, true_and, List.cons_ne_nil, false_or]
        constructor
        · rintro ⟨h1, h2, h3⟩
          refine ⟨h1, h2, ?_⟩
          rcases h3 with rfl | h3
          · rw [← h2]; simpa using hle
          · exact h3
        · rintro ⟨h1, h2, h3⟩
          exact ⟨h1, h2, .inr h3⟩
      · rename_i hle
        simp only [reduceCtorEq, List.cons_ne_nil, false_or, false_iff, not_and]
        rintro _ rfl
        omega
    · rename_i hc
      simp [hc]

theorem parseUsize_digits {U : Unicode} {d : Str} (hd : Digits U d) : parseUsize d = readDigits 0 d := by
  have hplus : U.digit '+' = false := by rw [U.digit_ascii _ (by decide)]; decide
  unfold parseUsize
  rw [if_neg hd.1]
  split
  · have := hd.2 '+' (by simp)
    rw [hplus] at this; cases this
  · rfl

theorem parseUsize_natStr {n : Nat} (h : n ≤ usizeMax) : parseUsize (natStr n) = .ok n := by
  rw [parseUsize_digits (natStr_digits .ascii n), readDigits_ok]
  exact ⟨fun _ hc => Nat.isDigit_of_mem_toDigits (by decide) (by decide) hc, Nat.ofDigitChars_ten_toDigits, .inr h⟩

/-- **C47** Reading the text of a location gives the location back. -/
theorem C47_round_trip (U : Unicode) (file : Path) (pos : Option LocationInFile)
    (hf : file ≠ []) (hn : '\n' ∉ file) (he : ¬ EndsInField U file)
    (hp : match pos with
      | none => True
      | some (.line l) => l ≤ usizeMax
      | some (.lineAndColumn l c) => l ≤ usizeMax ∧ c ≤ usizeMax
      | some (.string _) => False) :
    Location.parse U (Location.display ⟨file, pos⟩) = .ok (.ok ⟨file, pos⟩) := by
  rw [location_parse_eq]
  cases file with
  | nil => exact absurd rfl hf
  | cons c t =>
    have hc : c ≠ '\n' := by intro h; exact hn (by simp [h])
    have ht : '\n' ∉ t := fun h => hn (by simp [h])
    have key : ∀ suffix f, posFields U suffix = some f →
        (∀ x, x ≠ [] → (posFields U (x ++ suffix)).isSome → ∃ f d, Digits U d ∧ x = f ++ ':' :: d) →
        locGroups U (c :: t ++ suffix) = some (c :: t, f) := by
      intro suffix f hs hx
      unfold locGroups
      simp only [List.cons_append, hc, if_false]
      rw [locSplit_eq hs ht]
      · rfl
      · intro t1 t2 h h2
        cases hq : posFields U (t2 ++ suffix) with
        | none => rfl
        | some q =>
          obtain ⟨g, d, hd, rfl⟩ := hx t2 h2 (by rw [hq]; rfl)
          exact absurd ⟨c :: t1 ++ g, d, by simp, hd, by rw [h]; simp⟩ he
    match pos, hp with
    | none, _ =>
      have h := key [] [] rfl (by
        intro x hx hsome
        obtain ⟨f, hf⟩ := Option.isSome_iff_exists.1 hsome
        rw [List.append_nil] at hf
        rcases (posFields_iff U _ _).1 hf with ⟨h, _⟩ | ⟨d, hd, h, _⟩ | ⟨d, e, hd, he, h, _⟩
        · exact absurd h hx
        · exact ⟨[], d, hd, h⟩
        · exact ⟨':' :: d, e, he, by simp [h]⟩)
      rw [List.append_nil] at h
      have e : Location.display ⟨c :: t, none⟩ = c :: t := rfl
      rw [e, h]; rfl
    | some (.line l), hl =>
      have hd := natStr_digits U l
      have h := key (':' :: natStr l) [(2, natStr l)]
        ((posFields_iff U _ _).2 (.inr (.inl ⟨_, hd, rfl, rfl⟩))) (by
        intro x hx hsome
        obtain ⟨f, hf⟩ := Option.isSome_iff_exists.1 hsome
        rcases (posFields_iff U _ _).1 hf with ⟨h, _⟩ | ⟨d, hd', h, _⟩ | ⟨d, e, hd', he, h, _⟩
        · simp at h
        · have := (colon_split (a := x) (d := []) hd.noColon hd'.noColon h).1
          exact absurd this hx
        · have := (colon_split (d := ':' :: d) hd.noColon he.noColon (by simpa using h)).1
          exact ⟨[], d, hd', this⟩)
      have e : Location.display ⟨c :: t, some (.line l)⟩ = c :: t ++ ':' :: natStr l := by
        simp [Location.display, LocationInFile.display]
      rw [e, h]
      simp [parsePos, parseField, List.lookup, parseUsize_natStr hl, Except.map, bind, Except.bind,
        pure, Except.pure]
    | some (.lineAndColumn l k), hl =>
      have hd := natStr_digits U l
      have hk := natStr_digits U k
      have h := key (':' :: (natStr l ++ ':' :: natStr k)) [(3, natStr k), (2, natStr l)]
        ((posFields_iff U _ _).2 (.inr (.inr ⟨_, _, hd, hk, rfl, rfl⟩))) (by
        intro x hx hsome
        obtain ⟨f, hf⟩ := Option.isSome_iff_exists.1 hsome
        rcases (posFields_iff U _ _).1 hf with ⟨h, _⟩ | ⟨d, hd', h, _⟩ | ⟨d, e, hd', he, h, _⟩
        · simp at h
        · have := (colon_split (a := x ++ ':' :: natStr l) (d := []) hk.noColon hd'.noColon
            (by simpa using h)).1
          simp at this
        · have := (colon_split (a := x ++ ':' :: natStr l) (d := ':' :: d) hk.noColon he.noColon
            (by simpa using h)).1
          cases x with
          | nil => exact absurd rfl hx
          | cons y x =>
            simp at this
            exact absurd (by rw [← this.2]; simp) hd'.noColon)
      have e : Location.display ⟨c :: t, some (.lineAndColumn l k)⟩ =
          c :: t ++ ':' :: (natStr l ++ ':' :: natStr k) := by
        simp [Location.display, LocationInFile.display]
      rw [e, h]
      simp [parsePos, parseField, List.lookup, parseUsize_natStr hl.1, parseUsize_natStr hl.2,
        Except.map, bind, Except.bind, pure, Except.pure]

/-- The hypotheses of C47 for a file name with a colon and with a number of several digits. -/
example : Location.parse .ascii c!"a:b.rs:120:7" =
    .ok (.ok ⟨c!"a:b.rs", some (.lineAndColumn 120 7)⟩) := by decide +kernel

/-! ## C48 -/

theorem notation_of_digits (d : Str) (hd : d ≠ []) (h : ∀ c ∈ d, c.isDigit = true) :
    Notation d (Nat.ofDigitChars 10 d 0) := by
  have aux : ∀ (r : Str), r ≠ [] → (∀ c ∈ r, c.isDigit = true) →
      Notation r.reverse (Nat.ofDigitChars 10 r.reverse 0) := by
    intro r
    induction r with
    | nil => intro h; exact absurd rfl h
    | cons c r ih =>
      intro _ hr
      have hc := hr c (by simp)
      obtain ⟨m, hm, rfl⟩ : ∃ m, m < 10 ∧ c = Nat.digitChar m := by
        simp only [Char.isDigit, Bool.and_eq_true, decide_eq_true_eq, UInt32.le_iff_toNat_le] at hc
        have hn : c.val.toNat = c.toNat := rfl
        have h1 : 48 ≤ c.val.toNat := hc.1
        have h2 : c.val.toNat ≤ 57 := hc.2
        refine ⟨c.toNat - 48, by omega, ?_⟩
        apply Char.toNat_inj.1
        rw [Nat.toNat_digitChar_of_lt_ten (by omega)]
        omega
      rw [List.reverse_cons, Nat.ofDigitChars_append, Nat.ofDigitChars_cons_digitChar_of_lt_ten hm,
        Nat.ofDigitChars_nil]
      by_cases hnil : r = []
      · subst hnil
        refine ⟨0, ?_⟩
        simp [natStr, Nat.ofDigitChars_nil, Nat.toDigits_of_lt_base hm]
      · obtain ⟨k, hk⟩ := ih hnil (fun c hc => hr c (by simp [hc]))
        generalize Nat.ofDigitChars 10 r.reverse 0 = n at hk ⊢
        rw [hk]
        by_cases hn : n = 0
        · subst hn
          refine ⟨k + 1, ?_⟩
          simp [natStr, Nat.toDigits_of_lt_base hm, List.replicate_succ']
        · refine ⟨k, ?_⟩
          unfold natStr
          rw [← Nat.toDigits_append_toDigits (by decide) (by omega) hm,
            Nat.toDigits_of_lt_base hm, List.append_assoc]
  have := aux d.reverse (by simpa using hd) (by simpa using h)
  simpa using this

theorem parseField_ok {U : Unicode} {what d : Str} {n : Nat} (hd : Digits U d)
    (h : parseField what d = .ok n) : Notation d n ∧ n ≤ usizeMax := by
  have hu : parseUsize d = .ok n := by
    unfold parseField at h
    split at h
    · cases h; assumption
    · cases h
  rw [parseUsize_digits hd, readDigits_ok] at hu
  obtain ⟨h1, rfl, h2⟩ := hu
  exact ⟨notation_of_digits d hd.1 h1, h2.resolve_left hd.1⟩

theorem locSplit_spec {U : Unicode} {file t : Str} {p : Str × List (Nat × Str)}
    (h : locSplit U file t = some p) :
    ∃ t1 t2, t = t1 ++ t2 ∧ p.1 = file ++ t1 ∧ posFields U t2 = some p.2 ∧ '\n' ∉ t1 ∧
      ∀ u v, t1 = u ++ v → v ≠ [] → posFields U (v ++ t2) = none := by
  induction t generalizing file with
  | nil =>
    unfold locSplit at h
    simp [posFields] at h
    subst h
    exact ⟨[], [], rfl, by simp, rfl, by simp, by
      intro u v h hv
      simp at h
      exact absurd h.2 hv⟩
  | cons c t ih =>
    unfold locSplit at h
    cases hq : posFields U (c :: t) with
    | some f =>
      simp [hq] at h
      subst h
      refine ⟨[], c :: t, rfl, by simp, hq, by simp, ?_⟩
      intro u v h hv
      simp at h
      exact absurd h.2 hv
    | none =>
      simp only [hq] at h
      split at h
      · cases h
      · rename_i hc
        obtain ⟨t1, t2, h1, h2, h3, h4, h5⟩ := ih h
        refine ⟨c :: t1, t2, by simp [h1], by simp [h2], h3, ?_, ?_⟩
        · simp [h4]; exact fun h => hc h.symm
        · intro u v huv hv
          cases u with
          | nil => simp at huv; rw [← huv, List.cons_append, ← h1]; exact hq
          | cons d u =>
            simp at huv
            exact h5 u v huv.2 hv

/-- **C48** Reading a location never panics; when it succeeds the parts re-assemble to the text, up
to leading zeros of the numbers, and the numbers at the end of the text (at most two) are the
position. -/
theorem C48_parse_total (U : Unicode) (s : Str) : ∃ r, Location.parse U s = .ok r ∧
    ∀ loc, r = .ok loc → loc.file ≠ [] ∧ '\n' ∉ loc.file ∧
      match loc.locationInFile with
      | none => s = loc.file ∧ ¬ EndsInField U s
      | some (.line l) => ∃ d, s = loc.file ++ ':' :: d ∧ Notation d l ∧ l ≤ usizeMax ∧
          ¬ EndsInField U loc.file
      | some (.lineAndColumn l c) => ∃ d e, s = loc.file ++ ':' :: (d ++ ':' :: e) ∧
          Notation d l ∧ l ≤ usizeMax ∧ Notation e c ∧ c ≤ usizeMax
      | some (.string _) => False := by
  rw [location_parse_eq]
  refine ⟨_, rfl, ?_⟩
  intro loc hloc
  cases hg : locGroups U s with
  | none => rw [hg] at hloc; cases hloc
  | some p =>
    obtain ⟨file, fs⟩ := p
    rw [hg] at hloc
    simp only at hloc
    cases s with
    | nil => cases hg
    | cons c t =>
      unfold locGroups at hg
      have hc : c ≠ '\n' := by
        intro h; simp [h] at hg
      simp only [hc, if_false] at hg
      obtain ⟨t1, t2, h1, h2, h3, h4, h5⟩ := locSplit_spec hg
      simp only at h2
      have hfile : file = c :: t1 := by simpa using h2
      have hnl : '\n' ∉ file := by
        rw [hfile]; simp [h4]; exact fun h => hc h.symm
      have hne : file ≠ [] := by simp [hfile]
      have hend : ∀ f d, Digits U d → f ≠ [] → file = f ++ ':' :: d →
          posFields U (':' :: d ++ t2) = none := by
        intro f d _ hf heq
        rw [hfile] at heq
        cases f with
        | nil => exact absurd rfl hf
        | cons x f =>
          simp at heq
          exact h5 f (':' :: d) heq.2 (by simp)
      rcases (posFields_iff U _ _).1 h3 with ⟨rfl, h6⟩ | ⟨d, hd, rfl, h6⟩ | ⟨d, e, hd, he, rfl, h6⟩
      · simp only at h6
        subst h6
        simp [parsePos, List.lookup, Except.map, pure, Except.pure] at hloc
        subst hloc
        refine ⟨hne, hnl, ?_⟩
        simp only
        refine ⟨by rw [hfile, h1]; simp, ?_⟩
        rintro ⟨f, d, hf, hd, heq⟩
        have := hend f d hd hf (by rw [hfile, ← heq, h1]; simp)
        rw [List.append_nil, (posFields_iff U _ [(2, d)]).2 (.inr (.inl ⟨d, hd, rfl, rfl⟩))] at this
        cases this
      · simp only at h6
        subst h6
        simp only [parsePos, List.lookup] at hloc
        cases hl : parseField c!"line" d with
        | error e => simp [hl, Except.map, bind, Except.bind] at hloc
        | ok l =>
          simp [hl, Except.map, bind, Except.bind, pure, Except.pure] at hloc
          subst hloc
          obtain ⟨g1, g2⟩ := parseField_ok hd hl
          refine ⟨hne, hnl, d, by rw [hfile, h1]; simp, g1, g2, ?_⟩
          rintro ⟨f, d', hf, hd', heq⟩
          have := hend f d' hd' hf heq
          rw [(posFields_iff U _ [(3, d), (2, d')]).2
            (.inr (.inr ⟨d', d, hd', hd, by simp, rfl⟩))] at this
          cases this
      · simp only at h6
        subst h6
        simp only [parsePos, List.lookup] at hloc
        cases hl : parseField c!"line" d with
        | error e => simp [hl, Except.map, bind, Except.bind] at hloc
        | ok l =>
          cases hk : parseField c!"column" e with
          | error e => simp [hl, hk, Except.map, bind, Except.bind] at hloc
          | ok k =>
            simp [hl, hk, Except.map, bind, Except.bind, pure, Except.pure] at hloc
            subst hloc
            obtain ⟨g1, g2⟩ := parseField_ok hd hl
            obtain ⟨g3, g4⟩ := parseField_ok he hk
            exact ⟨hne, hnl, d, e, by rw [hfile, h1]; simp, g1, g2, g3, g4⟩

/-- Leading zeros and a third number, and a number that does not fit. -/
example : Location.parse .ascii c!"f:1:007:10" = .ok (.ok ⟨c!"f:1", some (.lineAndColumn 7 10)⟩) ∧
    Location.parse .ascii c!"f:99999999999999999999" = .ok (.error
      c!"Error parsing line 99999999999999999999: number too large to fit in target type") := by
  decide +kernel

/-! ## C87 -/

theorem notation_value {d : Str} {n : Nat} (h : Notation d n) : Nat.ofDigitChars 10 d 0 = n := by
  obtain ⟨k, rfl⟩ := h
  induction k with
  | zero => exact Nat.ofDigitChars_ten_toDigits
  | succ k ih => rw [List.replicate_succ, List.cons_append, Nat.ofDigitChars_cons]; exact ih

theorem notation_isDigit {d : Str} {n : Nat} (h : Notation d n) : ∀ c ∈ d, c.isDigit = true := by
  obtain ⟨k, rfl⟩ := h
  intro c hc
  rcases List.mem_append.1 hc with hc | hc
  · rw [(List.mem_replicate.1 hc).2]; rfl
  · exact Nat.isDigit_of_mem_toDigits (by decide) (by decide) hc

theorem readDigits_append {p r : Str} {m : Nat} : readDigits m (p ++ r) = (readDigits m p).bind (fun n => readDigits n r) := by
  induction p generalizing m with
  | nil => rfl
  | cons c p ih =>
    simp only [List.cons_append, readDigits]
    split
    · split
      · exact ih
      · rfl
    · rfl

theorem readDigits_large {p : Str} {m : Nat} (hd : ∀ c ∈ p, c.isDigit = true) (h : usizeMax < Nat.ofDigitChars 10 p m)
    (hm : m ≤ usizeMax) : readDigits m p = .error c!"number too large to fit in target type" := by
  induction p generalizing m with
  | nil => simp at h; omega
  | cons c p ih =>
    unfold readDigits
    rw [if_pos (hd c (by simp))]
    split
    · rename_i hle
      refine ih (fun c hc => hd c (by simp [hc])) ?_ hle
      rwa [Nat.ofDigitChars_cons, Nat.mul_comm] at h
    · rfl

theorem readDigits_error {d : Str} {m : Nat} {e : Str} (hm : m ≤ usizeMax) (h : readDigits m d = .error e) :
    (e = c!"number too large to fit in target type" ∧ ∃ p r, d = p ++ r ∧ p ≠ [] ∧ (∀ c ∈ p, c.isDigit = true) ∧
      usizeMax < Nat.ofDigitChars 10 p m) ∨
    (e = c!"invalid digit found in string" ∧ ∃ p c r, d = p ++ c :: r ∧ (∀ c ∈ p, c.isDigit = true) ∧
      Nat.ofDigitChars 10 p m ≤ usizeMax ∧ c.isDigit = false) := by
  induction d generalizing m with
  | nil => cases h
  | cons c t ih =>
    unfold readDigits at h
    have hcons : ∀ p, Nat.ofDigitChars 10 (c :: p) m = Nat.ofDigitChars 10 p (m * 10 + (c.toNat - '0'.toNat)) := by
      intro p; rw [Nat.ofDigitChars_cons, Nat.mul_comm]
    split at h
    · rename_i hc
      split at h
      · rename_i hle
        rcases ih hle h with ⟨he, p, r, h1, _, h3, h4⟩ | ⟨he, p, x, r, h1, h2, h3, h4⟩
        · exact .inl ⟨he, c :: p, r, by simp [h1], by simp, by simpa [hc] using h3, by rwa [hcons]⟩
        · exact .inr ⟨he, c :: p, x, r, by simp [h1], by simpa [hc] using h2, by rwa [hcons], h4⟩
      · rename_i hle
        cases h
        exact .inl ⟨rfl, [c], t, by simp, by simp, by simpa using hc, by rw [hcons]; simp; simp at hle; omega⟩
    · rename_i hc
      cases h
      exact .inr ⟨rfl, [], c, t, by simp, by simp, by simpa using hm, by simpa using hc⟩

theorem count_iff {U : Unicode} {d : Str} (hd : Digits U d) (r : Except Str Nat) : parseUsize d = r ↔ Count d r := by
  rw [parseUsize_digits hd]
  have hmax : ∀ n, n ≤ usizeMax ↔ n < 2 ^ 64 := by intro n; unfold usizeMax; omega
  constructor
  · rintro rfl
    cases h : readDigits 0 d with
    | ok n =>
      obtain ⟨h1, rfl, h2⟩ := readDigits_ok.1 h
      exact .ok (notation_of_digits d hd.1 h1) ((hmax _).1 (h2.resolve_left hd.1))
    | error e =>
      rcases readDigits_error (by decide) h with ⟨rfl, p, r, h1, h2, h3, h4⟩ | ⟨rfl, p, c, r, h1, h2, h3, h4⟩
      · exact .large h1 (notation_of_digits p h2 h3) (by rw [← Nat.not_lt, ← hmax]; omega)
      · refine .foreign h1 ?_ h4
        by_cases hp : p = []
        · exact .inl hp
        · exact .inr ⟨_, notation_of_digits p hp h2, (hmax _).1 h3⟩
  · intro h
    cases h with
    | ok h1 h2 => exact readDigits_ok.2 ⟨notation_isDigit h1, notation_value h1, .inr ((hmax _).2 h2)⟩
    | large h1 h2 h3 =>
      rw [h1, readDigits_append, readDigits_large (notation_isDigit h2) (by
        rw [notation_value h2, ← Nat.not_le, hmax]; omega) (by decide)]
      rfl
    | @foreign p c r h1 h2 h3 =>
      have hp : ∃ n, readDigits 0 p = .ok n := by
        rcases h2 with rfl | ⟨n, h2, h4⟩
        · exact ⟨0, rfl⟩
        · exact ⟨n, readDigits_ok.2 ⟨notation_isDigit h2, notation_value h2, .inr ((hmax _).2 h4)⟩⟩
      obtain ⟨n, hn⟩ := hp
      rw [h1, readDigits_append, hn]
      show readDigits n (c :: r) = _
      unfold readDigits
      simp [h3]

section
variable {U : Unicode} {f : Str} (hf : f ≠ []) (hn : '\n' ∉ f)
include hf hn

theorem locGroups_key {suffix : Str} {fs : List (Nat × Str)} (hs : posFields U suffix = some fs)
    (hx : ∀ x y, f = y ++ x → x ≠ [] → y ≠ [] → posFields U (x ++ suffix) = none) :
    locGroups U (f ++ suffix) = some (f, fs) := by
  cases f with
  | nil => exact absurd rfl hf
  | cons c t =>
    have hc : c ≠ '\n' := by intro h; exact hn (by simp [h])
    have ht : '\n' ∉ t := fun h => hn (by simp [h])
    unfold locGroups
    simp only [List.cons_append, hc, if_false]
    rw [locSplit_eq hs ht]
    · rfl
    · intro t1 t2 h h2
      exact hx t2 (c :: t1) (by simp [h]) h2 (by simp)

theorem locGroups_file (he : ¬ EndsInField U f) : locGroups U f = some (f, []) := by
  have := locGroups_key (U := U) hf hn (suffix := []) (fs := []) rfl (by
    intro x y hxy hx hy
    cases hq : posFields U (x ++ []) with
    | none => rfl
    | some q =>
      rw [List.append_nil] at hq
      rcases (posFields_iff U _ _).1 hq with ⟨h, _⟩ | ⟨d, hd, h, _⟩ | ⟨d, e, hd, he', h, _⟩
      · exact absurd h hx
      · exact absurd ⟨y, d, hy, hd, by rw [hxy, h]⟩ he
      · exact absurd ⟨y ++ ':' :: d, e, by simp, he', by rw [hxy, h]; simp⟩ he)
  rwa [List.append_nil] at this

theorem locGroups_line {d : Str} (he : ¬ EndsInField U f) (hd : Digits U d) :
    locGroups U (f ++ ':' :: d) = some (f, [(2, d)]) := by
  refine locGroups_key hf hn ((posFields_iff U _ _).2 (.inr (.inl ⟨d, hd, rfl, rfl⟩))) ?_
  intro x y hxy hx hy
  cases hq : posFields U (x ++ ':' :: d) with
  | none => rfl
  | some q =>
    rcases (posFields_iff U _ _).1 hq with ⟨h, _⟩ | ⟨d', hd', h, _⟩ | ⟨d', e, hd', he', h, _⟩
    · simp at h
    · exact absurd (colon_split (a := x) (d := []) hd.noColon hd'.noColon h).1 hx
    · have := (colon_split (d := ':' :: d') hd.noColon he'.noColon (by simpa using h)).1
      exact absurd ⟨y, d', hy, hd', by rw [hxy, this]⟩ he

theorem locGroups_column {d e : Str} (hd : Digits U d) (he : Digits U e) :
    locGroups U (f ++ ':' :: (d ++ ':' :: e)) = some (f, [(3, e), (2, d)]) := by
  refine locGroups_key hf hn ((posFields_iff U _ _).2 (.inr (.inr ⟨d, e, hd, he, rfl, rfl⟩))) ?_
  intro x y hxy hx hy
  cases hq : posFields U (x ++ ':' :: (d ++ ':' :: e)) with
  | none => rfl
  | some q =>
    rcases (posFields_iff U _ _).1 hq with ⟨h, _⟩ | ⟨d', hd', h, _⟩ | ⟨d', e', hd', he', h, _⟩
    · simp at h
    · have := (colon_split (a := x ++ ':' :: d) (d := []) he.noColon hd'.noColon (by simpa using h)).1
      simp at this
    · have := (colon_split (a := x ++ ':' :: d) (d := ':' :: d') he.noColon he'.noColon (by simpa using h)).1
      cases x with
      | nil => exact absurd rfl hx
      | cons z x =>
        simp at this
        exact absurd (by rw [← this.2]; simp) hd'.noColon

end

theorem locGroups_invalid {U : Unicode} {s : Str} (h : s = [] ∨ '\n' ∈ s) : locGroups U s = none := by
  cases s with
  | nil => rfl
  | cons c t =>
    show (if c = '\n' then none else locSplit U [c] t) = none
    split
    · rfl
    · rename_i hc
      cases hq : locSplit U [c] t with
      | none => rfl
      | some p =>
        obtain ⟨t1, t2, h1, _, h3, h4, _⟩ := locSplit_spec hq
        have hdig : ∀ d, Digits U d → '\n' ∉ d := by
          intro d hd hm
          have := hd.2 _ hm
          rw [U.digit_ascii _ (by decide)] at this
          exact absurd this (by decide)
        have h2 : '\n' ∉ t2 := by
          rcases (posFields_iff U _ _).1 h3 with ⟨rfl, _⟩ | ⟨d, hd, rfl, _⟩ | ⟨d, e, hd, he, rfl, _⟩
          · simp
          · simpa using hdig d hd
          · simpa using ⟨hdig d hd, hdig e he⟩
        rcases h with h | h
        · cases h
        · rcases List.mem_cons.1 h with h | h
          · exact absurd h.symm hc
          · rw [h1] at h
            rcases List.mem_append.1 h with h | h
            · exact absurd h h4
            · exact absurd h h2

/-- **C87** What reading a location gives: the location or the message. -/
theorem C87_location (U : Unicode) (s : Str) (r : Except Str Location) :
    Location.parse U s = .ok r ↔ LocationText U s r := by
  have hfield : ∀ {what d : Str} {r : Except Str Nat}, Digits U d → Count d r → parseField what d =
      (match r with
        | .ok n => .ok n
        | .error e => .error (c!"Error parsing " ++ what ++ c!" " ++ d ++ c!": " ++ e)) := by
    intro what d r hd hc
    unfold parseField
    rw [(count_iff hd r).2 hc]
    cases r <;> rfl
  have back : ∀ r, LocationText U s r → Location.parse U s = .ok r := by
    intro r h
    rw [location_parse_eq]
    cases h with
    | invalid h => rw [locGroups_invalid h]
    | file h1 h2 h3 => rw [locGroups_file h1 h2 h3]; rfl
    | @line f d n h1 h2 h3 h4 h5 h6 =>
      rw [h1, show f ++ c!":" ++ d = f ++ ':' :: d by simp, locGroups_line h2 h3 h4 h5]
      show Except.ok (Except.map _ (parsePos (some d) none)) = _
      unfold parsePos
      simp only [hfield h5 h6]
      rfl
    | @badLine f d e h1 h2 h3 h4 h5 h6 =>
      rw [h1, show f ++ c!":" ++ d = f ++ ':' :: d by simp, locGroups_line h2 h3 h4 h5]
      show Except.ok (Except.map _ (parsePos (some d) none)) = _
      unfold parsePos
      simp only [hfield h5 h6]
      rfl
    | @column f d e n k h1 h2 h3 h4 h5 h6 h7 =>
      rw [h1, show f ++ c!":" ++ d ++ c!":" ++ e = f ++ ':' :: (d ++ ':' :: e) by simp, locGroups_column h2 h3 h4 h5]
      show Except.ok (Except.map _ (parsePos (some d) (some e))) = _
      unfold parsePos
      simp only [hfield h4 h6, hfield h5 h7]
      rfl
    | @badLineOfColumn f d e m h1 h2 h3 h4 h5 h6 =>
      rw [h1, show f ++ c!":" ++ d ++ c!":" ++ e = f ++ ':' :: (d ++ ':' :: e) by simp, locGroups_column h2 h3 h4 h5]
      show Except.ok (Except.map _ (parsePos (some d) (some e))) = _
      unfold parsePos
      simp only [hfield h4 h6]
      rfl
    | @badColumn f d e n m h1 h2 h3 h4 h5 h6 h7 =>
      rw [h1, show f ++ c!":" ++ d ++ c!":" ++ e = f ++ ':' :: (d ++ ':' :: e) by simp, locGroups_column h2 h3 h4 h5]
      show Except.ok (Except.map _ (parsePos (some d) (some e))) = _
      unfold parsePos
      simp only [hfield h4 h6, hfield h5 h7]
      rfl
  have total : ∃ r, LocationText U s r := by
    by_cases h0 : s = [] ∨ '\n' ∈ s
    · exact ⟨_, .invalid h0⟩
    rw [not_or] at h0
    by_cases h1 : EndsInField U s
    · obtain ⟨f, d, hf, hd, rfl⟩ := h1
      have hn : '\n' ∉ f := fun h => h0.2 (by simp [h])
      have hcd := (count_iff hd _).1 rfl
      by_cases h2 : EndsInField U f
      · obtain ⟨f, d', hf', hd', rfl⟩ := h2
        have hn : '\n' ∉ f := fun h => hn (by simp [h])
        have hcd' := (count_iff hd' _).1 rfl
        have e : f ++ ':' :: d' ++ ':' :: d = f ++ c!":" ++ d' ++ c!":" ++ d := by simp
        cases hr' : parseUsize d' with
        | error m => exact ⟨_, .badLineOfColumn e hf' hn hd' hd (hr' ▸ hcd')⟩
        | ok n =>
          cases hr : parseUsize d with
          | error m => exact ⟨_, .badColumn e hf' hn hd' hd (hr' ▸ hcd') (hr ▸ hcd)⟩
          | ok k => exact ⟨_, .column e hf' hn hd' hd (hr' ▸ hcd') (hr ▸ hcd)⟩
      · have e : f ++ ':' :: d = f ++ c!":" ++ d := by simp
        cases hr : parseUsize d with
        | error m => exact ⟨_, .badLine e hf hn h2 hd (hr ▸ hcd)⟩
        | ok k => exact ⟨_, .line e hf hn h2 hd (hr ▸ hcd)⟩
    · exact ⟨_, .file h0.1 h0.2 h1⟩
  constructor
  · intro h
    obtain ⟨r', hr⟩ := total
    have := (back r' hr).symm.trans h
    cases this
    exact hr
  · exact back r

example : LocationText .ascii c!"a:7" (.ok ⟨c!"a", some (.line 7)⟩) ∧
    LocationText .ascii c!"a:b" (.ok ⟨c!"a:b", none⟩) ∧
    LocationText .ascii c!":7" (.ok ⟨c!":7", none⟩) ∧
    LocationText .ascii c!"a:18446744073709551616:1" (.error
      c!"Error parsing line 18446744073709551616: number too large to fit in target type") := by
  simp only [← C87_location]
  decide +kernel

/-! ## C49 -/

/-- **C49** as listed. -/
def C49_statement : Prop :=
  (∀ a b : LocationInFile, b.partialCmp a = (a.partialCmp b).map Ordering.swap) ∧
  (∀ a b c : LocationInFile, ∀ o, a.partialCmp b = some o → b.partialCmp c = some o →
    a.partialCmp c = some o) ∧
  (∀ a b : LocationInFile, a.partialCmp b = some .eq ↔ a = b)

/-- **C49** is false as listed: a line equals its column 0. -/
theorem C49_false : ¬ C49_statement := by
  rintro ⟨_, _, h⟩
  have := (h (.line 5) (.lineAndColumn 5 0)).1 (by decide)
  cases this

theorem pair_cmp_swap (a b : Nat × Nat) : compare b a = (compare a b).swap :=
  Std.OrientedOrd.eq_swap

/-- **C49**, swapping the arguments reverses the result. -/
theorem C49_swap_partial (a b : LocationInFile) :
    b.partialCmp a = (a.partialCmp b).map Ordering.swap := by
  cases a <;> cases b <;> simp only [LocationInFile.partialCmp, Option.map_some, Option.map_none,
    Option.some.injEq]
  · exact Std.OrientedOrd.eq_swap
  · exact Std.OrientedOrd.eq_swap
  · exact Std.OrientedOrd.eq_swap
  · exact Std.OrientedOrd.eq_swap
  · exact Std.OrientedOrd.eq_swap

/-- The place of a position as a number pair, or its text. -/
def LocationInFile.key : LocationInFile → (Nat × Nat) ⊕ Str
  | .line l => .inl (l, 0)
  | .lineAndColumn l c => .inl (l, c)
  | .string s => .inr s

theorem partialCmp_key (a b : LocationInFile) : a.partialCmp b = match a.key, b.key with
    | .inl p, .inl q => some (compare p q)
    | .inr s, .inr t => some (compare s t)
    | _, _ => none := by
  cases a <;> cases b <;> simp only [LocationInFile.partialCmp, LocationInFile.key]
  rename_i l l'
  have : compare (l, 0) (l', 0) = (compare l l').then (compare 0 0) := rfl
  rw [this]
  simp

/-- **C49**, transitivity. -/
theorem C49_trans_partial (a b c : LocationInFile) (o : Ordering) (h1 : a.partialCmp b = some o)
    (h2 : b.partialCmp c = some o) : a.partialCmp c = some o := by
  rw [partialCmp_key] at h1 h2 ⊢
  have tr : ∀ {α : Type} [Ord α] [Std.TransOrd α] {x y z : α}, compare x y = o → compare y z = o →
      compare x z = o := by
    intro α _ _ x y z h1 h2
    cases o with
    | lt => exact Std.TransCmp.lt_trans h1 h2
    | eq => exact Std.TransCmp.eq_trans h1 h2
    | gt => exact Std.TransCmp.gt_trans h1 h2
  cases ha : a.key <;> cases hb : b.key <;> cases hc : c.key <;>
    simp only [ha, hb, hc, Option.some.injEq, reduceCtorEq] at h1 h2 ⊢
  · exact tr h1 h2
  · exact tr h1 h2

/-- **C49**, two positions compare equal exactly when they denote the same place, where a line is
its column 0.  What is missing to the listed claim: `Line(l)` and `LineAndColumn(l, 0)` are not
equal. -/
theorem C49_equal_partial (a b : LocationInFile) : a.partialCmp b = some .eq ↔ samePlace a b := by
  rw [partialCmp_key]
  cases a <;> cases b <;> simp [LocationInFile.key, samePlace, Std.LawfulEqOrd.compare_eq_iff_eq]
  exact fun _ => eq_comm

/-- **C49**, only a position given as text cannot be compared with one given as numbers. -/
theorem C49_comparable (a b : LocationInFile) : a.partialCmp b = none ↔
    ((∃ s, a = .string s) ∧ (∀ s, b ≠ .string s)) ∨ ((∀ s, a ≠ .string s) ∧ ∃ s, b = .string s) := by
  cases a <;> cases b <;> simp [LocationInFile.partialCmp]

example : LocationInFile.partialCmp (.lineAndColumn 3 9) (.line 4) = some .lt := by decide

end Reqtrace
