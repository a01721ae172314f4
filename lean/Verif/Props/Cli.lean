import Verif.Spec.Cli
import Verif.Props.Run

/-!
# C102 to C105: the command line
-/

namespace Reqtrace

open Spec Spec.CliText Cli

namespace CliProof

/-! ## What the items do -/

def applyItem (s : Seen) : CliText.Item → Option Seen
  | .quiet => setQuiet s
  | .value o v => setOpt s o v
  | .job n => some { s with jobs := s.jobs ++ [n] }

def applyItems : Seen → List CliText.Item → Option Seen
  | s, [] => some s
  | s, i :: is => (applyItem s i).bind fun s => applyItems s is

theorem applyItems_append (s : Seen) (is js : List CliText.Item) :
    applyItems s (is ++ js) = (applyItems s is).bind fun s => applyItems s js := by
  induction is generalizing s with
  | nil => rfl
  | cons i is ih =>
    simp only [List.cons_append, applyItems, Option.bind_assoc]
    congr 1
    funext s
    exact ih s

theorem applyItems_jobs (s : Seen) (js : List Str) :
    applyItems s (js.map .job) = some { s with jobs := s.jobs ++ js } := by
  induction js generalizing s with
  | nil => simp [applyItems]
  | cons j js ih => simp [applyItems, applyItem, ih]

/-- All that the items say. -/
def sayOf (is : List CliText.Item) : Seen :=
  ⟨decide (.quiet ∈ is), (valuesOf .logLevel is).head?, (valuesOf .config is).head?, (valuesOf .base is).head?, jobsOf is⟩

theorem says_iff {is : List CliText.Item} {s : Seen} : Says is s ↔ s = sayOf is := by
  constructor
  · rintro ⟨h1, h2, h3, h4, h5⟩
    obtain ⟨q, l, c, b, j⟩ := s
    simp only at h1 h2 h3 h4 h5
    simp only [sayOf, Seen.mk.injEq, h2, h3, h4, h5, and_true]
    rw [Bool.eq_iff_iff, h1, decide_eq_true_iff]
  · rintro rfl
    exact ⟨by simp [sayOf], rfl, rfl, rfl, rfl⟩

theorem valuesOf_append (o : Opt) (is js : List CliText.Item) : valuesOf o (is ++ js) = valuesOf o is ++ valuesOf o js := by
  simp [valuesOf]

theorem jobsOf_append (is js : List CliText.Item) : jobsOf (is ++ js) = jobsOf is ++ jobsOf js := by
  simp [jobsOf]

theorem consistent_left {is js : List CliText.Item} (h : Consistent (is ++ js)) : Consistent is := by
  refine ⟨?_, ?_, ?_⟩
  · have := h.quiet
    rw [List.count_append] at this
    omega
  · intro o
    have := h.once o
    rw [valuesOf_append, List.length_append] at this
    omega
  · intro v hv
    exact h.paths v (by rcases hv with hv | hv <;> simp [hv])

theorem consistent_job {is : List CliText.Item} {n : Str} : Consistent (is ++ [.job n]) ↔ Consistent is := by
  refine ⟨consistent_left, fun h => ⟨?_, ?_, ?_⟩⟩
  · simpa [List.count_append, List.count_cons] using h.quiet
  · intro o; simpa [valuesOf] using h.once o
  · intro v hv; exact h.paths v (by simpa using hv)

theorem consistent_quiet {is : List CliText.Item} : Consistent (is ++ [.quiet]) ↔ Consistent is ∧ .quiet ∉ is := by
  constructor
  · intro h
    refine ⟨consistent_left h, ?_⟩
    have := h.quiet
    simp only [List.count_append, List.count_cons_self, List.count_nil] at this
    exact fun hm => by have := List.count_pos_iff.2 hm; omega
  · rintro ⟨h, hn⟩
    refine ⟨?_, ?_, ?_⟩
    · simp [List.count_append, List.count_eq_zero.2 hn]
    · intro o; simpa [valuesOf] using h.once o
    · intro v hv; exact h.paths v (by simpa using hv)

theorem consistent_value {is : List CliText.Item} {o : Opt} {v : Str} : Consistent (is ++ [.value o v]) ↔
    Consistent is ∧ valuesOf o is = [] ∧ (o ≠ .logLevel → v ≠ []) := by
  constructor
  · intro h
    refine ⟨consistent_left h, ?_, ?_⟩
    · have := h.once o
      simp only [valuesOf_append, List.length_append] at this
      have h1 : valuesOf o [CliText.Item.value o v] = [v] := by simp [valuesOf]
      rw [h1, List.length_singleton] at this
      exact List.length_eq_zero_iff.1 (by omega)
    · intro ho
      refine h.paths v ?_
      cases o with
      | logLevel => exact absurd rfl ho
      | config => simp
      | base => simp
  · rintro ⟨h, h1, h2⟩
    refine ⟨?_, ?_, ?_⟩
    · simpa [List.count_append, List.count_cons] using h.quiet
    · intro p
      by_cases hp : o = p
      · subst hp
        simp [valuesOf_append, h1]
        simp [valuesOf]
      · have : valuesOf p [CliText.Item.value o v] = [] := by simp [valuesOf, hp]
        rw [valuesOf_append, this, List.append_nil]
        exact h.once p
    · intro u hu
      simp only [List.mem_append, List.mem_singleton, CliText.Item.value.injEq] at hu
      rcases hu with (hu | ⟨rfl, rfl⟩) | (hu | ⟨rfl, rfl⟩)
      · exact h.paths u (.inl hu)
      · exact h2 (by simp)
      · exact h.paths u (.inr hu)
      · exact h2 (by simp)

theorem nil_or_cons {α : Type} (l : List α) : l = [] ∨ ∃ a t, l = a :: t := by
  cases l with
  | nil => exact .inl rfl
  | cons a t => exact .inr ⟨a, t, rfl⟩

theorem snoc_ind {p : List CliText.Item → Prop} (h0 : p []) (h1 : ∀ is i, p is → p (is ++ [i])) (is : List CliText.Item) : p is := by
  rw [← List.reverse_reverse is]
  generalize is.reverse = r
  induction r with
  | nil => exact h0
  | cons i r ih => rw [List.reverse_cons]; exact h1 _ _ ih

theorem applyItems_empty (is : List CliText.Item) (s : Seen) :
    applyItems .empty is = some s ↔ Consistent is ∧ s = sayOf is := by
  induction is using snoc_ind generalizing s with
  | h0 =>
    simp only [applyItems, Option.some.injEq]
    constructor
    · rintro rfl
      exact ⟨⟨by simp, by simp [valuesOf], by simp⟩, by decide +kernel⟩
    · rintro ⟨_, rfl⟩
      decide +kernel
  | h1 is i ih =>
    have key : applyItems .empty (is ++ [i]) = some s ↔ Consistent is ∧ applyItem (sayOf is) i = some s := by
      rw [applyItems_append, Option.bind_eq_some_iff]
      constructor
      · rintro ⟨s1, h1, h2⟩
        obtain ⟨h3, rfl⟩ := (ih s1).1 h1
        refine ⟨h3, ?_⟩
        simp only [applyItems] at h2
        cases hx : applyItem (sayOf is) i with
        | none => rw [hx] at h2; cases h2
        | some x => rw [hx] at h2; simpa using h2
      · rintro ⟨h1, h2⟩
        exact ⟨_, (ih _).2 ⟨h1, rfl⟩, by simp [applyItems, h2]⟩
    rw [key]
    cases i with
    | quiet =>
      rw [consistent_quiet, and_assoc]
      refine and_congr_right fun _ => ?_
      simp only [applyItem, setQuiet, sayOf]
      by_cases hq : CliText.Item.quiet ∈ is
      · simp [hq]
      · simp [hq, valuesOf, jobsOf, eq_comm]
    | job n =>
      rw [consistent_job]
      refine and_congr_right fun _ => ?_
      simp [applyItem, sayOf, valuesOf, jobsOf, eq_comm]
    | value o v =>
      rw [consistent_value, and_assoc]
      refine and_congr_right fun _ => ?_
      have hj : jobsOf (is ++ [.value o v]) = jobsOf is := by simp [jobsOf]
      have hq : (CliText.Item.quiet ∈ is ++ [.value o v]) ↔ CliText.Item.quiet ∈ is := by simp
      have hv : valuesOf o (is ++ [.value o v]) = valuesOf o is ++ [v] := by simp [valuesOf]
      have hv' : ∀ p, p ≠ o → valuesOf p (is ++ [.value o v]) = valuesOf p is := by
        intro p hp
        simp [valuesOf, Ne.symm hp]
      simp only [applyItem]
      cases o with
      | logLevel =>
        simp only [setOpt, sayOf, hj, hq, hv, hv' .config (by simp), hv' .base (by simp), ne_eq, not_true_eq_false, false_implies,
          and_true]
        rcases nil_or_cons (valuesOf .logLevel is) with hx | ⟨a, t, hx⟩
        · simp [hx, eq_comm]
        · simp [hx]
      | config =>
        simp only [setOpt, sayOf, hj, hq, hv, hv' .logLevel (by simp), hv' .base (by simp), ne_eq, reduceCtorEq, not_false_eq_true,
          forall_const]
        rcases nil_or_cons (valuesOf .config is) with hx | ⟨a, t, hx⟩
        · cases v <;> simp [hx, eq_comm]
        · simp [hx]
      | base =>
        simp only [setOpt, sayOf, hj, hq, hv, hv' .logLevel (by simp), hv' .config (by simp), ne_eq, reduceCtorEq, not_false_eq_true,
          forall_const]
        rcases nil_or_cons (valuesOf .base is) with hx | ⟨a, t, hx⟩
        · cases v <;> simp [hx, eq_comm]
        · simp [hx]

/-! ## Reading -/

theorem shortKey_cases (c : Char) : (c = 'q' ∧ shortKey c = some .quiet) ∨ (∃ o, c = letter o ∧ shortKey c = some (.opt o)) ∨
    (c = 'h' ∧ shortKey c = some .help) ∨ (c = 'V' ∧ shortKey c = some .version) ∨ shortKey c = none := by
  unfold shortKey
  split
  · exact .inl ⟨rfl, rfl⟩
  · exact .inr (.inl ⟨.logLevel, rfl, rfl⟩)
  · exact .inr (.inl ⟨.config, rfl, rfl⟩)
  · exact .inr (.inl ⟨.base, rfl, rfl⟩)
  · exact .inr (.inr (.inl ⟨rfl, rfl⟩))
  · exact .inr (.inr (.inr (.inl ⟨rfl, rfl⟩)))
  · exact .inr (.inr (.inr (.inr rfl)))

theorem shortKey_letter (o : Opt) : shortKey (letter o) = some (.opt o) := by cases o <;> rfl

theorem attached_ne {v : Str} (h : v.head? ≠ some '=') : attached v = v := by
  unfold attached
  split
  · simp at h
  · rfl

theorem shorts_letters {t : Str} {is : List CliText.Item} {p : Option Opt} (h : Letters t is p) : ∀ {s s' : Seen},
    applyItems s is = some s' → readShorts s t = .inr (s', p) := by
  induction h with
  | nil => intro s s' h; simp only [applyItems, Option.some.injEq] at h; subst h; rfl
  | quiet _ ih =>
    intro s s' h
    simp only [applyItems, applyItem, Option.bind_eq_some_iff] at h
    obtain ⟨s1, h1, h2⟩ := h
    simp only [readShorts, shortKey, h1]
    exact ih h2
  | value o hv hne =>
    intro s s' h
    simp only [applyItems, applyItem, Option.bind_eq_some_iff, Option.some.injEq, exists_eq_right] at h
    simp only [readShorts, shortKey_letter, if_neg hv, attached_ne hne, h]
  | equals o v =>
    intro s s' h
    simp only [applyItems, applyItem, Option.bind_eq_some_iff, Option.some.injEq, exists_eq_right] at h
    simp only [readShorts, shortKey_letter, attached, h]
    rfl
  | waiting o =>
    intro s s' h
    simp only [applyItems, Option.some.injEq] at h
    simp only [readShorts, shortKey_letter, if_true, h]

/-- What the letters behind a dash can lead to. -/
theorem shorts_cases (t : Str) : ∀ s : Seen, (∃ is p s', Letters t is p ∧ applyItems s is = some s' ∧ readShorts s t = .inr (s', p)) ∨
    readShorts s t = .inl .usage ∨
    (∃ n more s', t = List.replicate n 'q' ++ 'h' :: more ∧ applyItems s (List.replicate n .quiet) = some s' ∧
      readShorts s t = .inl (.help false)) ∨
    (∃ n more s', t = List.replicate n 'q' ++ 'V' :: more ∧ applyItems s (List.replicate n .quiet) = some s' ∧
      readShorts s t = .inl .version) := by
  induction t with
  | nil => intro s; exact .inl ⟨[], none, s, .nil, rfl, rfl⟩
  | cons c t ih =>
    intro s
    rcases shortKey_cases c with ⟨rfl, hk⟩ | ⟨o, rfl, hk⟩ | ⟨rfl, hk⟩ | ⟨rfl, hk⟩ | hk
    · cases hq : setQuiet s with
      | none => exact .inr (.inl (by simp [readShorts, hk, hq]))
      | some s1 =>
        have e : readShorts s ('q' :: t) = readShorts s1 t := by simp [readShorts, hk, hq]
        rw [e]
        rcases ih s1 with ⟨is, p, s', h1, h2, h3⟩ | h | ⟨n, more, s', rfl, h2, h3⟩ | ⟨n, more, s', rfl, h2, h3⟩
        · exact .inl ⟨_, p, s', .quiet h1, by simp [applyItems, applyItem, hq, h2], h3⟩
        · exact .inr (.inl h)
        · exact .inr (.inr (.inl ⟨n + 1, more, s', rfl, by simp [List.replicate_succ, applyItems, applyItem, hq, h2], h3⟩))
        · exact .inr (.inr (.inr ⟨n + 1, more, s', rfl, by simp [List.replicate_succ, applyItems, applyItem, hq, h2], h3⟩))
    · by_cases ht : t = []
      · subst ht
        exact .inl ⟨[], some o, s, .waiting o, rfl, by simp [readShorts, hk]⟩
      · cases hs : setOpt s o (attached t) with
        | none => exact .inr (.inl (by simp [readShorts, hk, ht, hs]))
        | some s1 =>
          refine .inl ⟨[.value o (attached t)], none, s1, ?_, by simp [applyItems, applyItem, hs], by simp [readShorts, hk, ht, hs]⟩
          by_cases he : t.head? = some '='
          · cases t with
            | nil => cases he
            | cons d t =>
              simp only [List.head?_cons, Option.some.injEq] at he
              subst he
              exact .equals o t
          · rw [attached_ne he]
            exact .value o ht he
    · exact .inr (.inr (.inl ⟨0, t, s, rfl, rfl, by simp [readShorts, hk]⟩))
    · exact .inr (.inr (.inr ⟨0, t, s, rfl, rfl, by simp [readShorts, hk]⟩))
    · exact .inr (.inl (by simp [readShorts, hk]))

theorem shorts_flag {x : Char} {r : Cli.Parsed} (hx : ∀ s more, readShorts s (x :: more) = .inl r) (n : Nat) (more : Str) :
    ∀ {s s' : Seen}, applyItems s (List.replicate n .quiet) = some s' →
      readShorts s (List.replicate n 'q' ++ x :: more) = .inl r := by
  induction n with
  | zero => intro s s' _; exact hx s more
  | succ n ih =>
    intro s s' h
    simp only [List.replicate_succ, applyItems, applyItem, Option.bind_eq_some_iff] at h
    obtain ⟨s1, h1, h2⟩ := h
    simp only [List.replicate_succ, List.cons_append, readShorts, shortKey, h1]
    exact ih h2

theorem splitEq_none {l : Str} (h : (splitEq l).2 = none) : (splitEq l).1 = l := by
  induction l with
  | nil => rfl
  | cons c t ih =>
    simp only [splitEq] at h ⊢
    split at h
    · cases h
    · rename_i hc
      simp only [if_neg hc]
      rw [ih h]

theorem splitEq_some {l v : Str} (h : (splitEq l).2 = some v) : l = (splitEq l).1 ++ '=' :: v := by
  induction l with
  | nil => cases h
  | cons c t ih =>
    simp only [splitEq] at h ⊢
    split at h
    · rename_i hc
      simp only [Option.some.injEq] at h
      simp [hc, h]
    · rename_i hc
      simp only [if_neg hc, List.cons_append]
      rw [← ih h]

theorem splitEq_plain {l : Str} (h : '=' ∉ l) : splitEq l = (l, none) := by
  induction l with
  | nil => rfl
  | cons c t ih =>
    simp only [List.mem_cons, not_or] at h
    simp only [splitEq, if_neg (Ne.symm h.1), ih h.2]

theorem splitEq_equals {l : Str} (v : Str) (h : '=' ∉ l) : splitEq (l ++ '=' :: v) = (l, some v) := by
  induction l with
  | nil => rfl
  | cons c t ih =>
    simp only [List.mem_cons, not_or] at h
    simp only [List.cons_append, splitEq, if_neg (Ne.symm h.1), ih h.2]

theorem longKey_name (o : Opt) : longKey (name o) = some (.opt o) := by cases o <;> decide +kernel

theorem longKey_cases (n : Str) : (n = c!"quiet" ∧ longKey n = some .quiet) ∨ (∃ o, n = name o ∧ longKey n = some (.opt o)) ∨
    (n = c!"help" ∧ longKey n = some .help) ∨ (n = c!"version" ∧ longKey n = some .version) ∨ longKey n = none := by
  by_cases h1 : n = c!"quiet"
  · subst h1; exact .inl ⟨rfl, rfl⟩
  by_cases h2 : n = c!"log-level"
  · subst h2; exact .inr (.inl ⟨.logLevel, rfl, rfl⟩)
  by_cases h3 : n = c!"config"
  · subst h3; exact .inr (.inl ⟨.config, rfl, rfl⟩)
  by_cases h4 : n = c!"base"
  · subst h4; exact .inr (.inl ⟨.base, rfl, rfl⟩)
  by_cases h5 : n = c!"help"
  · subst h5; exact .inr (.inr (.inl ⟨rfl, rfl⟩))
  by_cases h6 : n = c!"version"
  · subst h6; exact .inr (.inr (.inr (.inl ⟨rfl, rfl⟩)))
  exact .inr (.inr (.inr (.inr (by simp only [longKey, h1, h2, h3, h4, h5, h6, if_false]))))

theorem name_eq (o : Opt) : '=' ∉ name o := by cases o <;> decide +kernel

/-- What a word with two dashes can lead to. -/
theorem long_cases (s : Seen) (l : Str) :
    (l = c!"quiet" ∧ ∃ s', applyItem s .quiet = some s' ∧ readLong s l = .inr (s', none)) ∨
    (∃ o, l = name o ∧ readLong s l = .inr (s, some o)) ∨
    (∃ o v s', l = name o ++ '=' :: v ∧ applyItem s (.value o v) = some s' ∧ readLong s l = .inr (s', none)) ∨
    (l = c!"help" ∧ readLong s l = .inl (.help true)) ∨ (l = c!"version" ∧ readLong s l = .inl .version) ∨
    readLong s l = .inl .usage := by
  cases hv : (splitEq l).2 with
  | none =>
    have hl := splitEq_none hv
    rcases longKey_cases (splitEq l).1 with ⟨h, hk⟩ | ⟨o, h, hk⟩ | ⟨h, hk⟩ | ⟨h, hk⟩ | hk
    · cases hq : setQuiet s with
      | none => exact .inr (.inr (.inr (.inr (.inr (by simp [readLong, hk, hv, hq])))))
      | some s1 => exact .inl ⟨by rw [← hl, h], s1, hq, by simp [readLong, hk, hv, hq]⟩
    · exact .inr (.inl ⟨o, by rw [← hl, h], by simp [readLong, hk, hv]⟩)
    · exact .inr (.inr (.inr (.inl ⟨by rw [← hl, h], by simp [readLong, hk, hv]⟩)))
    · exact .inr (.inr (.inr (.inr (.inl ⟨by rw [← hl, h], by simp [readLong, hk, hv]⟩))))
    · exact .inr (.inr (.inr (.inr (.inr (by simp [readLong, hk])))))
  | some v =>
    have hl := splitEq_some hv
    rcases longKey_cases (splitEq l).1 with ⟨h, hk⟩ | ⟨o, h, hk⟩ | ⟨h, hk⟩ | ⟨h, hk⟩ | hk
    · exact .inr (.inr (.inr (.inr (.inr (by simp [readLong, hk, hv])))))
    · cases hs : setOpt s o v with
      | none => exact .inr (.inr (.inr (.inr (.inr (by simp [readLong, hk, hv, hs])))))
      | some s1 => exact .inr (.inr (.inl ⟨o, v, s1, by rw [← h]; exact hl, hs, by simp [readLong, hk, hv, hs]⟩))
    · exact .inr (.inr (.inr (.inr (.inr (by simp [readLong, hk, hv])))))
    · exact .inr (.inr (.inr (.inr (.inr (by simp [readLong, hk, hv])))))
    · exact .inr (.inr (.inr (.inr (.inr (by simp [readLong, hk])))))

theorem dashed_iff {w : Str} : dashed w = false ↔ PlainWord w := by
  unfold dashed PlainWord
  split
  · simp
  · rename_i h
    simp only [true_iff]
    cases w with
    | nil => exact .inr (by simp)
    | cons c t =>
      by_cases hc : c = '-'
      · subst hc
        cases t with
        | nil => exact .inl rfl
        | cons d t => exact absurd rfl (h d t)
      · exact .inr (by simp [hc])

/-- Reading a word that is no option. -/
theorem read_plain {w : Str} (h : PlainWord w) (s : Seen) (ws : List Str) :
    Cli.read s none (w :: ws) = Cli.read { s with jobs := s.jobs ++ [w] } none ws := by
  rcases h with rfl | h
  · rfl
  · rw [Cli.read] <;> (intros; subst_vars; first | exact absurd rfl (h _) | rfl)

theorem read_value {w : Str} (h : PlainWord w) {s s' : Seen} {o : Opt} (hs : setOpt s o w = some s') (ws : List Str) :
    Cli.read s (some o) (w :: ws) = Cli.read s' none ws := by
  simp [Cli.read, dashed_iff.2 h, hs]

theorem read_long {l : Str} (h : l ≠ []) (s : Seen) (ws : List Str) : Cli.read s none (('-' :: '-' :: l) :: ws) =
    match readLong s l with
    | .inl p => p
    | .inr (s, o) => Cli.read s o ws := by
  cases l with
  | nil => exact absurd rfl h
  | cons c t =>
    rw [Cli.read]
    all_goals first | rfl | (intro h'; cases h')

theorem read_short {c : Char} (h : c ≠ '-') (t : Str) (s : Seen) (ws : List Str) : Cli.read s none (('-' :: c :: t) :: ws) =
    match readShorts s (c :: t) with
    | .inl p => p
    | .inr (s, o) => Cli.read s o ws := by
  rw [Cli.read]
  all_goals first | exact h | rfl | (intros; contradiction)

theorem letters_head {t : Str} {is : List CliText.Item} {p : Option Opt} (h : Letters t is p) (ht : t ≠ []) :
    ∃ c u, t = c :: u ∧ c ≠ '-' := by
  cases h with
  | nil => exact absurd rfl ht
  | quiet => exact ⟨_, _, rfl, by decide⟩
  | value o => exact ⟨_, _, rfl, by cases o <;> decide⟩
  | equals o => exact ⟨_, _, rfl, by cases o <;> decide⟩
  | waiting o => exact ⟨_, _, rfl, by cases o <;> decide⟩

/-- Complete words do what their items say. -/
theorem read_words {ws : List Str} {is : List CliText.Item} (h : Words ws is) : ∀ {s s' : Seen} (rest : List Str),
    applyItems s is = some s' → Cli.read s none (ws ++ rest) = Cli.read s' none rest := by
  induction h with
  | nil => intro s s' rest h; simp only [applyItems, Option.some.injEq] at h; subst h; rfl
  | job hw _ ih =>
    intro s s' rest h
    simp only [applyItems, applyItem, Option.bind_some] at h
    rw [List.cons_append, read_plain hw]
    exact ih rest h
  | quiet _ ih =>
    intro s s' rest h
    simp only [applyItems, applyItem, Option.bind_eq_some_iff] at h
    obtain ⟨s1, h1, h2⟩ := h
    rw [List.cons_append, read_long (by simp)]
    have : readLong s c!"quiet" = .inr (s1, none) := by
      have e1 : longKey (splitEq c!"quiet").1 = some .quiet := by decide +kernel
      have e2 : (splitEq c!"quiet").2 = none := by decide +kernel
      simp only [readLong, e1, e2, h1]
    rw [this]
    exact ih rest h2
  | equals o v _ ih =>
    intro s s' rest h
    simp only [applyItems, applyItem, Option.bind_eq_some_iff] at h
    obtain ⟨s1, h1, h2⟩ := h
    have e : c!"--" ++ name o ++ c!"=" ++ v = '-' :: '-' :: (name o ++ '=' :: v) := by simp
    rw [List.cons_append, e, read_long (by simp)]
    have : readLong s (name o ++ '=' :: v) = .inr (s1, none) := by
      simp only [readLong, splitEq_equals v (name_eq o), longKey_name, h1]
    rw [this]
    exact ih rest h2
  | value o hv _ ih =>
    intro s s' rest h
    simp only [applyItems, applyItem, Option.bind_eq_some_iff] at h
    obtain ⟨s1, h1, h2⟩ := h
    have e : c!"--" ++ name o = '-' :: '-' :: name o := by simp
    rw [List.cons_append, e, read_long (by cases o <;> simp [name])]
    have : readLong s (name o) = .inr (s, some o) := by
      simp only [readLong, splitEq_plain (name_eq o), longKey_name]
    rw [this]
    simp only [List.cons_append]
    rw [read_value hv h1]
    exact ih rest h2
  | letters ht hl _ ih =>
    intro s s' rest h
    rw [applyItems_append, Option.bind_eq_some_iff] at h
    obtain ⟨s1, h1, h2⟩ := h
    obtain ⟨c, u, rfl, hc⟩ := letters_head hl ht
    rw [List.cons_append, read_short hc, shorts_letters hl h1]
    exact ih rest h2
  | lettersValue hl hv _ ih =>
    intro s s' rest h
    rw [applyItems_append, Option.bind_eq_some_iff] at h
    obtain ⟨s1, h1, h2⟩ := h
    simp only [applyItems, applyItem, Option.bind_eq_some_iff] at h2
    obtain ⟨s2, h2, h3⟩ := h2
    obtain ⟨c, u, rfl, hc⟩ := letters_head hl (by rintro rfl; cases hl)
    rw [List.cons_append, read_short hc, shorts_letters hl h1]
    simp only [List.cons_append]
    rw [read_value hv h2]
    exact ih rest h3

/-- Where and how the reading of words ends. -/
inductive Stops (s : Seen) : List Str → Cli.Parsed → Prop
  | done : Stops s [] (.run s)
  | dashes (js) : Stops s (c!"--" :: js) (.run { s with jobs := s.jobs ++ js })
  | usage (rest) : Stops s rest .usage
  | help (rest) : Stops s (c!"--help" :: rest) (.help true)
  | helpLetter {s'} (n more rest) : applyItems s (List.replicate n .quiet) = some s' →
      Stops s (('-' :: (List.replicate n 'q' ++ 'h' :: more)) :: rest) (.help false)
  | version (rest) : Stops s (c!"--version" :: rest) .version
  | versionLetter {s'} (n more rest) : applyItems s (List.replicate n .quiet) = some s' →
      Stops s (('-' :: (List.replicate n 'q' ++ 'V' :: more)) :: rest) .version

theorem read_stops (ws : List Str) : ∀ s : Seen, ∃ pre is s1 rest, ws = pre ++ rest ∧ Words pre is ∧ applyItems s is = some s1 ∧
    Stops s1 rest (Cli.read s none ws) := by
  suffices ∀ n (ws : List Str), ws.length ≤ n → ∀ s : Seen, ∃ pre is s1 rest, ws = pre ++ rest ∧ Words pre is ∧
      applyItems s is = some s1 ∧ Stops s1 rest (Cli.read s none ws) from this _ ws (Nat.le_refl _)
  intro n
  induction n with
  | zero =>
    intro ws hn s
    obtain rfl := List.length_eq_zero_iff.1 (Nat.le_zero.1 hn)
    exact ⟨[], [], s, [], rfl, .nil, rfl, .done⟩
  | succ n ih =>
    intro ws hn s
    have stop : ∀ rest, Stops s rest (Cli.read s none rest) → ws = rest → ∃ pre is s1 rest, ws = pre ++ rest ∧ Words pre is ∧
        applyItems s is = some s1 ∧ Stops s1 rest (Cli.read s none ws) := by
      rintro rest h rfl
      exact ⟨[], [], s, ws, rfl, .nil, rfl, h⟩
    have usage : Cli.read s none ws = .usage → ∃ pre is s1 rest, ws = pre ++ rest ∧ Words pre is ∧
        applyItems s is = some s1 ∧ Stops s1 rest (Cli.read s none ws) := by
      intro h
      exact ⟨[], [], s, ws, rfl, .nil, rfl, by rw [h]; exact .usage _⟩
    cases ws with
    | nil => exact stop [] .done rfl
    | cons w ws =>
      have hlen : ws.length ≤ n := by simpa using hn
      have waiting : ∀ {w' s1 as} (o : Opt), Cli.read s none (w :: ws) = Cli.read s1 (some o) ws →
          applyItems s as = some s1 → (∀ v vs is, ws = v :: vs → PlainWord v → ∀ pre, Words pre is →
            Words (w :: v :: pre) (as ++ CliText.Item.value o v :: is)) → w' = w →
          ∃ pre is s1 rest, w :: ws = pre ++ rest ∧ Words pre is ∧ applyItems s is = some s1 ∧
            Stops s1 rest (Cli.read s none (w :: ws)) := by
        rintro w' s1 as o h1 h2 h3 rfl
        cases ws with
        | nil => exact usage (by rw [h1]; rfl)
        | cons v vs =>
          by_cases hp : PlainWord v
          · cases hs : setOpt s1 o v with
            | none => exact usage (by rw [h1]; simp [Cli.read, dashed_iff.2 hp, hs])
            | some s2 =>
              obtain ⟨pre, is, s3, rest, k1, k2, k3, k4⟩ := ih vs (by simp at hlen; omega) s2
              refine ⟨w' :: v :: pre, as ++ .value o v :: is, s3, rest, by simp [k1], h3 v vs is rfl hp pre k2, ?_, ?_⟩
              · rw [applyItems_append, h2]
                simp [applyItems, applyItem, hs, k3]
              · rw [h1, read_value hp hs]; exact k4
          · refine usage ?_
            rw [h1]
            have : dashed v = true := by
              cases hd : dashed v with
              | true => rfl
              | false => exact absurd (dashed_iff.1 hd) hp
            simp [Cli.read, this]
      by_cases hp : PlainWord w
      · obtain ⟨pre, is, s1, rest, k1, k2, k3, k4⟩ := ih ws hlen { s with jobs := s.jobs ++ [w] }
        exact ⟨w :: pre, .job w :: is, s1, rest, by simp [k1], .job hp k2, by simp [applyItems, applyItem, k3],
          by rw [read_plain hp]; exact k4⟩
      · obtain ⟨c, t, rfl⟩ : ∃ c t, w = '-' :: c :: t := by
          cases hd : dashed w with
          | false => exact absurd (dashed_iff.1 hd) hp
          | true =>
            unfold dashed at hd
            split at hd
            · exact ⟨_, _, rfl⟩
            · cases hd
        by_cases hc : c = '-'
        · subst hc
          by_cases ht : t = []
          · subst ht
            exact stop _ (by rw [show Cli.read s none (['-', '-'] :: ws) = .run { s with jobs := s.jobs ++ ws } from rfl]; exact .dashes ws) rfl
          · have hr := read_long ht s ws
            rcases long_cases s t with ⟨rfl, s1, h1, h2⟩ | ⟨o, rfl, h2⟩ | ⟨o, v, s1, rfl, h1, h2⟩ | ⟨rfl, h2⟩ | ⟨rfl, h2⟩ | h2
            · rw [h2] at hr
              obtain ⟨pre, is, s2, rest, k1, k2, k3, k4⟩ := ih ws hlen s1
              exact ⟨_ :: pre, .quiet :: is, s2, rest, by simp [k1], .quiet k2, by simp [applyItems, h1, k3], by rw [hr]; exact k4⟩
            · rw [h2] at hr
              refine waiting (as := []) o hr rfl ?_ rfl
              intro v vs is _ hp pre hw
              exact .value o hp hw
            · rw [h2] at hr
              obtain ⟨pre, is, s2, rest, k1, k2, k3, k4⟩ := ih ws hlen s1
              refine ⟨('-' :: '-' :: (name o ++ '=' :: v)) :: pre, .value o v :: is, s2, rest, by simp [k1], ?_, by simp [applyItems, h1, k3], by rw [hr]; exact k4⟩
              have e : '-' :: '-' :: (name o ++ '=' :: v) = c!"--" ++ name o ++ c!"=" ++ v := by
                rw [List.append_assoc, List.append_assoc]; rfl
              have k := Words.equals o v k2
              rw [← e] at k
              exact k
            · rw [h2] at hr
              exact stop _ (by rw [hr]; exact .help ws) rfl
            · rw [h2] at hr
              exact stop _ (by rw [hr]; exact .version ws) rfl
            · rw [h2] at hr
              exact usage hr
        · have hr := read_short hc t s ws
          rcases shorts_cases (c :: t) s with ⟨as, p, s1, h1, h2, h3⟩ | h3 | ⟨m, more, s1, h1, h2, h3⟩ | ⟨m, more, s1, h1, h2, h3⟩
          · rw [h3] at hr
            cases p with
            | none =>
              obtain ⟨pre, is, s2, rest, k1, k2, k3, k4⟩ := ih ws hlen s1
              exact ⟨_ :: pre, as ++ is, s2, rest, by simp [k1], .letters (by simp) h1 k2, by rw [applyItems_append, h2]; exact k3,
                by rw [hr]; exact k4⟩
            | some o =>
              refine waiting o hr h2 ?_ rfl
              intro v vs is _ hp pre hw
              exact .lettersValue h1 hp hw
          · rw [h3] at hr
            exact usage hr
          · rw [h3] at hr
            refine stop _ ?_ rfl
            rw [hr, h1]
            exact .helpLetter m more ws h2
          · rw [h3] at hr
            refine stop _ ?_ rfl
            rw [hr, h1]
            exact .versionLetter m more ws h2

end CliProof

open CliProof

/-- **C102** Which command lines are accepted, and what they mean. -/
theorem C102_run (words : List Str) (s : Seen) :
    parse words = .run s ↔ ∃ is, CommandLine words is ∧ Consistent is ∧ Says is s := by
  constructor
  · intro h
    obtain ⟨pre, is, s1, rest, rfl, h1, h2, h3⟩ := read_stops words .empty
    rw [show Cli.read .empty none (pre ++ rest) = .run s from h] at h3
    obtain ⟨h4, rfl⟩ := (applyItems_empty is s1).1 h2
    cases h3 with
    | done => exact ⟨is, by rw [List.append_nil]; exact .all h1, h4, says_iff.2 rfl⟩
    | dashes js =>
      refine ⟨_, .rest h1, ?_⟩
      rw [says_iff, ← applyItems_empty, applyItems_append, h2]
      exact applyItems_jobs _ js
  · rintro ⟨is, h1, h2, h3⟩
    have h4 := (applyItems_empty is s).2 ⟨h2, says_iff.1 h3⟩
    cases h1 with
    | all h1 =>
      have := read_words h1 [] h4
      rw [List.append_nil] at this
      exact this
    | rest h1 =>
      rw [applyItems_append, Option.bind_eq_some_iff] at h4
      obtain ⟨s1, h4, h5⟩ := h4
      rw [applyItems_jobs, Option.some.injEq] at h5
      subst h5
      exact read_words h1 _ h4

/-- **C102** Every combination of paths that are not empty and jobs can be given, whatever characters they have. -/
theorem C102_every (opt : Arguments) (h1 : opt.configFile ≠ []) (h2 : opt.baseDir ≠ []) :
    ∃ s, parse ((c!"--config=" ++ opt.configFile) :: (c!"--base=" ++ opt.baseDir) :: c!"--" :: opt.jobs) = .run s ∧
      s.arguments = opt := by
  refine ⟨⟨false, none, some opt.configFile, some opt.baseDir, opt.jobs⟩, ?_, rfl⟩
  have h : applyItems .empty [.value .config opt.configFile, .value .base opt.baseDir] =
      some ⟨false, none, some opt.configFile, some opt.baseDir, []⟩ := by
    simp [applyItems, applyItem, setOpt, Seen.empty, h1, h2]
  exact read_words (.equals .config opt.configFile (.equals .base opt.baseDir .nil)) (c!"--" :: opt.jobs) h

/-- **C103** When the help is shown. -/
theorem C103_help (words : List Str) (long : Bool) : parse words = .help long ↔ AsksHelp words long := by
  constructor
  · intro h
    obtain ⟨pre, is, s1, rest, rfl, h1, h2, h3⟩ := read_stops words .empty
    rw [show Cli.read .empty none (pre ++ rest) = .help long from h] at h3
    cases h3 with
    | help rest => exact .long rest h1 ((applyItems_empty is s1).1 h2).1
    | @helpLetter s2 n more rest h3 =>
      refine .short n more rest h1 ((applyItems_empty _ s2).1 ?_).1
      rw [applyItems_append, h2]
      exact h3
  · intro h
    cases h with
    | long rest h1 h2 =>
      have := read_words h1 (c!"--help" :: rest) ((applyItems_empty _ _).2 ⟨h2, rfl⟩)
      exact this
    | short n more rest h1 h2 =>
      have h3 := (applyItems_empty _ _).2 ⟨h2, rfl⟩
      rw [applyItems_append, Option.bind_eq_some_iff] at h3
      obtain ⟨s1, h3, h4⟩ := h3
      have h5 := read_words h1 (('-' :: (List.replicate n 'q' ++ 'h' :: more)) :: rest) h3
      have h6 := shorts_flag (x := 'h') (r := .help false) (fun _ _ => rfl) n more h4
      refine h5.trans ?_
      cases n with
      | zero => rfl
      | succ n =>
        simp only [List.replicate_succ, List.cons_append] at h6 ⊢
        rw [read_short (by decide), h6]

/-- **C103** When the version is shown. -/
theorem C103_version (words : List Str) : parse words = .version ↔ AsksVersion words := by
  constructor
  · intro h
    obtain ⟨pre, is, s1, rest, rfl, h1, h2, h3⟩ := read_stops words .empty
    rw [show Cli.read .empty none (pre ++ rest) = .version from h] at h3
    cases h3 with
    | version rest => exact .long rest h1 ((applyItems_empty is s1).1 h2).1
    | @versionLetter s2 n more rest h3 =>
      refine .short n more rest h1 ((applyItems_empty _ s2).1 ?_).1
      rw [applyItems_append, h2]
      exact h3
  · intro h
    cases h with
    | long rest h1 h2 =>
      have := read_words h1 (c!"--version" :: rest) ((applyItems_empty _ _).2 ⟨h2, rfl⟩)
      exact this
    | short n more rest h1 h2 =>
      have h3 := (applyItems_empty _ _).2 ⟨h2, rfl⟩
      rw [applyItems_append, Option.bind_eq_some_iff] at h3
      obtain ⟨s1, h3, h4⟩ := h3
      have h5 := read_words h1 (('-' :: (List.replicate n 'q' ++ 'V' :: more)) :: rest) h3
      have h6 := shorts_flag (x := 'V') (r := .version) (fun _ _ => rfl) n more h4
      refine h5.trans ?_
      cases n with
      | zero => rfl
      | succ n =>
        simp only [List.replicate_succ, List.cons_append] at h6 ⊢
        rw [read_short (by decide), h6]

/-- **C103** All other words are complained about. -/
theorem C103_usage (words : List Str) : parse words = .usage ↔
    (∀ is, CommandLine words is → ¬ Consistent is) ∧ (∀ long, ¬ AsksHelp words long) ∧ ¬ AsksVersion words := by
  constructor
  · intro h
    refine ⟨fun is h1 h2 => ?_, fun long h1 => ?_, fun h1 => ?_⟩
    · rw [(C102_run words (sayOf is)).2 ⟨is, h1, h2, says_iff.2 rfl⟩] at h
      cases h
    · rw [(C103_help words long).2 h1] at h
      cases h
    · rw [(C103_version words).2 h1] at h
      cases h
  · rintro ⟨h1, h2, h3⟩
    cases h : parse words with
    | usage => rfl
    | run s => obtain ⟨is, k1, k2, _⟩ := (C102_run words s).1 h; exact absurd k2 (h1 is k1)
    | help long => exact absurd ((C103_help words long).1 h) (h2 long)
    | version => exact absurd ((C103_version words).1 h) h3

theorem CliProof.means_iff {is : List CliText.Item} {opt : Arguments} : Means is opt ↔ opt = (sayOf is).arguments := by
  have e : ∀ (l : List Str) d, l.head?.getD d = l.headD d := by intro l d; cases l <;> rfl
  constructor
  · rintro ⟨h1, h2, h3⟩
    cases opt
    simp only at h1 h2 h3
    simp only [Seen.arguments, sayOf, e, h1, h2, h3]
  · rintro rfl
    exact ⟨by simp only [Seen.arguments, sayOf, e], by simp only [Seen.arguments, sayOf, e], rfl⟩

/-- **C102** The arguments of the run, with the defaults. -/
theorem C102_arguments (words : List Str) (opt : Arguments) :
    (∃ s, parse words = .run s ∧ s.arguments = opt) ↔ ∃ is, CommandLine words is ∧ Consistent is ∧ Means is opt := by
  constructor
  · rintro ⟨s, h, rfl⟩
    obtain ⟨is, h1, h2, h3⟩ := (C102_run words s).1 h
    rw [says_iff] at h3
    subst h3
    exact ⟨is, h1, h2, means_iff.2 rfl⟩
  · rintro ⟨is, h1, h2, h3⟩
    exact ⟨sayOf is, (C102_run words _).2 ⟨is, h1, h2, says_iff.2 rfl⟩, (means_iff.1 h3).symm⟩

/-- **C104** From the words of the command line to the exit code, standard output, standard error, files and
directories. -/
theorem C104_command (env : Env) (texts : Texts) (words : List Str) (w w' : World) (code : Nat) :
    program env texts words w = (code, w') ↔ CommandEnds env texts words w code w' := by
  have hends : ∀ c v, program env texts words w = (c, v) → CommandEnds env texts words w c v := by
    intro c v h
    unfold program at h
    split at h
    · rename_i s hp
      obtain ⟨is, k1, k2, k3⟩ := (C102_run words s).1 hp
      rw [says_iff] at k3
      subst k3
      exact .run k1 k2 (means_iff.2 rfl) ((C84_program _ _ _ _ _).1 h)
    · rename_i long hp
      cases h
      exact .help ((C103_help _ _).1 hp)
    · rename_i hp
      cases h
      exact .version ((C103_version _).1 hp)
    · rename_i hp
      cases h
      obtain ⟨h1, h2, h3⟩ := (C103_usage _).1 hp
      exact .usage h1 h2 h3
  refine ⟨hends _ _, fun h => ?_⟩
  cases h with
  | run h1 h2 h3 h4 =>
    rw [means_iff] at h3
    subst h3
    have := (C102_run words _).2 ⟨_, h1, h2, says_iff.2 rfl⟩
    simp only [program, this]
    exact (C84_program _ _ _ _ _).2 h4
  | help h => simp only [program, (C103_help _ _).2 h]
  | version h => simp only [program, (C103_version _).2 h]
  | usage h1 h2 h3 => simp only [program, (C103_usage _).2 ⟨h1, h2, h3⟩]

/-- **C104** Help, version and complaints touch no file and no directory. -/
theorem C104_no_run (env : Env) (texts : Texts) (words : List Str) (w : World)
    (h : ∀ is, CommandLine words is → ¬ Consistent is) : (program env texts words w).2.files = w.files ∧
      (program env texts words w).2.dirs = w.dirs ∧
      ((program env texts words w).1 = 0 ∧ (program env texts words w).2.stderr = w.stderr ∨
        (program env texts words w).1 = 2 ∧ (program env texts words w).2.stdout = w.stdout) := by
  obtain ⟨code, w', e⟩ : ∃ code w', program env texts words w = (code, w') := ⟨_, _, rfl⟩
  have := (C104_command env texts words w _ _).1 e
  rw [e]
  cases this with
  | run h1 h2 => exact absurd h2 (h _ h1)
  | help => exact ⟨rfl, rfl, .inl ⟨rfl, rfl⟩⟩
  | version => exact ⟨rfl, rfl, .inl ⟨rfl, rfl⟩⟩
  | usage => exact ⟨rfl, rfl, .inr ⟨rfl, rfl⟩⟩

/-- **C105** Only the two paths and the jobs matter, and of the order only that of the jobs: neither `-q` nor `-l`, nor
the way an option is written or where it stands, changes what the program does. -/
theorem C105_same (env : Env) (texts : Texts) (words words' : List Str) (is is' : List CliText.Item)
    (h1 : CommandLine words is) (h2 : Consistent is) (h1' : CommandLine words' is') (h2' : Consistent is')
    (hc : valuesOf .config is = valuesOf .config is') (hb : valuesOf .base is = valuesOf .base is')
    (hj : jobsOf is = jobsOf is') (w : World) :
    program env texts words w = program env texts words' w := by
  have k := (C102_run words _).2 ⟨is, h1, h2, says_iff.2 rfl⟩
  have k' := (C102_run words' _).2 ⟨is', h1', h2', says_iff.2 rfl⟩
  have e : (sayOf is).arguments = (sayOf is').arguments := by simp only [Seen.arguments, sayOf, hc, hb, hj]
  simp only [program, k, k', e]

/-! ## Examples -/

namespace CliExample

def argv : List Str := [c!"tags", c!"-qcmy.toml", c!"--base=-", c!"-l", c!"", c!"--", c!"-x"]

def texts : Texts := ⟨fun l => if l then c!"long help\n" else c!"help\n", c!"reqtrace 0.2.0\n", fun _ => c!"usage\n"⟩

/-- Accepted words; their meaning does not depend on the place of the options. -/
example : parse argv = .run ⟨true, some [], some c!"my.toml", some c!"-", [c!"tags", c!"-x"]⟩ ∧
    parse [] = .run ⟨false, none, none, none, []⟩ ∧
    (Seen.empty).arguments = ⟨c!"requirements.toml", c!".", []⟩ ∧
    parse [c!"-b=-", c!"-c", c!"my.toml", c!"tags", c!"--", c!"-x"] = .run ⟨false, none, some c!"my.toml", some c!"-", [c!"tags", c!"-x"]⟩ := by
  decide +kernel

/-- The items of these words. -/
example : ∃ is, CommandLine argv is ∧ Consistent is ∧
    is = [.job c!"tags", .quiet, .value .config c!"my.toml", .value .base c!"-", .value .logLevel [], .job c!"-x"] := by
  refine ⟨_, .rest (ws := [c!"tags", c!"-qcmy.toml", c!"--base=-", c!"-l", c!""]) (.job ?_ (.letters (by simp)
    (.quiet (.value .config (v := c!"my.toml") (by simp) (by simp))) (.equals .base c!"-"
    (.lettersValue (.waiting .logLevel) ?_ .nil)))), ?_, rfl⟩
  · exact .inr (by intro t h; simp at h)
  · exact .inr (by intro t h; simp at h)
  · refine ⟨by decide, by intro o; cases o <;> decide, by intro v hv; simp at hv; rcases hv with rfl | rfl <;> simp⟩

/-- Help, version and complaints. -/
example : [[c!"-qh"], [c!"x", c!"--help", c!"--bad"], [c!"-V"], [c!"-h", c!"-V"], [c!"--bad", c!"--help"], [c!"-qq"], [c!"-c"],
      [c!"-c", c!"--", c!"x"], [c!"--quiet=x"], [c!"--config="], [c!"-c", c!"a", c!"--config=a"], [c!"--conf", c!"a"],
      [c!"-b", c!"-h"]].map parse =
    [.help false, .help true, .version, .help false, .usage, .usage, .usage, .usage, .usage, .usage, .usage, .usage, .usage] := by
  decide +kernel

/-- The run of the example project, from the words to the exit codes. -/
example : [[c!"-b", c!"p", c!"trace"], [c!"trace", c!"--base=p", c!"-q"], [c!"-bp", c!"trace", c!"x"], [c!"--version"], [c!"-x"]].map
      (fun words => (program (CtrlExample.env CtrlExample.covering CtrlExample.clean) texts words
        (CtrlExample.world CtrlExample.cleanFiles)).1) = [0, 0, 2, 0, 2] := by
  decide +kernel

/-- No reading of these words is consistent. -/
example : ∀ words ∈ [[c!"-x"], [c!"-c", c!"a", c!"-c", c!"b"]], ∀ is, CommandLine words is → ¬ Consistent is := by
  intro words h
  simp only [List.mem_cons, List.not_mem_nil, or_false] at h
  rcases h with rfl | rfl <;> exact ((C103_usage _).1 (by decide +kernel)).1

end CliExample

end Reqtrace
