import Std

/-!
# Text, panics, ordered maps

The vocabulary of the model: what Rust's `String`, `panic!`, `BTreeMap` and `BTreeSet` are here.
-/

set_option linter.unusedSectionVars false

namespace Reqtrace

/-- Rust `String`/`&str`: a sequence of Unicode scalar values.  `compare` on it is the
lexicographic order by code point, which is also the order of Rust's `Ord for str` (bytewise on
UTF-8, and UTF-8 preserves code point order). -/
abbrev Str := List Char

/-- `c!"abc"` is the text literal `['a', 'b', 'c']`. -/
syntax:max "c!" str : term
macro_rules
  | `(c! $s:str) => do
    let cs := s.getString.toList.toArray.map (fun c => Lean.Syntax.mkCharLit c)
    `(([$cs,*] : List Char))

/-- A reached `panic!`, `unwrap`, `expect`, `assert!`, `todo!` or index out of range. -/
inductive Panic where
  /-- `trace.rs:164`: index of the traced artefacts with an unknown upper artefact -/
  | traceUpper
  /-- `trace.rs:177`, `trace.rs:222`: `expect("artefacts of relations exist")` -/
  | traceLower
  /-- `trace.rs:297`, `trace.rs:317`: index of `req_by_id` -/
  | traceReqById
  /-- `trace.rs:303` `expect("invalid link exists")`, `trace.rs:322` `panic!("")` -/
  | traceLink
  /-- `aggregator.rs:93`, `aggregator.rs:96`, `aggregator.rs:107`, `aggregator.rs:108` -/
  | aggArtefact
  /-- `aggregator.rs:102`, `aggregator.rs:111`, `aggregator.rs:120-121`, `aggregator.rs:125`, `:133` -/
  | aggRequirement
  /-- `aggregator.rs:128`, `aggregator.rs:136` -/
  | aggRelation
  /-- `parsers/markdown.rs:94`: `assert!(line.starts_with('\n'))` -/
  | mdAssert
  /-- `parsers/markdown.rs:302`, `:309`, `:311`, `:352`, ...: `req_under_construction` is `None` -/
  | mdNoReq
  /-- `parsers/markdown.rs:313`: `panic!()` in `commit_link_attr` -/
  | mdLinkAttr
  /-- `parsers/monoreq.rs:45`: `todo!()` on a read error -/
  | monoRead
  /-- `parsers/rust.rs:171`: `self.locations.last().unwrap()` outside of all items -/
  | rustNoScope
  /-- `parsers/rust.rs:199-200`, `:208-209`, `:230-231`, ...: `pop().unwrap()` -/
  | rustPop
  /-- `controller.rs:203`, `controller.rs:212`: `todo!("log error {err}")` -/
  | ctrlUnknownArtefact
  /-- `controller.rs:219`: index of `is_root` -/
  | ctrlIsRoot
  /-- `controller.rs:93`, `controller.rs:132`: `panic!("unexpected {:?}", config.parser)` -/
  | ctrlParser
  /-- `formatters/mod.rs:37`, `formatters/mod.rs:55`: `todo!()` for an unsupported format -/
  | fmtUnsupported
  /-- index of `regex::Captures` with a group that did not take part: `models.rs:195`,
  `parsers/markdown.rs:199`, `:325-327`, `:344-345`, `parsers/monoreq.rs:32` -/
  | regexGroup
  /-- `formatters/gnuerr.rs:139`, `:146`, `:149`, `formatters/markdown.rs:422`, `:450`, `:468` -/
  | fmtIndex
  deriving DecidableEq, Repr

deriving instance DecidableEq for Except

/-- Result of code that may panic. -/
abbrev PanicM := Except Panic

/-- `.expect(..)`, `.unwrap()` and index: the value, or the given panic. -/
def orPanic {α : Type} (p : Panic) : Option α → PanicM α
  | some a => .ok a
  | none => .error p

/-! ## `BTreeMap` -/

/-- `std::collections::BTreeMap<κ, ν>`: an association list in strictly increasing key order.
Iteration (`iter`, `values`, `keys`, `into_iter`) walks `entries` from left to right. -/
structure BMap (κ ν : Type) [Ord κ] where
  entries : List (κ × ν)
  sorted : entries.Pairwise (fun a b => compare a.1 b.1 = .lt)

instance {κ ν : Type} [Ord κ] [DecidableEq κ] [DecidableEq ν] : DecidableEq (BMap κ ν) :=
  fun a b => if h : a.entries = b.entries then
      .isTrue (by cases a; cases b; simp_all)
    else .isFalse (by intro e; exact h (by rw [e]))

instance {κ ν : Type} [Ord κ] [Repr κ] [Repr ν] : Repr (BMap κ ν) :=
  ⟨fun m n => reprPrec m.entries n⟩

namespace BMap

section defs
variable {κ ν : Type} [Ord κ]

/-- Lookup in an association list. -/
def getL (k : κ) : List (κ × ν) → Option ν
  | [] => none
  | (k', v) :: t => match compare k k' with
    | .eq => some v
    | _ => getL k t

/-- Ordered insertion into an association list, replacing the value of an equal key. -/
def insertL (k : κ) (v : ν) : List (κ × ν) → List (κ × ν)
  | [] => [(k, v)]
  | (k', v') :: t => match compare k k' with
    | .lt => (k, v) :: (k', v') :: t
    | .eq => (k, v) :: t
    | .gt => (k', v') :: insertL k v t

/-- `BTreeMap::new()` -/
def empty : BMap κ ν := ⟨[], .nil⟩

instance : Inhabited (BMap κ ν) := ⟨empty⟩

/-- `BTreeMap::get` -/
def get (m : BMap κ ν) (k : κ) : Option ν := getL k m.entries

/-- `BTreeMap::contains_key` -/
def contains (m : BMap κ ν) (k : κ) : Bool := (m.get k).isSome

/-- `BTreeMap::keys` -/
def keys (m : BMap κ ν) : List κ := m.entries.map Prod.fst

/-- `BTreeMap::values` -/
def values (m : BMap κ ν) : List ν := m.entries.map Prod.snd

/-- `BTreeMap::remove` -/
def erase (m : BMap κ ν) (k : κ) : BMap κ ν :=
  ⟨m.entries.filter (fun e => compare k e.1 != .eq), m.sorted.filter _⟩

/-- `*map.get_mut(k).unwrap() = f(..)`: change the value under a key, if it is there. -/
def modify (m : BMap κ ν) (k : κ) (f : ν → ν) : BMap κ ν :=
  ⟨m.entries.map (fun e => if compare k e.1 = .eq then (e.1, f e.2) else e), by
    rw [List.pairwise_map]
    refine m.sorted.imp ?_
    intro a b h
    split <;> split <;> simpa using h⟩

/-- Change all values, `map.into_iter().map(|(k, v)| (k, f(v))).collect()`. -/
def mapValues {μ : Type} (m : BMap κ ν) (f : ν → μ) : BMap κ μ :=
  ⟨m.entries.map (fun e => (e.1, f e.2)), by
    rw [List.pairwise_map]; exact m.sorted⟩

end defs

section ord
variable {κ ν : Type} [Ord κ] [Std.TransOrd κ]

theorem mem_insertL {k : κ} {v : ν} {l : List (κ × ν)} {e : κ × ν} (h : e ∈ insertL k v l) :
    e = (k, v) ∨ e ∈ l := by
  induction l with
  | nil => simpa [insertL] using h
  | cons a t ih =>
    obtain ⟨k', v'⟩ := a
    simp only [insertL] at h
    split at h
    · simpa using h
    · simp only [List.mem_cons] at h ⊢; rcases h with h | h <;> simp [h]
    · simp only [List.mem_cons] at h ⊢
      rcases h with h | h
      · simp [h]
      · rcases ih h with h | h <;> simp [h]

theorem insertL_sorted (k : κ) (v : ν) (l : List (κ × ν))
    (h : l.Pairwise (fun a b => compare a.1 b.1 = .lt)) :
    (insertL k v l).Pairwise (fun a b => compare a.1 b.1 = .lt) := by
  induction l with
  | nil => simp [insertL]
  | cons a t ih =>
    obtain ⟨k', v'⟩ := a
    rw [List.pairwise_cons] at h
    simp only [insertL]
    split
    · next hc =>
      refine List.pairwise_cons.2 ⟨?_, List.pairwise_cons.2 h⟩
      intro b hb
      rcases List.mem_cons.1 hb with rfl | hb
      · exact hc
      · exact Std.TransCmp.lt_trans hc (h.1 b hb)
    · next hc =>
      refine List.pairwise_cons.2 ⟨?_, h.2⟩
      intro b hb
      exact Std.TransCmp.lt_of_eq_of_lt hc (h.1 b hb)
    · next hc =>
      refine List.pairwise_cons.2 ⟨?_, ih h.2⟩
      intro b hb
      rcases mem_insertL hb with rfl | hb
      · exact Std.OrientedCmp.lt_of_gt hc
      · exact h.1 b hb

/-- `BTreeMap::insert` (the old value is dropped). -/
def insert (m : BMap κ ν) (k : κ) (v : ν) : BMap κ ν :=
  ⟨insertL k v m.entries, insertL_sorted k v _ m.sorted⟩

/-- `iter.collect::<BTreeMap<_, _>>()`: later pairs replace earlier ones with an equal key. -/
def ofList (l : List (κ × ν)) : BMap κ ν := l.foldl (fun m e => m.insert e.1 e.2) empty

end ord

section lawful
variable {κ ν : Type} [Ord κ] [Std.TransOrd κ] [Std.LawfulEqOrd κ] [DecidableEq κ]

theorem compare_ne_of_ne {a b : κ} (h : a ≠ b) : compare a b ≠ .eq := by
  intro e; exact h (Std.LawfulEqOrd.eq_of_compare e)

theorem getL_insertL (k k' : κ) (v : ν) (l : List (κ × ν)) :
    getL k' (insertL k v l) = if k' = k then some v else getL k' l := by
  induction l with
  | nil =>
    by_cases h : k' = k
    · subst h; simp [insertL, getL]
    · have := compare_ne_of_ne h
      simp only [insertL, getL, h, if_false]
  | cons a t ih =>
    obtain ⟨k₁, v₁⟩ := a
    by_cases h : k' = k
    · subst h
      simp only [insertL]
      split <;> rename_i hc
      · simp [getL]
      · simp [getL]
      · simp only [getL, hc, ih, if_true]
    · have hne := compare_ne_of_ne h
      simp only [insertL]
      split <;> rename_i hc
      · simp only [getL, h, if_false]
      · have : k = k₁ := Std.LawfulEqOrd.eq_of_compare hc
        subst this
        simp only [getL, h, if_false]
      · simp only [getL, h, if_false, ih]

@[simp] theorem get_empty (k : κ) : (empty : BMap κ ν).get k = none := rfl

theorem get_insert (m : BMap κ ν) (k k' : κ) (v : ν) :
    (m.insert k v).get k' = if k' = k then some v else m.get k' := getL_insertL k k' v m.entries

theorem getL_eq_some_iff {l : List (κ × ν)}
    (hs : l.Pairwise (fun a b => compare a.1 b.1 = .lt)) (k : κ) (v : ν) :
    getL k l = some v ↔ (k, v) ∈ l := by
  induction l with
  | nil => simp [getL]
  | cons a t ih =>
    obtain ⟨k₁, v₁⟩ := a
    rw [List.pairwise_cons] at hs
    by_cases h : k = k₁
    · subst h
      have : ∀ w, (k, w) ∉ t := by
        intro w hw
        have := hs.1 _ hw
        simp at this
      simp [getL, this, eq_comm]
    · have hne := compare_ne_of_ne h
      have : getL k ((k₁, v₁) :: t) = getL k t := by
        simp only [getL]
      rw [this, ih hs.2]; simp [h]

theorem get_eq_some_iff (m : BMap κ ν) (k : κ) (v : ν) :
    m.get k = some v ↔ (k, v) ∈ m.entries := getL_eq_some_iff m.sorted k v

theorem getL_eq_none_iff (l : List (κ × ν)) (k : κ) :
    getL k l = none ↔ ∀ v, (k, v) ∉ l := by
  induction l with
  | nil => simp [getL]
  | cons a t ih =>
    obtain ⟨k₁, v₁⟩ := a
    by_cases h : k = k₁
    · subst h
      simp [getL]
      exact ⟨v₁, by simp⟩
    · have hne := compare_ne_of_ne h
      have : getL k ((k₁, v₁) :: t) = getL k t := by
        simp only [getL]
      rw [this, ih]; simp [h]

theorem get_eq_none_iff (m : BMap κ ν) (k : κ) :
    m.get k = none ↔ ∀ v, (k, v) ∉ m.entries := getL_eq_none_iff m.entries k

theorem mem_keys_iff (m : BMap κ ν) (k : κ) : k ∈ m.keys ↔ ∃ v, m.get k = some v := by
  simp [keys, get_eq_some_iff]

theorem mem_keys_iff_isSome (m : BMap κ ν) (k : κ) : k ∈ m.keys ↔ (m.get k).isSome := by
  rw [mem_keys_iff, Option.isSome_iff_exists]

theorem mem_values_iff (m : BMap κ ν) (v : ν) : v ∈ m.values ↔ ∃ k, m.get k = some v := by
  simp [values, get_eq_some_iff]

theorem keys_sorted (m : BMap κ ν) : m.keys.Pairwise (fun a b => compare a b = .lt) := by
  rw [keys, List.pairwise_map]; exact m.sorted

theorem keys_nodup (m : BMap κ ν) : m.keys.Nodup := by
  refine (keys_sorted m).imp ?_
  rintro a b h rfl
  simp at h

theorem get_erase (m : BMap κ ν) (k k' : κ) :
    (m.erase k).get k' = if k' = k then none else m.get k' := by
  apply Option.ext
  intro v
  rw [get_eq_some_iff]
  by_cases h : k' = k
  · subst h; simp [erase]
  · have := compare_ne_of_ne (Ne.symm h)
    simp [erase, h, get_eq_some_iff, this]

theorem get_modify (m : BMap κ ν) (k k' : κ) (f : ν → ν) :
    (m.modify k f).get k' = if k' = k then (m.get k').map f else m.get k' := by
  unfold modify get
  simp only
  generalize m.entries = l
  induction l with
  | nil => simp [getL]
  | cons a t ih =>
    obtain ⟨k₁, v₁⟩ := a
    by_cases h1 : k = k₁
    · subst h1
      by_cases h2 : k' = k
      · subst h2; simp [getL]
      · have := compare_ne_of_ne h2
        simp only [List.map_cons, Std.ReflCmp.compare_self, if_true, getL]
        split
        · simp_all
        · rw [ih]; simp [h2]
    · have := compare_ne_of_ne h1
      simp only [List.map_cons, this, if_false, getL]
      split
      · next hc =>
        have : k' = k₁ := Std.LawfulEqOrd.eq_of_compare hc
        subst this
        simp [Ne.symm h1]
      · exact ih

theorem keys_modify (m : BMap κ ν) (k : κ) (f : ν → ν) : (m.modify k f).keys = m.keys := by
  simp only [keys, modify, List.map_map]
  apply List.map_congr_left
  intro e _
  simp only [Function.comp]
  split <;> rfl

theorem get_mapValues {μ : Type} (m : BMap κ ν) (f : ν → μ) (k : κ) :
    (m.mapValues f).get k = (m.get k).map f := by
  unfold mapValues get
  simp only
  generalize m.entries = l
  induction l with
  | nil => rfl
  | cons a t ih =>
    obtain ⟨k₁, v₁⟩ := a
    simp only [List.map_cons, getL]
    split
    · rfl
    · exact ih

theorem keys_mapValues {μ : Type} (m : BMap κ ν) (f : ν → μ) : (m.mapValues f).keys = m.keys := by
  simp [keys, mapValues, List.map_map, Function.comp_def]

/-- Two strictly sorted lists with the same members are equal. -/
theorem sorted_ext {α : Type} {r : α → α → Prop} (irr : ∀ a, ¬ r a a)
    (asym : ∀ a b, r a b → ¬ r b a) {l₁ l₂ : List α}
    (h₁ : l₁.Pairwise r) (h₂ : l₂.Pairwise r) (h : ∀ a, a ∈ l₁ ↔ a ∈ l₂) : l₁ = l₂ := by
  induction l₁ generalizing l₂ with
  | nil =>
    cases l₂ with
    | nil => rfl
    | cons b t => exact absurd ((h b).2 (by simp)) (by simp)
  | cons a t ih =>
    cases l₂ with
    | nil => exact absurd ((h a).1 (by simp)) (by simp)
    | cons b s =>
      rw [List.pairwise_cons] at h₁ h₂
      have hab : a = b := by
        rcases List.mem_cons.1 ((h a).1 (by simp)) with e | e
        · exact e
        rcases List.mem_cons.1 ((h b).2 (by simp)) with e' | e'
        · exact e'.symm
        exact absurd (h₁.1 _ e') (asym _ _ (h₂.1 _ e))
      subst hab
      congr 1
      apply ih h₁.2 h₂.2
      intro c
      constructor
      · intro hc
        rcases List.mem_cons.1 ((h c).1 (by simp [hc])) with e | e
        · subst e; exact absurd (h₁.1 _ hc) (irr _)
        · exact e
      · intro hc
        rcases List.mem_cons.1 ((h c).2 (by simp [hc])) with e | e
        · subst e; exact absurd (h₂.1 _ hc) (irr _)
        · exact e

theorem keys_ext {l₁ l₂ : List κ} (h₁ : l₁.Pairwise (fun a b => compare a b = .lt))
    (h₂ : l₂.Pairwise (fun a b => compare a b = .lt)) (h : ∀ a, a ∈ l₁ ↔ a ∈ l₂) : l₁ = l₂ := by
  apply sorted_ext _ _ h₁ h₂ h
  · intro a; simp
  · intro a b h1 h2
    have := Std.OrientedCmp.gt_of_lt h1
    rw [h2] at this; cases this

theorem ext_get {m₁ m₂ : BMap κ ν} (h : ∀ k, m₁.get k = m₂.get k) : m₁ = m₂ := by
  have : m₁.entries = m₂.entries := by
    apply sorted_ext _ _ m₁.sorted m₂.sorted
    · rintro ⟨k, v⟩
      rw [← get_eq_some_iff, ← get_eq_some_iff, h]
    · intro a; simp
    · intro a b h1 h2
      have := Std.OrientedCmp.gt_of_lt h1
      rw [h2] at this; cases this
  cases m₁; cases m₂; simp_all

end lawful

end BMap

/-! ## `BTreeSet` -/

/-- `std::collections::BTreeSet<κ>` -/
abbrev BSet (κ : Type) [Ord κ] := BMap κ Unit

namespace BSet
variable {κ : Type} [Ord κ] [Std.TransOrd κ]

/-- `BTreeSet::insert` -/
def add (s : BSet κ) (k : κ) : BSet κ := BMap.insert s k ()

/-- `BTreeSet::iter`, `into_iter().collect::<Vec<_>>()` -/
def toList {κ : Type} [Ord κ] (s : BSet κ) : List κ := s.keys

variable [Std.LawfulEqOrd κ] [DecidableEq κ]

theorem mem_toList (s : BSet κ) (k : κ) : k ∈ s.toList ↔ s.get k = some () := by
  rw [toList, BMap.mem_keys_iff]
  exact ⟨fun ⟨_, h⟩ => h, fun h => ⟨_, h⟩⟩

theorem mem_add (s : BSet κ) (k k' : κ) : k' ∈ (s.add k).toList ↔ k' = k ∨ k' ∈ s.toList := by
  rw [mem_toList, mem_toList, add, BMap.get_insert]
  split <;> simp_all

theorem mem_erase (s : BSet κ) (k k' : κ) :
    k' ∈ toList (s.erase k) ↔ k' ≠ k ∧ k' ∈ s.toList := by
  rw [mem_toList, mem_toList, BMap.get_erase]
  split <;> simp_all

theorem mem_empty (k : κ) : ¬ k ∈ toList (BMap.empty : BSet κ) := by
  simp [mem_toList]

end BSet

end Reqtrace
