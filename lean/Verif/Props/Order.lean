import Verif.Order
import Verif.Spec.Order
import Verif.Lemmas.Controller
import Verif.Lemmas.MonoReq
import Verif.Props.Location

/-!
# Comparison of locations, requirements, relations and errors: C124
-/

namespace Reqtrace

open Spec Order

/-! ## Lawful comparisons -/

/-- What is needed to put comparisons together: also, what is equal compares equally with others. -/
structure Lawful {α : Type} (f : α → α → Option Ordering) : Prop where
  swap : ∀ a b, f b a = (f a b).map Ordering.swap
  trans : ∀ a b c o, f a b = some o → f b c = some o → f a c = some o
  congr : ∀ a b c, f a b = some .eq → f a c = f b c

theorem Lawful.congr_right {α : Type} {f : α → α → Option Ordering} (h : Lawful f) {a b c : α} (e : f b c = some .eq) :
    f a b = f a c := by
  rw [h.swap b a, h.swap c a, h.congr b c a e]

theorem lawful_of_ord {α : Type} [Ord α] [Std.TransOrd α] : Lawful (fun a b : α => some (compare a b)) where
  swap a b := by
    show some _ = some _
    rw [Std.OrientedOrd.eq_swap (a := b)]
  trans a b c o h1 h2 := by
    simp only [Option.some.injEq] at *
    cases o with
    | lt => exact Std.TransCmp.lt_trans h1 h2
    | eq => exact Std.TransCmp.eq_trans h1 h2
    | gt => exact Std.TransCmp.gt_trans h1 h2
  congr a b c h := by
    simp only [Option.some.injEq] at *
    exact Std.TransCmp.congr_left h

theorem lawful_strCmp : Lawful strCmp := lawful_of_ord

/-- A comparison of something that belongs to the values -/
theorem Lawful.on {α β : Type} {f : β → β → Option Ordering} (h : Lawful f) (g : α → β) : Lawful (fun a b => f (g a) (g b)) where
  swap a b := h.swap _ _
  trans a b c o := h.trans _ _ _ o
  congr a b c := h.congr _ _ _

theorem lawful_eq {α : Type} {f g : α → α → Option Ordering} (h : Lawful f) (e : ∀ a b, g a b = f a b) : Lawful g := by
  have : g = f := funext fun a => funext (e a)
  rw [this]; exact h

/-- One field after the other -/
theorem Lawful.andThen {α : Type} {f g : α → α → Option Ordering} (hf : Lawful f) (hg : Lawful g) :
    Lawful (fun a b => Order.andThen (f a b) (g a b)) where
  swap a b := by
    rw [hf.swap a b]
    cases h : f a b with
    | none => rfl
    | some o =>
      cases o with
      | lt => rfl
      | gt => rfl
      | eq => exact hg.swap a b
  trans a b c o h1 h2 := by
    cases e1 : f a b with
    | none => rw [e1] at h1; cases h1
    | some o1 =>
      cases e2 : f b c with
      | none => rw [e2] at h2; cases h2
      | some o2 =>
        rw [e1] at h1
        rw [e2] at h2
        cases o1 with
        | eq =>
          rw [hf.congr a b c e1, e2]
          cases o2 with
          | eq => exact hg.trans a b c o h1 h2
          | lt => exact h2
          | gt => exact h2
        | lt =>
          have ho : o = .lt := (Option.some.inj h1).symm
          subst ho
          cases o2 with
          | eq => rw [← hf.congr_right e2, e1]; rfl
          | lt => rw [hf.trans a b c _ e1 e2]; rfl
          | gt => cases h2
        | gt =>
          have ho : o = .gt := (Option.some.inj h1).symm
          subst ho
          cases o2 with
          | eq => rw [← hf.congr_right e2, e1]; rfl
          | gt => rw [hf.trans a b c _ e1 e2]; rfl
          | lt => cases h2
  congr a b c h := by
    cases e : f a b with
    | none => rw [e] at h; cases h
    | some o =>
      rw [e] at h
      cases o with
      | lt => cases h
      | gt => cases h
      | eq => rw [hf.congr a b c e, hg.congr a b c h]

theorem andThen_eq {o p : Option Ordering} : Order.andThen o p = some .eq ↔ o = some .eq ∧ p = some .eq := by
  cases o with
  | none => simp [Order.andThen]
  | some o => cases o <;> simp [Order.andThen]

theorem Lawful.option {α : Type} {f : α → α → Option Ordering} (h : Lawful f) : Lawful (optionCmp f) where
  swap a b := by
    cases a <;> cases b <;> first | rfl | exact h.swap _ _
  trans a b c o h1 h2 := by
    cases a <;> cases b <;> cases c <;> simp only [optionCmp] at h1 h2 ⊢ <;>
      first | exact h.trans _ _ _ o h1 h2 | exact h1 | exact h2 | (rw [← h1] at h2; cases h2)
  congr a b c e := by
    cases a with
    | none =>
      cases b with
      | none => rfl
      | some b => cases e
    | some a =>
      cases b with
      | none => cases e
      | some b =>
        cases c with
        | none => rfl
        | some c => exact h.congr a b c e

theorem Lawful.list {α : Type} {f : α → α → Option Ordering} (h : Lawful f) : Lawful (listCmp f) := by
  have step : ∀ (a b : α) (l m : List α), listCmp f (a :: l) (b :: m) = Order.andThen (f a b) (listCmp f l m) := fun _ _ _ _ => rfl
  have hswap : ∀ l m, listCmp f m l = (listCmp f l m).map Ordering.swap := by
    intro l
    induction l with
    | nil => intro m; cases m <;> rfl
    | cons a l ih =>
      intro m
      cases m with
      | nil => rfl
      | cons b m =>
        rw [step, step, h.swap a b, ih m]
        cases f a b with
        | none => rfl
        | some o => cases o <;> rfl
  have hcongr : ∀ l m n, listCmp f l m = some .eq → listCmp f l n = listCmp f m n := by
    intro l
    induction l with
    | nil =>
      intro m n e
      cases m with
      | nil => rfl
      | cons => cases e
    | cons a l ih =>
      intro m n e
      cases m with
      | nil => cases e
      | cons b m =>
        rw [step, andThen_eq] at e
        cases n with
        | nil => rfl
        | cons c n => rw [step, step, h.congr a b c e.1, ih m n e.2]
  have hright : ∀ l m n, listCmp f m n = some .eq → listCmp f l m = listCmp f l n := by
    intro l m n e
    rw [hswap m l, hswap n l, hcongr m n l e]
  refine ⟨hswap, ?_, hcongr⟩
  intro l
  induction l with
  | nil =>
    intro m n o h1 h2
    cases m with
    | nil => exact h2
    | cons b m =>
      cases n with
      | nil =>
        have : o = .lt := (Option.some.inj h1).symm
        subst this
        cases h2
      | cons c n => exact h1
  | cons a l ih =>
    intro m n o h1 h2
    cases m with
    | nil =>
      have : o = .gt := (Option.some.inj h1).symm
      subst this
      cases n with
      | nil => rfl
      | cons c n => cases h2
    | cons b m =>
      cases n with
      | nil => exact h2
      | cons c n =>
        rw [step] at h1 h2 ⊢
        cases e1 : f a b with
        | none => rw [e1] at h1; cases h1
        | some o1 =>
          cases e2 : f b c with
          | none => rw [e2] at h2; cases h2
          | some o2 =>
            rw [e1] at h1
            rw [e2] at h2
            cases o1 with
            | eq =>
              rw [h.congr a b c e1, e2]
              cases o2 with
              | eq => exact ih m n o h1 h2
              | lt => exact h2
              | gt => exact h2
            | lt =>
              have ho : o = .lt := (Option.some.inj h1).symm
              subst ho
              cases o2 with
              | eq => rw [← h.congr_right e2, e1]; rfl
              | lt => rw [h.trans a b c _ e1 e2]; rfl
              | gt => cases h2
            | gt =>
              have ho : o = .gt := (Option.some.inj h1).symm
              subst ho
              cases o2 with
              | eq => rw [← h.congr_right e2, e1]; rfl
              | gt => rw [h.trans a b c _ e1 e2]; rfl
              | lt => cases h2

theorem listCmp_eq {α : Type} {f : α → α → Option Ordering} (hf : ∀ a b, f a b = some .eq ↔ a = b) (l m : List α) :
    listCmp f l m = some .eq ↔ l = m := by
  induction l generalizing m with
  | nil => cases m <;> simp [listCmp]
  | cons a l ih =>
    cases m with
    | nil => simp [listCmp]
    | cons b m =>
      show Order.andThen (f a b) (listCmp f l m) = _ ↔ _
      rw [andThen_eq, hf, ih]
      simp

theorem strCmp_eq (s t : Str) : strCmp s t = some .eq ↔ s = t := by
  simp [strCmp]

/-! ## Paths -/

/-- The components as numbers and texts -/
def compKey : Component → Nat × Str
  | .rootDir => (0, [])
  | .curDir => (1, [])
  | .parentDir => (2, [])
  | .normal s => (3, s)

theorem cmp_key (a b : Component) : a.cmp b = compare (compKey a) (compKey b) := by
  have h : ∀ (i j : Nat) (s t : Str), compare (i, s) (j, t) = (compare i j).then (compare s t) := fun _ _ _ _ => rfl
  cases a <;> cases b <;> simp only [Component.cmp, compKey, h] <;> first | rfl | skip

theorem lawful_cmp : Lawful (fun a b : Component => some (a.cmp b)) :=
  lawful_eq ((lawful_of_ord (α := Nat × Str)).on compKey) fun a b => by rw [cmp_key]

theorem compKey_inj {a b : Component} (h : compKey a = compKey b) : a = b := by
  cases a <;> cases b <;> simp_all [compKey]

theorem cmp_eq (a b : Component) : some (a.cmp b) = some .eq ↔ a = b := by
  rw [cmp_key, Option.some.injEq, Std.LawfulEqOrd.compare_eq_iff_eq]
  exact ⟨compKey_inj, fun h => h ▸ rfl⟩

theorem lawful_pathCmp : Lawful pathCmp := lawful_cmp.list.on components

/-- A part that counts -/
def counts (s : Str) : Bool := s != [] && s != ['.']

theorem pathParts_slash (a b : Str) : pathParts (a ++ '/' :: b) = pathParts a ++ pathParts b := by
  unfold pathParts
  rw [splitOnChar_append, List.filter_append]

/-- What comes in front of the parts -/
def front (p : Path) : List Component :=
  if isAbsolute p then [.rootDir] else if (splitOnChar '/' p).head? = some ['.'] then [.curDir] else []

theorem components_front (p : Path) :
    components p = front p ++ (pathParts p).map fun s => if s = c!".." then .parentDir else .normal s := rfl

theorem isAbsolute_append (x : Char) (y z : Str) : isAbsolute (x :: y ++ z) = isAbsolute (x :: y) := by
  by_cases hx : x = '/'
  · subst hx; rfl
  · have : ∀ t : Str, isAbsolute (x :: t) = false := by
      intro t
      unfold isAbsolute
      split
      · next h => cases h; exact absurd rfl hx
      · rfl
    rw [this, List.cons_append, this]

theorem front_slash (a b : Str) : front (a ++ '/' :: b) = front (a ++ c!"/") := by
  have hh : ∀ c : Str, (splitOnChar '/' (a ++ '/' :: c)).head? = (splitOnChar '/' a).head? := by
    intro c
    rw [splitOnChar_append]
    cases h : splitOnChar '/' a with
    | nil => exact absurd h (splitOnChar_ne _ _)
    | cons x y => rfl
  have ha : ∀ c : Str, isAbsolute (a ++ '/' :: c) = isAbsolute (a ++ c!"/") := by
    intro c
    cases a with
    | nil => rfl
    | cons x y => rw [isAbsolute_append, isAbsolute_append]
  unfold front
  rw [hh b, ha b, show a ++ c!"/" = a ++ '/' :: [] from rfl, hh []]

theorem front_end (a : Str) (h : a ≠ []) : front (a ++ c!"/") = front a := by
  have hh : (splitOnChar '/' (a ++ '/' :: [])).head? = (splitOnChar '/' a).head? := by
    rw [splitOnChar_append]
    cases h : splitOnChar '/' a with
    | nil => exact absurd h (splitOnChar_ne _ _)
    | cons x y => rfl
  have ha : isAbsolute (a ++ c!"/") = isAbsolute a := by
    cases a with
    | nil => exact absurd rfl h
    | cons x y => exact isAbsolute_append x y _
  unfold front
  rw [ha, show a ++ c!"/" = a ++ '/' :: [] from rfl, hh]

theorem parts_nil : pathParts [] = [] := by decide

theorem samePath_sound {p q : Path} (h : SamePath p q) : components p = components q := by
  induction h with
  | refl p => rfl
  | symm _ ih => exact ih.symm
  | trans _ _ ih1 ih2 => exact ih1.trans ih2
  | slashes a b =>
    rw [components_front, components_front, show a ++ c!"//" ++ b = a ++ '/' :: ([] ++ '/' :: b) by simp,
      show a ++ c!"/" ++ b = a ++ '/' :: b by simp, front_slash, front_slash a b, pathParts_slash, pathParts_slash,
      pathParts_slash, parts_nil]
    rfl
  | dot a b =>
    rw [components_front, components_front, show a ++ c!"/./" ++ b = a ++ '/' :: (['.'] ++ '/' :: b) by simp,
      show a ++ c!"/" ++ b = a ++ '/' :: b by simp, front_slash, front_slash a b, pathParts_slash, pathParts_slash,
      pathParts_slash, show pathParts ['.'] = [] by decide]
    rfl
  | dotAtEnd a =>
    rw [components_front, components_front, show a ++ c!"/." = a ++ '/' :: ['.'] by simp,
      show a ++ c!"/" = a ++ '/' :: [] by simp, front_slash, front_slash a [], pathParts_slash, pathParts_slash,
      show pathParts ['.'] = [] by decide, parts_nil]
  | slashAtEnd a ha =>
    rw [components_front, components_front, front_end a ha, show a ++ c!"/" = a ++ '/' :: [] by simp, pathParts_slash, parts_nil,
      List.append_nil]

/-- The text of a path without what does not matter, after a prefix -/
def afterFront (a : Str) : List Str → Path
  | [] => a
  | l => a ++ '/' :: joinParts l

theorem clean_rest (l : List Str) (hl : l ≠ []) (a : Str) :
    SamePath (a ++ '/' :: joinParts l)
      (if l.filter counts = [] then a ++ c!"/" else a ++ '/' :: joinParts (l.filter counts)) := by
  induction l generalizing a with
  | nil => exact absurd rfl hl
  | cons s t ih =>
    by_cases ht : t = []
    · subst ht
      by_cases h1 : s = []
      · subst h1
        have : List.filter counts [([] : Str)] = [] := by decide
        rw [this, if_pos rfl]
        exact .refl _
      · by_cases h2 : s = ['.']
        · subst h2
          have : List.filter counts [['.']] = [] := by decide
          rw [this, if_pos rfl]
          exact .dotAtEnd a
        · have hc : counts s = true := by simp [counts, h1, h2]
          rw [List.filter_cons_of_pos hc]
          exact .refl _
    · have hj : joinParts (s :: t) = s ++ '/' :: joinParts t := by
        cases t with
        | nil => exact absurd rfl ht
        | cons => rfl
      rw [hj]
      by_cases h1 : s = []
      · subst h1
        have hf : List.filter counts ([] :: t) = List.filter counts t := by
          rw [List.filter_cons_of_neg]; decide
        rw [hf]
        refine .trans ?_ (ih ht a)
        have := SamePath.slashes a (joinParts t)
        simpa using this
      · by_cases h2 : s = ['.']
        · subst h2
          have hf : List.filter counts (['.'] :: t) = List.filter counts t := by
            rw [List.filter_cons_of_neg]; decide
          rw [hf]
          refine .trans ?_ (ih ht a)
          have := SamePath.dot a (joinParts t)
          simpa using this
        · have hc : counts s = true := by simp [counts, h1, h2]
          rw [List.filter_cons_of_pos hc, if_neg (by simp)]
          have := ih ht (a ++ '/' :: s)
          by_cases hn : t.filter counts = []
          · rw [hn, if_pos rfl] at this
            rw [hn]
            have h3 : SamePath (a ++ '/' :: (s ++ '/' :: joinParts t)) ((a ++ '/' :: s) ++ c!"/") := by simpa using this
            exact .trans h3 (.slashAtEnd _ (by simp))
          · rw [if_neg hn] at this
            have hj2 : joinParts (s :: t.filter counts) = s ++ '/' :: joinParts (t.filter counts) := by
              cases h : t.filter counts with
              | nil => exact absurd h hn
              | cons => rfl
            rw [hj2]
            simpa using this

/-- The simplest text of a path -/
def simplest (f : List Component) (l : List Str) : Path :=
  match f with
  | .rootDir :: _ => '/' :: joinParts l
  | .curDir :: _ => joinParts (['.'] :: l)
  | _ => joinParts l

theorem samePath_simplest (p : Path) : SamePath p (simplest (front p) (pathParts p)) := by
  have hp := joinParts_split p
  have hpp : pathParts p = (splitOnChar '/' p).filter counts := rfl
  cases hs : splitOnChar '/' p with
  | nil => exact absurd hs (splitOnChar_ne _ _)
  | cons s t =>
    rw [hs] at hp hpp
    have habs : isAbsolute p = true ↔ s = [] ∧ t ≠ [] := by
      cases p with
      | nil =>
        simp only [splitOnChar, List.cons.injEq] at hs
        simp [isAbsolute, ← hs.2]
      | cons c r =>
        by_cases hc : c = '/'
        · subst hc
          have : splitOnChar '/' ('/' :: r) = [] :: splitOnChar '/' r := by simp [splitOnChar]
          rw [this] at hs
          simp only [List.cons.injEq] at hs
          simp [isAbsolute, ← hs.1, ← hs.2, splitOnChar_ne]
        · have hs0 : s ≠ [] := by
            rw [splitOnChar, if_neg (by simpa using hc)] at hs
            split at hs
            · simp only [List.cons.injEq] at hs; rw [← hs.1]; simp
            · simp only [List.cons.injEq] at hs; rw [← hs.1]; simp
          constructor
          · intro h
            exfalso
            apply hc
            unfold isAbsolute at h
            split at h
            · next h' => cases h'; rfl
            · cases h
          · exact fun h => absurd h.1 hs0
    have hfront : front p = if isAbsolute p then [.rootDir] else if s = ['.'] then [.curDir] else [] := by
      unfold front
      rw [hs]
      simp
    by_cases ht : t = []
    · subst ht
      have hna : isAbsolute p = false := by
        cases h : isAbsolute p with
        | false => rfl
        | true => exact absurd rfl ((habs.1 h).2)
      rw [hna] at hfront
      have hps : p = s := hp.symm
      rw [hfront, hpp]
      by_cases h1 : s = []
      · subst h1; rw [hps]; exact .refl _
      · by_cases h2 : s = ['.']
        · subst h2; rw [hps]; exact .refl _
        · have hc : counts s = true := by simp [counts, h1, h2]
          rw [if_neg (by simp), if_neg h2, List.filter_cons_of_pos hc, hps]
          exact .refl _
    · have hj : joinParts (s :: t) = s ++ '/' :: joinParts t := by
        cases t with
        | nil => exact absurd rfl ht
        | cons => rfl
      have hpj : p = s ++ '/' :: joinParts t := by rw [← hp, hj]
      have hcl := clean_rest t ht s
      rw [← hpj] at hcl
      by_cases h1 : s = []
      · subst h1
        have ha : isAbsolute p = true := habs.2 ⟨rfl, ht⟩
        rw [ha] at hfront
        have hf : List.filter counts ([] :: t) = List.filter counts t := by
          rw [List.filter_cons_of_neg]; decide
        rw [hfront, hpp, hf]
        refine .trans hcl ?_
        by_cases hn : t.filter counts = []
        · rw [if_pos hn, hn]; exact .refl _
        · rw [if_neg hn]; exact .refl _
      · have hna : isAbsolute p = false := by
          cases h : isAbsolute p with
          | false => rfl
          | true => exact absurd (habs.1 h).1 h1
        rw [hna] at hfront
        have hend : ∀ l : List Str, SamePath (if l = [] then s ++ c!"/" else s ++ '/' :: joinParts l) (joinParts (s :: l)) := by
          intro l
          cases l with
          | nil => exact .slashAtEnd s h1
          | cons x y => exact .refl _
        by_cases h2 : s = ['.']
        · have hf : List.filter counts (s :: t) = List.filter counts t := by
            rw [List.filter_cons_of_neg]; subst h2; decide
          rw [hfront, if_neg (by simp), if_pos h2, hpp, hf]
          refine .trans hcl (.trans (hend _) ?_)
          rw [h2]
          exact .refl _
        · have hc : counts s = true := by simp [counts, h1, h2]
          rw [hfront, if_neg (by simp), if_neg h2, hpp, List.filter_cons_of_pos hc]
          exact .trans hcl (hend _)

theorem step_inj {l m : List Str}
    (h : (l.map fun s => if s = c!".." then Component.parentDir else .normal s) =
      m.map fun s => if s = c!".." then Component.parentDir else .normal s) : l = m := by
  induction l generalizing m with
  | nil => cases m with
    | nil => rfl
    | cons => cases h
  | cons a l ih =>
    cases m with
    | nil => cases h
    | cons b m =>
      simp only [List.map_cons, List.cons.injEq] at h
      rw [ih h.2]
      have h1 := h.1
      split at h1 <;> split at h1
      · next x y => rw [x, y]
      · cases h1
      · cases h1
      · cases h1; rfl

theorem components_inj {p q : Path} (h : components p = components q) : front p = front q ∧ pathParts p = pathParts q := by
  rw [components_front, components_front] at h
  have key : ∀ (f : List Component), f = front p ∨ f = front q → f = [] ∨ f = [.rootDir] ∨ f = [.curDir] := by
    intro f hf
    rcases hf with rfl | rfl <;> unfold front <;> split <;> first | exact .inr (.inl rfl) | (split <;> simp)
  have hno : ∀ (l : List Str) (c : Component) (r : List Component), c = .rootDir ∨ c = .curDir →
      (l.map fun s => if s = c!".." then Component.parentDir else .normal s) = c :: r → False := by
    intro l c r hc he
    cases l with
    | nil => cases he
    | cons a l =>
      simp only [List.map_cons, List.cons.injEq] at he
      have h1 := he.1
      rcases hc with rfl | rfl <;> split at h1 <;> cases h1
  have e : front p = front q := by
    rcases key _ (.inl rfl) with a | a | a <;> rcases key _ (.inr rfl) with b | b | b <;> rw [a, b] at h ⊢
    · exact (hno _ _ _ (.inl rfl) h).elim
    · exact (hno _ _ _ (.inr rfl) h).elim
    · exact (hno _ _ _ (.inl rfl) h.symm).elim
    · cases h
    · exact (hno _ _ _ (.inr rfl) h.symm).elim
    · cases h
  rw [e, List.append_cancel_left_eq] at h
  exact ⟨e, step_inj h⟩

/-- Paths have the same components exactly when they differ only in what does not matter. -/
theorem components_iff (p q : Path) : components p = components q ↔ SamePath p q := by
  constructor
  · intro h
    obtain ⟨h1, h2⟩ := components_inj h
    have := samePath_simplest p
    rw [h1, h2] at this
    exact this.trans (samePath_simplest q).symm
  · exact samePath_sound

theorem pathCmp_eq (p q : Path) : pathCmp p q = some .eq ↔ SamePath p q := by
  rw [← components_iff]
  exact listCmp_eq cmp_eq _ _

theorem pathEq_iff (p q : Path) : pathEq p q = true ↔ SamePath p q := by
  rw [← components_iff]
  simp [pathEq]

/-! ## Locations, requirements, relations -/

theorem lawful_partialCmp : Lawful LocationInFile.partialCmp where
  swap := C49_swap_partial
  trans := C49_trans_partial
  congr a b c h := by
    rw [partialCmp_key] at h
    rw [partialCmp_key, partialCmp_key]
    cases ha : a.key <;> cases hb : b.key <;> cases hc : c.key <;>
      simp only [ha, hb, Option.some.injEq, reduceCtorEq] at h ⊢ <;> rw [Std.TransCmp.congr_left h]

theorem lawful_locationCmp : Lawful locationCmp :=
  (lawful_pathCmp.on Location.file).andThen (lawful_partialCmp.option.on Location.locationInFile)

theorem locationCmp_eq (a b : Location) : locationCmp a b = some .eq ↔ SameSpot a b := by
  unfold locationCmp SameSpot
  rw [andThen_eq, pathCmp_eq]
  refine and_congr Iff.rfl ?_
  cases a.locationInFile <;> cases b.locationInFile <;> simp [optionCmp, C49_equal_partial]

theorem lawful_requirementCmp : Lawful requirementCmp := lawful_strCmp.on Requirement.id

theorem requirementCmp_eq (a b : Requirement) : requirementCmp a b = some .eq ↔ a.id = b.id := strCmp_eq _ _

theorem lawful_relationCmp : Lawful relationCmp :=
  (lawful_strCmp.on Relation.upper).andThen (lawful_strCmp.list.on Relation.lower)

theorem relationCmp_eq (a b : Relation) : relationCmp a b = some .eq ↔ a = b := by
  unfold relationCmp
  rw [andThen_eq, strCmp_eq, listCmp_eq strCmp_eq]
  cases a; cases b; simp

/-! ## Errors -/

/-- What an error consists of -/
inductive Field where
  | loc (l : Location)
  | text (s : Str)
  | req (r : Requirement)
  | path (p : Path)
  | rel (r : Relation)

/-- The fields of an error -/
def fields : Error → List Field
  | .format l t => [.loc l, .text t]
  | .duplicateRequirement a b => [.req a, .req b]
  | .duplicateAttribute l t r => [.loc l, .text t, .text r]
  | .io p t => [.path p, .text t]
  | .config t => [.text t]
  | .duplicateArtefact t => [.text t]
  | .unknownArtefact t => [.text t]
  | .coveredWithWrongTitle a b t l => [.req a, .req b, .text t, .loc l]
  | .dependWithWrongTitle a b t l => [.req a, .req b, .text t, .loc l]
  | .referencedWithoutTitle r l => [.req r, .loc l]
  | .requirementWithoutTitle r => [.req r]
  | .dependOnUnknownRequirement r i l => [.req r, .text i, .loc l]
  | .coversUnknownRequirement r i l => [.req r, .text i, .loc l]
  | .emptyGraph => []
  | .unusedRelation r => [.rel r]

/-- Comparison of fields; different kinds never meet -/
def fieldCmp : Field → Field → Option Ordering
  | .loc a, .loc b => locationCmp a b
  | .text a, .text b => strCmp a b
  | .req a, .req b => requirementCmp a b
  | .path a, .path b => pathCmp a b
  | .rel a, .rel b => relationCmp a b
  | _, _ => none

theorem lawful_fieldCmp : Lawful fieldCmp where
  swap a b := by
    cases a <;> cases b <;> first
      | rfl | exact lawful_locationCmp.swap _ _ | exact lawful_strCmp.swap _ _ | exact lawful_requirementCmp.swap _ _
      | exact lawful_pathCmp.swap _ _ | exact lawful_relationCmp.swap _ _
  trans a b c o h1 h2 := by
    cases a <;> cases b <;> first | (cases h1; done) | skip
    all_goals cases c <;> first | (cases h2; done) | skip
    · exact lawful_locationCmp.trans _ _ _ o h1 h2
    · exact lawful_strCmp.trans _ _ _ o h1 h2
    · exact lawful_requirementCmp.trans _ _ _ o h1 h2
    · exact lawful_pathCmp.trans _ _ _ o h1 h2
    · exact lawful_relationCmp.trans _ _ _ o h1 h2
  congr a b c h := by
    cases a <;> cases b <;> first | (cases h; done) | skip
    all_goals cases c <;> first | rfl | skip
    · exact lawful_locationCmp.congr _ _ _ h
    · exact lawful_strCmp.congr _ _ _ h
    · exact lawful_requirementCmp.congr _ _ _ h
    · exact lawful_pathCmp.congr _ _ _ h
    · exact lawful_relationCmp.congr _ _ _ h

theorem andThen_some_eq (o : Option Ordering) : Order.andThen o (some .eq) = o := by
  cases o with
  | none => rfl
  | some o => cases o <;> rfl

theorem errorCmp_fields (a b : Error) :
    errorCmp a b = Order.andThen (some (compare (variant a) (variant b))) (listCmp fieldCmp (fields a) (fields b)) := by
  cases a <;> cases b <;> first
    | rfl
    | (simp only [errorCmp, variant, fields, listCmp, fieldCmp, andThen_some_eq]; rfl)

theorem lawful_errorCmp : Lawful errorCmp :=
  lawful_eq (((lawful_of_ord (α := Nat)).on variant).andThen (lawful_fieldCmp.list.on fields)) errorCmp_fields

theorem errorCmp_eq (a b : Error) : errorCmp a b = some .eq ↔ SameProblem a b := by
  cases a <;> cases b <;> first
    | (simp only [errorCmp, SameProblem, andThen_eq, locationCmp_eq, strCmp_eq, requirementCmp_eq, pathCmp_eq, relationCmp_eq]; done)
    | (simp [errorCmp, SameProblem, variant]; done)

theorem lawful_controllerErrorCmp : Lawful controllerErrorCmp := by
  let num : ControllerError → Nat := fun | .config _ => 0 | .unknownJob _ => 1 | .io .. => 2
  let fs : ControllerError → List Field := fun
    | .config t => [.text t]
    | .unknownJob t => [.text t]
    | .io p t => [.path p, .text t]
  refine lawful_eq (((lawful_of_ord (α := Nat)).on num).andThen (lawful_fieldCmp.list.on fs)) fun a b => ?_
  cases a <;> cases b <;> first
    | rfl
    | (simp only [num, fs, controllerErrorCmp, listCmp, fieldCmp, andThen_some_eq]; rfl)

theorem controllerErrorCmp_eq (a b : ControllerError) : controllerErrorCmp a b = some .eq ↔ SameComplaint a b := by
  cases a <;> cases b <;> first
    | (simp only [controllerErrorCmp, SameComplaint, andThen_eq, strCmp_eq, pathCmp_eq]; done)
    | (simp [controllerErrorCmp, SameComplaint]; done)

/-! ## C124 -/

/-- **C124** as listed. -/
def C124_statement : Prop :=
  Compares locationCmp (fun a b => locationEq a b = true) ∧ Compares requirementCmp (fun a b => requirementEq a b = true) ∧
  Compares relationCmp (fun a b => relationEq a b = true) ∧ Compares errorCmp (fun a b => errorEq a b = true) ∧
  Compares controllerErrorCmp (fun a b => controllerErrorEq a b = true)

/-- **C124** is false as listed: requirements that differ in everything but the id compare equal. -/
theorem C124_false : ¬ C124_statement := by
  intro h
  have := (h.2.1.equal ⟨c!"A", none, ⟨c!"f", none⟩, [], [], [], .empty⟩ ⟨c!"A", some c!"t", ⟨c!"g", none⟩, [], [], [], .empty⟩).1
    (by decide +kernel)
  revert this
  decide +kernel

/-- **C124**, locations: what compares equal is the same place, where a line is its column 0. -/
theorem C124_location_partial : Compares locationCmp SameSpot :=
  ⟨lawful_locationCmp.swap, lawful_locationCmp.trans, locationCmp_eq⟩

/-- **C124**, requirements: what compares equal has the same id. -/
theorem C124_requirement_partial : Compares requirementCmp (fun a b => a.id = b.id) :=
  ⟨lawful_requirementCmp.swap, lawful_requirementCmp.trans, requirementCmp_eq⟩

/-- **C124**, problems: what compares equal looks the same. -/
theorem C124_error_partial : Compares errorCmp SameProblem :=
  ⟨lawful_errorCmp.swap, lawful_errorCmp.trans, errorCmp_eq⟩

/-- **C124**, relations: as listed. -/
theorem C124_relation : Compares relationCmp (fun a b => relationEq a b = true) :=
  ⟨lawful_relationCmp.swap, lawful_relationCmp.trans, fun a b => by
    rw [relationCmp_eq]
    cases a; cases b
    simp [relationEq]⟩

/-- **C124**, what the controller complains about: as listed. -/
theorem C124_complaint : Compares controllerErrorCmp (fun a b => controllerErrorEq a b = true) :=
  ⟨lawful_controllerErrorCmp.swap, lawful_controllerErrorCmp.trans, fun a b => by
    rw [controllerErrorCmp_eq]
    cases a <;> cases b <;> simp [controllerErrorEq, SameComplaint, pathEq_iff]⟩

/-- **C124**, what `controllerErrorEq` is -/
theorem C124_complaint_equal (a b : ControllerError) : controllerErrorEq a b = true ↔ SameComplaint a b := by
  cases a <;> cases b <;> simp [controllerErrorEq, SameComplaint, pathEq_iff]

theorem C124_location_equal (a b : Location) : locationEq a b = true ↔ EqualLocation a b := by
  simp [locationEq, EqualLocation, pathEq_iff]

theorem referenceEq_iff (a b : Reference) : referenceEq a b = true ↔ EqualReference a b := by
  simp [referenceEq, EqualReference, C124_location_equal]

theorem listEq_iff {α : Type} {f : α → α → Bool} {r : α → α → Prop} (h : ∀ a b, f a b = true ↔ r a b) (l m : List α) :
    listEq f l m = true ↔ Pointwise r l m := by
  induction l generalizing m with
  | nil => cases m <;> simp [listEq, Pointwise]
  | cons a l ih =>
    cases m with
    | nil => simp [listEq, Pointwise]
    | cons b m =>
      show (f a b && listEq f l m) = true ↔ _
      rw [Bool.and_eq_true, h, ih]
      constructor
      · rintro ⟨h1, h2, h3⟩
        refine ⟨by simp [h2], fun i x y hx hy => ?_⟩
        cases i with
        | zero => simp only [List.getElem?_cons_zero, Option.some.injEq] at hx hy; subst hx hy; exact h1
        | succ i => exact h3 i x y (by simpa using hx) (by simpa using hy)
      · rintro ⟨h1, h2⟩
        exact ⟨h2 0 a b rfl rfl, by simpa using h1, fun i x y hx hy => h2 (i + 1) x y (by simpa using hx) (by simpa using hy)⟩

/-- **C124**, `==` of requirements looks at all fields. -/
theorem C124_requirement_equal (a b : Requirement) : requirementEq a b = true ↔ EqualRequirement a b := by
  have he : a.attributes = b.attributes ↔ a.attributes.entries = b.attributes.entries := by
    cases a.attributes; cases b.attributes; simp
  simp [requirementEq, EqualRequirement, C124_location_equal, listEq_iff referenceEq_iff, he]

theorem samePlace_refl (a : LocationInFile) : samePlace a a := by cases a <;> simp [samePlace]

theorem sameSpot_of_equal {a b : Location} (h : locationEq a b = true) : SameSpot a b := by
  obtain ⟨h1, h2⟩ := (C124_location_equal a b).1 h
  refine ⟨h1, ?_⟩
  rw [h2]
  cases b.locationInFile with
  | none => trivial
  | some x => exact samePlace_refl x

theorem sameId_of_equal {a b : Requirement} (h : requirementEq a b = true) : a.id = b.id := ((C124_requirement_equal a b).1 h).1

/-- **C124**, what is `==` compares equal. -/
theorem C124_equal_compares :
    (∀ a b, locationEq a b = true → locationCmp a b = some .eq) ∧ (∀ a b, requirementEq a b = true → requirementCmp a b = some .eq) ∧
    (∀ a b, errorEq a b = true → errorCmp a b = some .eq) := by
  refine ⟨fun a b h => (locationCmp_eq a b).2 (sameSpot_of_equal h), fun a b h => (requirementCmp_eq a b).2 (sameId_of_equal h),
    fun a b h => (errorCmp_eq a b).2 ?_⟩
  have rel : ∀ a b : Relation, relationEq a b = true → a = b := by
    intro a b h
    cases a; cases b
    simpa [relationEq] using h
  cases a <;> cases b <;> simp only [errorEq, Bool.and_eq_true, beq_iff_eq, Bool.false_eq_true] at h <;> simp only [SameProblem]
  · exact ⟨sameSpot_of_equal h.1, h.2⟩
  · exact ⟨sameId_of_equal h.1, sameId_of_equal h.2⟩
  · exact ⟨sameSpot_of_equal h.1, h.2⟩
  · exact ⟨(pathEq_iff _ _).1 h.1, h.2⟩
  · exact h
  · exact h
  · exact h
  · exact ⟨sameId_of_equal h.1, sameId_of_equal h.2.1, h.2.2.1, sameSpot_of_equal h.2.2.2⟩
  · exact ⟨sameId_of_equal h.1, sameId_of_equal h.2.1, h.2.2.1, sameSpot_of_equal h.2.2.2⟩
  · exact ⟨sameId_of_equal h.1, sameSpot_of_equal h.2⟩
  · exact sameId_of_equal h
  · exact ⟨sameId_of_equal h.1, h.2.1, sameSpot_of_equal h.2.2⟩
  · exact ⟨sameId_of_equal h.1, h.2.1, sameSpot_of_equal h.2.2⟩
  · exact rel _ _ h

/-- **C124**, which comes first: the file decides, then the position, and a location without a position comes before those with one. -/
theorem C124_location_first (a b : Location) : locationCmp a b = some .lt ↔
    pathCmp a.file b.file = some .lt ∨ SamePath a.file b.file ∧
      ((a.locationInFile = none ∧ ∃ y, b.locationInFile = some y) ∨
        ∃ x y, a.locationInFile = some x ∧ b.locationInFile = some y ∧ x.partialCmp y = some .lt) := by
  unfold locationCmp
  rw [← pathCmp_eq]
  cases h : pathCmp a.file b.file with
  | none => simp [Order.andThen]
  | some o =>
    cases o
    · simp [Order.andThen]
    · cases a.locationInFile <;> cases b.locationInFile <;> simp [Order.andThen, optionCmp]
    · simp [Order.andThen]

theorem kind_variant (i : Nat) (P : Error → Prop) (h : kindsOfProblems[i]? = some P) (a : Error) (ha : P a) : variant a = i := by
  have hi : i < 15 := by
    rcases Nat.lt_or_ge i 15 with h1 | h1
    · exact h1
    · rw [List.getElem?_eq_none (by simpa [kindsOfProblems] using h1)] at h; cases h
  have key : ∀ k : Nat, k < 15 → ∀ P, kindsOfProblems[k]? = some P → ∀ a, P a → variant a = k := by
    intro k hk P hP a ha
    cases a <;> (
      match k, hk with
      | 0, _ | 1, _ | 2, _ | 3, _ | 4, _ | 5, _ | 6, _ | 7, _ | 8, _ | 9, _ | 10, _ | 11, _ | 12, _ | 13, _ | 14, _ =>
        simp only [kindsOfProblems, List.getElem?_cons_succ, List.getElem?_cons_zero, Option.some.injEq] at hP
        subst hP
        first
          | rfl
          | (simp at ha; done))
  exact key i hi P h a ha

/-- **C124**, problems of a kind that is declared earlier come first. -/
theorem C124_error_kinds (i j : Nat) (P Q : Error → Prop) (hi : kindsOfProblems[i]? = some P) (hj : kindsOfProblems[j]? = some Q)
    (a b : Error) (ha : P a) (hb : Q b) (h : i < j) : errorCmp a b = some .lt := by
  rw [errorCmp_fields, kind_variant i P hi a ha, kind_variant j Q hj b hb, Nat.compare_eq_lt.2 h]
  rfl

/-- A line and its column 0 compare equal, and are not `==`; `a//b/.` is another spelling of `a/b`. -/
example : locationCmp ⟨c!"a//b/.", some (.line 5)⟩ ⟨c!"a/b", some (.lineAndColumn 5 0)⟩ = some .eq ∧
    locationEq ⟨c!"a//b/.", some (.line 5)⟩ ⟨c!"a/b", some (.lineAndColumn 5 0)⟩ = false ∧
    locationEq ⟨c!"a//b/.", some (.line 5)⟩ ⟨c!"a/b", some (.line 5)⟩ = true ∧
    locationCmp ⟨c!"/a", none⟩ ⟨c!"./a", none⟩ = some .lt ∧ locationCmp ⟨c!"../a", none⟩ ⟨c!"./a", none⟩ = some .gt ∧
    errorCmp (.config c!"z") (.duplicateArtefact c!"a") = some .lt ∧
    errorCmp (.format ⟨c!"f", some (.line 1)⟩ []) (.format ⟨c!"f", some (.string c!"x")⟩ []) = none := by
  decide +kernel

end Reqtrace
