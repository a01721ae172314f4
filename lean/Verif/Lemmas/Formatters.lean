import Verif.Formatters
import Verif.Spec.Formatters

/-!
# Formatters that do not panic write the concatenation of their parts
-/

set_option linter.unusedSimpArgs false

namespace Reqtrace

open Out

theorem Out.seq_put (s : Str) (o : Out) : seq (put s) o = ⟨s ++ o.text, o.panic⟩ := rfl

theorem Out.seq_ok {a b : Out} (h : a.panic = none) : seq a b = ⟨a.text ++ b.text, b.panic⟩ := by
  unfold seq; rw [h]

theorem Out.eq_put {o : Out} (h : o.panic = none) : o = put o.text := by
  cases o; cases h; rfl

theorem Out.all_ok {os : List Out} (h : ∀ o ∈ os, o.panic = none) : all os = put (os.flatMap Out.text) := by
  induction os with
  | nil => rfl
  | cons o os ih =>
    rw [all, seq_ok (h o (List.mem_cons_self ..)), ih fun o' ho' => h o' (List.mem_cons_of_mem _ ho')]
    rfl

theorem Out.all_map_ok {α : Type} {f : α → Out} {l : List α} {t : α → Str} (h : ∀ a ∈ l, f a = put (t a)) :
    all (l.map f) = put (l.flatMap t) := by
  induction l with
  | nil => rfl
  | cons a l ih =>
    rw [List.map_cons, all, h a (List.mem_cons_self ..), ih fun o' ho' => h o' (List.mem_cons_of_mem _ ho')]
    rfl

theorem Out.seq_put_put (a b : Str) : seq (put a) (put b) = put (a ++ b) := rfl

theorem Out.all_put (l : List Str) : all (l.map put) = put l.flatten := by
  rw [Out.all_map_ok (f := put) (t := id) (fun _ _ => rfl), List.flatMap_id]

theorem MdOut.section_ok {α : Type} (title : Str) (has : α → Bool) (body : α → Out) (t : α → Str) :
    ∀ (done : Bool) (l : List α), (∀ a ∈ l, has a = true → body a = put (t a)) →
      MdOut.section_ title has body done l =
        put ((if done = true ∨ l.filter has = [] then [] else MdOut.headline title) ++ (l.filter has).flatMap t) := by
  intro done l
  induction l generalizing done with
  | nil => intro _; cases done <;> rfl
  | cons a l ih =>
    intro h
    have ht := fun b hb => h b (List.mem_cons_of_mem _ hb)
    rw [MdOut.section_]
    by_cases ha : has a = true
    · rw [if_pos ha, h a (List.mem_cons_self ..) ha, ih true ht, List.filter_cons_of_pos ha]
      cases done <;> simp [Out.when, seq, put]
    · rw [if_neg ha, ih done ht, List.filter_cons_of_neg ha]

theorem allRequirements_eq (arts : BMap ArtefactId Artefact) :
    allRequirements arts = Spec.requirementsOf arts := by
  unfold allRequirements Spec.requirementsOf BMap.values
  rw [List.flatMap_map]

theorem allErrors_eq (arts : BMap ArtefactId Artefact) : allErrors arts = Spec.errorsOf arts := by
  unfold allErrors Spec.errorsOf BMap.values
  rw [List.flatMap_map]

theorem mem_requirementsOf (arts : BMap ArtefactId Artefact) (r : Requirement) :
    r ∈ Spec.requirementsOf arts ↔ ∃ a art k, arts.get a = some art ∧ art.requirements.get k = some r := by
  unfold Spec.requirementsOf
  simp only [List.mem_flatMap, List.mem_map, BMap.get_eq_some_iff]
  constructor
  · rintro ⟨⟨a, art⟩, h1, ⟨k, r'⟩, h2, rfl⟩; exact ⟨a, art, k, h1, h2⟩
  · rintro ⟨a, art, k, h1, h2⟩; exact ⟨(a, art), h1, (k, r), h2, rfl⟩

/-! ## Sorting -/

theorem insertByKey_perm {α : Type} (key : α → Str) (a : α) (l : List α) : (insertByKey key a l).Perm (a :: l) := by
  induction l with
  | nil => exact List.Perm.refl _
  | cons b l ih =>
    rw [insertByKey]
    split
    · exact (ih.cons b).trans (List.Perm.swap a b l)
    · exact List.Perm.refl _

theorem sort_perm {α : Type} (key : α → Str) (l : List α) : (sortByKey key l).Perm l := by
  induction l with
  | nil => exact List.Perm.refl _
  | cons a l ih => exact (insertByKey_perm key a _).trans (ih.cons a)

theorem insertByKey_sorted {α : Type} (key : α → Str) (a : α) (l : List α)
    (h : l.Pairwise (fun a b => compare (key a) (key b) ≠ .gt)) :
    (insertByKey key a l).Pairwise (fun a b => compare (key a) (key b) ≠ .gt) := by
  induction l with
  | nil => exact List.pairwise_singleton _ _
  | cons b l ih =>
    rw [insertByKey]
    split
    · rename_i hgt
      refine List.pairwise_cons.2 ⟨?_, ih (List.pairwise_cons.1 h).2⟩
      intro c hc
      rcases List.mem_cons.1 ((insertByKey_perm key a l).mem_iff.1 hc) with rfl | hc
      · rw [Std.OrientedCmp.gt_iff_lt.1 hgt]; decide
      · exact (List.pairwise_cons.1 h).1 c hc
    · rename_i hle
      refine List.pairwise_cons.2 ⟨?_, h⟩
      intro c hc
      rcases List.mem_cons.1 hc with rfl | hc
      · exact hle
      · have h2 := (List.pairwise_cons.1 h).1 c hc
        simp only [ne_eq, ← Ordering.isLE_iff_ne_gt] at hle h2 ⊢
        exact Std.TransCmp.isLE_trans hle h2

theorem sort_sorted {α : Type} (key : α → Str) (l : List α) :
    (sortByKey key l).Pairwise (fun a b => compare (key a) (key b) ≠ .gt) := by
  induction l with
  | nil => exact List.Pairwise.nil
  | cons a l ih => exact insertByKey_sorted key a _ ih

theorem insertByKey_filter {α : Type} (key : α → Str) (a : α) (l : List α) (k : Str) :
    (insertByKey key a l).filter (fun b => key b = k) = (a :: l).filter (fun b => key b = k) := by
  induction l with
  | nil => rfl
  | cons b l ih =>
    rw [insertByKey]
    split
    · rename_i hgt
      have hne : key a ≠ key b := by
        intro he; rw [he, Std.ReflOrd.compare_self] at hgt; cases hgt
      rw [List.filter_cons, ih]
      by_cases hb : key b = k
      · have ha : ¬ key a = k := fun h => hne (h.trans hb.symm)
        simp [hb, ha]
      · simp [hb, List.filter_cons]
    · rfl

theorem sort_stable {α : Type} (key : α → Str) (l : List α) (k : Str) :
    (sortByKey key l).filter (fun a => key a = k) = l.filter (fun a => key a = k) := by
  induction l with
  | nil => rfl
  | cons a l ih =>
    show (insertByKey key a (sortByKey key l)).filter _ = _
    rw [insertByKey_filter, List.filter_cons, List.filter_cons, ih]

end Reqtrace
