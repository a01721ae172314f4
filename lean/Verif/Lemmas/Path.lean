import Verif.Lemmas.Controller
import Verif.Lemmas.MonoReq
import Verif.Spec.Path

/-!
# Parents of paths
-/

namespace Reqtrace

open Spec

/-- Components that can be left out. -/
def skippable (s : Str) : Bool := s == [] || s == ['.']

theorem skippable_iff {s : Str} : skippable s = true ↔ s = [] ∨ s = ['.'] := by simp [skippable]

theorem trail_iff {t : Str} : Trail t ↔ ∃ ys : List Str, (∀ y ∈ ys, skippable y = true) ∧ t = ys.flatMap (fun y => '/' :: y) := by
  constructor
  · intro h
    induction h with
    | nil => exact ⟨[], by simp, rfl⟩
    | slash _ ih =>
      obtain ⟨ys, h1, rfl⟩ := ih
      exact ⟨[] :: ys, by simpa [skippable] using h1, rfl⟩
    | dot _ _ ih =>
      obtain ⟨ys, h1, rfl⟩ := ih
      exact ⟨['.'] :: ys, by simpa [skippable] using h1, rfl⟩
  · rintro ⟨ys, h, rfl⟩
    exact (trail_of fun y hy => skippable_iff.1 (h y hy)).1

theorem skippable_no {y : Str} (h : skippable y = true) : '/' ∉ y := by
  rcases skippable_iff.1 h with rfl | rfl <;> decide

theorem split_flat (q : Str) (ys : List Str) (h : ∀ y ∈ ys, '/' ∉ y) :
    splitOnChar '/' (q ++ ys.flatMap (fun y => '/' :: y)) = splitOnChar '/' q ++ ys := by
  induction ys generalizing q with
  | nil => simp
  | cons y ys ih =>
    rw [List.flatMap_cons, List.cons_append, splitOnChar_append, ih _ (fun z hz => h z (List.mem_cons_of_mem _ hz)),
      splitOnChar_no (h y List.mem_cons_self)]
    simp

theorem joinParts_flat (s : Str) (ys : List Str) : joinParts (s :: ys) = s ++ ys.flatMap (fun y => '/' :: y) := by
  induction ys generalizing s with
  | nil => simp [joinParts]
  | cons y ys ih => rw [joinParts, ih]
                    · simp
                    · simp

theorem trimBack_spec (s : Str) (rest : List Str) : ∃ keep more, rest = keep ++ more ∧ trimBack (s :: rest) = s :: keep ∧
    (∀ y ∈ more, skippable y = true) ∧ ∀ x, keep.getLast? = some x → skippable x = false := by
  refine ⟨(rest.reverse.dropWhile skippable).reverse, (rest.reverse.takeWhile skippable).reverse, ?_, rfl, ?_, ?_⟩
  · rw [← List.reverse_append, List.takeWhile_append_dropWhile, List.reverse_reverse]
  · intro y hy
    rw [List.mem_reverse] at hy
    exact List.all_eq_true.1 List.all_takeWhile y hy
  · intro x hx
    rw [List.getLast?_reverse] at hx
    have := List.head?_dropWhile_not (p := skippable) (l := rest.reverse)
    rw [hx] at this
    simpa using this

theorem trimBack_eq (s : Str) (keep more : List Str) (hm : ∀ y ∈ more, skippable y = true)
    (hk : ∀ x, keep.getLast? = some x → skippable x = false) : trimBack (s :: (keep ++ more)) = s :: keep := by
  unfold trimBack
  show s :: _ = _
  rw [List.reverse_append]
  have h1 : (more.reverse ++ keep.reverse).dropWhile (fun s => s == [] || s == ['.']) = keep.reverse := by
    show (more.reverse ++ keep.reverse).dropWhile skippable = keep.reverse
    rw [List.dropWhile_append_of_pos (fun y hy => hm y (List.mem_reverse.1 hy))]
    rcases List.eq_nil_or_concat keep with rfl | ⟨k, x, rfl⟩
    · rfl
    · rw [List.concat_eq_append, List.reverse_append]
      have := hk x (by simp)
      simp only [List.reverse_cons, List.reverse_nil, List.nil_append, List.singleton_append, List.dropWhile_cons]
      rw [this]
      rfl
  rw [h1, List.reverse_reverse]

theorem parent_none (p : Path) : parent p = none ↔ Trail p := by
  constructor
  · intro h
    cases hs : splitOnChar '/' p with
    | nil => exact absurd hs (splitOnChar_ne_nil _ _)
    | cons s rest =>
      obtain ⟨keep, more, rfl, h1, h2, h3⟩ := trimBack_spec s rest
      unfold parent at h
      rw [hs, h1] at h
      cases keep with
      | nil =>
        simp only at h
        split at h
        · next hs0 =>
          subst hs0
          have := joinParts_split p
          rw [hs, List.nil_append, joinParts_flat] at this
          rw [← this]
          exact trail_iff.2 ⟨more, h2, rfl⟩
        · cases h
      | cons k ks =>
        simp only at h
        split at h <;> cases h
  · intro h
    obtain ⟨ys, h1, rfl⟩ := trail_iff.1 h
    have := split_flat [] ys (fun y hy => skippable_no (h1 y hy))
    rw [List.nil_append] at this
    unfold parent
    rw [this]
    have h2 := trimBack_eq [] [] ys h1 (by simp)
    rw [List.nil_append] at h2
    show (match trimBack ([] :: ys) with | [] => _ | [s] => _ | s :: t => _) = _
    rw [h2]
    rfl

/-- What precedes a `/`. -/
theorem before_slash {d : Str} (h : d.getLast? = some '/') : ∃ e, d = e ++ ['/'] := List.getLast?_eq_some_iff.1 h

theorem up_nil {q : Str} (h : Up [] q) : q = [] := by
  generalize hd : ([] : Str) = d at h
  cases h with
  | nothing => rfl
  | root h => exact absurd hd.symm h
  | dir _ _ h => exact absurd (List.append_eq_nil_iff.1 hd.symm).1 h

theorem parent_iff (p q : Path) : parent p = some q ↔ Parent p q := by
  constructor
  · intro h
    have hp := joinParts_split p
    have hno : ∀ x ∈ splitOnChar '/' p, '/' ∉ x := fun x hx => splitOnChar_mem_no hx
    cases hs : splitOnChar '/' p with
    | nil => exact absurd hs (splitOnChar_ne_nil _ _)
    | cons s rest =>
      obtain ⟨keep, more, rfl, h1, h2, h3⟩ := trimBack_spec s rest
      unfold parent at h
      rw [hs, h1] at h
      rw [hs] at hp hno
      rcases List.eq_nil_or_concat keep with rfl | ⟨k, x, rfl⟩
      · simp only at h
        split at h
        · cases h
        · next hs0 =>
          cases h
          rw [List.nil_append, joinParts_flat] at hp
          rw [← hp, ← List.nil_append (s ++ _), ← List.append_assoc]
          exact .intro hs0 (hno s (by simp)) (fun _ => rfl) (.inl rfl) (trail_iff.2 ⟨more, h2, rfl⟩) .nothing
      · rw [List.concat_eq_append] at *
        have hx := h3 x (by simp)
        have hx' : x ≠ [] ∧ x ≠ ['.'] := by
          constructor
          · rintro rfl; cases hx
          · rintro rfl; cases hx
        obtain ⟨k2, m2, rfl, g1, g2, g3⟩ := trimBack_spec s k
        have hdrop : (s :: (k2 ++ m2 ++ [x])).dropLast = s :: (k2 ++ m2) := by
          rw [← List.cons_append, List.dropLast_concat]
        have hform : p = (s ++ k2.flatMap (fun y => '/' :: y)) ++ (m2 ++ [[]]).flatMap (fun y => '/' :: y) ++ x ++
            more.flatMap (fun y => '/' :: y) := by
          rw [← hp, joinParts_flat]
          simp
        have hm2 : ∀ y ∈ m2 ++ [[]], skippable y = true := by
          intro y hy
          rcases List.mem_append.1 hy with hy | hy
          · exact g2 y hy
          · rw [List.mem_singleton.1 hy]; rfl
        have hq : q = if s :: k2 = [[]] then ['/'] else s ++ k2.flatMap (fun y => '/' :: y) := by
          have : (match s :: (k2 ++ m2 ++ [x]) with
              | [] => none
              | [s] => if s = [] then none else some []
              | s :: t =>
                let up := trimBack ((s :: t).dropLast)
                if up = [[]] then some ['/'] else some (joinParts up)) = some q := h
          cases hk : k2 ++ m2 ++ [x] with
          | nil => simp at hk
          | cons a b =>
            rw [hk] at this
            simp only at this
            rw [← hk, hdrop, g1] at this
            split at this
            · next he => cases this; rw [if_pos he]
            · next he => cases this; rw [if_neg he, joinParts_flat]
        rw [hform]
        refine .intro hx'.1 (hno x (by simp)) (fun he => absurd he hx'.2) (.inr (by simp)) (trail_iff.2 ⟨more, h2, rfl⟩) ?_
        by_cases he : s :: k2 = [[]]
        · rw [if_pos he] at hq
          cases he
          subst hq
          exact .root (by simp) (trail_iff.2 ⟨_, hm2, rfl⟩)
        · rw [if_neg he] at hq
          rw [← hq]
          have hsplit : splitOnChar '/' q = s :: k2 := by
            rw [hq, split_flat _ _ (fun y hy => hno y (by simp [hy])), splitOnChar_no (hno s (by simp))]
            rfl
          have hlast : ∀ u y, q = u ++ '/' :: y → '/' ∉ y → skippable y = false := by
            intro u y hu hy
            have : splitOnChar '/' q = splitOnChar '/' u ++ [y] := by
              rw [hu, splitOnChar_append, splitOnChar_no hy]
            rw [hsplit] at this
            refine g3 y ?_
            cases hu' : splitOnChar '/' u with
            | nil => exact absurd hu' (splitOnChar_ne_nil _ _)
            | cons a b =>
              rw [hu'] at this
              simp only [List.cons_append, List.cons.injEq] at this
              rw [this.2]; simp
          refine .dir (trail_iff.2 ⟨_, hm2, rfl⟩) (by simp) ?_ ?_ ?_
          · rintro h0
            rw [h0] at hsplit
            exact he hsplit.symm
          · intro hl
            obtain ⟨u, hu⟩ := before_slash hl
            have := hlast u [] hu (by simp)
            cases this
          · intro u hu
            have := hlast u ['.'] hu (by decide)
            cases this
  · intro h
    cases h with
    | @intro d name trail q h1 h2 h3 h4 h5 h6 =>
      obtain ⟨ys, hy, rfl⟩ := trail_iff.1 h5
      have hyno : ∀ y ∈ ys, '/' ∉ y := fun y h => skippable_no (hy y h)
      unfold parent
      rw [split_flat _ _ hyno]
      rcases h4 with rfl | h4
      · rw [up_nil h6, List.nil_append, splitOnChar_no h2]
        have := trimBack_eq name [] ys hy (by simp)
        rw [List.nil_append] at this
        show (match trimBack (name :: ys) with | [] => _ | [s] => _ | s :: t => _) = _
        rw [this]
        simp [h1]
      · obtain ⟨e, rfl⟩ := before_slash h4
        have hname : skippable name = false := by
          cases hx : skippable name with
          | false => rfl
          | true =>
            rcases skippable_iff.1 hx with rfl | rfl
            · exact absurd rfl h1
            · have := h3 rfl; simp at this
        have hsp : splitOnChar '/' (e ++ ['/'] ++ name) = splitOnChar '/' e ++ [name] := by
          rw [List.append_assoc, List.singleton_append, splitOnChar_append, splitOnChar_no h2]
        rw [hsp]
        cases he : splitOnChar '/' e with
        | nil => exact absurd he (splitOnChar_ne_nil _ _)
        | cons s k =>
          have ht := trimBack_eq s (k ++ [name]) ys hy (by simp [hname])
          have ht' : trimBack (s :: k ++ [name] ++ ys) = s :: (k ++ [name]) := by
            rw [← ht]; simp
          rw [ht']
          cases hk : k ++ [name] with
          | nil => simp at hk
          | cons a b =>
            simp only
            rw [← hk, ← List.cons_append, List.dropLast_concat]
            generalize hd : e ++ ['/'] = d at h6
            cases h6 with
            | nothing => simp at hd
            | root _ h =>
              rw [← hd] at h
              obtain ⟨zs, hz, hze⟩ := trail_iff.1 h
              have : splitOnChar '/' (e ++ ['/']) = [] :: zs := by
                rw [hze]
                have := split_flat [] zs (fun y h => skippable_no (hz y h))
                rw [List.nil_append] at this
                rw [this]; rfl
              rw [splitOnChar_append, he] at this
              simp only [List.cons_append, List.cons.injEq] at this
              obtain ⟨rfl, rfl⟩ := this
              have ht := trimBack_eq [] [] k (fun y hy' => hz y (List.mem_append_left _ hy')) (by simp)
              rw [List.nil_append] at ht
              rw [ht]
              rfl
            | @dir q t h7 h8 h9 h10 h11 =>
              obtain ⟨zs, hz, rfl⟩ := trail_iff.1 h7
              have hsq : splitOnChar '/' (e ++ ['/']) = splitOnChar '/' q ++ zs := by
                rw [hd, split_flat _ _ (fun y h => skippable_no (hz y h))]
              rw [splitOnChar_append, he] at hsq
              have hzne : zs ≠ [] := by rintro rfl; exact h8 rfl
              rcases List.eq_nil_or_concat zs with rfl | ⟨zs', z, rfl⟩
              · exact absurd rfl hzne
              · rw [List.concat_eq_append, ← List.append_assoc] at hsq
                have := List.append_inj' hsq rfl
                cases hq : splitOnChar '/' q with
                | nil => exact absurd hq (splitOnChar_ne_nil _ _)
                | cons s' k' =>
                  rw [hq] at this
                  simp only [List.cons_append, List.cons.injEq] at this
                  obtain ⟨⟨rfl, rfl⟩, -⟩ := this
                  have hjq := joinParts_split q
                  rw [hq] at hjq
                  have hl : ∀ x, k'.getLast? = some x → skippable x = false := by
                    intro x hx
                    obtain ⟨k3, rfl⟩ := List.getLast?_eq_some_iff.1 hx
                    have hqx : q = joinParts (s :: k3) ++ '/' :: x := by
                      rw [← hjq, ← List.cons_append, joinParts_append _ _ (by simp) (by simp)]
                      rfl
                    cases hsk : skippable x with
                    | false => rfl
                    | true =>
                      rcases skippable_iff.1 hsk with rfl | rfl
                      · exact absurd (by rw [hqx]; simp) h10
                      · exact absurd hqx (h11 _)
                  have ht := trimBack_eq s k' zs' (fun y hy' => hz y (by simp [hy'])) hl
                  rw [ht]
                  rw [if_neg, hjq]
                  intro h0
                  cases h0
                  exact h9 hjq.symm

/-- A parent is shorter. -/
theorem parent_shorter {p q : Path} (h : Parent p q) : q.length < p.length := by
  cases h with
  | @intro d name trail q h1 _ _ _ _ h6 =>
    have hn : 0 < name.length := List.length_pos_iff.2 h1
    have : q.length ≤ d.length := by
      cases h6 with
      | nothing => simp
      | root h => exact List.length_pos_iff.2 h
      | dir => simp
    simp only [List.length_append]
    omega

theorem parent_unique {p q q' : Path} (h : Parent p q) (h' : Parent p q') : q = q' := by
  rw [← parent_iff] at h h'
  rw [h] at h'
  exact Option.some.inj h'

theorem ancestorsFrom_iff (fuel : Nat) : ∀ (p : Path) (l : List Path), p.length < fuel →
    ((ancestorsFrom fuel p).reverse = l ↔ Parents p l) := by
  induction fuel with
  | zero => intro p l h; omega
  | succ fuel ih =>
    intro p l hlt
    unfold ancestorsFrom
    by_cases hp : p = []
    · subst hp
      rw [if_pos rfl]
      constructor
      · rintro rfl; exact .empty
      · intro h
        cases h with
        | empty => rfl
        | root h => exact absurd rfl h
        | step h => have := parent_shorter h; simp at this
    · rw [if_neg hp]
      cases hq : parent p with
      | none =>
        have hno : ∀ q, ¬ Parent p q := by
          intro q h
          rw [← parent_iff, hq] at h
          cases h
        constructor
        · rintro rfl; exact .root hp hno
        · intro h
          cases h with
          | empty => exact absurd rfl hp
          | root => rfl
          | step h => exact absurd h (hno _)
      | some q =>
        have hpar := (parent_iff p q).1 hq
        have hlen := parent_shorter hpar
        simp only [List.reverse_cons]
        constructor
        · rintro rfl
          exact .step hpar ((ih q _ (by omega)).1 rfl)
        · intro h
          cases h with
          | empty => exact absurd rfl hp
          | root _ h => exact absurd hpar (h q)
          | step h h' =>
            cases parent_unique hpar h
            rw [(ih q _ (by omega)).2 h']

theorem ancestors_iff (p : Path) (l : List Path) : ancestors p = l ↔ Parents p l :=
  ancestorsFrom_iff _ p l (Nat.lt_succ_self _)

end Reqtrace
