import Verif.Lemmas.MdWriter
import Verif.Props.Markdown

/-!
# One section of a Markdown document
-/

set_option linter.unusedSimpArgs false

namespace Reqtrace

open Spec

namespace Md

theorem step_loc (U : Unicode) (loc : Location) (st : State) (r : Requirement) (l : Str) :
    (step U loc st r l).2.1.location = r.location :=
  congrArg (fun x => x.1) (step_key U loc st r l)

theorem commit_loc (st : State) (r : Requirement) : (commit st r).location = r.location :=
  congrArg (fun x => x.1) (commit_key st r)

/-- The location is that of the requirement at the start or one of the lines. -/
def LocFrom (path : Path) (n m : Nat) (cur : Option (State × Requirement)) (loc : Location) : Prop :=
  (∃ p, cur = some p ∧ loc = p.2.location) ∨ ∃ k, n ≤ k ∧ k < m ∧ loc = ⟨path, some (.line k)⟩

theorem run_loc (U : Unicode) (path : Path) (n : Nat) (ls : List Str)
    (cur : Option (State × Requirement)) :
    (∀ x ∈ (run U path n ls cur).reqs, LocFrom path n (n + ls.length) cur x.location) ∧
    ∀ p, (run U path n ls cur).cur = some p → LocFrom path n (n + ls.length) cur p.2.location := by
  induction ls generalizing n cur with
  | nil => exact ⟨by simp [run], fun p h => .inl ⟨p, h, rfl⟩⟩
  | cons l ls ih =>
    have hn : n + (l :: ls).length = n + 1 + ls.length := by simp; omega
    rw [hn]
    cases hq : reqParts U l with
    | some p =>
      rw [run_req hq]
      obtain ⟨h1, h2⟩ := ih (n + 1) (some (.lookForDesc, newReq (.newWithLineNo path n) p.2.1 p.2.2))
      have up : ∀ {loc}, LocFrom path (n + 1) (n + 1 + ls.length)
          (some (.lookForDesc, newReq (.newWithLineNo path n) p.2.1 p.2.2)) loc →
          LocFrom path n (n + 1 + ls.length) cur loc := by
        rintro loc (⟨q, hq, rfl⟩ | ⟨k, k1, k2, rfl⟩)
        · cases hq
          exact .inr ⟨n, by omega, by omega, rfl⟩
        · exact .inr ⟨k, by omega, by omega, rfl⟩
      refine ⟨?_, fun q hq => up (h2 q hq)⟩
      intro x hx
      rcases List.mem_append.1 hx with hx | hx
      · cases cur with
        | none => cases hx
        | some q =>
          simp [flush] at hx; subst hx
          exact .inl ⟨q, rfl, commit_loc _ _⟩
      · exact up (h1 x hx)
    | none =>
      cases cur with
      | none =>
        rw [run_none hq]
        obtain ⟨h1, h2⟩ := ih (n + 1) none
        have up : ∀ {loc}, LocFrom path (n + 1) (n + 1 + ls.length) none loc →
            LocFrom path n (n + 1 + ls.length) none loc := by
          rintro loc (⟨q, hq, rfl⟩ | ⟨k, k1, k2, rfl⟩)
          · cases hq
          · exact .inr ⟨k, by omega, by omega, rfl⟩
        exact ⟨fun x hx => up (h1 x hx), fun q hq => up (h2 q hq)⟩
      | some q =>
        rw [run_some hq]
        have hl := step_loc U (.newWithLineNo path n) q.1 q.2 l
        generalize step U (.newWithLineNo path n) q.1 q.2 l = s at hl
        obtain ⟨h1, h2⟩ := ih (n + 1) (some (s.1, s.2.1))
        have up : ∀ {loc}, LocFrom path (n + 1) (n + 1 + ls.length) (some (s.1, s.2.1)) loc →
            LocFrom path n (n + 1 + ls.length) (some q) loc := by
          rintro loc (⟨q', hq', rfl⟩ | ⟨k, k1, k2, rfl⟩)
          · cases hq'
            exact .inl ⟨q, rfl, hl⟩
          · exact .inr ⟨k, by omega, by omega, rfl⟩
        exact ⟨fun x hx => up (h1 x hx), fun q hq => up (h2 q hq)⟩

theorem run_cur_none (U : Unicode) (path : Path) (n : Nat) (ls : List Str)
    (cur : Option (State × Requirement)) (h : (run U path n ls cur).cur = none) :
    cur = none ∧ (run U path n ls cur).reqs = [] ∧ (run U path n ls cur).errs = [] := by
  induction ls generalizing n cur with
  | nil => exact ⟨h, rfl, rfl⟩
  | cons l ls ih =>
    cases hq : reqParts U l with
    | some p =>
      rw [run_req hq] at h
      exact absurd (ih _ _ h).1 (by simp)
    | none =>
      cases cur with
      | none =>
        rw [run_none hq] at h ⊢
        exact ih _ _ h
      | some q =>
        rw [run_some hq] at h
        exact absurd (ih _ _ h).1 (by simp)

theorem errIn_run {U : Unicode} {path : Path} {n : Nat} {ls : List Str}
    {cur : Option (State × Requirement)} (a b : Nat) :
    (n + ls.length ≤ a ∨ b < n → (run U path n ls cur).errs.filter (ErrIn a b) = []) ∧
    (a ≤ n → n + ls.length ≤ b + 1 →
      (run U path n ls cur).errs.filter (ErrIn a b) = (run U path n ls cur).errs) := by
  constructor
  · intro h
    rw [List.filter_eq_nil_iff]
    intro e he
    obtain ⟨k, k1, k2, (⟨m, rfl⟩ | ⟨x, y, rfl⟩)⟩ := run_err_loc he <;>
      · simp only [ErrIn, Bool.and_eq_true, decide_eq_true_eq]
        omega
  · intro h1 h2
    rw [List.filter_eq_self]
    intro e he
    obtain ⟨k, k1, k2, (⟨m, rfl⟩ | ⟨x, y, rfl⟩)⟩ := run_err_loc he <;>
      · simp only [ErrIn, Bool.and_eq_true, decide_eq_true_eq]
        omega

theorem finish_errs (failure : Option Str) (path : Path) (cur : Option (State × Requirement)) (a b : Nat) :
    (finish failure path cur).2.filter (ErrIn a b) = [] := by
  unfold finish
  split
  · rfl
  · split
    · rfl
    · split <;> rfl

/-- What a section of a document gives. -/
theorem parse_section {U : Unicode} {src : Source} {path : Path} {rs : List Requirement}
    {es : List Error} {pre : List Str} {h : Str} {sec post : List Str} {p : Str × Str × Str}
    (hp : Md.parse U src path = .ok (rs, es)) (hl : Lines src.text (pre ++ h :: (sec ++ post)))
    (hh : reqParts U h = some p) (hsec : ∀ l ∈ sec, reqParts U l = none) (hpost : Ends U post) :
    ∃ st r errs, run U path (pre.length + 2) sec (some (.lookForDesc,
        newReq (.newWithLineNo path (pre.length + 1)) p.2.1 p.2.2)) = ⟨[], errs, some (st, r)⟩ ∧
      (∀ x ∈ rs, x.location = ⟨path, some (.line (pre.length + 1))⟩ → x = commit st r) ∧
      (commit st r ∈ rs ↔ post ≠ [] ∨ (src.failure = none ∧ st ≠ .lookForReq)) ∧
      es.filter (ErrIn (pre.length + 1) (pre.length + 1 + sec.length)) = errs := by
  obtain ⟨-, hrs, hes⟩ := parse_ok hp
  have hls := lines_iff.1 hl
  obtain ⟨st, r, hrun, -⟩ := run_giveUp U path (pre.length + 2) sec .lookForDesc
    (newReq (.newWithLineNo path (pre.length + 1)) p.2.1 p.2.2) hsec
  refine ⟨st, r, _, hrun, ?_⟩
  have hrl : r.location = ⟨path, some (.line (pre.length + 1))⟩ := by
    have hd := (step_key U · · · ·)
    have : ∀ (ls : List Str) (n : Nat) (st0 : State) (r0 : Requirement), (∀ l ∈ ls, reqParts U l = none) →
        ∀ q, (run U path n ls (some (st0, r0))).cur = some q → q.2.location = r0.location := by
      intro ls
      induction ls with
      | nil => intro n st0 r0 _ q hq; cases hq; rfl
      | cons l ls ih =>
        intro n st0 r0 h0 q hq
        rw [run_some (h0 l (by simp))] at hq
        have := ih _ _ _ (fun l hl => h0 l (by simp [hl])) q hq
        rw [this, step_loc]
    have := this sec _ _ _ hsec (st, r) (by rw [hrun])
    rw [this]; rfl
  have hsecErr := @errIn_run U path (pre.length + 2) sec (some (State.lookForDesc,
    newReq (.newWithLineNo path (pre.length + 1)) p.2.1 p.2.2)) (pre.length + 1) (pre.length + 1 + sec.length)
  rw [← hls] at hrs hes
  rw [run_append, run_req hh, run_append] at hrs hes
  have e1 : 1 + pre.length = pre.length + 1 := by omega
  have e2 : pre.length + 1 + 1 = pre.length + 2 := by omega
  simp only [e1, e2] at hrs hes
  have hpreErr := @errIn_run U path 1 pre none (pre.length + 1) (pre.length + 1 + sec.length)
  have hpreLoc := run_loc U path 1 pre none
  generalize run U path 1 pre none = o1 at hrs hes hpreErr hpreLoc
  generalize run U path (pre.length + 2) sec (some (State.lookForDesc,
    newReq (.newWithLineNo path (pre.length + 1)) p.2.1 p.2.2)) = o2 at hrs hes hrun hsecErr
  rw [hrun] at hrs hes
  simp only at hrs hes
  have hpreNot : ∀ x ∈ o1.reqs ++ flush o1.cur, x.location ≠ ⟨path, some (.line (pre.length + 1))⟩ := by
    intro x hx hloc
    have : LocFrom path 1 (1 + pre.length) none x.location := by
      rcases List.mem_append.1 hx with hx | hx
      · exact hpreLoc.1 x hx
      · cases hc : o1.cur with
        | none => rw [hc] at hx; cases hx
        | some q =>
          rw [hc] at hx
          simp [flush] at hx; subst hx
          have := hpreLoc.2 q hc
          rwa [commit_loc]
    rcases this with ⟨_, hq, _⟩ | ⟨k, k1, k2, hk⟩
    · cases hq
    · rw [hk] at hloc
      simp at hloc
      omega
  have hcommit : (commit st r).location = ⟨path, some (.line (pre.length + 1))⟩ := by
    rw [commit_loc, hrl]
  rcases hpost with rfl | ⟨h', t, level', id', title', rfl, hh'⟩
  · -- the last section
    have hr0 : ∀ n c, run U path n ([] : List Str) c = ⟨[], [], c⟩ := fun _ _ => rfl
    simp only [hr0, List.append_nil, List.nil_append] at hrs hes
    refine ⟨?_, ?_, ?_⟩
    · intro x hx hloc
      rw [hrs] at hx
      rcases List.mem_append.1 hx with hx | hx
      · exact absurd hloc (hpreNot x hx)
      · unfold finish at hx
        split at hx
        · cases hx
        · simp only at hx
          split at hx
          · cases hx
          · simpa using hx
    · rw [hrs]
      constructor
      · intro hm
        right
        rcases List.mem_append.1 hm with hx | hx
        · exact absurd hcommit (hpreNot _ hx)
        · unfold finish at hx
          split at hx
          · cases hx
          · rename_i hf
            simp only at hx
            split at hx
            · cases hx
            · rename_i hst; exact ⟨hf, hst⟩
      · rintro (h | ⟨h1, h2⟩)
        · exact absurd rfl h
        · apply List.mem_append.2; right
          unfold finish
          rw [h1]
          simp [h2]
    · rw [hes, List.filter_append, List.filter_append, hpreErr.1 (by omega), finish_errs,
        hsecErr.2 (by omega) (by omega)]
      simp
  · obtain ⟨raw', hraw', -⟩ := heading_reqParts hh'
    have hpostErr := @errIn_run U path (pre.length + 2 + sec.length) (h' :: t) none
      (pre.length + 1) (pre.length + 1 + sec.length)
    have hpostLoc := run_loc U path (pre.length + 2 + sec.length) (h' :: t) none
    rw [run_heading U path h' _ t _ _ hraw'] at hrs hes
    simp only [flush] at hrs hes
    generalize run U path (pre.length + 2 + sec.length) (h' :: t) none = o3 at hrs hes hpostErr hpostLoc
    have hpostNot : ∀ x, (x ∈ o3.reqs ∨ x ∈ (finish src.failure path o3.cur).1) →
        x.location ≠ ⟨path, some (.line (pre.length + 1))⟩ := by
      intro x hx hloc
      have : LocFrom path (pre.length + 2 + sec.length) (pre.length + 2 + sec.length + (h' :: t).length)
          none x.location := by
        rcases hx with hx | hx
        · exact hpostLoc.1 x hx
        · unfold finish at hx
          split at hx
          · cases hx
          · split at hx
            · cases hx
            · rename_i st' r' hc
              split at hx
              · cases hx
              · simp at hx; subst hx
                rw [commit_loc]
                exact hpostLoc.2 _ hc
      rcases this with ⟨_, hq, _⟩ | ⟨k, k1, k2, hk⟩
      · cases hq
      · rw [hk] at hloc
        simp at hloc
        omega
    refine ⟨?_, ?_, ?_⟩
    · intro x hx hloc
      rw [hrs] at hx
      simp only [List.nil_append, List.append_assoc, List.mem_append, List.mem_singleton] at hx
      rcases hx with hx | hx | hx | hx | hx
      · exact absurd hloc (hpreNot x (by simp [hx]))
      · exact absurd hloc (hpreNot x (by simp [flush, hx]))
      · exact hx
      · exact absurd hloc (hpostNot x (.inl hx))
      · exact absurd hloc (hpostNot x (.inr hx))
    · constructor
      · intro _; left; simp
      · intro _; rw [hrs]; simp
    · rw [hes]
      simp only [List.filter_append]
      rw [hpreErr.1 (by omega), finish_errs, hsecErr.2 (by omega) (by omega), hpostErr.1 (by omega)]
      simp

end Md

end Reqtrace
