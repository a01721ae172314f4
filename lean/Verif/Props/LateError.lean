import Verif.Props.Jobs

/-!
# C161: a job that fails and the output of the others

`REQ_LATE_ERROR` (doc/requirements/REQUIREMENTS.md): when errors are encountered in outputting, processing continues as
long as possible.
-/

namespace Reqtrace

open Spec Controller CtrlExample

/-- **C161** as listed: of the jobs that are asked for, each that can be run has left its output, whatever becomes of the
others, if they write to other files. -/
def C161_statement : Prop := ∀ (env : Env) (c : Controller) (ns : List Str) (js : List Job) (w : World), JobsOf c.jobs ns js →
  ∀ j ∈ js, j.file ≠ c!"-" → (∃ s w', c.run env w j = (.ok s, w')) →
  (∀ k ∈ js, k ≠ j → k.file ≠ c!"-" → env.os.resolve (target c.baseDir j.file) ≠ env.os.resolve (target c.baseDir k.file)) →
  (c.runJobsByName env ns w).2.files (env.os.resolve (target c.baseDir j.file)) = some (outputOf env c j)

/-- What a run leaves that ends with an error of a job, or a panic: that job is one of those asked for; the files of the
jobs before it contain their output, those of the jobs after it are as they were. -/
theorem C161_exact_partial {env : Env} {c : Controller} {ns : List Str} {w w' : World} {r : Res JobSuccess}
    (h : c.runJobsByName env ns w = (r, w')) (hr : ∀ n, r ≠ .err (.unknownJob n)) (hs : ∀ s, r ≠ .ok s) :
    ∃ pre j post w1, JobsOf c.jobs ns (pre ++ j :: post) ∧ Done env c pre w w1 ∧ c.run env w1 j = (r, w') ∧
      (∀ a k b, pre = a ++ k :: b → k.file ≠ c!"-" →
        (∀ i ∈ b ++ [j], i.file ≠ c!"-" →
          env.os.resolve (target c.baseDir k.file) ≠ env.os.resolve (target c.baseDir i.file)) →
        w'.files (env.os.resolve (target c.baseDir k.file)) = some (outputOf env c k)) ∧
      ∀ k ∈ post, k.file ≠ c!"-" →
        (∀ i ∈ pre ++ [j], i.file ≠ c!"-" →
          env.os.resolve (target c.baseDir k.file) ≠ env.os.resolve (target c.baseDir i.file)) →
        w'.files (env.os.resolve (target c.baseDir k.file)) = w.files (env.os.resolve (target c.baseDir k.file)) := by
  obtain ⟨js, h1, ⟨s, rfl, -⟩ | ⟨-, pre, j, post, w1, rfl, h2, h3⟩⟩ := C26_in_order h hr
  · exact absurd rfl (hs s)
  have hk := run_keptAll env c w1 j
  rw [h3] at hk
  refine ⟨pre, j, post, w1, h1, h2, h3, ?_, ?_⟩
  · rintro a k b rfl hf hd
    rw [hk.files _ (fun i hi hfi => hd i (List.mem_append.2 (.inr hi)) hfi)]
    exact C66_last h2 hf (fun i hi hfi => hd i (List.mem_append.2 (.inl hi)) hfi)
  · intro k _ _ hd
    rw [hk.files _ (fun i hi hfi => hd i (List.mem_append.2 (.inr hi)) hfi)]
    exact (done_keptAll h2).files _ (fun i hi hfi => hd i (List.mem_append.2 (.inl hi)) hfi)

/-- If no job fails, all have left their output. -/
theorem C161_all_partial {env : Env} {c : Controller} {ns : List Str} {w w' : World} {s : JobSuccess}
    (h : c.runJobsByName env ns w = (.ok s, w')) :
    ∃ js, JobsOf c.jobs ns js ∧ ∀ a k b, js = a ++ k :: b → k.file ≠ c!"-" →
      (∀ i ∈ b, i.file ≠ c!"-" → env.os.resolve (target c.baseDir k.file) ≠ env.os.resolve (target c.baseDir i.file)) →
      w'.files (env.os.resolve (target c.baseDir k.file)) = some (outputOf env c k) := by
  obtain ⟨js, h1, ⟨s', -, h2⟩ | ⟨h2, -⟩⟩ := C26_in_order h (fun n => by simp)
  · refine ⟨js, h1, ?_⟩
    rintro a k b rfl hf hd
    exact C66_last h2 hf hd
  · exact absurd rfl (h2 s)

namespace LateExample

/-- The file `/b` cannot be created. -/
def e : Env :=
  { env .nil twoConfig with os := { os with createErr := fun _ p => if p == c!"/b" then some c!"denied" else none } }

set_option synthInstance.maxSize 2000 in
set_option synthInstance.maxHeartbeats 200000 in
/-- The first job has left its output, the second one has failed, of the third one there is nothing, though it can be run. -/
theorem found : ((Controller.new e (world files) twoConfig c!"p").toOption.map fun c =>
    let r := c.runJobsByName e [c!"a", c!"b", c!"c"] (world files)
    (r.1, (r.2.files c!"/a").isSome, r.2.files c!"/c",
      match c.run e (world files) ⟨.parse, .tags, c!"/c", none⟩ with
        | (.ok _, _) => true
        | _ => false, c.jobs.get c!"a", c.jobs.get c!"b", c.jobs.get c!"c")) =
    some (.err (.io c!"/b" c!"denied"), true, none, true, some ⟨.parse, .tags, c!"/a", none⟩,
      some ⟨.parse, .tags, c!"/b", none⟩, some ⟨.parse, .tags, c!"/c", none⟩) := by decide +kernel

theorem base : ((Controller.new e (world files) twoConfig c!"p").toOption.map fun c => c.baseDir) = some c!"p" := by decide +kernel

end LateExample

open LateExample in
/-- C161 is false as listed: the first job that fails is the last one that is run. -/
theorem C161_false : ¬ C161_statement := by
  intro h
  have hf := found
  have hb := base
  cases hc : Controller.new e (world files) twoConfig c!"p" with
  | error p => rw [hc] at hf; cases hf
  | ok c =>
    rw [hc] at hf hb
    simp only [Except.toOption, Option.map_some, Option.some.injEq, Prod.mk.injEq] at hf hb
    obtain ⟨-, -, h2, h3, h4, h5, h6⟩ := hf
    have := h e c [c!"a", c!"b", c!"c"] _ (world files) (.cons h4 (.cons h5 (.cons h6 .nil))) ⟨.parse, .tags, c!"/c", none⟩
      (by simp) (by decide) ?_ ?_
    · rw [hb] at this
      rw [show e.os.resolve (target c!"p" c!"/c") = c!"/c" from by decide +kernel, h2] at this
      cases this
    · split at h3
      · next s w' hr => exact ⟨_, _, hr⟩
      · cases h3
    · rw [hb]
      intro k hk
      simp only [List.mem_cons, List.not_mem_nil, or_false] at hk
      rcases hk with rfl | rfl | rfl
      · intro _ _; decide +kernel
      · intro _ _; decide +kernel
      · exact fun h => absurd rfl h

end Reqtrace
