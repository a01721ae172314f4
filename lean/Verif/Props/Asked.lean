import Verif.Spec.Asked
import Verif.Props.Jobs

/-!
# C153: the exit code is about what is asked, not about how it is shown
-/

namespace Reqtrace

open Spec

theorem same_graphs {env : Env} {w : World} {config config' : Config} {base : Path} {c c' : Controller}
    (ha : config'.artefacts = config.artefacts) (hr : config'.relations = config.relations)
    (h : Controller.new env w config base = .ok c) (h' : Controller.new env w config' base = .ok c') :
    c'.graph = c.graph ∧ c'.tracedGraph = c.tracedGraph := by
  obtain ⟨roots, h1, h2, h3, h4, -⟩ := new_ok h
  obtain ⟨roots', h1', h2', h3', h4', -⟩ := new_ok h'
  rw [ha, hr, h1] at h1'
  cases h1'
  rw [ha, h2] at h2'
  have e : c'.graph = c.graph := by
    cases c with | mk b g t j d => cases c' with | mk b' g' t' j' d' =>
    cases g
    cases g'
    simp only at h2' h3 h3'
    cases h2'
    rw [h3, h3', hr]
  rw [e, h4] at h4'
  exact ⟨e, (Except.ok.inj h4').symm⟩

/-- What parsing finds, tracing finds. -/
theorem detects_trace {env : Env} {w : World} {config : Config} {base : Path} {c : Controller} {j j' : Job}
    (h : Controller.new env w config base = .ok c) (hd : Detects c j) (hq : j'.query = .trace ∨ j'.query = j.query) :
    Detects c j' := by
  rcases hq with hq | hq
  · unfold Detects at hd ⊢
    rw [hq]
    split at hd
    · exact hd
    · obtain ⟨hk, -⟩ := C18_consistent h
      obtain ⟨ht, -⟩ := C18_no_panic h
      refine .inr (.inl ?_)
      rw [(C11_frame hk ht).1]
      exact hd
  · unfold Detects at hd ⊢
    rw [hq]
    exact hd

/-- **C153** With the same artefacts and relations, a run that asks for at least as much (tracing is more than parsing) has no
smaller exit code, if the reports of both can be written: names, order, number, formats and files of the jobs do not
matter. -/
theorem C153_more {env : Env} {w : World} {opt opt' : Arguments} {config config' : Config}
    (hb : opt'.baseDir = opt.baseDir) (hg : GoodConfig env w opt.configFile config)
    (hg' : GoodConfig env w opt'.configFile config') (ha : config'.artefacts = config.artefacts)
    (hr : config'.relations = config.relations)
    (hq : ∀ q, Asks config opt q → Asks config' opt' q ∨ Asks config' opt' .trace)
    (h : (Main.main env opt w).1 ≤ 1) (h' : (Main.main env opt' w).1 ≤ 1) :
    (Main.main env opt w).1 ≤ (Main.main env opt' w).1 := by
  obtain ⟨a0, a1, -⟩ := C28_exit_code_partial env opt w
  obtain ⟨b0, b1, -⟩ := C28_exit_code_partial env opt' w
  have e : ∀ n : Nat, n ≤ 1 → n = 0 ∨ n = 1 := by omega
  rcases e _ h with x | x <;> rcases e _ h' with y | y
  · rw [x]; exact Nat.zero_le _
  · rw [x]; exact Nat.zero_le _
  · exfalso
    obtain ⟨c, js, v, ⟨cfg, p1, p2, -, p3, -⟩, j, j1, j2, j3⟩ := a1.1 x
    obtain ⟨c', js', v', ⟨cfg', q1, q2, -, q3, -⟩, hno⟩ := b0.1 y
    cases GoodConfig_unique p1 hg
    cases GoodConfig_unique q1 hg'
    rw [hb] at q2
    obtain ⟨e1, e2⟩ := same_graphs ha hr p2 q2
    obtain ⟨n, n1, n2⟩ := (p3.mem j).1 j1
    have key : ∀ q, Asks config' opt' q → q = .trace ∨ q = j.query → False := by
      rintro q ⟨m, m1, k, k1, k2, rfl⟩ hk
      refine hno ⟨k, (q3.mem k).2 ⟨m, m1, k1⟩, k2, ?_⟩
      have := detects_trace p2 j3 hk
      unfold Detects at this ⊢
      rw [e1, e2]
      exact this
    rcases hq j.query ⟨n, n1, j, n2, j2, rfl⟩ with h1 | h1
    · exact key _ h1 (.inr rfl)
    · exact key _ h1 (.inl rfl)
  · rw [x, y]; exact Nat.le_refl _

/-- **C153** So runs that ask for the same have the same exit code. -/
theorem C153_same {env : Env} {w : World} {opt opt' : Arguments} {config config' : Config}
    (hb : opt'.baseDir = opt.baseDir) (hg : GoodConfig env w opt.configFile config)
    (hg' : GoodConfig env w opt'.configFile config') (ha : config'.artefacts = config.artefacts)
    (hr : config'.relations = config.relations) (hq : ∀ q, Asks config' opt' q ↔ Asks config opt q)
    (h : (Main.main env opt w).1 ≤ 1) (h' : (Main.main env opt' w).1 ≤ 1) :
    (Main.main env opt' w).1 = (Main.main env opt w).1 :=
  Nat.le_antisymm (C153_more hb.symm hg' hg ha.symm hr.symm (fun q h => .inl ((hq q).1 h)) h' h)
    (C153_more hb hg hg' ha hr (fun q h => .inl ((hq q).2 h)) h h')

/-- **C153** A run that asks for nothing succeeds, if its reports can be written. -/
theorem C153_nothing {env : Env} {w : World} {opt : Arguments} {config : Config}
    (hg : GoodConfig env w opt.configFile config) (hq : ∀ q, ¬ Asks config opt q) (h : (Main.main env opt w).1 ≤ 1) :
    (Main.main env opt w).1 = 0 := by
  obtain ⟨-, a1, -⟩ := C28_exit_code_partial env opt w
  have e : ∀ n : Nat, n ≤ 1 → n = 0 ∨ n = 1 := by omega
  rcases e _ h with x | x
  · exact x
  · exfalso
    obtain ⟨c, js, v, ⟨cfg, p1, p2, -, p3, -⟩, j, j1, j2, j3⟩ := a1.1 x
    cases GoodConfig_unique p1 hg
    obtain ⟨n, n1, n2⟩ := (p3.mem j).1 j1
    exact hq j.query ⟨n, n1, j, n2, j2, rfl⟩

namespace AskedExample

open CtrlExample

/-- Another configuration for the same artefacts: other names, formats and files of the jobs. -/
def other : Config := { config with
  jobs := some (BMap.ofList [(c!"show", ⟨.trace, .markdown, c!"-", some true⟩), (c!"export", ⟨.parse, .json, c!"x.json", none⟩)])
  defaultJobs := some [c!"export", c!"show", c!"show"] }

/-- Two configuration files. -/
def e : Env := { env RustExample.file config with
  tomlTree := fun b => .ok (ConfigRead.tree (if b = Utf8.encode c!"..." then config else other)) }

def w : World := world (files ++ [(c!"other.toml", c!"other")])

theorem good : GoodConfig e w c!"requirements.toml" config :=
  ⟨⟨Utf8.encode c!"...", none⟩, _, by decide +kernel, rfl, rfl, (C78_config _ _).1 rfl, fun v hv => by cases hv; rfl⟩

theorem good' : GoodConfig e w c!"other.toml" other :=
  ⟨⟨Utf8.encode c!"other", none⟩, _, by decide +kernel, rfl, rfl, (C78_config _ _).1 rfl, fun v hv => by cases hv; rfl⟩

/-- The jobs `trace` and `export` ask for the trace; so do the default jobs of the other configuration. -/
theorem asks : ∀ q, Asks config ⟨c!"requirements.toml", c!"p", [c!"trace", c!"export"]⟩ q →
    Asks other ⟨c!"other.toml", c!"p", []⟩ q ∨ Asks other ⟨c!"other.toml", c!"p", []⟩ .trace :=
  fun _ _ => .inr ⟨c!"show", by decide +kernel, ⟨.trace, .markdown, c!"-", some true⟩, by decide +kernel, (fun h => by cases h), rfl⟩

theorem codes : (Main.main e ⟨c!"requirements.toml", c!"p", [c!"trace", c!"export"]⟩ w).1 = 1 ∧
    (Main.main e ⟨c!"other.toml", c!"p", []⟩ w).1 = 1 ∧
    (Main.main e ⟨c!"requirements.toml", c!"p", [c!"export"]⟩ w).1 = 0 := by decide +kernel

example : (Main.main e ⟨c!"requirements.toml", c!"p", [c!"trace", c!"export"]⟩ w).1 ≤
    (Main.main e ⟨c!"other.toml", c!"p", []⟩ w).1 :=
  C153_more rfl good good' rfl rfl asks (by rw [codes.1]; decide) (by rw [codes.2.1]; decide)

example : (Main.main e ⟨c!"requirements.toml", c!"p", [c!"trace", c!"trace"]⟩ w).1 =
    (Main.main e ⟨c!"requirements.toml", c!"p", []⟩ w).1 := by
  refine C153_same rfl good good rfl rfl (fun q => ?_) (by decide +kernel) (by decide +kernel)
  have h1 : requested config ⟨c!"requirements.toml", c!"p", [c!"trace", c!"trace"]⟩ = [c!"trace", c!"trace"] := by decide +kernel
  have h2 : requested config ⟨c!"requirements.toml", c!"p", []⟩ = [c!"trace"] := by decide +kernel
  unfold Asks
  rw [h1, h2]
  simp

/-- `export` does not set the return code. -/
example : (Main.main e ⟨c!"requirements.toml", c!"p", [c!"export"]⟩ w).1 = 0 := by
  refine C153_nothing good ?_ (by rw [codes.2.2]; decide)
  rintro q ⟨n, hn, j, hj, hs, -⟩
  have : requested config ⟨c!"requirements.toml", c!"p", [c!"export"]⟩ = [c!"export"] := by decide +kernel
  rw [this, List.mem_singleton] at hn
  subst hn
  have : (config.jobs.getD .empty).get c!"export" = some ⟨.parse, .json, c!"-", some false⟩ := by decide +kernel
  rw [this] at hj
  cases hj
  exact hs rfl

end AskedExample

end Reqtrace
