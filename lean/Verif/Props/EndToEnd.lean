import Verif.Spec.EndToEnd
import Verif.Props.Doc2
import Verif.Props.Input

/-!
# C158: a green project is traced from end to end
-/

namespace Reqtrace

open Reqtrace.Spec

namespace EndToEnd

theorem length_le {α : Type} [DecidableEq α] : ∀ (l m : List α), l.Nodup → (∀ x ∈ l, x ∈ m) → l.length ≤ m.length
  | [], _, _, _ => Nat.zero_le _
  | x :: l, m, hn, hm => by
    rw [List.nodup_cons] at hn
    have hx := hm x (.head _)
    have := length_le l (m.erase x) hn.2 (fun y hy => (List.mem_erase_of_ne (show y ≠ x from fun e => hn.1 (e ▸ hy))).2 (hm y (.tail _ hy)))
    rw [List.length_erase_of_mem hx] at this
    have : 0 < m.length := List.length_pos_of_mem hx
    simp only [List.length_cons]
    omega

theorem steps_cons {α : Type} {P : α → α → Prop} {a b c : α} (h : P a b) (hs : Steps P b c) : Steps P a c := by
  induction hs with
  | one h1 => exact .more (.one h) h1
  | more _ h1 ih => exact .more ih h1

theorem flip_steps {α : Type} {P : α → α → Prop} {a b : α} (h : Steps (fun x y => P y x) a b) : Steps P b a := by
  induction h with
  | one h => exact .one h
  | more _ h ih => exact steps_cons h ih

theorem leads_cons {α : Type} {P : α → α → Prop} {a b c : α} (h : P a b) (hs : LeadsDown P b c) : LeadsDown P a c := by
  rcases hs with rfl | hs
  · exact .inr (.one h)
  · exact .inr (steps_cons h hs)

theorem leads_snoc {α : Type} {P : α → α → Prop} {a b c : α} (hs : LeadsDown P a b) (h : P b c) : LeadsDown P a c := by
  rcases hs with rfl | hs
  · exact .inr (.one h)
  · exact .inr (.more hs h)

/-- Without loops, steps between finitely many end. -/
theorem acc {α : Type} [DecidableEq α] {Q : α → α → Prop} (U : List α) (hU : ∀ a b, Q a b → a ∈ U) (hl : NoLoops Q) :
    ∀ (n : Nat) (seen : List α) (a : α), seen.Nodup → (∀ s ∈ seen, Steps Q s a) → (∀ s ∈ seen, s ∈ U) →
      U.length ≤ seen.length + n → Acc (fun b a => Q a b) a := by
  intro n
  induction n with
  | zero =>
    intro seen a h1 h2 h3 h4
    refine ⟨a, fun b hb => ?_⟩
    have hn : (a :: seen).Nodup := List.nodup_cons.2 ⟨fun h => hl a (h2 a h), h1⟩
    have := length_le (a :: seen) U hn (fun s hs => by
      rcases List.mem_cons.1 hs with rfl | hs
      · exact hU _ _ hb
      · exact h3 s hs)
    simp only [List.length_cons] at this
    omega
  | succ n ih =>
    intro seen a h1 h2 h3 h4
    refine ⟨a, fun b hb => ih (a :: seen) b (List.nodup_cons.2 ⟨fun h => hl a (h2 a h), h1⟩) ?_ ?_ ?_⟩
    · intro s hs
      rcases List.mem_cons.1 hs with rfl | hs
      · exact .one hb
      · exact .more (h2 s hs) hb
    · intro s hs
      rcases List.mem_cons.1 hs with rfl | hs
      · exact hU _ _ hb
      · exact h3 s hs
    · simp only [List.length_cons]; omega

theorem acc_down {rels : List Relation} (hl : NoLoops (DirectlyAbove rels)) (a : ArtefactId) :
    Acc (fun b a => DirectlyAbove rels a b) a :=
  acc (rels.map (·.upper)) (fun _ _ ⟨rel, h1, h2, _⟩ => List.mem_map.2 ⟨rel, h1, h2⟩) hl _ [] a .nil (by simp) (by simp)
    (by simp only [List.length_nil, Nat.zero_add]; exact Nat.le_refl _)

theorem acc_up {rels : List Relation} (hl : NoLoops (DirectlyAbove rels)) (a : ArtefactId) :
    Acc (fun b a => DirectlyAbove rels b a) a :=
  acc (Q := fun a b => DirectlyAbove rels b a) (rels.flatMap (·.lower)) (fun _ _ ⟨rel, h1, _, h2⟩ => List.mem_flatMap.2 ⟨rel, h1, h2⟩)
    (fun a h => hl a (flip_steps h)) _ [] a .nil (by simp) (by simp) (by simp only [List.length_nil, Nat.zero_add]; exact Nat.le_refl _)

theorem refined {g : Graph} {rel : Relation} (hr : rel ∈ g.relations) {a : ArtefactId} {u l : Requirement} {ref : Reference}
    {d : CoverageDirection} (h : Establishes g rel a u l ref d) : a ∈ rel.lower ∧ RefinedBy g (rel.upper, u) (a, l) := by
  cases h with
  | down h1 h2 h3 h4 h5 => exact ⟨h2, rel, hr, rfl, h2, h1, h3.1, .inl ⟨ref, h4, h5⟩⟩
  | up h1 h2 h3 h4 h5 => exact ⟨h2, rel, hr, rfl, h2, h1, h3.1, .inr ⟨ref, h4, h5⟩⟩

end EndToEnd

/-- **C158** Where every requirement is covered along each relation, chains lead down from every requirement to the bottom. -/
theorem C158_down {g : Graph} (hl : NoLoops (DirectlyAbove g.relations)) (hf : FullyCovered g) : TracedDown g := by
  have key : ∀ a, ∀ r, Defines g a r → ∃ z, LeadsDown (RefinedBy g) (a, r) z ∧ AtBottom g.relations z.1 := by
    intro a
    induction EndToEnd.acc_down hl a with
    | intro a _ ih =>
      intro r hr
      by_cases hb : AtBottom g.relations a
      · exact ⟨(a, r), .inl rfl, hb⟩
      · obtain ⟨rel, h1, rfl⟩ : ∃ rel ∈ g.relations, rel.upper = a := by
          refine Classical.byContradiction fun hn => hb fun rel h1 h2 => hn ⟨rel, h1, h2⟩
        obtain ⟨b, l, ref, d, h2⟩ := hf rel h1 r hr
        obtain ⟨h3, h4⟩ := EndToEnd.refined h1 h2
        obtain ⟨-, -, -, -, -, hd, -⟩ := id h4
        obtain ⟨z, h5, h6⟩ := ih b ⟨rel, h1, rfl, h3⟩ l hd
        exact ⟨z, EndToEnd.leads_cons h4 h5, h6⟩
  rintro a r hr rel h1 rfl
  obtain ⟨b, l, ref, d, h2⟩ := hf rel h1 r hr
  obtain ⟨h3, h4⟩ := EndToEnd.refined h1 h2
  obtain ⟨-, -, -, -, -, hd, -⟩ := id h4
  obtain ⟨z, h5, h6⟩ := key b l hd
  exact ⟨(b, l), z, h3, h4, h5, h6⟩

/-- **C158** Where nothing is derived, a chain leads down to every requirement from one of an artefact that ignores derived
requirements. -/
theorem C158_up {g : Graph} (hl : NoLoops (DirectlyAbove g.relations)) (hu : IdsUnique g) (hd : NothingDerived g) :
    TracedUp g (fun a => ∃ art, g.artefacts.get a = some art ∧ art.ignoreDerivedRequirements = true) := by
  intro a
  induction EndToEnd.acc_up hl a with
  | intro a _ ih =>
    intro r hr
    obtain ⟨art, h1, -⟩ := id hr
    cases hi : art.ignoreDerivedRequirements with
    | true => exact ⟨(a, r), ⟨art, h1, hi⟩, hr, .inl rfl⟩
    | false =>
      obtain ⟨rel, h2, u, ref, d, h3⟩ := hd a art h1 hi r (defines_owner hu hr)
      obtain ⟨h4, h5⟩ := EndToEnd.refined h2 h3
      obtain ⟨-, -, -, -, hdu, -⟩ := id h5
      obtain ⟨x, k1, k2, k3⟩ := ih rel.upper ⟨rel, h2, rfl, h4⟩ u hdu
      exact ⟨x, k1, k2, EndToEnd.leads_snoc k3 h5⟩

/-- **C158** Nothing is uncovered exactly if all requirements are completely traced. -/
theorem C158_complete {g : Graph} (hl : NoLoops (DirectlyAbove g.relations)) (hu : IdsUnique g) :
    FullyCovered g ↔ ∀ a r, Defines g a r → Complete g (a, r) := by
  constructor
  · intro hf a
    induction EndToEnd.acc_down hl a with
    | intro a _ ih =>
      intro r hr
      refine .mk ?_ ?_
      · rintro rel h1 rfl
        obtain ⟨b, l, ref, d, h2⟩ := hf rel h1 r hr
        obtain ⟨h3, h4⟩ := EndToEnd.refined h1 h2
        exact ⟨(b, l), h3, h4⟩
      · rintro ⟨b, l⟩ ⟨rel, h1, h2, h3, -, h4, -⟩
        exact ih b ⟨rel, h1, h2, h3⟩ l h4
  · intro h rel h1 u h2
    cases h rel.upper u h2 with
    | mk k1 _ =>
      obtain ⟨y, k2, -, -, -, -, k3, k4, k5⟩ := k1 rel h1 rfl
      rcases k5 with ⟨ref, k6, k7⟩ | ⟨ref, k6, k7⟩
      · exact ⟨y.1, y.2, ref, _, .down h2 k2 (defines_owner hu k4) k6 k7⟩
      · exact ⟨y.1, y.2, ref, _, .up h2 k2 (defines_owner hu k4) k6 k7⟩

/-- **C158** The steps of the chains are in the report. -/
theorem C158_reported {g : Graph} {tg : TracedGraph} (hk : Keyed g) (h : trace g = .ok tg) (hu : IdsUnique g)
    {x y : ArtefactId × Requirement} (hr : RefinedBy g x y) : SaysCovered tg x.2.id y.2.id := by
  obtain ⟨rel, h1, h2, h3, h4, h5, h6⟩ := hr
  rw [← h2] at h4
  obtain ⟨i, hi⟩ := List.getElem?_of_mem h1
  have hrel : tg.tracedRelations[i]? = some (tracedRelation g rel) := by
    obtain ⟨_, rfl⟩ := (trace_ok_iff hk tg).1 h
    show (g.relations.map (tracedRelation g))[i]? = _
    rw [List.getElem?_map, hi]; rfl
  rcases h6 with ⟨ref, k1, k2⟩ | ⟨ref, k1, k2⟩
  · exact ⟨_, List.mem_of_getElem? hrel, ⟨x.2.id, y.2.id, ref.location, .downwards⟩, (C01_coverage_exact hk h hrel _).2
      ⟨rel, y.1, x.2, y.2, ref, hi, .down h4 h3 (defines_owner hu h5) k1 k2, rfl⟩, rfl, rfl⟩
  · exact ⟨_, List.mem_of_getElem? hrel, ⟨x.2.id, y.2.id, ref.location, .upwards⟩, (C01_coverage_exact hk h hrel _).2
      ⟨rel, y.1, x.2, y.2, ref, hi, .up h4 h3 (defines_owner hu h5) k1 k2, rfl⟩, rfl, rfl⟩

/-- **C158** So if the relations have no loops and a run with a Trace job that counts ends with 0, then every requirement in
the files is traced from end to end. -/
theorem C158_run {env : Env} {opt : Arguments} {w : World} {config : Config} (hg : GoodConfig env w opt.configFile config)
    (ht : ∃ n ∈ requested config opt, ∃ j, (config.jobs.getD .empty).get n = some j ∧ j.query = .trace ∧ j.setReturnCode ≠ some false)
    (hl : NoLoops (DirectlyAbove config.relations)) (h : (Main.main env opt w).1 = 0) :
    ∃ g, g.relations = config.relations ∧
      (∀ ac, LastEntry config ac → ∃ reqs, CleanArtefact env w ac opt.baseDir reqs ∧ ∀ r, Defines g ac.id r ↔ r ∈ reqs) ∧
      TracedDown g ∧ TracedUp g (NeedsNoReason config) ∧ ∀ a r, Defines g a r → Complete g (a, r) := by
  obtain ⟨cfg, c, js, w', h1, h2, -, -, ⟨h3, -, h4⟩, h5, h6, h7⟩ := (C75_green env opt w (fun cfg hc => by
    cases GoodConfig_unique hc hg
    exact ht)).1 h
  cases GoodConfig_unique h1 hg
  refine ⟨c.graph, h3, h4, C158_down (by rw [h3]; exact hl) h6, ?_, (C158_complete (by rw [h3]; exact hl) h5.unique).1 h6⟩
  intro a r hr
  obtain ⟨x, ⟨art, k1, k2⟩, k3, k4⟩ := C158_up (by rw [h3]; exact hl) h5.unique h7 a r hr
  refine ⟨x, ?_, k3, k4⟩
  obtain ⟨ac, m1, m2, m3, m4⟩ := C19_default_root h2 k1
  refine ⟨ac, m1, m2, ?_⟩
  cases hi : ac.ignoreDerivedRequirements with
  | none => exact .inr ⟨rfl, (m4 hi).1 k2⟩
  | some b => rw [m3 b hi] at k2; exact .inl (by rw [k2])

/-! ## Cases -/

namespace EndToEndExample

open CtrlExample

/-- Requirements, their design and the tests of the design. -/
def config : Config where
  version := some 0
  artefacts := [⟨c!"REQ", [c!"req.md"], .markdown, none, none⟩, ⟨c!"DES", [c!"des.md"], .markdown, none, none⟩,
    ⟨c!"TEST", [c!"test.md"], .markdown, none, none⟩]
  relations := [⟨c!"REQ", [c!"DES"]⟩, ⟨c!"DES", [c!"TEST"]⟩]
  jobs := some (BMap.ofList [(c!"trace", ⟨.trace, .gnuError, c!"-", none⟩)])
  defaultJobs := some [c!"trace"]

/-- `R1` is refined by `D1` and `D2`, these are tested by `T1`. -/
def w : World := world [(c!"requirements.toml", c!"..."), (c!"p/req.md", c!"# R1: one\nDepends: D2\n"),
  (c!"p/des.md", c!"# D1: high\nCovers: R1\n# D2: low\n"), (c!"p/test.md", c!"# T1: test\nCovers: D1, D2\n")]

/-- The number of relations below an artefact -/
def rank (a : ArtefactId) : Nat := if a = c!"REQ" then 0 else if a = c!"DES" then 1 else 2

theorem noLoops : NoLoops (DirectlyAbove config.relations) := by
  have key : ∀ a b, Steps (DirectlyAbove config.relations) a b → rank a < rank b := by
    have one : ∀ rel ∈ config.relations, ∀ b ∈ rel.lower, rank rel.upper < rank b := by decide
    intro a b h
    induction h with
    | one h =>
      obtain ⟨rel, h1, rfl, h2⟩ := h
      exact one rel h1 _ h2
    | more _ h ih =>
      obtain ⟨rel, h1, rfl, h2⟩ := h
      exact Nat.lt_trans ih (one rel h1 _ h2)
  exact fun a h => Nat.lt_irrefl _ (key a a h)

/-- The run is green, so all requirements are traced from end to end. -/
example : ∃ g, g.relations = config.relations ∧
    (∀ ac, LastEntry config ac → ∃ reqs, CleanArtefact (CtrlExample.env .nil config) w ac c!"p" reqs ∧
      ∀ r, Defines g ac.id r ↔ r ∈ reqs) ∧ TracedDown g ∧ TracedUp g (NeedsNoReason config) ∧
      ∀ a r, Defines g a r → Complete g (a, r) :=
  C158_run (env := CtrlExample.env .nil config) (opt := ⟨c!"requirements.toml", c!"p", []⟩)
    ⟨⟨Utf8.encode c!"...", none⟩, _, by decide +kernel, rfl, rfl, (C78_config _ _).1 rfl, fun v hv => by cases hv; rfl⟩
    ⟨c!"trace", .head _, _, rfl, rfl, by decide⟩ noLoops (by decide +kernel)

/-- A design of nothing, or a test of nothing, is found. -/
example : (Main.main (CtrlExample.env .nil config) ⟨c!"requirements.toml", c!"p", []⟩
      { w with files := fun q => if q = c!"p/des.md" then some (Utf8.encode c!"# D1: high\n# D2: low\n") else w.files q }).1 = 1 ∧
    (Main.main (CtrlExample.env .nil config) ⟨c!"requirements.toml", c!"p", []⟩
      { w with files := fun q => if q = c!"p/test.md" then some (Utf8.encode c!"# T1: test\nCovers: D1, D2\n# T2: more\n") else w.files q }).1 = 1 := by
  constructor <;> decide +kernel

end EndToEndExample

end Reqtrace
