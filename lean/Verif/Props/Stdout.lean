import Verif.Props.Run
import Verif.Props.Files
import Verif.Spec.Stdout
import Verif.Stdout

/-!
# C125: what arrives at the other end of the standard output
-/

namespace Reqtrace

open Spec Controller Out

/-! ## Texts that consist of lines -/

namespace Stdout

/-- The last character, if there is one, is a line feed. -/
def Ends (t : Str) : Prop := ∀ c, t.getLast? = some c → c = '\n'

theorem ends_nil : Ends [] := nofun

theorem ends_append {a b : Str} (ha : Ends a) (hb : Ends b) : Ends (a ++ b) := by
  intro c h
  rw [List.getLast?_append] at h
  cases hl : b.getLast? with
  | none => rw [hl] at h; exact ha c h
  | some d => rw [hl] at h; cases h; exact hb _ hl

theorem ends_line (a : Str) : Ends (a ++ c!"\n") := by
  intro c h
  rw [List.getLast?_append] at h
  cases h; rfl

theorem ends_last {a b : Str} (hb : Ends b) (hn : b ≠ []) : Ends (a ++ b) := by
  intro c h
  rw [List.getLast?_append] at h
  cases hl : b.getLast? with
  | none => rw [List.getLast?_eq_none_iff] at hl; exact absurd hl hn
  | some d => rw [hl] at h; cases h; exact hb _ hl

theorem ends_flatMap {α : Type} {f : α → Str} {l : List α} (h : ∀ a ∈ l, Ends (f a)) : Ends (l.flatMap f) := by
  induction l with
  | nil => exact ends_nil
  | cons a l ih =>
    rw [List.flatMap_cons]
    exact ends_append (h a List.mem_cons_self) (ih fun b hb => h b (List.mem_cons_of_mem _ hb))

theorem ends_ite {p : Prop} [Decidable p] {a b : Str} (ha : Ends a) (hb : Ends b) : Ends (if p then a else b) := by
  split
  · exact ha
  · exact hb

theorem ends_put {t : Str} (h : Ends t) : Ends (put t).text := h

theorem ends_seq {a b : Out} (ha : Ends a.text) (hb : Ends b.text) : Ends (seq a b).text := by
  unfold seq
  split
  · exact ha
  · exact ends_append ha hb

theorem ends_all {l : List Out} (h : ∀ o ∈ l, Ends o.text) : Ends (all l).text := by
  induction l with
  | nil => exact ends_nil
  | cons a l ih => exact ends_seq (h a List.mem_cons_self) (ih fun b hb => h b (List.mem_cons_of_mem _ hb))

theorem ends_map {α : Type} {f : α → Out} {l : List α} (h : ∀ a, Ends (f a).text) : Ends (all (l.map f)).text := by
  apply ends_all
  intro o ho
  obtain ⟨a, _, rfl⟩ := List.mem_map.1 ho
  exact h a

theorem ends_bind {α : Type} {v : PanicM α} {f : α → Out} (h : ∀ a, Ends (f a).text) : Ends (bind v f).text := by
  cases v with
  | ok a => exact h a
  | error p => exact ends_nil

theorem ends_when {b : Bool} {o : Out} (h : Ends o.text) : Ends (when b o).text := by
  cases b
  · exact ends_nil
  · exact h

/-! ### The list for ctags -/

theorem ends_tags (g : Graph) : Ends (Tags.requirements g).text := by
  refine ends_seq (ends_put ?_) (ends_all ?_)
  · exact fun c h => by revert h; simp [Tags.header, List.getLast?_append]; exact Eq.symm
  · intro o ho
    obtain ⟨t, ht, rfl⟩ := List.mem_map.1 ho
    have hm : t ∈ Tags.lines (allRequirements g.artefacts) := (sort_perm _ _).mem_iff.1 ht
    unfold Tags.lines at hm
    obtain ⟨r, _, hr⟩ := List.mem_filterMap.1 hm
    have hl : ∀ n, Ends (Tags.tagLine r n) := by
      intro n
      unfold Tags.tagLine
      exact ends_last (fun c h => by revert h; simp; exact Eq.symm) (by simp)
    split at hr <;> cases hr <;> exact hl _

/-! ### Compiler errors -/

theorem ends_gnuError (env : FmtEnv) (e : Error) : Ends (GnuErr.errorText env e) := by
  cases e <;> simp only [GnuErr.errorText] <;>
    first
    | exact ends_last (fun c h => by revert h; simp; exact Eq.symm) (by simp)
    | exact fun c h => by revert h; simp; exact Eq.symm

theorem ends_gnu (env : FmtEnv) (tg : TracedGraph) : Ends (GnuErr.tracing env tg).text := by
  have herr : ∀ es, Ends (GnuErr.errors env es).text := fun es => ends_map fun e => ends_put (ends_gnuError env e)
  apply ends_all
  intro o ho
  simp only [List.mem_cons, List.not_mem_nil, or_false] at ho
  rcases ho with rfl | rfl | rfl | rfl | rfl | rfl | rfl | rfl
  · exact ends_line _
  · exact herr _
  · exact ends_line _
  · exact herr _
  · exact ends_line _
  · refine ends_map fun rel => ends_seq (ends_line _) (ends_map fun id => ?_)
    exact ends_bind fun a => ends_bind fun r => ends_line _
  · exact ends_line _
  · refine ends_map fun e => ends_bind fun a => ends_seq (ends_line _) (ends_map fun id => ?_)
    exact ends_bind fun r => ends_line _

/-! ### Markdown -/

theorem ends_mdError (env : FmtEnv) (e : Error) : Ends (MdOut.errorText env e) := by
  cases e <;> simp only [MdOut.errorText] <;>
    first
    | exact ends_last (fun c h => by revert h; simp; exact Eq.symm) (by simp)
    | exact fun c h => by revert h; simp; exact Eq.symm

theorem ends_section {α : Type} (title : Str) (has : α → Bool) (body : α → Out) (h : ∀ a, Ends (body a).text) :
    ∀ (b : Bool) (l : List α), Ends (MdOut.section_ title has body b l).text := by
  intro b l
  induction l generalizing b with
  | nil => exact ends_nil
  | cons a l ih =>
    unfold MdOut.section_
    split
    · refine ends_seq (ends_when (ends_put ?_)) (ends_seq (h a) (ih true))
      exact ends_last (fun c h => by revert h; simp; exact Eq.symm) (by simp)
    · exact ih b

theorem ends_sub (t : Str) : Ends (MdOut.subHeadline t) :=
  ends_last (fun c h => by revert h; simp; exact Eq.symm) (by simp)

theorem ends_inputErrors (env : FmtEnv) (arts : BMap ArtefactId Artefact) : Ends (MdOut.inputErrors env arts).text :=
  ends_section _ _ _ (fun a => ends_seq (ends_put (ends_sub _)) (ends_put (ends_flatMap fun e _ => ends_mdError env e))) _ _

theorem ends_other (attributes : BMap Str Str) : Ends (MdOut.otherAttributes attributes) := by
  refine ends_flatMap fun e _ => ends_ite (ends_ite ends_nil (ends_line _)) ends_nil

theorem ends_description (attributes : BMap Str Str) : Ends (MdOut.description attributes) := by
  unfold MdOut.description
  split
  · exact ends_line _
  · exact ends_nil

theorem ends_entry (r : Requirement) : Ends (MdOut.requirement r) := by
  have hi : ∀ x : Reference, Ends (MdOut.referenceItem x) := by
    intro x
    unfold MdOut.referenceItem
    split <;> exact ends_line _
  have hs : ∀ (t : Str) (l : List Reference), Ends t → Ends (t ++ l.flatMap MdOut.referenceItem) :=
    fun t l ht => ends_append ht (ends_flatMap fun x _ => hi x)
  unfold MdOut.requirement
  refine ends_append (ends_append (ends_append (ends_append (ends_line _) (ends_description _)) ?_) ?_) (ends_other _)
  · exact ends_ite ends_nil (hs _ _ fun c h => by revert h; simp; exact Eq.symm)
  · exact ends_ite ends_nil (hs _ _ fun c h => by revert h; simp; exact Eq.symm)

theorem ends_list (env : FmtEnv) (g : Graph) : Ends (MdOut.requirements env g).text :=
  ends_seq (ends_inputErrors _ _) (ends_put (ends_flatMap fun r _ => ends_entry r))

theorem echoOnce_mem {seen l : List Str} {t : Str} (h : t ∈ MdOut.echoOnce seen l) : t ∈ l := by
  induction l generalizing seen with
  | nil => exact h
  | cons s l ih =>
    unfold MdOut.echoOnce at h
    split at h
    · exact List.mem_cons_of_mem _ (ih h)
    · rcases List.mem_cons.1 h with rfl | h
      · exact List.mem_cons_self
      · exact List.mem_cons_of_mem _ (ih h)

theorem ends_traced (env : FmtEnv) (r : RequirementTrace) : Ends (MdOut.tracedRequirement env r) := by
  have hc : ∀ l : List (Requirement × Location), Ends (l.flatMap (MdOut.coverageItem env)) :=
    fun l => ends_flatMap fun c _ => ends_line _
  have hl : Ends c!"\nDownwards Tracing:\n" := fun c h => by revert h; simp; exact Eq.symm
  unfold MdOut.tracedRequirement
  refine ends_append (ends_last hl (by simp)) (ends_flatMap fun e _ => ?_)
  refine ends_append (ends_append (ends_line _) (ends_ite ?_ ends_nil)) (hc _)
  exact fun c h => by revert h; simp; exact Eq.symm

theorem ends_markdown (env : FmtEnv) (ag : AggregatedGraph) : Ends (MdOut.tracing env ag).text := by
  have hlink : ∀ id, Ends (MdOut.linkItem env ag id).text := fun id => ends_bind fun r => ends_line _
  apply ends_all
  intro o ho
  simp only [List.mem_cons, List.not_mem_nil, or_false] at ho
  rcases ho with rfl | rfl | rfl | rfl | rfl
  · exact ends_inputErrors _ _
  · refine ends_when (ends_put (ends_append ?_ ?_))
    · exact ends_last (fun c h => by revert h; simp; exact Eq.symm) (by simp)
    · rw [← List.flatMap_id]
      refine ends_flatMap fun t ht => ?_
      obtain ⟨e, _, rfl⟩ := List.mem_map.1 (echoOnce_mem ht)
      exact ends_mdError env e
  · exact ends_section _ _ _ (fun rel => ends_seq (ends_put (ends_sub _)) (ends_map hlink)) _ _
  · exact ends_section _ _ _ (fun rel => ends_seq (ends_put (ends_sub _)) (ends_map hlink)) _ _
  · refine ends_seq (ends_put ?_) (ends_map fun a => ends_seq (ends_line _) (ends_map fun id => ends_bind fun r => ?_))
    · exact ends_last (fun c h => by revert h; simp; exact Eq.symm) (by simp)
    · exact ends_put (ends_traced env r)

/-! ### All reports -/

theorem json_object (m : Str × Json) (ms : List (Str × Json)) : ∃ u, Json.pretty 0 (.obj (m :: ms)) = u ++ c!"\n}" := by
  refine ⟨c!"{" ++ Json.newline 1 ++ Json.quote m.1 ++ c!": " ++ Json.pretty 1 m.2 ++ Json.prettyMembers 1 ms, ?_⟩
  simp [Json.pretty, Json.newline]

/-- A report consists of lines, or is an object whose last line is the closing brace. -/
theorem output_ends (env : Env) (c : Controller) (job : Job) :
    (job.format ≠ .json ∧ Ends (c.output env job).text) ∨
      (job.format = .json ∧ ∃ u, (c.output env job).text = u ++ c!"\n}") := by
  unfold output
  cases hq : job.query <;> cases hf : job.format <;> simp only [Fmt.tracing, Fmt.requirements]
  · exact .inl ⟨nofun, ends_nil⟩
  · exact .inr ⟨trivial, json_object _ _⟩
  · exact .inl ⟨nofun, ends_list _ _⟩
  · exact .inl ⟨nofun, ends_tags _⟩
  · exact .inl ⟨nofun, ends_nil⟩
  · exact .inl ⟨nofun, ends_nil⟩
  · exact .inl ⟨nofun, ends_gnu _ _⟩
  · exact .inr ⟨trivial, json_object _ _⟩
  · exact .inl ⟨nofun, ends_bind fun ag => ends_markdown _ ag⟩
  · exact .inl ⟨nofun, ends_nil⟩
  · exact .inl ⟨nofun, ends_nil⟩
  · exact .inl ⟨nofun, ends_nil⟩

theorem report_ends {env : Env} {w0 : World} {config : Config} {base : Path} {g : Graph}
    (hg : IsInput env w0 config base g) {q : Query} {f : Format} {t : Str} (h : Report env.fmt g q f t) :
    (f ≠ .json ∧ Ends t) ∨ (f = .json ∧ ∃ u, t = u ++ c!"\n}") := by
  have hn := (C82_controller env w0 config base _).2 ⟨g, hg, rfl⟩
  have ho := (output_report hn ⟨q, f, [], none⟩ t).1 h
  have key : ∀ {c : Controller}, c.output env ⟨q, f, [], none⟩ = put t →
      (f ≠ .json ∧ Ends t) ∨ (f = .json ∧ ∃ u, t = u ++ c!"\n}") := by
    intro c ho
    have := output_ends env c ⟨q, f, [], none⟩
    rw [ho] at this
    exact this
  exact key ho

/-! ## What is in the buffer -/

theorem buffered_split (written : Bytes) : ∃ kept, written = kept ++ Pipe.buffered written ∧ 10 ∉ Pipe.buffered written ∧
    OfLines kept := by
  unfold Pipe.buffered
  refine ⟨(written.reverse.dropWhile (· ≠ 10)).reverse, ?_, ?_, ?_⟩
  · rw [← List.reverse_append, List.takeWhile_append_dropWhile, List.reverse_reverse]
  · intro h
    have := List.all_takeWhile (p := (· ≠ (10 : UInt8))) (l := written.reverse)
    rw [List.all_eq_true] at this
    have := this 10 (List.mem_reverse.1 h)
    simp at this
  · unfold OfLines
    rw [List.getLast?_reverse, List.reverse_eq_nil_iff]
    cases hd : written.reverse.dropWhile (· ≠ 10) with
    | nil => exact .inl rfl
    | cons b l =>
      right
      have := List.head?_dropWhile_not (p := (· ≠ (10 : UInt8))) written.reverse
      rw [hd] at this
      simpa using this

/-- The rest in the buffer is determined. -/
theorem buffered_eq {kept rest : Bytes} (h1 : OfLines kept) (h2 : (10 : UInt8) ∉ rest) :
    Pipe.buffered (kept ++ rest) = rest := by
  unfold Pipe.buffered
  rw [List.reverse_append, List.takeWhile_append_of_pos]
  · have : kept.reverse.takeWhile (· ≠ 10) = [] := by
      rcases h1 with rfl | h1
      · rfl
      · rw [← List.head?_reverse] at h1
        cases hk : kept.reverse with
        | nil => rfl
        | cons b l =>
          rw [hk] at h1
          cases h1
          simp
    rw [this, List.append_nil, List.reverse_reverse]
  · intro b hb
    have : b ≠ 10 := fun e => h2 (e ▸ List.mem_reverse.1 hb)
    simpa using this

theorem encode_append (a b : Str) : Utf8.encode (a ++ b) = Utf8.encode a ++ Utf8.encode b := by
  simp [Utf8.encode]

theorem ends_encode {t : Str} (h : Ends t) : OfLines (Utf8.encode t) := by
  cases hl : t.getLast? with
  | none =>
    rw [List.getLast?_eq_none_iff] at hl
    subst hl
    exact .inl rfl
  | some c =>
    cases h c hl
    obtain ⟨u, rfl⟩ := List.getLast?_eq_some_iff.1 hl
    right
    rw [encode_append, List.getLast?_append]
    rfl

/-! ## The standard output only grows -/

theorem makesDirs_stdout {os : Os} {p : Path} {w w' : World} {m : Option Str} (h : MakesDirs os p w m w') :
    w'.stdout = w.stdout := by
  cases h with
  | top => rfl
  | here => rfl
  | made _ _ _ _ h => exact h.stdout
  | failed _ _ _ _ h => exact h.stdout

theorem creates_stdout {os : Os} {p : Path} {w w' : World} {m : Option Str} (h : Creates os p w m w') :
    w'.stdout = w.stdout := by
  cases h with
  | noDir h => exact makesDirs_stdout h
  | failed h _ h' => rw [h'.stdout, makesDirs_stdout h]
  | created h _ h' => rw [h'.stdout, makesDirs_stdout h]

theorem delivers_stdout {os : Os} {base file : Path} {text : Bytes} {w w' : World} {m : Option Str}
    (h : Delivers os base file text w m w') : ∃ t, w'.stdout = w.stdout ++ t := by
  cases h with
  | printed _ _ h => exact ⟨_, h.stdout⟩
  | broken _ _ _ h => exact ⟨_, h.stdout⟩
  | closed _ h => exact ⟨[], by rw [creates_stdout h, List.append_nil]⟩
  | written _ h _ h' => exact ⟨[], by rw [h'.stdout, creates_stdout h, List.append_nil]⟩
  | cut _ h _ _ h' => exact ⟨[], by rw [h'.stdout, creates_stdout h, List.append_nil]⟩

theorem jobRuns_stdout {env : Env} {base : Path} {g : Graph} {j : Job} {w w' : World} {e : JobEnd}
    (h : JobRuns env base g j w e w') : ∃ t, w'.stdout = w.stdout ++ t := by
  cases h with
  | done _ h => exact delivers_stdout h
  | failed _ h => exact delivers_stdout h
  | panics _ h => exact delivers_stdout h

theorem jobsRun_stdout {env : Env} {base : Path} {g : Graph} {js : List Job} {w w' : World} {e : JobEnd}
    (h : JobsRun env base g js w e w') : ∃ t, w'.stdout = w.stdout ++ t := by
  induction h with
  | nil w => exact ⟨[], by simp⟩
  | next h1 _ ih =>
    obtain ⟨a, ha⟩ := jobRuns_stdout h1
    obtain ⟨b, hb⟩ := ih
    exact ⟨a ++ b, by rw [hb, ha, List.append_assoc]⟩
  | stop _ h => exact jobRuns_stdout h

theorem main_stdout (env : Env) (opt : Arguments) (w : World) :
    ∃ t, (Main.main env opt w).2.stdout = w.stdout ++ t := by
  have h := main_ends env opt w
  generalize (Main.main env opt w).1 = code at h
  generalize (Main.main env opt w).2 = w' at h
  cases h with
  | badConfig _ h => exact ⟨[], by rw [h.stdout, List.append_nil]⟩
  | noInput _ _ => exact ⟨[], by simp⟩
  | noJobs _ _ _ h => exact ⟨[], by rw [h.stdout, List.append_nil]⟩
  | unknownJob _ _ _ _ _ h => exact ⟨[], by rw [h.stdout, List.append_nil]⟩
  | failed _ _ _ h h' =>
    obtain ⟨t, ht⟩ := jobsRun_stdout h
    exact ⟨t, by rw [h'.stdout, ht]⟩
  | panics _ _ _ h => exact jobsRun_stdout h
  | fault _ _ _ _ h => exact jobsRun_stdout h
  | fine _ _ _ _ h => exact jobsRun_stdout h

/-! ## What the jobs print -/

theorem jobsRun_printed {env : Env} {base : Path} {g : Graph} {js : List Job} {w w' : World} {e : JobEnd}
    (h : JobsRun env base g js w e w') (he : e = .done) :
    ∃ ts, Printed env.fmt g js ts ∧ w'.stdout = w.stdout ++ Utf8.encode (printedText ts) := by
  induction h with
  | nil w => exact ⟨[], .nil, by simp [printedText, Utf8.encode]⟩
  | stop hne => exact absurd he hne
  | @next j js w w1 w' e h1 _ ih =>
    obtain ⟨ts, h2, h3⟩ := ih he
    cases h1 with
    | @done t _ hr hd =>
      cases hd with
      | printed hf _ hp =>
        refine ⟨_, .print hf hr h2, ?_⟩
        rw [h3, hp.stdout, List.append_assoc, ← encode_append]
        rfl
      | written hf hc _ hs =>
        refine ⟨_, .elsewhere hf h2, ?_⟩
        rw [h3, hs.stdout, creates_stdout hc]

theorem main_printed {env : Env} {opt : Arguments} {w : World} {code : Nat} {w' : World}
    (h : Main.main env opt w = (code, w')) (hc : code = 0 ∨ code = 1) :
    ∃ config g js ts, GoodConfig env w opt.configFile config ∧ IsInput env w config opt.baseDir g ∧
      JobsOf (config.jobs.getD .empty) (requested config opt) js ∧ Printed env.fmt g js ts ∧
      w'.stdout = w.stdout ++ Utf8.encode (printedText ts) := by
  have h := (C84_program ..).1 h
  cases h with
  | badConfig => omega
  | noInput => omega
  | noJobs => omega
  | unknownJob => omega
  | failed => omega
  | panics => omega
  | fault h1 h2 _ h3 h4 =>
    obtain ⟨ts, h5, h6⟩ := jobsRun_printed h4 rfl
    exact ⟨_, _, _, ts, h1, h2, h3, h5, h6⟩
  | fine h1 h2 _ h3 h4 =>
    obtain ⟨ts, h5, h6⟩ := jobsRun_printed h4 rfl
    exact ⟨_, _, _, ts, h1, h2, h3, h5, h6⟩

/-- What is printed consists of lines, or the last text in it is that of a JSON report. -/
theorem printed_ends {env : Env} {w0 : World} {config : Config} {base : Path} {g : Graph}
    (hg : IsInput env w0 config base g) {js : List Job} {ts : List (Format × Str)} (h : Printed env.fmt g js ts) :
    Ends (printedText ts) ∨ ∃ pre u post, ts = pre ++ (.json, u ++ c!"\n}") :: post ∧ ∀ p ∈ post, p.2 = [] := by
  induction h with
  | nil => exact .inl ends_nil
  | elsewhere _ _ ih => exact ih
  | @print j js t ts _ hr _ ih =>
    rcases ih with ih | ⟨pre, u, post, rfl, hp⟩
    · rcases report_ends hg hr with ⟨_, ht⟩ | ⟨hf, u, ht⟩
      · exact .inl (ends_append ht ih)
      · by_cases hn : printedText ts = []
        · refine .inr ⟨[], u, ts, by rw [hf, ht]; rfl, fun p hp => ?_⟩
          exact List.flatMap_eq_nil_iff.1 hn p hp
        · exact .inl (ends_last ih hn)
    · exact .inr ⟨_ :: pre, u, post, rfl, hp⟩

theorem printed_unique {env : Env} {w0 : World} {config : Config} {base : Path} {g : Graph}
    (hg : IsInput env w0 config base g) {js : List Job} {ts ts' : List (Format × Str)} (h : Printed env.fmt g js ts)
    (h' : Printed env.fmt g js ts') : ts = ts' := by
  have hn := (C82_controller env w0 config base _).2 ⟨g, hg, rfl⟩
  induction h generalizing ts' with
  | nil => cases h'; rfl
  | @print j js t ts hf hr _ ih =>
    cases h' with
    | elsewhere hf' => exact absurd hf hf'
    | @print _ _ t' ts' _ hr' h' =>
      have h1 := (output_report hn j t).1 hr
      have h2 := (output_report hn j t').1 hr'
      rw [h1] at h2
      cases h2
      rw [ih h']
  | elsewhere hf _ ih =>
    cases h' with
    | elsewhere _ h' => exact ih h'
    | print hf' => exact absurd hf' hf

end Stdout

open Stdout

/-! ## C125 -/

/-- **C125** as listed: if the program ends with 0 or 1, everything that its jobs printed has arrived. -/
def C125_statement : Prop := ∀ (env : Env) (pipe : Pipe) (opt : Arguments) (w w' : World) (code : Nat),
  pipe.closed = false → Main.process env pipe opt w = (code, w') → code = 0 ∨ code = 1 →
    ∃ ts, PrintedBy env opt w ts ∧ w'.stdout = w.stdout ++ Utf8.encode (printedText ts)

/-- **C125** What the jobs of a run print is determined. -/
theorem C125_determined {env : Env} {opt : Arguments} {w : World} {ts ts' : List (Format × Str)}
    (h : PrintedBy env opt w ts) (h' : PrintedBy env opt w ts') : ts = ts' := by
  obtain ⟨config, g, js, h1, h2, h3, h4⟩ := h
  obtain ⟨config', g', js', k1, k2, k3, k4⟩ := h'
  have hc := (getConfig_ok ..).2 h1
  rw [(getConfig_ok ..).2 k1] at hc
  cases hc
  cases isInput_unique h2 k2
  cases h3.unique k3
  exact printed_unique h2 h4 k4

/-- **C125** What the program has written when it ends with 0 or 1 is what its jobs print. -/
theorem C125_printed {env : Env} {opt : Arguments} {w w' : World} {code : Nat} {ts : List (Format × Str)}
    (h : Main.main env opt w = (code, w')) (hc : code = 0 ∨ code = 1) (hp : PrintedBy env opt w ts) :
    w'.stdout = w.stdout ++ Utf8.encode (printedText ts) := by
  obtain ⟨config, g, js, ts', h3, h4, h5, h6, h7⟩ := main_printed h hc
  cases C125_determined hp ⟨config, g, js, h3, h4, h5, h6⟩
  exact h7

/-- A pipe whose reader is gone when the process ends, and one that is closed from the beginning. -/
def brokenPipe : Pipe := ⟨false, fun _ => 1000⟩
def closedPipe : Pipe := ⟨true, fun _ => 0⟩

/-- The example project with the job that prints JSON: one byte is missing, and the exit code is 0. -/
theorem C125_example :
    let env := CtrlExample.env CtrlExample.covering CtrlExample.clean
    let opt : Arguments := ⟨c!"requirements.toml", c!"p", [c!"export"]⟩
    let w := CtrlExample.world CtrlExample.cleanFiles
    (Main.process env brokenPipe opt w).1 = 0 ∧
    (Main.process env brokenPipe opt w).2.stdout.length + 1 = (Main.main env opt w).2.stdout.length ∧
    (Main.process env closedPipe opt w).1 = 0 ∧ (Main.process env closedPipe opt w).2.stdout = [] := by decide +kernel

/-- **C125** The statement as listed is false. -/
theorem C125_false : ¬ C125_statement := by
  intro h
  have hx := C125_example
  simp only at hx
  generalize CtrlExample.env CtrlExample.covering CtrlExample.clean = env at hx
  generalize (⟨c!"requirements.toml", c!"p", [c!"export"]⟩ : Arguments) = opt at hx
  generalize CtrlExample.world CtrlExample.cleanFiles = w at hx
  obtain ⟨hx1, hx2, -⟩ := hx
  obtain ⟨ts, h1, h2⟩ := h env brokenPipe opt w (Main.process env brokenPipe opt w).2 (Main.process env brokenPipe opt w).1 rfl rfl (.inl hx1)
  have h0 : (Main.main env opt w).1 = (Main.process env brokenPipe opt w).1 := rfl
  have := C125_printed (w' := (Main.main env opt w).2) rfl (.inl (h0.trans hx1)) h1
  rw [h2, this] at hx2
  omega

theorem process_eq {env : Env} {pipe : Pipe} {opt : Arguments} {w w' : World} {code : Nat}
    (h : Main.process env pipe opt w = (code, w')) :
    ∃ w1 t, Main.main env opt w = (code, w1) ∧ w1.stdout = w.stdout ++ t ∧
      w' = { w1 with stdout := w.stdout ++ pipe.arrives w1 t } := by
  obtain ⟨t, ht⟩ := main_stdout env opt w
  unfold Main.process at h
  cases hm : Main.main env opt w with
  | mk c w1 =>
    rw [hm] at h ht
    simp only at h ht
    rw [ht, List.drop_left] at h
    cases h
    exact ⟨w1, t, rfl, ht, rfl⟩

theorem arrives_split {pipe : Pipe} {w : World} {kept rest : Bytes} (hc : pipe.closed = false) (h1 : OfLines kept)
    (h2 : (10 : UInt8) ∉ rest) :
    pipe.arrives w (kept ++ rest) = kept ++ rest.take (rest.length - min (pipe.lost w) rest.length) := by
  unfold Pipe.arrives
  rw [if_neg (by rw [hc]; decide), buffered_eq h1 h2, List.take_append, List.length_append]
  have h3 : kept.length + rest.length - min (pipe.lost w) rest.length =
      kept.length + (rest.length - min (pipe.lost w) rest.length) := by omega
  rw [h3, List.take_of_length_le (by omega), Nat.add_sub_cancel_left]

/-- **C125** If the program ends with 0 or 1 and the standard output is open, everything that the jobs printed has
arrived, except that the closing brace of a JSON report may be missing if nothing is printed after it.

Missing from the full statement: that brace. -/
theorem C125_partial {env : Env} {pipe : Pipe} {opt : Arguments} {w w' : World} {code : Nat}
    (ho : pipe.closed = false) (h : Main.process env pipe opt w = (code, w')) (hc : code = 0 ∨ code = 1) :
    ∃ ts, PrintedBy env opt w ts ∧ (w'.stdout = w.stdout ++ Utf8.encode (printedText ts) ∨
      ∃ pre u post, ts = pre ++ (.json, u ++ c!"}") :: post ∧ (∀ p ∈ post, p.2 = []) ∧
        w'.stdout = w.stdout ++ Utf8.encode (printedText pre ++ u)) := by
  obtain ⟨w1, t, h1, h2, rfl⟩ := process_eq h
  obtain ⟨config, g, js, ts, h3, h4, h5, h6, h7⟩ := main_printed h1 hc
  have ht : t = Utf8.encode (printedText ts) := List.append_cancel_left (h2.symm.trans h7)
  refine ⟨ts, ⟨config, g, js, h3, h4, h5, h6⟩, ?_⟩
  rcases printed_ends h4 h6 with he | ⟨pre, u, post, rfl, hp⟩
  · left
    have := arrives_split (w := w1) ho (ends_encode he) (List.not_mem_nil : (10 : UInt8) ∉ [])
    simp only [List.append_nil] at this
    rw [ht]
    simp only [this, List.take_nil, List.append_nil]
  · have hpost : printedText post = [] := List.flatMap_eq_nil_iff.2 hp
    have htext : printedText (pre ++ (.json, u ++ c!"\n}") :: post) = (printedText pre ++ (u ++ c!"\n")) ++ c!"}" := by
      have : printedText (pre ++ (.json, u ++ c!"\n}") :: post) = printedText pre ++ (u ++ c!"\n}" ++ printedText post) := by
        simp [printedText]
      rw [this, hpost]
      simp
    have hline : OfLines (Utf8.encode (printedText pre ++ (u ++ c!"\n"))) := by
      rw [← List.append_assoc]
      exact ends_encode (ends_line _)
    have harr := arrives_split (w := w1) ho hline (by decide : (10 : UInt8) ∉ Utf8.encode c!"}")
    rw [← encode_append, ← htext] at harr
    rw [ht]
    simp only [harr]
    by_cases hl : pipe.lost w1 = 0
    · left
      rw [hl, Nat.zero_min, Nat.sub_zero, List.take_length, ← encode_append, ← htext]
    · right
      refine ⟨pre, u ++ c!"\n", post, by simp, hp, ?_⟩
      have : min (pipe.lost w1) (Utf8.encode c!"}").length = 1 := by
        have : (Utf8.encode c!"}").length = 1 := by decide
        omega
      rw [this]
      have : (Utf8.encode c!"}").length - 1 = 0 := by decide
      rw [this, List.take_zero, List.append_nil]

/-- **C125** Everything arrives if the last report on the standard output that is not empty is not in JSON. -/
theorem C125_lines_partial {env : Env} {pipe : Pipe} {opt : Arguments} {w w' : World} {code : Nat}
    (ho : pipe.closed = false) (h : Main.process env pipe opt w = (code, w')) (hc : code = 0 ∨ code = 1)
    (hj : ∀ ts pre t post, PrintedBy env opt w ts → ts = pre ++ (.json, t) :: post → ∃ p ∈ post, p.2 ≠ []) :
    ∃ ts, PrintedBy env opt w ts ∧ w'.stdout = w.stdout ++ Utf8.encode (printedText ts) := by
  obtain ⟨ts, h1, h2 | ⟨pre, u, post, h2, h3, _⟩⟩ := C125_partial ho h hc
  · exact ⟨ts, h1, h2⟩
  · obtain ⟨p, hp, hn⟩ := hj ts pre _ post h1 h2
    exact absurd (h3 p hp) hn

/-- **C125** However the program ends: everything else is as the program left it, and of what it wrote to the standard
output nothing is missing but something at the end of the last line, unless the standard output is closed; then there
is nothing, and the exit code is as if everything had been written. -/
theorem C125_loss (env : Env) (pipe : Pipe) (opt : Arguments) (w : World) :
    ∃ kept rest, (Main.main env opt w).2.stdout = w.stdout ++ kept ++ rest ∧
      Main.process env pipe opt w = ((Main.main env opt w).1, { (Main.main env opt w).2 with stdout := w.stdout ++ kept }) ∧
      (pipe.closed = false → 10 ∉ rest) ∧ (pipe.closed = true → kept = []) := by
  cases hp : Main.process env pipe opt w with
  | mk code w' =>
    obtain ⟨w1, t, h1, h2, rfl⟩ := process_eq hp
    rw [h1]
    cases hc : pipe.closed with
    | true =>
      refine ⟨[], t, by simp [h2], ?_, nofun, fun _ => rfl⟩
      simp [Pipe.arrives, hc]
    | false =>
      obtain ⟨kept, hk, hn, hl⟩ := buffered_split t
      generalize Pipe.buffered t = rest at hk hn
      subst hk
      rw [arrives_split hc hl hn]
      refine ⟨kept ++ rest.take (rest.length - min (pipe.lost w1) rest.length),
        rest.drop (rest.length - min (pipe.lost w1) rest.length), ?_, rfl, ?_, nofun⟩
      · rw [h2]
        simp [List.take_append_drop]
      · exact fun _ h => hn (List.mem_of_mem_drop h)

end Reqtrace
