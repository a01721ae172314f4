import Verif.Props.Rust2
import Verif.Spec.Marks

/-!
# C133: what the macro for coverage marks accepts is read
-/

namespace Reqtrace

open Spec Rs

/-- **C133 as listed**: a mark that the macro accepts is a reference in a requirement of the file. -/
def C133_statement : Prop :=
  ∀ (syn : Syn) (src : Source) (path : Path) (file : Forest) (reqs : List Requirement) (errs : List Error),
    src.failure = none → syn.parseFile src.text = .ok file → Rs.parse syn src path = .ok (reqs, errs) →
    ∀ o ∈ occs path [] none file, IsMark o.mac → ∀ id title, MacroArm o.mac.tokens id title →
      ∃ r ∈ reqs, ⟨id, title, ⟨path, some (.lineAndColumn o.mac.line o.mac.column)⟩⟩ ∈ r.covers

theorem plainString_quoted {t : Tok} {v : Str} (h : PlainString t v) : Quoted t.text v := by
  obtain ⟨-, ht, hv, -⟩ := h
  refine ⟨by rw [ht]; rfl, by rw [ht, ← List.cons_append]; exact List.getLast?_concat .., ?_⟩
  rw [ht]
  have : v.filter (fun c => decide (c ≠ '"')) = v :=
    List.filter_eq_self.2 fun c hc => by
      simp only [decide_eq_true_eq]
      intro h; subst h; exact hv hc
  rw [List.filter_cons, List.filter_append, this]
  simp

theorem allMarks_each {debug : List Tok → Str} {path : Path} {os : List Occ} {es : List Entry} {errs : List Error}
    (h : AllMarks debug path os es errs) : ∀ o ∈ os, IsMark o.mac →
      (∃ id title, Reads o.mac id title ∧
        ⟨o.names, o.loc, ⟨id, title, ⟨path, some (.lineAndColumn o.mac.line o.mac.column)⟩⟩⟩ ∈ es) ∨
      (∃ line column msg, Mistake debug o.mac line column msg ∧
        .format ⟨path, some (.lineAndColumn line column)⟩ msg ∈ errs) := by
  induction h with
  | nil => intro o ho; cases ho
  | other hn _ ih =>
    intro o ho hm
    rcases List.mem_cons.1 ho with rfl | ho
    · exact absurd hm hn
    · exact ih o ho hm
  | good hm hr _ ih =>
    intro o ho hm'
    rcases List.mem_cons.1 ho with rfl | ho
    · exact .inl ⟨_, _, hr, List.mem_cons_self ..⟩
    · rcases ih o ho hm' with ⟨i, t, a, b⟩ | h
      · exact .inl ⟨i, t, a, List.mem_cons_of_mem _ b⟩
      · exact .inr h
  | bad hm hr _ ih =>
    intro o ho hm'
    rcases List.mem_cons.1 ho with rfl | ho
    · exact .inr ⟨_, _, _, hr, List.mem_cons_self ..⟩
    · rcases ih o ho hm' with h | ⟨i, t, u, a, b⟩
      · exact .inl h
      · exact .inr ⟨i, t, u, a, List.mem_cons_of_mem _ b⟩

theorem grouped_mem {reqs : List Requirement} {es : List Entry} (h : Grouped reqs es) {e : Entry} (he : e ∈ es) :
    ∃ r ∈ reqs, e.ref ∈ r.covers := by
  obtain ⟨gs, h1, h2, h3, -⟩ := h
  rw [← h2] at he
  obtain ⟨run, hr, he⟩ := List.mem_flatten.1 he
  obtain ⟨g, hg, rfl⟩ := List.mem_map.1 hr
  refine ⟨g.1, h1 ▸ List.mem_map_of_mem hg, ?_⟩
  rw [(h3 g hg).1]
  exact List.mem_map_of_mem he

theorem parse_marks {syn : Syn} {src : Source} {path : Path} {file : Forest} {reqs : List Requirement} {errs : List Error}
    (hs : src.failure = none) (hf : syn.parseFile src.text = .ok file) (h : Rs.parse syn src path = .ok (reqs, errs)) :
    ∃ es, AllMarks syn.debug path (occs path [] none file) es errs ∧ Grouped reqs es := by
  cases (C80_rust ..).1 h with
  | unreadable h' => rw [hs] at h'; cases h'
  | syntaxError _ h' => rw [hf] at h'; cases h'
  | marks _ h1 h2 h3 => rw [hf] at h1; cases h1; exact ⟨_, h2, h3⟩

/-- **C133** for marks with an identifier: they are references, with the title if there is one, whatever stands between the
two.  Missing: marks with a string as id, for which it is false. -/
theorem C133_identifier_partial (syn : Syn) (src : Source) (path : Path) (file : Forest) (reqs : List Requirement)
    (errs : List Error) (hs : src.failure = none) (hf : syn.parseFile src.text = .ok file)
    (h : Rs.parse syn src path = .ok (reqs, errs)) (o : Occ) (ho : o ∈ occs path [] none file) (hm : IsMark o.mac)
    (id : Str) (title : Option Str) (ha : MacroArm o.mac.tokens id title)
    (hi : ∃ t, o.mac.tokens.head? = some t ∧ t.isIdent = true) :
    ∃ r ∈ reqs, ⟨id, title, ⟨path, some (.lineAndColumn o.mac.line o.mac.column)⟩⟩ ∈ r.covers := by
  obtain ⟨es, h1, h2⟩ := parse_marks hs hf h
  generalize hts : o.mac.tokens = ts at ha hi
  rcases allMarks_each h1 o ho hm with ⟨id', title', hr, he⟩ | ⟨line, column, msg, hr, -⟩
  · have heq : id' = id ∧ title' = title := by
      cases ha with
      | @id t ht =>
        rcases hr with ⟨a, b, c, d, e⟩ | ⟨a, b, c, -⟩ | ⟨a, b, c, d, e, -⟩
        · rw [hts] at b; cases b; exact ⟨d, e⟩
        · rw [hts] at b; cases b; rw [ht] at c; cases c
        · rw [hts] at e; cases e
      | @idTitle t sep u v ht _ hu =>
        rcases hr with ⟨a, b, -⟩ | ⟨a, b, -⟩ | ⟨a, b, c, d, e, _, g, i, j⟩
        · rw [hts] at b; cases b
        · rw [hts] at b; cases b
        · rw [hts] at e; cases e
          refine ⟨g, ?_⟩
          rw [j, i.2.2, ← (plainString_quoted hu).2.2]
      | @stringTitle t sep u x v ht _ _ =>
        obtain ⟨t', h1, h2⟩ := hi
        cases h1
        rw [ht.1] at h2; cases h2
    obtain ⟨rfl, rfl⟩ := heq
    exact grouped_mem h2 he
  · exfalso
    cases ha with
    | @id t ht =>
      cases hr with
      | nothing a => rw [hts] at a; cases a
      | single a b => rw [hts] at a; cases a; rw [ht] at b; cases b
      | first a => rw [hts] at a; cases a
      | second a => rw [hts] at a; cases a
      | count a => rw [hts] at a; simp at a
    | @idTitle t sep u v ht _ hu =>
      cases hr with
      | nothing a => rw [hts] at a; cases a
      | single a => rw [hts] at a; cases a
      | first a b => rw [hts] at a; cases a; rw [ht] at b; cases b
      | second a _ c => rw [hts] at a; cases a; exact c _ (plainString_quoted hu)
      | count a => rw [hts] at a; simp at a
    | @stringTitle t sep u x v ht _ _ =>
      obtain ⟨t', h1, h2⟩ := hi
      cases h1
      rw [ht.1] at h2; cases h2

/-- **C133** for marks with a string as id: each is reported as an error at that string. -/
theorem C133_string_partial (syn : Syn) (src : Source) (path : Path) (file : Forest) (reqs : List Requirement)
    (errs : List Error) (hs : src.failure = none) (hf : syn.parseFile src.text = .ok file)
    (h : Rs.parse syn src path = .ok (reqs, errs)) (o : Occ) (ho : o ∈ occs path [] none file) (hm : IsMark o.mac)
    (id : Str) (title : Option Str) (ha : MacroArm o.mac.tokens id title)
    (t : Tok) (ht : o.mac.tokens.head? = some t) (hi : t.isIdent = false) :
    .format ⟨path, some (.lineAndColumn t.line t.column)⟩ c!"requirement_covered!() 1st argument is not an identifier" ∈ errs := by
  obtain ⟨es, h1, h2⟩ := parse_marks hs hf h
  generalize hts : o.mac.tokens = ts at ha ht
  cases ha with
  | id h => cases ht; rw [hi] at h; cases h
  | idTitle h => cases ht; rw [hi] at h; cases h
  | @stringTitle _ sep u x v hp _ _ =>
    cases ht
    rcases allMarks_each h1 o ho hm with ⟨id', title', hr, he⟩ | ⟨line, column, msg, hr, he⟩
    · exfalso
      rcases hr with ⟨a, b, -⟩ | ⟨a, b, -⟩ | ⟨a, b, c, d, e, f, -⟩
      · rw [hts] at b; cases b
      · rw [hts] at b; cases b
      · rw [hts] at e; cases e; rw [hi] at f; cases f
    · cases hr with
      | nothing a => rw [hts] at a; cases a
      | single a => rw [hts] at a; cases a
      | first a b => rw [hts] at a; cases a; exact he
      | second a b => rw [hts] at a; cases a; rw [hi] at b; cases b
      | count a => rw [hts] at a; simp at a

namespace MarksExample

open RustExample

/-- `fn f() { requirement_covered!("REQ-A", "title a"); requirement_covered!(REQ_B: "b"); }` -/
def file : Forest :=
  .item (.fn c!"f") 1 3
    (.mac (mark 1 [lit c!"\"REQ-A\"" 1 29, lit c!"," 1 36, lit c!"\"title a\"" 1 38])
    (.mac (mark 2 [ident c!"REQ_B" 2 29, lit c!":" 2 34, lit c!"\"b\"" 2 36]) .nil)) .nil

theorem parsed : Rs.parse (synOf file) src c!"a.rs" = .ok
    ([⟨c!"f", none, ⟨c!"a.rs", some (.lineAndColumn 1 3)⟩,
      [⟨c!"REQ_B", some c!"b", ⟨c!"a.rs", some (.lineAndColumn 2 8)⟩⟩], [], [], .empty⟩],
      [.format ⟨c!"a.rs", some (.lineAndColumn 1 29)⟩ c!"requirement_covered!() 1st argument is not an identifier"]) := by
  decide +kernel

theorem arms : MacroArm [lit c!"\"REQ-A\"" 1 29, lit c!"," 1 36, lit c!"\"title a\"" 1 38] c!"REQ-A" (some c!"title a") ∧
    MacroArm [ident c!"REQ_B" 2 29, lit c!":" 2 34, lit c!"\"b\"" 2 36] c!"REQ_B" (some c!"b") := by
  refine ⟨.stringTitle ⟨rfl, rfl, by decide, by decide⟩ (.inl rfl) ⟨rfl, rfl, by decide, by decide⟩, ?_⟩
  exact .idTitle (t := ident c!"REQ_B" 2 29) rfl (.inr rfl) ⟨rfl, rfl, by decide, by decide⟩

end MarksExample

open MarksExample RustExample in
/-- C133 is false as listed: an id that is no identifier can only be given as a string, which the parser does not take. -/
theorem C133_false : ¬ C133_statement := by
  intro h
  obtain ⟨r, hr, hc⟩ := h (synOf MarksExample.file) src c!"a.rs" MarksExample.file _ _ rfl rfl MarksExample.parsed _
    (List.mem_cons_self ..) rfl _ _ arms.1
  rw [List.mem_singleton.1 hr] at hc
  exact absurd hc (by decide +kernel)

open MarksExample RustExample in
/-- The two marks of the example meet the hypotheses of the two theorems: the first gives an error, the second a reference. -/
example : (∃ o ∈ occs c!"a.rs" [] none MarksExample.file, IsMark o.mac ∧ MacroArm o.mac.tokens c!"REQ-A" (some c!"title a") ∧
      ∃ t, o.mac.tokens.head? = some t ∧ t.isIdent = false) ∧
    (∃ o ∈ occs c!"a.rs" [] none MarksExample.file, IsMark o.mac ∧ MacroArm o.mac.tokens c!"REQ_B" (some c!"b") ∧
      ∃ t, o.mac.tokens.head? = some t ∧ t.isIdent = true) :=
  ⟨⟨_, List.mem_cons_self .., rfl, arms.1, _, rfl, rfl⟩,
    ⟨_, List.mem_cons_of_mem _ (List.mem_cons_self ..), rfl, arms.2, _, rfl, rfl⟩⟩

end Reqtrace
