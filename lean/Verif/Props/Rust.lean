import Verif.Lemmas.Rust

/-!
# C43–C45: coverage marks in Rust code

`syn::parse_file` is a parameter: the theorems hold for every tree it may deliver.
-/

namespace Reqtrace

open Rs Spec

/-! ## A file to look at

```
mod m {
    fn f() {
        requirement_covered!(REQ_A, "title a");
        println!();
        requirement_covered!();
        requirement_covered!(REQ_B);
    }
    impl T for S { fn g(&self) { requirement_covered!("REQ_C"); } }
}
```
-/

namespace RustExample

/-- a mark with the given tokens -/
def mark (line : Nat) (tokens : List Tok) : Mac := ⟨[c!"requirement_covered"], line, 8, tokens⟩

def ident (s : Str) (line column : Nat) : Tok := ⟨true, s, line, column⟩
def lit (s : Str) (line column : Nat) : Tok := ⟨false, s, line, column⟩

def file : Forest :=
  .item (.mod c!"m") 1 4
    (.item (.fn c!"f") 2 7
      (.node
        (.mac (mark 3 [ident c!"REQ_A" 3 29, lit c!"," 3 34, lit c!"\"title a\"" 3 36])
        (.mac ⟨[c!"println"], 4, 8, []⟩
        (.mac (mark 5 [])
        (.mac (mark 6 [ident c!"REQ_B" 6 29]) .nil)))) .nil)
    (.item (.impl c!"S" (some (false, c!"T"))) 8 15
      (.item (.implMethod c!"g") 8 22 (.mac (mark 8 [lit c!"\"REQ_C\"" 8 54]) .nil) .nil) .nil)) .nil

def synOf (f : Forest) : Syn := ⟨fun _ => .ok f, fun _ => c!"[..]"⟩

def src : Source := ⟨c!"text", none⟩

def fnReq : Requirement :=
  ⟨c!"m::f", none, ⟨c!"a.rs", some (.lineAndColumn 2 7)⟩,
    [⟨c!"REQ_A", some c!"title a", ⟨c!"a.rs", some (.lineAndColumn 3 8)⟩⟩,
     ⟨c!"REQ_B", none, ⟨c!"a.rs", some (.lineAndColumn 6 8)⟩⟩], [], [], .empty⟩

def methodReq : Requirement :=
  ⟨c!"m::(S as T)::g", none, ⟨c!"a.rs", some (.lineAndColumn 8 22)⟩,
    [⟨c!"REQ_C", none, ⟨c!"a.rs", some (.lineAndColumn 8 8)⟩⟩], [], [], .empty⟩

def err : Error :=
  .format ⟨c!"a.rs", some (.lineAndColumn 5 8)⟩ c!"requirement_covered!() has no arguments"

/-- What the parser makes of it. -/
theorem parsed : Rs.parse (synOf file) src c!"a.rs" = .ok ([fnReq, methodReq], [err]) := by
  decide +kernel

/-- A file with `requirement_covered!(REQ_A, "say \"hi\"");` in function `f`. -/
def escaped : Forest :=
  .item (.fn c!"f") 1 3
    (.mac (mark 1 [ident c!"REQ_A" 1 29, lit c!"," 1 34, lit c!"\"say \\\"hi\\\"\"" 1 36]) .nil) .nil

/-- `#[cfg(a)] fn f() { requirement_covered!(REQ_A); } #[cfg(b)] fn f() { requirement_covered!(REQ_B); }` -/
def twice : Forest :=
  .item (.fn c!"f") 1 13 (.mac (mark 1 [ident c!"REQ_A" 1 40]) .nil)
  (.item (.fn c!"f") 2 13 (.mac (mark 2 [ident c!"REQ_B" 2 40]) .nil) .nil)

/-- `const C: u8 = { requirement_covered!(REQ_A); 1 };` -/
def constant : Forest := .node (.node (.mac (mark 1 [ident c!"REQ_A" 1 37]) .nil) .nil) .nil

end RustExample

open RustExample

/-! ## C43 -/

/-- **C43 as listed**, the part about titles: the title of a well-formed mark is the value of the string
literal in it. -/
def C43_statement : Prop :=
  ∀ (syn : Syn) (src : Source) (path : Path) (file : Forest) (reqs : List Requirement) (errs : List Error),
    src.failure = none → syn.parseFile src.text = .ok file → Rs.parse syn src path = .ok (reqs, errs) →
    ∀ o ∈ occs path [] none file, IsMark o.mac →
      ∀ t sep u s v, o.mac.tokens = [t, sep, u] → t.isIdent = true → u.text = '"' :: (s ++ ['"']) →
        LitBody s v →
        ∃ r ∈ reqs, ⟨t.text, some v, ⟨path, some (.lineAndColumn o.mac.line o.mac.column)⟩⟩ ∈ r.covers

/-- C43 is false as listed: all quotes are removed from a title, escaped ones too, and the escapes stay. -/
theorem C43_false : ¬ C43_statement := by
  intro h
  have hp : Rs.parse (synOf escaped) src c!"a.rs" = .ok
      ([⟨c!"f", none, ⟨c!"a.rs", some (.lineAndColumn 1 3)⟩,
        [⟨c!"REQ_A", some c!"say \\hi\\", ⟨c!"a.rs", some (.lineAndColumn 1 8)⟩⟩], [], [], .empty⟩], []) := by
    decide +kernel
  obtain ⟨r, hr, hc⟩ := h (synOf escaped) src c!"a.rs" escaped _ _ rfl rfl hp _ (List.mem_singleton.2 rfl) rfl
    _ _ _ c!"say \\\"hi\\\"" c!"say \"hi\"" rfl rfl rfl
    (.plain _ (by decide) (by decide) <| .plain _ (by decide) (by decide) <| .plain _ (by decide) (by decide) <|
      .plain _ (by decide) (by decide) <| .quote <| .plain _ (by decide) (by decide) <|
      .plain _ (by decide) (by decide) <| .quote .nil)
  rw [List.mem_singleton.1 hr] at hc
  exact absurd hc (by decide +kernel)

/-- **C43**, except that the value of a string literal is its text with all quotes dropped: a file that
parses and has all its readable marks inside items gives, in order, one `covers` reference per readable mark
and one `Format` error per other mark. Missing: titles with escapes, for which it is false. -/
theorem C43_marks_partial (syn : Syn) (src : Source) (path : Path) (file : Forest)
    (hsrc : src.failure = none) (hfile : syn.parseFile src.text = .ok file)
    (hin : ∀ o ∈ occs path [] none file, IsMark o.mac → (∃ id title, Reads o.mac id title) → o.loc ≠ none) :
    ∃ reqs errs es, Rs.parse syn src path = .ok (reqs, errs) ∧
      Marks path (occs path [] none file) es errs ∧ reqs.flatMap (·.covers) = es.map Entry.ref := by
  rw [parse_eq_fold syn src path file hsrc hfile]
  obtain ⟨⟨rs, errs⟩, hs⟩ := fold_returns syn.debug path (occs path [] none file) ([], []) hin
  obtain ⟨es, errs1, h1, ⟨gs, h2, h3, h4, _⟩, h5⟩ := fold_ok syn.debug path _ [] [] [] rs errs
    ⟨[], rfl, rfl, (fun _ h => by cases h), (fun a r s b h => by cases a <;> cases h)⟩ hs
  refine ⟨rs, errs, es, hs, by rw [h5]; exact h1, ?_⟩
  rw [List.nil_append] at h3
  rw [← h2, ← h3, List.flatMap_map, List.map_flatten, List.map_map, List.flatMap_def]
  congr 1
  exact List.map_congr_left fun g hg => (h4 g hg).1

/-- Without quotes and escapes inside the literal, the title is the inside of the literal. -/
theorem C43_plain_title_partial (m : Mac) (t sep u : Tok) (v : Str) (ht : m.tokens = [t, sep, u])
    (hi : t.isIdent = true) (hu : u.text = '"' :: (v ++ ['"'])) (hv : '"' ∉ v) :
    Reads m t.text (some v) := by
  refine .inr (.inr ⟨t, sep, u, v, ht, hi, rfl, ⟨by rw [hu]; rfl, by
    rw [hu, ← List.cons_append]; exact List.getLast?_concat .., ?_⟩, rfl⟩)
  rw [hu]
  have : v.filter (fun c => decide (c ≠ '"')) = v :=
    List.filter_eq_self.2 fun c hc => by
      simp only [decide_eq_true_eq]
      intro h; subst h; exact hv hc
  rw [List.filter_cons, List.filter_append, this]
  simp

/-- The example file meets the hypotheses: three references, one error. -/
example : (∀ o ∈ occs c!"a.rs" [] none file, IsMark o.mac → (∃ id title, Reads o.mac id title) → o.loc ≠ none) ∧
    Rs.parse (synOf file) src c!"a.rs" = .ok ([fnReq, methodReq], [err]) ∧
    ([fnReq, methodReq].flatMap (·.covers)).map (·.id) = [c!"REQ_A", c!"REQ_B", c!"REQ_C"] := by
  refine ⟨?_, parsed, by decide +kernel⟩
  have : ∀ o ∈ occs c!"a.rs" [] none file, o.loc.isSome = true := by decide +kernel
  intro o ho _ _ h
  have := this o ho
  rw [h] at this; cases this

example : ∃ m, m = mark 3 [ident c!"REQ_A" 3 29, lit c!"," 3 34, lit c!"\"title a\"" 3 36] ∧
    Reads m c!"REQ_A" (some c!"title a") :=
  ⟨_, rfl, C43_plain_title_partial _ (ident c!"REQ_A" 3 29) (lit c!"," 3 34) (lit c!"\"title a\"" 3 36)
    c!"title a" rfl rfl rfl (by decide)⟩

/-! ## C44 -/

/-- **C44 as listed**: every reference belongs to a requirement with the path of the items around the mark
as id, located at the innermost of them. -/
def C44_statement : Prop :=
  ∀ (syn : Syn) (src : Source) (path : Path) (file : Forest) (reqs : List Requirement) (errs : List Error),
    src.failure = none → syn.parseFile src.text = .ok file → Rs.parse syn src path = .ok (reqs, errs) →
    ∀ o ∈ occs path [] none file, IsMark o.mac → ∀ id title, Reads o.mac id title →
      ∃ r ∈ reqs, ⟨id, title, ⟨path, some (.lineAndColumn o.mac.line o.mac.column)⟩⟩ ∈ r.covers ∧
        Joined o.names r.id ∧ o.loc = some r.location

/-- C44 is false as listed: marks in a second function of the same path go to the requirement of the
first. -/
theorem C44_false : ¬ C44_statement := by
  intro h
  have hp : Rs.parse (synOf twice) src c!"a.rs" = .ok
      ([⟨c!"f", none, ⟨c!"a.rs", some (.lineAndColumn 1 13)⟩,
        [⟨c!"REQ_A", none, ⟨c!"a.rs", some (.lineAndColumn 1 8)⟩⟩,
         ⟨c!"REQ_B", none, ⟨c!"a.rs", some (.lineAndColumn 2 8)⟩⟩], [], [], .empty⟩], []) := by
    decide +kernel
  obtain ⟨r, hr, _, _, hl⟩ := h (synOf twice) src c!"a.rs" twice _ _ rfl rfl hp _
    (List.mem_cons_of_mem _ (List.mem_singleton.2 rfl)) rfl c!"REQ_B" none (.inl ⟨_, rfl, rfl, rfl, rfl⟩)
  rw [List.mem_singleton.1 hr] at hl
  exact absurd hl (by decide +kernel)

/-- **C44** without the location of later references: the references are cut into runs of one path each, one
requirement per run with that path as id, located at the innermost item around the run's first mark.
Missing: the location for the other marks of a run, for which it is false. -/
theorem C44_paths_partial (syn : Syn) (src : Source) (path : Path) (file : Forest)
    (reqs : List Requirement) (errs : List Error)
    (hsrc : src.failure = none) (hfile : syn.parseFile src.text = .ok file)
    (hp : Rs.parse syn src path = .ok (reqs, errs)) :
    ∃ es, Marks path (occs path [] none file) es errs ∧ Grouped reqs es := by
  rw [parse_eq_fold syn src path file hsrc hfile] at hp
  obtain ⟨es, errs1, h1, h2, h3⟩ := fold_ok syn.debug path _ [] [] [] reqs errs
    ⟨[], rfl, rfl, (fun _ h => by cases h), (fun a r s b h => by cases a <;> cases h)⟩ hp
  rw [List.nil_append] at h2 h3
  exact ⟨es, by rw [h3]; exact h1, h2⟩

/-- Every readable mark has its reference in a requirement with the path around the mark as id. -/
theorem Spec.Marks.mem_of_reads {path : Path} {os : List Occ} {es : List Entry} {errs : List Error}
    (h : Marks path os es errs) : ∀ o ∈ os, IsMark o.mac → ∀ id title, Reads o.mac id title →
      ∃ e ∈ es, e.names = o.names ∧ e.loc = o.loc ∧ e.ref.location = ⟨path, some (.lineAndColumn o.mac.line o.mac.column)⟩ ∧
        Reads o.mac e.ref.id e.ref.title := by
  induction h with
  | nil => intro o ho; cases ho
  | other hn _ ih =>
    intro o ho hm id title hr
    rcases List.mem_cons.1 ho with ho | ho
    · subst ho; exact absurd hm hn
    · exact ih o ho hm id title hr
  | good _ hr' _ ih =>
    intro o ho hm id title hr
    rcases List.mem_cons.1 ho with ho | ho
    · subst ho; exact ⟨_, List.mem_cons_self .., rfl, rfl, rfl, hr'⟩
    · obtain ⟨e, he, h⟩ := ih o ho hm id title hr
      exact ⟨e, List.mem_cons_of_mem _ he, h⟩
  | bad _ hn _ _ ih =>
    intro o ho hm id title hr
    rcases List.mem_cons.1 ho with ho | ho
    · subst ho; exact absurd hr (hn id title)
    · exact ih o ho hm id title hr

theorem C44_attributed_partial (syn : Syn) (src : Source) (path : Path) (file : Forest)
    (reqs : List Requirement) (errs : List Error)
    (hsrc : src.failure = none) (hfile : syn.parseFile src.text = .ok file)
    (hp : Rs.parse syn src path = .ok (reqs, errs)) :
    (∀ o ∈ occs path [] none file, IsMark o.mac → ∀ id title, Reads o.mac id title →
      ∃ r ∈ reqs, ⟨id, title, ⟨path, some (.lineAndColumn o.mac.line o.mac.column)⟩⟩ ∈ r.covers ∧
        Joined o.names r.id) ∧
    (∀ r ∈ reqs, ∃ o ∈ occs path [] none file, IsMark o.mac ∧ Joined o.names r.id ∧ o.loc = some r.location) := by
  obtain ⟨es, h1, gs, h2, h3, h4, _⟩ := C44_paths_partial syn src path file reqs errs hsrc hfile hp
  constructor
  · intro o ho hm id title hr
    obtain ⟨e, he, e1, _, e3, e4⟩ := h1.mem_of_reads o ho hm id title hr
    have hu := ((readMac_ok syn.debug path o.mac _ _).2 e4).symm.trans
      ((readMac_ok syn.debug path o.mac _ _).2 hr)
    have hid : e.ref.id = id := congrArg Prod.fst (Except.ok.inj hu)
    have htitle : e.ref.title = title := congrArg Prod.snd (Except.ok.inj hu)
    rw [← h3] at he
    obtain ⟨run, hrun, her⟩ := List.mem_flatten.1 he
    obtain ⟨g, hg, hgr⟩ := List.mem_map.1 hrun
    obtain ⟨r1, r2, _⟩ := h4 g hg
    refine ⟨g.1, by rw [← h2]; exact List.mem_map.2 ⟨g, hg, rfl⟩, ?_, ?_⟩
    · rw [r1]
      refine List.mem_map.2 ⟨e, by rw [hgr]; exact her, ?_⟩
      rw [← hid, ← htitle, ← e3]
    · rw [← e1]; exact r2 e (by rw [hgr]; exact her)
  · intro r hr
    rw [← h2] at hr
    obtain ⟨g, hg, rfl⟩ := List.mem_map.1 hr
    obtain ⟨_, r2, ⟨e, rest, r3, r4⟩, _⟩ := h4 g hg
    have he : e ∈ es := by
      rw [← h3]
      exact List.mem_flatten.2 ⟨g.2, List.mem_map.2 ⟨g, hg, rfl⟩, by rw [r3]; simp⟩
    obtain ⟨o, ho, hm, _, o1, o2, _⟩ := h1.mem_entry e he
    exact ⟨o, ho, hm, by rw [← o1]; exact r2 e (by rw [r3]; simp), by rw [← o2]; exact r4⟩

/-- In the example, the mark in the method of the `impl` has the path `m::(S as T)::g`. -/
example : ∃ es, Marks c!"a.rs" (occs c!"a.rs" [] none file) es [err] ∧ Grouped [fnReq, methodReq] es ∧
    Joined [c!"m", c!"(S as T)", c!"g"] methodReq.id := by
  obtain ⟨es, h1, h2⟩ := C44_paths_partial (synOf file) src c!"a.rs" file _ _ rfl rfl parsed
  exact ⟨es, h1, h2, .cons _ (.cons _ (.one _))⟩

/-! ## C45 -/

/-- **C45 as listed**: visiting any tree returns. -/
def C45_statement : Prop :=
  ∀ (syn : Syn) (src : Source) (path : Path), ∃ v, Rs.parse syn src path = .ok v

/-- C45 is false as listed: a mark in the initialiser of a constant crashes the parser. -/
theorem C45_false : ¬ C45_statement := by
  intro h
  obtain ⟨v, hv⟩ := h (synOf constant) src c!"a.rs"
  have : Rs.parse (synOf constant) src c!"a.rs" = .error .rustNoScope := by decide +kernel
  rw [this] at hv; cases hv

/-- **C45** as far as it holds: an unreadable or syntactically wrong file gives one error, and a tree returns
exactly if no readable mark is outside all items (names of items are never empty). -/
theorem C45_returns_partial (syn : Syn) (src : Source) (path : Path) :
    (∀ e, src.failure = some e → Rs.parse syn src path = .ok ([], [.io path e])) ∧
    (src.failure = none → ∀ l c msg, syn.parseFile src.text = .error (l, c, msg) →
      Rs.parse syn src path = .ok ([], [.format ⟨path, some (.lineAndColumn l c)⟩ msg])) ∧
    (src.failure = none → ∀ file, syn.parseFile src.text = .ok file →
      (∀ o ∈ occs path [] none file, ∀ n ∈ o.names, n ≠ []) →
      ((∃ v, Rs.parse syn src path = .ok v) ↔
        ¬ ∃ o ∈ occs path [] none file, IsMark o.mac ∧ (∃ id title, Reads o.mac id title) ∧ o.loc = none)) := by
  refine ⟨?_, ?_, ?_⟩
  · intro e he; unfold Rs.parse; rw [he]
  · intro hs l c msg hf; unfold Rs.parse; rw [hs]; simp only; rw [hf]; rfl
  · intro hs file hf hne
    rw [parse_eq_fold syn src path file hs hf]
    constructor
    · rintro ⟨v, hv⟩ hex
      rw [fold_panics syn.debug path _ [] [] (fun o ho => ⟨occs_loc path file [] none (by simp) o ho, hne o ho⟩)
        (fun r hr => by cases hr) hex] at hv
      cases hv
    · intro hno
      exact fold_returns syn.debug path _ _ fun o ho hm hr hl => hno ⟨o, ho, hm, hr, hl⟩

/-- The example file has named items and no mark outside them. -/
example : (∀ o ∈ occs c!"a.rs" [] none file, ∀ n ∈ o.names, n ≠ []) ∧
    ∃ v, Rs.parse (synOf file) src c!"a.rs" = .ok v :=
  ⟨by decide +kernel, _, parsed⟩

/-- A file that cannot be read. -/
example : Rs.parse (synOf file) ⟨c!"half", some c!"device gone"⟩ c!"a.rs" =
    .ok ([], [.io c!"a.rs" c!"device gone"]) := rfl

end Reqtrace
