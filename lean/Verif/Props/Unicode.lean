import Verif.Lemmas.RegexAgree
import Verif.Props.Markdown

/-!
# C101: only the classes of the characters of a text matter
-/

namespace Reqtrace

open Spec

theorem sameClass_ascii (U V : Unicode) {c : Char} (h : c.toNat < 128) : SameClass U V c :=
  ⟨by rw [U.start_ascii c h, V.start_ascii c h], by rw [U.continue_ascii c h, V.continue_ascii c h],
    by rw [U.digit_ascii c h, V.digit_ascii c h]⟩

section

variable {U V : Unicode}

theorem md_req_agree : Re.Agree (SameClass U V) (Md.requirementRe U) (Md.requirementRe V) :=
  .cat .bol (.cat (.refl _ _) (.cat (.refl _ _) (.cat (.grp (.cat (.cls fun _ h => h.1) (.cat (.cls fun _ h => h.2.1)
    (.star (.cls fun _ h => h.2.1))))) (.refl _ _))))

theorem md_ref_agree : Re.Agree (SameClass U V) (Md.refLinkRe U) (Md.refLinkRe V) :=
  .cat (.refl _ _) (.cat (.refl _ _) (.cat (.grp (.cat (.cls fun _ h => h.1) (.cat (.cls fun _ h => h.2.1)
    (.star (.cls fun _ h => h.2.1))))) (.refl _ _)))

theorem mono_ref_agree : Re.Agree (SameClass U V) (MonoReq.refLinkRe U) (MonoReq.refLinkRe V) :=
  .cat (.refl _ _) (.cat (.refl _ _) (.cat (.refl _ _) (.cat (.grp (.cat (.cls fun _ h => h.1) (.cat (.cls fun _ h => h.2.1)
    (.star (.cls fun _ h => h.2.1))))) (.refl _ _))))

theorem location_agree : Re.Agree (SameClass U V) (locationRe U) (locationRe V) :=
  .cat .bol (.cat (.refl _ _) (.cat (.opt (.cat (.refl _ _) (.grp (.cat (.cls fun _ h => h.2.2) (.star (.cls fun _ h => h.2.2))))))
    (.cat (.opt (.cat (.refl _ _) (.grp (.cat (.cls fun _ h => h.2.2) (.star (.cls fun _ h => h.2.2)))))) .eol)))

theorem md_loop_agree (failure : Option Str) : ∀ (ls : List Str), (∀ l ∈ ls, ∀ c ∈ l, SameClass U V c) →
    ∀ (state : Md.State) (c : Md.Context), Md.parseLoop U failure ls state c = Md.parseLoop V failure ls state c
  | [], _, _, _ => by
    simp only [Md.parseLoop]
    cases failure <;> rfl
  | l :: ls, hl, state, c => by
    have h1 : Md.lineEvent U l = Md.lineEvent V l := by
      simp only [Md.lineEvent, md_req_agree.captures (hl l List.mem_cons_self)]
    have h2 : ∀ st cx, Md.parseStateLine U st l cx = Md.parseStateLine V st l cx := by
      intro st cx
      simp only [Md.parseStateLine, md_ref_agree.captures (hl l List.mem_cons_self)]
    have h3 : ∀ e, Md.lineEvent V l = .ok e → ∀ st cx, Md.parseStates U st cx e = Md.parseStates V st cx e := by
      intro e he st cx
      cases e with
      | line l' =>
        have : l' = l := by
          simp only [Md.lineEvent] at he
          repeat' split at he
          all_goals first | cases he; rfl | cases he
        subst this
        exact h2 st cx
      | _ => rfl
    simp only [Md.parseLoop, h1]
    cases he : Md.lineEvent V l with
    | error e => rfl
    | ok e =>
      simp only [Bind.bind, Except.bind, h3 e he]
      split
      · rfl
      · exact md_loop_agree failure ls (fun l' hl' => hl l' (List.mem_cons_of_mem _ hl')) _ _

theorem mono_loop_agree (path : Path) : ∀ (ls : List Str), (∀ l ∈ ls, ∀ c ∈ l, SameClass U V c) →
    ∀ (no : Nat) (title : Option Str) (deps : List Reference),
      MonoReq.loop U path no ls title deps = MonoReq.loop V path no ls title deps
  | [], _, _, _, _ => by simp [MonoReq.loop]
  | l :: ls, hl, no, none, deps => by
    simp only [MonoReq.loop]
    exact mono_loop_agree path ls (fun l' hl' => hl l' (List.mem_cons_of_mem _ hl')) _ _ _
  | l :: ls, hl, no, some t, deps => by
    have ih := mono_loop_agree path ls (fun l' hl' => hl l' (List.mem_cons_of_mem _ hl'))
    simp only [MonoReq.loop, mono_ref_agree.captures (hl l List.mem_cons_self), ih]

theorem chopLine_mem {l : Str} {c : Char} (h : c ∈ chopLine l) : c ∈ l := by
  simp only [chopLine] at h
  repeat' split at h
  · exact (List.dropLast_sublist _).subset ((List.dropLast_sublist _).subset h)
  · exact (List.dropLast_sublist _).subset h
  · exact h

end

/-- **C101** Which Unicode tables the program has matters only for the characters of the text: a Markdown file, -/
theorem C101_markdown (U V : Unicode) (src : Source) (path : Path) (h : ∀ c ∈ src.text, SameClass U V c) :
    Md.parse U src path = Md.parse V src path := by
  simp only [Md.parse]
  rw [md_loop_agree _ _ fun l hl c hc => h c (splitLines_mem hl hc)]

/-- a file with one requirement -/
theorem C101_mono (U V : Unicode) (src : Source) (path : Path) (h : ∀ c ∈ src.text, SameClass U V c) :
    MonoReq.parse U src path = MonoReq.parse V src path := by
  simp only [MonoReq.parse]
  rw [mono_loop_agree]
  intro l hl c hc
  obtain ⟨l', hl', rfl⟩ := List.mem_map.1 hl
  exact h c (splitLines_mem hl' (chopLine_mem hc))

/-- and a location. -/
theorem C101_location (U V : Unicode) (text : Str) (h : ∀ c ∈ text, SameClass U V c) :
    Location.parse U text = Location.parse V text := by
  simp only [Location.parse, location_agree.captures h]

/-- Texts in ASCII mean the same with all tables. -/
theorem C101_ascii (U V : Unicode) (text : Str) (failure : Option Str) (path : Path) (h : ∀ c ∈ text, c.toNat < 128) :
    Md.parse U ⟨text, failure⟩ path = Md.parse V ⟨text, failure⟩ path ∧
    MonoReq.parse U ⟨text, failure⟩ path = MonoReq.parse V ⟨text, failure⟩ path ∧
    Location.parse U text = Location.parse V text :=
  have h' : ∀ c ∈ text, SameClass U V c := fun c hc => sameClass_ascii U V (h c hc)
  ⟨C101_markdown U V ⟨text, failure⟩ path h', C101_mono U V ⟨text, failure⟩ path h', C101_location U V text h'⟩

example (U : Unicode) : Location.parse U c!"src/a.rs:12:7" = .ok (.ok ⟨c!"src/a.rs", some (.lineAndColumn 12 7)⟩) := by
  rw [(C101_ascii U .ascii _ none [] (by decide +kernel)).2.2]
  decide +kernel

example (U : Unicode) : ((Md.parse U ⟨c!"# REQ_A: a\ntext\n", none⟩ c!"f").toOption.map fun o => o.1.map (·.id)) = some [c!"REQ_A"] := by
  rw [(C101_ascii U .ascii _ none _ (by decide +kernel)).1]
  decide +kernel

end Reqtrace
