import Verif.Lemmas.Reader
import Verif.Props.Document
import Verif.Props.JsonRead
import Verif.Props.Markdown
import Verif.Props.MonoReq
import Verif.Props.Rust2
import Verif.Spec.Controller
import Verif.Spec.Files

/-!
# Property C81: the complete result for a file
-/

namespace Reqtrace

open Spec Utf8

theorem decode_none {b : Bytes} : decode b = none ↔ ∀ s, b ≠ encode s := by
  constructor
  · rintro h s rfl; rw [decode_encode] at h; cases h
  · intro h
    cases hd : decode b with
    | none => rfl
    | some s => exact absurd (decode_some hd) (h s)

theorem readWhole_iff (f : File) (src : Source) : ReadWhole f src ↔ f.whole = src := by
  obtain ⟨b, e⟩ := f
  constructor
  · intro h
    cases h with
    | all t => exact File.whole_encode t
    | failed => rfl
    | invalid h => simp only [File.whole, decode_none.2 h]; rfl
  · rintro rfl
    cases e with
    | some e => exact .failed b e
    | none =>
      cases hd : decode b with
      | none =>
        have : File.whole ⟨b, none⟩ = ⟨[], some invalidUtf8⟩ := by simp only [File.whole, hd]
        rw [this]
        exact .invalid (decode_none.1 hd)
      | some s => rw [decode_some hd, File.whole_encode]; exact .all s

theorem encode_last {l : Str} (h : (encode l).getLast? = some 10) : l.getLast? = some '\n' := by
  rcases List.eq_nil_or_concat l with rfl | ⟨l', c, rfl⟩
  · cases h
  · rw [List.concat_eq_append] at h ⊢
    rw [encode_append] at h
    have h1 : encode [c] = encodeChar c := by simp [encode]
    rw [h1] at h
    have h2 : encodeChar c ≠ [] := fun hn => by
      have : encode [c] = [] := by rw [h1, hn]
      cases encode_eq_nil.1 this
    rw [List.getLast?_append] at h
    obtain ⟨x, hx⟩ : ∃ x, (encodeChar c).getLast? = some x := by
      cases hx : (encodeChar c).getLast? with
      | none => exact absurd (List.getLast?_eq_none_iff.1 hx) h2
      | some x => exact ⟨x, rfl⟩
    rw [hx, Option.some_or] at h
    cases h
    have := newline_mem_encodeChar c (List.mem_of_getLast? hx)
    subst this
    simp

/-- Texts of lines that all end with a line feed are whole lines. -/
theorem wholeLines_encode (ls : List Str) (h : ∀ l ∈ ls, (encode l).getLast? = some 10) : WholeLines ls.flatten := by
  rcases List.eq_nil_or_concat ls with rfl | ⟨ls', l, rfl⟩
  · exact .inl rfl
  · right
    rw [List.concat_eq_append] at h ⊢
    have := encode_last (h l (by simp))
    obtain ⟨u, rfl⟩ := List.getLast?_eq_some_iff.1 this
    simp

/-- Reading line by line. -/
theorem readLines_iff (f : File) (t : Str) (failure : Option Str) : ReadLines f t failure ↔ f.lines = ⟨t, failure⟩ := by
  constructor
  · intro h
    cases h with
    | all => exact File.lines_encode t
    | failed h1 h2 => exact File.lines_failure t _ _ h1 h2
    | @invalid _ b rest e h1 h2 h3 h4 =>
      cases e with
      | none =>
        exact File.lines_invalid t b rest h1 h2 (fun hr => h3.elim id (fun h => absurd h.1 hr)) (decode_none.2 h4)
      | some e =>
        exact File.lines_invalid_failure t b rest e h1 h2 (h3.elim id (fun h => by cases h.2)) (decode_none.2 h4)
  · intro h
    obtain ⟨b, e⟩ := f
    obtain ⟨s1, s2, s3, s4⟩ := byteLines_spec b
    cases e with
    | none =>
      simp only [File.lines] at h
      rcases lines_cases (byteLines b) with ⟨ls, hls⟩ | ⟨ls, l, rest, hls, hinv⟩
      · rw [hls, decodeLines_encode] at h
        cases h
        rw [← s1, hls, ← encode_flatten]
        exact .all _
      · rw [hls, decodeLines_invalid _ _ _ _ hinv] at h
        cases h
        rw [← s1, hls, List.flatten_append, List.flatten_cons, ← encode_flatten, ← List.append_assoc]
        refine .invalid (wholeLines_encode ls fun x hx => ?_) (s4 l (by rw [hls]; simp)) ?_ (decode_none.1 hinv)
        · refine s3 _ ?_
          rw [hls, List.dropLast_append_of_ne_nil (by simp)]
          exact List.mem_append_left _ (List.mem_map_of_mem hx)
        · cases rest with
          | nil => right; exact ⟨rfl, rfl⟩
          | cons r rest =>
            left
            refine s3 _ ?_
            rw [hls, List.dropLast_append_of_ne_nil (by simp)]
            simp
    | some e =>
      simp only [File.lines] at h
      obtain ⟨bs, tail, hbs, hfl, hten, htail⟩ : ∃ bs tail, (byteLines b).filter (fun l => l.getLast? == some 10) = bs ∧
          b = bs.flatten ++ tail ∧ (∀ l ∈ bs, l.getLast? = some 10 ∧ 10 ∉ l.dropLast) ∧ (10 : UInt8) ∉ tail := by
        refine ⟨(byteLines b).filter (fun l => l.getLast? == some 10), ?_⟩
        rcases List.eq_nil_or_concat (byteLines b) with hb | ⟨bs, l, hb⟩
        · refine ⟨[], rfl, ?_, ?_, by simp⟩
          · rw [hb]; rw [hb] at s1; simpa using s1.symm
          · rw [hb]; simp
        · rw [List.concat_eq_append] at hb
          have hall : ∀ x ∈ bs, x.getLast? = some 10 := fun x hx => s3 x (by rw [hb, List.dropLast_concat]; exact hx)
          have hbs : bs.filter (fun l => l.getLast? == some 10) = bs := by
            rw [List.filter_eq_self]; intro x hx; rw [hall x hx]; rfl
          by_cases hl : l.getLast? = some 10
          · refine ⟨[], rfl, ?_, ?_, by simp⟩
            · rw [hb, List.filter_append, hbs, List.filter_cons_of_pos (by rw [hl]; rfl)]
              rw [hb] at s1
              simpa using s1.symm
            · intro x hx
              have hx' := List.mem_filter.1 hx
              exact ⟨by simpa using hx'.2, s4 x hx'.1⟩
          · refine ⟨l, rfl, ?_, ?_, ?_⟩
            · rw [hb, List.filter_append, hbs, List.filter_cons_of_neg (by simpa using hl)]
              rw [hb] at s1
              simpa using s1.symm
            · intro x hx
              have hx' := List.mem_filter.1 hx
              exact ⟨by simpa using hx'.2, s4 x hx'.1⟩
            · intro hm
              have hne : l ≠ [] := s2 l (by rw [hb]; simp)
              rw [← List.dropLast_concat_getLast hne] at hm
              rcases List.mem_append.1 hm with hm | hm
              · exact s4 l (by rw [hb]; simp) hm
              · apply hl
                rw [List.getLast?_eq_some_getLast hne]
                simp at hm
                rw [← hm]
      rw [hbs] at h
      rcases lines_cases bs with ⟨ls, hls⟩ | ⟨ls, l, rest, hls, hinv⟩
      · rw [hls, decodeLines_encode] at h
        cases h
        rw [hfl, hls, ← encode_flatten]
        exact .failed (wholeLines_encode ls fun x hx => (hten _ (by rw [hls]; exact List.mem_map_of_mem hx)).1) htail
      · rw [hls, decodeLines_invalid _ _ _ _ hinv] at h
        cases h
        rw [hfl, hls, List.flatten_append, List.flatten_cons, ← encode_flatten, ← List.append_assoc, List.append_assoc]
        have hl := hten l (by rw [hls]; simp)
        exact .invalid (wholeLines_encode ls fun x hx =>
          (hten _ (by rw [hls]; exact List.mem_append_left _ (List.mem_map_of_mem hx))).1) hl.2 (.inl hl.1)
          (decode_none.1 hinv)

theorem jsonFile_iff (env : Env) (file : File) (reqs : List Requirement) :
    JsonFile file reqs ↔ JsonRead.fromReader (env.jsonErr file) file.whole = .ok reqs := by
  rw [C77_accepted]
  constructor
  · rintro ⟨text, v, rfl, h1, h2⟩
    rw [File.whole_encode]
    exact ⟨rfl, v, h1, h2⟩
  · rintro ⟨h1, v, h2, h3⟩
    refine ⟨file.whole.text, v, (File.whole_ok file _).1 ?_, h2, h3⟩
    rw [← h1]

/-- **C81** The parser of an artefact returns these requirements and errors for an opened file exactly if the file means
them, down to the last character of the errors. -/
theorem C81_file (env : Env) (parser : ArtefactParser) (file : File) (path : Path) (reqs : List Requirement)
    (errs : List Error) :
    fileResult env parser file path = .ok (reqs, errs) ↔ FileMeans env path file parser reqs errs := by
  cases parser with
  | markdown =>
    simp only [fileResult]
    constructor
    · intro h
      have ht : ¬ OneByteTail file.lines.text :=
        fun ht => (C30_panics_iff_partial env.U file.lines path).2 ht ⟨_, h⟩
      obtain ⟨ls, hl⟩ : ∃ ls, Lines file.lines.text ls := ⟨_, lines_iff.2 rfl⟩
      obtain ⟨ss, hd⟩ := C76_exists env.U path ls
      obtain ⟨rs, h1, h2⟩ := C76_complete env.U file.lines path ls ss ht hl hd
      rw [h] at h1
      cases h1
      exact .markdown ((readLines_iff file _ _).2 rfl) ht hl hd h2
    · intro h
      cases h with
      | markdown h1 h2 h3 h4 h5 =>
        rw [(readLines_iff file _ _).1 h1]
        obtain ⟨rs, h6, h7⟩ := C76_complete env.U ⟨_, _⟩ path _ _ h2 h3 h4
        rw [h6, C76_determined h7 h5]
  | monoRequirement =>
    simp only [fileResult]
    constructor
    · intro h
      have hf : file.lines.failure = none := by
        cases hf : file.lines.failure with
        | none => rfl
        | some e =>
          exfalso
          unfold MonoReq.parse at h
          cases hm : MonoReq.loop env.U path 0 (bufLines file.lines.text) none [] with
          | error q => rw [hm] at h; cases h
          | ok v => simp only [hm, hf] at h; cases h
      have hfile := (File.lines_ok file file.lines.text).1 (by rw [← hf])
      obtain ⟨⟨ls, h1, -, refs, h2, -⟩, h3⟩ := C42_determined env.U file.lines.text path
      have hsrc : file.lines = ⟨file.lines.text, none⟩ := by rw [← hf]
      rw [hsrc] at h
      by_cases hn : ∃ name, FileName path name
      · obtain ⟨name, hn⟩ := hn
        obtain ⟨stem, hs⟩ := h3 name hn
        rw [C42_one_requirement env.U _ path name stem ls refs hn hs h1 h2] at h
        cases h
        exact .mono hfile h1 h2 hn hs
      · have hn' : ∀ name, ¬ FileName path name := fun n h => hn ⟨n, h⟩
        rw [C42_no_stem env.U _ path ls refs hn' h1 h2] at h
        cases h
        exact .monoNoName hfile h1 h2 hn'
    · intro h
      cases h with
      | mono h1 h2 h3 h4 h5 =>
        rw [h1, File.lines_encode, C42_one_requirement env.U _ path _ _ _ _ h4 h5 h2 h3]
      | monoNoName h1 h2 h3 h4 =>
        rw [h1, File.lines_encode, C42_no_stem env.U _ path _ _ h4 h2 h3]
  | rust =>
    simp only [fileResult]
    rw [C80_rust]
    constructor
    · intro h; exact .rust ((readWhole_iff file _).2 rfl) h
    · intro h
      cases h with
      | rust h1 h2 => rw [(readWhole_iff file _).1 h1]; exact h2
  | json =>
    simp only [fileResult]
    cases hr : JsonRead.fromReader (env.jsonErr file) file.whole with
    | ok rs =>
      have hj := (jsonFile_iff env file rs).2 hr
      simp only
      constructor
      · intro h; cases h; exact .json hj
      · intro h
        cases h with
        | json h => rw [(jsonFile_iff env file _).1 h] at hr; cases hr; rfl
        | jsonWrong h => exact absurd hj (h rs)
    | error e =>
      have hj : ∀ rs, ¬ JsonFile file rs := fun rs h => by rw [(jsonFile_iff env file rs).1 h] at hr; cases hr
      have he : e = env.jsonErr file := by
        have := (C77_rejected (env.jsonErr file) file.whole).2 (by
          rintro ⟨h1, v, rs, h2, h3⟩
          rw [(C77_accepted _ _ _).2 ⟨h1, v, h2, h3⟩] at hr; cases hr)
        rw [hr] at this
        cases this; rfl
      subst he
      simp only
      constructor
      · intro h; cases h; exact .jsonWrong hj
      · intro h
        cases h with
        | json h => exact absurd h (hj _)
        | jsonWrong h => rfl

/-- **C81** A file has at most one meaning. -/
theorem C81_determined {env : Env} {parser : ArtefactParser} {file : File} {path : Path} {reqs reqs' : List Requirement}
    {errs errs' : List Error} (h : FileMeans env path file parser reqs errs)
    (h' : FileMeans env path file parser reqs' errs') : reqs = reqs' ∧ errs = errs' := by
  rw [← C81_file] at h h'
  rw [h] at h'
  cases h'
  exact ⟨rfl, rfl⟩

end Reqtrace
