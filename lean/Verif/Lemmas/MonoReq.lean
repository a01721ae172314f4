import Verif.MonoReq
import Verif.Spec.MonoReq
import Verif.Lemmas.MdSpec
import Verif.Props.Markdown

/-!
# Lines, paths and arrows
-/

set_option linter.unusedSimpArgs false

namespace Reqtrace

open Spec

/-! ## Lines -/

theorem chop_lf {l : Str} (h : l.getLast? ≠ some '\r') : chopLine (l ++ ['\n']) = l := by
  unfold chopLine
  simp [h]

theorem chop_crlf (l : Str) : chopLine (l ++ ['\r'] ++ ['\n']) = l := by
  unfold chopLine
  simp [List.dropLast_append_of_ne_nil]

theorem chop_last {l : Str} (h : '\n' ∉ l) : chopLine l = l := by
  unfold chopLine
  rw [if_neg]
  intro hl
  exact h (List.mem_of_getLast? hl)

theorem textLines_of_lines {text : Str} {ls : List Str} (h : Lines text ls) :
    TextLines text (ls.map chopLine) := by
  induction h with
  | nil => exact .nil
  | last l h1 h2 => rw [List.map_cons, List.map_nil, chop_last h2]; exact .last l h1 h2
  | cons l h1 h2 ih =>
    rw [List.map_cons]
    by_cases hr : l.getLast? = some '\r'
    · obtain ⟨u, rfl⟩ : ∃ u, l = u ++ ['\r'] := by
        have := List.getLast?_eq_some_iff.1 hr
        exact this
      rw [chop_crlf]
      have := TextLines.crlf u (by intro h; exact h1 (by simp [h])) ih
      simpa using this
    · rw [chop_lf hr]
      have := TextLines.lf l h1 hr ih
      simpa using this

theorem lines_of_textLines {text : Str} {ls : List Str} (h : TextLines text ls) :
    ∃ raw, Lines text raw ∧ ls = raw.map chopLine := by
  induction h with
  | nil => exact ⟨[], .nil, rfl⟩
  | last l h1 h2 => exact ⟨[l], .last l h1 h2, by simp [chop_last h2]⟩
  | lf l h1 h2 _ ih =>
    obtain ⟨raw, h3, rfl⟩ := ih
    refine ⟨(l ++ ['\n']) :: raw, by simpa using Lines.cons l h1 h3, by simp [chop_lf h2]⟩
  | crlf l h1 _ ih =>
    obtain ⟨raw, h3, rfl⟩ := ih
    refine ⟨(l ++ ['\r'] ++ ['\n']) :: raw, ?_, by rw [List.map_cons, chop_crlf]⟩
    simpa using Lines.cons (l ++ ['\r']) (by simp [h1]) h3

theorem textLines_iff {text : Str} {ls : List Str} : TextLines text ls ↔ ls = bufLines text := by
  constructor
  · intro h
    obtain ⟨raw, h1, rfl⟩ := lines_of_textLines h
    rw [lines_iff.1 h1]; rfl
  · rintro rfl
    exact textLines_of_lines (lines_iff.2 rfl)

theorem textLines_no_nl {text : Str} {ls : List Str} (h : TextLines text ls) : ∀ l ∈ ls, '\n' ∉ l := by
  induction h with
  | nil => simp
  | last l h1 h2 => simpa using h2
  | lf l h1 _ _ ih =>
    intro x hx
    rcases List.mem_cons.1 hx with rfl | hx
    · exact h1
    · exact ih x hx
  | crlf l h1 _ ih =>
    intro x hx
    rcases List.mem_cons.1 hx with rfl | hx
    · exact h1
    · exact ih x hx

theorem isLine_of_no_nl {l : Str} (h : '\n' ∉ l) : IsLine l := by
  simpa using isLine_append h (.inl rfl)

/-! ## Paths -/

theorem splitOnChar_no {sep : Char} {s : Str} (h : sep ∉ s) : splitOnChar sep s = [s] := by
  induction s with
  | nil => rfl
  | cons c t ih =>
    simp only [List.mem_cons, not_or] at h
    rw [splitOnChar, ih h.2]
    have : (c == sep) = false := by simp [Ne.symm h.1]
    simp [this]

theorem splitOnChar_ne (sep : Char) (s : Str) : splitOnChar sep s ≠ [] := by
  cases s with
  | nil => simp [splitOnChar]
  | cons c t =>
    rw [splitOnChar]
    split
    · simp
    · split <;> simp

theorem splitOnChar_append (sep : Char) (a b : Str) :
    splitOnChar sep (a ++ sep :: b) = splitOnChar sep a ++ splitOnChar sep b := by
  induction a with
  | nil => simp [splitOnChar]
  | cons c t ih =>
    rw [List.cons_append, splitOnChar, splitOnChar]
    split
    · rw [ih]; rfl
    · rw [ih]
      cases h : splitOnChar sep t with
      | nil => exact absurd h (splitOnChar_ne _ _)
      | cons p ps => rfl

/-- The pieces put together again. -/
def pieces (sep : Char) : List Str → Str
  | [] => []
  | [x] => x
  | x :: y :: t => x ++ sep :: pieces sep (y :: t)

theorem pieces_split (sep : Char) (s : Str) : pieces sep (splitOnChar sep s) = s := by
  induction s with
  | nil => rfl
  | cons c t ih =>
    rw [splitOnChar]
    cases h : splitOnChar sep t with
    | nil => exact absurd h (splitOnChar_ne _ _)
    | cons p ps =>
      rw [h] at ih
      split
      · rename_i hc
        simp at hc; subst hc
        simp [pieces, ih]
      · cases ps with
        | nil => simp [pieces] at ih ⊢; exact ih
        | cons q qs => simp [pieces] at ih ⊢; exact ih

theorem pieces_mid (sep : Char) (xs : List Str) (f : Str) (ys : List Str) :
    pieces sep (xs ++ f :: ys) =
      xs.flatMap (fun x => x ++ [sep]) ++ f ++ ys.flatMap (fun y => sep :: y) := by
  induction xs with
  | nil =>
    induction ys generalizing f with
    | nil => simp [pieces]
    | cons y ys ih =>
      have := ih y
      simp only [List.nil_append, List.flatMap_nil] at this ⊢
      rw [pieces, this]
      simp
  | cons x xs ih =>
    have e : pieces sep (x :: xs ++ f :: ys) = x ++ sep :: pieces sep (xs ++ f :: ys) := by
      cases xs with
      | nil => rfl
      | cons z zs => rfl
    rw [e, ih]
    simp

theorem splitOnChar_mem_no {sep : Char} {s p : Str} (h : p ∈ splitOnChar sep s) : sep ∉ p := by
  induction s generalizing p with
  | nil => simp [splitOnChar] at h; subst h; simp
  | cons c t ih =>
    rw [splitOnChar] at h
    split at h
    · rcases List.mem_cons.1 h with rfl | h
      · simp
      · exact ih h
    · rename_i hc
      split at h
      · rename_i he; exact absurd he (splitOnChar_ne _ _)
      · rename_i q qs he
        rcases List.mem_cons.1 h with rfl | h
        · have := ih (p := q) (by rw [he]; simp)
          simp only [List.mem_cons, not_or]
          exact ⟨fun e => hc (by simp [e]), this⟩
        · exact ih (by rw [he]; simp [h])

theorem filter_last {α : Type} {p : α → Bool} {l : List α} {f : α}
    (h : (l.filter p).getLast? = some f) :
    ∃ xs ys, l = xs ++ f :: ys ∧ p f = true ∧ ∀ y ∈ ys, p y = false := by
  induction l with
  | nil => cases h
  | cons a l ih =>
    cases hq : (l.filter p).getLast? with
    | some g =>
      have : f = g := by
        rw [List.filter_cons] at h
        split at h
        · rw [List.getLast?_cons, hq] at h; simpa using h.symm
        · rw [hq] at h; simpa using h.symm
      subst this
      obtain ⟨xs, ys, h1, h2⟩ := ih hq
      exact ⟨a :: xs, ys, by rw [h1]; rfl, h2⟩
    | none =>
      have hn : l.filter p = [] := by simpa using hq
      rw [List.filter_cons] at h
      split at h
      · rename_i ha
        rw [hn] at h
        simp at h; subst h
        refine ⟨[], l, rfl, ha, ?_⟩
        intro y hy
        have := List.filter_eq_nil_iff.1 hn y hy
        simpa using this
      · rw [hn] at h; cases h

theorem trail_parts {t : Str} (h : Trail t) (n : Str) (hn : '/' ∉ n) :
    pathParts (n ++ t) = [n].filter (fun s => s != [] && s != ['.']) := by
  induction h generalizing n with
  | nil => simp only [List.append_nil, pathParts, splitOnChar_no hn]
  | slash h ih =>
    have := ih [] (by simp)
    unfold pathParts at this ⊢
    rw [splitOnChar_append, List.filter_append, splitOnChar_no hn]
    simp only [List.nil_append] at this
    rw [this]
    simp
  | dot h h1 ih =>
    rename_i t
    have := ih ['.'] (by simp)
    unfold pathParts at this ⊢
    rw [splitOnChar_append, List.filter_append, splitOnChar_no hn]
    simp only [List.singleton_append] at this
    rw [this]
    simp

theorem trail_of {ys : List Str} (h : ∀ y ∈ ys, y = [] ∨ y = ['.']) :
    Trail (ys.flatMap (fun y => '/' :: y)) ∧
      (ys.flatMap (fun y => '/' :: y) = [] ∨ (ys.flatMap (fun y => '/' :: y)).head? = some '/') := by
  induction ys with
  | nil => exact ⟨.nil, .inl rfl⟩
  | cons y ys ih =>
    obtain ⟨h1, h2⟩ := ih (fun z hz => h z (by simp [hz]))
    refine ⟨?_, .inr (by simp)⟩
    rcases h y (by simp) with rfl | rfl
    · exact .slash h1
    · exact .dot h1 h2

theorem fileName_iff {p n : Str} : fileName p = some n ↔ FileName p n := by
  constructor
  · intro h
    unfold fileName at h
    split at h
    · rename_i f hf
      split at h
      · cases h
      · rename_i hd
        cases h
        obtain ⟨xs, ys, h1, h2, h3⟩ := filter_last hf
        have hp := pieces_split '/' p
        rw [h1, pieces_mid] at hp
        have h2' : n ≠ [] ∧ n ≠ ['.'] := by simpa using h2
        refine ⟨h2'.1, h2'.2, hd, splitOnChar_mem_no (s := p) (by rw [h1]; simp), _, _, hp.symm, ?_, ?_⟩
        · cases xs with
          | nil => exact .inl rfl
          | cons x xs =>
            right
            have : x :: xs = (x :: xs).dropLast ++ [(x :: xs).getLast (by simp)] :=
              (List.dropLast_concat_getLast _).symm
            rw [this, List.flatMap_append]
            simp
        · refine (trail_of fun y hy => ?_).1
          have := h3 y hy
          simp only [Bool.and_eq_false_iff, bne_eq_false_iff_eq] at this
          exact this
    · cases h
  · rintro ⟨h1, h2, h3, h4, dir, trail, rfl, hdir, ht⟩
    have hk : [n].filter (fun s => s != [] && s != ['.']) = [n] := by simp [h1, h2]
    have hlast : (pathParts (dir ++ n ++ trail)).getLast? = some n := by
      rcases hdir with rfl | hdir
      · rw [List.nil_append, trail_parts ht n h4, hk]; rfl
      · obtain ⟨d, rfl⟩ := List.getLast?_eq_some_iff.1 hdir
        have : d ++ ['/'] ++ n ++ trail = d ++ '/' :: (n ++ trail) := by simp
        rw [this]
        have h5 := trail_parts ht n h4
        unfold pathParts at h5 ⊢
        rw [splitOnChar_append, List.filter_append, h5, hk]
        simp
    unfold fileName
    rw [hlast]
    simp [h3]

theorem beforeLastDot_iff {s b : Str} : beforeLastDot s = some b ↔ ∃ ext, s = b ++ '.' :: ext ∧ '.' ∉ ext := by
  induction s generalizing b with
  | nil => simp [beforeLastDot]
  | cons c t ih =>
    rw [beforeLastDot]
    cases hq : beforeLastDot t with
    | some b' =>
      simp only [Option.some.injEq]
      obtain ⟨ext, h1, h2⟩ := ih.1 hq
      constructor
      · rintro rfl; exact ⟨ext, by rw [h1]; rfl, h2⟩
      · rintro ⟨ext', h3, h4⟩
        cases b with
        | nil =>
          simp at h3
          rw [← h3.2, h1] at h4
          exact absurd (by simp) h4
        | cons x b =>
          simp at h3
          have := ih.2 ⟨ext', h3.2, h4⟩
          rw [hq] at this
          simp at this
          rw [this, h3.1]
    | none =>
      have hno : ∀ b, ¬ ∃ ext, t = b ++ '.' :: ext ∧ '.' ∉ ext := by
        intro b h
        rw [ih.2 h] at hq; cases hq
      simp only
      constructor
      · intro h
        by_cases hc : c = '.'
        · rw [if_pos hc] at h
          cases h
          refine ⟨t, by rw [hc]; rfl, ?_⟩
          intro hm
          -- the last dot of `t`
          have : ∀ u : Str, '.' ∈ u → ∃ b ext, u = b ++ '.' :: ext ∧ '.' ∉ ext := by
            intro u
            induction u with
            | nil => simp
            | cons x u ihu =>
              intro hx
              by_cases hu : '.' ∈ u
              · obtain ⟨b, ext, h1, h2⟩ := ihu hu
                exact ⟨x :: b, ext, by rw [h1]; rfl, h2⟩
              · have : x = '.' := by
                  rcases List.mem_cons.1 hx with h | h
                  · exact h.symm
                  · exact absurd h hu
                exact ⟨[], u, by rw [this]; rfl, hu⟩
          obtain ⟨b, hb⟩ := this t hm
          exact hno b hb
        · rw [if_neg hc] at h; cases h
      · rintro ⟨ext, h1, h2⟩
        cases b with
        | nil => simp at h1; simp [h1.1]
        | cons x b =>
          simp at h1
          exact absurd ⟨ext, h1.2, h2⟩ (hno b)

theorem beforeLastDot_none {s : Str} : beforeLastDot s = none ↔ '.' ∉ s := by
  induction s with
  | nil => simp [beforeLastDot]
  | cons c t ih =>
    rw [beforeLastDot]
    cases hq : beforeLastDot t with
    | some b =>
      have : '.' ∈ t := by
        obtain ⟨ext, h, -⟩ := beforeLastDot_iff.1 hq
        rw [h]; simp
      simp [this]
    | none =>
      have := ih.1 hq
      simp [this, eq_comm]

theorem stem_iff {p s : Str} : fileStem p = some s ↔ ∃ n, FileName p n ∧ Stem n s := by
  unfold fileStem
  cases hq : fileName p with
  | none =>
    simp only [Option.map_none, reduceCtorEq, false_iff]
    rintro ⟨n, h, -⟩
    rw [fileName_iff.2 h] at hq; cases hq
  | some n =>
    have hfn := fileName_iff.1 hq
    simp only [Option.map_some, Option.some.injEq]
    have key : (match beforeLastDot n with | some [] => n | some b => b | none => n) = s ↔ Stem n s := by
      unfold Stem
      cases hb : beforeLastDot n with
      | none =>
        have := beforeLastDot_none.1 hb
        constructor
        · rintro rfl
          exact .inr ⟨rfl, fun h => this (List.mem_of_mem_tail h)⟩
        · rintro (⟨ext, h, -⟩ | ⟨h, -⟩)
          · rw [h] at this; simp at this
          · exact h.symm
      | some b =>
        obtain ⟨ext, h1, h2⟩ := beforeLastDot_iff.1 hb
        cases b with
        | nil =>
          simp only
          constructor
          · rintro rfl
            exact .inr ⟨rfl, by rw [h1]; exact h2⟩
          · rintro (⟨ext', h3, h4, h5⟩ | ⟨h, -⟩)
            · have := beforeLastDot_iff.2 ⟨ext', h3, h5⟩
              rw [hb] at this
              simp at this
              exact absurd this h4
            · exact h.symm
        | cons x b =>
          simp only
          constructor
          · rintro rfl
            exact .inl ⟨ext, h1, by simp, h2⟩
          · rintro (⟨ext', h3, h4, h5⟩ | ⟨-, h⟩)
            · have := beforeLastDot_iff.2 ⟨ext', h3, h5⟩
              rw [hb] at this
              simpa using this
            · rw [h1] at h; simp at h
    refine Iff.trans key ?_
    constructor
    · intro h; exact ⟨n, hfn, h⟩
    · rintro ⟨n', h1, h2⟩
      have := fileName_iff.2 h1
      rw [hq] at this
      cases this
      exact h2

/-! ## Arrows -/

namespace MonoReq

open Md

/-- The groups of the regex for a match at the start of `s`. -/
def arrowTail (U : Unicode) : Str → Option (Str × Option Str)
  | '=' :: '>' :: s => refTail U (' ' :: s)
  | _ => none

/-- The groups of the regex on a line. -/
def arrowParts (U : Unicode) : Str → Option (Str × Option Str)
  | [] => none
  | c :: t => (arrowTail U (c :: t)).or (arrowParts U t)

theorem run_refLink (U : Unicode) (s : Str) (hs : IsLine s) (b : Bool) :
    (MonoReq.refLinkRe U).run ⟨b, s, []⟩ (fun s => some ⟨s.caps⟩) = (arrowTail U s).map refCaps := by
  show (Re.chr '=').run ⟨b, s, []⟩ (fun s => (Re.chr '>').run s (fun s =>
    (Re.star true .ws).run s (fun s => (refIdent U).run s done))) = _
  rw [run_chr]
  cases s with
  | nil => rfl
  | cons c t =>
    by_cases hc : c = '='
    · subst hc
      simp only [if_true]
      rw [run_chr]
      cases t with
      | nil => rfl
      | cons d t =>
        by_cases hd : d = '>'
        · subst hd
          simp only [if_true]
          unfold Re.ws
          rw [run_star_det, run_refIdent _ _ (hs.tail.tail.dropWhile _)]
          · show _ = (refTail U (' ' :: t)).map refCaps
            unfold refTail
            have h1 : (' ' :: t).takeWhile isWs ≠ [] := by simp [show isWs ' ' = true by decide]
            have h2 : (' ' :: t).dropWhile isWs = t.dropWhile isWs := by simp [show isWs ' ' = true by decide]
            rw [if_neg h1, h2]
          · intro b c t hc
            simp [refIdent, Re.ident, Re.run, U.start_ws hc]
        · simp only [hd, if_false]
          unfold arrowTail
          split
          · rename_i heq; cases heq; exact absurd rfl hd
          · rfl
    · simp only [hc, if_false]
      unfold arrowTail
      split
      · rename_i heq; cases heq; exact absurd rfl hc
      · rfl

theorem refLink_captures (U : Unicode) (l : Str) (hl : IsLine l) :
    (MonoReq.refLinkRe U).captures l = (arrowParts U l).map refCaps := by
  unfold Re.captures
  suffices h : ∀ b, searchFrom (MonoReq.refLinkRe U) b l = (arrowParts U l).map refCaps from h true
  induction l with
  | nil => intro b; rw [searchFrom, run_refLink U _ hl]; rfl
  | cons c t ih =>
    intro b
    rw [searchFrom, run_refLink U _ hl, ih hl.tail, arrowParts]
    cases arrowTail U (c :: t) <;> simp

theorem arrowTail_iff {U : Unicode} {s : Str} (hs : '\n' ∉ s) {id : Str} {t : Option Str} :
    arrowTail U s = some (id, t) ↔ ArrowEnd U s id t := by
  constructor
  · intro h
    unfold arrowTail at h
    split at h
    · rename_i s' 
      have hs' : '\n' ∉ s' := by intro h; exact hs (by simp [h])
      have hline : IsLine (' ' :: s') := isLine_of_no_nl (by simpa using hs')
      obtain ⟨hid, w, tail, hw, hb, he, h3⟩ := (refTail_iff hline).1 h
      cases w with
      | nil => exact absurd rfl hw
      | cons x w =>
        simp at he
        refine ⟨hid, w, tail, fun c hc => hb c (by simp [hc]), by simp [he.2], ?_⟩
        rcases h3 with h3 | ⟨rest, nl, t', rfl, h4, h5, h6, h7⟩
        · exact .inl h3
        · right
          have : nl = [] := by
            rcases h5 with h5 | h5
            · exact h5
            · subst h5
              rw [he.2] at hs'
              simp at hs'
          subst this
          exact ⟨rest, t', by simp, h6, h7⟩
    · cases h
  · rintro ⟨hid, w, tail, hw, rfl, h⟩
    have e : c!"=>" ++ w ++ id ++ tail = '=' :: '>' :: (w ++ id ++ tail) := by simp
    rw [e] at hs ⊢
    simp only [arrowTail]
    have hs' : '\n' ∉ w ++ id ++ tail := by intro h; exact hs (by simp at h ⊢; simp [h])
    have hline : IsLine (' ' :: (w ++ id ++ tail)) := isLine_of_no_nl (by
      simp only [List.mem_cons, not_or]; exact ⟨by decide, hs'⟩)
    refine (refTail_iff hline).2 ⟨hid, ' ' :: w, tail, by simp, ?_, by simp, ?_⟩
    · intro c hc
      rcases List.mem_cons.1 hc with rfl | hc
      · decide
      · exact hw c hc
    · rcases h with h | ⟨rest, t', rfl, h6, h7⟩
      · exact .inl h
      · refine .inr ⟨rest, [], t', by simp, ?_, .inl rfl, h6, h7⟩
        intro h; exact hs' (by simp [h])

theorem arrowParts_iff {U : Unicode} {s : Str} (hs : '\n' ∉ s) {id : Str} {t : Option Str} :
    arrowParts U s = some (id, t) ↔ ArrowLine U s id t := by
  induction s with
  | nil =>
    constructor
    · intro h; cases h
    · rintro ⟨pre, s, h, ⟨hid, w, tail, hw, rfl, _⟩, _⟩
      simp at h
  | cons c u ih =>
    have hu : '\n' ∉ u := by intro h; exact hs (by simp [h])
    rw [arrowParts]
    constructor
    · intro h
      cases hq : arrowTail U (c :: u) with
      | some p =>
        rw [hq] at h
        cases h
        exact ⟨[], c :: u, rfl, (arrowTail_iff hs).1 hq, by intro _ _ _ h; simp at h⟩
      | none =>
        rw [hq] at h
        obtain ⟨pre, s, h1, h2, h3⟩ := (ih hu).1 h
        refine ⟨c :: pre, s, by rw [h1]; rfl, h2, ?_⟩
        intro pre' s' he hlen id' t' hr
        cases pre' with
        | nil =>
          simp at he; subst he
          rw [(arrowTail_iff hs).2 hr] at hq; cases hq
        | cons x pre' =>
          simp at he
          exact h3 pre' s' he.2 (by simpa using hlen) id' t' hr
    · rintro ⟨pre, s, h1, h2, h3⟩
      cases pre with
      | nil =>
        simp at h1; subst h1
        rw [(arrowTail_iff hs).2 h2]; rfl
      | cons x pre =>
        have hq : arrowTail U (c :: u) = none := by
          cases hq : arrowTail U (c :: u) with
          | none => rfl
          | some p =>
            exact absurd ((arrowTail_iff hs).1 hq) (h3 [] (c :: u) rfl (by simp) _ _)
        rw [hq, Option.none_or]
        simp at h1
        refine (ih hu).2 ⟨pre, s, h1.2, h2, ?_⟩
        intro pre' s' he hlen
        refine h3 (c :: pre') s' ?_ (by simpa using hlen)
        rw [he]; rfl

theorem arrowParts_none_iff {U : Unicode} {l : Str} (hl : '\n' ∉ l) :
    arrowParts U l = none ↔ ∀ id t, ¬ ArrowLine U l id t := by
  constructor
  · intro h a v hh
    rw [(arrowParts_iff hl).2 hh] at h; cases h
  · intro h
    cases hq : arrowParts U l with
    | none => rfl
    | some p => exact absurd ((arrowParts_iff hl).1 hq) (h _ _)

/-! ## The loop -/

/-- The references of the lines. -/
def arrowRefs (U : Unicode) (path : Path) : Nat → List Str → List Reference
  | _, [] => []
  | n, l :: ls => match arrowParts U l with
    | some p => ⟨p.1, p.2, ⟨path, some (.line n)⟩⟩ :: arrowRefs U path (n + 1) ls
    | none => arrowRefs U path (n + 1) ls

theorem arrows_iff {U : Unicode} {path : Path} {n : Nat} {ls : List Str} {rs : List Reference}
    (hl : ∀ l ∈ ls, '\n' ∉ l) : Arrows U path n ls rs ↔ rs = arrowRefs U path n ls := by
  constructor
  · intro h
    induction h with
    | nil => rfl
    | skip h1 _ ih =>
      rw [arrowRefs, (arrowParts_none_iff (hl _ (by simp))).2 h1]
      exact ih (fun l h => hl l (by simp [h]))
    | take h1 _ ih =>
      rw [arrowRefs, (arrowParts_iff (hl _ (by simp))).2 h1]
      simp only
      rw [ih (fun l h => hl l (by simp [h]))]
  · rintro rfl
    induction ls generalizing n with
    | nil => exact .nil _
    | cons l ls ih =>
      rw [arrowRefs]
      cases hq : arrowParts U l with
      | none =>
        exact .skip ((arrowParts_none_iff (hl _ (by simp))).1 hq) (ih (fun l h => hl l (by simp [h])))
      | some p =>
        exact .take ((arrowParts_iff (hl _ (by simp))).1 hq) (ih (fun l h => hl l (by simp [h])))

theorem loop_some (U : Unicode) (path : Path) (no : Nat) (ls : List Str) (title : Str)
    (depends : List Reference) (hl : ∀ l ∈ ls, '\n' ∉ l) :
    loop U path no ls (some title) depends =
      .ok (some title, depends ++ arrowRefs U path (no + 1) ls) := by
  induction ls generalizing no depends with
  | nil => simp [loop, arrowRefs]
  | cons l ls ih =>
    rw [loop, refLink_captures U l (isLine_of_no_nl (hl l (by simp))), arrowRefs]
    cases hq : arrowParts U l with
    | none => exact ih _ _ (fun l h => hl l (by simp [h]))
    | some p =>
      obtain ⟨id, t⟩ := p
      have h1 : (refCaps (id, t)).idx 1 = .ok id := by cases t <;> rfl
      have h2 : (refCaps (id, t)).get 2 = t := by cases t <;> rfl
      simp only [Option.map_some, h1, h2]
      show loop U path (no + 1) ls (some title) _ = _
      rw [ih _ _ (fun l h => hl l (by simp [h]))]
      simp [Location.newWithLineNo]

theorem loop_eq (U : Unicode) (path : Path) (ls : List Str) (hl : ∀ l ∈ ls, '\n' ∉ l) :
    loop U path 0 ls none [] = .ok (ls.head?, arrowRefs U path 2 ls.tail) := by
  cases ls with
  | nil => rfl
  | cons l ls =>
    rw [loop, loop_some _ _ _ _ _ _ (fun l h => hl l (by simp [h]))]
    rfl

end MonoReq

end Reqtrace
