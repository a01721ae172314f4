import Verif.Props.Document
import Verif.Spec.Crlf

/-!
# CR LF line ends, exactly

C41 says that the line ends do not matter, which is false because of empty lines.  Here is what holds of documents in
which no empty line matters: the same requirements, references and errors.
-/

set_option linter.unusedSimpArgs false

namespace Reqtrace

open Spec

namespace Md

/-! ## Lines -/

theorem crlf_nl {b : Str} (h : '\n' ∉ b) : crlf (b ++ ['\n']) = b ++ ['\r', '\n'] := by
  simp [crlf_append, crlf, crlf_no_nl h]

/-- A line is the last one without line feed, or one with a line feed. -/
theorem isLine_split {l : Str} (h : IsLine l) : '\n' ∉ l ∨ ∃ b, '\n' ∉ b ∧ l = b ++ ['\n'] := by
  obtain ⟨nl, hb, (rfl | rfl)⟩ := h
  · left
    rw [List.append_nil] at hb
    rw [hb]
    exact body_no_nl l
  · exact .inr ⟨body l, body_no_nl l, hb⟩

theorem isLine_crlf {l : Str} (h : IsLine l) : IsLine (crlf l) := by
  rcases isLine_split h with h1 | ⟨b, h1, rfl⟩
  · rw [crlf_no_nl h1]; exact h
  · rw [crlf_nl h1, show b ++ ['\r', '\n'] = (b ++ ['\r']) ++ ['\n'] by simp]
    exact isLine_append (by simp [h1]) (.inr rfl)

theorem takeWhile_end {p : Char → Bool} (x : Str) {nl : Str} (h : ∀ c ∈ nl, p c = false) :
    (x ++ nl).takeWhile p = x.takeWhile p ∧ (x ++ nl).dropWhile p = x.dropWhile p ++ nl := by
  induction x with
  | nil =>
    cases nl with
    | nil => simp
    | cons c t => simp [h c (by simp)]
  | cons c x ih =>
    by_cases hc : p c = true
    · simp [hc, ih.1, ih.2]
    · simp [hc]

theorem noCr_of_not_mem {s : Str} (h : '\r' ∉ s) : noCr s = s := by
  unfold noCr
  rw [List.filter_eq_self]
  intro c hc
  simp
  rintro rfl
  exact h hc

theorem noCr_append (s t : Str) : noCr (s ++ t) = noCr s ++ noCr t := by simp [noCr]

theorem noCr_crlf {s : Str} (h : '\r' ∉ s) : noCr (crlf s) = s := by
  induction s with
  | nil => rfl
  | cons c s ih =>
    simp at h
    have ih := ih h.2
    unfold crlf
    split
    · next hc =>
      subst hc
      show noCr (['\r', '\n'] ++ crlf s) = _
      rw [noCr_append, ih]; rfl
    · have : c ≠ '\r' := fun e => h.1 e.symm
      show noCr ([c] ++ crlf s) = _
      rw [noCr_append, ih, noCr_of_not_mem (by simp; exact this.symm)]; rfl

theorem trimStart_cr (s : Str) (h : '\r' ∉ s) :
    noCr (trimStart (s ++ ['\r'])) = trimStart s ∧ trim (trimStart (s ++ ['\r'])) = trim (trimStart s) := by
  by_cases hd : s.dropWhile isWs = []
  · have e : trimStart (s ++ ['\r']) = [] := by
      unfold trimStart
      rw [dropWhile_append_of_eq hd]; rfl
    have e' : trimStart s = [] := hd
    rw [e, e']
    exact ⟨rfl, rfl⟩
  · have e : trimStart (s ++ ['\r']) = trimStart s ++ ['\r'] := dropWhile_append_of_ne hd
    have hno : '\r' ∉ trimStart s := fun hm => h ((List.dropWhile_suffix isWs).subset hm)
    rw [e, noCr_append, noCr_of_not_mem hno]
    refine ⟨by simp [noCr], ?_⟩
    exact ((trimsTo_iff.1 (trimsTo_cr.2 (trimsTo_iff.2 (rfl : trim (trimStart s) = _)))).symm)

/-- The attribute of a line does not depend on the line end, except for a carriage return in its value. -/
theorem attrParts_crlf {l : Str} (hl : IsLine l) (hr : '\r' ∉ l) :
    (attrParts l = none ∧ attrParts (crlf l) = none) ∨
    ∃ a v v', attrParts l = some (a, v) ∧ attrParts (crlf l) = some (a, v') ∧ noCr v' = v ∧ trim v' = trim v := by
  rcases isLine_split hl with h1 | ⟨b, h1, rfl⟩
  · rw [crlf_no_nl h1]
    cases h : attrParts l with
    | none => exact .inl ⟨rfl, rfl⟩
    | some p =>
      refine .inr ⟨p.1, p.2, p.2, rfl, rfl, noCr_of_not_mem ?_, rfl⟩
      obtain ⟨c, low, rest, nl, _, _, _, _, h6, _, _, ⟨w, h9, _⟩, _⟩ := (attrParts_iff hl).1 h
      intro hm
      apply hr
      rw [h6, h9]
      simp [hm]
  · rw [crlf_nl h1]
    cases b with
    | nil => left; constructor <;> decide
    | cons c t =>
      have e1 := takeWhile_end (p := Char.isLower) t (nl := ['\n']) (by decide)
      have e2 := takeWhile_end (p := Char.isLower) t (nl := ['\r', '\n']) (by decide)
      have hnt : '\n' ∉ t := fun h => h1 (by simp [h])
      have hrt : '\r' ∉ t := fun h => hr (by simp [h])
      simp only [List.cons_append, attrParts, e1.1, e1.2, e2.1, e2.2]
      split
      · have hsub : ∀ x, x ∈ t.dropWhile Char.isLower → x ∈ t := fun x hx => (List.dropWhile_suffix _).subset hx
        cases hd : t.dropWhile Char.isLower with
        | nil => left; constructor <;> rfl
        | cons d rest =>
          rw [hd] at hsub
          by_cases hdc : d = ':'
          · subst hdc
            right
            have hn : '\n' ∉ rest := fun h => hnt (hsub _ (by simp [h]))
            have hr' : '\r' ∉ rest := fun h => hrt (hsub _ (by simp [h]))
            have b1 : body (rest ++ ['\n']) = rest := body_append hn (.inr rfl)
            have b2 : body (rest ++ ['\r', '\n']) = rest ++ ['\r'] := by
              rw [show rest ++ ['\r', '\n'] = (rest ++ ['\r']) ++ ['\n'] by simp]
              exact body_append (by simp [hn]) (.inr rfl)
            refine ⟨_, _, _, rfl, rfl, ?_, ?_⟩
            · show noCr (trimStart (body (rest ++ ['\r', '\n']))) = trimStart (body (rest ++ ['\n']))
              rw [b1, b2]; exact (trimStart_cr _ hr').1
            · show trim (trimStart (body (rest ++ ['\r', '\n']))) = trim (trimStart (body (rest ++ ['\n'])))
              rw [b1, b2]; exact (trimStart_cr _ hr').2
          · left
            simp [hdc]
      · exact .inl ⟨rfl, rfl⟩

theorem rawTitle_cr {s : Str} (h : ¬ Blank s) : rawTitle (s ++ ['\r']) = rawTitle s := by
  have h0 : trim s ≠ [] := fun e => h (trim_eq_nil.1 e)
  have e : trim (s ++ ['\r']) = trim s :=
    (trimsTo_iff.1 (trimsTo_cr.2 (trimsTo_iff.2 (rfl : trim s = _)))).symm
  rw [rawTitle_of_trim h0, rawTitle_of_trim (by rw [e]; exact h0), e]

theorem identSplit_end {U : Unicode} {x nl : Str} (hn : ∀ c ∈ nl, U.xidContinue c = false) :
    identSplit U (x ++ nl) = (identSplit U x).map (fun p => (p.1, p.2 ++ nl)) := by
  match x with
  | [] =>
    match nl with
    | [] => rfl
    | [c] => rfl
    | c :: d :: t => simp [identSplit, hn d (by simp)]
  | [c] =>
    match nl with
    | [] => rfl
    | d :: t => simp [identSplit, hn d (by simp)]
  | c :: d :: t =>
    have e := takeWhile_end (p := U.xidContinue) t hn
    simp only [List.cons_append, identSplit, e.1, e.2]
    split <;> rfl

theorem ws_not_cont (U : Unicode) {c : Char} (h : isWs c = true) : U.xidContinue c = false := by
  cases hc : U.xidContinue c with
  | false => rfl
  | true => rw [U.continue_ws c hc] at h; cases h

theorem refTail_crlf {U : Unicode} {b : Str} (hn : '\n' ∉ b) (hc : ¬ ColonEnd b) :
    refTail U (b ++ ['\r', '\n']) = refTail U (b ++ ['\n']) := by
  by_cases hd : b.dropWhile isWs = []
  · have e1 : (b ++ ['\r', '\n']).dropWhile isWs = [] := by rw [dropWhile_append_of_eq hd]; rfl
    have e2 : (b ++ ['\n']).dropWhile isWs = [] := by rw [dropWhile_append_of_eq hd]; rfl
    unfold refTail
    rw [e1, e2]
    simp [identSplit]
  · have hne : b ≠ [] := by rintro rfl; exact hd rfl
    obtain ⟨c, t, rfl⟩ := List.exists_cons_of_ne_nil hne
    have hw : ∀ nl : Str, ((c :: t) ++ nl).takeWhile isWs = [] ↔ isWs c = false := by
      intro nl
      cases h : isWs c <;> simp [h]
    have hi : ∀ nl : Str, (∀ d ∈ nl, isWs d = true) → identSplit U (((c :: t) ++ nl).dropWhile isWs) =
        (identSplit U ((c :: t).dropWhile isWs)).map (fun p => (p.1, p.2 ++ nl)) := by
      intro nl h
      rw [dropWhile_append_of_ne hd, identSplit_end (fun d hd' => ws_not_cont U (h d hd'))]
    unfold refTail
    rw [hi _ (by decide), hi _ (by decide)]
    by_cases hcw : isWs c = false
    · rw [if_pos ((hw _).2 hcw), if_pos ((hw _).2 hcw)]
    · rw [if_neg (fun h => hcw ((hw _).1 h)), if_neg (fun h => hcw ((hw _).1 h))]
      cases hq : identSplit U ((c :: t).dropWhile isWs) with
      | none => rfl
      | some p =>
        obtain ⟨id, r⟩ := p
        have hs := identSplit_line hq
        simp only [Option.map_some]
        have ha : ∀ nl : Str, (∀ d ∈ nl, isWs d = true) → (r ++ nl).all isWs = r.all isWs := by
          intro nl h
          rw [List.all_append, (List.all_eq_true.2 h), Bool.and_true]
        rw [ha _ (by decide), ha _ (by decide)]
        cases hall : r.all isWs with
        | true => rfl
        | false =>
          simp only [Bool.false_eq_true, if_false]
          cases r with
          | nil => cases hall
          | cons d rest =>
            by_cases hdc : d = ':'
            · subst hdc
              obtain ⟨pre, hpre⟩ := List.dropWhile_suffix isWs (l := c :: t)
              rw [hs] at hpre
              have hnb : ¬ Blank rest := by
                intro hb
                exact hc ⟨pre ++ id, rest, by rw [← hpre]; simp, hb⟩
              have hnr : '\n' ∉ rest := by
                intro h
                apply hn
                rw [← hpre]
                simp [h]
              have b1 : body (rest ++ ['\n']) = rest := body_append hnr (.inr rfl)
              have b2 : body (rest ++ ['\r', '\n']) = rest ++ ['\r'] := by
                rw [show rest ++ ['\r', '\n'] = (rest ++ ['\r']) ++ ['\n'] by simp]
                exact body_append (by simp [hnr]) (.inr rfl)
              have hne : rest ≠ [] := by rintro rfl; exact hnb (by intro c hc; cases hc)
              simp only [List.cons_append]
              rw [b1, b2, if_neg hne, if_neg (by simp), rawTitle_cr hnb]
            · simp [hdc]

/-- References do not depend on the line end. -/
theorem refParts_crlf {U : Unicode} {l : Str} (hl : IsLine l) (hc : ¬ ColonEnd l) :
    refParts U (crlf l) = refParts U l := by
  rcases isLine_split hl with h1 | ⟨b, h1, rfl⟩
  · rw [crlf_no_nl h1]
  · rw [crlf_nl h1]
    have hc : ¬ ColonEnd b := by
      rintro ⟨u, w, rfl, hb⟩
      refine hc ⟨u, w ++ ['\n'], by simp, ?_⟩
      intro c hm
      rcases List.mem_append.1 hm with hm | hm
      · exact hb c hm
      · simp at hm; subst hm; decide
    rename_i hc0
    clear hl hc0
    induction b with
    | nil => rfl
    | cons c b ih =>
      have ih := ih (fun h => h1 (by simp [h])) (by rintro ⟨u, w, rfl, hb⟩; exact hc ⟨c :: u, w, rfl, hb⟩)
      have := refTail_crlf (U := U) h1 hc
      simp only [List.cons_append, refParts] at this ⊢
      rw [this, ih]

theorem trips_crlf {l : Str} (hl : IsLine l) : Trips (crlf l) ↔ Trips l := by
  rcases isLine_split hl with h1 | ⟨b, h1, rfl⟩
  · rw [crlf_no_nl h1]
  · rw [crlf_nl h1]
    constructor
    · rintro ⟨h, _⟩
      obtain ⟨c, hc⟩ := utf8Len_one h
      have := congrArg List.length hc
      simp at this
    · rintro ⟨h, h2⟩
      obtain ⟨c, hc⟩ := utf8Len_one h
      have h3 := congrArg List.length hc
      simp at h3
      subst h3
      exact absurd rfl h2

/-- A requirement heading is one with the other line end, too. -/
theorem reqHeading_crlf {U : Unicode} {l : Str} {level : Nat} {id title : Str} (hl : IsLine l)
    (h : ReqHeading U l level id title) : ReqHeading U (crlf l) level id title := by
  rcases isLine_split hl with h1 | ⟨b, h1, rfl⟩
  · rw [crlf_no_nl h1]; exact h
  · rw [crlf_nl h1]
    obtain ⟨h0, hid, w, rest, nl, h, hw, h2, h3, h4, h5⟩ := h
    rcases h4 with rfl | rfl
    · exfalso
      have := congrArg List.getLast? h
      rw [List.append_nil] at this
      simp at this
      cases hq : rest.getLast? with
      | none => exact h2 (by simpa using hq)
      | some c =>
        rw [List.getLast?_cons, hq] at this
        simp at this
        subst this
        exact h3 (List.mem_of_getLast? hq)
    · have h := List.append_cancel_right h
      exact ⟨h0, hid, w, rest ++ ['\r'], ['\n'], by rw [h]; simp, hw, by simp, by simp [h3], .inr rfl, trimsTo_cr.2 h5⟩

theorem head_crlf {l : Str} (hl : IsLine l) : (crlf l).head? = some '#' ↔ l.head? = some '#' := by
  cases l with
  | nil => rfl
  | cons c t =>
    unfold crlf
    split
    · next h => subst h; simp
    · rfl

theorem crlf_ne_nl {l : Str} (hl : IsLine l) : crlf l ≠ ['\n'] := by
  rcases isLine_split hl with h1 | ⟨b, h1, rfl⟩
  · rw [crlf_no_nl h1]; rintro rfl; simp at h1
  · rw [crlf_nl h1]
    intro h
    have := congrArg List.length h
    simp at this

theorem trim_crlf {l : Str} (hl : IsLine l) : trim (crlf l) = [] ↔ trim l = [] := by
  rw [trim_eq_nil, trim_eq_nil]
  rcases isLine_split hl with h1 | ⟨b, h1, rfl⟩
  · rw [crlf_no_nl h1]
  · rw [crlf_nl h1]
    constructor
    · intro h c hc
      apply h
      rcases List.mem_append.1 hc with h | h <;> simp at h ⊢ <;> simp [h]
    · intro h c hc
      rcases List.mem_append.1 hc with h' | h'
      · exact h c (by simp [h'])
      · simp at h'
        rcases h' with rfl | rfl <;> decide

/-! ## The parser on both -/

/-- The parser at the same place in the two texts. -/
inductive Both : Within → Option (State × Requirement) → Option (State × Requirement) → Prop
  | none : Both .nothing none none
  | nothing {r r'} : SameButCr r r' → Both .nothing (some (.lookForReq, r)) (some (.lookForReq, r'))
  | heading {r r'} : SameButCr r r' → Both .heading (some (.lookForDesc, r)) (some (.lookForDesc, r'))
  | prose {r r' d d'} : SameButCr r r' → noCr d' = d → Both .prose (some (.collectDesc d, r)) (some (.collectDesc d', r'))
  | text {r r' a v v'} : SameButCr r r' → noCr v' = v →
      Both .text (some (.collectTextAttr a v, r)) (some (.collectTextAttr a v', r'))
  | list {r r' a v} : SameButCr r r' → Both .list (some (.collectRefLink a v, r)) (some (.collectRefLink a v, r'))
  | gap {r r'} : SameButCr r r' → Both .gap (some (.lookForAttr, r)) (some (.lookForAttr, r'))

theorem SameButCr.insert {r r' : Requirement} (h : SameButCr r r') (a : Str) {v v' : Str} (hv : noCr v' = v) :
    SameButCr { r with attributes := r.attributes.insert a v } { r' with attributes := r'.attributes.insert a v' } := by
  obtain ⟨h1, h2, h3, h4, h5, h6, h7⟩ := h
  refine ⟨h1, h2, h3, h4, h5, h6, fun b => ?_⟩
  simp only [BMap.get_insert]
  split
  · simp [hv]
  · exact h7 b

theorem both_commit {m : Within} {st st' : State} {r r' : Requirement} (h : Both m (some (st, r)) (some (st', r'))) :
    SameButCr (commit st r) (commit st' r') := by
  cases h with
  | nothing h => exact h
  | heading h => exact h
  | prose h hd => exact SameButCr.insert h _ hd
  | text h hd => exact SameButCr.insert h _ hd
  | list h =>
    obtain ⟨h1, h2, h3, h4, h5, h6, h7⟩ := h
    unfold commit
    dsimp only
    split
    · exact ⟨h1, h2, h3, rfl, h5, h6, h7⟩
    · exact ⟨h1, h2, h3, h4, rfl, h6, h7⟩
  | gap h => exact h

theorem recorded_same {r r' : Requirement} (h : SameButCr r r') (a : Str) : recorded r' a = recorded r a := by
  obtain ⟨h1, h2, h3, h4, h5, h6, h7⟩ := h
  unfold recorded BMap.contains
  rw [h4, h5, ← h7 a]
  simp

theorem commit_id' (st : State) (r : Requirement) : (commit st r).id = r.id := commit_id st r

theorem both_id {m : Within} {st st' : State} {r r' : Requirement} (h : Both m (some (st, r)) (some (st', r'))) :
    r'.id = r.id := by
  have := (both_commit h).1
  rwa [commit_id, commit_id] at this

theorem both_attr {m : Within} {st st' : State} {r r' : Requirement} (h : Both m (some (st, r)) (some (st', r')))
    (loc : Location) (a : Str) {f f' : Str} (h1 : noCr f' = f) (h2 : trim f' = trim f) :
    (attrStep loc st' r' a f').2.2 = (attrStep loc st r a f).2.2 ∧
    ((a = attrCovers ∨ a = attrDepends) → Both .list (some ((attrStep loc st r a f).1, (attrStep loc st r a f).2.1))
      (some ((attrStep loc st' r' a f').1, (attrStep loc st' r' a f').2.1))) ∧
    (¬ (a = attrCovers ∨ a = attrDepends) →
      Both .text (some ((attrStep loc st r a f).1, (attrStep loc st r a f).2.1))
      (some ((attrStep loc st' r' a f').1, (attrStep loc st' r' a f').2.1))) := by
  have hc := both_commit h
  refine ⟨?_, ?_, ?_⟩
  · simp only [attrStep, recorded_same hc, both_id h]
  · intro ha
    simp only [attrStep, attrState, if_pos ha]
    have : shortRefs loc f' = shortRefs loc f := by unfold shortRefs; rw [h2]
    rw [this]
    exact .list hc
  · intro ha
    simp only [attrStep, attrState, if_neg ha]
    exact .text hc h1

/-- An attribute line where an attribute may start. -/
theorem step_mayStart {U : Unicode} {loc : Location} {m : Within} {st st' : State} {r r' : Requirement}
    (hm : AttrMayStart m) (h : Both m (some (st, r)) (some (st', r'))) {l a v : Str} (hl : IsLine l)
    (h1 : attrParts l = some (a, v)) : step U loc st r l = attrStep loc st r a v ∧
      step U loc st' r' l = attrStep loc st' r' a v := by
  have hne : l ≠ ['\n'] := by rintro rfl; revert h1; simp [attrParts]
  have hh : l.head? ≠ some '#' := by
    intro hh
    cases l with
    | nil => cases hh
    | cons c t =>
      simp at hh; subst hh
      revert h1
      simp [attrParts]
  unfold step
  rw [if_neg hne, if_neg hh, if_neg hne, if_neg hh]
  cases h <;> simp only [AttrMayStart] at hm
  all_goals (unfold textStep; simp only [h1]; exact ⟨trivial, trivial⟩)

theorem allSame_append {a a' b b' : List Requirement} (h1 : AllSameButCr a a') (h2 : AllSameButCr b b') :
    AllSameButCr (a ++ b) (a' ++ b') := by
  induction h1 with
  | nil => exact h2
  | cons h _ ih => exact .cons h ih

/-- The result of the same lines. -/
def Agree (o o' : Out) : Prop := AllSameButCr o.reqs o'.reqs ∧ o'.errs = o.errs ∧ ∃ m, Both m o.cur o'.cur

theorem agree_step {U : Unicode} {path : Path} {n : Nat} {l l' : Str} {ls ls' : List Str} {st st' : State}
    {r r' : Requirement} (hq : reqParts U l = none) (hq' : reqParts U l' = none)
    (he : (step U (.newWithLineNo path n) st' r' l').2.2 = (step U (.newWithLineNo path n) st r l).2.2)
    (h : Agree (run U path (n + 1) ls (some ((step U (.newWithLineNo path n) st r l).1,
          (step U (.newWithLineNo path n) st r l).2.1)))
      (run U path (n + 1) ls' (some ((step U (.newWithLineNo path n) st' r' l').1,
          (step U (.newWithLineNo path n) st' r' l').2.1)))) :
    Agree (run U path n (l :: ls) (some (st, r))) (run U path n (l' :: ls') (some (st', r'))) := by
  rw [run_some hq, run_some hq']
  exact ⟨h.1, by rw [he]; simp only; rw [h.2.1], h.2.2⟩

theorem reqParts_of_head {U : Unicode} {l : Str} (h : l.head? ≠ some '#') : reqParts U l = none := by
  unfold reqParts
  rw [if_pos]
  cases l with
  | nil => rfl
  | cons c t =>
    have : ¬ c = '#' := fun e => h (by rw [e]; rfl)
    simp [this]

theorem step_text (U : Unicode) (loc : Location) (st : State) (r : Requirement) {l : Str} (h1 : l ≠ ['\n'])
    (h2 : l.head? ≠ some '#') : step U loc st r l = textStep U loc st r l := by
  unfold step
  rw [if_neg h1, if_neg h2]

theorem head_of_attr {l : Str} {a v : Str} (h1 : attrParts l = some (a, v)) : l.head? ≠ some '#' := by
  intro hh
  cases l with
  | nil => cases hh
  | cons c t =>
    simp at hh; subst hh
    revert h1
    simp [attrParts]

theorem agree_run {U : Unicode} {path : Path} {m : Within} {ls : List Str} (h : CrSafe U m ls) :
    ∀ (n : Nat) (cur cur' : Option (State × Requirement)), (∀ l ∈ ls, IsLine l ∧ '\r' ∉ l) → Both m cur cur' →
    Agree (run U path n ls cur) (run U path n (ls.map crlf) cur') := by
  induction h with
  | nil m =>
    intro n cur cur' _ hb
    exact ⟨.nil, rfl, m, hb⟩
  | @requirement m l ls level id title h1 _ ih =>
    intro n cur cur' hl hb
    have hl0 := hl l (by simp)
    obtain ⟨raw, hp, ht⟩ := heading_reqParts h1
    obtain ⟨raw', hp', ht'⟩ := heading_reqParts (reqHeading_crlf hl0.1 h1)
    rw [List.map_cons, run_req hp, run_req hp']
    have hnew : newReq (.newWithLineNo path n) id raw' = newReq (.newWithLineNo path n) id raw := by
      unfold newReq
      rw [ht, ht']
    have := ih (n + 1) (some (.lookForDesc, newReq (.newWithLineNo path n) id raw))
      (some (.lookForDesc, newReq (.newWithLineNo path n) id raw')) (fun x hx => hl x (by simp [hx]))
      (.heading (by rw [hnew]; exact ⟨rfl, rfl, rfl, rfl, rfl, rfl, fun _ => rfl⟩))
    refine ⟨allSame_append ?_ this.1, this.2.1, this.2.2⟩
    cases cur with
    | none => cases hb; exact .nil
    | some p =>
      obtain ⟨st, r⟩ := p
      cases cur' with
      | none => cases hb
      | some p' => exact .cons (both_commit hb) .nil
  | @title m l ls h1 h2 h3 _ ih =>
    intro n cur cur' hl hb
    have hl0 := hl l (by simp)
    have hq : reqParts U l = none := (reqParts_none_iff hl0.1).2 h2
    have hq' : reqParts U (crlf l) = none := by
      rw [reqParts_none_iff (isLine_crlf hl0.1)]
      intro level id t ht
      refine h2 level id t ((crlf_heading hl0.1 ?_).1 ht)
      rintro ⟨_, u, hu⟩
      exact h3 ⟨u, ['\n'], hu, by intro c hc; simp at hc; subst hc; decide⟩
    have ih := ih (n + 1)
    cases cur with
    | none =>
      cases hb
      rw [List.map_cons, run_none hq, run_none hq']
      exact ih none none (fun x hx => hl x (by simp [hx])) .none
    | some p =>
      cases cur' with
      | none => cases hb
      | some p' =>
        obtain ⟨st, r⟩ := p
        obtain ⟨st', r'⟩ := p'
        have e : ∀ (st : State) (r : Requirement) (l : Str), l.head? = some '#' →
            step U (.newWithLineNo path n) st r l = (.lookForReq, commit st r, []) := by
          intro st r l h
          unfold step
          rw [if_neg (by rintro rfl; cases h), if_pos h]
        have e1 := e st r l h1
        have e2 := e st' r' (crlf l) ((head_crlf hl0.1).2 h1)
        apply agree_step hq hq'
        · rw [e1, e2]
        · rw [e1, e2]
          exact ih _ _ (fun x hx => hl x (by simp [hx])) (.nothing (both_commit hb))
  | @outside l ls h1 _ ih =>
    intro n cur cur' hl hb
    have hl0 := hl l (by simp)
    have hh' : (crlf l).head? ≠ some '#' := fun h => h1 ((head_crlf hl0.1).1 h)
    have hq := reqParts_of_head (U := U) h1
    have hq' := reqParts_of_head (U := U) hh'
    have ih := ih (n + 1)
    have hl' : ∀ x ∈ ls, IsLine x ∧ '\r' ∉ x := fun x hx => hl x (by simp [hx])
    cases hb with
    | none =>
      rw [List.map_cons, run_none hq, run_none hq']
      exact ih none none hl' .none
    | @nothing r r' hb =>
      have e : ∀ (r : Requirement) (l : Str), l.head? ≠ some '#' →
          step U (.newWithLineNo path n) .lookForReq r l = (.lookForReq, r, []) := by
        intro r l h
        unfold step
        split
        · rfl
        · rfl
      have e1 := e r l h1
      have e2 := e r' _ hh'
      apply agree_step hq hq'
      · rw [e1, e2]
      · rw [e1, e2]
        exact ih _ _ hl' (.nothing hb)
  | @refs m l ls a v h0 h1 h2 _ ih =>
    intro n cur cur' hl hb
    have hl0 := hl l (by simp)
    rcases attrParts_crlf hl0.1 hl0.2 with ⟨hn, _⟩ | ⟨a', v', v'', hp, hp', hv1, hv2⟩
    · rw [(attrParts_iff hl0.1).2 h1] at hn; cases hn
    · have hav := (attrParts_iff hl0.1).2 h1
      rw [hp] at hav
      cases hav
      cases cur with
      | none => cases hb; exact h0.elim
      | some p =>
        cases cur' with
        | none => cases hb
        | some p' =>
          obtain ⟨st, r⟩ := p
          obtain ⟨st', r'⟩ := p'
          have e1 := (step_mayStart (U := U) (loc := .newWithLineNo path n) h0 hb hl0.1 hp).1
          have e2 := (step_mayStart (U := U) (loc := .newWithLineNo path n) h0 hb (isLine_crlf hl0.1) hp').2
          have hs := both_attr hb (.newWithLineNo path n) a hv1 hv2
          apply agree_step (reqParts_of_head (head_of_attr hp)) (reqParts_of_head (head_of_attr hp'))
          · rw [e1, e2]; exact hs.1
          · rw [e1, e2]
            exact ih (n + 1) _ _ (fun x hx => hl x (by simp [hx])) (hs.2.1 h2)
  | @text m l ls a v h0 h1 h2 h3 _ ih =>
    intro n cur cur' hl hb
    have hl0 := hl l (by simp)
    rcases attrParts_crlf hl0.1 hl0.2 with ⟨hn, _⟩ | ⟨a', v', v'', hp, hp', hv1, hv2⟩
    · rw [(attrParts_iff hl0.1).2 h1] at hn; cases hn
    · have hav := (attrParts_iff hl0.1).2 h1
      rw [hp] at hav
      cases hav
      cases cur with
      | none => cases hb; exact h0.elim
      | some p =>
        cases cur' with
        | none => cases hb
        | some p' =>
          obtain ⟨st, r⟩ := p
          obtain ⟨st', r'⟩ := p'
          have e1 := (step_mayStart (U := U) (loc := .newWithLineNo path n) h0 hb hl0.1 hp).1
          have e2 := (step_mayStart (U := U) (loc := .newWithLineNo path n) h0 hb (isLine_crlf hl0.1) hp').2
          have hs := both_attr hb (.newWithLineNo path n) a hv1 hv2
          apply agree_step (reqParts_of_head (head_of_attr hp)) (reqParts_of_head (head_of_attr hp'))
          · rw [e1, e2]; exact hs.1
          · rw [e1, e2]
            exact ih (n + 1) _ _ (fun x hx => hl x (by simp [hx]))
              (hs.2.2 (fun h => h.elim (fun h => h2 h) (fun h => h3 h)))
  | @description l ls h1 h2 h3 _ ih =>
    intro n cur cur' hl hb
    have hl0 := hl l (by simp)
    have hh' : (crlf l).head? ≠ some '#' := fun h => h2 ((head_crlf hl0.1).1 h)
    have hn := (attrParts_none_iff hl0.1).2 h3
    have hn' : attrParts (crlf l) = none := by
      rcases attrParts_crlf hl0.1 hl0.2 with ⟨_, h⟩ | ⟨a, v, v', h, _⟩
      · exact h
      · rw [h] at hn; cases hn
    cases hb with
    | @heading r r' hb =>
      have e1 : step U (.newWithLineNo path n) .lookForDesc r l = (.collectDesc l, r, []) := by
        rw [step_text _ _ _ _ h1 h2]; simp only [textStep, hn]
      have e2 : step U (.newWithLineNo path n) .lookForDesc r' (crlf l) = (.collectDesc (crlf l), r', []) := by
        rw [step_text _ _ _ _ (crlf_ne_nl hl0.1) hh']; simp only [textStep, hn']
      apply agree_step (reqParts_of_head h2) (reqParts_of_head hh')
      · rw [e1, e2]
      · rw [e1, e2]
        exact ih (n + 1) _ _ (fun x hx => hl x (by simp [hx])) (.prose hb (noCr_crlf hl0.2))
  | @prose l ls h1 h2 _ ih =>
    intro n cur cur' hl hb
    have hl0 := hl l (by simp)
    have hh' : (crlf l).head? ≠ some '#' := fun h => h2 ((head_crlf hl0.1).1 h)
    cases hb with
    | @prose r r' d d' hb hd =>
      have e1 : step U (.newWithLineNo path n) (.collectDesc d) r l = (.collectDesc (d ++ l), r, []) := by
        rw [step_text _ _ _ _ h1 h2]; rfl
      have e2 : step U (.newWithLineNo path n) (.collectDesc d') r' (crlf l) = (.collectDesc (d' ++ crlf l), r', []) := by
        rw [step_text _ _ _ _ (crlf_ne_nl hl0.1) hh']; rfl
      apply agree_step (reqParts_of_head h2) (reqParts_of_head hh')
      · rw [e1, e2]
      · rw [e1, e2]
        exact ih (n + 1) _ _ (fun x hx => hl x (by simp [hx])) (.prose hb (by rw [noCr_append, hd, noCr_crlf hl0.2]))
  | @more l ls h2 h3 _ ih =>
    intro n cur cur' hl hb
    have hl0 := hl l (by simp)
    have hh' : (crlf l).head? ≠ some '#' := fun h => h2 ((head_crlf hl0.1).1 h)
    have hn := (attrParts_none_iff hl0.1).2 h3
    have hn' : attrParts (crlf l) = none := by
      rcases attrParts_crlf hl0.1 hl0.2 with ⟨_, h⟩ | ⟨a, v, v', h, _⟩
      · exact h
      · rw [h] at hn; cases hn
    cases hb with
    | @text r r' a v v' hb hv =>
      have e1 : step U (.newWithLineNo path n) (.collectTextAttr a v) r l = (.collectTextAttr a (v ++ l), r, []) := by
        by_cases h1 : l = ['\n']
        · subst h1; rfl
        · rw [step_text _ _ _ _ h1 h2]; simp only [textStep, hn]
      have e2 : step U (.newWithLineNo path n) (.collectTextAttr a v') r' (crlf l) =
          (.collectTextAttr a (v' ++ crlf l), r', []) := by
        rw [step_text _ _ _ _ (crlf_ne_nl hl0.1) hh']; simp only [textStep, hn']
      apply agree_step (reqParts_of_head h2) (reqParts_of_head hh')
      · rw [e1, e2]
      · rw [e1, e2]
        exact ih (n + 1) _ _ (fun x hx => hl x (by simp [hx])) (.text hb (by rw [noCr_append, hv, noCr_crlf hl0.2]))
  | @item l ls id title h2 h3 h4 _ ih =>
    intro n cur cur' hl hb
    have hl0 := hl l (by simp)
    have hh' : (crlf l).head? ≠ some '#' := fun h => h2 ((head_crlf hl0.1).1 h)
    have hp := (refParts_iff hl0.1).2 h3
    have hp' : refParts U (crlf l) = some (id, title) := by rw [refParts_crlf hl0.1 h4, hp]
    have h1 : l ≠ ['\n'] := by
      rintro rfl
      have : refParts U ['\n'] = none := rfl
      rw [this] at hp
      cases hp
    cases hb with
    | @list r r' a v hb =>
      have e1 : step U (.newWithLineNo path n) (.collectRefLink a v) r l =
          (.collectRefLink a (v ++ [⟨id, title, .newWithLineNo path n⟩]), r, []) := by
        rw [step_text _ _ _ _ h1 h2]; simp only [textStep, hp]
      have e2 : step U (.newWithLineNo path n) (.collectRefLink a v) r' (crlf l) =
          (.collectRefLink a (v ++ [⟨id, title, .newWithLineNo path n⟩]), r', []) := by
        rw [step_text _ _ _ _ (crlf_ne_nl hl0.1) hh']; simp only [textStep, hp']
      apply agree_step (reqParts_of_head h2) (reqParts_of_head hh')
      · rw [e1, e2]
      · rw [e1, e2]
        exact ih (n + 1) _ _ (fun x hx => hl x (by simp [hx])) (.list hb)
  | @blank l ls h3 _ ih =>
    intro n cur cur' hl hb
    have hl0 := hl l (by simp)
    have ht : trim l = [] := trim_eq_nil.2 h3
    have h2 : l.head? ≠ some '#' := by
      intro h
      have := h3 '#' (List.mem_of_head? h)
      revert this; decide
    have hh' : (crlf l).head? ≠ some '#' := fun h => h2 ((head_crlf hl0.1).1 h)
    have hnc : ¬ ColonEnd l := by
      rintro ⟨u, w, rfl, _⟩
      have := h3 ':' (by simp)
      revert this; decide
    have hp : refParts U l = none := by
      rw [refParts_none_iff hl0.1]
      rintro id t ⟨pre, s, rfl, ⟨hid, w, tail, _, _, rfl, _⟩, _⟩
      obtain ⟨c, hc⟩ := List.exists_mem_of_ne_nil _ hid.ne_nil
      have h5 := h3 c (by simp [hc])
      rw [hid.no_ws c hc] at h5
      cases h5
    have hp' : refParts U (crlf l) = none := by rw [refParts_crlf hl0.1 hnc, hp]
    cases hb with
    | @list r r' a v hb =>
      have e1 : step U (.newWithLineNo path n) (.collectRefLink a v) r l =
          (.lookForAttr, commit (.collectRefLink a v) r, []) := by
        by_cases h1 : l = ['\n']
        · subst h1; rfl
        · rw [step_text _ _ _ _ h1 h2]; simp only [textStep, hp, if_pos ht]
      have e2 : step U (.newWithLineNo path n) (.collectRefLink a v) r' (crlf l) =
          (.lookForAttr, commit (.collectRefLink a v) r', []) := by
        rw [step_text _ _ _ _ (crlf_ne_nl hl0.1) hh']; simp only [textStep, hp', if_pos ((trim_crlf hl0.1).2 ht)]
      apply agree_step (reqParts_of_head h2) (reqParts_of_head hh')
      · rw [e1, e2]
      · rw [e1, e2]
        exact ih (n + 1) _ _ (fun x hx => hl x (by simp [hx])) (.gap (both_commit (.list hb)))
  | @noRef l ls h2 h3 h4 h5 _ ih =>
    intro n cur cur' hl hb
    have hl0 := hl l (by simp)
    have ht : trim l ≠ [] := fun h => h3 (trim_eq_nil.1 h)
    have ht' : trim (crlf l) ≠ [] := fun h => ht ((trim_crlf hl0.1).1 h)
    have hh' : (crlf l).head? ≠ some '#' := fun h => h2 ((head_crlf hl0.1).1 h)
    have hp := (refParts_none_iff hl0.1).2 h4
    have hp' : refParts U (crlf l) = none := by rw [refParts_crlf hl0.1 h5, hp]
    have h1 : l ≠ ['\n'] := by rintro rfl; exact h3 (by intro c hc; simp at hc; subst hc; decide)
    cases hb with
    | @list r r' a v hb =>
      have e1 : step U (.newWithLineNo path n) (.collectRefLink a v) r l =
          (.lookForReq, commit (.collectRefLink a v) r, [.format (.newWithLineNo path n) errRef]) := by
        rw [step_text _ _ _ _ h1 h2]; simp only [textStep, hp, if_neg ht]
      have e2 : step U (.newWithLineNo path n) (.collectRefLink a v) r' (crlf l) =
          (.lookForReq, commit (.collectRefLink a v) r', [.format (.newWithLineNo path n) errRef]) := by
        rw [step_text _ _ _ _ (crlf_ne_nl hl0.1) hh']; simp only [textStep, hp', if_neg ht']
      apply agree_step (reqParts_of_head h2) (reqParts_of_head hh')
      · rw [e1, e2]
      · rw [e1, e2]
        exact ih (n + 1) _ _ (fun x hx => hl x (by simp [hx])) (.nothing (both_commit (.list hb)))
  | @noAttr l ls h1 h2 h3 _ ih =>
    intro n cur cur' hl hb
    have hl0 := hl l (by simp)
    have hh' : (crlf l).head? ≠ some '#' := fun h => h2 ((head_crlf hl0.1).1 h)
    have hn := (attrParts_none_iff hl0.1).2 h3
    have hn' : attrParts (crlf l) = none := by
      rcases attrParts_crlf hl0.1 hl0.2 with ⟨_, h⟩ | ⟨a, v, v', h, _⟩
      · exact h
      · rw [h] at hn; cases hn
    cases hb with
    | @gap r r' hb =>
      have e1 : step U (.newWithLineNo path n) .lookForAttr r l =
          (.lookForReq, r, [.format (.newWithLineNo path n) errAttr]) := by
        rw [step_text _ _ _ _ h1 h2]; simp only [textStep, hn]
      have e2 : step U (.newWithLineNo path n) .lookForAttr r' (crlf l) =
          (.lookForReq, r', [.format (.newWithLineNo path n) errAttr]) := by
        rw [step_text _ _ _ _ (crlf_ne_nl hl0.1) hh']; simp only [textStep, hn']
      apply agree_step (reqParts_of_head h2) (reqParts_of_head hh')
      · rw [e1, e2]
      · rw [e1, e2]
        exact ih (n + 1) _ _ (fun x hx => hl x (by simp [hx])) (.nothing hb)

theorem both_finish {m : Within} {cur cur' : Option (State × Requirement)} (h : Both m cur cur')
    (failure : Option Str) (path : Path) :
    AllSameButCr (finish failure path cur).1 (finish failure path cur').1 ∧
      (finish failure path cur').2 = (finish failure path cur).2 := by
  cases failure with
  | some e => exact ⟨.nil, rfl⟩
  | none =>
    have hc : ∀ {st st' r r'}, Both m (some (st, r)) (some (st', r')) →
        AllSameButCr [commit st r] [commit st' r'] := fun h => .cons (both_commit h) .nil
    cases h with
    | none => exact ⟨.nil, rfl⟩
    | nothing h => exact ⟨.nil, rfl⟩
    | heading h => exact ⟨hc (.heading h), rfl⟩
    | prose h h1 => exact ⟨hc (.prose h h1), rfl⟩
    | text h h1 => exact ⟨hc (.text h h1), rfl⟩
    | list h => exact ⟨hc (.list h), rfl⟩
    | gap h => exact ⟨hc (.gap h), rfl⟩

end Md

open Md

theorem mem_lines_sub {text : Str} {ls : List Str} (h : Lines text ls) : ∀ l ∈ ls, ∀ c ∈ l, c ∈ text := by
  induction h with
  | nil => intro l hl; cases hl
  | last l _ _ =>
    intro x hx c hc
    simp at hx; subst hx; exact hc
  | cons l _ _ ih =>
    intro x hx c hc
    rcases List.mem_cons.1 hx with rfl | hx
    · rcases List.mem_append.1 hc with h | h <;> simp at h ⊢ <;> simp [h]
    · have := ih x hx c hc
      simp [this]

/-- C41, what holds of whole documents: if no empty line matters, CR LF line ends give the same requirements, with the
same references, and the same errors; only the texts of attributes have the carriage returns. -/
theorem C41_document_partial (U : Unicode) (text : Str) (failure : Option Str) (path : Path) (ls : List Str)
    (hr : '\r' ∉ text) (hl : Lines text ls) (hs : CrSafe U .nothing ls) (rs : List Requirement) (es : List Error)
    (hp : Md.parse U ⟨text, failure⟩ path = .ok (rs, es)) :
    ∃ rs', Md.parse U ⟨crlf text, failure⟩ path = .ok (rs', es) ∧ AllSameButCr rs rs' := by
  have hline : ∀ l ∈ ls, IsLine l := fun l h => isLine_of_mem (text := text) (lines_iff.1 hl ▸ h)
  have e1 : splitLines text = ls := (lines_iff.1 hl).symm
  have e2 : splitLines (crlf text) = ls.map crlf := (lines_iff.1 (crlf_lines hl)).symm
  by_cases ht : ∃ l ∈ ls, Trips l
  · rw [parse_trips U ⟨text, failure⟩ path (by rw [e1]; exact ht)] at hp
    cases hp
  · have ht1 : ∀ l ∈ splitLines text, ¬ Trips l := by
      rw [e1]; exact fun l h hh => ht ⟨l, h, hh⟩
    have ht2 : ∀ l ∈ splitLines (crlf text), ¬ Trips l := by
      rw [e2]
      intro l h hh
      obtain ⟨l0, h0, rfl⟩ := List.mem_map.1 h
      exact ht ⟨l0, h0, (trips_crlf (hline l0 h0)).1 hh⟩
    rw [parse_eq U ⟨text, failure⟩ path ht1] at hp
    rw [parse_eq U ⟨crlf text, failure⟩ path ht2]
    simp only [e1, e2] at hp ⊢
    have ha := agree_run (path := path) hs 1 none none
      (fun l h => ⟨hline l h, fun hm => hr (mem_lines_sub hl l h _ hm)⟩) .none
    obtain ⟨h1, h2, m, h3⟩ := ha
    have hf := both_finish h3 failure path
    simp only [Except.ok.injEq, Prod.mk.injEq] at hp
    obtain ⟨rfl, rfl⟩ := hp
    exact ⟨_, by rw [h2, hf.2], allSame_append h1 hf.1⟩

/-- Whether the assertion fails does not depend on the line ends. -/
theorem C41_panic_partial (U : Unicode) (text : Str) (failure : Option Str) (path : Path) (p : Panic) :
    Md.parse U ⟨crlf text, failure⟩ path = .error p ↔ Md.parse U ⟨text, failure⟩ path = .error p := by
  have e : splitLines (crlf text) = (splitLines text).map crlf :=
    (lines_iff.1 (crlf_lines (lines_iff.2 rfl))).symm
  have hline : ∀ l ∈ splitLines text, IsLine l := fun l h => isLine_of_mem (text := text) h
  have ht : (∃ l ∈ splitLines (crlf text), Trips l) ↔ ∃ l ∈ splitLines text, Trips l := by
    rw [e]
    constructor
    · rintro ⟨l, h, hh⟩
      obtain ⟨l0, h0, rfl⟩ := List.mem_map.1 h
      exact ⟨l0, h0, (trips_crlf (hline l0 h0)).1 hh⟩
    · rintro ⟨l, h, hh⟩
      exact ⟨crlf l, List.mem_map.2 ⟨l, h, rfl⟩, (trips_crlf (hline l h)).2 hh⟩
  by_cases h : ∃ l ∈ splitLines text, Trips l
  · rw [parse_trips U ⟨text, failure⟩ path h, parse_trips U ⟨crlf text, failure⟩ path (ht.2 h)]
  · rw [parse_eq U ⟨text, failure⟩ path (fun l hl hh => h ⟨l, hl, hh⟩),
      parse_eq U ⟨crlf text, failure⟩ path (fun l hl hh => h (ht.1 ⟨l, hl, hh⟩))]
    constructor <;> (intro h; cases h)

namespace CrlfExample

open DocExample (attr noAttr noHead head)

/-- A document with empty lines where they do not matter. -/
def lines : List Str := [c!"intro\n", c!"\n", c!"# Top\n", c!"\n", c!"# AB: T\n", c!"some\n", c!"prose\n",
  c!"# CD: U\n", c!"Covers: X1\n", c!"* X2: Y\n", c!"\n", c!"Note: n\n", c!"\n", c!"m\n"]

theorem nl {l : Str} (h : l.getLast? = some '\n' ∧ '\n' ∉ l.dropLast) : ∃ u, l = u ++ ['\n'] ∧ '\n' ∉ u := by
  obtain ⟨h1, h2⟩ := h
  obtain ⟨u, rfl⟩ := List.getLast?_eq_some_iff.1 h1
  exact ⟨u, rfl, by simpa using h2⟩

theorem noColon {l : Str} {c : Char} {u w : Str} (h : l = u ++ c :: w) (hc : isWs c = false) (hne : c ≠ ':')
    (hw : ∀ d ∈ w, d ≠ ':') : ¬ ColonEnd l := by
  rintro ⟨u', w', h', hb⟩
  rw [h] at h'
  rcases List.append_eq_append_iff.1 h' with ⟨x, hx, hy⟩ | ⟨x, hx, hy⟩
  · cases x with
    | nil => simp at hy; exact hne hy.1
    | cons d x =>
      simp at hy
      exact hw ':' (by rw [hy.2]; simp) rfl
  · cases x with
    | nil => simp at hy; exact hne hy.1.symm
    | cons d x =>
      simp at hy
      have := hb c (by rw [hy.2]; simp)
      rw [hc] at this
      cases this

theorem safe : CrSafe .ascii .nothing lines := by
  have h1 : ReqHeading .ascii c!"# AB: T\n" 1 c!"AB" c!"T" := head (raw := c!"T") (nl (by decide)) (by decide +kernel)
  have h2 : ReqHeading .ascii c!"# CD: U\n" 1 c!"CD" c!"U" := head (raw := c!"U") (nl (by decide)) (by decide +kernel)
  have a1 : AttrLine c!"Covers: X1\n" c!"Covers" c!"X1" := attr (nl (by decide)) (by decide +kernel)
  have a2 : AttrLine c!"Note: n\n" c!"Note" c!"n" := attr (nl (by decide)) (by decide +kernel)
  have r1 : RefLine .ascii c!"* X2: Y\n" c!"X2" (some c!"Y") :=
    (refParts_iff (attr.isLine (nl (by decide)))).1 (by decide +kernel)
  have s1 : CrSafe .ascii .text [c!"\n", c!"m\n"] := .more (by decide) (noAttr (nl (by decide)) (by decide +kernel))
    (.more (by decide) (noAttr (nl (by decide)) (by decide +kernel)) (.nil _))
  have b1 : Blank c!"\n" := by intro c hc; simp at hc; subst hc; decide
  have s2 : CrSafe .ascii .list [c!"* X2: Y\n", c!"\n", c!"Note: n\n", c!"\n", c!"m\n"] :=
    .item (by decide) r1 (noColon (u := c!"* X2: ") (c := 'Y') (w := c!"\n") rfl (by decide) (by decide) (by decide))
      (.blank b1 (.text trivial a2 (by decide) (by decide) s1))
  have s3 : CrSafe .ascii .heading [c!"some\n", c!"prose\n", c!"# CD: U\n", c!"Covers: X1\n", c!"* X2: Y\n", c!"\n",
      c!"Note: n\n", c!"\n", c!"m\n"] :=
    .description (by decide) (by decide) (noAttr (nl (by decide)) (by decide +kernel)) (.prose (by decide) (by decide)
      (.requirement h2 (.refs trivial a1 (.inl rfl) s2)))
  exact .outside (by decide) (.outside (by decide) (.title (by decide) (noHead (nl (by decide)) (by decide +kernel))
    (noColon (u := c!"# To") (c := 'p') (w := c!"\n") rfl (by decide) (by decide) (by decide))
    (.outside (by decide) (.requirement h1 s3))))

/-- The document, parsed with either line end. -/
example : '\r' ∉ lines.flatten ∧ Md.parse .ascii ⟨lines.flatten, none⟩ c!"f" = .ok ([
      ⟨c!"AB", some c!"T", ⟨c!"f", some (.line 5)⟩, [], [], [], .ofList [(c!"Description", c!"some\nprose\n")]⟩,
      ⟨c!"CD", some c!"U", ⟨c!"f", some (.line 8)⟩, [⟨c!"X1", none, ⟨c!"f", some (.line 9)⟩⟩,
        ⟨c!"X2", some c!"Y", ⟨c!"f", some (.line 10)⟩⟩], [], [], .ofList [(c!"Note", c!"n\nm\n")]⟩], []) ∧
    Md.parse .ascii ⟨crlf lines.flatten, none⟩ c!"f" = .ok ([
      ⟨c!"AB", some c!"T", ⟨c!"f", some (.line 5)⟩, [], [], [], .ofList [(c!"Description", c!"some\r\nprose\r\n")]⟩,
      ⟨c!"CD", some c!"U", ⟨c!"f", some (.line 8)⟩, [⟨c!"X1", none, ⟨c!"f", some (.line 9)⟩⟩,
        ⟨c!"X2", some c!"Y", ⟨c!"f", some (.line 10)⟩⟩], [], [], .ofList [(c!"Note", c!"n\r\r\nm\r\n")]⟩], []) := by
  decide +kernel

/-- What is compared below: references, names of attributes, and the number of errors. -/
def gist (t : Str) : Option (List (List Str × List Str) × Nat) :=
  match Md.parse .ascii ⟨t, none⟩ c!"f" with
  | .ok r => some (r.1.map (fun q => (q.covers.map (·.id), q.attributes.keys)), r.2.length)
  | .error _ => none

/-- Where an empty line does matter: below a heading, in a description, and a second one below a list; and a reference
whose title is missing. -/
example : gist c!"# AB: T\n\nNote: n\n" ≠ gist (crlf c!"# AB: T\n\nNote: n\n") ∧
    gist c!"# AB: T\nprose\n\nNote: n\n" ≠ gist (crlf c!"# AB: T\nprose\n\nNote: n\n") ∧
    gist c!"# AB: T\nCovers: X1\n\n\nNote: n\n" ≠ gist (crlf c!"# AB: T\nCovers: X1\n\n\nNote: n\n") ∧
    gist c!"# AB: T\nCovers:\n* X1:\n" ≠ gist (crlf c!"# AB: T\nCovers:\n* X1:\n") :=
  ⟨by decide +kernel, by decide +kernel, by decide +kernel, by decide +kernel⟩

end CrlfExample

end Reqtrace
