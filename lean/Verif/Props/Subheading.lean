import Verif.Props.Shuffled

/-!
# C149: headings below a requirement
-/

namespace Reqtrace

open Spec

namespace Md

/-- After a heading that starts no requirement the parser only waits for the next one. -/
theorem run_subheading (U : Unicode) (path : Path) {h : Str} {junk : List Str} (hh : h.head? = some '#')
    (hn : ∀ l ∈ h :: junk, IsLine l ∧ NoHeading U l) (n : Nat) (cur : Option (State × Requirement)) :
    run U path n (h :: junk) cur = ⟨[], [], cur.map (fun p => (.lookForReq, commit p.1 p.2))⟩ := by
  have h0 := hn h (by simp)
  have h1 : ∀ l ∈ junk, IsLine l ∧ NoHeading U l := fun l hl => hn l (by simp [hl])
  cases cur with
  | none =>
    rw [run_idle U path n _ (fun l hl => (reqParts_none_iff (hn l hl).1).2 (hn l hl).2)]
    rfl
  | some p =>
    obtain ⟨st, r⟩ := p
    rw [run_some ((reqParts_none_iff h0.1).2 h0.2)]
    have hs : step U (.newWithLineNo path n) st r h = (.lookForReq, commit st r, []) := by
      unfold step
      rw [if_neg (by rintro rfl; simp at hh), if_pos hh]
    rw [hs]
    simp only [run_idleState U path junk (n + 1) _ h1, List.append_nil]
    rfl

end Md

open Md

/-! ## C149 -/

/-- **C149 as listed**: a heading of a lower level that starts no requirement is part of the description of the requirement
above. -/
def C149_statement : Prop := ∀ (U : Unicode) (path : Path) (text h : Str) (body rest : List Str) (level k : Nat)
  (id title t : Str) (rs : List Requirement) (es : List Error),
  Lines text (h :: (body ++ (List.replicate k '#' ++ ' ' :: t ++ ['\n']) :: rest)) → ReqHeading U h level id title →
  (∀ l ∈ body, l.head? ≠ some '#' ∧ ∀ a v, ¬ AttrLine l a v) → level < k →
  NoHeading U (List.replicate k '#' ++ ' ' :: t ++ ['\n']) → Md.parse U ⟨text, none⟩ path = .ok (rs, es) →
  ∃ r ∈ rs, r.id = id ∧ ∃ d, r.attributes.get c!"Description" = some d ∧ t <:+: d

/-- **C149** The code: a heading that starts no requirement, of whatever level, and all lines below it up to the next
requirement are ignored.  Whatever else stands there, the result is the same. -/
theorem C149_ignored_partial (U : Unicode) (path : Path) {text text' : Str} {pre rest junk junk' : List Str} {h h' : Str}
    (failure : Option Str) (hl : Lines text (pre ++ h :: (junk ++ rest))) (hl' : Lines text' (pre ++ h' :: (junk' ++ rest)))
    (hlen : junk.length = junk'.length) (hh : h.head? = some '#') (hh' : h'.head? = some '#')
    (hn : ∀ l ∈ h :: junk, NoHeading U l) (hn' : ∀ l ∈ h' :: junk', NoHeading U l)
    (ht : ¬ OneByteTail text) (ht' : ¬ OneByteTail text') :
    Md.parse U ⟨text, failure⟩ path = Md.parse U ⟨text', failure⟩ path := by
  have e := lines_iff.1 hl
  have e' := lines_iff.1 hl'
  have hi : ∀ l ∈ h :: junk, IsLine l ∧ NoHeading U l := fun l hm =>
    ⟨isLine_of_mem (text := text) (by rw [← e]; rw [← List.cons_append]; exact List.mem_append_right _ (List.mem_append_left _ hm)), hn l hm⟩
  have hi' : ∀ l ∈ h' :: junk', IsLine l ∧ NoHeading U l := fun l hm =>
    ⟨isLine_of_mem (text := text') (by rw [← e']; rw [← List.cons_append]; exact List.mem_append_right _ (List.mem_append_left _ hm)), hn' l hm⟩
  rw [parse_run U _ path ht, parse_run U _ path ht']
  have key : run U path 1 (splitLines text) none = run U path 1 (splitLines text') none := by
    rw [← e, ← e', run_append, run_append, ← List.cons_append, ← List.cons_append, run_append, run_append,
      run_subheading U path hh hi, run_subheading U path hh' hi']
    simp [hlen]
  simp only [key]

/-- **C149** The code: what stands above such a heading stays as it is if another requirement follows.  The heading and the
lines below it can be taken out; only places change. -/
theorem C149_taken_out_partial (U : Unicode) (path : Path) {text text' : Str} {pre rest junk : List Str} {h next : Str}
    {level : Nat} {id title : Str} (failure : Option Str) (hl : Lines text (pre ++ h :: (junk ++ next :: rest)))
    (hl' : Lines text' (pre ++ next :: rest)) (hh : h.head? = some '#') (hn : ∀ l ∈ h :: junk, NoHeading U l)
    (hnext : ReqHeading U next level id title) (ht : ¬ OneByteTail text) (ht' : ¬ OneByteTail text') :
    ∃ rs rs' es es', Md.parse U ⟨text, failure⟩ path = .ok (rs, es) ∧ Md.parse U ⟨text', failure⟩ path = .ok (rs', es') ∧
      rs.map forgetReq = rs'.map forgetReq ∧ es.map forgetError = es'.map forgetError := by
  have e := lines_iff.1 hl
  have e' := lines_iff.1 hl'
  have hi : ∀ l ∈ h :: junk, IsLine l ∧ NoHeading U l := fun l hm =>
    ⟨isLine_of_mem (text := text) (by rw [← e]; rw [← List.cons_append]; exact List.mem_append_right _ (List.mem_append_left _ hm)), hn l hm⟩
  obtain ⟨raw, hraw, -⟩ := heading_reqParts hnext
  refine ⟨_, _, _, _, parse_run U _ path ht, parse_run U _ path ht', ?_⟩
  simp only
  rw [← e, ← e', run_append, run_append U path pre (next :: rest), ← List.cons_append, run_append,
    run_subheading U path hh hi]
  generalize run U path 1 pre none = o
  have hs : run U path (1 + pre.length + (h :: junk).length) (next :: rest) none = ⟨_, _, _⟩ :=
    shift_run U path (h :: junk).length (1 + pre.length) (next :: rest) none
  have hf : ∀ cur n, run U path n (next :: rest) cur =
      ⟨flush cur ++ (run U path n (next :: rest) none).reqs, (run U path n (next :: rest) none).errs,
        (run U path n (next :: rest) none).cur⟩ := by
    intro cur n
    rw [run_req hraw, run_req hraw]
    simp [flush]
  have hfl : flush (o.cur.map (fun p => (State.lookForReq, commit p.1 p.2))) = flush o.cur := by
    cases o.cur <;> rfl
  rw [hf _ (1 + pre.length + (h :: junk).length), hf o.cur (1 + pre.length), hs, hfl]
  simp only [List.nil_append, shift_finish, List.map_append, forgetReqs_shift, forgetErrors_shift, and_self]

namespace SubheadingExample

/-- a requirement with a heading in its description -/
def text : Str := c!"# AB: Title\n\nFirst.\n\n## More\n\nSecond.\n\nCovers: CD\n\n# EF: Next\n"

def lines : List Str := [c!"# AB: Title\n", c!"\n", c!"First.\n", c!"\n", c!"## More\n", c!"\n", c!"Second.\n", c!"\n", c!"Covers: CD\n", c!"\n",
  c!"# EF: Next\n"]

theorem isLines : Lines text lines := lines_iff.2 (by decide +kernel)

/-- something else below another heading -/
def text' : Str := c!"# AB: Title\n\nFirst.\n\n#\nw\nx\n* y\nz: \n?\n# EF: Next\n"

/-- nothing there -/
def bare : Str := c!"# AB: Title\n\nFirst.\n\n# EF: Next\n"

theorem no {l : Str} (h0 : l = body l ++ ['\n']) (h : reqParts .ascii l = none) : NoHeading .ascii l := noHeading_of h0 h

theorem below : ∀ l ∈ c!"## More\n" :: [c!"\n", c!"Second.\n", c!"\n", c!"Covers: CD\n", c!"\n"], NoHeading .ascii l := by
  have : ∀ l ∈ c!"## More\n" :: [c!"\n", c!"Second.\n", c!"\n", c!"Covers: CD\n", c!"\n"],
    l = body l ++ ['\n'] ∧ reqParts .ascii l = none := by decide +kernel
  exact fun l hl => no (this l hl).1 (this l hl).2

theorem below' : ∀ l ∈ c!"#\n" :: [c!"w\n", c!"x\n", c!"* y\n", c!"z: \n", c!"?\n"], NoHeading .ascii l := by
  have : ∀ l ∈ c!"#\n" :: [c!"w\n", c!"x\n", c!"* y\n", c!"z: \n", c!"?\n"],
    l = body l ++ ['\n'] ∧ reqParts .ascii l = none := by decide +kernel
  exact fun l hl => no (this l hl).1 (this l hl).2

theorem heading : ReqHeading .ascii c!"# AB: Title\n" 1 c!"AB" c!"Title" :=
  heading_of (p := (['#'], c!"AB", c!"Title")) (by decide +kernel) (by decide +kernel)

theorem next : ReqHeading .ascii c!"# EF: Next\n" 1 c!"EF" c!"Next" :=
  heading_of (p := (['#'], c!"EF", c!"Next")) (by decide +kernel) (by decide +kernel)

/-- The second paragraph and the reference are lost. -/
theorem read : Md.parse .ascii ⟨text, none⟩ c!"f" = .ok ([
    { id := c!"AB", title := some c!"Title", location := ⟨c!"f", some (.line 1)⟩, covers := [], depends := [], tags := [],
      attributes := BMap.ofList [(c!"Description", c!"First.\n\n")] },
    { id := c!"EF", title := some c!"Next", location := ⟨c!"f", some (.line 11)⟩, covers := [], depends := [], tags := [],
      attributes := BMap.ofList [] }], []) := by decide +kernel

theorem same : Md.parse .ascii ⟨text, none⟩ c!"f" = Md.parse .ascii ⟨text', none⟩ c!"f" :=
  C149_ignored_partial .ascii c!"f" (pre := lines.take 4) (h := c!"## More\n") (h' := c!"#\n")
    (junk := [c!"\n", c!"Second.\n", c!"\n", c!"Covers: CD\n", c!"\n"])
    (junk' := [c!"w\n", c!"x\n", c!"* y\n", c!"z: \n", c!"?\n"]) (rest := [c!"# EF: Next\n"]) none isLines
    (lines_iff.2 (by decide +kernel)) rfl rfl rfl below below' (not_tail_of_whole (.inr (by decide +kernel)))
    (not_tail_of_whole (.inr (by decide +kernel)))

theorem out : ∃ rs rs' es es', Md.parse .ascii ⟨text, none⟩ c!"f" = .ok (rs, es) ∧
    Md.parse .ascii ⟨bare, none⟩ c!"f" = .ok (rs', es') ∧
    rs.map forgetReq = rs'.map forgetReq ∧ es.map forgetError = es'.map forgetError :=
  C149_taken_out_partial .ascii c!"f" (pre := lines.take 4) (h := c!"## More\n")
    (junk := [c!"\n", c!"Second.\n", c!"\n", c!"Covers: CD\n", c!"\n"]) (next := c!"# EF: Next\n") (rest := []) none isLines (lines_iff.2 (by decide +kernel)) rfl
    below next (not_tail_of_whole (.inr (by decide +kernel))) (not_tail_of_whole (.inr (by decide +kernel)))

end SubheadingExample

open SubheadingExample in
/-- C149 is false as listed. -/
theorem C149_false : ¬ C149_statement := by
  intro h
  obtain ⟨r, hr, hid, d, hd, ht⟩ := h .ascii c!"f" text c!"# AB: Title\n" [c!"\n", c!"First.\n", c!"\n"] (lines.drop 5) 1 2 c!"AB"
    c!"Title" c!"More" _ _ isLines heading (by
      have : ∀ l ∈ [c!"\n", c!"First.\n", c!"\n"], l.head? ≠ some '#' ∧ l = body l ++ ['\n'] ∧ attrParts l = none := by
        decide +kernel
      intro l hl
      obtain ⟨a, b, c⟩ := this l hl
      exact ⟨a, (attrParts_none_iff ⟨_, b, .inr rfl⟩).1 c⟩) (by decide) (below _ (by simp)) read
  simp only [List.mem_cons, List.not_mem_nil, or_false] at hr
  rcases hr with rfl | rfl
  · have : d = c!"First.\n\n" := by
      have h2 : (BMap.ofList [(c!"Description", c!"First.\n\n")]).get c!"Description" = some c!"First.\n\n" := by decide +kernel
      exact Option.some.inj (hd.symm.trans h2)
    subst this
    obtain ⟨a, b, hab⟩ := ht
    have : 'M' ∈ c!"First.\n\n" := by rw [← hab]; simp
    revert this
    decide +kernel
  · exact absurd hid (by decide +kernel)

end Reqtrace
