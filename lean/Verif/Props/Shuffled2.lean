import Verif.Props.Shuffled
import Verif.Props.Marks

/-!
# C135: the order of the items of a Rust file
-/

namespace Reqtrace

open Spec

namespace Rs

/-! ## Code one after another -/

theorem occs_after (path : Path) (names : List Str) (loc : Option Location) (f g : Forest) :
    occs path names loc (after f g) = occs path names loc f ++ occs path names loc g := by
  induction f with
  | nil => rfl
  | mac m f ih => simp [after, occs, ih]
  | item i l c inner f _ ih => simp [after, occs, ih]
  | node inner f _ ih => simp [after, occs, ih]

theorem allMarks_split {debug : List Tok → Str} {path : Path} {os os' : List Occ} :
    ∀ {es : List Entry} {errs : List Error}, AllMarks debug path (os ++ os') es errs →
    ∃ es1 es2 errs1 errs2, es = es1 ++ es2 ∧ errs = errs1 ++ errs2 ∧ AllMarks debug path os es1 errs1 ∧
      AllMarks debug path os' es2 errs2 := by
  induction os with
  | nil => intro es errs h; exact ⟨[], es, [], errs, rfl, rfl, .nil, h⟩
  | cons o os ih =>
    intro es errs h
    cases h with
    | other h1 h2 =>
      obtain ⟨a, b, c, d, rfl, rfl, h3, h4⟩ := ih h2
      exact ⟨a, b, c, d, rfl, rfl, .other h1 h3, h4⟩
    | good h1 h2 h3 =>
      obtain ⟨a, b, c, d, rfl, rfl, h4, h5⟩ := ih h3
      exact ⟨_ :: a, b, c, d, rfl, rfl, .good h1 h2 h4, h5⟩
    | bad h1 h2 h3 =>
      obtain ⟨a, b, c, d, rfl, rfl, h4, h5⟩ := ih h3
      exact ⟨a, b, _ :: c, d, rfl, rfl, .bad h1 h2 h4, h5⟩

theorem allMarks_append {debug : List Tok → Str} {path : Path} {os os' : List Occ} {es es' : List Entry}
    {errs errs' : List Error} (h : AllMarks debug path os es errs) (h' : AllMarks debug path os' es' errs') :
    AllMarks debug path (os ++ os') (es ++ es') (errs ++ errs') := by
  induction h with
  | nil => exact h'
  | other h1 _ ih => exact .other h1 ih
  | good h1 h2 _ ih => exact .good h1 h2 ih
  | bad h1 h2 _ ih => exact .bad h1 h2 ih

theorem allMarks_names {debug : List Tok → Str} {path : Path} {os : List Occ} {es : List Entry} {errs : List Error}
    (h : AllMarks debug path os es errs) : ∀ e ∈ es, ∃ o ∈ os, IsMark o.mac ∧ o.names = e.names := by
  induction h with
  | nil => intro e he; cases he
  | other _ _ ih | bad _ _ _ ih =>
    intro e he
    obtain ⟨o, h1, h2⟩ := ih e he
    exact ⟨o, List.mem_cons_of_mem _ h1, h2⟩
  | good h1 _ _ ih =>
    intro e he
    rcases List.mem_cons.1 he with rfl | he
    · exact ⟨_, List.mem_cons_self .., h1, rfl⟩
    · obtain ⟨o, h1, h2⟩ := ih e he
      exact ⟨o, List.mem_cons_of_mem _ h1, h2⟩

theorem occs_pathless (p q : Path) (f : Forest) : ∀ (names : List Str) (l l' : Option Location),
    (occs p names l f).map (fun o => (o.names, o.mac)) = (occs q names l' f).map (fun o => (o.names, o.mac)) := by
  induction f with
  | nil => intros; rfl
  | mac m f ih => intro names l l'; simp only [occs, List.map_cons]; rw [ih]
  | item i x c inner f ih1 ih2 => intro names l l'; simp only [occs, List.map_append]; rw [ih1, ih2]
  | node inner f ih1 ih2 => intro names l l'; simp only [occs, List.map_append]; rw [ih1, ih2]

theorem markedBy_iff (path : Path) (f : Forest) (id : Str) :
    MarkedBy f id ↔ ∃ o ∈ occs path [] none f, IsMark o.mac ∧ Joined o.names id := by
  have key : ∀ p : Path, (∃ o ∈ occs p [] none f, IsMark o.mac ∧ Joined o.names id) ↔
      ∃ x ∈ (occs p [] none f).map (fun o => (o.names, o.mac)), IsMark x.2 ∧ Joined x.1 id := by
    intro p
    constructor
    · rintro ⟨o, h1, h2⟩; exact ⟨_, List.mem_map_of_mem h1, h2⟩
    · rintro ⟨x, h1, h2⟩
      obtain ⟨o, h3, rfl⟩ := List.mem_map.1 h1
      exact ⟨o, h3, h2⟩
  unfold MarkedBy
  rw [key, key, occs_pathless]

/-! ## Runs -/

/-- Entries of different requirements. -/
def Apart (es es' : List Entry) : Prop := ∀ e ∈ es, ∀ e' ∈ es', ∀ id, Joined e.names id → ¬ Joined e'.names id

theorem grouped_split {es1 es2 : List Entry} (ha : Apart es1 es2) :
    ∀ {reqs : List Requirement}, Grouped reqs (es1 ++ es2) →
    ∃ r1 r2, reqs = r1 ++ r2 ∧ Grouped r1 es1 ∧ Grouped r2 es2 := by
  rintro reqs ⟨gs, rfl, h2, h3, h4⟩
  have key : ∀ (gs : List (Requirement × List Entry)) (es1 : List Entry), Apart es1 es2 → (∀ g ∈ gs, IsRun g.1 g.2) →
      (gs.map Prod.snd).flatten = es1 ++ es2 → ∃ g1 g2, gs = g1 ++ g2 ∧ (g1.map Prod.snd).flatten = es1 ∧
        (g2.map Prod.snd).flatten = es2 := by
    intro gs
    induction gs with
    | nil =>
      intro es1 _ _ h
      simp only [List.map_nil, List.flatten_nil] at h
      obtain ⟨h1, h2⟩ := List.append_eq_nil_iff.1 h.symm
      subst h1; subst h2
      exact ⟨[], [], rfl, rfl, rfl⟩
    | cons g gs ih =>
      intro es1 ha h3 h
      cases es1 with
      | nil => exact ⟨[], g :: gs, rfl, rfl, h⟩
      | cons e es1 =>
        have hg := h3 g (by simp)
        simp only [List.map_cons, List.flatten_cons] at h
        rcases List.append_eq_append_iff.1 h with ⟨c, h5, h6⟩ | ⟨c, h5, h6⟩
        · rw [h5] at ha ⊢
          obtain ⟨g1, g2, h7, h8, h9⟩ := ih c (fun x hx => ha x (by simp [hx])) (fun g hg => h3 g (by simp [hg])) h6
          exact ⟨g :: g1, g2, by rw [h7]; rfl, by simp [h8], h9⟩
        · cases c with
          | nil =>
            rw [List.append_nil] at h5
            refine ⟨[g], gs, rfl, by simp [h5], by simpa using h6.symm⟩
          | cons x c =>
            exfalso
            have hx : x ∈ es2 := by rw [h6]; simp
            exact ha e (by simp) x hx g.1.id (hg.2.1 e (by rw [h5]; simp)) (hg.2.1 x (by rw [h5]; simp))
  obtain ⟨g1, g2, rfl, h5, h6⟩ := key gs es1 ha h3 h2
  refine ⟨_, _, List.map_append, ⟨g1, rfl, h5, fun g hg => h3 g (by simp [hg]), ?_⟩,
    ⟨g2, rfl, h6, fun g hg => h3 g (by simp [hg]), ?_⟩⟩
  · intro a r s b hab
    exact h4 a r s (b ++ g2.map Prod.fst) (by rw [List.map_append, hab]; simp)
  · intro a r s b hab
    exact h4 (g1.map Prod.fst ++ a) r s b (by rw [List.map_append, hab]; simp)

theorem grouped_append {es1 es2 : List Entry} (ha : Apart es1 es2) {r1 r2 : List Requirement} (h1 : Grouped r1 es1)
    (h2 : Grouped r2 es2) : Grouped (r1 ++ r2) (es1 ++ es2) := by
  obtain ⟨g1, rfl, a2, a3, a4⟩ := h1
  obtain ⟨g2, rfl, b2, b3, b4⟩ := h2
  refine ⟨g1 ++ g2, List.map_append, by simp [a2, b2], ?_, ?_⟩
  · intro g hg
    rcases List.mem_append.1 hg with hg | hg
    · exact a3 g hg
    · exact b3 g hg
  · intro a r s b hab
    rcases List.append_eq_append_iff.1 hab with ⟨c, h5, h6⟩ | ⟨c, h5, h6⟩
    · exact b4 c r s b h6
    · match c, h5, h6 with
      | [], h5, h6 => exact b4 [] r s b (by simpa using h6.symm)
      | [x], h5, h6 =>
        simp only [List.cons_append, List.nil_append, List.cons.injEq] at h6
        obtain ⟨rfl, h6⟩ := h6
        intro hid
        have m1 : r ∈ g1.map Prod.fst := by rw [h5]; simp
        have m2 : s ∈ g2.map Prod.fst := by rw [← h6]; simp
        obtain ⟨x, hx, rfl⟩ := List.mem_map.1 m1
        obtain ⟨y, hy, rfl⟩ := List.mem_map.1 m2
        obtain ⟨-, p2, ⟨e, rest, p3, -⟩, -⟩ := a3 x hx
        obtain ⟨-, q2, ⟨e', rest', q3, -⟩, -⟩ := b3 y hy
        refine ha e ?_ e' ?_ x.1.id (p2 e (by rw [p3]; simp)) (hid ▸ q2 e' (by rw [q3]; simp))
        · rw [← a2]; exact List.mem_flatten.2 ⟨x.2, List.mem_map_of_mem hx, by rw [p3]; simp⟩
        · rw [← b2]; exact List.mem_flatten.2 ⟨y.2, List.mem_map_of_mem hy, by rw [q3]; simp⟩
      | x :: y :: c, h5, h6 =>
        simp only [List.cons_append, List.cons.injEq] at h6
        obtain ⟨rfl, rfl, -⟩ := h6
        exact a4 a r s c h5

/-! ## Pieces of code -/

/-- What a piece of code says. -/
def Says (debug : List Tok → Str) (path : Path) (f : Forest) (reqs : List Requirement) (errs : List Error) : Prop :=
  ∃ es, AllMarks debug path (occs path [] none f) es errs ∧ Grouped reqs es

/-- What pieces of code say, one by one. -/
inductive Pieces (debug : List Tok → Str) (path : Path) : List Forest → List (List Requirement × List Error) → Prop
  | nil : Pieces debug path [] []
  | cons {f fs reqs errs outs} : Says debug path f reqs errs → Pieces debug path fs outs →
      Pieces debug path (f :: fs) ((reqs, errs) :: outs)

theorem markedBy_after {f g : Forest} {id : Str} : MarkedBy (after f g) id ↔ MarkedBy f id ∨ MarkedBy g id := by
  unfold MarkedBy
  rw [occs_after]
  simp only [List.mem_append]
  constructor
  · rintro ⟨o, h1 | h1, h2⟩
    · exact .inl ⟨o, h1, h2⟩
    · exact .inr ⟨o, h1, h2⟩
  · rintro (⟨o, h1, h2⟩ | ⟨o, h1, h2⟩)
    · exact ⟨o, .inl h1, h2⟩
    · exact ⟨o, .inr h1, h2⟩

theorem markedBy_allAfter {fs : List Forest} {id : Str} : MarkedBy (allAfter fs) id ↔ ∃ f ∈ fs, MarkedBy f id := by
  induction fs with
  | nil =>
    constructor
    · rintro ⟨o, h, _⟩; cases h
    · rintro ⟨f, h, _⟩; cases h
  | cons f fs ih =>
    rw [show allAfter (f :: fs) = after f (allAfter fs) from rfl, markedBy_after, ih]
    simp

theorem apart_of {debug : List Tok → Str} {path : Path} {f g : Forest} (h : ∀ id, MarkedBy f id → ¬ MarkedBy g id)
    {es es' : List Entry} {errs errs' : List Error} (h1 : AllMarks debug path (occs path [] none f) es errs)
    (h2 : AllMarks debug path (occs path [] none g) es' errs') : Apart es es' := by
  intro e he e' he' id hj hj'
  obtain ⟨o, a1, a2, a3⟩ := allMarks_names h1 e he
  obtain ⟨o', b1, b2, b3⟩ := allMarks_names h2 e' he'
  exact h id ((markedBy_iff path f id).2 ⟨o, a1, a2, a3 ▸ hj⟩) ((markedBy_iff path g id).2 ⟨o', b1, b2, b3 ▸ hj'⟩)

theorem own_rest {f : Forest} {fs : List Forest} (h : OwnNames (f :: fs)) :
    (∀ id, MarkedBy f id → ¬ MarkedBy (allAfter fs) id) ∧ OwnNames fs := by
  obtain ⟨h1, h2⟩ := List.pairwise_cons.1 h
  refine ⟨fun id hm hn => ?_, h2⟩
  obtain ⟨g, hg, hn⟩ := markedBy_allAfter.1 hn
  exact h1 g hg id hm hn

theorem pieces_split {debug : List Tok → Str} {path : Path} {fs : List Forest} (ho : OwnNames fs) :
    ∀ {reqs : List Requirement} {errs : List Error}, Says debug path (allAfter fs) reqs errs →
    ∃ outs, Pieces debug path fs outs ∧ reqs = outs.flatMap Prod.fst ∧ errs = outs.flatMap Prod.snd := by
  induction fs with
  | nil =>
    rintro reqs errs ⟨es, h1, gs, rfl, h2, h3, -⟩
    cases h1
    refine ⟨[], .nil, ?_, rfl⟩
    cases gs with
    | nil => rfl
    | cons g gs =>
      obtain ⟨-, -, ⟨e, rest, h4, -⟩, -⟩ := h3 g (by simp)
      simp [h4] at h2
  | cons f fs ih =>
    rintro reqs errs ⟨es, h1, h2⟩
    rw [show allAfter (f :: fs) = after f (allAfter fs) from rfl, occs_after] at h1
    obtain ⟨es1, es2, errs1, errs2, rfl, rfl, h3, h4⟩ := allMarks_split h1
    obtain ⟨o1, o2⟩ := own_rest ho
    obtain ⟨r1, r2, rfl, h5, h6⟩ := grouped_split (apart_of o1 h3 h4) h2
    obtain ⟨outs, h7, rfl, rfl⟩ := ih o2 ⟨es2, h4, h6⟩
    exact ⟨(r1, errs1) :: outs, .cons ⟨es1, h3, h5⟩ h7, by simp, by simp⟩

theorem pieces_append {debug : List Tok → Str} {path : Path} {fs : List Forest} (ho : OwnNames fs)
    {outs : List (List Requirement × List Error)} (h : Pieces debug path fs outs) :
    Says debug path (allAfter fs) (outs.flatMap Prod.fst) (outs.flatMap Prod.snd) := by
  induction h with
  | nil => exact ⟨[], .nil, [], rfl, rfl, by simp, fun a r s b h => by simp at h⟩
  | @cons f fs reqs errs outs h1 _ ih =>
    obtain ⟨o1, o2⟩ := own_rest ho
    obtain ⟨es, h3, h4⟩ := h1
    obtain ⟨es', h5, h6⟩ := ih o2
    refine ⟨es ++ es', ?_, ?_⟩
    · rw [show allAfter (f :: fs) = after f (allAfter fs) from rfl, occs_after, List.flatMap_cons]
      exact allMarks_append h3 h5
    · rw [List.flatMap_cons]
      exact grouped_append (apart_of o1 h3 h5) h4 h6

theorem pieces_perm {debug : List Tok → Str} {path : Path} {fs gs : List Forest} (hp : fs.Perm gs) :
    ∀ {outs : List (List Requirement × List Error)}, Pieces debug path fs outs →
    ∃ outs', Pieces debug path gs outs' ∧ outs.Perm outs' := by
  induction hp with
  | nil => intro outs h; exact ⟨outs, h, .refl _⟩
  | cons x _ ih =>
    intro outs h
    cases h with
    | cons h1 h2 =>
      obtain ⟨outs', h3, h4⟩ := ih h2
      exact ⟨_ :: outs', .cons h1 h3, h4.cons _⟩
  | swap x y l =>
    intro outs h
    cases h with
    | cons h1 h2 =>
      cases h2 with
      | cons h3 h4 => exact ⟨_, .cons h3 (.cons h1 h4), .swap ..⟩
  | trans _ _ ih1 ih2 =>
    intro outs h
    obtain ⟨o1, h1, h2⟩ := ih1 h
    obtain ⟨o2, h3, h4⟩ := ih2 h1
    exact ⟨o2, h3, h2.trans h4⟩

/-! ## The same code at another place -/

/-- The same calls with the same items around them. -/
inductive SameOccs (debug : List Tok → Str) : List Occ → List Occ → Prop
  | nil : SameOccs debug [] []
  | cons {o o' os os'} : o.names = o'.names → o.loc.isSome = o'.loc.isSome → SameCall debug o.mac o'.mac →
      SameOccs debug os os' → SameOccs debug (o :: os) (o' :: os')

theorem sameOccs_append {debug : List Tok → Str} {a a' b b' : List Occ} (h : SameOccs debug a a') (h' : SameOccs debug b b') :
    SameOccs debug (a ++ b) (a' ++ b') := by
  induction h with
  | nil => exact h'
  | cons h1 h2 h3 _ ih => exact .cons h1 h2 h3 ih

theorem sameCode_occs {debug : List Tok → Str} {f f' : Forest} (h : SameCode debug f f') :
    ∀ (p q : Path) (names : List Str) (l l' : Option Location), l.isSome = l'.isSome →
    SameOccs debug (occs p names l f) (occs q names l' f') := by
  induction h with
  | nil => intros; exact .nil
  | mac h1 _ ih => intro p q names l l' hl; exact .cons rfl hl h1 (ih p q names l l' hl)
  | item _ _ ih1 ih2 => intro p q names l l' hl; exact sameOccs_append (ih1 p q _ _ _ rfl) (ih2 p q names l l' hl)
  | node _ _ ih1 ih2 => intro p q names l l' hl; exact sameOccs_append (ih1 p q names l l' hl) (ih2 p q names l l' hl)

/-- The same references with the same items around them. -/
inductive SameEntries : List Entry → List Entry → Prop
  | nil : SameEntries [] []
  | cons {e e' es es'} : e.names = e'.names → e.loc.isSome = e'.loc.isSome →
      moveRef nowhere e.ref = moveRef nowhere e'.ref → SameEntries es es' → SameEntries (e :: es) (e' :: es')

theorem sameCall_symm {debug : List Tok → Str} {m m' : Mac} (h : SameCall debug m m') : SameCall debug m' m := by
  refine ⟨h.segments.symm, h.tokens.symm, fun h1 h2 => (h.shown ?_ ?_).symm⟩
  · unfold IsMark at h1 ⊢; rw [h.segments]; exact h1
  · have hl := congrArg List.length h.tokens
    simp only [List.length_map] at hl
    rw [hl]; exact h2

theorem sameCode_symm {debug : List Tok → Str} {f f' : Forest} (h : SameCode debug f f') : SameCode debug f' f := by
  induction h with
  | nil => exact .nil
  | mac h1 _ ih => exact .mac (sameCall_symm h1) ih
  | item _ _ ih1 ih2 => exact .item ih1 ih2
  | node _ _ ih1 ih2 => exact .node ih1 ih2

theorem sameCall_isMark {debug : List Tok → Str} {m m' : Mac} (h : SameCall debug m m') : IsMark m ↔ IsMark m' := by
  unfold IsMark; rw [h.segments]

theorem same_one {ts : List Tok} {t : Tok}
    (h : [t].map (fun t => (t.isIdent, t.text)) = ts.map (fun t => (t.isIdent, t.text))) :
    ∃ t', ts = [t'] ∧ t.isIdent = t'.isIdent ∧ t.text = t'.text := by
  obtain ⟨a, ts, rfl, h1, h2⟩ := List.map_eq_cons_iff.1 h.symm
  rw [List.map_nil, List.map_eq_nil_iff] at h2
  subst h2
  simp only [Prod.mk.injEq] at h1
  exact ⟨a, rfl, h1.1.symm, h1.2.symm⟩

theorem same_three {ts : List Tok} {t sep u : Tok}
    (h : [t, sep, u].map (fun t => (t.isIdent, t.text)) = ts.map (fun t => (t.isIdent, t.text))) :
    ∃ t' sep' u', ts = [t', sep', u'] ∧ t.isIdent = t'.isIdent ∧ t.text = t'.text ∧ u.text = u'.text := by
  obtain ⟨a, ts, rfl, h1, h2⟩ := List.map_eq_cons_iff.1 h.symm
  obtain ⟨b, ts, rfl, h3, h4⟩ := List.map_eq_cons_iff.1 h2
  obtain ⟨c, rfl, h5, h6⟩ := same_one h4.symm
  simp only [Prod.mk.injEq] at h1
  exact ⟨a, b, c, rfl, h1.1.symm, h1.2.symm, h6⟩

theorem sameCall_reads {debug : List Tok → Str} {m m' : Mac} (h : SameCall debug m m') {id : Str} {title : Option Str}
    (hr : Reads m id title) : Reads m' id title := by
  have ht := h.tokens
  rcases hr with ⟨t, h1, h2, h3, h4⟩ | ⟨t, h1, h2, h3, h4⟩ | ⟨t, sep, u, v, h1, h2, h3, h4, h5⟩
  · rw [h1] at ht
    obtain ⟨t', hm, e1, e2⟩ := same_one ht
    exact .inl ⟨t', hm, e1 ▸ h2, e2 ▸ h3, h4⟩
  · rw [h1] at ht
    obtain ⟨t', hm, e1, e2⟩ := same_one ht
    exact .inr (.inl ⟨t', hm, e1 ▸ h2, e2 ▸ h3, h4⟩)
  · rw [h1] at ht
    obtain ⟨t', x, y, hm, e1, e2, e3⟩ := same_three ht
    exact .inr (.inr ⟨t', x, y, v, hm, e1 ▸ h2, e2 ▸ h3, e3 ▸ h4, h5⟩)

theorem sameCall_mistake {debug : List Tok → Str} {m m' : Mac} (h : SameCall debug m m') (hi : IsMark m)
    {line column : Nat} {msg : Str} (hr : Mistake debug m line column msg) : ∃ line' column', Mistake debug m' line' column' msg := by
  have ht := h.tokens
  cases hr with
  | nothing h1 =>
    rw [h1] at ht
    exact ⟨_, _, .nothing (List.map_eq_nil_iff.1 ht.symm)⟩
  | @single t h1 h2 h3 =>
    rw [h1] at ht
    obtain ⟨t', hm, e1, e2⟩ := same_one ht
    exact ⟨_, _, .single hm (e1 ▸ h2) (e2 ▸ h3)⟩
  | @first t sep u h1 h2 =>
    rw [h1] at ht
    obtain ⟨t', x, y, hm, e1, e2, e3⟩ := same_three ht
    exact ⟨_, _, .first hm (e1 ▸ h2)⟩
  | @second t sep u h1 h2 h3 =>
    rw [h1] at ht
    obtain ⟨t', x, y, hm, e1, e2, e3⟩ := same_three ht
    exact ⟨_, _, .second hm (e1 ▸ h2) (e3 ▸ h3)⟩
  | count h1 =>
    have hl := congrArg List.length ht
    simp only [List.length_map] at hl
    rw [h.shown hi h1]
    rw [hl] at h1
    exact ⟨_, _, .count h1⟩

theorem sameOccs_marks {debug : List Tok → Str} {p q : Path} {os os' : List Occ} (h : SameOccs debug os os') :
    ∀ {es : List Entry} {errs : List Error}, AllMarks debug p os es errs →
    ∃ es' errs', AllMarks debug q os' es' errs' ∧ SameEntries es es' ∧ errs'.map forgetError = errs.map forgetError := by
  induction h with
  | nil => intro es errs h; cases h; exact ⟨[], [], .nil, .nil, rfl⟩
  | cons h1 h2 h3 _ ih =>
    intro es errs h
    cases h with
    | other a1 a2 =>
      obtain ⟨es', errs', b1, b2, b3⟩ := ih a2
      exact ⟨es', errs', .other (fun h => a1 ((sameCall_isMark h3).2 h)) b1, b2, b3⟩
    | good a1 a2 a3 =>
      obtain ⟨es', errs', b1, b2, b3⟩ := ih a3
      exact ⟨_, errs', .good ((sameCall_isMark h3).1 a1) (sameCall_reads h3 a2) b1, .cons h1 h2 rfl b2, b3⟩
    | bad a1 a2 a3 =>
      obtain ⟨es', errs', b1, b2, b3⟩ := ih a3
      obtain ⟨l, c, a4⟩ := sameCall_mistake h3 a1 a2
      exact ⟨es', _, .bad ((sameCall_isMark h3).1 a1) a4 b1, b2, by simp [b3, forgetError, nowhere]⟩

theorem sameEntries_split {a b es' : List Entry} (h : SameEntries (a ++ b) es') :
    ∃ a' b', es' = a' ++ b' ∧ SameEntries a a' ∧ SameEntries b b' := by
  induction a generalizing es' with
  | nil => exact ⟨[], es', rfl, .nil, h⟩
  | cons e a ih =>
    cases h with
    | cons h1 h2 h3 h4 =>
      obtain ⟨a', b', rfl, h5, h6⟩ := ih h4
      exact ⟨_ :: a', b', rfl, .cons h1 h2 h3 h5, h6⟩

theorem sameEntries_refs {es es' : List Entry} (h : SameEntries es es') :
    (es.map Entry.ref).map (moveRef nowhere) = (es'.map Entry.ref).map (moveRef nowhere) := by
  induction h with
  | nil => rfl
  | cons _ _ h3 _ ih => simp only [List.map_cons, h3, ih]

theorem sameEntries_names {es es' : List Entry} (h : SameEntries es es') {id : Str} (hj : ∀ e ∈ es, Joined e.names id) :
    ∀ e ∈ es', Joined e.names id := by
  induction h with
  | nil => intro e he; cases he
  | cons h1 _ _ _ ih =>
    intro e he
    rcases List.mem_cons.1 he with rfl | he
    · exact h1 ▸ hj _ (by simp)
    · exact ih (fun e he => hj e (by simp [he])) e he

theorem sameEntries_grouped {reqs : List Requirement} {es es' : List Entry} (h : SameEntries es es') (hg : Grouped reqs es) :
    ∃ reqs', Grouped reqs' es' ∧ reqs'.map forgetReq = reqs.map forgetReq := by
  obtain ⟨gs, rfl, rfl, h3, h4⟩ := hg
  have key : ∀ (gs : List (Requirement × List Entry)) (es' : List Entry), (∀ g ∈ gs, IsRun g.1 g.2) →
      SameEntries (gs.map Prod.snd).flatten es' → ∃ gs' : List (Requirement × List Entry), (gs'.map Prod.snd).flatten = es' ∧
        (∀ g ∈ gs', IsRun g.1 g.2) ∧ gs'.map (fun g => forgetReq g.1) = gs.map (fun g => forgetReq g.1) := by
    intro gs
    induction gs with
    | nil => intro es' _ h; cases h; exact ⟨[], rfl, by simp, rfl⟩
    | cons g gs ih =>
      intro es' h3 h
      rw [List.map_cons, List.flatten_cons] at h
      obtain ⟨a', b', rfl, h5, h6⟩ := sameEntries_split h
      obtain ⟨gs', h7, h8, h9⟩ := ih b' (fun g hg => h3 g (by simp [hg])) h6
      obtain ⟨c1, c2, ⟨e, rest, c3, c4⟩, c5, c6, c7, c8⟩ := h3 g (by simp)
      have hr := sameEntries_refs h5
      have hn := sameEntries_names h5 c2
      rw [c3] at h5
      cases h5 with
      | @cons _ e' _ rest' d1 d2 d3 d4 =>
        rw [c4] at d2
        cases hl : e'.loc with
        | none => rw [hl] at d2; cases d2
        | some loc =>
          refine ⟨({ g.1 with location := loc, covers := (e' :: rest').map Entry.ref }, e' :: rest') :: gs', by simp [h7], ?_, ?_⟩
          · intro x hx
            rcases List.mem_cons.1 hx with rfl | hx
            · exact ⟨rfl, hn, ⟨e', rest', rfl, hl⟩, c5, c6, c7, c8⟩
            · exact h8 x hx
          · rw [List.map_cons, List.map_cons, h9]
            congr 1
            unfold forgetReq
            simp only [Requirement.mk.injEq, true_and, and_true]
            refine ⟨rfl, ?_⟩
            rw [c1]
            exact hr.symm
  obtain ⟨gs', h5, h6, h7⟩ := key gs es' h3 h
  have hids : (gs'.map Prod.fst).map (·.id) = (gs.map Prod.fst).map (·.id) := by
    have := congrArg (List.map (fun r : Requirement => r.id)) h7
    simpa [List.map_map, Function.comp_def, forgetReq] using this
  refine ⟨gs'.map Prod.fst, ⟨gs', rfl, h5, h6, ?_⟩, by simpa [List.map_map, Function.comp_def] using h7⟩
  intro a r s b hab
  rw [hab] at hids
  simp only [List.map_append, List.map_cons] at hids
  obtain ⟨a1, b1, e1, e2, e3⟩ := List.map_eq_append_iff.1 hids.symm
  obtain ⟨r1, b2, rfl, e4, e5⟩ := List.map_eq_cons_iff.1 e3
  obtain ⟨s1, b3, rfl, e6, e7⟩ := List.map_eq_cons_iff.1 e5
  rw [← e4, ← e6]
  exact h4 a1 r1 s1 b3 e1

theorem sameCode_says {debug : List Tok → Str} {p q : Path} {f f' : Forest} (h : SameCode debug f f')
    {reqs : List Requirement} {errs : List Error} (hs : Says debug p f reqs errs) :
    ∃ reqs' errs', Says debug q f' reqs' errs' ∧ reqs'.map forgetReq = reqs.map forgetReq ∧
      errs'.map forgetError = errs.map forgetError := by
  obtain ⟨es, h1, h2⟩ := hs
  obtain ⟨es', errs', h3, h4, h5⟩ := sameOccs_marks (q := q) (sameCode_occs h p q [] none none rfl) h1
  obtain ⟨reqs', h6, h7⟩ := sameEntries_grouped h4 h2
  exact ⟨reqs', errs', ⟨es', h3, h6⟩, h7, h5⟩

theorem samePieces_say {debug : List Tok → Str} {p q : Path} {fs fs' : List Forest} (h : SamePieces debug fs fs') :
    ∀ {outs : List (List Requirement × List Error)}, Pieces debug p fs outs →
    ∃ outs', Pieces debug q fs' outs' ∧ (outs'.flatMap Prod.fst).map forgetReq = (outs.flatMap Prod.fst).map forgetReq ∧
      (outs'.flatMap Prod.snd).map forgetError = (outs.flatMap Prod.snd).map forgetError := by
  induction h with
  | nil => intro outs h; cases h; exact ⟨[], .nil, rfl, rfl⟩
  | cons h1 _ ih =>
    intro outs h
    cases h with
    | cons h3 h4 =>
      obtain ⟨r', e', a1, a2, a3⟩ := sameCode_says (q := q) h1 h3
      obtain ⟨outs', b1, b2, b3⟩ := ih h4
      exact ⟨(r', e') :: outs', .cons a1 b1, by simp [a2, b2], by simp [a3, b3]⟩

theorem sameOccs_marked {debug : List Tok → Str} {os os' : List Occ} (h : SameOccs debug os os') (id : Str) :
    (∃ o ∈ os', IsMark o.mac ∧ Joined o.names id) → ∃ o ∈ os, IsMark o.mac ∧ Joined o.names id := by
  induction h with
  | nil => rintro ⟨o, h, _⟩; cases h
  | cons h1 _ h3 _ ih =>
    rintro ⟨o, ho, hm, hj⟩
    rcases List.mem_cons.1 ho with rfl | ho
    · exact ⟨_, List.mem_cons_self .., (sameCall_isMark h3).2 hm, h1 ▸ hj⟩
    · obtain ⟨x, hx, hy⟩ := ih ⟨o, ho, hm, hj⟩
      exact ⟨x, List.mem_cons_of_mem _ hx, hy⟩

theorem samePieces_mem {debug : List Tok → Str} {fs fs' : List Forest} (h : SamePieces debug fs fs') :
    ∀ g ∈ fs', ∃ f ∈ fs, ∀ id, MarkedBy g id → MarkedBy f id := by
  induction h with
  | nil => intro g hg; cases hg
  | cons h1 _ ih =>
    intro g hg
    rcases List.mem_cons.1 hg with rfl | hg
    · exact ⟨_, List.mem_cons_self .., fun id hm => sameOccs_marked (sameCode_occs h1 [] [] [] none none rfl) id hm⟩
    · obtain ⟨f, hf, hm⟩ := ih g hg
      exact ⟨f, List.mem_cons_of_mem _ hf, hm⟩

theorem samePieces_own {debug : List Tok → Str} {fs fs' : List Forest} (h : SamePieces debug fs fs') (ho : OwnNames fs) :
    OwnNames fs' := by
  induction h with
  | nil => exact .nil
  | @cons f g fs gs h1 h2 ih =>
    obtain ⟨o1, o2⟩ := List.pairwise_cons.1 ho
    refine List.pairwise_cons.2 ⟨?_, ih o2⟩
    intro g' hg' id hm hm'
    obtain ⟨f', hf', hx⟩ := samePieces_mem h2 g' hg'
    exact o1 f' hf' id (sameOccs_marked (sameCode_occs h1 [] [] [] none none rfl) id hm) (hx id hm')

/-- Code in another order says the same. -/
theorem says_reordered {debug : List Tok → Str} {p q : Path} {fs fs' : List Forest} (h : CodeReordered debug fs fs')
    (ho : OwnNames fs) {reqs : List Requirement} {errs : List Error} (hs : Says debug p (allAfter fs) reqs errs) :
    ∃ reqs' errs', Says debug q (allAfter fs') reqs' errs' ∧ SameInOrder reqs reqs' errs errs' := by
  obtain ⟨gs, h1, h2⟩ := h
  obtain ⟨outs, h3, rfl, rfl⟩ := pieces_split ho hs
  obtain ⟨outs1, h4, h5⟩ := pieces_perm h1 h3
  obtain ⟨outs2, h6, h7, h8⟩ := samePieces_say (q := q) h2 h4
  have hog : OwnNames gs := (h1.pairwise_iff (fun h id a b => h id b a)).1 ho
  refine ⟨_, _, pieces_append (samePieces_own h2 hog) h6, ?_, ?_⟩
  · rw [h7]; exact (h5.flatMap_right _).map _
  · rw [h8]; exact (h5.flatMap_right _).map _

theorem occs_allAfter (path : Path) (names : List Str) (loc : Option Location) (fs : List Forest) :
    occs path names loc (allAfter fs) = fs.flatMap (occs path names loc) := by
  induction fs with
  | nil => rfl
  | cons f fs ih => rw [show allAfter (f :: fs) = after f (allAfter fs) from rfl, occs_after, ih, List.flatMap_cons]

theorem allMarks_perm {debug : List Tok → Str} {path : Path} {os os' : List Occ} (h : os.Perm os') :
    ∀ {es : List Entry} {errs : List Error}, AllMarks debug path os es errs →
    ∃ es' errs', AllMarks debug path os' es' errs' ∧ es.Perm es' ∧ errs.Perm errs' := by
  induction h with
  | nil => intro es errs h; exact ⟨es, errs, h, .refl _, .refl _⟩
  | cons x _ ih =>
    intro es errs h
    cases h with
    | other h1 h2 =>
      obtain ⟨es', errs', h3, h4, h5⟩ := ih h2
      exact ⟨_, _, .other h1 h3, h4, h5⟩
    | good h1 h2 h3 =>
      obtain ⟨es', errs', h4, h5, h6⟩ := ih h3
      exact ⟨_, _, .good h1 h2 h4, h5.cons _, h6⟩
    | bad h1 h2 h3 =>
      obtain ⟨es', errs', h4, h5, h6⟩ := ih h3
      exact ⟨_, _, .bad h1 h2 h4, h5, h6.cons _⟩
  | swap x y l =>
    intro es errs h
    obtain ⟨e1, e2, r1, r2, rfl, rfl, h1, h2⟩ := allMarks_split (os := [y]) h
    obtain ⟨e2, e3, r2, r3, rfl, rfl, h2, h3⟩ := allMarks_split (os := [x]) h2
    refine ⟨_, _, allMarks_append h2 (allMarks_append h1 h3), ?_, ?_⟩
    · rw [← List.append_assoc, ← List.append_assoc]; exact List.perm_append_comm.append_right _
    · rw [← List.append_assoc, ← List.append_assoc]; exact List.perm_append_comm.append_right _
  | trans _ _ ih1 ih2 =>
    intro es errs h
    obtain ⟨e1, r1, h1, h2, h3⟩ := ih1 h
    obtain ⟨e2, r2, h4, h5, h6⟩ := ih2 h1
    exact ⟨e2, r2, h4, h2.trans h5, h3.trans h6⟩

theorem samePieces_occs {debug : List Tok → Str} {fs fs' : List Forest} (h : SamePieces debug fs fs') (p q : Path) :
    SameOccs debug (fs.flatMap (occs p [] none)) (fs'.flatMap (occs q [] none)) := by
  induction h with
  | nil => exact .nil
  | cons h1 _ ih =>
    rw [List.flatMap_cons, List.flatMap_cons]
    exact sameOccs_append (sameCode_occs h1 p q [] none none rfl) ih

/-- What an entry says. -/
def entryNamed (e : Entry) : Str × Reference := (joinStr c!"::" e.names, moveRef nowhere e.ref)

theorem grouped_named {reqs : List Requirement} {es : List Entry} (h : Grouped reqs es) :
    reqs.flatMap namedBy = es.map entryNamed := by
  obtain ⟨gs, rfl, rfl, h3, -⟩ := h
  induction gs with
  | nil => rfl
  | cons g gs ih =>
    obtain ⟨c1, c2, -⟩ := h3 g (by simp)
    simp only [List.map_cons, List.flatMap_cons, List.flatten_cons, List.map_append]
    rw [ih (fun g hg => h3 g (by simp [hg]))]
    congr 1
    rw [namedBy, c1, List.map_map]
    apply List.map_congr_left
    intro e he
    simp only [Function.comp, entryNamed]
    rw [(joined_iff _ _).1 (c2 e he)]

theorem sameEntries_named {es es' : List Entry} (h : SameEntries es es') : es.map entryNamed = es'.map entryNamed := by
  induction h with
  | nil => rfl
  | cons h1 _ h3 _ ih => simp only [List.map_cons, entryNamed, h1, h3] at ih ⊢; rw [ih]

end Rs

open Rs

/-- **C135 as listed**: the order of the pieces of code does not matter for what is found. -/
def C135_statement : Prop :=
  ∀ (syn : Syn) (t t' : Str) (path : Path) (fs fs' : List Forest) (rs rs' : List Requirement) (es es' : List Error),
    syn.parseFile t = .ok (allAfter fs) → syn.parseFile t' = .ok (allAfter fs') → CodeReordered syn.debug fs fs' →
    Rs.parse syn ⟨t, none⟩ path = .ok (rs, es) → Rs.parse syn ⟨t', none⟩ path = .ok (rs', es') → SameInOrder rs rs' es es'

/-- **C135** if marks in different pieces are in items with different names: the requirements and errors are the same, but for
places and order.  Missing: pieces with marks in items of the same name, for which it is false. -/
theorem C135_items_partial (syn : Syn) (t t' : Str) (p q : Path) (fs fs' : List Forest)
    (ht : syn.parseFile t = .ok (allAfter fs)) (ht' : syn.parseFile t' = .ok (allAfter fs'))
    (h : CodeReordered syn.debug fs fs') (ho : OwnNames fs) {rs : List Requirement} {es : List Error}
    (hp : Rs.parse syn ⟨t, none⟩ p = .ok (rs, es)) :
    ∃ rs' es', Rs.parse syn ⟨t', none⟩ q = .ok (rs', es') ∧ SameInOrder rs rs' es es' := by
  obtain ⟨en, h1, h2⟩ := parse_marks rfl ht hp
  obtain ⟨rs', es', ⟨en', h3, h4⟩, h5⟩ := says_reordered (q := q) h ho ⟨en, h1, h2⟩
  exact ⟨rs', es', (C80_rust ..).2 (.marks rfl ht' h3 h4), h5⟩

/-- **C135** for all files: the errors and the marks, each with the names of the items around it, are the same but for places
and order.  Missing: that the marks make the same requirements, which is false. -/
theorem C135_marks_partial (syn : Syn) (t t' : Str) (p q : Path) (fs fs' : List Forest)
    (ht : syn.parseFile t = .ok (allAfter fs)) (ht' : syn.parseFile t' = .ok (allAfter fs'))
    (h : CodeReordered syn.debug fs fs') {rs rs' : List Requirement} {es es' : List Error}
    (hp : Rs.parse syn ⟨t, none⟩ p = .ok (rs, es)) (hp' : Rs.parse syn ⟨t', none⟩ q = .ok (rs', es')) :
    (rs.flatMap namedBy).Perm (rs'.flatMap namedBy) ∧ (es.map forgetError).Perm (es'.map forgetError) := by
  obtain ⟨gs, g1, g2⟩ := h
  obtain ⟨en, h1, h2⟩ := parse_marks rfl ht hp
  obtain ⟨en', h1', h2'⟩ := parse_marks rfl ht' hp'
  rw [occs_allAfter] at h1 h1'
  obtain ⟨e1, r1, h3, h4, h5⟩ := allMarks_perm (g1.flatMap_right _) h1
  obtain ⟨e2, r2, h6, h7, h8⟩ := sameOccs_marks (samePieces_occs g2 p q) h3
  obtain ⟨_, _, -, hu, -⟩ := fold_eq syn.debug q (fs'.flatMap (occs q [] none))
  obtain ⟨rfl, rfl⟩ := hu _ _ h6
  obtain ⟨rfl, rfl⟩ := hu _ _ h1'
  rw [grouped_named h2, grouped_named h2', ← sameEntries_named h7, h8]
  exact ⟨h4.map _, h5.map _⟩

namespace ItemsExample

open RustExample

/-- `fn name() { requirement_covered!(id) }` -/
def item (name id : Str) (line : Nat) : Forest := .item (.fn name) line 3 (.mac (mark (line + 1) [ident id (line + 1) 29]) .nil) .nil

/-- A function with a mark without arguments. -/
def broken (line : Nat) : Forest := .item (.fn c!"h") line 3 (.mac (mark (line + 1) []) .nil) .nil

def one : List Forest := [item c!"f" c!"A" 1, item c!"f" c!"B" 4, item c!"g" c!"C" 7]
def two : List Forest := [item c!"f" c!"A" 1, item c!"g" c!"C" 4, item c!"f" c!"B" 7]
def three : List Forest := [item c!"f" c!"A" 1, broken 4, item c!"g" c!"C" 7]
def four : List Forest := [item c!"g" c!"C" 1, item c!"f" c!"A" 4, broken 7]

/-- Four texts, one for each of the lists. -/
def syn : Syn where
  parseFile t := .ok (allAfter (if t = c!"1" then one else if t = c!"2" then two else if t = c!"3" then three else four))
  debug _ := c!"?"

theorem sameItem (name id : Str) (l l' : Nat) : SameCode syn.debug (item name id l) (item name id l') :=
  .item (.mac ⟨rfl, rfl, fun _ _ => rfl⟩ .nil) .nil

theorem reordered : CodeReordered syn.debug one two ∧ CodeReordered syn.debug three four := by
  refine ⟨⟨[item c!"f" c!"A" 1, item c!"g" c!"C" 7, item c!"f" c!"B" 4], ?_, ?_⟩,
    ⟨[item c!"g" c!"C" 7, item c!"f" c!"A" 1, broken 4], ?_, ?_⟩⟩
  · exact .cons _ (.swap ..)
  · exact .cons (sameItem ..) (.cons (sameItem ..) (.cons (sameItem ..) .nil))
  · exact .trans (.cons _ (.swap ..)) (.swap ..)
  · exact .cons (sameItem ..) (.cons (sameItem ..) (.cons (.item (.mac ⟨rfl, rfl, fun _ _ => rfl⟩ .nil) .nil) .nil))

theorem marked {name id s : Str} {l : Nat} (h : MarkedBy (item name id l) s) : s = name := by
  obtain ⟨o, ho, -, hj⟩ := h
  rw [List.mem_singleton.1 ho] at hj
  cases hj; rfl

theorem marked_broken {s : Str} {l : Nat} (h : MarkedBy (broken l) s) : s = c!"h" := by
  obtain ⟨o, ho, -, hj⟩ := h
  rw [List.mem_singleton.1 ho] at hj
  cases hj; rfl

/-- The second pair meets the hypotheses of `C135_items_partial`. -/
theorem own : OwnNames three := by
  refine .cons ?_ (.cons ?_ (.cons (by simp) .nil))
  · intro g hg id h1 h2
    rw [marked h1] at h2
    simp only [List.mem_cons, List.not_mem_nil, or_false] at hg
    rcases hg with rfl | rfl
    · exact absurd (marked_broken h2) (by decide)
    · exact absurd (marked h2) (by decide)
  · intro g hg id h1 h2
    rw [marked_broken h1] at h2
    simp only [List.mem_cons, List.not_mem_nil, or_false] at hg
    subst hg
    exact absurd (marked h2) (by decide)

def found (t : Str) : Option (List (Str × List Str) × Nat) :=
  (Rs.parse syn ⟨t, none⟩ c!"a.rs").toOption.map fun x => (x.1.map (fun r => (r.id, r.covers.map (·.id))), x.2.length)

theorem all_found : found c!"1" = some ([(c!"f", [c!"A", c!"B"]), (c!"g", [c!"C"])], 0) ∧
    found c!"2" = some ([(c!"f", [c!"A"]), (c!"g", [c!"C"]), (c!"f", [c!"B"])], 0) ∧
    found c!"3" = some ([(c!"f", [c!"A"]), (c!"g", [c!"C"])], 1) ∧ found c!"4" = some ([(c!"g", [c!"C"]), (c!"f", [c!"A"])], 1) := by
  refine ⟨?_, ?_, ?_, ?_⟩ <;> decide +kernel

/-- The first pair meets the hypotheses of `C135_marks_partial`, not those of `C135_items_partial`. -/
example : ∃ rs rs' es es', Rs.parse syn ⟨c!"1", none⟩ c!"a.rs" = .ok (rs, es) ∧
    Rs.parse syn ⟨c!"2", none⟩ c!"a.rs" = .ok (rs', es') ∧ rs.length = 2 ∧ rs'.length = 3 ∧
    (rs.flatMap namedBy).Perm (rs'.flatMap namedBy) := by
  obtain ⟨h1, h2, -⟩ := all_found
  unfold found at h1 h2
  cases e1 : Rs.parse ItemsExample.syn ⟨c!"1", none⟩ c!"a.rs" with
  | error e => rw [e1] at h1; cases h1
  | ok x =>
    cases e2 : Rs.parse ItemsExample.syn ⟨c!"2", none⟩ c!"a.rs" with
    | error e => rw [e2] at h2; cases h2
    | ok y =>
      rw [e1] at h1
      rw [e2] at h2
      have h1 := congrArg (fun z => (z.map (fun v : List (Str × List Str) × Nat => v.1.length)).getD 0) h1
      have h2 := congrArg (fun z => (z.map (fun v : List (Str × List Str) × Nat => v.1.length)).getD 0) h2
      simp only [Except.toOption, Option.map_some, Option.getD_some, List.length_map] at h1 h2
      exact ⟨_, _, _, _, rfl, rfl, h1, h2, (C135_marks_partial _ _ _ _ _ _ _ rfl rfl reordered.1 e1 e2).1⟩

end ItemsExample

open ItemsExample in
/-- C135 is false as listed: two items of the same name are one requirement if they stand together and two if they do not. -/
theorem C135_false : ¬ C135_statement := by
  intro h
  obtain ⟨h1, h2, -⟩ := all_found
  unfold found at h1 h2
  cases e1 : Rs.parse ItemsExample.syn ⟨c!"1", none⟩ c!"a.rs" with
  | error e => rw [e1] at h1; cases h1
  | ok x =>
    cases e2 : Rs.parse ItemsExample.syn ⟨c!"2", none⟩ c!"a.rs" with
    | error e => rw [e2] at h2; cases h2
    | ok y =>
      rw [e1] at h1
      rw [e2] at h2
      obtain ⟨hp, -⟩ := h _ _ _ c!"a.rs" _ _ _ _ _ _ rfl rfl reordered.1 e1 e2
      have h1 := congrArg (fun z => (z.map (fun v : List (Str × List Str) × Nat => v.1.length)).getD 0) h1
      have h2 := congrArg (fun z => (z.map (fun v : List (Str × List Str) × Nat => v.1.length)).getD 0) h2
      simp only [Except.toOption, Option.map_some, Option.getD_some, List.length_map] at h1 h2
      have := hp.length_eq
      simp only [List.length_map] at this
      rw [h1, h2] at this
      exact absurd this (by decide)

end Reqtrace
