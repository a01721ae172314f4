import Verif.Location
import Verif.MonoReq

/-!
# Expressions whose classes agree on the characters of a text have the same matches
-/

namespace Reqtrace

/-- The expressions are the same but for classes that differ at most outside of `P`. -/
inductive Re.Agree (P : Char → Prop) : Re → Re → Prop
  | cls {p q} : (∀ c, P c → p c = q c) → Re.Agree P (.cls p) (.cls q)
  | bol : Re.Agree P .bol .bol
  | eol : Re.Agree P .eol .eol
  | cat {a b a' b'} : Re.Agree P a a' → Re.Agree P b b' → Re.Agree P (.cat a b) (.cat a' b')
  | star {g a a'} : Re.Agree P a a' → Re.Agree P (.star g a) (.star g a')
  | opt {a a'} : Re.Agree P a a' → Re.Agree P (.opt a) (.opt a')
  | grp {n a a'} : Re.Agree P a a' → Re.Agree P (.grp n a) (.grp n a')

theorem Re.Agree.refl (P : Char → Prop) : ∀ r : Re, Re.Agree P r r
  | .cls _ => .cls fun _ _ => rfl
  | .bol => .bol
  | .eol => .eol
  | .cat a b => .cat (refl P a) (refl P b)
  | .star _ a => .star (refl P a)
  | .opt a => .opt (refl P a)
  | .grp _ a => .grp (refl P a)

theorem starRun_agree {α : Type} {P : Char → Prop} {f f' : MState → (MState → Option α) → Option α}
    (hf : ∀ s k k', (∀ c ∈ s.rest, P c) → (∀ s' : MState, (∀ c ∈ s'.rest, P c) → k s' = k' s') → f s k = f' s k') (g : Bool) :
    ∀ (n : Nat) (s : MState) (k k' : MState → Option α), (∀ c ∈ s.rest, P c) →
      (∀ s' : MState, (∀ c ∈ s'.rest, P c) → k s' = k' s') → starRun f g n s k = starRun f' g n s k'
  | 0, s, _, _, hs, hk => hk s hs
  | n + 1, s, k, k', hs, hk => by
    have : f s (fun s' => if s'.rest.length < s.rest.length then starRun f g n s' k else none) =
        f' s (fun s' => if s'.rest.length < s.rest.length then starRun f' g n s' k' else none) :=
      hf _ _ _ hs fun s' hs' => by
        split
        · exact starRun_agree hf g n s' k k' hs' hk
        · rfl
    simp only [starRun, this, hk s hs]

theorem Re.Agree.run {P : Char → Prop} {r r' : Re} (h : Re.Agree P r r') {α : Type} :
    ∀ (s : MState) (k k' : MState → Option α), (∀ c ∈ s.rest, P c) →
      (∀ s' : MState, (∀ c ∈ s'.rest, P c) → k s' = k' s') → r.run s k = r'.run s k' := by
  induction h with
  | cls hp =>
    intro s k k' hs hk
    simp only [Re.run]
    cases hr : s.rest with
    | nil => rfl
    | cons c t =>
      rw [hr] at hs
      simp only [hp c (hs c List.mem_cons_self)]
      split
      · exact hk _ fun d hd => hs d (List.mem_cons_of_mem _ hd)
      · rfl
  | bol => intro s k k' hs hk; simp only [Re.run, hk s hs]
  | eol => intro s k k' hs hk; simp only [Re.run, hk s hs]
  | cat _ _ ih1 ih2 => intro s k k' hs hk; exact ih1 _ _ _ hs fun s' hs' => ih2 _ _ _ hs' hk
  | star _ ih => intro s k k' hs hk; exact starRun_agree ih _ _ _ _ _ hs hk
  | opt _ ih => intro s k k' hs hk; simp only [Re.run, ih _ _ _ hs hk, hk s hs]
  | grp _ ih => intro s k k' hs hk; exact ih _ _ _ hs fun s' hs' => hk _ hs'

theorem Re.Agree.searchFrom {P : Char → Prop} {r r' : Re} (h : Re.Agree P r r') : ∀ (b : Bool) (text : Str), (∀ c ∈ text, P c) →
    Reqtrace.searchFrom r b text = Reqtrace.searchFrom r' b text
  | _, [], ht => h.run _ _ _ ht fun _ _ => rfl
  | b, c :: t, ht => by
    simp only [Reqtrace.searchFrom]
    have h1 : r.run ⟨b, c :: t, []⟩ (fun s => some (⟨s.caps⟩ : Captures)) = r'.run ⟨b, c :: t, []⟩ (fun s => some ⟨s.caps⟩) :=
      h.run _ _ _ ht fun _ _ => rfl
    rw [h1, h.searchFrom false t fun d hd => ht d (List.mem_cons_of_mem _ hd)]

theorem Re.Agree.captures {P : Char → Prop} {r r' : Re} (h : Re.Agree P r r') {text : Str} (ht : ∀ c ∈ text, P c) :
    r.captures text = r'.captures text := h.searchFrom true text ht

theorem splitLines_flatten : ∀ text : Str, (splitLines text).flatten = text
  | [] => rfl
  | c :: t => by
    have ih := splitLines_flatten t
    simp only [splitLines]
    split
    · simp [ih]
    · cases hs : splitLines t with
      | nil => rw [hs] at ih; simp [← ih]
      | cons l ls => rw [hs] at ih; simp [← ih]

theorem splitLines_mem {text l : Str} (h : l ∈ splitLines text) {c : Char} (hc : c ∈ l) : c ∈ text := by
  rw [← splitLines_flatten text]
  exact List.mem_flatten.2 ⟨l, h, hc⟩

end Reqtrace
