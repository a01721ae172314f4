import Verif.Spec.MonoReq

/-!
# Parents of paths

`Trail` (in `Verif.Spec.MonoReq`) is what a path may end with without a change of its meaning: `/` and `/.`.
-/

namespace Reqtrace.Spec

/-- `q` is what precedes the last component of a path, `d` is all before that component. -/
inductive Up : Str → Str → Prop
  | nothing : Up [] []
  | root {d} : d ≠ [] → Trail d → Up d c!"/"
  | dir {q t} : Trail t → t ≠ [] → q ≠ [] → q.getLast? ≠ some '/' → (∀ u, q ≠ u ++ c!"/.") → Up (q ++ t) q

/-- The parent of a path: what precedes its last component.  Empty components do not count, components `.` only at the
start. -/
inductive Parent : Path → Path → Prop
  | intro {d name trail q} : name ≠ [] → '/' ∉ name → (name = c!"." → d = []) → (d = [] ∨ d.getLast? = some '/') →
      Trail trail → Up d q → Parent (d ++ name ++ trail) q

/-- A path and its parents, the outermost first; the empty path does not count. -/
inductive Parents : Path → List Path → Prop
  | empty : Parents [] []
  | root {p} : p ≠ [] → (∀ q, ¬ Parent p q) → Parents p [p]
  | step {p q l} : Parent p q → Parents q l → Parents p (l ++ [p])

end Reqtrace.Spec
