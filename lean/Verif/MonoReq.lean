import Verif.Markdown
import Verif.Path

/-!
# `src/parsers/monoreq.rs`
-/

namespace Reqtrace

/-- What `BufRead::lines` makes of a line: without its line feed and a carriage return before it. -/
def chopLine (l : Str) : Str :=
  if l.getLast? = some '\n' then
    if l.dropLast.getLast? = some '\r' then l.dropLast.dropLast else l.dropLast
  else l

/-- `BufRead::lines` -/
def bufLines (text : Str) : List Str := (splitLines text).map chopLine

namespace MonoReq

/-- `monoreq.rs:15-16` `REF_LINK_LINE`: `=>\s*(\p{XID_Start}\p{XID_Continue}+)(?::\s*(.+?))?\s*$` -/
def refLinkRe (U : Unicode) : Re :=
  .chr '=' ⬝ .chr '>' ⬝ .star true .ws ⬝
    .grp 1 (.cls U.xidStart ⬝ .plus true (.cls U.xidContinue)) ⬝
    .opt (.chr ':' ⬝ .star true .ws ⬝ .grp 2 (.plus false .dot)) ⬝ .star true .ws ⬝ .eol

/-- `monoreq.rs:26-47`, the loop over the lines; `no` is the index of the first, `title` and `depends`
the variables of that name -/
def loop (U : Unicode) (path : Path) : Nat → List Str → Option Str → List Reference →
    PanicM (Option Str × List Reference)
  | _, [], title, depends => .ok (title, depends)
  | no, line :: ls, none, depends => loop U path (no + 1) ls (some line) depends
  | no, line :: ls, some title, depends =>
    match (refLinkRe U).captures line with
    | some refLink => do
      let id ← refLink.idx 1
      loop U path (no + 1) ls (some title)
        (depends ++ [⟨id, refLink.get 2, .newWithLineNo path (no + 1)⟩])
    | none => loop U path (no + 1) ls (some title) depends

/-- `monoreq.rs:49-62`: the id, and the error if the path has no stem -/
def idOf (path : Path) : RequirementId × List Error :=
  match fileStem path with
  | some stem => (stem, [])
  | none => (c!"README", [.config (c!"file for 'MonoReq' parser `" ++ path ++ c!" has no stem")])

/-- `monoreq.rs:19-76` `parse`; a read error is the `todo!()` of line 45 -/
def parse (U : Unicode) (src : Source) (path : Path) : PanicM (List Requirement × List Error) := do
  let (title, depends) ← loop U path 0 (bufLines src.text) none []
  if src.failure.isSome then throw .monoRead
  let (id, errors) := idOf path
  return ([{ id, title, location := .newWithNoPos path, depends, covers := [], tags := [],
             attributes := .empty }], errors)

end MonoReq

end Reqtrace
