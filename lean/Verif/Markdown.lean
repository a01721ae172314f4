import Verif.Models
import Verif.Regex

/-!
# `src/parsers/markdown.rs`: the Markdown parser
-/

namespace Reqtrace

/-- A reader (`io::BufRead`): the text it delivers, and the text of the error that ends the reading,
if it does not end with the end of the file. -/
structure Source where
  text : Str
  failure : Option Str
  deriving DecidableEq, Repr

namespace Md

/-- `markdown.rs:16` `HEADING_LINE`: `^(#+)` -/
def headingRe : Re := .bol ⬝ .grp 1 (.plus true (.chr '#'))

/-- `markdown.rs:17-18` `REQUIREMENT_LINE`:
`^(#+)\s*(\p{XID_Start}\p{XID_Continue}+):\s*(.+?)\s*$` -/
def requirementRe (U : Unicode) : Re :=
  .bol ⬝ .grp 1 (.plus true (.chr '#')) ⬝ .star true .ws ⬝
    .grp 2 (.cls U.xidStart ⬝ .plus true (.cls U.xidContinue)) ⬝ .chr ':' ⬝ .star true .ws ⬝
    .grp 3 (.plus false .dot) ⬝ .star true .ws ⬝ .eol

/-- `markdown.rs:19` `ATTRIBUTE_LINE`: `^([A-Z][a-z]+):\s*(.*)\s*$` -/
def attributeRe : Re :=
  .bol ⬝ .grp 1 (.cls Char.isUpper ⬝ .plus true (.cls Char.isLower)) ⬝ .chr ':' ⬝ .star true .ws ⬝
    .grp 2 (.star true .dot) ⬝ .star true .ws ⬝ .eol

/-- `markdown.rs:20-21` `REF_LINK_LINE`:
`^*\s+(\p{XID_Start}\p{XID_Continue}+)(?::\s*(.+?))?\s*$` -/
def refLinkRe (U : Unicode) : Re :=
  .star true .bol ⬝ .plus true .ws ⬝
    .grp 1 (.cls U.xidStart ⬝ .plus true (.cls U.xidContinue)) ⬝
    .opt (.chr ':' ⬝ .star true .ws ⬝ .grp 2 (.plus false .dot)) ⬝ .star true .ws ⬝ .eol

/-- `markdown.rs:25` -/
def attrCovers : Str := c!"Covers"
/-- `markdown.rs:26` -/
def attrDepends : Str := c!"Depends"
/-- `markdown.rs:27` -/
def attrDescription : Str := c!"Description"

/-- `markdown.rs:29-37` -/
structure Context where
  errors : List Error
  requirements : List Requirement
  reqUnderConstruction : Option Requirement
  path : Path
  lineNumber : Nat
  level : Nat
  deriving DecidableEq

/-- `markdown.rs:40-42` -/
def Context.location (c : Context) : Location := .newWithLineNo c.path c.lineNumber

/-- `self.errors.push(err)` -/
def Context.push (c : Context) (err : Error) : Context := { c with errors := c.errors ++ [err] }

/-- `markdown.rs:45-52` -/
inductive Event where
  | eof
  | req (c : Captures)
  | heading
  | line (l : Str)
  | empty

/-- `markdown.rs:54-63` -/
inductive State where
  | lookForReq
  | lookForDesc
  | collectDesc (desc : Str)
  | collectDescNl (desc : Str)
  | lookForAttr
  | collectTextAttr (attr val : Str)
  | collectRefLink (attr : Str) (vec : List Reference)
  deriving DecidableEq

/-- `markdown.rs:300-302` `context.req_under_construction.as_mut().unwrap()` (also `as_ref`) -/
def Context.req (c : Context) : PanicM Requirement := orPanic .mdNoReq c.reqUnderConstruction

/-- `markdown.rs:298-305` -/
def commitAttr (c : Context) (attr val : Str) : PanicM Context := do
  let r ← c.req
  let r := { r with attributes := r.attributes.insert attr val }
  return { c with reqUnderConstruction := some r }

/-- `markdown.rs:307-315` -/
def commitLinkAttr (c : Context) (attr : Str) (vec : List Reference) : PanicM Context :=
  if attr = attrCovers then do
    let r ← c.req
    return { c with reqUnderConstruction := some { r with covers := vec } }
  else if attr = attrDepends then do
    let r ← c.req
    return { c with reqUnderConstruction := some { r with depends := vec } }
  else .error .mdLinkAttr

/-- `markdown.rs:317-321` -/
def maybeCommitReq (c : Context) : Context :=
  match c.reqUnderConstruction with
  | some r => { c with requirements := c.requirements ++ [r], reqUnderConstruction := none }
  | none => c

/-- `markdown.rs:323-341` -/
def addReq (c : Context) (reqLine : Captures) : PanicM (State × Context) := do
  let c := maybeCommitReq c
  let hashes ← reqLine.idx 1
  let id ← reqLine.idx 2
  let title ← reqLine.idx 3
  let c := { c with level := hashes.length }
  let r : Requirement :=
    { id := id, title := some (trim title), location := c.location, covers := [], depends := [],
      tags := [], attributes := .empty }
  return (.lookForDesc, { c with reqUnderConstruction := some r })

/-- `markdown.rs:405-420`; the loop over the pieces is a `filterMap` -/
def parseLinkAttr (c : Context) (attr shortList : Str) : State :=
  .collectRefLink attr ((splitOnChar ',' (trim shortList)).filterMap (fun id =>
    let id := trim id
    if id ≠ [] then some { id := id, title := none, location := c.location } else none))

/-- `markdown.rs:343-403` -/
def startAttribute (c : Context) (attrLine : Captures) : PanicM (State × Context) := do
  let attr ← attrLine.idx 1
  let firstLine ← attrLine.idx 2
  if attr = attrCovers then
    let r ← c.req
    let c := if r.covers ≠ [] then c.push (.duplicateAttribute c.location attr r.id) else c
    return (parseLinkAttr c attr firstLine, c)
  else if attr = attrDepends then
    let r ← c.req
    let c := if r.depends ≠ [] then c.push (.duplicateAttribute c.location attr r.id) else c
    return (parseLinkAttr c attr firstLine, c)
  else
    let r ← c.req
    let c := if r.attributes.contains attr then
      c.push (.duplicateAttribute c.location attr r.id) else c
    return (.collectTextAttr attr firstLine, c)

/-- `markdown.rs:129-151` -/
def parseStateEmpty (state : State) (c : Context) : PanicM (State × Context) :=
  match state with
  | .lookForReq => return (state, c)
  | .lookForDesc => return (state, c)
  | .collectDesc desc => return (.collectDescNl (desc ++ ['\n']), c)
  | .collectDescNl desc => return (.collectDescNl (desc ++ ['\n']), c)
  | .lookForAttr => return (state, c)
  | .collectTextAttr attr val => return (.collectTextAttr attr (val ++ ['\n']), c)
  | .collectRefLink attr vec => do
    let c ← commitLinkAttr c attr vec
    return (.lookForAttr, c)

/-- `markdown.rs:153-224` -/
def parseStateLine (U : Unicode) (state : State) (line : Str) (c : Context) :
    PanicM (State × Context) :=
  match state with
  | .lookForReq => return (state, c)
  | .lookForDesc =>
    match attributeRe.captures line with
    | some attrLine => startAttribute c attrLine
    | none => return (.collectDesc line, c)
  | .collectDesc desc => return (.collectDesc (desc ++ line), c)
  | .collectDescNl desc =>
    match attributeRe.captures line with
    | some attrLine => do
      let c ← commitAttr c attrDescription desc
      startAttribute c attrLine
    | none => return (.collectDesc desc, c)
  | .lookForAttr =>
    match attributeRe.captures line with
    | some attrLine => startAttribute c attrLine
    | none => return (.lookForReq,
        c.push (.format c.location c!"Expected an Attribute line like `Comment:`"))
  | .collectTextAttr attr val =>
    match attributeRe.captures line with
    | some attrLine => do
      let c ← commitAttr c attr val
      startAttribute c attrLine
    | none => return (.collectTextAttr attr (val ++ line), c)
  | .collectRefLink attr vec =>
    match (refLinkRe U).captures line with
    | some refLink => do
      let id ← refLink.idx 1
      return (.collectRefLink attr (vec ++
        [{ id := id, title := refLink.get 2, location := c.location }]), c)
    | none =>
      if trim line = [] then do
        let c ← commitLinkAttr c attr vec
        return (.lookForAttr, c)
      else do
        let c ← commitLinkAttr c attr vec
        return (.lookForReq,
          c.push (.format c.location c!"Expected a Reference like `* REQ_ID: Title`"))

/-- `markdown.rs:226-253` -/
def parseStateEof (state : State) (c : Context) : PanicM (State × Context) := do
  let c ← match state with
    | .lookForReq => pure c
    | .lookForDesc => pure (maybeCommitReq c)
    | .collectDesc desc => maybeCommitReq <$> commitAttr c attrDescription desc
    | .collectDescNl desc => maybeCommitReq <$> commitAttr c attrDescription desc
    | .lookForAttr => pure (maybeCommitReq c)
    | .collectTextAttr attr val => maybeCommitReq <$> commitAttr c attr val
    | .collectRefLink attr vec => maybeCommitReq <$> commitLinkAttr c attr vec
  return (.lookForReq, c)

/-- `markdown.rs:255-277` -/
def parseStateHeading (state : State) (c : Context) : PanicM (State × Context) := do
  let c ← match state with
    | .lookForReq => pure c
    | .lookForDesc => pure c
    | .collectDesc desc => commitAttr c attrDescription desc
    | .collectDescNl desc => commitAttr c attrDescription desc
    | .lookForAttr => pure c
    | .collectTextAttr attr val => commitAttr c attr val
    | .collectRefLink attr vec => commitLinkAttr c attr vec
  return (.lookForReq, c)

/-- `markdown.rs:279-296` -/
def parseStateReq (state : State) (c : Context) (reqLine : Captures) : PanicM (State × Context) := do
  let c ← match state with
    | .collectDesc desc => commitAttr c attrDescription desc
    | .collectDescNl desc => commitAttr c attrDescription desc
    | .collectTextAttr attr val => commitAttr c attr val
    | .collectRefLink attr vec => commitLinkAttr c attr vec
    | _ => pure c
  addReq c reqLine

/-- `markdown.rs:119-127` -/
def parseStates (U : Unicode) (state : State) (c : Context) : Event → PanicM (State × Context)
  | .req reqLine => parseStateReq state c reqLine
  | .heading => parseStateHeading state c
  | .eof => parseStateEof state c
  | .line l => parseStateLine U state l c
  | .empty => parseStateEmpty state c

/-- Number of bytes of the text in UTF-8, the value that `read_line` returns. -/
def utf8Len (s : Str) : Nat := (s.map Char.utf8Size).sum

/-- `markdown.rs:90-106`: the event for a line; `line.length` is never 0 here -/
def lineEvent (U : Unicode) (line : Str) : PanicM Event :=
  if utf8Len line = 1 then
    if line.head? = some '\n' then return .empty else .error .mdAssert
  else match (requirementRe U).captures line with
    | some r => return .req r
    | none => if headingRe.isMatch line then return .heading else return .line line

/-- `markdown.rs:77-114`: the loop, with the lines that `read_line` delivers -/
def parseLoop (U : Unicode) (failure : Option Str) : List Str → State → Context → PanicM Context
  | [], state, c => do
    let c := { c with lineNumber := c.lineNumber + 1 }
    match failure with
    | some e => return c.push (.io c.path e)
    | none => do
      let (_, c) ← parseStates U state c .eof
      return c
  | line :: lines, state, c => do
    let c := { c with lineNumber := c.lineNumber + 1 }
    let evt ← lineEvent U line
    let (state, c) ← parseStates U state c evt
    parseLoop U failure lines state c

/-- `markdown.rs:66-73` -/
def Context.init (path : Path) : Context :=
  { path := path, errors := [], requirements := [], reqUnderConstruction := none, lineNumber := 0,
    level := 0 }

/-- `markdown.rs:65-117` -/
def parse (U : Unicode) (src : Source) (path : Path) : PanicM (List Requirement × List Error) := do
  let c ← parseLoop U src.failure (splitLines src.text) .lookForReq (.init path)
  return (c.requirements, c.errors)

end Md

end Reqtrace
