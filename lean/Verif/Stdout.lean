import Verif.Controller

/-!
# What arrives at the other end of the standard output

`controller.rs:321-325` writes to `io::stdout()`, which the standard library buffers by lines: `write_all` hands on
everything up to the last line feed and reports a failure of that, the rest stays in the buffer.
`main.rs:136-138` ends the process with `std::process::exit`, which writes the rest and ignores failures, as does the
return from `main` after a panic.  If the file descriptor is closed, the standard library reports success for every
write.

That the rest is also written when it does not fit into the buffer is left out; it may be lost in the model then.
-/

namespace Reqtrace

/-- What the operating system decides about the standard output without the program seeing it. -/
structure Pipe where
  /-- the file descriptor is closed -/
  closed : Bool
  /-- how many of the last bytes the flush at exit fails to write -/
  lost : World → Nat

namespace Pipe

/-- What is in the line buffer after these bytes were written without failure -/
def buffered (written : Bytes) : Bytes := (written.reverse.takeWhile (· ≠ 10)).reverse

/-- What arrives if these bytes were written and the process ends in that state -/
def arrives (p : Pipe) (w : World) (written : Bytes) : Bytes :=
  if p.closed then []
  else written.take (written.length - min (p.lost w) (buffered written).length)

end Pipe

namespace Main

/-- `main.rs:136-138`: the exit code, and the state in which the standard output is what has arrived; what was there
before has. -/
def process (env : Env) (pipe : Pipe) (opt : Arguments) (w : World) : Nat × World :=
  let (code, w') := main env opt w
  (code, { w' with stdout := w.stdout ++ pipe.arrives w' (w'.stdout.drop w.stdout.length) })

end Main

end Reqtrace
